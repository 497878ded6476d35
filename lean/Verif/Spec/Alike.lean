import Verif.Spec.Run

/-!
# Specification of when two values mean the same
-/

namespace Pemv.Spec

/-- What a rule of a CVM List tells: the method and the condition if they are listed, and whether to go on if the method
does not succeed. -/
def rulePart (p : Byte × Byte) : Option String × Option String × Nat :=
  (cvmCodes.lookup (bits p.1 6 1), conditionCodes.lookup p.2.toNat, bits p.1 7 7)

/-- What a CVM List tells: the amounts and the rules. -/
def listParts (bs : List Byte) : Nat × Nat × List (Option String × Option String × Nat) :=
  (amountX bs, amountY bs, (pairs (bs.drop 8)).map rulePart)

/-- What CVM Results tell: whether to go on, the method and the condition if they are listed, and the result. -/
def cvmParts (bs : List Byte) : Nat × Option String × Option String × Byte :=
  (bits (bs.getD 0 0) 7 7, cvmCodes.lookup (bits (bs.getD 0 0) 6 1), conditionCodes.lookup (bits (bs.getD 1 0) 8 1), bs.getD 2 0)

/-- Issuer Application Data with the same meaning: all bytes are the same but for unused bits of the card verification
results. -/
def SameIad (a b : List Byte) : Prop :=
  a.take 3 = b.take 3 ∧ Agree cvrItems ((a.drop 3).take 5) ((b.drop 3).take 5) ∧ a.drop 8 = b.drop 8

/-- Values with the same meaning, by the operation that shows them. -/
def SameMeaning : Operation → List Byte → List Byte → Prop
  | .tvr, a, b => Agree tvrItems a b
  | .ccdCvr, a, b => Agree cvrItems a b
  | .tsi, a, b => Agree tsiItems a b
  | .ccdIad, a, b => SameIad a b
  | .cvmResults, a, b => cvmParts a = cvmParts b
  | .cvmList, a, b => listParts a = listParts b
  | _, a, b => a = b

end Pemv.Spec
