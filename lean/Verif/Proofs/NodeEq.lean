import Verif.Model.Tlv

/-!
# Decidable equality of nodes (used for concrete examples only)
-/

namespace Pemv

mutual
/-- Equality of nodes. -/
def RawEmvNode.decEq : (a b : RawEmvNode) → Decidable (a = b)
  | .mk t c, .mk t' c' =>
    if h : t = t' then
      match RawEmvNode.decEqList c c' with
      | isTrue h' => isTrue (by rw [h, h'])
      | isFalse h' => isFalse (fun e => h' (by cases e; rfl))
    else isFalse (fun e => h (by cases e; rfl))
/-- Equality of lists of nodes. -/
def RawEmvNode.decEqList : (a b : List RawEmvNode) → Decidable (a = b)
  | [], [] => isTrue rfl
  | [], _ :: _ => isFalse (fun e => by cases e)
  | _ :: _, [] => isFalse (fun e => by cases e)
  | a :: as, b :: bs =>
    match RawEmvNode.decEq a b with
    | isTrue h =>
      match RawEmvNode.decEqList as bs with
      | isTrue h' => isTrue (by rw [h, h'])
      | isFalse h' => isFalse (fun e => h' (by cases e; rfl))
    | isFalse h => isFalse (fun e => h (by cases e; rfl))
end

instance : DecidableEq RawEmvNode := RawEmvNode.decEq

end Pemv
