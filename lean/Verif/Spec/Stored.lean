import Verif.Spec.Ber

/-!
# How much is kept of what was read (C18)
-/

namespace Pemv.Spec

mutual
/-- Bytes kept for a node: its tag, its value, and what is kept for the objects in it. -/
def nodeStored : RawEmvNode → Nat
  | .mk t c => t.tag.length + (match t.data with | .normal v => v.length | .masked => 0) + blockStored c
/-- Bytes kept for a block. -/
def blockStored : List RawEmvNode → Nat
  | [] => 0
  | n :: ns => nodeStored n + blockStored ns
end

end Pemv.Spec
