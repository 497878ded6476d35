import Verif.Spec.Process

/-!
# Specification of sorting
-/

namespace Pemv.Spec

/-- Byte-lexicographic order: a prefix comes first, otherwise the first difference decides. -/
def LexLe (a b : List Byte) : Prop :=
  a <+: b ∨ ∃ pre x y ra rb, a = pre ++ x :: ra ∧ b = pre ++ y :: rb ∧ x.toNat < y.toNat

/-- The tag bytes a node is ordered by. -/
def tagOf : ProcessedEmvNode → List Byte
  | .mk t _ => (rawOf t).tag

/-- A level in ascending order of tags. -/
def Ascending (b : List ProcessedEmvNode) : Prop := b.Pairwise (fun x y => LexLe (tagOf x) (tagOf y))

/-- The nodes with a given tag, in their order. -/
def withTag (k : List Byte) (b : List ProcessedEmvNode) : List ProcessedEmvNode :=
  b.filter (fun n => decide (tagOf n = k))

/-- `b'` is a stable sort of `b`. -/
structure IsStableSort (b b' : List ProcessedEmvNode) : Prop where
  perm : b'.Perm b
  ascending : Ascending b'
  stable : ∀ k, withTag k b' = withTag k b

mutual
/-- Every level below a node is ascending. -/
def nodeAscending : ProcessedEmvNode → Prop
  | .mk _ c => Ascending c ∧ allAscending c
/-- Every level below the nodes of a list is ascending. -/
def allAscending : List ProcessedEmvNode → Prop
  | [] => True
  | n :: ns => nodeAscending n ∧ allAscending ns
end

mutual
/-- At every level below a node the tags are distinct. -/
def nodeDistinct : ProcessedEmvNode → Prop
  | .mk _ c => blockDistinct c
/-- At every level of a block the tags are distinct. -/
def blockDistinct : List ProcessedEmvNode → Prop
  | [] => True
  | n :: ns => (∀ x ∈ ns, tagOf x ≠ tagOf n) ∧ nodeDistinct n ∧ blockDistinct ns
end

/-- Blocks that differ only in the order of the nodes at each level. -/
inductive Rearranged : List ProcessedEmvNode → List ProcessedEmvNode → Prop
  | nil : Rearranged [] []
  | cons (t : ProcessedEmvTag) {c c' b b' : List ProcessedEmvNode} (hc : Rearranged c c')
      (hb : Rearranged b b') : Rearranged (.mk t c :: b) (.mk t c' :: b')
  | swap (x y : ProcessedEmvNode) (b : List ProcessedEmvNode) : Rearranged (x :: y :: b) (y :: x :: b)
  | trans {a b c : List ProcessedEmvNode} (h1 : Rearranged a b) (h2 : Rearranged b c) : Rearranged a c

end Pemv.Spec
