import Verif.Model.Order
import Verif.Proofs.Sort
import Verif.Proofs.Process

/-!
# Equality and order of blocks
-/

namespace Pemv

open Spec

theorem bytesLe_cmp (a b : List Byte) : bytesLe a b = (bytesCmp a b != .gt) := by
  induction a generalizing b with
  | nil => cases b <;> rfl
  | cons x a ih =>
    cases b with
    | nil => rfl
    | cons y b =>
      rw [bytesLe, bytesCmp]
      split
      · rfl
      · split
        · rfl
        · exact ih b

theorem bytesCmp_swap (a b : List Byte) : bytesCmp b a = (bytesCmp a b).swap := by
  induction a generalizing b with
  | nil => cases b <;> rfl
  | cons x a ih =>
    cases b with
    | nil => rfl
    | cons y b =>
      rw [bytesCmp, bytesCmp]
      by_cases h1 : x < y
      · have h2 : ¬ y < x := by
          rw [UInt8.lt_iff_toNat_lt] at h1 ⊢; omega
        rw [if_pos h1, if_neg h2, if_pos h1]; rfl
      · by_cases h2 : y < x
        · simp [h1, h2]
        · rw [if_neg h1, if_neg h2, if_neg h1, if_neg h2, ih b]

theorem bytesCmp_ne_gt (a b : List Byte) : bytesCmp a b ≠ .gt ↔ LexLe a b := by
  rw [← bytesLe_iff, bytesLe_cmp]
  cases bytesCmp a b <;> decide

theorem bytesCmp_ne_lt (a b : List Byte) : bytesCmp a b ≠ .lt ↔ LexLe b a := by
  rw [← bytesCmp_ne_gt, bytesCmp_swap a b]
  cases bytesCmp a b <;> decide

theorem bytesCmp_eq (a b : List Byte) : bytesCmp a b = .eq ↔ a = b := by
  constructor
  · intro h
    apply bytesLe_antisymm
    · rw [bytesLe_cmp, h]; rfl
    · rw [bytesLe_cmp, bytesCmp_swap a b, h]; rfl
  · rintro rfl
    have := bytesCmp_swap a a
    cases h : bytesCmp a a <;> rw [h] at this <;> first | rfl | exact absurd this (by decide)

theorem bytesCmp_lt (a b : List Byte) : bytesCmp a b = .lt ↔ LexLe a b ∧ a ≠ b := by
  rw [← bytesCmp_ne_gt, Ne, Ne, ← bytesCmp_eq]
  cases bytesCmp a b <;> decide

theorem bytesCmp_gt (a b : List Byte) : bytesCmp a b = .gt ↔ LexLe b a ∧ a ≠ b := by
  rw [← bytesCmp_ne_lt, Ne, Ne, ← bytesCmp_eq]
  cases bytesCmp a b <;> decide

theorem cmp_bytes (x y : ProcessedEmvNode) : x.cmp y = bytesCmp (tagOf x) (tagOf y) := by
  rw [← key_eq, ← key_eq]; rfl

theorem rawTag_rawOf (t : ProcessedEmvTag) : t.rawTag = rawOf t := by
  cases t <;> rfl

mutual
theorem nodeEq_iff : ∀ x y : ProcessedEmvNode, x.eq y = true ↔ eraseNode x = eraseNode y
  | .mk t c, .mk t' c' => by
    rw [ProcessedEmvNode.eq, Bool.and_eq_true, blockEq_iff c c', ProcessedEmvTag.eq, decide_eq_true_iff, rawTag_rawOf,
      rawTag_rawOf, eraseNode, eraseNode, RawEmvNode.mk.injEq]
theorem blockEq_iff : ∀ x y : List ProcessedEmvNode, ProcessedEmvBlock.eq x y = true ↔ eraseBlock x = eraseBlock y
  | [], [] => by rw [ProcessedEmvBlock.eq, eraseBlock]; simp
  | [], _ :: _ => by rw [ProcessedEmvBlock.eq, eraseBlock, eraseBlock] <;> simp
  | _ :: _, [] => by rw [ProcessedEmvBlock.eq, eraseBlock, eraseBlock] <;> simp
  | n :: ns, n' :: ns' => by
    rw [ProcessedEmvBlock.eq, Bool.and_eq_true, nodeEq_iff n n', blockEq_iff ns ns', eraseBlock, eraseBlock,
      List.cons.injEq]
end

end Pemv
