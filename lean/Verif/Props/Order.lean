import Verif.Proofs.Order
import Verif.Props.Process

/-!
# C85: equality and order of processed data
-/

namespace Pemv

open Spec

/-- **C85.** Equality is an equivalence relation on all blocks, also on those put together by hand. -/
theorem c85_equivalence (x y z : ProcessedEmvBlock) :
    ProcessedEmvBlock.eq x x = true ∧ ProcessedEmvBlock.eq x y = ProcessedEmvBlock.eq y x ∧
    (ProcessedEmvBlock.eq x y = true → ProcessedEmvBlock.eq y z = true → ProcessedEmvBlock.eq x z = true) := by
  refine ⟨(blockEq_iff x x).2 rfl, ?_, fun h1 h2 => ?_⟩
  · rw [Bool.eq_iff_iff, blockEq_iff, blockEq_iff]; exact eq_comm
  · exact (blockEq_iff x z).2 (((blockEq_iff x y).1 h1).trans ((blockEq_iff y z).1 h2))

/-- **C85.** The results of processing two blocks are equal exactly when the blocks are, and then there is no difference
between the results at all: names and decoded values, which the comparison does not look at, agree as well. -/
theorem c85_equality (a b : RawEmvBlock) (x y : ProcessedEmvBlock) (hx : processBlock a = .ok x)
    (hy : processBlock b = .ok y) :
    (ProcessedEmvBlock.eq x y = true ↔ a = b) ∧ (ProcessedEmvBlock.eq x y = true ↔ x = y) := by
  have e : ProcessedEmvBlock.eq x y = true ↔ a = b := by
    rw [blockEq_iff, (c32_lossless a x hx), (c32_lossless b y hy)]
  refine ⟨e, e.trans ⟨?_, ?_⟩⟩
  · rintro rfl
    rw [hx] at hy
    cases hy; rfl
  · rintro rfl
    rw [← c32_lossless a x hx, c32_lossless b x hy]

example : ∃ x y, processBlock [.mk ⟨[0x5A], .application, .primitive, .masked⟩ []] = .ok x ∧
    processBlock [.mk ⟨[0x5A], .application, .primitive, .normal []⟩ []] = .ok y ∧ ProcessedEmvBlock.eq x y = false := by
  have h1 : ∃ x, processBlock [.mk ⟨[0x5A], .application, .primitive, .masked⟩ []] = .ok x := ⟨_, rfl⟩
  have h2 : ∃ y, processBlock [.mk ⟨[0x5A], .application, .primitive, .normal []⟩ []] = .ok y := ⟨_, rfl⟩
  obtain ⟨x, hx⟩ := h1
  obtain ⟨y, hy⟩ := h2
  refine ⟨x, y, hx, hy, Bool.eq_false_iff.2 (fun h => ?_)⟩
  have := (c85_equality _ _ x y hx hy).1.1 h
  cases this

/-- **C85.** Objects are ordered by their tag bytes: before, tied or after, according to the byte-lexicographic order. -/
theorem c85_order (x y : ProcessedEmvNode) :
    (x.cmp y = .lt ↔ LexLe (tagOf x) (tagOf y) ∧ tagOf x ≠ tagOf y) ∧
    (x.cmp y = .eq ↔ tagOf x = tagOf y) ∧
    (x.cmp y = .gt ↔ LexLe (tagOf y) (tagOf x) ∧ tagOf x ≠ tagOf y) ∧
    x.partialCmp y = some (x.cmp y) := by
  refine ⟨?_, ?_, ?_, rfl⟩ <;> rw [cmp_bytes]
  · exact bytesCmp_lt _ _
  · exact bytesCmp_eq _ _
  · exact bytesCmp_gt _ _

/-- **C85.** The order is lawful: exchanging the sides exchanges before and after, and it is transitive. -/
theorem c85_lawful (x y z : ProcessedEmvNode) :
    y.cmp x = (x.cmp y).swap ∧
    (x.cmp y ≠ .gt → y.cmp z ≠ .gt → x.cmp z ≠ .gt) ∧
    (x.cmp y = .eq → x.cmp z = y.cmp z ∧ z.cmp x = z.cmp y) := by
  simp only [cmp_bytes]
  refine ⟨bytesCmp_swap _ _, fun h1 h2 => ?_, fun h => ?_⟩
  · rw [bytesCmp_ne_gt, ← bytesLe_iff] at h1 h2 ⊢
    exact bytesLe_trans _ _ _ h1 h2
  · rw [(bytesCmp_eq _ _).1 h]
    exact ⟨rfl, rfl⟩

/-- **C85.** Equal objects are tied. -/
theorem c85_equal_tied (x y : ProcessedEmvNode) (h : x.eq y = true) : x.cmp y = .eq := by
  rw [cmp_bytes, bytesCmp_eq]
  have h := (nodeEq_iff x y).1 h
  obtain ⟨t, c⟩ := x
  obtain ⟨t', c'⟩ := y
  rw [eraseNode, eraseNode, RawEmvNode.mk.injEq] at h
  rw [tagOf, tagOf, h.1]

example := c85_equal_tied (.mk (.raw ⟨[0x57], .application, .primitive, .normal [1]⟩) [])
  (.mk (.annotated "Track" ⟨[0x57], .application, .primitive, .normal [1]⟩) []) (by decide +kernel)

/-- **C85.** The converse is false, already for two objects in one piece of data: the same tag with two values. -/
theorem c85_tied_unequal : ∃ b x y, berParse .debug64 [0x50, 0x01, 0x41, 0x50, 0x01, 0x42] [] = .ok b ∧
    processBlock b = .ok [x, y] ∧ x.cmp y = .eq ∧ x.eq y = false :=
  ⟨_, _, _, rfl, rfl, by decide +kernel, by decide +kernel⟩

/-- **C85.** Sorting goes by this order: no object comes after one that is before it. -/
theorem c85_sorted (b : ProcessedEmvBlock) : (sortNodes b).Pairwise (fun x y => x.cmp y ≠ .gt) := by
  refine (stableSort_ascending (sortEach b)).imp (fun {x y} h => ?_)
  rw [cmp_bytes, bytesCmp_ne_gt]
  exact h

/-- The comparison does not look at names: by hand one can put together different objects that are equal. -/
example : ProcessedEmvNode.eq (.mk (.raw ⟨[0x57], .application, .primitive, .normal [1]⟩) [])
    (.mk (.annotated "Track" ⟨[0x57], .application, .primitive, .normal [1]⟩) []) = true := by decide +kernel
/-- A prefix comes first. -/
example : ProcessedEmvNode.cmp (.mk (.raw ⟨[0x9F], .contextSpecific, .primitive, .normal [1]⟩) [])
    (.mk (.raw ⟨[0x9F, 0x02], .contextSpecific, .primitive, .normal [1]⟩) []) = .lt := by decide +kernel
/-- The bytes are compared, not the lengths. -/
example : ProcessedEmvNode.cmp (.mk (.raw ⟨[0xA5], .contextSpecific, .constructed, .normal [1]⟩) [])
    (.mk (.raw ⟨[0x9F, 0x02], .contextSpecific, .primitive, .normal [1]⟩) []) = .gt := by decide +kernel
/-- The hypotheses of `c85_equality` are met. -/
example : ∃ b x, berParse .debug64 [0x70, 0x03, 0x50, 0x01, 0x41] [] = .ok b ∧ processBlock b = .ok x ∧
    ProcessedEmvBlock.eq x x = true := ⟨_, _, rfl, rfl, by decide +kernel⟩

end Pemv
