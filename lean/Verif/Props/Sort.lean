import Verif.Proofs.Sort

/-!
# C38, C39: sorting
-/

namespace Pemv

open Spec

/-! ### C38 -/

/-- **C38.** After sorting, every level is in ascending order of tags. -/
theorem c38_ascending (b : ProcessedEmvBlock) : Ascending (sortNodes b) ∧ allAscending (sortNodes b) := by
  refine ⟨stableSort_ascending _, ?_⟩
  have := sortEach_ascending b
  rw [allAscending_iff] at this ⊢
  intro n hn
  exact this n ((stableSort_perm _).subset hn)

/-- **C38.** The level is a stable sort of the original nodes, each with its own children sorted. -/
theorem c38_level (b : ProcessedEmvBlock) : ∃ f : ProcessedEmvNode → ProcessedEmvNode,
    (∀ t c, f (.mk t c) = .mk t (sortNodes c)) ∧ IsStableSort (b.map f) (sortNodes b) := by
  refine ⟨sortNode, sortNode_mk, ?_⟩
  rw [sortNodes, sortEach_eq]
  exact stableSort_spec _

/-- **C38.** No tag is lost, added or changed, at any level. -/
theorem c38_tags (b : ProcessedEmvBlock) : (blockProcessed (sortNodes b)).Perm (blockProcessed b) :=
  (blockProcessed_perm (stableSort_perm _)).trans (sortEach_processed b)

/-- **C38.** Sorting a sorted block changes nothing, in particular not when sorting twice. -/
theorem c38_sorted (b : ProcessedEmvBlock) (h : Ascending b) (h' : allAscending b) : sortNodes b = b := by
  rw [sortNodes, sortEach_idem b h', stableSort_idem b h]

example := c38_sorted [.mk (.raw ⟨[0x57], .application, .primitive, .normal [1]⟩) [],
  .mk (.raw ⟨[0x9F, 0x02], .contextSpecific, .primitive, .normal [2]⟩) []]
  (List.pairwise_pair.2 (Or.inr ⟨[], 0x57, 0x9F, [], [0x02], rfl, rfl, by decide⟩)) (by simp [allAscending, nodeAscending, Ascending])

/-- **C38.** Sorting is idempotent. -/
theorem c38_idempotent (b : ProcessedEmvBlock) : sortNodes (sortNodes b) = sortNodes b :=
  c38_sorted _ (c38_ascending b).1 (c38_ascending b).2

/-- Two levels, with a repeated tag and a tag that is a prefix of another. -/
example : (sortNodes [
      .mk (.raw ⟨[0x9F, 0x02], .contextSpecific, .primitive, .normal [1]⟩) [],
      .mk (.raw ⟨[0x70], .application, .constructed, .normal []⟩) [
        .mk (.raw ⟨[0x9B], .contextSpecific, .primitive, .normal []⟩) [],
        .mk (.raw ⟨[0x57], .application, .primitive, .normal []⟩) []],
      .mk (.raw ⟨[0x9F], .contextSpecific, .primitive, .normal [3]⟩) [],
      .mk (.raw ⟨[0x9F, 0x02], .contextSpecific, .primitive, .normal [2]⟩) []]).map
        (fun n => (n.tag.rawTag.tag, n.tag.rawTag.data, n.childBlock.map (fun m => m.tag.rawTag.tag))) =
    [([0x70], .normal [], [[0x57], [0x9B]]), ([0x9F], .normal [3], []), ([0x9F, 0x02], .normal [1], []),
      ([0x9F, 0x02], .normal [2], [])] := by decide +kernel

/-! ### C39 -/

/-- **C39.** Every stable sorting algorithm gives the same level. -/
theorem c39_algorithm (b c : ProcessedEmvBlock) :
    IsStableSort b c ↔ c = stableSort b := by
  constructor
  · intro h; exact stable_sort_unique b _ _ h (stableSort_spec b)
  · rintro rfl; exact stableSort_spec b

/-- **C39.** Sorting the list before or after the children of its nodes is the same. -/
theorem c39_order_of_recursion (b : ProcessedEmvBlock) : ∃ f : ProcessedEmvNode → ProcessedEmvNode,
    (∀ t c, f (.mk t c) = .mk t (sortNodes c)) ∧ sortNodes b = (stableSort b).map f :=
  ⟨sortNode, sortNode_mk, sortNodes_eq b⟩

/-- **C39.** Blocks whose levels are rearrangements of each other, with distinct tags at each level, sort to
the same block. -/
theorem c39_rearranged (b b' : ProcessedEmvBlock) (h : Rearranged b b') (hd : blockDistinct b) :
    sortNodes b = sortNodes b' := rearranged_sort h hd

example := c39_rearranged [.mk (.raw ⟨[0x57], .application, .primitive, .normal [1]⟩) [],
    .mk (.raw ⟨[0x5A], .application, .primitive, .normal [2]⟩) []]
  [.mk (.raw ⟨[0x5A], .application, .primitive, .normal [2]⟩) [],
    .mk (.raw ⟨[0x57], .application, .primitive, .normal [1]⟩) []]
  (.swap _ _ _) (by simp [blockDistinct, nodeDistinct, tagOf, rawOf])

/-- **C39.** With a repeated tag the order of the input does matter. -/
theorem c39_distinct_needed : ∃ b b' : ProcessedEmvBlock, Rearranged b b' ∧
    (sortNodes b).map (fun n => n.tag.rawTag.data) ≠ (sortNodes b').map (fun n => n.tag.rawTag.data) :=
  ⟨_, _, .swap (.mk (.raw ⟨[0x57], .application, .primitive, .normal [1]⟩) [])
    (.mk (.raw ⟨[0x57], .application, .primitive, .normal [2]⟩) []) [], by decide +kernel⟩

example : blockDistinct [.mk (.raw ⟨[0x57], .application, .primitive, .normal [1]⟩) [],
      .mk (.raw ⟨[0x5A], .application, .primitive, .normal [2]⟩) []] := by
  simp [blockDistinct, nodeDistinct, tagOf, rawOf]

end Pemv
