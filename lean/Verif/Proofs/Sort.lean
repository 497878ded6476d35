import Verif.Spec.Sort
import Verif.Proofs.Util

/-! # Lemmas about sorting -/

namespace Pemv

open Spec

/-! ### The order -/

theorem bytesLe_iff (a b : List Byte) : bytesLe a b = true ↔ LexLe a b := by
  induction a generalizing b with
  | nil => simp [bytesLe, LexLe]
  | cons x a ih =>
    cases b with
    | nil =>
      simp only [bytesLe, LexLe, Bool.false_eq_true, false_iff, not_or, not_exists]
      refine ⟨by simp, ?_⟩
      rintro pre u v ra rb ⟨-, h, -⟩
      simp at h
    | cons y b =>
      rw [bytesLe]
      by_cases h1 : x < y
      · rw [if_pos h1]
        simp only [true_iff]
        exact Or.inr ⟨[], x, y, a, b, rfl, rfl, UInt8.lt_iff_toNat_lt.1 h1⟩
      · rw [if_neg h1]
        by_cases h2 : y < x
        · rw [if_pos h2]
          simp only [Bool.false_eq_true, false_iff]
          have h2' := UInt8.lt_iff_toNat_lt.1 h2
          rintro (h | ⟨pre, u, v, ra, rb, e1, e2, hlt⟩)
          · rw [List.cons_prefix_cons] at h
            rw [h.1] at h2'; omega
          · cases pre with
            | nil => cases e1; cases e2; omega
            | cons p pre => cases e1; cases e2; omega
        · rw [if_neg h2, ih]
          have hxy : x = y := by
            rw [← UInt8.toNat_inj]
            rw [UInt8.lt_iff_toNat_lt] at h1 h2
            omega
          subst hxy
          constructor
          · rintro (h | ⟨pre, u, v, ra, rb, rfl, rfl, hlt⟩)
            · exact Or.inl (List.cons_prefix_cons.2 ⟨rfl, h⟩)
            · exact Or.inr ⟨x :: pre, u, v, ra, rb, rfl, rfl, hlt⟩
          · rintro (h | ⟨pre, u, v, ra, rb, e1, e2, hlt⟩)
            · exact Or.inl (List.cons_prefix_cons.1 h).2
            · cases pre with
              | nil => cases e1; cases e2; omega
              | cons p pre => cases e1; cases e2; exact Or.inr ⟨pre, u, v, ra, rb, rfl, rfl, hlt⟩

theorem bytesLe_refl (a : List Byte) : bytesLe a a = true := by
  induction a with
  | nil => rfl
  | cons x a ih => rw [bytesLe, if_neg (UInt8.lt_irrefl x), if_neg (UInt8.lt_irrefl x), ih]

theorem bytesLe_total (a b : List Byte) (h : ¬ bytesLe a b = true) : bytesLe b a = true := by
  induction a generalizing b with
  | nil => exact absurd rfl h
  | cons x a ih =>
    cases b with
    | nil => rfl
    | cons y b =>
      rw [bytesLe] at h ⊢
      by_cases h1 : x < y
      · rw [if_pos h1] at h; exact absurd rfl h
      · rw [if_neg h1] at h
        by_cases h2 : y < x
        · rw [if_pos h2]
        · rw [if_neg h2] at h
          rw [if_neg h2, if_neg h1]
          exact ih b h

theorem bytesLe_trans (a b c : List Byte) (h1 : bytesLe a b = true) (h2 : bytesLe b c = true) :
    bytesLe a c = true := by
  induction a generalizing b c with
  | nil => rfl
  | cons x a ih =>
    cases b with
    | nil => cases h1
    | cons y b =>
      cases c with
      | nil => cases h2
      | cons z c =>
        rw [bytesLe] at h1 h2 ⊢
        simp only [UInt8.lt_iff_toNat_lt] at h1 h2 ⊢
        by_cases g1 : x.toNat < y.toNat
        · by_cases g2 : y.toNat < z.toNat
          · rw [if_pos (by omega)]
          · rw [if_neg g2] at h2
            by_cases g3 : z.toNat < y.toNat
            · rw [if_pos g3] at h2; cases h2
            · rw [if_pos (by omega)]
        · rw [if_neg g1] at h1
          by_cases g4 : y.toNat < x.toNat
          · rw [if_pos g4] at h1; cases h1
          · rw [if_neg g4] at h1
            by_cases g2 : y.toNat < z.toNat
            · rw [if_pos (by omega)]
            · rw [if_neg g2] at h2
              by_cases g3 : z.toNat < y.toNat
              · rw [if_pos g3] at h2; cases h2
              · rw [if_neg g3] at h2
                rw [if_neg (by omega), if_neg (by omega)]
                exact ih b c h1 h2

theorem bytesLe_antisymm (a b : List Byte) (h1 : bytesLe a b = true) (h2 : bytesLe b a = true) : a = b := by
  induction a generalizing b with
  | nil => cases b with
    | nil => rfl
    | cons => cases h2
  | cons x a ih =>
    cases b with
    | nil => cases h1
    | cons y b =>
      rw [bytesLe] at h1 h2
      simp only [UInt8.lt_iff_toNat_lt] at h1 h2
      by_cases g1 : x.toNat < y.toNat
      · rw [if_neg (by omega), if_pos g1] at h2; cases h2
      · rw [if_neg g1] at h1
        by_cases g2 : y.toNat < x.toNat
        · rw [if_pos g2] at h1; cases h1
        · rw [if_neg g2] at h1
          rw [if_neg g2, if_neg g1] at h2
          rw [ih b h1 h2, UInt8.toNat_inj.1 (by omega : x.toNat = y.toNat)]

theorem key_eq (n : ProcessedEmvNode) : n.key = tagOf n := by
  obtain ⟨t, c⟩ := n
  cases t <;> rfl

/-! ### One level -/

theorem insertNode_perm (n : ProcessedEmvNode) (b : ProcessedEmvBlock) : (insertNode n b).Perm (n :: b) := by
  induction b with
  | nil => exact List.Perm.refl _
  | cons x xs ih =>
    rw [insertNode]
    split
    · exact List.Perm.refl _
    · exact (List.Perm.cons x ih).trans (List.Perm.swap n x xs)

theorem stableSort_perm (b : ProcessedEmvBlock) : (stableSort b).Perm b := by
  induction b with
  | nil => exact List.Perm.refl _
  | cons x xs ih => exact (insertNode_perm x _).trans (List.Perm.cons x ih)

theorem insertNode_ascending (n : ProcessedEmvNode) (b : ProcessedEmvBlock) (h : Ascending b) :
    Ascending (insertNode n b) := by
  induction b with
  | nil => simp [insertNode, Ascending]
  | cons x xs ih =>
    rw [Ascending, List.pairwise_cons] at h
    rw [insertNode]
    split
    · next hle =>
      rw [key_eq, key_eq] at hle
      refine List.pairwise_cons.2 ⟨?_, List.pairwise_cons.2 h⟩
      intro y hy
      rcases List.mem_cons.1 hy with rfl | hy
      · exact (bytesLe_iff _ _).1 hle
      · exact (bytesLe_iff _ _).1 (bytesLe_trans _ _ _ hle ((bytesLe_iff _ _).2 (h.1 y hy)))
    · next hle =>
      rw [key_eq, key_eq] at hle
      refine List.pairwise_cons.2 ⟨?_, ih h.2⟩
      intro y hy
      rcases List.mem_cons.1 ((insertNode_perm n xs).subset hy) with rfl | hy
      · exact (bytesLe_iff _ _).1 (bytesLe_total _ _ hle)
      · exact h.1 y hy

theorem stableSort_ascending (b : ProcessedEmvBlock) : Ascending (stableSort b) := by
  induction b with
  | nil => exact List.Pairwise.nil
  | cons x xs ih => exact insertNode_ascending x _ ih

theorem withTag_cons (k : List Byte) (n : ProcessedEmvNode) (l : List ProcessedEmvNode) :
    withTag k (n :: l) = if tagOf n = k then n :: withTag k l else withTag k l := by
  rw [withTag, List.filter_cons]
  simp only [decide_eq_true_eq]
  rfl

theorem insertNode_withTag (k : List Byte) (n : ProcessedEmvNode) (b : ProcessedEmvBlock) :
    withTag k (insertNode n b) = withTag k (n :: b) := by
  induction b with
  | nil => rfl
  | cons x xs ih =>
    rw [insertNode]
    split
    · rfl
    · next hle =>
      have hne : tagOf x ≠ tagOf n := by
        intro he
        rw [key_eq, key_eq, he] at hle
        exact hle (bytesLe_refl _)
      rw [withTag_cons, ih, withTag_cons, withTag_cons, withTag_cons]
      by_cases h1 : tagOf x = k
      · by_cases h2 : tagOf n = k
        · exact absurd (h1.trans h2.symm) hne
        · simp [h1, h2]
      · by_cases h2 : tagOf n = k
        · simp [h1, h2]
        · simp [h1, h2]

theorem stableSort_withTag (k : List Byte) (b : ProcessedEmvBlock) :
    withTag k (stableSort b) = withTag k b := by
  induction b with
  | nil => rfl
  | cons x xs ih =>
    rw [stableSort, insertNode_withTag, withTag_cons, withTag_cons, ih]

theorem stableSort_spec (b : ProcessedEmvBlock) : IsStableSort b (stableSort b) :=
  ⟨stableSort_perm b, stableSort_ascending b, fun k => stableSort_withTag k b⟩

theorem mem_of_withTag {x : ProcessedEmvNode} {b b' : List ProcessedEmvNode}
    (h : ∀ k, withTag k b = withTag k b') (hx : x ∈ b) : x ∈ b' := by
  have : x ∈ withTag (tagOf x) b := List.mem_filter.2 ⟨hx, by simp⟩
  rw [h] at this
  exact (List.mem_filter.1 this).1

/-- A level is determined by being ascending and by its nodes of each tag. -/
theorem ascending_unique (a b : List ProcessedEmvNode) (ha : Ascending a) (hb : Ascending b)
    (h : ∀ k, withTag k a = withTag k b) : a = b := by
  induction a generalizing b with
  | nil =>
    cases b with
    | nil => rfl
    | cons y b => exact absurd (mem_of_withTag (fun k => (h k).symm) (List.mem_cons_self ..)) (by simp)
  | cons x a ih =>
    cases b with
    | nil => exact absurd (mem_of_withTag h (List.mem_cons_self ..)) (by simp)
    | cons y b =>
      rw [Ascending, List.pairwise_cons] at ha hb
      have h1 : bytesLe (tagOf y) (tagOf x) = true := by
        rcases List.mem_cons.1 (mem_of_withTag h (List.mem_cons_self ..)) with rfl | hx
        · exact bytesLe_refl _
        · exact (bytesLe_iff _ _).2 (hb.1 x hx)
      have h2 : bytesLe (tagOf x) (tagOf y) = true := by
        rcases List.mem_cons.1 (mem_of_withTag (fun k => (h k).symm) (List.mem_cons_self ..)) with rfl | hy
        · exact bytesLe_refl _
        · exact (bytesLe_iff _ _).2 (ha.1 y hy)
      have hk := bytesLe_antisymm _ _ h2 h1
      have hxy : x = y := by
        have := h (tagOf x)
        rw [withTag, withTag, List.filter_cons, List.filter_cons, if_pos (by simp), if_pos (by simp [hk])] at this
        exact (List.cons.inj this).1
      subst hxy
      congr 1
      refine ih b ha.2 hb.2 (fun k => ?_)
      have := h k
      rw [withTag, withTag, List.filter_cons, List.filter_cons] at this
      split at this
      · exact (List.cons.inj this).2
      · exact this

/-- Any two stable sorts of the same level agree (so `Vec::sort` is `stableSort`). -/
theorem stable_sort_unique (b c c' : List ProcessedEmvNode) (h : IsStableSort b c) (h' : IsStableSort b c') :
    c = c' :=
  ascending_unique c c' h.ascending h'.ascending (fun k => (h.stable k).trans (h'.stable k).symm)

theorem stableSort_idem (b : ProcessedEmvBlock) (h : Ascending b) : stableSort b = b :=
  ascending_unique _ _ (stableSort_ascending b) h (fun k => stableSort_withTag k b)

/-! ### All levels -/

theorem sortEach_eq (b : ProcessedEmvBlock) : sortEach b = b.map sortNode := by
  induction b with
  | nil => simp [sortEach]
  | cons n ns ih => rw [sortEach, ih]; rfl

theorem tagOf_sortNode (n : ProcessedEmvNode) : tagOf (sortNode n) = tagOf n := by
  obtain ⟨t, c⟩ := n
  rw [sortNode]; rfl

theorem sortNode_mk (t : ProcessedEmvTag) (c : ProcessedEmvBlock) :
    sortNode (.mk t c) = .mk t (sortNodes c) := by rw [sortNode, sortNodes]

theorem withTag_map (k : List Byte) (f : ProcessedEmvNode → ProcessedEmvNode) (hf : ∀ n, tagOf (f n) = tagOf n)
    (b : List ProcessedEmvNode) : withTag k (b.map f) = (withTag k b).map f := by
  induction b with
  | nil => rfl
  | cons n ns ih =>
    rw [withTag, withTag] at *
    rw [List.map_cons, List.filter_cons, List.filter_cons, hf, ih]
    split <;> simp

theorem ascending_map (f : ProcessedEmvNode → ProcessedEmvNode) (hf : ∀ n, tagOf (f n) = tagOf n)
    (b : List ProcessedEmvNode) (h : Ascending b) : Ascending (b.map f) := by
  rw [Ascending, List.pairwise_map]
  simp only [hf]
  exact h

/-- Sorting first and then the children, as the code does, is the same. -/
theorem sortNodes_eq (b : ProcessedEmvBlock) : sortNodes b = (stableSort b).map sortNode := by
  rw [sortNodes, sortEach_eq]
  refine ascending_unique _ _ (stableSort_ascending _)
    (ascending_map _ tagOf_sortNode _ (stableSort_ascending _)) (fun k => ?_)
  rw [stableSort_withTag, withTag_map k _ tagOf_sortNode, withTag_map k _ tagOf_sortNode, stableSort_withTag]

theorem allAscending_iff (b : List ProcessedEmvNode) : allAscending b ↔ ∀ n ∈ b, nodeAscending n := by
  induction b with
  | nil => simp [allAscending]
  | cons n ns ih => simp [allAscending, ih]

mutual
theorem sortNode_ascending : ∀ n : ProcessedEmvNode, nodeAscending (sortNode n)
  | .mk t c => by
    have ih := sortEach_ascending c
    rw [sortNode, nodeAscending]
    refine ⟨stableSort_ascending _, ?_⟩
    rw [allAscending_iff] at ih ⊢
    intro n hn
    exact ih n ((stableSort_perm _).subset hn)
theorem sortEach_ascending : ∀ b : List ProcessedEmvNode, allAscending (sortEach b)
  | [] => by simp [sortEach, allAscending]
  | n :: ns => by
    rw [sortEach, allAscending]
    exact ⟨sortNode_ascending n, sortEach_ascending ns⟩
end

mutual
theorem sortNode_idem : ∀ n : ProcessedEmvNode, nodeAscending n → sortNode n = n
  | .mk t c, h => by
    rw [nodeAscending] at h
    rw [sortNode, sortEach_idem c h.2, stableSort_idem c h.1]
theorem sortEach_idem : ∀ b : List ProcessedEmvNode, allAscending b → sortEach b = b
  | [], _ => by rw [sortEach]
  | n :: ns, h => by
    rw [allAscending] at h
    rw [sortEach, sortNode_idem n h.1, sortEach_idem ns h.2]
end

theorem blockProcessed_flatMap (b : List ProcessedEmvNode) : blockProcessed b = b.flatMap nodeProcessed := by
  induction b with
  | nil => simp [blockProcessed]
  | cons n ns ih => rw [blockProcessed, ih]; rfl

theorem blockProcessed_perm {b b' : List ProcessedEmvNode} (h : b.Perm b') :
    (blockProcessed b).Perm (blockProcessed b') := by
  rw [blockProcessed_flatMap, blockProcessed_flatMap]
  exact h.flatMap_right _

mutual
theorem sortNode_processed : ∀ n : ProcessedEmvNode, (nodeProcessed (sortNode n)).Perm (nodeProcessed n)
  | .mk t c => by
    rw [sortNode, nodeProcessed, nodeProcessed]
    exact List.Perm.cons t ((blockProcessed_perm (stableSort_perm _)).trans (sortEach_processed c))
theorem sortEach_processed : ∀ b : List ProcessedEmvNode, (blockProcessed (sortEach b)).Perm (blockProcessed b)
  | [] => by rw [sortEach]
  | n :: ns => by
    rw [sortEach, blockProcessed, blockProcessed]
    exact (sortNode_processed n).append (sortEach_processed ns)
end

/-! ### Rearranged blocks -/

theorem rearranged_tags {b b' : List ProcessedEmvNode} (h : Rearranged b b') :
    (b.map tagOf).Perm (b'.map tagOf) := by
  induction h with
  | nil => exact List.Perm.refl _
  | cons t hc hb _ ih => exact List.Perm.cons _ ih
  | swap x y b => exact List.Perm.swap _ _ _
  | trans _ _ ih1 ih2 => exact ih1.trans ih2

theorem rearranged_mem {b b' : List ProcessedEmvNode} (h : Rearranged b b') (x : ProcessedEmvNode)
    (hx : x ∈ b') : ∃ y ∈ b, tagOf y = tagOf x := by
  have := (rearranged_tags h).symm.subset (List.mem_map_of_mem (f := tagOf) hx)
  obtain ⟨y, hy, he⟩ := List.mem_map.1 this
  exact ⟨y, hy, he⟩

theorem rearranged_distinct {b b' : List ProcessedEmvNode} (h : Rearranged b b') (hd : blockDistinct b) :
    blockDistinct b' := by
  induction h with
  | nil => exact hd
  | cons t hc hb ih1 ih2 =>
    rw [blockDistinct, nodeDistinct] at hd ⊢
    refine ⟨?_, ih1 hd.2.1, ih2 hd.2.2⟩
    intro x hx
    obtain ⟨y, hy, he⟩ := rearranged_mem hb x hx
    have := hd.1 y hy
    rw [he] at this
    exact this
  | swap x y b =>
    simp only [blockDistinct] at hd ⊢
    obtain ⟨h1, h2, h3, h4, h5⟩ := hd
    refine ⟨?_, h4, ⟨fun z hz => h1 z (by simp [hz]), h2, h5⟩⟩
    intro z hz
    rcases List.mem_cons.1 hz with rfl | hz
    · exact (h1 y (by simp)).symm
    · exact h3 z hz
  | trans _ _ ih1 ih2 => exact ih2 (ih1 hd)

theorem insertNode_comm (x y : ProcessedEmvNode) (b : ProcessedEmvBlock) (hb : Ascending b)
    (h : tagOf x ≠ tagOf y) : insertNode x (insertNode y b) = insertNode y (insertNode x b) := by
  refine ascending_unique _ _ (insertNode_ascending _ _ (insertNode_ascending _ _ hb))
    (insertNode_ascending _ _ (insertNode_ascending _ _ hb)) (fun k => ?_)
  rw [insertNode_withTag, insertNode_withTag, withTag_cons, withTag_cons, insertNode_withTag,
    insertNode_withTag, withTag_cons, withTag_cons]
  by_cases h1 : tagOf x = k
  · by_cases h2 : tagOf y = k
    · exact absurd (h1.trans h2.symm) h
    · simp [h1, h2]
  · by_cases h2 : tagOf y = k <;> simp [h1, h2]

theorem rearranged_sort {b b' : List ProcessedEmvNode} (h : Rearranged b b') (hd : blockDistinct b) :
    sortNodes b = sortNodes b' := by
  induction h with
  | nil => rfl
  | cons t hc hb ih1 ih2 =>
    rw [blockDistinct, nodeDistinct] at hd
    have e1 := ih1 hd.2.1
    have e2 := ih2 hd.2.2
    rw [sortNodes] at e2 ⊢
    rw [sortNodes] at e2 ⊢
    rw [sortEach, sortEach, stableSort, stableSort, e2, sortNode_mk, sortNode_mk, e1]
  | swap x y b =>
    rw [sortNodes, sortNodes, sortEach, sortEach, sortEach, sortEach]
    rw [stableSort, stableSort, stableSort, stableSort]
    simp only [blockDistinct] at hd
    exact insertNode_comm _ _ _ (stableSort_ascending _)
      (by rw [tagOf_sortNode, tagOf_sortNode]; exact (hd.1 y (by simp)).symm)
  | trans h1 _ ih1 ih2 => exact (ih1 hd).trans (ih2 (rearranged_distinct h1 hd))

end Pemv
