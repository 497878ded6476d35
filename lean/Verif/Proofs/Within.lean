import Verif.Proofs.Rearranged
import Verif.Proofs.Nested
import Verif.Props.Ber
import Verif.Spec.Within

/-!
# Lemmas for C96: data objects inside templates
-/

namespace Pemv

open Spec

/-- If one object of a block is replaced by another one with the same tag, the rest is shown as before. -/
theorem lines_replace {sort : Bool} {pre post : List RawEmvNode} {n n' : RawEmvNode}
    (ht : n.tag.tag = n'.tag.tag) {q q' : ProcessedEmvBlock} (h : processBlock (pre ++ n :: post) = .ok q)
    (h' : processBlock (pre ++ n' :: post) = .ok q') :
    ∃ before after, blockLines true (eraseBlock (maybeSort sort q)) =
        before ++ blockLines true (eraseBlock (maybeSort sort [processedOf n])) ++ after ∧
      blockLines true (eraseBlock (maybeSort sort q')) =
        before ++ blockLines true (eraseBlock (maybeSort sort [processedOf n'])) ++ after := by
  have single : ∀ x : ProcessedEmvNode, maybeSort sort [x] = [match sort with | true => sortNode x | false => x] := by
    intro x; cases sort <;> rfl
  have t1 := tagOf_processed h n (by simp)
  have t2 := tagOf_processed h' n' (by simp)
  have e1 := processBlock_map h
  have e2 := processBlock_map h'
  subst e1 e2
  have hd : ∃ a z, ∀ x ∈ [processedOf n, processedOf n'],
      maybeSort sort (pre.map processedOf ++ x :: post.map processedOf) =
        a ++ (match sort with | true => sortNode x | false => x) :: z := by
    cases sort with
    | false => exact ⟨_, _, fun x _ => rfl⟩
    | true =>
      obtain ⟨a, z, h1, h2⟩ := sortNodes_one (t1.trans (ht.trans t2.symm)) (pre.map processedOf) (post.map processedOf)
      refine ⟨a, z, fun x hx => ?_⟩
      rcases List.mem_cons.1 hx with rfl | hx
      · exact h1
      · rw [List.mem_singleton.1 hx]; exact h2
  obtain ⟨a, z, hd⟩ := hd
  have alone : ∀ x : RawEmvNode, blockLines true [x] = nodeLines true x := by
    intro x; rw [blockLines, moreLines, List.append_nil]
  obtain ⟨before, after, hl⟩ := blockLines_one true (eraseBlock a) (eraseBlock z)
  refine ⟨before, after, ?_, ?_⟩
  · rw [List.map_append, List.map_cons, hd _ (by simp), eraseBlock_append, eraseBlock, hl, single, eraseBlock, eraseBlock, alone]
  · rw [List.map_append, List.map_cons, hd _ (by simp), eraseBlock_append, eraseBlock, hl, single, eraseBlock, eraseBlock, alone]

/-- A template whose value is a sequence of objects. -/
theorem nodeOf_template {m : Machine} {masks : List Char} {t : Elem} {l : List Elem} (hc : typeOf t.tag = .constructed)
    (hv : t.value = concat l) (hl : IsBlock l) (hk : ¬ IsMasked (latin1 t.value) masks) (hm : Fits m t.value.length) :
    nodeOf (fun v => berParse m v masks) masks t = .mk ⟨t.tag, classOf t.tag, .constructed, .normal t.value⟩
      (l.map (nodeOf (fun v => berParse m v masks) masks)) := by
  have hb := (c10_language masks _ hm _).2 ⟨l, hv, hl, rfl⟩
  rw [nodeOf, dataOf, if_neg hk, hc, if_pos ⟨rfl, hk⟩]
  simp only [hb]

theorem part_acceptable {a z : List RawEmvNode} {n : RawEmvNode} (h : AllAcceptable (a ++ n :: z)) : AllAcceptable [n] := by
  intro t ht
  refine h t ?_
  rw [blockTags_flatMap] at ht ⊢
  rw [List.flatMap_cons, List.flatMap_nil, List.append_nil] at ht
  exact List.mem_flatMap.2 ⟨n, by simp, ht⟩

theorem inside_acceptable {t : RawEmvTag} {b : List RawEmvNode} (h : AllAcceptable [.mk t b]) : AllAcceptable b := by
  intro x hx
  refine h x ?_
  rw [blockTags_flatMap, List.flatMap_cons, List.flatMap_nil, List.append_nil, nodeTags]
  exact List.mem_cons_of_mem _ hx

theorem process_alone {n : RawEmvNode} (h : AllAcceptable [n]) : processBlock [n] = .ok [processedOf n] := by
  obtain ⟨q, hq⟩ := (c34_ok_iff _).2 h
  have := processBlock_map hq
  subst this
  exact hq

theorem value_fits {m : Machine} {pre post : List Elem} {t : Elem} (hm : Fits m (concat (pre ++ t :: post)).length) :
    Fits m t.value.length := by
  refine fits_mono hm ?_
  rw [concat, List.flatMap_append, List.flatMap_cons, Elem.bytes]
  simp only [List.length_append]
  omega

/-- A template with objects in it, shown alone. -/
theorem template_alone {m : Machine} {masks : List Char} {sort : Bool} {t : Elem} {l : List Elem} {n : RawEmvNode}
    (hc : typeOf t.tag = .constructed) (hne : l ≠ [])
    (hn : n = .mk ⟨t.tag, classOf t.tag, .constructed, .normal t.value⟩ (l.map (nodeOf (fun v => berParse m v masks) masks)))
    (ha : AllAcceptable [n]) :
    ∃ q, processBlock (l.map (nodeOf (fun v => berParse m v masks) masks)) = .ok q ∧
      blockLines true (eraseBlock (maybeSort sort [processedOf n])) =
        templateLines t ++ deeper (blockLines true (eraseBlock (maybeSort sort q))) := by
  have hp := process_alone ha
  rw [hn] at ha
  obtain ⟨q1, hq1⟩ := (c34_ok_iff _).2 (inside_acceptable ha)
  refine ⟨q1, hq1, ?_⟩
  obtain ⟨p, -, hr, hok, -⟩ := template_process ⟨t.tag, classOf t.tag, .constructed, .normal t.value⟩ hc
    (l.map (nodeOf (fun v => berParse m v masks) masks))
  have hq2 := hok q1 hq1
  rw [← hn, hp] at hq2
  rw [Out.ok.inj hq2, maybeSort_single, eraseBlock, eraseNode, hr, eraseBlock, blockLines_template _ _ _ hc, if_neg,
    templateLines]
  · simp
  · intro h0
    have h3 := maybeSort_depth sort q1
    rw [h0, processBlock_erase _ q1 hq1] at h3
    cases l with
    | nil => exact hne rfl
    | cons x xs =>
      rw [List.map_cons] at h3
      generalize nodeOf (fun v => berParse m v masks) masks x = n at h3
      obtain ⟨t, c⟩ := n
      simp only [blockDepth, nodeDepth] at h3
      omega

/-- What is too deep inside a template makes the template too deep. -/
theorem template_deep {m : Machine} {masks : List Char} {t : Elem} {l : List Elem} {e : Elem} {n : RawEmvNode}
    (hc : typeOf t.tag = .constructed)
    (hn : n = .mk ⟨t.tag, classOf t.tag, .constructed, .normal t.value⟩ (l.map (nodeOf (fun v => berParse m v masks) masks)))
    (h : ∀ i, TooDeep i (blockLines true [nodeOf (fun v => berParse m v masks) masks e]) →
      TooDeep i (blockLines true (l.map (nodeOf (fun v => berParse m v masks) masks)))) (i : Nat)
    (hd : TooDeep i (blockLines true [nodeOf (fun v => berParse m v masks) masks e])) : TooDeep i (blockLines true [n]) := by
  obtain ⟨x, hx, k, hk, hge⟩ := h i hd
  rw [hn, blockLines_template _ _ _ hc, if_neg]
  · refine ⟨{ x with indent := x.indent.map (· + 1) }, List.mem_append_right _ (List.mem_cons_of_mem _
      (List.mem_map.2 ⟨x, hx, rfl⟩)), k + 1, by rw [hk]; rfl, by omega⟩
  · intro h0
    rw [h0, blockLines] at hx
    cases hx

/-- One object of a block is at most as deep as the block. -/
theorem part_deep (a z : List RawEmvNode) (n : RawEmvNode) (i : Nat) (hd : TooDeep i (blockLines true [n])) :
    TooDeep i (blockLines true (a ++ n :: z)) := by
  obtain ⟨before, after, hl⟩ := blockLines_one true a z
  rw [hl]
  obtain ⟨x, hx, k⟩ := hd
  refine ⟨x, List.mem_append_left _ (List.mem_append_right _ ?_), k⟩
  rw [blockLines, moreLines, List.append_nil] at hx
  exact hx

theorem within_lines {m : Machine} {masks : List Char} {sort : Bool} {e e' : Elem} (ht : e.tag = e'.tag)
    {path : List (Elem × Elem)} {l l' : List Elem} (hd : Differ masks e e' path l l') :
    ∀ {q q' : ProcessedEmvBlock}, Fits m (concat l).length → Fits m (concat l').length →
      processBlock (l.map (nodeOf (fun v => berParse m v masks) masks)) = .ok q →
      processBlock (l'.map (nodeOf (fun v => berParse m v masks) masks)) = .ok q' →
      ShownBut (blockLines true (eraseBlock (maybeSort sort [processedOf (nodeOf (fun v => berParse m v masks) masks e)])))
        (blockLines true (eraseBlock (maybeSort sort [processedOf (nodeOf (fun v => berParse m v masks) masks e')]))) path
        (blockLines true (eraseBlock (maybeSort sort q))) (blockLines true (eraseBlock (maybeSort sort q'))) := by
  induction hd with
  | here pre post =>
    intro q q' _ _ h h'
    rw [List.map_append, List.map_cons] at h h'
    obtain ⟨before, after, h1, h2⟩ := lines_replace (sort := sort) (n := nodeOf (fun v => berParse m v masks) masks e)
      (n' := nodeOf (fun v => berParse m v masks) masks e') ht h h'
    rw [h1, h2]
    exact .here before after
  | inside pre post t t' l l' path htag hc hv hv' hl hl' hk hk' hin ih =>
    intro q q' hm hm' h h'
    rw [List.map_append, List.map_cons] at h h'
    obtain ⟨before, after, h1, h2⟩ := lines_replace (sort := sort) (n := nodeOf (fun v => berParse m v masks) masks t)
      (n' := nodeOf (fun v => berParse m v masks) masks t') htag h h'
    rw [h1, h2]
    have hne : l ≠ [] ∧ l' ≠ [] := by cases hin <;> simp
    have f1 := value_fits hm
    have f2 := value_fits hm'
    obtain ⟨q1, p1, g1⟩ := template_alone (sort := sort) hc hne.1 (nodeOf_template hc hv hl hk f1)
      (part_acceptable ((c34_ok_iff _).1 ⟨_, h⟩))
    obtain ⟨q2, p2, g2⟩ := template_alone (sort := sort) (htag ▸ hc) hne.2 (nodeOf_template (htag ▸ hc) hv' hl' hk' f2)
      (part_acceptable ((c34_ok_iff _).1 ⟨_, h'⟩))
    rw [g1, g2]
    exact .inside before after t t' _ _ path (ih (hv ▸ f1) (hv' ▸ f2) p1 p2)

/-- What holds for a sequence of objects at some depth. -/
theorem within_alone {m : Machine} {masks : List Char} {e e' : Elem} {path : List (Elem × Elem)} {l l' : List Elem}
    (hd : Differ masks e e' path l l') : Fits m (concat l).length → Fits m (concat l').length →
      (AllAcceptable (l.map (nodeOf (fun v => berParse m v masks) masks)) →
        AllAcceptable [nodeOf (fun v => berParse m v masks) masks e]) ∧
      (AllAcceptable (l'.map (nodeOf (fun v => berParse m v masks) masks)) →
        AllAcceptable [nodeOf (fun v => berParse m v masks) masks e']) ∧
      (∀ i, TooDeep i (blockLines true [nodeOf (fun v => berParse m v masks) masks e]) →
        TooDeep i (blockLines true (l.map (nodeOf (fun v => berParse m v masks) masks)))) ∧
      (∀ i, TooDeep i (blockLines true [nodeOf (fun v => berParse m v masks) masks e']) →
        TooDeep i (blockLines true (l'.map (nodeOf (fun v => berParse m v masks) masks)))) ∧
      e.bytes.length ≤ (concat l).length ∧ e'.bytes.length ≤ (concat l').length := by
  have short : ∀ (a z : List Elem) (x : Elem), x.bytes.length ≤ (concat (a ++ x :: z)).length := by
    intro a z x
    rw [concat, List.flatMap_append, List.flatMap_cons]
    simp only [List.length_append]
    omega
  induction hd with
  | here pre post =>
    intro _ _
    rw [List.map_append, List.map_append, List.map_cons, List.map_cons]
    exact ⟨part_acceptable, part_acceptable, part_deep _ _ _, part_deep _ _ _, short _ _ _, short _ _ _⟩
  | inside pre post t t' l l' path htag hc hv hv' hl hl' hk hk' hin ih =>
    intro hm hm'
    have f1 := value_fits hm
    have f2 := value_fits hm'
    obtain ⟨h1, h2, h3, h4, h5, h6⟩ := ih (hv ▸ f1) (hv' ▸ f2)
    have n1 := nodeOf_template hc hv hl hk f1
    have n2 := nodeOf_template (htag ▸ hc) hv' hl' hk' f2
    have sv : ∀ t : Elem, t.value.length ≤ t.bytes.length := by
      intro t
      rw [Elem.bytes]
      simp only [List.length_append]
      omega
    rw [List.map_append, List.map_append, List.map_cons, List.map_cons]
    refine ⟨fun h => h1 ?_, fun h => h2 ?_, fun i h => part_deep _ _ _ i (template_deep hc n1 h3 i h),
      fun i h => part_deep _ _ _ i (template_deep (htag ▸ hc) n2 h4 i h), ?_, ?_⟩
    · have := part_acceptable h
      rw [n1] at this
      exact inside_acceptable this
    · have := part_acceptable h
      rw [n2] at this
      exact inside_acceptable this
    · have := short pre post t
      have := sv t
      rw [hv] at this
      omega
    · have := short pre post t'
      have := sv t'
      rw [hv'] at this
      omega

/-- An object of a block that is shown is shown alone, too. -/
theorem element_alone {m : Machine} {masks : List Char} {sort : Bool} {e : Elem} {w : Text} {q : ProcessedEmvBlock}
    {b : RawEmvBlock} (he : e.WF) (hz : ¬ e.LongZero) (hb : hexBytes w = e.bytes) (hp : processBlock b = .ok q)
    (hpan : (displayBlock m (maybeSort sort q) 0 true).panicked = false) (hfit : Fits m e.bytes.length)
    (ha : AllAcceptable b → AllAcceptable [nodeOf (fun v => berParse m v masks) masks e])
    (hdeep : TooDeep 0 (blockLines true [nodeOf (fun v => berParse m v masks) masks e]) → TooDeep 0 (blockLines true b)) :
    Succeeds (run m { berTlv := some w } masks sort) (showLines 0
      (blockLines true (eraseBlock (maybeSort sort [processedOf (nodeOf (fun v => berParse m v masks) masks e)])))) := by
  have hq := process_alone (ha ((c34_ok_iff _).1 ⟨_, hp⟩))
  have hparse := (c10_language masks _ (hb ▸ hfit) _).2 ⟨[e], by rw [hb]; simp [concat],
    ⟨fun x hx => by rw [List.mem_singleton.1 hx]; exact he, fun x hx => by cases hx; exact hz⟩, rfl⟩
  refine ber_run hparse hq ((display_sorted m hq sort).2.2 ?_)
  rw [← Bool.not_eq_true, (display_sorted m hq sort).1]
  rintro ⟨hc, hdp⟩
  have := (display_sorted m hp sort).1.2 ⟨hc, hdeep hdp⟩
  rw [this] at hpan
  cases hpan

end Pemv
