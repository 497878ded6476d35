import Verif.Proofs.Breaks
import Verif.Proofs.Deep
import Verif.Proofs.Truncated
import Verif.Props.Process

/-! # Sorting and the lines of the output -/

namespace Pemv

open Spec

/-! ### The lines of a sorted block -/

theorem moreLines_flatMap (c : Bool) : ∀ b : List RawEmvNode,
    moreLines c b = b.flatMap (fun n => (⟨none, plain ['\n']⟩ : Line) :: nodeLines c n)
  | [] => by rw [moreLines]; rfl
  | n :: ns => by rw [moreLines, List.flatMap_cons, moreLines_flatMap c ns]; simp

theorem moreLines_block (c : Bool) (n : RawEmvNode) (ns : List RawEmvNode) :
    moreLines c (n :: ns) = ⟨none, plain ['\n']⟩ :: blockLines c (n :: ns) := by
  rw [moreLines, blockLines]; simp

theorem blockLines_perm {c : Bool} {b b' : List RawEmvNode} (h : (moreLines c b').Perm (moreLines c b)) :
    (blockLines c b').Perm (blockLines c b) := by
  cases b with
  | nil =>
    cases b' with
    | nil => exact .refl _
    | cons n' ns' =>
      rw [moreLines_block, moreLines] at h
      exact absurd h.length_eq (by simp)
  | cons n ns =>
    cases b' with
    | nil =>
      rw [moreLines_block, moreLines] at h
      exact absurd h.length_eq (by simp)
    | cons n' ns' =>
      rw [moreLines_block, moreLines_block, List.perm_cons] at h
      exact h

theorem nodeLines_perm {c : Bool} (t : RawEmvTag) {b b' : List RawEmvNode} (h : (blockLines c b').Perm (blockLines c b))
    (he : b' = [] ↔ b = []) : (nodeLines c (.mk t b')).Perm (nodeLines c (.mk t b)) := by
  cases b with
  | nil => rw [he.2 rfl]
  | cons n ns =>
    cases b' with
    | nil => cases he.1 rfl
    | cons n' ns' =>
      rw [nodeLines, nodeLines]
      refine List.Perm.append (.refl _) ?_
      rw [blockLines, blockLines] at h
      exact (h.map _).cons _

theorem children_nil : ∀ {b b' : List RawEmvNode}, ChildrenInOrder b b' → (b' = [] ↔ b = [])
  | _, _, .nil => Iff.rfl
  | _, _, .cons _ _ _ => by simp

theorem inTagOrder_nil : ∀ {b b' : List RawEmvNode}, InTagOrder b b' → (b' = [] ↔ b = [])
  | _, _, .mk hc hp _ _ => by
    rw [← children_nil hc, ← List.length_eq_zero_iff, ← List.length_eq_zero_iff, hp.length_eq]

mutual
theorem children_moreLines (c : Bool) : ∀ {b b' : List RawEmvNode}, ChildrenInOrder b b' →
    (moreLines c b').Perm (moreLines c b)
  | _, _, .nil => .refl _
  | _, _, .cons t hc hb => by
    rw [moreLines, moreLines]
    exact ((List.Perm.refl _).append (nodeLines_perm t (blockLines_perm (inTagOrder_moreLines c hc)) (inTagOrder_nil hc))).append
      (children_moreLines c hb)
theorem inTagOrder_moreLines (c : Bool) : ∀ {b b' : List RawEmvNode}, InTagOrder b b' →
    (moreLines c b').Perm (moreLines c b)
  | _, _, .mk hc hp _ _ => by
    refine List.Perm.trans ?_ (children_moreLines c hc)
    rw [moreLines_flatMap, moreLines_flatMap]
    exact hp.flatMap_right _
end

theorem arranged_blockLines (c : Bool) {sort : Bool} {b b' : List RawEmvNode} (h : Arranged sort b b') :
    (blockLines c b').Perm (blockLines c b) := by
  cases sort with
  | true => exact blockLines_perm (inTagOrder_moreLines c h)
  | false => rw [show b' = b from h]

theorem blockTags_flatMap : ∀ b : List RawEmvNode, blockTags b = b.flatMap nodeTags
  | [] => by rw [blockTags]; rfl
  | n :: ns => by rw [blockTags, List.flatMap_cons, blockTags_flatMap ns]

/-! ### What is displayed -/

theorem tooDeep_perm {i : Nat} {ls ls' : List Line} (h : ls.Perm ls') : TooDeep i ls ↔ TooDeep i ls' := by
  simp only [TooDeep, h.mem_iff]

/-- Whether a block is shown completely does not depend on sorting; if it is, the lines are the same up to order. -/
theorem display_sorted (m : Machine) {b : RawEmvBlock} {q : ProcessedEmvBlock} (h : processBlock b = .ok q) (sort : Bool) :
    ((displayBlock m (maybeSort sort q) 0 true).panicked = true ↔
      m.overflowChecks = true ∧ TooDeep 0 (blockLines true b)) ∧
    Arranged sort b (eraseBlock (maybeSort sort q)) ∧
    ((displayBlock m (maybeSort sort q) 0 true).panicked = false →
      Shows (displayBlock m (maybeSort sort q) 0 true) (showLines 0 (blockLines true (eraseBlock (maybeSort sort q))))) := by
  have he := processBlock_erase b q h
  have hp := allProcessed_sort sort (allProcessed h)
  have ha : Arranged sort b (eraseBlock (maybeSort sort q)) := by rw [← he]; exact maybeSort_arranged sort q
  have hs := shows_nodes (m := m.unchecked) (colours := true) _ 0 hp (Or.inr rfl)
  refine ⟨?_, ha, ?_⟩
  · cases hm : m.overflowChecks with
    | true =>
      have hx := exact_nodes hm (c := true) _ 0 (by omega) hp
      rw [ExactPanic, tooDeep_perm (arranged_blockLines true ha)] at hx
      rw [displayBlock, hx]
      simp
    | false =>
      have := (shows_nodes (m := m) (colours := true) _ 0 hp (Or.inr hm)).returns
      rw [displayBlock, this]
      simp
  · intro hn
    rcases truncates_nodes m true (maybeSort sort q) true 0 with ht | ⟨ht, -⟩
    · rw [displayBlock, ht]; exact hs
    · rw [displayBlock, ht] at hn; cases hn

/-- What a run on a block does, with and without sorting. -/
theorem outcome_sorted (m : Machine) (x : Out (Option TlvFormat × RawEmvBlock)) :
    (tlvOutcome m true x).stderr = (tlvOutcome m false x).stderr ∧
    (tlvOutcome m true x).help = (tlvOutcome m false x).help ∧
    (tlvOutcome m true x).diverged = (tlvOutcome m false x).diverged ∧
    (tlvOutcome m true x).disp.panicked = (tlvOutcome m false x).disp.panicked ∧
    ((tlvOutcome m true x).disp.panicked = false → ∃ ls ls', ls.Perm ls' ∧ WholeLines ls ∧ WholeLines ls' ∧
      Shows (tlvOutcome m true x).disp (showLines 0 ls) ∧ Shows (tlvOutcome m false x).disp (showLines 0 ls')) := by
  have triv : ∀ r : Run, r.disp = .nil ∨ r.disp = .panic → r.disp.panicked = false → ∃ ls ls' : List Line,
      ls.Perm ls' ∧ WholeLines ls ∧ WholeLines ls' ∧ Shows r.disp (showLines 0 ls) ∧ Shows r.disp (showLines 0 ls') := by
    rintro r (h | h) hn
    · refine ⟨[], [], .refl _, whole_nil, whole_nil, ?_, ?_⟩ <;> rw [h] <;> exact shows_nil
    · rw [h] at hn; cases hn
  cases x with
  | err e => exact ⟨rfl, rfl, rfl, rfl, triv _ (Or.inl rfl)⟩
  | panic => exact ⟨rfl, rfl, rfl, rfl, triv _ (Or.inr rfl)⟩
  | diverge => exact ⟨rfl, rfl, rfl, rfl, triv _ (Or.inl rfl)⟩
  | ok v =>
    obtain ⟨f, b⟩ := v
    cases hq : processBlock b with
    | err e => simp only [tlvOutcome, hq]; exact ⟨trivial, trivial, trivial, trivial, triv ⟨.nil, none, false, false⟩ (Or.inl rfl)⟩
    | panic => simp only [tlvOutcome, hq]; exact ⟨trivial, trivial, trivial, trivial, triv ⟨.panic, none, false, false⟩ (Or.inr rfl)⟩
    | diverge => simp only [tlvOutcome, hq]; exact ⟨trivial, trivial, trivial, trivial, triv ⟨.nil, none, false, false⟩ (Or.inl rfl)⟩
    | ok q =>
      have h1 := display_sorted m hq true
      have h2 := display_sorted m hq false
      have hh := shows_headerLines f
      simp only [tlvOutcome, hq]
      have he : (displayBlock m (maybeSort true q) 0 true).panicked = (displayBlock m (maybeSort false q) 0 true).panicked := by
        rw [Bool.eq_iff_iff, h1.1, h2.1]
      refine ⟨trivial, trivial, trivial, ?_, ?_⟩
      · rw [seq_panicked, seq_panicked, he]
      · intro hn
        rw [seq_panicked, hh.returns, Bool.false_or] at hn
        have hs1 := h1.2.2 hn
        have hs2 := h2.2.2 (he ▸ hn)
        refine ⟨headerLines f ++ blockLines true (eraseBlock (maybeSort true q)),
          headerLines f ++ blockLines true (eraseBlock (maybeSort false q)), ?_,
          (whole_headerLines f).append (whole_blockLines _ _), (whole_headerLines f).append (whole_blockLines _ _), ?_, ?_⟩
        · exact (List.Perm.refl _).append ((arranged_blockLines true h1.2.1).trans (arranged_blockLines true h2.2.1).symm)
        · rw [render_append]; exact hh.seq hs1
        · rw [render_append]; exact hh.seq hs2

/-! ### Blocks that differ in the order of their objects -/

/-- A node that is understood, processed. -/
def processedOf (n : RawEmvNode) : ProcessedEmvNode :=
  match processNode n with
  | .ok x => x
  | _ => .mk (.raw n.tag) []

theorem processBlock_map : ∀ {b : List RawEmvNode} {q : ProcessedEmvBlock}, processBlock b = .ok q →
    q = b.map processedOf
  | [], q, h => by rw [processBlock] at h; cases h; rfl
  | n :: ns, q, h => by
    rw [processBlock] at h
    cases hn : processNode n with
    | ok x =>
      rw [hn] at h
      cases hns : processBlock ns with
      | ok xs =>
        rw [hns] at h
        cases h
        rw [List.map_cons, ← processBlock_map hns, processedOf, hn]
      | _ => rw [hns] at h; cases h
    | _ => rw [hn] at h; cases h

theorem tagOf_processed {b : List RawEmvNode} {q : ProcessedEmvBlock} (h : processBlock b = .ok q) :
    ∀ n ∈ b, tagOf (processedOf n) = n.tag.tag := by
  have he := processBlock_erase b q h
  rw [processBlock_map h] at he
  intro n hn
  have : ∀ l : List RawEmvNode, eraseBlock (l.map processedOf) = l → ∀ n ∈ l, tagOf (processedOf n) = n.tag.tag := by
    intro l
    induction l with
    | nil => intro _ n hn; cases hn
    | cons a l ih =>
      intro hl n hn
      rw [List.map_cons, eraseBlock, List.cons.injEq] at hl
      rcases List.mem_cons.1 hn with rfl | hn
      · have h2 := hl.1
        generalize processedOf n = p at h2 ⊢
        cases p with
        | mk t c => rw [eraseNode] at h2; rw [← h2]; rfl
      · exact ih hl.2 n hn
  exact this b he n hn

theorem sorted_same {b b' : List RawEmvNode} {q q' : ProcessedEmvBlock} (h : processBlock b = .ok q)
    (h' : processBlock b' = .ok q')
    (hf : ∀ k, b.filter (fun n => decide (n.tag.tag = k)) = b'.filter (fun n => decide (n.tag.tag = k))) :
    sortNodes q = sortNodes q' := by
  have key : ∀ {b : List RawEmvNode} {q : ProcessedEmvBlock}, processBlock b = .ok q → ∀ k,
      withTag k q = (b.filter (fun n => decide (n.tag.tag = k))).map processedOf := by
    intro b q h k
    rw [processBlock_map h, withTag, List.filter_map]
    congr 1
    apply List.filter_congr
    intro n hn
    show decide (tagOf (processedOf n) = k) = _
    rw [tagOf_processed h n hn]
  rw [sortNodes_eq, sortNodes_eq]
  congr 1
  refine ascending_unique _ _ (stableSort_ascending _) (stableSort_ascending _) (fun k => ?_)
  rw [(stableSort_spec q).stable, (stableSort_spec q').stable, key h, key h', hf]

/-! ### Blocks that differ in one object -/

theorem insert_one {x y y' : ProcessedEmvNode} (h : tagOf y = tagOf y') (z : List ProcessedEmvNode) :
    ∀ a : List ProcessedEmvNode, ∃ a1 z1, insertNode x (a ++ y :: z) = a1 ++ y :: z1 ∧
      insertNode x (a ++ y' :: z) = a1 ++ y' :: z1
  | [] => by
    rw [List.nil_append, List.nil_append, insertNode, insertNode, key_eq y, key_eq y', h]
    by_cases hc : bytesLe x.key (tagOf y') = true
    · rw [if_pos hc, if_pos hc]
      exact ⟨[x], z, rfl, rfl⟩
    · rw [if_neg hc, if_neg hc]
      exact ⟨[], insertNode x z, rfl, rfl⟩
  | w :: a => by
    rw [List.cons_append, List.cons_append, insertNode, insertNode]
    by_cases hc : bytesLe x.key w.key = true
    · rw [if_pos hc, if_pos hc]
      exact ⟨x :: w :: a, z, rfl, rfl⟩
    · rw [if_neg hc, if_neg hc]
      obtain ⟨a1, z1, h1, h2⟩ := insert_one h z a (x := x)
      exact ⟨w :: a1, z1, by rw [h1]; rfl, by rw [h2]; rfl⟩

theorem insert_either {y y' : ProcessedEmvNode} (h : tagOf y = tagOf y') :
    ∀ l : List ProcessedEmvNode, ∃ a z, insertNode y l = a ++ y :: z ∧ insertNode y' l = a ++ y' :: z
  | [] => ⟨[], [], rfl, rfl⟩
  | w :: l => by
    rw [insertNode, insertNode, key_eq y, key_eq y', h]
    by_cases hc : bytesLe (tagOf y') w.key = true
    · rw [if_pos hc, if_pos hc]
      exact ⟨[], w :: l, rfl, rfl⟩
    · rw [if_neg hc, if_neg hc]
      obtain ⟨a, z, h1, h2⟩ := insert_either h l
      exact ⟨w :: a, z, by rw [h1]; rfl, by rw [h2]; rfl⟩

theorem sort_one {y y' : ProcessedEmvNode} (h : tagOf y = tagOf y') (z : List ProcessedEmvNode) :
    ∀ a : List ProcessedEmvNode, ∃ a1 z1, stableSort (a ++ y :: z) = a1 ++ y :: z1 ∧
      stableSort (a ++ y' :: z) = a1 ++ y' :: z1
  | [] => insert_either h (stableSort z)
  | w :: a => by
    obtain ⟨a1, z1, h1, h2⟩ := sort_one h z a
    rw [List.cons_append, List.cons_append, stableSort, stableSort, h1, h2]
    exact insert_one h z1 a1

theorem sortNodes_one {y y' : ProcessedEmvNode} (h : tagOf y = tagOf y') (a z : List ProcessedEmvNode) :
    ∃ a1 z1, sortNodes (a ++ y :: z) = a1 ++ sortNode y :: z1 ∧ sortNodes (a ++ y' :: z) = a1 ++ sortNode y' :: z1 := by
  obtain ⟨a1, z1, h1, h2⟩ := sort_one h z a
  rw [sortNodes_eq, sortNodes_eq, h1, h2]
  exact ⟨a1.map sortNode, z1.map sortNode, by simp, by simp⟩

theorem eraseBlock_append : ∀ a z : List ProcessedEmvNode, eraseBlock (a ++ z) = eraseBlock a ++ eraseBlock z
  | [], z => by rw [eraseBlock]; rfl
  | n :: a, z => by rw [List.cons_append, eraseBlock, eraseBlock, eraseBlock_append a z]; rfl

/-- The lines of an object among others. -/
theorem blockLines_one (c : Bool) (a z : List RawEmvNode) : ∃ before after, ∀ n,
    blockLines c (a ++ n :: z) = before ++ nodeLines c n ++ after := by
  cases a with
  | nil => exact ⟨[], moreLines c z, fun n => by rw [List.nil_append, blockLines]; rfl⟩
  | cons x a =>
    refine ⟨nodeLines c x ++ moreLines c a ++ [⟨none, plain ['\n']⟩], moreLines c z, fun n => ?_⟩
    rw [List.cons_append, blockLines, moreLines_flatMap, List.flatMap_append, List.flatMap_cons, ← moreLines_flatMap,
      ← moreLines_flatMap]
    simp

/-- A run that succeeds has read and understood a block. -/
theorem outcome_success {m : Machine} {sort : Bool} {x : Out (Option TlvFormat × RawEmvBlock)} {c : Cells}
    (h : Succeeds (tlvOutcome m sort x) c) :
    ∃ f b q, x = .ok (f, b) ∧ processBlock b = .ok q ∧ (displayBlock m (maybeSort sort q) 0 true).panicked = false ∧
      c = showLines 0 (headerLines f) ++ showLines 0 (blockLines true (eraseBlock (maybeSort sort q))) := by
  cases x with
  | err e => cases h.stderr
  | panic => cases h.shows.returns
  | diverge => cases h.terminates
  | ok p =>
    obtain ⟨f, b⟩ := p
    rw [tlvOutcome] at h
    cases hq : processBlock b with
    | err e => rw [hq] at h; cases h.stderr
    | panic => rw [hq] at h; cases h.shows.returns
    | diverge => rw [hq] at h; cases h.terminates
    | ok q =>
      rw [hq] at h
      have hn : (displayBlock m (maybeSort sort q) 0 true).panicked = false := by
        have := h.shows.returns
        rw [seq_panicked, Bool.or_eq_false_iff] at this
        exact this.2
      refine ⟨f, b, q, rfl, hq, hn, ?_⟩
      have h2 := ((shows_headerLines f).seq ((display_sorted m hq sort).2.2 hn)).cells
      rw [← h.shows.cells, h2]

theorem ber_success {m : Machine} {masks : List Char} {sort : Bool} {s : Text} {c : Cells}
    (h : Succeeds (run m { berTlv := some s } masks sort) c) :
    ∃ b q, berParse m (hexBytes s) masks = .ok b ∧ processBlock b = .ok q ∧
      (displayBlock m (maybeSort sort q) 0 true).panicked = false ∧
      c = showLines 0 (blockLines true (eraseBlock (maybeSort sort q))) := by
  have hr : run m { berTlv := some s } masks sort = runOp m masks sort .berTlv s := run_eq ..
  rw [hr, runOp_tlv m masks sort .berTlv (by simp) s, tlvParse, hexBytes_eq] at h
  obtain ⟨f, b, q, h1, h2, h3, h4⟩ := outcome_success h
  cases hb : berParse m (hexBytes s) masks with
  | ok b' => rw [hb] at h1; cases h1; exact ⟨b, q, rfl, h2, h3, h4⟩
  | _ => rw [hb] at h1; cases h1

theorem ing_success {m : Machine} {masks : List Char} {sort : Bool} {s : Text} {c : Cells}
    (h : Succeeds (run m { ingenicoTlv := some s } masks sort) c) :
    ∃ b q, ingParse m s masks = .ok b ∧ processBlock b = .ok q ∧
      (displayBlock m (maybeSort sort q) 0 true).panicked = false ∧
      c = showLines 0 (blockLines true (eraseBlock (maybeSort sort q))) := by
  have hr : run m { ingenicoTlv := some s } masks sort = runOp m masks sort .ingenicoTlv s := run_eq ..
  rw [hr, runOp_tlv m masks sort .ingenicoTlv (by simp) s, tlvParse] at h
  obtain ⟨f, b, q, h1, h2, h3, h4⟩ := outcome_success h
  cases hb : ingParse m s masks with
  | ok b' => rw [hb] at h1; cases h1; exact ⟨b, q, rfl, h2, h3, h4⟩
  | _ => rw [hb] at h1; cases h1

/-- If one object of a block is replaced by another one with the same tag, the rest is shown as before; and each of the
two can be shown alone. -/
theorem block_replace {m : Machine} {sort : Bool} {pre post : List RawEmvNode} {n n' : RawEmvNode}
    (ht : n.tag.tag = n'.tag.tag) {q q' : ProcessedEmvBlock} (h : processBlock (pre ++ n :: post) = .ok q)
    (h' : processBlock (pre ++ n' :: post) = .ok q') (hp : (displayBlock m (maybeSort sort q) 0 true).panicked = false)
    (hp' : (displayBlock m (maybeSort sort q') 0 true).panicked = false) :
    ∃ before own own' after, blockLines true (eraseBlock (maybeSort sort q)) = before ++ own ++ after ∧
      blockLines true (eraseBlock (maybeSort sort q')) = before ++ own' ++ after ∧
      (∃ r, processBlock [n] = .ok r ∧ Shows (displayBlock m (maybeSort sort r) 0 true) (showLines 0 own)) ∧
      (∃ r, processBlock [n'] = .ok r ∧ Shows (displayBlock m (maybeSort sort r) 0 true) (showLines 0 own')) := by
  have one : ∀ {n : RawEmvNode} {q : ProcessedEmvBlock}, processBlock (pre ++ n :: post) = .ok q →
      (displayBlock m (maybeSort sort q) 0 true).panicked = false → processBlock [n] = .ok [processedOf n] ∧
      Shows (displayBlock m (maybeSort sort [processedOf n]) 0 true)
        (showLines 0 (blockLines true (eraseBlock (maybeSort sort [processedOf n])))) := by
    intro n q h hp
    have ha : AllAcceptable [n] := by
      have := (c34_ok_iff _).1 ⟨_, h⟩
      intro t ht
      refine this t ?_
      rw [blockTags_flatMap] at ht ⊢
      rw [List.flatMap_cons, List.flatMap_nil, List.append_nil] at ht
      exact List.mem_flatMap.2 ⟨n, by simp, ht⟩
    obtain ⟨q1, hq1⟩ := (c34_ok_iff _).2 ha
    have hq2 := processBlock_map hq1
    subst hq2
    refine ⟨hq1, (display_sorted m hq1 sort).2.2 ?_⟩
    rw [← Bool.not_eq_true, (display_sorted m hq1 sort).1]
    rintro ⟨hc, hd⟩
    have := (display_sorted m h sort).1.2 ⟨hc, ?_⟩
    · rw [this] at hp; cases hp
    · obtain ⟨before, after, hl⟩ := blockLines_one true pre post
      rw [hl]
      obtain ⟨x, hx, k⟩ := hd
      refine ⟨x, List.mem_append_left _ (List.mem_append_right _ ?_), k⟩
      rw [blockLines, moreLines, List.append_nil] at hx
      exact hx
  have r1 := one h hp
  have r2 := one h' hp'
  have t1 := tagOf_processed h n (by simp)
  have t2 := tagOf_processed h' n' (by simp)
  have e1 := processBlock_map h
  have e2 := processBlock_map h'
  subst e1 e2
  have hd : ∃ a z, ∀ x ∈ [processedOf n, processedOf n'],
      maybeSort sort (pre.map processedOf ++ x :: post.map processedOf) =
        a ++ (match sort with | true => sortNode x | false => x) :: z := by
    cases sort with
    | false => exact ⟨_, _, fun x _ => rfl⟩
    | true =>
      obtain ⟨a, z, h1, h2⟩ := sortNodes_one (t1.trans (ht.trans t2.symm)) (pre.map processedOf) (post.map processedOf)
      refine ⟨a, z, fun x hx => ?_⟩
      rcases List.mem_cons.1 hx with rfl | hx
      · exact h1
      · rw [List.mem_singleton.1 hx]; exact h2
  obtain ⟨a, z, hd⟩ := hd
  have single : ∀ x : ProcessedEmvNode, maybeSort sort [x] = [match sort with | true => sortNode x | false => x] := by
    intro x; cases sort <;> rfl
  have alone : ∀ x : RawEmvNode, blockLines true [x] = nodeLines true x := by
    intro x; rw [blockLines, moreLines, List.append_nil]
  obtain ⟨before, after, hl⟩ := blockLines_one true (eraseBlock a) (eraseBlock z)
  obtain ⟨p1, r1⟩ := r1
  obtain ⟨p2, r2⟩ := r2
  have g1 : showLines 0 (blockLines true (eraseBlock (maybeSort sort [processedOf n]))) =
      showLines 0 (nodeLines true (eraseNode (match sort with | true => sortNode (processedOf n) | false => processedOf n))) := by
    rw [single, eraseBlock, eraseBlock, alone]
  have g2 : showLines 0 (blockLines true (eraseBlock (maybeSort sort [processedOf n']))) =
      showLines 0 (nodeLines true (eraseNode (match sort with | true => sortNode (processedOf n') | false => processedOf n'))) := by
    rw [single, eraseBlock, eraseBlock, alone]
  refine ⟨before, _, _, after, ?_, ?_, ⟨_, p1, g1 ▸ r1⟩, ⟨_, p2, g2 ▸ r2⟩⟩
  · rw [List.map_append, List.map_cons, hd _ (by simp), eraseBlock_append, eraseBlock, hl]
  · rw [List.map_append, List.map_cons, hd _ (by simp), eraseBlock_append, eraseBlock, hl]

theorem ing_run {m : Machine} {masks : List Char} {s : Text} {c : Cells} {b : RawEmvBlock} {q : ProcessedEmvBlock} {sort : Bool}
    (hb : ingParse m s masks = .ok b) (hp : processBlock b = .ok q)
    (hs : Shows (displayBlock m (maybeSort sort q) 0 true) c) : Succeeds (run m { ingenicoTlv := some s } masks sort) c := by
  refine finish_ok (x := (ingParse m s masks >>= processBlock).map (maybeSort sort)) (v := maybeSort sort q) ?_ hs
  rw [hb]
  show (processBlock b).map _ = _
  rw [hp]
  rfl

theorem record_chars {masks : List Char} {s : Text} {rs : List Record} (h : IsIngenico masks s rs) :
    ∀ r ∈ rs, r.WF masks ∧ ∀ c ∈ r.text, c ∈ s := by
  induction h with
  | nil => intro r hr; cases hr
  | last r h => intro x hx; rw [List.mem_singleton.1 hx]; exact ⟨h, fun c hc => hc⟩
  | cons r h sep rest rs hrest ih =>
    intro x hx
    rcases List.mem_cons.1 hx with rfl | hx
    · exact ⟨h, fun c hc => List.mem_append_left _ hc⟩
    · exact ⟨(ih x hx).1, fun c hc => List.mem_append_right _ (List.mem_cons_of_mem _ ((ih x hx).2 c hc))⟩

theorem record_in_text {masks : List Char} {s : Text} {rs : List Record} (h : IsIngenico masks s rs) :
    ∀ r ∈ rs, r.text.length ≤ s.length := by
  induction h with
  | nil => intro r hr; cases hr
  | last r h => intro x hx; rw [List.mem_singleton.1 hx]; exact Nat.le_refl _
  | cons r h sep rest rs hrest ih =>
    intro x hx
    rw [List.length_append, List.length_cons]
    rcases List.mem_cons.1 hx with rfl | hx
    · omega
    · have := ih x hx
      omega

/-- Blocks that differ only in the order of objects with different tags are the same once they are processed and
sorted. -/
theorem same_sorted {b b' : List RawEmvNode}
    (hf : ∀ k, b.filter (fun n => decide (n.tag.tag = k)) = b'.filter (fun n => decide (n.tag.tag = k)))
    (ha : AllAcceptable b) : (processBlock b).map sortNodes = (processBlock b').map sortNodes := by
  have ha' : AllAcceptable b' := by
    intro t ht
    refine ha t ?_
    rw [blockTags_flatMap] at ht ⊢
    obtain ⟨n, hn, ht⟩ := List.mem_flatMap.1 ht
    refine List.mem_flatMap.2 ⟨n, ?_, ht⟩
    have : n ∈ b'.filter (fun x => decide (x.tag.tag = n.tag.tag)) := List.mem_filter.2 ⟨hn, by simp⟩
    rw [← hf] at this
    exact (List.mem_filter.1 this).1
  obtain ⟨q, hq⟩ := (c34_ok_iff _).2 ha
  obtain ⟨q', hq'⟩ := (c34_ok_iff _).2 ha'
  rw [hq, hq']
  show Out.ok (sortNodes q) = Out.ok (sortNodes q')
  rw [sorted_same hq hq' hf]

/-- Whether the values of a block are understood does not depend on their order. -/
theorem rejected_perm {b b' : List RawEmvNode} (hp : b.Perm b') :
    (∃ e, processBlock b = .err e) → ∃ e, processBlock b' = .err e := by
  rintro ⟨e, he⟩
  rcases c34_returns b' with ⟨q, hq⟩ | h
  · exfalso
    have ha := (c34_ok_iff b').1 ⟨q, hq⟩
    obtain ⟨q', hq'⟩ := (c34_ok_iff b).2 (fun t ht => ha t (by
      rw [blockTags_flatMap] at ht ⊢
      exact (hp.flatMap_right nodeTags).mem_iff.1 ht))
    rw [he] at hq'
    cases hq'
  · exact h

theorem finish_rejected {b : RawEmvBlock} {sort : Bool} {display : ProcessedEmvBlock → Disp} {msg : Text}
    (h : Fails (finish .nil ((processBlock b).map (maybeSort sort)) display) msg) : ∃ e, processBlock b = .err e := by
  rcases c34_returns b with ⟨q, hq⟩ | h'
  · rw [hq] at h
    have := h.stderr
    cases this
  · exact h'

/-! ### There is one way to sort -/

/-- A level is determined by being ascending and by its nodes of each tag. -/
theorem ascending_nodes_unique (a b : List RawEmvNode) (ha : a.Pairwise (fun x y => LexLe x.tag.tag y.tag.tag))
    (hb : b.Pairwise (fun x y => LexLe x.tag.tag y.tag.tag))
    (h : ∀ k, a.filter (fun n => decide (n.tag.tag = k)) = b.filter (fun n => decide (n.tag.tag = k))) : a = b := by
  have mem : ∀ {a b : List RawEmvNode}, (∀ k, a.filter (fun n => decide (n.tag.tag = k)) =
      b.filter (fun n => decide (n.tag.tag = k))) → ∀ {n}, n ∈ a → n ∈ b := by
    intro a b h n hn
    have : n ∈ a.filter (fun x => decide (x.tag.tag = n.tag.tag)) := List.mem_filter.2 ⟨hn, by simp⟩
    rw [h] at this
    exact (List.mem_filter.1 this).1
  induction a generalizing b with
  | nil =>
    cases b with
    | nil => rfl
    | cons y b => exact absurd (mem (fun k => (h k).symm) (List.mem_cons_self ..)) (by simp)
  | cons x a ih =>
    cases b with
    | nil => exact absurd (mem h (List.mem_cons_self ..)) (by simp)
    | cons y b =>
      rw [List.pairwise_cons] at ha hb
      have h1 : bytesLe y.tag.tag x.tag.tag = true := by
        rcases List.mem_cons.1 (mem h (List.mem_cons_self ..)) with rfl | hx
        · exact bytesLe_refl _
        · exact (bytesLe_iff _ _).2 (hb.1 x hx)
      have h2 : bytesLe x.tag.tag y.tag.tag = true := by
        rcases List.mem_cons.1 (mem (fun k => (h k).symm) (List.mem_cons_self ..)) with rfl | hy
        · exact bytesLe_refl _
        · exact (bytesLe_iff _ _).2 (ha.1 y hy)
      have hk := bytesLe_antisymm _ _ h2 h1
      have hxy : x = y := by
        have := h x.tag.tag
        rw [List.filter_cons, List.filter_cons, if_pos (by simp), if_pos (by simp [hk])] at this
        exact (List.cons.inj this).1
      subst hxy
      congr 1
      refine ih b ha.2 hb.2 (fun k => ?_)
      have := h k
      rw [List.filter_cons, List.filter_cons] at this
      split at this
      · exact (List.cons.inj this).2
      · exact this

mutual
theorem inTagOrder_unique : ∀ {b x y : List RawEmvNode}, InTagOrder b x → InTagOrder b y → x = y
  | _, _, _, .mk hc _ ha hs, .mk hc' _ ha' hs' => by
    cases childrenInOrder_unique hc hc'
    exact ascending_nodes_unique _ _ ha ha' (fun k => (hs k).trans (hs' k).symm)
theorem childrenInOrder_unique : ∀ {b x y : List RawEmvNode}, ChildrenInOrder b x → ChildrenInOrder b y → x = y
  | _, _, _, .nil, .nil => rfl
  | _, _, _, .cons _ hc hb, .cons _ hc' hb' => by
    rw [inTagOrder_unique hc hc', childrenInOrder_unique hb hb']
end

mutual
/-- A block whose tags are not looked at. -/
def plainNode : RawEmvNode → ProcessedEmvNode
  | .mk t c => .mk (.raw t) (plainBlock c)
def plainBlock : List RawEmvNode → List ProcessedEmvNode
  | [] => []
  | n :: ns => plainNode n :: plainBlock ns
end

mutual
theorem erase_plainNode : ∀ n : RawEmvNode, eraseNode (plainNode n) = n
  | .mk t c => by rw [plainNode, eraseNode, erase_plainBlock c]; rfl
theorem erase_plainBlock : ∀ b : List RawEmvNode, eraseBlock (plainBlock b) = b
  | [] => by rw [plainBlock, eraseBlock]
  | n :: ns => by rw [plainBlock, eraseBlock, erase_plainNode n, erase_plainBlock ns]
end

theorem inTagOrder_exists (b : List RawEmvNode) : ∃ b', InTagOrder b b' :=
  ⟨_, by have := sortNodes_inOrder (plainBlock b); rwa [erase_plainBlock] at this⟩

theorem childrenInOrder_tags : ∀ {b mid : List RawEmvNode}, ChildrenInOrder b mid →
    mid.map (fun n => n.tag.tag) = b.map (fun n => n.tag.tag)
  | _, _, .nil => rfl
  | _, _, .cons t _ hb => by rw [List.map_cons, List.map_cons, childrenInOrder_tags hb]; rfl

theorem ordered_children {b : List RawEmvNode} (h : InTagOrder b b) :
    ChildrenInOrder b b ∧ b.Pairwise (fun x y => LexLe x.tag.tag y.tag.tag) := by
  cases h with
  | mk hc hp ha hs =>
    refine ⟨?_, ha⟩
    have := ascending_nodes_unique _ _ ha (by
      have h1 := List.pairwise_map (f := fun n : RawEmvNode => n.tag.tag) (R := LexLe) (l := b)
      have h2 := h1.2 ha
      rw [← childrenInOrder_tags hc, List.pairwise_map] at h2
      exact h2) hs
    rw [← this] at hc
    exact hc

mutual
theorem ordered_node : ∀ n : ProcessedEmvNode, InTagOrder (eraseNode n).childBlock (eraseNode n).childBlock →
    nodeAscending n
  | .mk t c, h => by
    rw [eraseNode] at h
    have h' : InTagOrder (eraseBlock c) (eraseBlock c) := h
    rw [nodeAscending]
    exact ⟨ordered_level h', ordered_all c (ordered_children h').1⟩
theorem ordered_all : ∀ q : List ProcessedEmvNode, ChildrenInOrder (eraseBlock q) (eraseBlock q) → allAscending q
  | [], _ => by rw [allAscending]; trivial
  | n :: ns, h => by
    rw [eraseBlock] at h
    rw [allAscending]
    generalize hn : eraseNode n = x at h
    cases x with
    | mk t c =>
      cases h with
      | cons _ hc hb =>
        refine ⟨ordered_node n ?_, ordered_all ns hb⟩
        rw [hn]
        exact hc
theorem ordered_level {q : List ProcessedEmvNode} (h : InTagOrder (eraseBlock q) (eraseBlock q)) : Ascending q := by
  have := (ordered_children h).2
  rw [eraseBlock_map, List.pairwise_map] at this
  exact this.imp (fun {x y} hxy => by rwa [tagOf_erase, tagOf_erase] at hxy)
end

/-- What is in order already is shown as it is. -/
theorem outcome_ordered (m : Machine) {x : Out (Option TlvFormat × RawEmvBlock)}
    (h : ∀ f b, x = .ok (f, b) → InTagOrder b b) : tlvOutcome m true x = tlvOutcome m false x := by
  cases x with
  | err e => rfl
  | panic => rfl
  | diverge => rfl
  | ok v =>
    obtain ⟨f, b⟩ := v
    have ho := h f b rfl
    cases hq : processBlock b with
    | ok q =>
      have he := processBlock_erase b q hq
      rw [← he] at ho
      have hs : sortNodes q = q := c38_sorted q (ordered_level ho) (ordered_all q (ordered_children ho).1)
      simp only [tlvOutcome, hq, maybeSort, hs, if_true]
      rfl
    | _ => simp only [tlvOutcome, hq]

end Pemv
