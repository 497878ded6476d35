import Verif.Proofs.Rearranged
import Verif.Proofs.Within
import Verif.Props.Breaks
import Verif.Props.Ber

/-!
# C95, C96: sorting only rearranges, and objects are shown independently of each other
-/

namespace Pemv

open Spec

/-! ### C95 -/

/-- **C95.** With and without sorting the program reports the same errors, and it writes the same lines, each as often
and each with the same indentation, only in another order. -/
theorem c95_lines (m : Machine) (ops : CliOps) (masks : List Char) :
    (run m ops masks true).stderr = (run m ops masks false).stderr ∧
    (run m ops masks true).help = (run m ops masks false).help ∧
    (run m ops masks true).diverged = (run m ops masks false).diverged ∧
    (run m ops masks true).disp.panicked = (run m ops masks false).disp.panicked ∧
    ((run m ops masks true).disp.panicked = false →
      (cutLines (run m ops masks true).disp.text).Perm (cutLines (run m ops masks false).disp.text)) := by
  rw [run_eq, run_eq]
  cases hs : selected ops with
  | none => exact ⟨rfl, rfl, rfl, rfl, fun _ => .refl _⟩
  | some p =>
    obtain ⟨op, s⟩ := p
    simp only
    by_cases hop : op ∈ [Operation.autoTlv, .berTlv, .ingenicoTlv]
    · simp only [runOp_tlv m masks _ op hop s]
      obtain ⟨h1, h2, h3, h4, h5⟩ := outcome_sorted m (tlvParse m masks op s)
      refine ⟨h1, h2, h3, h4, fun hn => ?_⟩
      obtain ⟨ls, ls', hp, hw, hw', hs1, hs2⟩ := h5 hn
      have e1 : (tlvOutcome m true (tlvParse m masks op s)).disp.text = docText 0 ls := shows_text hs1
      have e2 : (tlvOutcome m false (tlvParse m masks op s)).disp.text = docText 0 ls' := shows_text hs2
      rw [e1, e2, cut_doc 0 hw, cut_doc 0 hw']
      exact hp.map _
    · have : runOp m masks true op s = runOp m masks false op s := by
        cases op <;> first | rfl | (exact absurd (by simp) hop)
      rw [this]
      exact ⟨rfl, rfl, rfl, rfl, fun _ => .refl _⟩

/-- **C95.** With sorting, data objects can be given in any order, as long as objects with the same tag keep theirs: the
program does exactly the same. -/
theorem c95_order {m : Machine} (masks : List Char) (s s' : Text) (l l' : List Elem) (hl : IsBlock l) (hl' : IsBlock l')
    (hs : hexBytes s = concat l) (hs' : hexBytes s' = concat l') (hm : Fits m (hexBytes s).length)
    (hm' : Fits m (hexBytes s').length) (hf : ∀ k, l.filter (fun e => decide (e.tag = k)) = l'.filter (fun e => decide (e.tag = k)))
    (ha : ∀ b, berParse m (hexBytes s) masks = .ok b → AllAcceptable b) :
    run m { berTlv := some s } masks true = run m { berTlv := some s' } masks true := by
  have hb := (c10_language masks _ hm _).2 ⟨l, hs, hl, rfl⟩
  have hb' := (c10_language masks _ hm' _).2 ⟨l', hs', hl', rfl⟩
  have hsort := same_sorted (b := l.map (nodeOf (fun v => berParse m v masks) masks))
    (b' := l'.map (nodeOf (fun v => berParse m v masks) masks)) (fun k => by
      rw [List.filter_map, List.filter_map]
      exact congrArg _ (hf k)) (ha _ hb)
  rw [run_eq, run_eq]
  show runOp m masks true .berTlv s = runOp m masks true .berTlv s'
  rw [runOp, runOp, hexBytes_eq, hexBytes_eq, hb, hb']
  show finish .nil ((processBlock _).map sortNodes) _ = finish .nil ((processBlock _).map sortNodes) _
  rw [hsort]

/-- An application label after an unpredictable number, and before it. -/
example : run .debug64 { berTlv := some "9F370107 500141".toList } [] true =
    run .debug64 { berTlv := some "500141 9F370107".toList } [] true := by
  have w1 : Elem.WF ⟨[0x9F, 0x37], [0x01], [0x07]⟩ :=
    ⟨.high 0x9F [] 0x37 (by decide) (by simp) (by decide), .short 1 (by decide)⟩
  have w2 : Elem.WF ⟨[0x50], [0x01], [0x41]⟩ := ⟨.low _ (by decide), .short 1 (by decide)⟩
  refine c95_order [] _ _ [⟨[0x9F, 0x37], [0x01], [0x07]⟩, ⟨[0x50], [0x01], [0x41]⟩]
    [⟨[0x50], [0x01], [0x41]⟩, ⟨[0x9F, 0x37], [0x01], [0x07]⟩] ⟨?_, ?_⟩ ⟨?_, ?_⟩ (by decide +kernel) (by decide +kernel)
    (by unfold Fits; decide +kernel) (by unfold Fits; decide +kernel) (fun k => ?_) (fun b h => ?_)
  · intro e he
    simp only [List.mem_cons, List.not_mem_nil, or_false] at he
    rcases he with rfl | rfl <;> assumption
  · rintro e he ⟨h, -⟩; cases he; cases h
  · intro e he
    simp only [List.mem_cons, List.not_mem_nil, or_false] at he
    rcases he with rfl | rfl <;> assumption
  · rintro e he ⟨h, -⟩; cases he; cases h
  · by_cases h : [0x9F, 0x37] = k
    · subst h; decide
    · by_cases h' : [0x50] = k
      · subst h'; decide
      · simp [h, h']
  · have e : berParse .debug64 (hexBytes "9F370107 500141".toList) [] =
        .ok [.mk ⟨[0x9F, 0x37], .contextSpecific, .primitive, .normal [7]⟩ [],
          .mk ⟨[0x50], .application, .primitive, .normal [0x41]⟩ []] := by decide +kernel
    rw [e] at h; cases h
    exact (c34_ok_iff _).1 ⟨_, rfl⟩

/-- **C95.** The same for Ingenico records; those of other types than `T` can be anywhere. -/
theorem c95_records {m : Machine} (masks : List Char) (s s' : Text) (rs rs' : List Record) (hr : IsIngenico masks s rs)
    (hr' : IsIngenico masks s' rs') (hs : ∀ c ∈ s ++ s', c.toNat < 128) (hm : Fits m s.length) (hm' : Fits m s'.length)
    (hf : ∀ k, (rs.filter (fun r => decide (r.typ = 'T' ∧ r.tag = k))) = (rs'.filter (fun r => decide (r.typ = 'T' ∧ r.tag = k))))
    (ha : ∀ b, ingParse m s masks = .ok b → AllAcceptable b) :
    run m { ingenicoTlv := some s } masks true = run m { ingenicoTlv := some s' } masks true := by
  have hb := (c21_language masks _ hm _).2 ⟨fun c hc => hs c (List.mem_append_left _ hc), rs, hr, rfl⟩
  have hb' := (c21_language masks _ hm' _).2 ⟨fun c hc => hs c (List.mem_append_right _ hc), rs', hr', rfl⟩
  have hsort := same_sorted (b := (emvRecords rs).map (Record.node (fun v => berParse m v masks) masks))
    (b' := (emvRecords rs').map (Record.node (fun v => berParse m v masks) masks)) (fun k => by
      rw [List.filter_map, List.filter_map]
      refine congrArg _ ?_
      have := hf k
      simp only [Bool.decide_and] at this
      rw [emvRecords, emvRecords, List.filter_filter, List.filter_filter]
      simp only [Function.comp_def, Record.node]
      simp only [Bool.and_comm] at this ⊢
      exact this) (ha _ hb)
  rw [run_eq, run_eq]
  show runOp m masks true .ingenicoTlv s = runOp m masks true .ingenicoTlv s'
  rw [runOp, runOp, hb, hb']
  show finish .nil ((processBlock _).map sortNodes) _ = finish .nil ((processBlock _).map sortNodes) _
  rw [hsort]

example : run .debug64 { ingenicoTlv := some "T9F37:01:h07|T50:01:aA".toList } [] true =
    run .debug64 { ingenicoTlv := some "T50:01:aA,T9F37:01:h07".toList } [] true := by
  have w1 : Record.WF [] ⟨'T', "9F37".toList, "01".toList, 'h', "07".toList⟩ :=
    ⟨by decide, by decide, by decide, by decide, Or.inr ⟨rfl, by decide, Or.inl (by decide)⟩⟩
  have w2 : Record.WF [] ⟨'T', "50".toList, "01".toList, 'a', "A".toList⟩ :=
    ⟨by decide, by decide, by decide, by decide, Or.inl ⟨rfl, by decide⟩⟩
  refine c95_records [] _ _ [⟨'T', "9F37".toList, "01".toList, 'h', "07".toList⟩, ⟨'T', "50".toList, "01".toList, 'a', "A".toList⟩]
    [⟨'T', "50".toList, "01".toList, 'a', "A".toList⟩, ⟨'T', "9F37".toList, "01".toList, 'h', "07".toList⟩]
    (.cons _ w1 '|' _ _ (.last _ w2)) (.cons _ w2 ',' _ _ (.last _ w1)) (by decide +kernel)
    (by unfold Fits; decide +kernel) (by unfold Fits; decide +kernel) (fun k => ?_) (fun b h => ?_)
  · have t1 : Record.tag ⟨'T', "9F37".toList, "01".toList, 'h', "07".toList⟩ = [0x9F, 0x37] := by decide +kernel
    have t2 : Record.tag ⟨'T', "50".toList, "01".toList, 'a', "A".toList⟩ = [0x50] := by decide +kernel
    simp only [List.filter_cons, List.filter_nil, t1, t2]
    by_cases h : [0x9F, 0x37] = k
    · subst h; decide
    · by_cases h' : [0x50] = k
      · subst h'; decide
      · simp [h, h']
  · have e : ingParse .debug64 "T9F37:01:h07|T50:01:aA".toList [] =
        .ok [.mk ⟨[0x9F, 0x37], .contextSpecific, .primitive, .normal [7]⟩ [],
          .mk ⟨[0x50], .application, .primitive, .normal [0x41]⟩ []] := by decide +kernel
    rw [e] at h; cases h
    exact (c34_ok_iff _).1 ⟨_, rfl⟩

/-- **C95.** Whether the data are understood does not depend on the order at all, with and without sorting. If they are
not, the message is that of the first value not understood (C34), which may be another one in another order. -/
theorem c95_rejected {m : Machine} (masks : List Char) (sort : Bool) (s s' : Text) (l l' : List Elem) (hl : IsBlock l)
    (hl' : IsBlock l') (hs : hexBytes s = concat l) (hs' : hexBytes s' = concat l') (hm : Fits m (hexBytes s).length)
    (hm' : Fits m (hexBytes s').length) (hp : l.Perm l') :
    (∃ e, Fails (run m { berTlv := some s } masks sort) (message e)) ↔
      ∃ e, Fails (run m { berTlv := some s' } masks sort) (message e) := by
  have one : ∀ (s s' : Text) (l l' : List Elem), IsBlock l → IsBlock l' → hexBytes s = concat l → hexBytes s' = concat l' →
      Fits m (hexBytes s).length → Fits m (hexBytes s').length → l.Perm l' →
      (∃ e, Fails (run m { berTlv := some s } masks sort) (message e)) →
      ∃ e, Fails (run m { berTlv := some s' } masks sort) (message e) := by
    rintro s s' l l' hl hl' hs hs' hm hm' hp ⟨e, he⟩
    have hb := (c10_language masks _ hm _).2 ⟨l, hs, hl, rfl⟩
    have hb' := (c10_language masks _ hm' _).2 ⟨l', hs', hl', rfl⟩
    rw [run_eq] at he
    change Fails (runOp m masks sort .berTlv s) (message e) at he
    rw [runOp, hexBytes_eq, hb] at he
    obtain ⟨e', he'⟩ := rejected_perm (hp.map _) (finish_rejected he)
    exact ⟨e', (c58_ber m _ masks sort s' rfl).2.1 _ e' hb' he'⟩
  exact ⟨one s s' l l' hl hl' hs hs' hm hm' hp, one s' s l' l hl' hl hs' hs hm' hm hp.symm⟩

/-- Verification results of one byte are rejected before an application label and after it. -/
example : ∃ e, Fails (run .debug64 { berTlv := some "500141 950101".toList } [] true) (message e) := by
  have w1 : Elem.WF ⟨[0x95], [0x01], [0x01]⟩ := ⟨.low _ (by decide), .short 1 (by decide)⟩
  have w2 : Elem.WF ⟨[0x50], [0x01], [0x41]⟩ := ⟨.low _ (by decide), .short 1 (by decide)⟩
  refine (c95_rejected [] true "950101 500141".toList _ [⟨[0x95], [0x01], [0x01]⟩, ⟨[0x50], [0x01], [0x41]⟩]
    [⟨[0x50], [0x01], [0x41]⟩, ⟨[0x95], [0x01], [0x01]⟩] ⟨?_, ?_⟩ ⟨?_, ?_⟩ (by decide +kernel) (by decide +kernel)
    (by unfold Fits; decide +kernel) (by unfold Fits; decide +kernel) (.swap _ _ _)).1 ⟨.byteCountIncorrect .eq 5 1, ?_⟩
  · intro e he
    simp only [List.mem_cons, List.not_mem_nil, or_false] at he
    rcases he with rfl | rfl <;> assumption
  · rintro e he ⟨h, -⟩; cases he; cases h
  · intro e he
    simp only [List.mem_cons, List.not_mem_nil, or_false] at he
    rcases he with rfl | rfl <;> assumption
  · rintro e he ⟨h, -⟩; cases he; cases h
  · exact ⟨by decide +kernel, by decide +kernel, by decide +kernel, by decide +kernel, by decide +kernel⟩

/-- **C95.** The same for Ingenico records. -/
theorem c95_records_rejected {m : Machine} (masks : List Char) (sort : Bool) (s s' : Text) (rs rs' : List Record)
    (hr : IsIngenico masks s rs) (hr' : IsIngenico masks s' rs') (hs : ∀ c ∈ s ++ s', c.toNat < 128)
    (hm : Fits m s.length) (hm' : Fits m s'.length) (hp : (emvRecords rs).Perm (emvRecords rs')) :
    (∃ e, Fails (run m { ingenicoTlv := some s } masks sort) (message e)) ↔
      ∃ e, Fails (run m { ingenicoTlv := some s' } masks sort) (message e) := by
  have one : ∀ (s s' : Text) (rs rs' : List Record), IsIngenico masks s rs → IsIngenico masks s' rs' →
      (∀ c ∈ s, c.toNat < 128) → (∀ c ∈ s', c.toNat < 128) →
      Fits m s.length → Fits m s'.length → (emvRecords rs).Perm (emvRecords rs') →
      (∃ e, Fails (run m { ingenicoTlv := some s } masks sort) (message e)) →
      ∃ e, Fails (run m { ingenicoTlv := some s' } masks sort) (message e) := by
    rintro s s' rs rs' hr hr' hs hs' hm hm' hp ⟨e, he⟩
    have hb := (c21_language masks _ hm _).2 ⟨hs, rs, hr, rfl⟩
    have hb' := (c21_language masks _ hm' _).2 ⟨hs', rs', hr', rfl⟩
    rw [run_eq] at he
    change Fails (runOp m masks sort .ingenicoTlv s) (message e) at he
    rw [runOp, hb] at he
    obtain ⟨e', he'⟩ := rejected_perm (hp.map _) (finish_rejected he)
    exact ⟨e', (c58_ingenico m _ masks sort s' rfl).2.1 _ e' hb' he'⟩
  have h1 := fun c hc => hs c (List.mem_append_left _ hc)
  have h2 := fun c hc => hs c (List.mem_append_right _ hc)
  exact ⟨one s s' rs rs' hr hr' h1 h2 hm hm' hp, one s' s rs' rs hr' hr h2 h1 hm' hm hp.symm⟩

/-- Two values that are not understood: rejected in both orders, but with different messages. -/
example : (run .debug64 { berTlv := some "9500 9F350199".toList } [] true).stderr =
      some (message (.byteCountIncorrect .eq 5 0) ++ ['\n']) ∧
    (run .debug64 { berTlv := some "9F350199 9500".toList } [] true).stderr =
      some (message .unrecognised ++ ['\n']) := by decide +kernel

/-- Two objects in both orders: sorted they are shown alike, unsorted they are not. -/
example : let l : List Elem := [⟨[0x9F, 0x37], [0x01], [0x07]⟩, ⟨[0x50], [0x01], [0x41]⟩]
    IsBlock l ∧ IsBlock l.reverse ∧ hexBytes "9F370107 500141".toList = concat l ∧
    (∀ k, l.filter (fun e => decide (e.tag = k)) = l.reverse.filter (fun e => decide (e.tag = k))) ∧
    run .debug64 { berTlv := some "9F370107 500141".toList } [] false ≠
      run .debug64 { berTlv := some "500141 9F370107".toList } [] false := by
  refine ⟨⟨?_, ?_⟩, ⟨?_, ?_⟩, by decide +kernel, fun k => ?_, by decide +kernel⟩
  · intro e he
    rcases List.mem_cons.1 he with rfl | he
    · exact ⟨.high 0x9F [] 0x37 (by decide) (by simp) (by decide), .short 1 (by decide)⟩
    · rw [List.mem_singleton.1 he]; exact ⟨.low _ (by decide), .short 1 (by decide)⟩
  · rintro e he ⟨h, -⟩; cases he; cases h
  · intro e he
    rcases List.mem_cons.1 he with rfl | he
    · exact ⟨.low _ (by decide), .short 1 (by decide)⟩
    · rw [List.mem_singleton.1 he]; exact ⟨.high 0x9F [] 0x37 (by decide) (by simp) (by decide), .short 1 (by decide)⟩
  · rintro e he ⟨h, -⟩; cases he; cases h
  · by_cases h : [0x9F, 0x37] = k
    · subst h; decide
    · by_cases h' : [0x50] = k
      · subst h'; decide
      · simp [h, h']

/-- **C95.** There is exactly one way to arrange a block in the order of tags, at every level, such that equal tags keep
their order. -/
theorem c95_determined (b : RawEmvBlock) : ∃ b', InTagOrder b b' ∧ ∀ b'', InTagOrder b b'' → b'' = b' := by
  obtain ⟨b', h⟩ := inTagOrder_exists b
  exact ⟨b', h, fun b'' h'' => inTagOrder_unique h'' h⟩

/-- **C95.** If the data objects are given in the order of their tags already, at every level, sorting makes no difference
at all. -/
theorem c95_already (m : Machine) (ops : CliOps) (masks : List Char) (op : Operation) (s : Text) (b : RawEmvBlock)
    (hs : selected ops = some (op, s))
    (hb : op = .autoTlv ∧ (∃ f, autoParse m s masks = .ok (f, b)) ∨
      op = .berTlv ∧ berParse m (hexBytes s) masks = .ok b ∨ op = .ingenicoTlv ∧ ingParse m s masks = .ok b)
    (ho : InTagOrder b b) : run m ops masks true = run m ops masks false := by
  have key : ∀ f b', tlvParse m masks op s = .ok (f, b') → InTagOrder b' b' := by
    intro f b' h
    rcases hb with ⟨rfl, f', hp⟩ | ⟨rfl, hp⟩ | ⟨rfl, hp⟩
    · rw [tlvParse, hp] at h; cases h; exact ho
    · rw [tlvParse, hexBytes_eq, hp] at h; cases h; exact ho
    · rw [tlvParse, hp] at h; cases h; exact ho
  have hop : op ∈ [Operation.autoTlv, .berTlv, .ingenicoTlv] := by
    rcases hb with ⟨rfl, -⟩ | ⟨rfl, -⟩ | ⟨rfl, -⟩ <;> simp
  rw [run_eq, run_eq, hs]
  show runOp m masks true op s = runOp m masks false op s
  rw [runOp_tlv m masks true op hop s, runOp_tlv m masks false op hop s]
  exact outcome_ordered m key

/-- A template with contents in order, and another object after it. -/
example : InTagOrder
    [.mk ⟨[0x70], .application, .constructed, .normal [0x50, 0x00, 0x5A, 0x00]⟩
      [.mk ⟨[0x50], .application, .primitive, .normal []⟩ [], .mk ⟨[0x5A], .application, .primitive, .normal []⟩ []],
     .mk ⟨[0x9B], .contextSpecific, .primitive, .masked⟩ []]
    [.mk ⟨[0x70], .application, .constructed, .normal [0x50, 0x00, 0x5A, 0x00]⟩
      [.mk ⟨[0x50], .application, .primitive, .normal []⟩ [], .mk ⟨[0x5A], .application, .primitive, .normal []⟩ []],
     .mk ⟨[0x9B], .contextSpecific, .primitive, .masked⟩ []] := by
  have h := sortNodes_inOrder (plainBlock
    [.mk ⟨[0x70], .application, .constructed, .normal [0x50, 0x00, 0x5A, 0x00]⟩
      [.mk ⟨[0x50], .application, .primitive, .normal []⟩ [], .mk ⟨[0x5A], .application, .primitive, .normal []⟩ []],
     .mk ⟨[0x9B], .contextSpecific, .primitive, .masked⟩ []])
  exact h

/-! ### C96 -/

/-- **C96.** If the value of an object is changed, nothing else in the output changes, with and without sorting: not the
lines of the other objects and not their places. The lines of the object itself are those that are shown for it
alone. -/
theorem c96_object {m : Machine} (masks : List Char) (sort : Bool) (pre post : List Elem) (e e' : Elem)
    (ht : e.tag = e'.tag) (hw : ∀ x ∈ pre ++ post, x.WF) (he : e.WF) (he' : e'.WF) (hz : ¬ e.LongZero) (hz' : ¬ e'.LongZero)
    (s s' w w' : Text) (hs : hexBytes s = concat (pre ++ e :: post)) (hs' : hexBytes s' = concat (pre ++ e' :: post))
    (hb : hexBytes w = e.bytes) (hb' : hexBytes w' = e'.bytes) (hm : Fits m (hexBytes s).length)
    (hm' : Fits m (hexBytes s').length) (c c' : Cells) (h : Succeeds (run m { berTlv := some s } masks sort) c)
    (h' : Succeeds (run m { berTlv := some s' } masks sort) c') :
    ∃ before own own' after, c = showLines 0 (before ++ own ++ after) ∧ c' = showLines 0 (before ++ own' ++ after) ∧
      Succeeds (run m { berTlv := some w } masks sort) (showLines 0 own) ∧
      Succeeds (run m { berTlv := some w' } masks sort) (showLines 0 own') := by
  have one : ∀ (e : Elem), e.WF → ¬ e.LongZero → ∀ s w : Text, hexBytes s = concat (pre ++ e :: post) →
      hexBytes w = e.bytes → Fits m (hexBytes s).length → ∀ c, Succeeds (run m { berTlv := some s } masks sort) c →
      (∃ q, processBlock (pre.map (nodeOf (fun v => berParse m v masks) masks) ++
          nodeOf (fun v => berParse m v masks) masks e :: post.map (nodeOf (fun v => berParse m v masks) masks)) = .ok q ∧
        (displayBlock m (maybeSort sort q) 0 true).panicked = false ∧
        c = showLines 0 (blockLines true (eraseBlock (maybeSort sort q)))) ∧
      berParse m (hexBytes w) masks = .ok [nodeOf (fun v => berParse m v masks) masks e] := by
    intro e he hz s w hs hb hm c h
    obtain ⟨b, q, h1, h2, h3, h4⟩ := ber_success h
    obtain ⟨es, g1, g2, g3⟩ := (c10_language masks _ hm b).1 h1
    have : es = pre ++ e :: post := by
      refine c10_unique _ _ (g1.symm.trans hs) g2.1 (fun x hx => ?_)
      rcases List.mem_append.1 hx with hx | hx
      · exact hw x (List.mem_append_left _ hx)
      · rcases List.mem_cons.1 hx with rfl | hx
        · exact he
        · exact hw x (List.mem_append_right _ hx)
    subst this g3
    rw [List.map_append, List.map_cons] at h2
    have hfit : Fits m (hexBytes w).length := by
      refine fits_mono hm ?_
      rw [hs, hb, concat, List.flatMap_append, List.flatMap_cons]
      simp only [List.length_append]
      omega
    exact ⟨⟨q, h2, h3, h4⟩, (c10_language masks _ hfit _).2 ⟨[e], by rw [hb]; simp [concat],
      ⟨fun x hx => by rw [List.mem_singleton.1 hx]; exact he, fun x hx => by cases hx; exact hz⟩, rfl⟩⟩
  obtain ⟨⟨q, p1, d1, c1⟩, w1⟩ := one e he hz s w hs hb hm c h
  obtain ⟨⟨q', p2, d2, c2⟩, w2⟩ := one e' he' hz' s' w' hs' hb' hm' c' h'
  obtain ⟨before, own, own', after, l1, l2, ⟨r, hr, sh⟩, ⟨r', hr', sh'⟩⟩ :=
    block_replace (n := nodeOf (fun v => berParse m v masks) masks e)
      (n' := nodeOf (fun v => berParse m v masks) masks e') ht p1 p2 d1 d2
  exact ⟨before, own, own', after, by rw [c1, l1], by rw [c2, l2], ber_run w1 hr sh, ber_run w2 hr' sh'⟩

/-- Two application labels, each between the same two objects. -/
example : ∃ c c' before own own' after,
    Succeeds (run .debug64 { berTlv := some "9F370107 500141 4F0102".toList } [] false) c ∧
    Succeeds (run .debug64 { berTlv := some "9F370107 50024242 4F0102".toList } [] false) c' ∧
    c = showLines 0 (before ++ own ++ after) ∧ c' = showLines 0 (before ++ own' ++ after) := by
  have ok : ∀ t ∈ ["9F370107 500141 4F0102".toList, "9F370107 50024242 4F0102".toList],
      Succeeds (run .debug64 { berTlv := some t } [] false)
        (paint plainStyle (run .debug64 { berTlv := some t } [] false).disp.evs) := by
    intro t ht
    simp only [List.mem_cons, List.not_mem_nil, or_false] at ht
    rcases ht with rfl | rfl <;>
      exact ⟨⟨by decide +kernel, rfl, by decide +kernel⟩, by decide +kernel, by decide +kernel, by decide +kernel⟩
  obtain ⟨before, own, own', after, h1, h2, -⟩ := c96_object (m := .debug64) [] false
    [⟨[0x9F, 0x37], [1], [7]⟩] [⟨[0x4F], [1], [2]⟩] ⟨[0x50], [1], [0x41]⟩ ⟨[0x50], [2], [0x42, 0x42]⟩ rfl
    (fun x hx => by
      simp only [List.cons_append, List.nil_append, List.mem_cons, List.not_mem_nil, or_false] at hx
      rcases hx with rfl | rfl
      · exact ⟨.high 0x9F [] 0x37 (by decide) (by simp) (by decide), .short 1 (by decide)⟩
      · exact ⟨.low _ (by decide), .short 1 (by decide)⟩)
    ⟨.low _ (by decide), .short 1 (by decide)⟩ ⟨.low _ (by decide), .short 2 (by decide)⟩ (fun h => nomatch h.1)
    (fun h => nomatch h.1) "9F370107 500141 4F0102".toList "9F370107 50024242 4F0102".toList "500141".toList
    "50024242".toList (by decide +kernel) (by decide +kernel) (by decide +kernel)
    (by decide +kernel) (by unfold Fits; decide +kernel) (by unfold Fits; decide +kernel) _ _ (ok _ (by simp)) (ok _ (by simp))
  exact ⟨_, _, before, own, own', after, ok _ (by simp), ok _ (by simp), h1, h2⟩

/-- **C96.** The same for Ingenico records. -/
theorem c96_record {m : Machine} (masks : List Char) (sort : Bool) (pre post : List Record) (r r' : Record)
    (hT : r.typ = 'T') (hT' : r'.typ = 'T') (ht : r.tag = r'.tag) (s s' : Text)
    (hs : IsIngenico masks s (pre ++ r :: post)) (hs' : IsIngenico masks s' (pre ++ r' :: post))
    (ha : ∀ c ∈ s ++ s', c.toNat < 128) (hm : Fits m s.length) (hm' : Fits m s'.length) (c c' : Cells)
    (h : Succeeds (run m { ingenicoTlv := some s } masks sort) c)
    (h' : Succeeds (run m { ingenicoTlv := some s' } masks sort) c') :
    ∃ before own own' after, c = showLines 0 (before ++ own ++ after) ∧ c' = showLines 0 (before ++ own' ++ after) ∧
      Succeeds (run m { ingenicoTlv := some r.text } masks sort) (showLines 0 own) ∧
      Succeeds (run m { ingenicoTlv := some r'.text } masks sort) (showLines 0 own') := by
  have one : ∀ (r : Record) (s : Text), r.typ = 'T' → IsIngenico masks s (pre ++ r :: post) → (∀ c ∈ s, c.toNat < 128) →
      Fits m s.length → ∀ c, Succeeds (run m { ingenicoTlv := some s } masks sort) c →
      (∃ q, processBlock ((emvRecords pre).map (Record.node (fun v => berParse m v masks) masks) ++
          Record.node (fun v => berParse m v masks) masks r ::
            (emvRecords post).map (Record.node (fun v => berParse m v masks) masks)) = .ok q ∧
        (displayBlock m (maybeSort sort q) 0 true).panicked = false ∧
        c = showLines 0 (blockLines true (eraseBlock (maybeSort sort q)))) ∧
      ingParse m r.text masks = .ok [Record.node (fun v => berParse m v masks) masks r] := by
    intro r s hT hs ha hm c h
    have hmem : r ∈ pre ++ r :: post := by simp
    obtain ⟨b, q, h1, h2, h3, h4⟩ := ing_success h
    have h5 := (c21_language masks s hm _).2 ⟨ha, _, hs, rfl⟩
    rw [h1] at h5
    cases h5
    have e : emvRecords (pre ++ r :: post) = emvRecords pre ++ r :: emvRecords post := by
      simp [emvRecords, hT]
    rw [e, List.map_append, List.map_cons] at h2
    refine ⟨⟨q, h2, h3, h4⟩, (c21_language masks _ (fits_mono hm (record_in_text hs r hmem)) _).2
      ⟨fun c hc => ha c ((record_chars hs r hmem).2 c hc), [r], .last r (record_chars hs r hmem).1, ?_⟩⟩
    simp [emvRecords, hT]
  obtain ⟨⟨q, p1, d1, c1⟩, w1⟩ := one r s hT hs (fun c hc => ha c (List.mem_append_left _ hc)) hm c h
  obtain ⟨⟨q', p2, d2, c2⟩, w2⟩ := one r' s' hT' hs' (fun c hc => ha c (List.mem_append_right _ hc)) hm' c' h'
  obtain ⟨before, own, own', after, l1, l2, ⟨r1, hr, sh⟩, ⟨r2, hr', sh'⟩⟩ :=
    block_replace (n := Record.node (fun v => berParse m v masks) masks r)
      (n' := Record.node (fun v => berParse m v masks) masks r') ht p1 p2 d1 d2
  exact ⟨before, own, own', after, by rw [c1, l1], by rw [c2, l2], ing_run w1 hr sh, ing_run w2 hr' sh'⟩

/-- A label is changed between two other objects, one of which is sorted to the other side. -/
example : ∃ before own own' after : Text,
    (run .debug64 { berTlv := some "9F370107 500141 4F0102".toList } [] true).disp.text = before ++ own ++ after ∧
    (run .debug64 { berTlv := some "9F370107 50024242 4F0102".toList } [] true).disp.text = before ++ own' ++ after ∧
    (run .debug64 { berTlv := some "500141".toList } [] true).disp.text = own ∧
    (run .debug64 { berTlv := some "50024242".toList } [] true).disp.text = own' ∧ before ≠ [] ∧ after ≠ [] := by
  refine ⟨((run .debug64 { berTlv := some "4F0102".toList } [] true).disp.text ++ ['\n']), _, _,
    ('\n' :: (run .debug64 { berTlv := some "9F370107".toList } [] true).disp.text), ?_, ?_, rfl, rfl, ?_, ?_⟩ <;>
    decide +kernel

/-- **C96.** The same for an object inside templates, at any depth: besides the lines of the object, which are those shown
for it alone, only the tags and the dumps of the templates around it change. -/
theorem c96_within {m : Machine} (masks : List Char) (sort : Bool) (e e' : Elem) (path : List (Elem × Elem))
    (l l' : List Elem) (hd : Differ masks e e' path l l') (ht : e.tag = e'.tag) (hw : ∀ x ∈ l, x.WF) (hw' : ∀ x ∈ l', x.WF)
    (he : e.WF) (he' : e'.WF) (hz : ¬ e.LongZero) (hz' : ¬ e'.LongZero) (s s' w w' : Text) (hs : hexBytes s = concat l)
    (hs' : hexBytes s' = concat l') (hb : hexBytes w = e.bytes) (hb' : hexBytes w' = e'.bytes)
    (hm : Fits m (hexBytes s).length) (hm' : Fits m (hexBytes s').length) (c c' : Cells)
    (h : Succeeds (run m { berTlv := some s } masks sort) c) (h' : Succeeds (run m { berTlv := some s' } masks sort) c') :
    ∃ own own' ls ls', ShownBut own own' path ls ls' ∧ c = showLines 0 ls ∧ c' = showLines 0 ls' ∧
      Succeeds (run m { berTlv := some w } masks sort) (showLines 0 own) ∧
      Succeeds (run m { berTlv := some w' } masks sort) (showLines 0 own') := by
  have whole : ∀ (l : List Elem) (s : Text), (∀ x ∈ l, x.WF) → hexBytes s = concat l → Fits m (hexBytes s).length →
      ∀ c, Succeeds (run m { berTlv := some s } masks sort) c →
      ∃ q, processBlock (l.map (nodeOf (fun v => berParse m v masks) masks)) = .ok q ∧
        (displayBlock m (maybeSort sort q) 0 true).panicked = false ∧
        c = showLines 0 (blockLines true (eraseBlock (maybeSort sort q))) := by
    intro l s hw hs hm c h
    obtain ⟨b, q, h1, h2, h3, h4⟩ := ber_success h
    obtain ⟨es, g1, g2, g3⟩ := (c10_language masks _ hm b).1 h1
    have : es = l := c10_unique _ _ (g1.symm.trans hs) g2.1 hw
    subst this g3
    exact ⟨q, h2, h3, h4⟩
  obtain ⟨q, p1, d1, c1⟩ := whole l s hw hs hm c h
  obtain ⟨q', p2, d2, c2⟩ := whole l' s' hw' hs' hm' c' h'
  rw [hs] at hm
  rw [hs'] at hm'
  obtain ⟨a1, a2, t1, t2, s1, s2⟩ := within_alone (m := m) hd hm hm'
  exact ⟨_, _, _, _, within_lines (m := m) (sort := sort) ht hd hm hm' p1 p2, c1, c2,
    element_alone he hz hb p1 d1 (fits_mono hm s1) a1 (t1 0), element_alone he' hz' hb' p2 d2 (fits_mono hm' s2) a2 (t2 0)⟩

/-- A label inside a template inside a template: its lines are those of the label alone, two levels deeper. -/
example : Differ [] ⟨[0x50], [1], [0x41]⟩ ⟨[0x50], [1], [0x42]⟩
      [(⟨[0x6F], [8], [0x84, 1, 0xAA, 0xA5, 3, 0x50, 1, 0x41]⟩, ⟨[0x6F], [8], [0x84, 1, 0xAA, 0xA5, 3, 0x50, 1, 0x42]⟩),
        (⟨[0xA5], [3], [0x50, 1, 0x41]⟩, ⟨[0xA5], [3], [0x50, 1, 0x42]⟩)]
      [⟨[0x6F], [8], [0x84, 1, 0xAA, 0xA5, 3, 0x50, 1, 0x41]⟩, ⟨[0x4F], [1], [2]⟩]
      [⟨[0x6F], [8], [0x84, 1, 0xAA, 0xA5, 3, 0x50, 1, 0x42]⟩, ⟨[0x4F], [1], [2]⟩] ∧
    ("\t\tTag: 0x50 - 1 byte - Application Label\n\t\tRaw:\n\t\t\t41                                               A\n".toList <:+
      (run .debug64 { berTlv := some "6F088401AAA503500141 4F0102".toList } [] true).disp.text) ∧
    ("\t\tTag: 0x50 - 1 byte - Application Label\n\t\tRaw:\n\t\t\t42                                               B\n".toList <:+
      (run .debug64 { berTlv := some "6F088401AAA503500142 4F0102".toList } [] true).disp.text) := by
  refine ⟨?_, by decide +kernel, by decide +kernel⟩
  have wf : ∀ x y : Byte, Elem.WF ⟨[0x50], [1], [x]⟩ ∧ Elem.WF ⟨[0x84], [1], [y]⟩ ∧ Elem.WF ⟨[0xA5], [3], [0x50, 1, x]⟩ := by
    intro x y
    exact ⟨⟨.low 0x50 (by decide), .short 1 (by decide)⟩, ⟨.low 0x84 (by decide), .short 1 (by decide)⟩,
      ⟨.low 0xA5 (by decide), .short 3 (by decide)⟩⟩
  have inner : ∀ x : Byte, IsBlock [⟨[0x50], [1], [x]⟩] := by
    intro x
    refine ⟨fun e he => ?_, fun e he => ?_⟩
    · rw [List.mem_singleton.1 he]; exact (wf x x).1
    · cases he; rintro ⟨h, -⟩; cases h
  have outer : ∀ x : Byte, IsBlock [⟨[0x84], [1], [0xAA]⟩, ⟨[0xA5], [3], [0x50, 1, x]⟩] := by
    intro x
    refine ⟨fun e he => ?_, fun e he => ?_⟩
    · rcases List.mem_cons.1 he with rfl | he
      · exact (wf x 0xAA).2.1
      · rw [List.mem_singleton.1 he]; exact (wf x 0xAA).2.2
    · cases he; rintro ⟨h, -⟩; cases h
  have unmasked : ∀ v, ¬ IsMasked v [] := by rintro v ⟨-, m, hm, -⟩; cases hm
  exact .inside [] [_] _ _ _ _ _ rfl (by decide) rfl rfl (outer 0x41) (outer 0x42) (unmasked _) (unmasked _)
    (.inside [_] [] _ _ _ _ _ rfl (by decide) rfl rfl (inner 0x41) (inner 0x42) (unmasked _) (unmasked _) (.here [] []))

/-- **C96.** The same for an object inside a template that is given as an Ingenico record. -/
theorem c96_record_within {m : Machine} (masks : List Char) (sort : Bool) (pre post : List Record) (r r' : Record)
    (hT : r.typ = 'T') (hT' : r'.typ = 'T') (htag : r.tag = r'.tag) (hc : typeOf r.tag = .constructed) (e e' : Elem)
    (path : List (Elem × Elem)) (l l' : List Elem) (hd : Differ masks e e' path l l') (ht : e.tag = e'.tag)
    (hl : IsBlock l) (hl' : IsBlock l') (hr : r.data masks = .normal (concat l)) (hr' : r'.data masks = .normal (concat l'))
    (he : e.WF) (he' : e'.WF) (hz : ¬ e.LongZero) (hz' : ¬ e'.LongZero) (s s' w w' : Text)
    (hs : IsIngenico masks s (pre ++ r :: post)) (hs' : IsIngenico masks s' (pre ++ r' :: post))
    (ha : ∀ c ∈ s ++ s', c.toNat < 128) (hb : hexBytes w = e.bytes) (hb' : hexBytes w' = e'.bytes) (hm : Fits m s.length)
    (hm' : Fits m s'.length) (c c' : Cells) (h : Succeeds (run m { ingenicoTlv := some s } masks sort) c)
    (h' : Succeeds (run m { ingenicoTlv := some s' } masks sort) c') :
    ∃ own own' ls ls', ShownBut own own' ((⟨r.tag, [], concat l⟩, ⟨r'.tag, [], concat l'⟩) :: path) ls ls' ∧
      c = showLines 0 ls ∧ c' = showLines 0 ls' ∧
      Succeeds (run m { berTlv := some w } masks sort) (showLines 0 own) ∧
      Succeeds (run m { berTlv := some w' } masks sort) (showLines 0 own') := by
  have one : ∀ (r : Record) (s : Text) (l : List Elem), r.typ = 'T' → typeOf r.tag = .constructed → IsBlock l →
      r.data masks = .normal (concat l) → IsIngenico masks s (pre ++ r :: post) →
      (∀ c ∈ s, c.toNat < 128) → Fits m s.length → ∀ c, Succeeds (run m { ingenicoTlv := some s } masks sort) c →
      Fits m (concat l).length ∧
      Record.node (fun v => berParse m v masks) masks r = .mk ⟨r.tag, classOf r.tag, .constructed, .normal (concat l)⟩
        (l.map (nodeOf (fun v => berParse m v masks) masks)) ∧
      ∃ q, processBlock ((emvRecords pre).map (Record.node (fun v => berParse m v masks) masks) ++
          Record.node (fun v => berParse m v masks) masks r ::
            (emvRecords post).map (Record.node (fun v => berParse m v masks) masks)) = .ok q ∧
        (displayBlock m (maybeSort sort q) 0 true).panicked = false ∧
        c = showLines 0 (blockLines true (eraseBlock (maybeSort sort q))) := by
    intro r s l hT hc hl hr hs ha hm c h
    have hmem : r ∈ pre ++ r :: post := by simp
    have hfit : Fits m (concat l).length := by
      refine fits_mono hm (Nat.le_trans (record_data_le hr) (Nat.le_trans ?_ (record_in_text hs r hmem)))
      rw [Record.text]
      simp only [List.length_cons, List.length_append]
      omega
    refine ⟨hfit, ?_, ?_⟩
    · rw [Record.node, hc, hr, childrenOf]
      simp only [(c10_language masks _ hfit _).2 ⟨l, rfl, hl, rfl⟩]
    · obtain ⟨b, q, h1, h2, h3, h4⟩ := ing_success h
      have h5 := (c21_language masks s hm _).2 ⟨ha, _, hs, rfl⟩
      rw [h1] at h5
      cases h5
      have e : emvRecords (pre ++ r :: post) = emvRecords pre ++ r :: emvRecords post := by
        simp [emvRecords, hT]
      rw [e, List.map_append, List.map_cons] at h2
      exact ⟨q, h2, h3, h4⟩
  have hc' : typeOf r'.tag = .constructed := htag ▸ hc
  obtain ⟨f1, n1, q, p1, d1, c1⟩ := one r s l hT hc hl hr hs (fun c hc => ha c (List.mem_append_left _ hc)) hm c h
  obtain ⟨f2, n2, q', p2, d2, c2⟩ := one r' s' l' hT' hc' hl' hr' hs' (fun c hc => ha c (List.mem_append_right _ hc)) hm' c' h'
  obtain ⟨a1, a2, t1, t2, s1, s2⟩ := within_alone (m := m) hd f1 f2
  have hne : l ≠ [] ∧ l' ≠ [] := by cases hd <;> simp
  obtain ⟨before, after, l1, l2⟩ := lines_replace (sort := sort) (n := Record.node (fun v => berParse m v masks) masks r)
    (n' := Record.node (fun v => berParse m v masks) masks r') htag p1 p2
  have g1 := part_acceptable ((c34_ok_iff _).1 ⟨_, p1⟩)
  have g2 := part_acceptable ((c34_ok_iff _).1 ⟨_, p2⟩)
  obtain ⟨u1, v1, w1⟩ := template_alone (sort := sort) (t := ⟨r.tag, [], concat l⟩) hc hne.1 n1 g1
  obtain ⟨u2, v2, w2⟩ := template_alone (sort := sort) (t := ⟨r'.tag, [], concat l'⟩) hc' hne.2 n2 g2
  rw [w1] at l1
  rw [w2] at l2
  refine ⟨_, _, _, _, .inside before after _ _ _ _ path (within_lines (m := m) (sort := sort) ht hd f1 f2 v1 v2),
    by rw [c1, l1], by rw [c2, l2], ?_, ?_⟩
  · refine element_alone he hz hb p1 d1 (fits_mono f1 s1) (fun hx => a1 ?_)
      (fun hx => part_deep _ _ _ 0 (template_deep (t := ⟨r.tag, [], concat l⟩) hc n1 t1 0 hx))
    rw [n1] at g1
    exact inside_acceptable g1
  · refine element_alone he' hz' hb' p2 d2 (fits_mono f2 s2) (fun hx => a2 ?_)
      (fun hx => part_deep _ _ _ 0 (template_deep (t := ⟨r'.tag, [], concat l'⟩) hc' n2 t2 0 hx))
    rw [n2] at g2
    exact inside_acceptable g2

/-- A label inside a template given as a record. -/
example : Differ [] ⟨[0x50], [1], [0x41]⟩ ⟨[0x50], [1], [0x42]⟩ [] [⟨[0x50], [1], [0x41]⟩] [⟨[0x50], [1], [0x42]⟩] ∧
    hexBytes "500141".toList = concat [⟨[0x50], [1], [0x41]⟩] ∧
    (Record.mk 'T' "A5".toList "03".toList 'h' "500141".toList).tag = [0xA5] ∧
    ("Constructed Data Object's Child Tags:\n".toList ++
      "\tTag: 0x50 - 1 byte - Application Label\n\tRaw:\n\t\t41                                               A\n".toList <:+
      (run .debug64 { ingenicoTlv := some "TA5:03:h500141,".toList } [] true).disp.text) ∧
    ("Constructed Data Object's Child Tags:\n".toList ++
      "\tTag: 0x50 - 1 byte - Application Label\n\tRaw:\n\t\t42                                               B\n".toList <:+
      (run .debug64 { ingenicoTlv := some "TA5:03:h500142,".toList } [] true).disp.text) :=
  ⟨.here [] [], by decide +kernel, by decide +kernel, by decide +kernel, by decide +kernel⟩

end Pemv
