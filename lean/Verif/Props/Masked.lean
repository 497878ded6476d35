import Verif.Props.Auto
import Verif.Props.Nested
import Verif.Props.Whole
import Verif.Proofs.Masked
import Verif.Proofs.Breaks

/-!
# C93: what is masked stays hidden
-/

namespace Pemv

open Spec

/-! ### C93 -/

/-- **C93.** BER-TLV data that differ only in masked values, their lengths and the characters they are masked with
give the same run, whatever comes after them. The full statement, that this holds for masked values inside templates too,
is false: see `c93_refuted`. -/
theorem c93_ber_partial {m : Machine} (masks : List Char) (sort : Bool) (l : List (Elem × Elem))
    (hl : ∀ p ∈ l, HiddenElem masks p) (rest : List Byte) (s s' : Text)
    (hs : hexBytes s = concat (l.map (·.1)) ++ rest) (hs' : hexBytes s' = concat (l.map (·.2)) ++ rest)
    (hm : Fits m (hexBytes s).length) (hm' : Fits m (hexBytes s').length) :
    run m { berTlv := some s } masks sort = run m { berTlv := some s' } masks sort := by
  rw [hs] at hm
  rw [hs'] at hm'
  have h := berParse_hidden l hl rest hm hm'
  rw [← hs, ← hs', ← parseHexStr_eq, ← parseHexStr_eq] at h
  show finish _ _ _ = finish _ _ _
  rw [h]

/-- Two card numbers that are masked, of different lengths and with different characters. -/
example : run .debug64 { berTlv := some "5A022A2A 95".toList } ['*', '#'] true =
    run .debug64 { berTlv := some "5A 8103 232323 95".toList } ['*', '#'] true :=
  c93_ber_partial ['*', '#'] true [(⟨[0x5A], [0x02], [0x2A, 0x2A]⟩, ⟨[0x5A], [0x81, 0x03], [0x23, 0x23, 0x23]⟩)]
    (fun p hp => by
      rw [List.mem_singleton.1 hp]
      exact ⟨⟨.low _ (by decide), .short 2 (by decide)⟩, ⟨.low _ (by decide), .long 0x81 [0x03] (by decide) (by decide)⟩,
        Or.inr ⟨rfl, ⟨by decide, '*', by decide, by decide⟩, ⟨by decide, '#', by decide, by decide⟩⟩⟩)
    [0x95] _ _ (by decide +kernel) (by decide +kernel) (by unfold Fits; decide +kernel) (by unfold Fits; decide +kernel)

/-- **C93.** The same for Ingenico records, which may also differ in the format letters of masked values and in their
separators. -/
theorem c93_ingenico_partial {m : Machine} (masks : List Char) (sort : Bool)
    (l : List ((Record × Char) × (Record × Char))) (hl : ∀ p ∈ l, HiddenRecord masks p) (rest s s' : Text)
    (hs : s = render (l.map (·.1)) ++ rest) (hs' : s' = render (l.map (·.2)) ++ rest)
    (ha : ∀ c ∈ s ++ s', c.toNat < 128) (hm : Fits m s.length) (hm' : Fits m s'.length) :
    run m { ingenicoTlv := some s } masks sort = run m { ingenicoTlv := some s' } masks sort := by
  have h : ingParse m s masks = ingParse m s' masks := by
    subst hs hs'
    exact ingParse_hidden l hl rest (fun c hc => ha c (List.mem_append_left _ hc))
      (fun c hc => ha c (List.mem_append_right _ hc)) hm hm'
  show finish _ _ _ = finish _ _ _
  rw [h]

example : run .debug64 { ingenicoTlv := some "T5A:02:h****,T95:".toList } ['*', '#'] true =
    run .debug64 { ingenicoTlv := some "T5A:03:a###;T95:".toList } ['*', '#'] true :=
  c93_ingenico_partial ['*', '#'] true [((⟨'T', "5A".toList, "02".toList, 'h', "****".toList⟩, ','),
      (⟨'T', "5A".toList, "03".toList, 'a', "###".toList⟩, ';'))]
    (fun p hp => by
      have hm : IsMasked "****".toList ['*', '#'] := ⟨by decide, '*', by decide, by decide⟩
      rw [List.mem_singleton.1 hp]
      exact ⟨⟨by decide, by decide, by decide, by decide, Or.inr ⟨rfl, by decide +kernel, Or.inr hm⟩⟩,
        ⟨by decide, by decide, by decide, by decide, Or.inl ⟨rfl, by decide +kernel⟩⟩,
        Or.inr ⟨rfl, rfl, hm, ⟨by decide, '#', by decide, by decide⟩⟩⟩)
    "T95:".toList _ _ (by decide +kernel) (by decide +kernel) (by decide +kernel) (by unfold Fits; decide +kernel)
    (by unfold Fits; decide +kernel)

/-- **C93.** And when the format is detected: for complete records, and for BER-TLV in texts that are not made of records
(such as all texts without a colon). For texts that are found to be neither only at their end, see `c93_detection`. -/
theorem c93_auto_partial {m : Machine} (masks : List Char) (sort : Bool) (s s' : Text)
    (hm : Fits m s.length) (hm' : Fits m s'.length) :
    (∀ l : List ((Record × Char) × (Record × Char)), (∀ p ∈ l, HiddenRecord masks p) → l ≠ [] →
      s = render (l.map (·.1)) → s' = render (l.map (·.2)) → (∀ c ∈ s ++ s', c.toNat < 128) →
      run m { autoTlv := some s } masks sort = run m { autoTlv := some s' } masks sort) ∧
    (∀ (l : List (Elem × Elem)) (rest : List Byte), (∀ p ∈ l, HiddenElem masks p) → l ≠ [] →
      hexBytes s = concat (l.map (·.1)) ++ rest → hexBytes s' = concat (l.map (·.2)) ++ rest →
      (∀ t ∈ [s, s'], (∀ c ∈ t, c.toNat < 128) → ¬ ∃ rs, IsIngenico masks t rs) →
      run m { autoTlv := some s } masks sort = run m { autoTlv := some s' } masks sort) := by
  have key : autoParse m s masks = autoParse m s' masks →
      run m { autoTlv := some s } masks sort = run m { autoTlv := some s' } masks sort := by
    intro h
    show runAuto m s masks sort = runAuto m s' masks sort
    rw [runAuto, runAuto, h]
  constructor
  · intro l hl hne hs hs' ha
    refine key ?_
    have h : ingParse m s masks = ingParse m s' masks := by
      have := ingParse_hidden (m := m) l hl [] (fun c hc => ha c (List.mem_append_left _ (by rw [hs]; simpa using hc)))
        (fun c hc => ha c (List.mem_append_right _ (by rw [hs']; simpa using hc)))
        (by rw [List.append_nil, ← hs]; exact hm) (by rw [List.append_nil, ← hs']; exact hm')
      rwa [List.append_nil, List.append_nil, ← hs, ← hs'] at this
    have hok : ∃ b, ingParse m s masks = .ok b := by
      have hi := isIngenico_render masks (l.map (·.1)) (by
        intro p hp
        obtain ⟨q, hq, rfl⟩ := List.mem_map.1 hp
        exact (hl q hq).1)
      exact ⟨_, ingParse_of_isIngenico hm (fun c hc => ha c (List.mem_append_left _ hc)) (hs ▸ hi)⟩
    obtain ⟨b, hb⟩ := hok
    have n1 : s ≠ [] := by
      cases l with
      | nil => exact absurd rfl hne
      | cons p l => rw [hs]; simp [render, Record.text]
    have n2 : s' ≠ [] := by
      cases l with
      | nil => exact absurd rfl hne
      | cons p l => rw [hs']; simp [render, Record.text]
    rw [((c29_agrees masks s hm).1 b).2 ⟨n1, hb⟩, ((c29_agrees masks s' hm').1 b).2 ⟨n2, h ▸ hb⟩]
  · intro l rest hl hne hs hs' hc
    refine key ?_
    have f1 := fits_mono hm (hexBytes_le s)
    have f2 := fits_mono hm' (hexBytes_le s')
    have h := berParse_hidden (m := m) l hl rest (by rw [← hs]; exact f1) (by rw [← hs']; exact f2)
    rw [← hs, ← hs', ← parseHexStr_eq, ← parseHexStr_eq] at h
    obtain ⟨p, hp⟩ : ∃ p, p ∈ l := by
      cases l with
      | nil => exact absurd rfl hne
      | cons p l => exact ⟨p, by simp⟩
    have n1 : s ≠ [] := by
      rintro rfl
      cases l with
      | nil => exact hne rfl
      | cons p l =>
        simp only [List.map_cons, concat, List.flatMap_cons, List.append_assoc] at hs
        exact elem_bytes_ne_nil (hl p (by simp)).1 _ hs.symm
    have n2 : s' ≠ [] := by
      rintro rfl
      cases l with
      | nil => exact hne rfl
      | cons p l =>
        simp only [List.map_cons, concat, List.flatMap_cons, List.append_assoc] at hs'
        exact elem_bytes_ne_nil (hl p (by simp)).2.1 _ hs'.symm
    have ber : ∀ t ∈ [s, s'], Fits m t.length → t ≠ [] →
        (∃ b, berParse m (parseHexStr t) masks = .ok b ∧ autoParse m t masks = .ok (.berTlv, b)) ∨
        (¬ ∃ b, berParse m (parseHexStr t) masks = .ok b) ∧ autoParse m t masks = .err .unrecognised := by
      intro t ht hmt hne
      have hi := hc t ht
      by_cases hb : ∃ b, berParse m (parseHexStr t) masks = .ok b
      · obtain ⟨b, hb⟩ := hb
        refine Or.inl ⟨b, hb, ((c29_agrees masks t hmt).2.1 b).2 ⟨hne, ?_, hb⟩⟩
        rintro ⟨b', h'⟩
        obtain ⟨ha, rs, hr, -⟩ := (c21_language masks t hmt b').1 h'
        exact hi ha ⟨rs, hr⟩
      · refine Or.inr ⟨hb, (c31_rejected_iff masks t hmt).2 (Or.inr ⟨fun h => hi h.1 h.2, ?_⟩)⟩
        rwa [← c10_acceptance masks _ (by rw [parseHexStr_eq]; exact fits_mono hmt (hexBytes_le t))]
    rcases ber s (by simp) hm n1 with ⟨b, hb, e⟩ | ⟨hb, e⟩ <;>
      rcases ber s' (by simp) hm' n2 with ⟨b', hb', e'⟩ | ⟨hb', e'⟩
    · rw [e, e']
      rw [h, hb'] at hb
      cases hb; rfl
    · exact absurd ⟨b, h ▸ hb⟩ hb'
    · exact absurd ⟨b', h ▸ hb'⟩ hb
    · rw [e, e']

example : run .debug64 { autoTlv := some "T5A:02:h****,".toList } ['*', '#'] true =
    run .debug64 { autoTlv := some "T5A:03:a###;".toList } ['*', '#'] true :=
  (c93_auto_partial ['*', '#'] true _ _ (by unfold Fits; decide +kernel) (by unfold Fits; decide +kernel)).1
    [((⟨'T', "5A".toList, "02".toList, 'h', "****".toList⟩, ','), (⟨'T', "5A".toList, "03".toList, 'a', "###".toList⟩, ';'))]
    (fun p hp => by
      have hm : IsMasked "****".toList ['*', '#'] := ⟨by decide, '*', by decide, by decide⟩
      rw [List.mem_singleton.1 hp]
      exact ⟨⟨by decide, by decide, by decide, by decide, Or.inr ⟨rfl, by decide +kernel, Or.inr hm⟩⟩,
        ⟨by decide, by decide, by decide, by decide, Or.inl ⟨rfl, by decide +kernel⟩⟩,
        Or.inr ⟨rfl, rfl, hm, ⟨by decide, '#', by decide, by decide⟩⟩⟩)
    (by simp) (by decide +kernel) (by decide +kernel) (by decide +kernel)

/-- **C93.** The other place where something masked shows: if the format is to be detected and records are followed by
something else, the text is read as BER-TLV after all, and the lengths of masked values decide what is read. -/
theorem c93_detection (sort : Bool) :
    ∃ (l : List ((Record × Char) × (Record × Char))) (rest s s' : Text),
      (∀ p ∈ l, HiddenRecord ['*'] p) ∧ s = render (l.map (·.1)) ++ rest ∧ s' = render (l.map (·.2)) ++ rest ∧
      (run .debug64 { ingenicoTlv := some s } ['*'] sort = run .debug64 { ingenicoTlv := some s' } ['*'] sort) ∧
      (run .debug64 { autoTlv := some s } ['*'] sort).stderr = none ∧
      (run .debug64 { autoTlv := some s' } ['*'] sort).stderr = some (ParseError.unrecognised.text ++ ['\n']) := by
  have hm : IsMasked "****".toList ['*'] := ⟨by decide, '*', by decide, by decide⟩
  refine ⟨[((⟨'T', "50".toList, "0002".toList, 'h', "****".toList⟩, ','),
      (⟨'T', "50".toList, "02".toList, 'h', "****".toList⟩, ','))], "00".toList, "T50:0002:h****,00".toList,
    "T50:02:h****,00".toList, ?_, by decide +kernel, by decide +kernel, ?_, ?_, ?_⟩
  · intro p hp
    rcases List.mem_singleton.1 hp with rfl
    exact ⟨⟨by decide, by decide, by decide, by decide, Or.inr ⟨rfl, by decide +kernel, Or.inr hm⟩⟩,
      ⟨by decide, by decide, by decide, by decide, Or.inr ⟨rfl, by decide +kernel, Or.inr hm⟩⟩,
      Or.inr ⟨rfl, rfl, hm, hm⟩⟩
  all_goals revert sort; decide +kernel

/-- **C93.** Inside a template the masked values are hidden in what is shown of the contents, but not in the size and
the bytes of the template itself: two templates whose contents differ only in what is masked are shown with the same
document inside. -/
theorem c93_template {m : Machine} (masks : List Char) (sort : Bool) (l : List (Elem × Elem))
    (hl : ∀ p ∈ l, HiddenElem masks p) (e e' : Elem) (hv : e.value = concat (l.map (·.1)))
    (hv' : e'.value = concat (l.map (·.2))) (hw : e.WF) (hw' : e'.WF) (ht : e.tag = e'.tag)
    (hc : typeOf e.tag = .constructed) (hk : ¬ IsMasked (latin1 e.value) masks)
    (hk' : ¬ IsMasked (latin1 e'.value) masks) (w w' : Text) (hb : hexBytes w = e.bytes)
    (hb' : hexBytes w' = e'.bytes) (hm : Fits m e.bytes.length) (hm' : Fits m e'.bytes.length)
    (b : RawEmvBlock) (h : berParse m e.value masks = .ok b) (hne : b ≠ []) (ha : AllAcceptable b)
    (hd : blockDepth b < 254 ∨ m.overflowChecks = false) :
    ∃ doc, Succeeds (run m { berTlv := some w } masks sort) (showLines 0 (
        [tagLine ⟨e.tag, classOf e.tag, .constructed, .normal e.value⟩] ++ rawLines (.normal e.value) ++
        title "Constructed Data Object's Child Tags:" :: deeper doc)) ∧
      Succeeds (run m { berTlv := some w' } masks sort) (showLines 0 (
        [tagLine ⟨e.tag, classOf e.tag, .constructed, .normal e'.value⟩] ++ rawLines (.normal e'.value) ++
        title "Constructed Data Object's Child Tags:" :: deeper doc)) := by
  obtain ⟨q, hq⟩ := (c34_ok_iff b).2 ha
  have l1 : e.value.length ≤ e.bytes.length := by simp [Elem.bytes]; omega
  have l2 : e'.value.length ≤ e'.bytes.length := by simp [Elem.bytes]; omega
  have f1 := fits_mono hm l1
  have f2 := fits_mono hm' l2
  have h' : berParse m e'.value masks = .ok b := by
    have := berParse_hidden (m := m) l hl [] (by rw [List.append_nil, ← hv]; exact f1)
      (by rw [List.append_nil, ← hv']; exact f2)
    rw [List.append_nil, List.append_nil, ← hv, ← hv', h] at this
    exact this.symm
  refine ⟨_, template_run masks sort hq hne hd e hw hc hk w hb hm h, ?_⟩
  have := template_run masks sort hq hne hd e' hw' (ht ▸ hc) hk' w' hb' hm' h'
  rw [← ht] at this
  exact this

example := c93_template (m := .debug64) ['*', '#'] true
  [(⟨[0x5A], [0x02], [0x2A, 0x2A]⟩, ⟨[0x5A], [0x81, 0x03], [0x23, 0x23, 0x23]⟩)]
  (fun p hp => by
    rw [List.mem_singleton.1 hp]
    exact ⟨⟨.low _ (by decide), .short 2 (by decide)⟩, ⟨.low _ (by decide), .long 0x81 [0x03] (by decide) (by decide)⟩,
      Or.inr ⟨rfl, ⟨by decide, '*', by decide, by decide⟩, ⟨by decide, '#', by decide, by decide⟩⟩⟩)
  ⟨[0x70], [4], [0x5A, 2, 0x2A, 0x2A]⟩ ⟨[0x70], [6], [0x5A, 0x81, 3, 0x23, 0x23, 0x23]⟩ rfl rfl
  ⟨.low _ (by decide), .short 4 (by decide)⟩ ⟨.low _ (by decide), .short 6 (by decide)⟩ rfl (by decide)
  (fun ⟨_, c, _, h⟩ => absurd ((h (Char.ofNat 0x5A) (by decide)).trans (h (Char.ofNat 2) (by decide)).symm) (by decide))
  (fun ⟨_, c, _, h⟩ => absurd ((h (Char.ofNat 0x5A) (by decide)).trans (h (Char.ofNat 3) (by decide)).symm) (by decide))
  "7004 5A022A2A".toList "7006 5A8103232323".toList (by decide +kernel) (by decide +kernel) (by unfold Fits; decide +kernel)
  (by unfold Fits; decide +kernel) [.mk ⟨[0x5A], .application, .primitive, .masked⟩ []] (by decide +kernel) (by simp)
  ((c34_ok_iff _).1 ⟨_, rfl⟩) (Or.inl (by decide))

/-- **C93.** A masked value inside a template is always given away: two templates that are shown and whose contents are not
the same bytes never look alike, not even without colours, whatever is masked. -/
theorem c93_given_away {m : Machine} (masks : List Char) (sort : Bool) (e e' : Elem) (hw : e.WF) (hw' : e'.WF)
    (hc : typeOf e.tag = .constructed) (hc' : typeOf e'.tag = .constructed) (hz : ¬ e.LongZero) (hz' : ¬ e'.LongZero)
    (hk : ¬ IsMasked (latin1 e.value) masks)
    (hk' : ¬ IsMasked (latin1 e'.value) masks) (w w' : Text) (hb : hexBytes w = e.bytes)
    (hb' : hexBytes w' = e'.bytes) (hm : Fits m e.bytes.length) (hm' : Fits m e'.bytes.length)
    (hd : ∀ b, berParse m e.value masks = .ok b → blockDepth b < 254)
    (hd' : ∀ b, berParse m e'.value masks = .ok b → blockDepth b < 254) (c c' : Cells)
    (hs : Succeeds (run m { berTlv := some w } masks sort) c)
    (hs' : Succeeds (run m { berTlv := some w' } masks sort) c') (hne : e.value ≠ e'.value) :
    c.map (·.1) ≠ c'.map (·.1) := by
  intro heq
  have p1 := template_parse masks e hw hz hc hk hm
  have p2 := template_parse masks e' hw' hz' hc' hk' hm'
  rw [← hb] at p1 hm
  rw [← hb'] at p2 hm'
  have d1 : ∀ (v : List Byte) (t : RawEmvTag), (∀ b, berParse m v masks = .ok b → blockDepth b < 254) →
      blockDepth [RawEmvNode.mk t (match berParse m v masks with | .ok b => b | _ => [])] ≤ 254 := by
    intro v t hd
    cases hp : berParse m v masks with
    | ok b =>
      have := hd b hp
      simp only [blockDepth, nodeDepth]; omega
    | _ => simp [blockDepth, nodeDepth]
  obtain ⟨a, h1, h2⟩ := c74_read_back masks masks _ _ sort sort _ _ (.ber hm p1) (.ber hm' p2) (d1 _ _ hd) (d1 _ _ hd')
    c c' hs hs' heq
  have e1 := (arranged_levels 0 h1).symm.trans (arranged_levels 0 h2)
  have hmem := e1.mem_iff.1 (List.mem_cons_self (a := (0, (⟨e.tag, classOf e.tag, .constructed, .normal e.value⟩ : RawEmvTag))))
  simp only [blockLevels, nodeLevels, List.append_nil, List.mem_cons] at hmem
  rcases hmem with hmem | hmem
  · simp only [Prod.mk.injEq, RawEmvTag.mk.injEq, EmvData.normal.injEq] at hmem
    exact hne hmem.2.2.2.2
  · have := blockLevels_ge _ _ _ hmem
    simp at this

/-- The same masked card number with two different masking characters, in a template: the displays differ. -/
example : ∃ c c', Succeeds (run .debug64 { berTlv := some "7004 5A022A2A".toList } ['*', '#'] true) c ∧
    Succeeds (run .debug64 { berTlv := some "7004 5A022323".toList } ['*', '#'] true) c' ∧ c.map (·.1) ≠ c'.map (·.1) := by
  have nm : ∀ v : List Byte, v = [0x5A, 2, 0x2A, 0x2A] ∨ v = [0x5A, 2, 0x23, 0x23] → ¬ IsMasked (latin1 v) ['*', '#'] := by
    rintro v hv ⟨-, c, -, h⟩
    rcases hv with rfl | rfl
    · exact absurd ((h (Char.ofNat 0x5A) (by decide)).trans (h (Char.ofNat 2) (by decide)).symm) (by decide)
    · exact absurd ((h (Char.ofNat 0x5A) (by decide)).trans (h (Char.ofNat 2) (by decide)).symm) (by decide)
  have ok : ∀ t ∈ ["7004 5A022A2A".toList, "7004 5A022323".toList],
      Succeeds (run .debug64 { berTlv := some t } ['*', '#'] true)
        (paint plainStyle (run .debug64 { berTlv := some t } ['*', '#'] true).disp.evs) := by
    intro t ht
    simp only [List.mem_cons, List.not_mem_nil, or_false] at ht
    rcases ht with rfl | rfl <;>
      exact ⟨⟨by decide +kernel, rfl, by decide +kernel⟩, by decide +kernel, by decide +kernel, by decide +kernel⟩
  have dep : ∀ v : List Byte, v = [0x5A, 2, 0x2A, 0x2A] ∨ v = [0x5A, 2, 0x23, 0x23] →
      ∀ b, berParse .debug64 v ['*', '#'] = .ok b → blockDepth b < 254 := by
    rintro v hv b h
    rcases hv with rfl | rfl <;> (cases h; decide)
  refine ⟨_, _, ok _ (by simp), ok _ (by simp), c93_given_away (m := .debug64) ['*', '#'] true
    ⟨[0x70], [4], [0x5A, 2, 0x2A, 0x2A]⟩ ⟨[0x70], [4], [0x5A, 2, 0x23, 0x23]⟩ ⟨.low _ (by decide), .short 4 (by decide)⟩
    ⟨.low _ (by decide), .short 4 (by decide)⟩ (by decide) (by decide) (fun h => nomatch h.1) (fun h => nomatch h.1)
    (nm _ (Or.inl rfl)) (nm _ (Or.inr rfl)) _ _ (by decide +kernel) (by decide +kernel) (by unfold Fits; decide +kernel)
    (by unfold Fits; decide +kernel) (dep _ (Or.inl rfl)) (dep _ (Or.inr rfl)) _ _ (ok _ (by simp)) (ok _ (by simp))
    (by decide)⟩

/-- **C93.** So what is masked inside a template does not stay hidden. -/
theorem c93_refuted {m : Machine} (sort : Bool) (hm : Fits m 7) :
    ∃ (l : List (Elem × Elem)) (tag len len' : List Byte) (w w' : Text) (c c' : Cells),
      (∀ p ∈ l, HiddenElem ['*'] p) ∧ Elem.WF ⟨tag, len, concat (l.map (·.1))⟩ ∧
      Elem.WF ⟨tag, len', concat (l.map (·.2))⟩ ∧
      hexBytes w = Elem.bytes ⟨tag, len, concat (l.map (·.1))⟩ ∧
      hexBytes w' = Elem.bytes ⟨tag, len', concat (l.map (·.2))⟩ ∧
      Succeeds (run m { berTlv := some w } ['*'] sort) c ∧
      Succeeds (run m { berTlv := some w' } ['*'] sort) c' ∧ c.map (·.1) ≠ c'.map (·.1) := by
  have hl : ∀ p ∈ [((⟨[0x5A], [0x02], [0x2A, 0x2A]⟩, ⟨[0x5A], [0x03], [0x2A, 0x2A, 0x2A]⟩) : Elem × Elem)],
      HiddenElem ['*'] p := by
    intro p hp
    rcases List.mem_singleton.1 hp with rfl
    exact ⟨⟨.low _ (by decide), .short 2 (by decide)⟩, ⟨.low _ (by decide), .short 3 (by decide)⟩,
      Or.inr ⟨rfl, ⟨by decide, '*', by decide, by decide⟩, ⟨by decide, '*', by decide, by decide⟩⟩⟩
  have hw : Elem.WF ⟨[0x70], [0x04], [0x5A, 0x02, 0x2A, 0x2A]⟩ := ⟨.low _ (by decide), .short 4 (by decide)⟩
  have hw' : Elem.WF ⟨[0x70], [0x05], [0x5A, 0x03, 0x2A, 0x2A, 0x2A]⟩ := ⟨.low _ (by decide), .short 5 (by decide)⟩
  have hk : ¬ IsMasked (latin1 [0x5A, 0x02, 0x2A, 0x2A]) ['*'] := by
    rintro ⟨-, c, hc, h⟩
    rcases List.mem_singleton.1 hc with rfl
    exact absurd (h 'Z' (by decide)) (by decide)
  have hk' : ¬ IsMasked (latin1 [0x5A, 0x03, 0x2A, 0x2A, 0x2A]) ['*'] := by
    rintro ⟨-, c, hc, h⟩
    rcases List.mem_singleton.1 hc with rfl
    exact absurd (h 'Z' (by decide)) (by decide)
  have hb : hexBytes "70045A022A2A".toList = Elem.bytes ⟨[0x70], [0x04], [0x5A, 0x02, 0x2A, 0x2A]⟩ := by decide +kernel
  have hb' : hexBytes "70055A032A2A2A".toList = Elem.bytes ⟨[0x70], [0x05], [0x5A, 0x03, 0x2A, 0x2A, 0x2A]⟩ := by
    decide +kernel
  have m1 : Fits m (Elem.bytes ⟨[0x70], [0x04], [0x5A, 0x02, 0x2A, 0x2A]⟩).length := fits_mono hm (by decide)
  have m2 : Fits m (Elem.bytes ⟨[0x70], [0x05], [0x5A, 0x03, 0x2A, 0x2A, 0x2A]⟩).length := fits_mono hm (by decide)
  have p1 : berParse m [0x5A, 0x02, 0x2A, 0x2A] ['*'] = .ok [.mk ⟨[0x5A], .application, .primitive, .masked⟩ []] :=
    masked_parse ['*'] ⟨[0x5A], [0x02], [0x2A, 0x2A]⟩ (hl _ (List.mem_singleton.2 rfl)).1
      ⟨by decide, '*', by decide, by decide⟩ (fits_mono hm (by decide))
  have p2 : berParse m [0x5A, 0x03, 0x2A, 0x2A, 0x2A] ['*'] = .ok [.mk ⟨[0x5A], .application, .primitive, .masked⟩ []] :=
    masked_parse ['*'] ⟨[0x5A], [0x03], [0x2A, 0x2A, 0x2A]⟩ (hl _ (List.mem_singleton.2 rfl)).2.1
      ⟨by decide, '*', by decide, by decide⟩ (fits_mono hm (by decide))
  have ha : AllAcceptable [.mk ⟨[0x5A], .application, .primitive, .masked⟩ []] := by
    intro t ht d hd
    simp only [blockTags, nodeTags, List.append_nil, List.mem_singleton] at ht
    subst ht
    cases hd
  have hd : ∀ b : RawEmvBlock, (.ok [.mk ⟨[0x5A], .application, .primitive, .masked⟩ []] : Out RawEmvBlock) = .ok b →
      blockDepth b < 254 := by
    intro b hb
    cases hb
    decide
  obtain ⟨doc, s1, s2⟩ := c93_template ['*'] sort _ hl _ _ rfl rfl hw hw' rfl rfl hk hk' _ _ hb hb' m1 m2 _ p1
    (by simp) ha (Or.inl (hd _ rfl))
  exact ⟨_, [0x70], [0x04], [0x05], _, _, _, _, hl, hw, hw', hb, hb', s1, s2,
    c93_given_away ['*'] sort _ _ hw hw' rfl rfl (fun h => by cases h.1) (fun h => by cases h.1) hk hk' _ _ hb hb' m1 m2
      (by rw [p1]; exact hd) (by rw [p2]; exact hd) _ _ s1 s2 (by decide)⟩

/-- A masked account number of two and of three characters, as BER-TLV and as records. -/
example : HiddenElem ['*', '#'] (⟨[0x5A], [0x02], [0x2A, 0x2A]⟩, ⟨[0x5A], [0x81, 0x03], [0x23, 0x23, 0x23]⟩) ∧
    HiddenRecord ['*', '#'] ((⟨'T', "5A".toList, "02".toList, 'h', "****".toList⟩, ','),
      (⟨'T', "5A".toList, "03".toList, 'a', "###".toList⟩, ';')) ∧
    (∀ c ∈ render [(⟨'T', "5A".toList, "02".toList, 'h', "****".toList⟩, ',')] ++
      render [(⟨'T', "5A".toList, "03".toList, 'a', "###".toList⟩, ';')], c.toNat < 128) := by
  have hm : IsMasked "****".toList ['*', '#'] := ⟨by decide, '*', by decide, by decide⟩
  refine ⟨⟨⟨.low _ (by decide), .short 2 (by decide)⟩,
      ⟨.low _ (by decide), .long 0x81 [0x03] (by decide) (by decide)⟩,
      Or.inr ⟨rfl, ⟨by decide, '*', by decide, by decide⟩, ⟨by decide, '#', by decide, by decide⟩⟩⟩,
    ⟨⟨by decide, by decide, by decide, by decide, Or.inr ⟨rfl, by decide +kernel, Or.inr hm⟩⟩,
      ⟨by decide, by decide, by decide, by decide, Or.inl ⟨rfl, by decide +kernel⟩⟩,
      Or.inr ⟨rfl, rfl, hm, ⟨by decide, '#', by decide, by decide⟩⟩⟩, by decide +kernel⟩

end Pemv
