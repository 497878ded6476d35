import Verif.Proofs.Ingenico
import Verif.Props.Ber
import Verif.Proofs.NodeEq

/-!
# C21 – C28: the Ingenico parser
-/

namespace Pemv

open Spec

/-! ### C21 -/

/-- **C21.** The parser accepts exactly the ASCII texts made of well-formed records, and reports the
records of type `T` in order. -/
theorem c21_language {m : Machine} (masks : List Char) (s : Text) (hm : Fits m s.length)
    (ns : RawEmvBlock) :
    ingParse m s masks = .ok ns ↔ (∀ c ∈ s, c.toNat < 128) ∧ ∃ rs, IsIngenico masks s rs ∧
      ns = (emvRecords rs).map (Record.node (fun v => berParse m v masks) masks) := by
  constructor
  · intro h
    by_cases hs : ∀ c ∈ s, c.toNat < 128
    · refine ⟨hs, ?_⟩
      rw [ingParse_eq masks s hm hs] at h
      cases hr : readRecords masks s with
      | error e => rw [hr] at h; cases h
      | ok rs =>
        rw [hr] at h
        cases h
        exact ⟨rs, (readRecords_iff hs rs).1 hr, rfl⟩
    · rw [ingParse_nonascii masks s hs] at h; cases h
  · rintro ⟨hs, rs, h, rfl⟩
    exact ingParse_of_isIngenico hm hs h

example : ∃ rs, IsIngenico ['*'] "T9f02:03:h123456|Q5A:02:aXY;T5A:02:h****\n".toList rs :=
  let ⟨_, rs, h, _⟩ := (c21_language (m := .debug64) ['*'] _ (by unfold Fits; decide +kernel)
    [.mk ⟨[0x9F, 0x02], .contextSpecific, .primitive, .normal [0x12, 0x34, 0x56]⟩ [],
      .mk ⟨[0x5A], .application, .primitive, .masked⟩ []]).1 (by decide +kernel)
  ⟨rs, h⟩

/-- **C21.** The records of an accepted text are unique. -/
theorem c21_unique (masks : List Char) (s : Text) (hs : ∀ c ∈ s, c.toNat < 128) (rs rs' : List Record)
    (h : IsIngenico masks s rs) (h' : IsIngenico masks s rs') : rs = rs' := by
  have h1 := (readRecords_iff hs rs).2 h
  rw [(readRecords_iff hs rs').2 h'] at h1
  cases h1
  rfl

/-- A record that is shown, one that is skipped, and a masked one, with three different separators. -/
example : ingParse .debug64 "T9f02:03:h123456|Q5A:02:aXY;T5A:02:h****\n".toList ['*'] =
    .ok [.mk ⟨[0x9F, 0x02], .contextSpecific, .primitive, .normal [0x12, 0x34, 0x56]⟩ [],
      .mk ⟨[0x5A], .application, .primitive, .masked⟩ []] := by decide +kernel
example : ∀ c ∈ "T9f02:03:h123456|Q5A:02:aXY;T5A:02:h****\n".toList, c.toNat < 128 := by decide

/-! ### C22 -/

/-- **C22.** Data objects written as hex or ASCII records, with any ASCII separators, are read back.
Excluded are only tags with superfluous leading zero bytes and values that look masked. -/
theorem c22_round_trip {m : Machine} (masks : List Char)
    (l : List (List Byte × List Byte × Bool × Char))
    (htag : ∀ p ∈ l, p.1 ≠ [] ∧ (p.1.length = 1 ∨ p.1.head? ≠ some 0))
    (hval : ∀ p ∈ l, p.2.1.length < 2 ^ 32)
    (hascii : ∀ p ∈ l, p.2.2.1 = true → ∀ b ∈ p.2.1, b.toNat < 128)
    (hsep : ∀ p ∈ l, p.2.2.2.toNat < 128)
    (hmask : ∀ p ∈ l, ¬ IsMasked (writeRecord p.2.2.1 p.1 p.2.1).value masks)
    (hm : Fits m (render (l.map (fun p => (writeRecord p.2.2.1 p.1 p.2.1, p.2.2.2)))).length) :
    ingParse m (render (l.map (fun p => (writeRecord p.2.2.1 p.1 p.2.1, p.2.2.2)))) masks =
      .ok (l.map (fun p => .mk ⟨p.1, classOf p.1, typeOf p.1, .normal p.2.1⟩
        (childrenOf (fun v => berParse m v masks) (typeOf p.1) (.normal p.2.1)))) := by
  have key := fun p hp => writeRecord_spec p.2.2.1 (htag p hp).1 (htag p hp).2 (hval p hp) (hascii p hp)
    (hmask p hp)
  rw [ingParse_of_isIngenico hm ?_ (isIngenico_render masks _ ?_)]
  · congr 1
    clear hm htag hval hascii hsep hmask
    induction l with
    | nil => rfl
    | cons p l ih =>
      obtain ⟨-, k1, k2, -⟩ := key p (by simp)
      have ih := ih (fun q hq => key q (by simp [hq]))
      rw [List.map_map] at ih ⊢
      simp only [List.map_cons, emvRecords] at ih ⊢
      rw [List.filter_cons_of_pos (by rfl), List.map_cons, ih]
      congr 1
      show Record.node _ masks (writeRecord p.2.2.1 p.1 p.2.1) = _
      rw [Record.node, k1, k2]
  · intro c hc
    obtain ⟨q, hq, hc⟩ := List.mem_flatMap.1 hc
    obtain ⟨p, hp, rfl⟩ := List.mem_map.1 hq
    rcases List.mem_append.1 hc with hc | hc
    · exact (key p hp).2.2.2 c hc
    · rw [List.mem_singleton.1 hc]; exact hsep p hp
  · intro q hq
    obtain ⟨p, hp, rfl⟩ := List.mem_map.1 hq
    exact (key p hp).1

/-- A hex and an ASCII record. -/
example : render ([([0x9F, 0x02], [0x12, 0xAB], false, ','), ([0x50], [0x56, 0x49], true, '\n')].map
    (fun p => (writeRecord p.2.2.1 p.1 p.2.1, p.2.2.2))) = "T9F02:02:h12AB,T50:02:aVI\n".toList := by
  decide
example : ingParse .release64 "T9F02:02:h12AB,T50:02:aVI\n".toList ['*'] =
    .ok [.mk ⟨[0x9F, 0x02], .contextSpecific, .primitive, .normal [0x12, 0xAB]⟩ [],
      .mk ⟨[0x50], .application, .primitive, .normal [0x56, 0x49]⟩ []] := by decide +kernel

/-! ### C23 -/

/-- **C23.** The separators, and whether there is one after the last record, do not matter. -/
theorem c23_separator {m : Machine} (masks : List Char) (l l' : List (Record × Char)) (r : Record)
    (c : Char) (hsame : l.map (·.1) = l'.map (·.1)) (hl : ∀ p ∈ l, p.1.WF masks) (hr : r.WF masks)
    (ha : ∀ x ∈ render l ++ r.text, x.toNat < 128)
    (ha' : ∀ x ∈ render (l' ++ [(r, c)]), x.toNat < 128)
    (hm : Fits m (render (l' ++ [(r, c)])).length) :
    ingParse m (render l ++ r.text) masks = ingParse m (render l' ++ r.text) masks ∧
    ingParse m (render (l' ++ [(r, c)])) masks = ingParse m (render l' ++ r.text) masks := by
  have hl' : ∀ p ∈ l', p.1.WF masks := by
    intro p hp
    have : p.1 ∈ l.map (·.1) := by rw [hsame]; exact List.mem_map_of_mem hp
    obtain ⟨q, hq, hqp⟩ := List.mem_map.1 this
    exact hqp ▸ hl q hq
  have hren : ∀ (k k' : List (Record × Char)), k.map (·.1) = k'.map (·.1) →
      (render k).length = (render k').length := by
    intro k
    induction k with
    | nil => intro k' h; cases k' with
      | nil => rfl
      | cons => cases h
    | cons p k ih =>
      intro k' h
      cases k' with
      | nil => cases h
      | cons p' k' =>
        simp only [List.map_cons, List.cons.injEq] at h
        have := ih k' h.2
        simp only [render, List.flatMap_cons, List.length_append, h.1] at this ⊢
        rw [this]
        simp
  have e : render (l' ++ [(r, c)]) = render l' ++ r.text ++ [c] := by simp [render]
  have hm2 : Fits m (render l' ++ r.text).length := fits_mono hm (by rw [e]; simp)
  have ha2 : ∀ x ∈ render l' ++ r.text, x.toNat < 128 :=
    fun x hx => ha' x (by rw [e]; exact List.mem_append_left _ hx)
  have h1 := ingParse_of_isIngenico (m := m) (fits_mono hm2 (by simp [hren l l' hsame])) ha
    (isIngenico_render_last masks l r hl hr)
  have h2 := ingParse_of_isIngenico hm2 ha2 (isIngenico_render_last masks l' r hl' hr)
  have h3 := ingParse_of_isIngenico hm ha' (isIngenico_render masks (l' ++ [(r, c)]) (by
    intro p hp
    rcases List.mem_append.1 hp with hp | hp
    · exact hl' p hp
    · rw [List.mem_singleton.1 hp]; exact hr))
  rw [h1, h2, h3, hsame]
  exact ⟨rfl, by simp⟩

/-- Separators may look like parts of records. -/
example : ingParse .debug64 "T5A:01:h12,T95:00:a".toList [] = ingParse .debug64 "T5A:01:h12:T95:00:a".toList [] ∧
    ingParse .debug64 "T5A:01:h12TT95:00:a5".toList [] = ingParse .debug64 "T5A:01:h12:T95:00:a".toList [] := by
  decide +kernel
example : (⟨'T', "5A".toList, "01".toList, 'h', "12".toList⟩ : Record).WF [] :=
  ⟨by decide, by decide, by decide, by decide, Or.inr ⟨rfl, by decide, Or.inl (by decide)⟩⟩

/-! ### C24 -/

/-- **C24.** Records of other types can be removed, with their separators. -/
theorem c24_skips_other_types {m : Machine} (masks : List Char) (l : List (Record × Char))
    (hl : ∀ p ∈ l, p.1.WF masks) (ha : ∀ x ∈ render l, x.toNat < 128) (hm : Fits m (render l).length) :
    ingParse m (render l) masks = ingParse m (render (l.filter (fun p => p.1.typ == 'T'))) masks := by
  have hsub : ∀ x ∈ render (l.filter (fun p => p.1.typ == 'T')), x ∈ render l := by
    intro x hx
    obtain ⟨p, hp, hx⟩ := List.mem_flatMap.1 hx
    exact List.mem_flatMap.2 ⟨p, (List.mem_filter.1 hp).1, hx⟩
  have hlen : (render (l.filter (fun p => p.1.typ == 'T'))).length ≤ (render l).length := by
    clear hl ha hm hsub
    induction l with
    | nil => simp
    | cons p l ih =>
      rw [List.filter_cons]
      split
      · simp only [render, List.flatMap_cons, List.length_append] at ih ⊢; omega
      · simp only [render, List.flatMap_cons, List.length_append] at ih ⊢; omega
  rw [ingParse_of_isIngenico hm ha (isIngenico_render masks l hl),
    ingParse_of_isIngenico (fits_mono hm hlen) (fun x hx => ha x (hsub x hx))
      (isIngenico_render masks _ (fun p hp => hl p (List.mem_filter.1 hp).1))]
  congr 2
  clear hl ha hm hsub hlen
  induction l with
  | nil => rfl
  | cons p l ih =>
    simp only [emvRecords] at ih ⊢
    by_cases hp : (p.1.typ == 'T') = true
    · simp only [List.map_cons, List.filter_cons, hp, if_true, ih]
    · simp only [List.map_cons, List.filter_cons, hp, ih]; rfl

example := c24_skips_other_types (m := .debug64) []
  [(⟨'C', "1F".toList, "02".toList, 'a', "::".toList⟩, '|'), (⟨'T', "5A".toList, "01".toList, 'h', "12".toList⟩, ',')]
  (fun p hp => by
    simp only [List.mem_cons, List.not_mem_nil, or_false] at hp
    rcases hp with rfl | rfl
    · exact ⟨by decide, by decide, by decide, by decide, Or.inl ⟨rfl, by decide⟩⟩
    · exact ⟨by decide, by decide, by decide, by decide, Or.inr ⟨rfl, by decide, Or.inl (by decide)⟩⟩)
  (by decide +kernel) (by unfold Fits; decide +kernel)

/-- **C24.** The same for a text that ends in a record without separator. -/
theorem c24_skips_last {m : Machine} (masks : List Char) (l : List (Record × Char)) (r : Record)
    (hl : ∀ p ∈ l, p.1.WF masks) (hr : r.WF masks) (hT : r.typ ≠ 'T')
    (ha : ∀ x ∈ render l ++ r.text, x.toNat < 128) (hm : Fits m (render l ++ r.text).length) :
    ingParse m (render l ++ r.text) masks = ingParse m (render l) masks := by
  rw [ingParse_of_isIngenico hm ha (isIngenico_render_last masks l r hl hr),
    ingParse_of_isIngenico (fits_mono hm (by simp)) (fun x hx => ha x (List.mem_append_left _ hx))
      (isIngenico_render masks l hl)]
  congr 2
  simp [emvRecords, hT]

example : ingParse .debug64 "C1F:03:a:::|T5A:01:h12|D01:00:h".toList [] =
    .ok [.mk ⟨[0x5A], .application, .primitive, .normal [0x12]⟩ []] := by decide +kernel

/-! ### C25 -/

/-- **C25.** Letter case of hex digits and leading zero bytes of tags do not matter, as long as no
masking character is a hex letter. -/
theorem c25_case_and_padding {m : Machine} (masks : List Char)
    (hmasks : ∀ x ∈ masks, x ∉ "abcdefABCDEF".toList) (l : List ((Record × Char) × (Record × Char)))
    (hsame : ∀ p ∈ l, SameRecord p.1.1 p.2.1) (hl : ∀ p ∈ l, p.1.1.WF masks)
    (ha : ∀ x ∈ render (l.map (·.1)), x.toNat < 128) (ha' : ∀ x ∈ render (l.map (·.2)), x.toNat < 128)
    (hm : Fits m (render (l.map (·.1))).length) (hm' : Fits m (render (l.map (·.2))).length) :
    ingParse m (render (l.map (·.1))) masks = ingParse m (render (l.map (·.2))) masks := by
  have key := fun p hp => sameRecord_spec (hsame p hp) hmasks (hl p hp)
  rw [ingParse_of_isIngenico hm ha (isIngenico_render masks _ (by
      intro q hq
      obtain ⟨p, hp, rfl⟩ := List.mem_map.1 hq
      exact hl p hp)),
    ingParse_of_isIngenico hm' ha' (isIngenico_render masks _ (by
      intro q hq
      obtain ⟨p, hp, rfl⟩ := List.mem_map.1 hq
      exact (key p hp).1))]
  congr 1
  clear hsame hl ha ha' hm hm'
  induction l with
  | nil => rfl
  | cons p l ih =>
    have ih := ih (fun q hq => key q (by simp [hq]))
    obtain ⟨-, k1, k2, k3⟩ := key p (by simp)
    simp only [List.map_cons, emvRecords] at ih ⊢
    have hn : Record.node (fun v => berParse m v masks) masks p.2.1 =
        Record.node (fun v => berParse m v masks) masks p.1.1 := by
      rw [Record.node, Record.node, k2, k3]
    rw [List.filter_cons, List.filter_cons, k1]
    split
    · rw [List.map_cons, List.map_cons, ih, hn]
    · exact ih

example : ingParse .debug64 "T00009f1A:02:hAbcD".toList ['*'] = ingParse .debug64 "T9F1a:02:haBCd".toList ['*'] := by decide +kernel
example : SameRecord ⟨'T', "00009f1A".toList, "0a".toList, 'h', "AbcD".toList⟩
    ⟨'T', "9F1a".toList, "0A".toList, 'h', "aBCd".toList⟩ :=
  ⟨rfl, rfl, ⟨2, 0, "9f1A".toList, "9F1a".toList, by decide, by decide,
    ⟨Or.inl rfl, Or.inr ⟨15, by decide⟩, Or.inl rfl, Or.inr ⟨10, by decide⟩, trivial⟩, by decide⟩,
    ⟨Or.inl rfl, Or.inr ⟨10, by decide⟩, trivial⟩,
    ⟨Or.inr ⟨10, by decide⟩, Or.inr ⟨11, by decide⟩, Or.inr ⟨12, by decide⟩, Or.inr ⟨13, by decide⟩, trivial⟩⟩

/-- **C25.** The restriction is needed: with the masking character `F`, `FF` is masked but `ff` is not. -/
theorem c25_hex_letter_mask :
    ingParse .debug64 "T5A:01:hFF".toList ['F'] = .ok [.mk ⟨[0x5A], .application, .primitive, .masked⟩ []] ∧
    ingParse .debug64 "T5A:01:hff".toList ['F'] =
      .ok [.mk ⟨[0x5A], .application, .primitive, .normal [0xFF]⟩ []] := by decide +kernel

/-! ### C26 -/

/-- **C26.** Parsing returns a block or an error for every text, ASCII or not, if `usize` has room. -/
theorem c26_returns {m : Machine} (masks : List Char) (s : Text) (hm : Fits m s.length) :
    (∃ ns, ingParse m s masks = .ok ns) ∨ ∃ e, ingParse m s masks = .err e := by
  have := ingParse_returned masks s hm
  cases h : ingParse m s masks with
  | ok ns => exact Or.inl ⟨ns, rfl⟩
  | err e => exact Or.inr ⟨e, rfl⟩
  | panic => rw [h] at this; cases this
  | diverge => rw [h] at this; cases this

example := c26_returns (m := .debug64) ['*'] "T5A:FFFFFFFF:h".toList (by unfold Fits; decide +kernel)

/-- **C26.** The 64-bit statement. -/
theorem c26_returns_64 {m : Machine} (h64 : m.usizeBits = 64) (masks : List Char) (s : Text)
    (h : s.length < 2 ^ 63) :
    (∃ ns, ingParse m s masks = .ok ns) ∨ ∃ e, ingParse m s masks = .err e :=
  c26_returns masks s (c16_fits_64 h64 _ h)

example := c26_returns_64 (m := .release64) rfl ['*'] "T5A:FFFFFFFF:h".toList (by decide +kernel)

/-- **C26.** On 32-bit targets the claim is false in both build modes. -/
theorem c26_panics_on_32_bit {m : Machine} (h : m.usizeBits = 32) :
    ingParse m "T5A:FFFFFFFF:h".toList [] = .panic := by
  obtain ⟨b, c⟩ := m
  simp only at h
  subst h
  cases c <;> decide +kernel

example : Machine.debug32.usizeBits = 32 ∧ Machine.release32.usizeBits = 32 := ⟨rfl, rfl⟩

example : ingParse .debug64 "T5A:FFFFFFFF:h".toList [] = .err .nonCompliant := by decide +kernel
/-- Characters of several bytes. -/
example : ingParse .debug64 "T5A:02:aé".toList [] = .err .nonCompliant := by decide +kernel

/-! ### C27 -/

/-- **C27 is false of the code.** The length `8` is read as 0 and `108` as 16. -/
theorem c27_false :
    ingParse .debug64 "T5A:8:h".toList [] = .ok [.mk ⟨[0x5A], .application, .primitive, .normal []⟩ []] ∧
    ingParse .debug64 "T5A:8:h0123456789ABCDEF".toList [] = .err .nonCompliant ∧
    ingParse .debug64 "T50:108:a0123456789ABCDEF".toList [] =
      .ok [.mk ⟨[0x50], .application, .primitive, .normal (asBytes "0123456789ABCDEF".toList)⟩ []] := by
  decide +kernel

/-- **C27**, what is true: in accepted texts, a length field with an even number of digits is the
number of bytes of the value. Missing from the full claim: odd numbers of digits (`c27_odd`). -/
theorem c27_even_partial (masks : List Char) (s : Text) (rs : List Record) (h : IsIngenico masks s rs)
    (r : Record) (hr : r ∈ rs) (heven : r.lenHex.length % 2 = 0) :
    (r.fmt = 'a' → r.value.length = r.lengthValue) ∧ (r.fmt = 'h' → r.value.length = 2 * r.lengthValue) := by
  have hw : r.WF masks := by
    induction h with
    | nil => cases hr
    | last x hx => rw [List.mem_singleton.1 hr]; exact hx
    | cons x hx sep rest xs hrest ih =>
      rcases List.mem_cons.1 hr with rfl | hr
      · exact hx
      · exact ih hr
  have e := record_length r hw.lenHex
  rw [if_pos heven] at e
  have hah : 'a' ≠ 'h' := by decide
  rcases hw.value with ⟨hf, hl⟩ | ⟨hf, hl, -⟩
  · exact ⟨fun _ => by rw [hl, e], fun h => absurd (hf.symm.trans h) hah⟩
  · exact ⟨fun h => absurd (h.symm.trans hf) hah, fun _ => by rw [hl, e]⟩

example := c27_even_partial [] _ _ (.last ⟨'T', "5A".toList, "01".toList, 'h', "12".toList⟩
  ⟨by decide, by decide, by decide, by decide, Or.inr ⟨rfl, by decide, Or.inl (by decide)⟩⟩) _ (List.mem_singleton.2 rfl) (by decide)

/-- **C27.** With an odd number of digits the last one is dropped. -/
theorem c27_odd (masks : List Char) (s : Text) (rs : List Record) (h : IsIngenico masks s rs)
    (r : Record) (hr : r ∈ rs) (hodd : r.lenHex.length % 2 = 1) :
    (r.fmt = 'a' → r.value.length = r.lengthValue / 16) ∧
    (r.fmt = 'h' → r.value.length = 2 * (r.lengthValue / 16)) := by
  have hw : r.WF masks := by
    induction h with
    | nil => cases hr
    | last x hx => rw [List.mem_singleton.1 hr]; exact hx
    | cons x hx sep rest xs hrest ih =>
      rcases List.mem_cons.1 hr with rfl | hr
      · exact hx
      · exact ih hr
  have e := record_length r hw.lenHex
  rw [if_neg (by omega)] at e
  have hah : 'a' ≠ 'h' := by decide
  rcases hw.value with ⟨hf, hl⟩ | ⟨hf, hl, -⟩
  · exact ⟨fun _ => by rw [hl, e], fun h => absurd (hf.symm.trans h) hah⟩
  · exact ⟨fun h => absurd (h.symm.trans hf) hah, fun _ => by rw [hl, e]⟩

example : (⟨'T', "50".toList, "0010".toList, 'a', "0123456789ABCDEF".toList⟩ : Record).lengthValue = 16 ∧
    ingParse .debug64 "T50:0010:a0123456789ABCDEF".toList [] =
      .ok [.mk ⟨[0x50], .application, .primitive, .normal (asBytes "0123456789ABCDEF".toList)⟩ []] := by
  decide +kernel

/-! ### C28 -/

/-- **C28.** The only errors are `NonCompliant` and `Unsupported`. -/
theorem c28_kinds {m : Machine} (masks : List Char) (s : Text) (hm : Fits m s.length) (x : ParseError)
    (h : ingParse m s masks = .err x) : x = .nonCompliant ∨ x = .unsupported := by
  by_cases hs : ∀ c ∈ s, c.toNat < 128
  · rw [ingParse_eq masks s hm hs] at h
    cases hr : readRecords masks s with
    | ok rs => rw [hr] at h; cases h
    | error y => rw [hr] at h; cases h; exact readRecords_error_kinds hr
  · rw [ingParse_nonascii masks s hs] at h; cases h; exact Or.inl rfl

example := c28_kinds (m := .debug64) [] "T5A:01:h12|T9F02:0000000001:a".toList (by unfold Fits; decide +kernel) .unsupported
  (by decide +kernel)

/-- **C28.** Any non-ASCII character makes the text `NonCompliant`. -/
theorem c28_non_ascii (m : Machine) (masks : List Char) (s : Text) (c : Char) (hc : c ∈ s)
    (h : 128 ≤ c.toNat) : ingParse m s masks = .err .nonCompliant :=
  ingParse_nonascii masks s (fun hs => absurd (hs c hc) (by omega))

example (m : Machine) : ingParse m "T5A:02:aé".toList ['*'] = .err .nonCompliant :=
  c28_non_ascii m ['*'] _ 'é' (by decide +kernel) (by decide)

/-- **C28.** `Unsupported` means: an ASCII text of records, then a record with a length field of at
least ten hex digits. -/
theorem c28_unsupported {m : Machine} (masks : List Char) (s : Text) (hm : Fits m s.length) :
    ingParse m s masks = .err .unsupported ↔ (∀ c ∈ s, c.toNat < 128) ∧
      ∃ l typ tagHex lenHex rest, s = render l ++ typ :: (tagHex ++ ':' :: (lenHex ++ ':' :: rest)) ∧
        (∀ p ∈ l, p.1.WF masks) ∧ (∀ c ∈ tagHex, IsHex c) ∧ 2 ≤ tagHex.length ∧
        (∀ c ∈ lenHex, IsHex c) ∧ 10 ≤ lenHex.length := by
  by_cases hs : ∀ c ∈ s, c.toNat < 128
  · rw [← readRecords_unsupported_iff hs, ingParse_eq masks s hm hs]
    cases readRecords masks s with
    | ok rs => simp
    | error x => simp; exact fun _ => hs
  · rw [ingParse_nonascii masks s hs]
    simp [hs]

example : ingParse .debug64 "T5A:01:h12|T9F02:0000000001:a".toList [] = .err .unsupported := by decide +kernel

end Pemv
