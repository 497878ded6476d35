import Verif.Spec.Cut
import Verif.Proofs.Rearranged
import Verif.Props.Auto

/-!
# Lemmas about data that are cut off
-/

namespace Pemv

open Spec

/-! ### Records one after the other -/

theorem nocolon_hex {t : Text} (h : ∀ c ∈ t, IsHex c) : ':' ∉ t := fun h' => colon_not_hex (h _ h')

/-- No record is the beginning of another. -/
theorem record_prefix {masks : List Char} {r r' : Record} {x : Text} (h : r.WF masks) (h' : r'.WF masks)
    (e : r.text = r'.text ++ x) : x = [] := by
  rw [Record.text, Record.text, List.cons_append, List.cons.injEq] at e
  have e := e.2
  rw [List.append_assoc, List.cons_append, List.append_assoc, List.cons_append, List.cons_append] at e
  have s1 := congrArg splitColon e
  rw [splitColon_append (nocolon_hex h.tagHex), splitColon_append (nocolon_hex h'.tagHex), Option.some.injEq,
    Prod.mk.injEq] at s1
  have s2 := congrArg splitColon s1.2
  rw [splitColon_append (nocolon_hex h.lenHex), splitColon_append (nocolon_hex h'.lenHex), Option.some.injEq,
    Prod.mk.injEq, List.cons.injEq] at s2
  obtain ⟨hl, hf, hv⟩ := s2
  have hlen : r.length = r'.length := by rw [Record.length, Record.length, hl]
  have hvl := congrArg List.length hv
  rw [List.length_append] at hvl
  refine List.eq_nil_of_length_eq_zero ?_
  rcases h.value with ⟨f, v⟩ | ⟨f, v, -⟩ <;> rcases h'.value with ⟨f', v'⟩ | ⟨f', v', -⟩
  · omega
  · rw [← hf, f] at f'; cases f'
  · rw [← hf, f] at f'; cases f'
  · omega

/-- The beginning of a record is not one. -/
theorem readRecord_cut {masks : List Char} {r : Record} {p q : Text} (h : r.WF masks) (hcut : r.text = p ++ q) (hq : q ≠ [])
    (ha : ∀ c ∈ p, c.toNat < 128) : readRecord masks p = .error .nonCompliant := by
  cases hr : readRecord masks p with
  | ok v =>
    obtain ⟨r', rest⟩ := v
    obtain ⟨e, h'⟩ := (readRecord_iff ha r' rest).1 hr
    rw [e, List.append_assoc] at hcut
    have := record_prefix h h' hcut
    exact absurd (List.append_eq_nil_iff.1 this).2 hq
  | error x =>
    rcases readRecord_error hr with rfl | ⟨-, typ, tagHex, lenHex, rest, e, h1, h2, h3, h4⟩
    · rfl
    · rw [e, Record.text, List.cons_append, List.cons.injEq] at hcut
      have e := hcut.2
      rw [List.append_assoc, List.cons_append, List.append_assoc, List.cons_append] at e
      have s1 := congrArg splitColon e
      rw [splitColon_append (nocolon_hex h.tagHex), splitColon_append (nocolon_hex h1), Option.some.injEq,
        Prod.mk.injEq] at s1
      have s2 := congrArg splitColon s1.2
      rw [splitColon_append (nocolon_hex h.lenHex), splitColon_append (nocolon_hex h3), Option.some.injEq,
        Prod.mk.injEq] at s2
      have := h.lenLen
      rw [s2.1] at this
      omega

theorem readRecords_render {masks : List Char} (l : List (Record × Char)) (s : Text) (hl : ∀ p ∈ l, p.1.WF masks)
    (hs : ∀ c ∈ render l ++ s, c.toNat < 128) : readRecords masks (render l ++ s) =
      match readRecords masks s with
      | .error e => .error e
      | .ok rs => .ok (l.map (·.1) ++ rs) := by
  induction l with
  | nil =>
    show readRecords masks s = _
    cases readRecords masks s <;> rfl
  | cons p l ih =>
    have e : render (p :: l) ++ s = p.1.text ++ p.2 :: (render l ++ s) := by simp [render]
    rw [e] at hs ⊢
    rw [readRecords_cons (by simp [Record.text]) ((readRecord_iff hs p.1 (p.2 :: _)).2 ⟨rfl, hl p (by simp)⟩),
      ih (fun q hq => hl q (by simp [hq])) (fun c hc => hs c (by rw [List.mem_append, List.mem_cons]; exact Or.inr (Or.inr hc)))]
    cases readRecords masks s <;> rfl

theorem emvRecords_append (a b : List Record) : emvRecords (a ++ b) = emvRecords a ++ emvRecords b :=
  List.filter_append ..

theorem ing_compositional {m : Machine} (masks : List Char) (l : List (Record × Char)) (s : Text) (hl : ∀ p ∈ l, p.1.WF masks)
    (b : RawEmvBlock) (hb : ingParse m (render l) masks = .ok b) (hm : Fits m (render l ++ s).length) :
    ingParse m (render l ++ s) masks = match ingParse m s masks with
      | .ok b' => .ok (b ++ b')
      | .err e => .err e
      | .panic => .panic
      | .diverge => .diverge := by
  have hm1 : Fits m (render l).length := fits_mono hm (by simp)
  have hm2 : Fits m s.length := fits_mono hm (by simp)
  have ha := ((c21_language masks _ hm1 b).1 hb).1
  by_cases hs : ∀ c ∈ s, c.toNat < 128
  · have has : ∀ c ∈ render l ++ s, c.toNat < 128 := fun c hc => (List.mem_append.1 hc).elim (ha c) (hs c)
    have hb' : b = (emvRecords (l.map (·.1))).map (Record.node (fun v => berParse m v masks) masks) := by
      rw [ingParse_of_isIngenico hm1 ha (isIngenico_render masks l hl)] at hb
      cases hb
      rfl
    rw [ingParse_eq masks _ hm has, readRecords_render l s hl has, ingParse_eq masks _ hm2 hs]
    cases readRecords masks s with
    | error e => rfl
    | ok rs => simp only [emvRecords_append, List.map_append, hb']
  · rw [ingParse_nonascii masks s hs, ingParse_nonascii]
    exact fun h => hs (fun c hc => h c (List.mem_append_right _ hc))

theorem ing_cut {m : Machine} (masks : List Char) (l : List (Record × Char)) (r : Record) (p q : Text)
    (hl : ∀ p ∈ l, p.1.WF masks) (hr : r.WF masks) (hcut : r.text = p ++ q) (hp : p ≠ []) (hq : q ≠ [])
    (hm : Fits m (render l ++ p).length) : ingParse m (render l ++ p) masks = .err .nonCompliant := by
  by_cases ha : ∀ c ∈ render l ++ p, c.toNat < 128
  · rw [ingParse_eq masks _ hm ha, readRecords_render l p hl ha,
      readRecords_error hp (readRecord_cut hr hcut hq (fun c hc => ha c (List.mem_append_right _ hc)))]
  · exact ingParse_nonascii masks _ ha

theorem ing_fails {m : Machine} {masks : List Char} {s : Text} {sort : Bool} {msg : Text}
    (h : Fails (run m { ingenicoTlv := some s } masks sort) msg) : ∃ e, msg = message e ∧
      (ingParse m s masks = .err e ∨ ∃ b, ingParse m s masks = .ok b ∧ processBlock b = .err e) := by
  obtain ⟨e, he, hmsg⟩ := finish_fails (x := (ingParse m s masks >>= processBlock).map (maybeSort sort)) h
  refine ⟨e, hmsg, ?_⟩
  cases hb : ingParse m s masks with
  | ok b =>
    rw [hb] at he
    refine Or.inr ⟨b, rfl, ?_⟩
    replace he : (processBlock b).map (maybeSort sort) = .err e := he
    cases hp : processBlock b with
    | err e' => rw [hp, Out.map_err] at he; exact he
    | ok q => rw [hp] at he; cases he
    | panic => rw [hp] at he; cases he
    | diverge => rw [hp] at he; cases he
  | err e' =>
    rw [hb] at he
    replace he : (Out.err e' : Out RawEmvBlock) = .err e := by
      cases (show (Out.err e' : Out ProcessedEmvBlock) = .err e from he)
      rfl
    exact Or.inl he
  | panic => rw [hb] at he; cases he
  | diverge => rw [hb] at he; cases he

theorem ing_run_err {m : Machine} {masks : List Char} {s : Text} {sort : Bool} {e : ParseError}
    (h : ingParse m s masks = .err e ∨ ∃ b, ingParse m s masks = .ok b ∧ processBlock b = .err e) :
    Fails (run m { ingenicoTlv := some s } masks sort) (message e) := by
  refine finish_err (x := (ingParse m s masks >>= processBlock).map (maybeSort sort)) ?_ _
  rcases h with h | ⟨b, hb, hp⟩
  · rw [h]; rfl
  · rw [hb]
    show (processBlock b).map _ = _
    rw [hp]
    rfl

theorem ing_succeeds {m : Machine} {masks : List Char} {s : Text} {c : Cells} {sort : Bool}
    (h : Succeeds (run m { ingenicoTlv := some s } masks sort) c) : ∃ b q, ingParse m s masks = .ok b ∧
      processBlock b = .ok q ∧ Shows (displayNodes m true (maybeSort sort q) true 0) c := by
  obtain ⟨v, hv, hs⟩ := finish_succeeds (x := (ingParse m s masks >>= processBlock).map (maybeSort sort)) h
  obtain ⟨q, hq, rfl⟩ := map_ok hv
  obtain ⟨b, hb, hp⟩ := bind_ok hq
  exact ⟨b, q, hb, hp, hs⟩

/-! ### Digits -/

theorem pairUp_prefix : ∀ (a b : List Nat), pairUp a <+: pairUp (a ++ b)
  | [], b => List.nil_prefix
  | [x], b => List.nil_prefix
  | x :: y :: a, b => by
    rw [List.cons_append, List.cons_append, pairUp, pairUp]
    exact List.cons_prefix_cons.2 ⟨rfl, pairUp_prefix a b⟩

theorem digitsIn_length (s : Text) : (digitsIn s).length = (s.filterMap hexDigit?).length := by
  induction s with
  | nil => rfl
  | cons c s ih =>
    rw [digitsIn, List.filter_cons, List.filterMap_cons]
    cases h : hexDigit? c with
    | none =>
      rw [if_neg (by simp [IsHex, h])]
      exact ih
    | some d =>
      rw [if_pos (by simp [IsHex, h])]
      simp only [List.length_cons]
      exact congrArg (· + 1) ih

theorem hexBytes_size (s : Text) : (hexBytes s).length = (digitsIn s).length / 2 := by
  rw [hexBytes, List.length_map, hexDecode, pairUp_length, digitsIn_length]

theorem hexBytes_prefix (s t : Text) : hexBytes s <+: hexBytes (s ++ t) := by
  rw [hexBytes, hexBytes, hexDecode, hexDecode, List.filterMap_append]
  exact (pairUp_prefix _ _).map _

/-- The object a canonical record is written like. -/
def elemOf (r : Record) : Elem := ⟨hexBytes r.tagHex, hexBytes r.lenHex, hexBytes r.value⟩

theorem nonhex_none {c : Char} (h : ¬ IsHex c) : hexDigit? c = none := by
  cases e : hexDigit? c with
  | none => rfl
  | some d => exact absurd (by simp [IsHex, e]) h

theorem canonical_digits {r : Record} (h : r.Canonical) : r.text.filterMap hexDigit? =
    r.tagHex.filterMap hexDigit? ++ (r.lenHex.filterMap hexDigit? ++ r.value.filterMap hexDigit?) := by
  have hh : hexDigit? 'h' = none := by decide
  have hc : hexDigit? ':' = none := by decide
  rw [Record.text, List.filterMap_cons, nonhex_none h.typ, h.fmt]
  simp only [List.filterMap_append, List.filterMap_cons, hc, hh]

theorem canonical_bytes {r : Record} (h : r.Canonical) : hexBytes r.text = (elemOf r).bytes ∧ WholeBytes r.text := by
  have h1 := hexDigits_length h.tagHex
  have h2 := hexDigits_length h.lenHex
  have h3 := hexDigits_length h.value
  refine ⟨?_, ?_⟩
  · rw [hexBytes, hexDecode, canonical_digits h, pairUp_append _ _ (by rw [h1]; exact h.tagWhole),
      pairUp_append _ _ (by rw [h2, h.lenWhole]), List.map_append, List.map_append, Elem.bytes, List.append_assoc]
    rfl
  · rw [WholeBytes, canonical_digits h, List.length_append, List.length_append, h1, h2, h3, h.lenWhole, h.length]
    have := h.tagWhole
    omega

theorem canonical_wf {r : Record} (h : r.Canonical) (masks : List Char) : r.WF masks := by
  refine ⟨h.tagHex, ?_, h.lenHex, by rw [h.lenWhole]; omega, Or.inr ⟨h.fmt, h.length, Or.inl h.value⟩⟩
  have h1 := (show 1 ≤ (hexBytes r.tagHex).length by cases hh : hexBytes r.tagHex with | nil => have := h.tag; rw [hh] at this; cases this | cons _ _ => simp)
  rw [hexBytes_length h.tagHex] at h1
  omega

theorem canonical_elem {r : Record} (h : r.Canonical) : (elemOf r).WF := by
  refine ⟨h.tag, ?_⟩
  have hl := hexBytes_length h.lenHex
  rw [h.lenWhole] at hl
  match hb : hexBytes r.lenHex, hl with
  | [b], _ =>
    have e : r.length = b.toNat := by
      rw [Record.length, hb]
      simp [beValue, ofDigits]
    have hv : (elemOf r).value.length = b.toNat := by
      show (hexBytes r.value).length = _
      rw [hexBytes_length h.value, h.length, ← e]
      omega
    show IsLength (hexBytes r.lenHex) _
    rw [hv, hb]
    exact .short b (by rw [← e]; exact h.short)

theorem canonical_render (l : List (Record × Char)) (hl : ∀ x ∈ l, x.1.Canonical ∧ ¬ IsHex x.2) :
    hexBytes (render l) = concat (l.map (fun x => elemOf x.1)) ∧ WholeBytes (render l) := by
  induction l with
  | nil => exact ⟨rfl, rfl⟩
  | cons x l ih =>
    obtain ⟨i1, i2⟩ := ih (fun y hy => hl y (List.mem_cons_of_mem _ hy))
    obtain ⟨hc, hs⟩ := hl x List.mem_cons_self
    obtain ⟨h1, h2⟩ := canonical_bytes hc
    have e : render (x :: l) = (x.1.text ++ [x.2]) ++ render l := by simp [render]
    have d : (x.1.text ++ [x.2]).filterMap hexDigit? = x.1.text.filterMap hexDigit? := by
      rw [List.filterMap_append, List.filterMap_cons, nonhex_none hs]
      simp
    have w : WholeBytes (x.1.text ++ [x.2]) := by
      rw [WholeBytes, d]
      exact h2
    refine ⟨?_, ?_⟩
    · have hcc : concat (elemOf x.1 :: l.map (fun x => elemOf x.1)) =
          (elemOf x.1).bytes ++ concat (l.map (fun x => elemOf x.1)) := by simp [concat]
      rw [e, hexBytes_append _ _ w, i1, List.map_cons, hcc, ← h1]
      congr 1
      rw [hexBytes, hexBytes, hexDecode, hexDecode, d]
    · rw [e, WholeBytes, List.filterMap_append, List.length_append]
      rw [WholeBytes] at w i2
      omega

/-- The bytes of the beginning of a canonical record are the beginning of its bytes. -/
theorem canonical_cut {r : Record} {p q : Text} (h : r.Canonical) (hcut : r.text = p ++ q) (hq : digitsIn q ≠ []) :
    ∃ y, y ≠ [] ∧ (elemOf r).bytes = hexBytes p ++ y := by
  obtain ⟨h1, h2⟩ := canonical_bytes h
  obtain ⟨y, hy⟩ := hexBytes_prefix p q
  rw [← hcut, h1] at hy
  refine ⟨y, ?_, hy.symm⟩
  rintro rfl
  have hl := congrArg List.length hy
  rw [List.append_nil, ← h1, hexBytes_size, hexBytes_size] at hl
  rw [WholeBytes, ← digitsIn_length] at h2
  have hd : (digitsIn r.text).length = (digitsIn p).length + (digitsIn q).length := by
    rw [hcut, digitsIn, List.filter_append, List.length_append]
    rfl
  have : (digitsIn q).length ≠ 0 := fun h0 => hq (List.eq_nil_of_length_eq_zero h0)
  omega

theorem auto_ing_err {m : Machine} {masks : List Char} {s : Text} {e : ParseError} (hs : s ≠ [])
    (h : ingParse m s masks = .err e) : autoParse m s masks = match berParse m (hexBytes s) masks with
      | .ok block => .ok (.berTlv, block)
      | .panic => .panic
      | .diverge => .diverge
      | .err _ => .err .unrecognised := by
  rw [autoParse, if_neg hs, h, hexBytes_eq]
  cases berParse m (hexBytes s) masks <;> rfl

end Pemv
