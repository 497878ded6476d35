import Verif.Proofs.Cut
import Verif.Props.Ber

/-!
# C100, C101: Ingenico records one after the other, and data that are cut off
-/

namespace Pemv

open Spec

/-! ### C100 -/

/-- **C100.** Whatever records come before, a record that is cut off anywhere is an error. -/
theorem c100_truncation {m : Machine} (masks : List Char) (l : List (Record × Char)) (r : Record) (p q : Text)
    (hl : ∀ x ∈ l, x.1.WF masks) (hr : r.WF masks) (hcut : r.text = p ++ q) (hp : p ≠ []) (hq : q ≠ [])
    (hm : Fits m (render l ++ p).length) : ingParse m (render l ++ p) masks = .err .nonCompliant :=
  ing_cut masks l r p q hl hr hcut hp hq hm

example := c100_truncation (m := .debug64) [] [(⟨'T', "50".toList, "02".toList, 'a', "VI".toList⟩, ',')]
  ⟨'T', "9F02".toList, "02".toList, 'h', "1234".toList⟩ "T9F02:02:h123".toList "4".toList
  (fun x hx => by
    rw [List.mem_singleton.1 hx]
    exact ⟨by decide, by decide, by decide, by decide, Or.inl ⟨rfl, by decide⟩⟩)
  ⟨by decide, by decide, by decide, by decide, Or.inr ⟨rfl, by decide, Or.inl (by decide)⟩⟩
  (by decide) (by decide) (by decide) (by unfold Fits; decide +kernel)

/-- **C100.** The program then shows no data, only the message. -/
theorem c100_run {m : Machine} (masks : List Char) (sort : Bool) (l : List (Record × Char)) (r : Record) (p q : Text)
    (hl : ∀ x ∈ l, x.1.WF masks) (hr : r.WF masks) (hcut : r.text = p ++ q) (hp : p ≠ []) (hq : q ≠ [])
    (hm : Fits m (render l ++ p).length) :
    Fails (run m { ingenicoTlv := some (render l ++ p) } masks sort) (message .nonCompliant) :=
  ing_run_err (Or.inl (ing_cut masks l r p q hl hr hcut hp hq hm))

example := c100_run (m := .debug64) [] true [(⟨'T', "50".toList, "02".toList, 'a', "VI".toList⟩, ',')]
  ⟨'T', "9F02".toList, "02".toList, 'h', "1234".toList⟩ "T9F02".toList ":02:h1234".toList
  (fun x hx => by
    rw [List.mem_singleton.1 hx]
    exact ⟨by decide, by decide, by decide, by decide, Or.inl ⟨rfl, by decide⟩⟩)
  ⟨by decide, by decide, by decide, by decide, Or.inr ⟨rfl, by decide, Or.inl (by decide)⟩⟩
  (by decide) (by decide) (by decide) (by unfold Fits; decide +kernel)

/-- **C100.** Records each followed by a separator, and then another text, are read as the records and then the text,
with the error of the text if it has one. -/
theorem c100_compositional {m : Machine} (masks : List Char) (l : List (Record × Char)) (s : Text)
    (hl : ∀ x ∈ l, x.1.WF masks) (b : RawEmvBlock) (hb : ingParse m (render l) masks = .ok b)
    (hm : Fits m (render l ++ s).length) :
    (∀ b', ingParse m s masks = .ok b' → ingParse m (render l ++ s) masks = .ok (b ++ b')) ∧
    (∀ e, ingParse m s masks = .err e → ingParse m (render l ++ s) masks = .err e) := by
  have h := ing_compositional masks l s hl b hb hm
  exact ⟨fun b' hb' => by rw [h, hb'], fun e he => by rw [h, he]⟩

example := c100_compositional (m := .debug64) [] [(⟨'T', "50".toList, "02".toList, 'a', "VI".toList⟩, ',')]
  "T9F02:02:h1234".toList
  (fun x hx => by
    rw [List.mem_singleton.1 hx]
    exact ⟨by decide, by decide, by decide, by decide, Or.inl ⟨rfl, by decide⟩⟩)
  _ rfl (by unfold Fits; decide +kernel)

/-- **C100.** Without sorting, two texts one after the other are shown as the first, an empty line, and the second. -/
theorem c100_concatenation {m : Machine} (masks : List Char) (l : List (Record × Char)) (s : Text) (c c' : Cells)
    (hl : ∀ x ∈ l, x.1.WF masks) (hm : Fits m (render l ++ s).length)
    (h : Succeeds (run m { ingenicoTlv := some (render l) } masks false) c)
    (h' : Succeeds (run m { ingenicoTlv := some s } masks false) c') (hc : c ≠ []) (hc' : c' ≠ []) :
    Succeeds (run m { ingenicoTlv := some (render l ++ s) } masks false) (c ++ plain ['\n'] ++ c') := by
  obtain ⟨b, q, hb, hp, hs⟩ := ing_succeeds h
  obtain ⟨b', q', hb', hp', hs'⟩ := ing_succeeds h'
  refine ing_run ((c100_compositional masks l s hl b hb hm).1 b' hb') (processBlock_append hp hp') ?_
  have hq : q ≠ [] := by
    rintro rfl
    exact hc (shows_cells_unique hs shows_nil)
  have hq' : q' ≠ [] := by
    rintro rfl
    exact hc' (shows_cells_unique hs' shows_nil)
  have he : (true && q.isEmpty) = false := by
    cases q with
    | nil => exact absurd rfl hq
    | cons _ _ => rfl
  show Shows (displayNodes m true (q ++ q') true 0) _
  rw [displayNodes_append, he, displayNodes_false m true q' 0 hq', List.append_assoc]
  exact hs.seq ((shows_println []).seq hs')

/-- **C100.** An error in the second text is that of the whole. -/
theorem c100_error {m : Machine} (masks : List Char) (l : List (Record × Char)) (s : Text) (c : Cells) (sort sort' : Bool)
    (hl : ∀ x ∈ l, x.1.WF masks) (hm : Fits m (render l ++ s).length)
    (h : Succeeds (run m { ingenicoTlv := some (render l) } masks sort) c) (msg : Text)
    (h' : Fails (run m { ingenicoTlv := some s } masks sort') msg) :
    Fails (run m { ingenicoTlv := some (render l ++ s) } masks sort) msg := by
  obtain ⟨b, q, hb, hp, -⟩ := ing_succeeds h
  obtain ⟨e, rfl, he⟩ := ing_fails h'
  have hcomp := c100_compositional masks l s hl b hb hm
  apply ing_run_err
  rcases he with he | ⟨b', hb', he⟩
  · exact Or.inl (hcomp.2 e he)
  · exact Or.inr ⟨b ++ b', hcomp.1 b' hb', processBlock_append_err hp he⟩

/-- A text of two records, the second cut off after its format character. -/
example : ∃ (l : List (Record × Char)) (r : Record) (p q : Text), (∀ x ∈ l, x.1.WF ['*']) ∧ r.WF ['*'] ∧ r.text = p ++ q ∧
    p ≠ [] ∧ q ≠ [] ∧ render l ++ p = "T50:02:aVI,T9F02:02:h".toList :=
  ⟨[(⟨'T', "50".toList, "02".toList, 'a', "VI".toList⟩, ',')], ⟨'T', "9F02".toList, "02".toList, 'h', "****".toList⟩,
    "T9F02:02:h".toList, "****".toList,
    by
      intro x hx
      rw [List.mem_singleton.1 hx]
      exact ⟨by decide, by decide, by decide, by decide, Or.inl ⟨rfl, by decide⟩⟩,
    ⟨by decide, by decide, by decide, by decide, Or.inr ⟨rfl, by decide, Or.inr ⟨by decide, '*', by decide, by decide⟩⟩⟩,
    by decide, by decide, by decide, by decide⟩

/-- A record before another, and before one that is cut off. -/
example : let l : List (Record × Char) := [(⟨'T', "50".toList, "02".toList, 'a', "VI".toList⟩, ',')]
    (∃ c c', c ≠ [] ∧ c' ≠ [] ∧
      Succeeds (run .debug64 { ingenicoTlv := some (render l ++ "T9F02:02:h1234".toList) } [] false) (c ++ plain ['\n'] ++ c')) ∧
    Fails (run .debug64 { ingenicoTlv := some (render l ++ "T9F02:02:h123".toList) } [] true) (message .nonCompliant) := by
  intro l
  have hw : ∀ x ∈ l, x.1.WF [] := by
    intro x hx
    rw [List.mem_singleton.1 hx]
    exact ⟨by decide, by decide, by decide, by decide, Or.inl ⟨rfl, by decide⟩⟩
  have ok : ∀ sort, Succeeds (run .debug64 { ingenicoTlv := some (render l) } [] sort)
      (paint plainStyle (run .debug64 { ingenicoTlv := some (render l) } [] sort).disp.evs) := by
    intro sort
    cases sort <;> exact ⟨⟨by decide +kernel, rfl, by decide +kernel⟩, by decide +kernel, by decide +kernel, by decide +kernel⟩
  have ok' : Succeeds (run .debug64 { ingenicoTlv := some "T9F02:02:h1234".toList } [] false)
      (paint plainStyle (run .debug64 { ingenicoTlv := some "T9F02:02:h1234".toList } [] false).disp.evs) :=
    ⟨⟨by decide +kernel, rfl, by decide +kernel⟩, by decide +kernel, by decide +kernel, by decide +kernel⟩
  have hn : paint plainStyle (run .debug64 { ingenicoTlv := some (render l) } [] false).disp.evs ≠ [] := by decide +kernel
  have hn' : paint plainStyle (run .debug64 { ingenicoTlv := some "T9F02:02:h1234".toList } [] false).disp.evs ≠ [] := by
    decide +kernel
  have bad : Fails (run .debug64 { ingenicoTlv := some "T9F02:02:h123".toList } [] true) (message .nonCompliant) := by
    constructor <;> decide +kernel
  exact ⟨⟨_, _, hn, hn', c100_concatenation [] l _ _ _ hw (c16_fits_64 rfl _ (by decide +kernel)) (ok false) ok' hn hn'⟩,
    c100_error [] l _ _ true true hw (c16_fits_64 rfl _ (by decide +kernel)) (ok true) _ bad⟩

/-! ### C101 -/

/-- **C101.** A text without colons, the bytes of which are objects of which the last is cut off, is rejected. -/
theorem c101_ber {m : Machine} (masks : List Char) (s : Text) (es : List Elem) (e : Elem) (p q : List Byte)
    (hc : ':' ∉ s) (hs : hexBytes s = concat es ++ p) (hes : ∀ x ∈ es, x.WF) (he : e.WF) (hcut : e.bytes = p ++ q)
    (hp : p ≠ []) (hq : q ≠ []) (hm : Fits m s.length) : autoParse m s masks = .err .unrecognised := by
  have hne : s ≠ [] := by
    rintro rfl
    have := congrArg List.length hs
    rw [List.length_append] at this
    exact hp (List.eq_nil_of_length_eq_zero (by change 0 = _ at this; omega))
  have hb := c14_truncation (m := m) masks es e p q hes he hcut hp hq (by rw [← hs]; exact fits_mono hm (hexBytes_le s))
  rcases (c30_no_colon masks s hm hne hc).2 with ⟨b, h, -⟩ | ⟨-, h⟩
  · rw [hexBytes_eq, hs, hb] at h
    cases h
  · exact h

/-- An amount of two bytes of which one is missing. -/
example : ':' ∉ "50 00 9F02 02 12".toList ∧ hexBytes "50 00 9F02 02 12".toList =
      concat [⟨[0x50], [0x00], []⟩] ++ [0x9F, 0x02, 0x02, 0x12] ∧
    (⟨[0x9F, 0x02], [0x02], [0x12, 0x34]⟩ : Elem).bytes = [0x9F, 0x02, 0x02, 0x12] ++ [0x34] := by decide +kernel

/-- **C101 is false.** Ingenico records that are cut off can be taken for BER-TLV: after the first character of the second
record, after a length written with more digits than needed, and before the format character of an empty value. Said to be Ingenico records, the same texts are rejected. -/
theorem c101_false :
    autoParse .debug64 "T50:01:h41,T".toList [] =
      .ok (.berTlv, [.mk ⟨[0x50], .application, .primitive, .normal [0x41]⟩ []]) ∧
    autoParse .debug64 "T50:000000:".toList [] = .ok (.berTlv, [.mk ⟨[0x50], .application, .primitive, .normal []⟩ [],
      .mk ⟨[0x00], .universal, .primitive, .normal []⟩ []]) ∧
    autoParse .debug64 "T50:00:".toList [] = .ok (.berTlv, [.mk ⟨[0x50], .application, .primitive, .normal []⟩ []]) ∧
    ∀ s ∈ ["T50:01:h41,T".toList, "T50:000000:".toList, "T50:00:".toList], ingParse .debug64 s [] = .err .nonCompliant := by
  decide +kernel

/-- **C101.** When canonical records are cut off with at least two digits of the last one there and at least one missing,
the text is rejected. -/
theorem c101_detected_partial {m : Machine} (masks : List Char) (l : List (Record × Char)) (r : Record) (p q : Text)
    (hl : ∀ x ∈ l, x.1.Canonical ∧ ¬ IsHex x.2) (hr : r.Canonical) (hcut : r.text = p ++ q)
    (hp : 2 ≤ (digitsIn p).length) (hq : digitsIn q ≠ []) (hm : Fits m (render l ++ p).length) :
    autoParse m (render l ++ p) masks = .err .unrecognised := by
  have hpn : p ≠ [] := by rintro rfl; simp [digitsIn] at hp
  have hqn : q ≠ [] := by rintro rfl; exact hq rfl
  have hi := ing_cut masks l r p q (fun x hx => canonical_wf (hl x hx).1 masks) (canonical_wf hr masks) hcut hpn hqn hm
  obtain ⟨y, hy, hcy⟩ := canonical_cut hr hcut hq
  obtain ⟨h1, h2⟩ := canonical_render l hl
  have hbytes : hexBytes (render l ++ p) = concat (l.map (fun x => elemOf x.1)) ++ hexBytes p := by
    rw [hexBytes_append _ _ h2, h1]
  have hb := c14_truncation (m := m) masks (l.map (fun x => elemOf x.1)) (elemOf r) (hexBytes p) y
    (fun e he => by
      obtain ⟨x, hx, rfl⟩ := List.mem_map.1 he
      exact canonical_elem (hl x hx).1)
    (canonical_elem hr) hcy
    (fun h0 => by
      have := hexBytes_size p
      rw [h0, List.length_nil] at this
      omega)
    hy (by rw [← hbytes]; exact fits_mono hm (hexBytes_le _))
  rw [auto_ing_err (by simp [hpn]) hi, hbytes, hb]

example : autoParse .debug64 "T50:01:h41,T9F".toList ['*'] = .err .unrecognised :=
  c101_detected_partial (m := .debug64) ['*'] [(⟨'T', "50".toList, "01".toList, 'h', "41".toList⟩, ',')]
    ⟨'T', "9F02".toList, "01".toList, 'h', "07".toList⟩ "T9F".toList "02:01:h07".toList
    (fun x hx => by
      rw [List.mem_singleton.1 hx]
      exact ⟨⟨by decide, by decide, by decide, .low 0x50 (by decide), by decide, by decide, by decide, rfl, by decide,
        by decide⟩, by decide⟩)
    ⟨by decide, by decide, by decide, .high 0x9F [] 0x02 (by decide) (by simp) (by decide), by decide, by decide, by decide,
      rfl, by decide, by decide⟩
    (by decide) (by decide) (by decide) (by unfold Fits; decide +kernel)

/-- **C101.** When fewer than two of its digits are there, the text is read as the records before it, as BER-TLV, if they
can be read so. -/
theorem c101_accepted {m : Machine} (masks : List Char) (l : List (Record × Char)) (r : Record) (p q : Text)
    (hl : ∀ x ∈ l, x.1.Canonical ∧ ¬ IsHex x.2) (hr : r.Canonical) (hcut : r.text = p ++ q) (hpn : p ≠ []) (hqn : q ≠ [])
    (hp : (digitsIn p).length < 2) (hm : Fits m (render l ++ p).length) (b : RawEmvBlock)
    (hb : berParse m (hexBytes (render l)) masks = .ok b) : autoParse m (render l ++ p) masks = .ok (.berTlv, b) := by
  have hi := ing_cut masks l r p q (fun x hx => canonical_wf (hl x hx).1 masks) (canonical_wf hr masks) hcut hpn hqn hm
  have h0 : hexBytes p = [] := List.eq_nil_of_length_eq_zero (by rw [hexBytes_size]; omega)
  rw [auto_ing_err (by simp [hpn]) hi, hexBytes_append _ _ (canonical_render l hl).2, h0, List.append_nil, hb]

example : autoParse .debug64 "T50:01:h41,T9".toList [] = .ok (.berTlv, [.mk ⟨[0x50], .application, .primitive, .normal [0x41]⟩ []]) :=
  c101_accepted (m := .debug64) [] [(⟨'T', "50".toList, "01".toList, 'h', "41".toList⟩, ',')]
    ⟨'T', "9F02".toList, "01".toList, 'h', "07".toList⟩ "T9".toList "F02:01:h07".toList
    (fun x hx => by
      rw [List.mem_singleton.1 hx]
      exact ⟨⟨by decide, by decide, by decide, .low 0x50 (by decide), by decide, by decide, by decide, rfl, by decide,
        by decide⟩, by decide⟩)
    ⟨by decide, by decide, by decide, .high 0x9F [] 0x02 (by decide) (by simp) (by decide), by decide, by decide, by decide,
      rfl, by decide, by decide⟩
    (by decide) (by decide) (by decide) (by decide) (by unfold Fits; decide +kernel) _ (by decide +kernel)

/-- **C101.** In general: whatever the records, a text that is cut off is accepted exactly if the bytes its digits make are
BER-TLV, and then it is taken for that. -/
theorem c101_general {m : Machine} (masks : List Char) (l : List (Record × Char)) (r : Record) (p q : Text)
    (hl : ∀ x ∈ l, x.1.WF masks) (hr : r.WF masks) (hcut : r.text = p ++ q) (hpn : p ≠ []) (hqn : q ≠ [])
    (hm : Fits m (render l ++ p).length) (f : TlvFormat) (b : RawEmvBlock) :
    autoParse m (render l ++ p) masks = .ok (f, b) ↔
      f = .berTlv ∧ berParse m (hexBytes (render l ++ p)) masks = .ok b := by
  rw [auto_ing_err (by simp [hpn]) (ing_cut masks l r p q hl hr hcut hpn hqn hm)]
  cases berParse m (hexBytes (render l ++ p)) masks <;> simp [eq_comm]

/-- A text value, which is not canonical. -/
example := c101_general (m := .debug64) [] [(⟨'T', "50".toList, "02".toList, 'a', "VI".toList⟩, ',')]
  ⟨'T', "9F02".toList, "02".toList, 'h', "1234".toList⟩ "T9F02".toList ":02:h1234".toList
  (fun x hx => by
    rw [List.mem_singleton.1 hx]
    exact ⟨by decide, by decide, by decide, by decide, Or.inl ⟨rfl, by decide⟩⟩)
  ⟨by decide, by decide, by decide, by decide, Or.inr ⟨rfl, by decide, Or.inl (by decide)⟩⟩
  (by decide) (by decide) (by decide) (by unfold Fits; decide +kernel)

/-- **C101.** For canonical records the cuts that are not noticed are exactly these: fewer than two digits of the last
record are there, and the records before it can be read as BER-TLV; or no digit of it is missing (its value is empty), and
all of them can be. -/
theorem c101_exact {m : Machine} (masks : List Char) (l : List (Record × Char)) (r : Record) (p q : Text)
    (hl : ∀ x ∈ l, x.1.Canonical ∧ ¬ IsHex x.2) (hr : r.Canonical) (hcut : r.text = p ++ q) (hpn : p ≠ []) (hqn : q ≠ [])
    (hm : Fits m (render l ++ p).length) (f : TlvFormat) (b : RawEmvBlock) :
    autoParse m (render l ++ p) masks = .ok (f, b) ↔ f = .berTlv ∧
      ((digitsIn p).length < 2 ∧ berParse m (hexBytes (render l)) masks = .ok b ∨
       digitsIn q = [] ∧ berParse m (hexBytes (render l ++ r.text)) masks = .ok b) := by
  have hg := c101_general masks l r p q (fun x hx => canonical_wf (hl x hx).1 masks) (canonical_wf hr masks) hcut hpn hqn
    hm f b
  have hdig : 2 ≤ (digitsIn r.text).length := by
    have h1 := hexBytes_size r.text
    rw [(canonical_bytes hr).1] at h1
    have h2 : 1 ≤ (elemOf r).bytes.length := by
      have ht := (canonical_elem hr).1
      rw [Elem.bytes]
      cases hh : (elemOf r).tag with
      | nil => rw [hh] at ht; cases ht
      | cons _ _ => simp
    omega
  have hpq : digitsIn r.text = digitsIn p ++ digitsIn q := by rw [hcut]; simp [digitsIn]
  by_cases hp : (digitsIn p).length < 2
  · have hq : digitsIn q ≠ [] := by
      intro h0
      rw [hpq, h0, List.append_nil] at hdig
      omega
    have h0 : hexBytes p = [] := List.eq_nil_of_length_eq_zero (by rw [hexBytes_size]; omega)
    rw [hg, hexBytes_append _ _ (canonical_render l hl).2, h0, List.append_nil]
    simp [hp, hq]
  · by_cases hq : digitsIn q = []
    · have : hexBytes p = hexBytes r.text := by
        have h0 : q.filterMap hexDigit? = [] :=
          List.eq_nil_of_length_eq_zero (by rw [← digitsIn_length, hq, List.length_nil])
        rw [hcut, hexBytes, hexBytes, hexDecode, hexDecode, List.filterMap_append, h0, List.append_nil]
      rw [hg, hexBytes_append _ _ (canonical_render l hl).2, this, ← hexBytes_append _ _ (canonical_render l hl).2]
      simp [hp, hq]
    · rw [c101_detected_partial masks l r p q hl hr hcut (by omega) hq hm]
      simp [hp, hq]

/-- The second kind: an empty value, cut before its format character. -/
example : (digitsIn "h".toList = []) ∧ (⟨'T', "50".toList, "00".toList, 'h', []⟩ : Record).text =
    "T50:00:".toList ++ "h".toList ∧
    autoParse .debug64 "T50:00:".toList [] = .ok (.berTlv, [.mk ⟨[0x50], .application, .primitive, .normal []⟩ []]) := by
  decide

/-- A canonical record, and the text of two of which the second is cut off in its tag. -/
example : (⟨'T', "50".toList, "01".toList, 'h', "41".toList⟩ : Record).Canonical ∧ ¬ IsHex ',' ∧
    2 ≤ (digitsIn "T9F".toList).length ∧ (digitsIn "T9".toList).length < 2 ∧ digitsIn "02:01:h07".toList ≠ [] ∧
    (⟨'T', "9F02".toList, "01".toList, 'h', "07".toList⟩ : Record).Canonical ∧
    (⟨'T', "9F02".toList, "01".toList, 'h', "07".toList⟩ : Record).text = "T9F".toList ++ "02:01:h07".toList := by
  refine ⟨⟨by decide, by decide, by decide, ?_, by decide, by decide, by decide, rfl, by decide, by decide⟩, by decide,
    by decide, by decide, by decide, ⟨by decide, by decide, by decide, ?_, by decide, by decide, by decide, rfl, by decide,
    by decide⟩, by decide⟩
  · exact .low 0x50 (by decide)
  · exact .high 0x9F [] 0x02 (by decide) (by simp) (by decide)

end Pemv
