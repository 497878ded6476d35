import Verif.Proofs.Calls
import Verif.Props.Auto

/-!
# C109: how deep the calls of the parsers go
-/

namespace Pemv

open Spec

/-- **C109.** With a stack that has room for `k` calls inside each other, the BER-TLV parser is aborted exactly if it
looks into values `k` levels down; if not, the stack makes no difference. -/
theorem c109_ber {m : Machine} (masks : List Char) (k : Nat) (bytes : List Byte) (hm : Fits m bytes.length) :
    (berParseOn k m bytes masks = .diverge ↔ LooksInto masks bytes k) ∧
    (¬ LooksInto masks bytes k → berParseOn k m bytes masks = berParse m bytes masks) := by
  obtain ⟨h1, h2⟩ := berParseOn_runs masks k bytes hm
  refine ⟨⟨fun h => Classical.byContradiction fun hn => ?_, h1⟩, h2⟩
  have := berParse_returned masks bytes hm
  rw [← h2 hn, h] at this
  cases this

/-- A template in a template: two calls inside the first one. What follows the templates does not matter. -/
example : berParseOn 2 .debug64 [0x70, 0x04, 0x70, 0x02, 0x5A, 0x00, 0x5A] [] = .diverge ∧
    berParseOn 3 .debug64 [0x70, 0x04, 0x70, 0x02, 0x5A, 0x00, 0x5A] [] = .err .nonCompliant := by
  refine ⟨?_, ?_⟩
  · refine (c109_ber [] 2 _ (by unfold Fits; decide)).1.2 ?_
    exact .inside [] ⟨[0x70], [0x04], [0x70, 0x02, 0x5A, 0x00]⟩ [0x5A] 1 (by simp)
      ⟨.low 0x70 (by decide), .short 4 (by decide)⟩ (by simp) (by decide) (fun ⟨_, c, h, _⟩ => nomatch h)
      (.inside [] ⟨[0x70], [0x02], [0x5A, 0x00]⟩ [] 0 (by simp)
        ⟨.low 0x70 (by decide), .short 2 (by decide)⟩ (by simp [Elem.LongZero]) (by decide) (fun ⟨_, c, h, _⟩ => nomatch h)
        (.top _))
  · decide +kernel

/-- **C109.** The parser of records is aborted exactly if its text is ASCII and it comes to a record of EMV data whose
value is looked into so deep; if not, the stack makes no difference. -/
theorem c109_ingenico {m : Machine} (masks : List Char) (k : Nat) (s : Text) (hm : Fits m s.length) :
    (ingParseOn k m s masks = .diverge ↔ (∀ c ∈ s, c.toNat < 128) ∧ RecordsLookInto masks s k) ∧
    (¬ ((∀ c ∈ s, c.toNat < 128) ∧ RecordsLookInto masks s k) → ingParseOn k m s masks = ingParse m s masks) := by
  by_cases hs : ∀ c ∈ s, c.toNat < 128
  · obtain ⟨h1, h2⟩ := ingParseOn_runs masks k s hm hs
    refine ⟨⟨fun h => Classical.byContradiction fun hn => ?_, fun h => h1 h.2⟩, fun hn => h2 fun h => hn ⟨hs, h⟩⟩
    have := ingParse_returned masks s hm
    rw [← h2 fun h => hn ⟨hs, h⟩, h] at this
    cases this
  · have ha : isAscii s = false := by
      cases h : isAscii s with
      | false => rfl
      | true => exact absurd ((isAscii_iff s).1 h) hs
    have : ingParseOn k m s masks = ingParse m s masks := by rw [ingParseOn, ingParse, ha, Bool.not_false, if_pos rfl, if_pos rfl]
    refine ⟨⟨fun h => ?_, fun h => absurd h.1 hs⟩, fun _ => this⟩
    rw [this, ingParse_nonascii masks s hs] at h
    cases h

/-- A record with a template in a template. -/
example : ingParseOn 1 .debug64 "T70:04:h70025A00".toList [] = .diverge ∧
    (ingParseOn 2 .debug64 "T70:04:h70025A00".toList []).isReturned = true := by
  decide +kernel

/-- **C109.** Automatic detection is aborted exactly if one of the two parsers is, the second of them being tried if the
text is not one of records; if not, the stack makes no difference. -/
theorem c109_auto {m : Machine} (masks : List Char) (k : Nat) (s : Text) (hm : Fits m s.length) :
    (autoParseOn k m s masks = .diverge ↔ s ≠ [] ∧ (((∀ c ∈ s, c.toNat < 128) ∧ RecordsLookInto masks s k) ∨
      (¬ ((∀ c ∈ s, c.toNat < 128) ∧ ∃ rs, IsIngenico masks s rs)) ∧ LooksInto masks (hexBytes s) k)) ∧
    (autoParseOn k m s masks ≠ .diverge → autoParseOn k m s masks = autoParse m s masks) := by
  by_cases h0 : s = []
  · subst h0
    exact ⟨⟨fun h => by simp [autoParseOn] at h, fun h => absurd rfl h.1⟩, fun _ => rfl⟩
  · have hb : (hexBytes s).length ≤ s.length := by
      rw [hexBytes, List.length_map, hexDecode, pairUp_length]
      have := List.length_filterMap_le hexDigit? s
      omega
    obtain ⟨i1, i2⟩ := c109_ingenico masks k s hm
    obtain ⟨b1, b2⟩ := c109_ber masks k (hexBytes s) (fits_mono hm hb)
    have hing : (∃ b, ingParse m s masks = .ok b) ↔ (∀ c ∈ s, c.toNat < 128) ∧ ∃ rs, IsIngenico masks s rs := by
      constructor
      · rintro ⟨b, h⟩
        obtain ⟨ha, rs, hr, -⟩ := (c21_language masks s hm b).1 h
        exact ⟨ha, rs, hr⟩
      · rintro ⟨ha, rs, hr⟩
        exact ⟨_, (c21_language masks s hm _).2 ⟨ha, rs, hr, rfl⟩⟩
    rw [autoParseOn, autoParse, if_neg h0, if_neg h0, ← hing, ← b1, ← i1, parseHexStr_eq]
    by_cases hd : ingParseOn k m s masks = .diverge
    · rw [hd]
      simp [h0]
    · have he := i2 (fun h => hd (i1.2 h))
      rw [he] at hd ⊢
      have hbr := berParse_returned masks (hexBytes s) (fits_mono hm hb)
      cases hi : ingParse m s masks with
      | ok b => simp
      | diverge => exact absurd hi hd
      | panic => have := ingParse_returned masks s hm; rw [hi] at this; cases this
      | err e =>
        by_cases hd' : berParseOn k m (hexBytes s) masks = .diverge
        · rw [hd']; simp [h0]
        · have hbe := b2 (fun h => hd' (b1.2 h))
          rw [hbe] at hd' ⊢
          cases hbp : berParse m (hexBytes s) masks with
          | diverge => exact absurd hbp hd'
          | panic => rw [hbp] at hbr; cases hbr
          | ok b => simp
          | err e => simp

/-- Both ways. -/
example : autoParseOn 1 .debug64 "T70:04:h70025A00".toList [] = .diverge ∧
    autoParseOn 1 .debug64 "70025A00".toList [] = .diverge ∧
    autoParseOn 2 .debug64 "70025A00".toList [] = autoParse .debug64 "70025A00".toList [] := by
  decide +kernel

/-- **C109.** Room for half as many calls as there are bytes, and one more, is enough for BER-TLV; for records, and with
automatic detection, for half as many as there are characters, and one more. -/
theorem c109_enough {m : Machine} (masks : List Char) (k : Nat) :
    (∀ bytes : List Byte, Fits m bytes.length → bytes.length < 2 * k → berParseOn k m bytes masks = berParse m bytes masks) ∧
    (∀ s : Text, Fits m s.length → s.length < 2 * k → ingParseOn k m s masks = ingParse m s masks ∧
      autoParseOn k m s masks = autoParse m s masks) := by
  have hber : ∀ bytes : List Byte, bytes.length < 2 * k → ¬ LooksInto masks bytes k := fun bytes h hl => by
    have := looksInto_length hl
    omega
  have hing : ∀ s : Text, s.length < 2 * k → ¬ RecordsLookInto masks s k := by
    rintro s h ⟨l, r, rest, rfl, -, -, -, -, v, hv, hl⟩
    have h1 := looksInto_length hl
    have h2 := called_value_length masks r v hv
    simp only [List.length_append] at h
    omega
  refine ⟨fun bytes hm h => (c109_ber masks k bytes hm).2 (hber bytes h), fun s hm h =>
    ⟨(c109_ingenico masks k s hm).2 fun hn => hing s h hn.2, (c109_auto masks k s hm).2 fun hn => ?_⟩⟩
  have hb : (hexBytes s).length ≤ s.length := by
    rw [hexBytes, List.length_map, hexDecode, pairUp_length]
    have := List.length_filterMap_le hexDigit? s
    omega
  rcases ((c109_auto masks k s hm).1.1 hn).2 with h' | h'
  · exact hing s h h'.2
  · exact hber _ (by omega) h'.2

/-- For seven bytes, room for four calls. -/
example : berParseOn 4 .debug64 [0x70, 0x05, 0x70, 0x03, 0x5A, 0x01, 0x12] [] =
    berParse .debug64 [0x70, 0x05, 0x70, 0x03, 0x5A, 0x01, 0x12] [] :=
  (c109_enough [] 4).1 _ (by unfold Fits; decide) (by decide)

/-- **C109.** The bound is of the right order: however much room there is (below 2^29 calls), there are data for which it
is not enough, with at most six bytes for each call, or twelve characters of hex, automatically detected; with more room
they are read properly. -/
theorem c109_reached {m : Machine} (masks : List Char) (k : Nat) (h : k < 2 ^ 29) (hm : Fits m (12 * k + 4)) :
    ∃ bytes s ns, bytes.length ≤ 6 * k + 2 ∧ s.length ≤ 12 * k + 4 ∧
      berParseOn k m bytes masks = .diverge ∧ berParse m bytes masks = .ok ns ∧
      autoParseOn k m s masks = .diverge ∧ autoParse m s masks = .ok (.berTlv, ns) := by
  obtain ⟨h1, h2, -⟩ := nest_encode k (by omega) masks
  have h4 : encodeAll [nest k] = (nest k).encode := by simp [encodeAll]
  have hf : Fits m (nest k).encode.length := fits_mono hm (by omega)
  have hl := nest_looksInto k (by omega) masks
  have hp := c11_round_trip (m := m) masks [nest k] ⟨h1, trivial⟩ (by rw [h4]; exact hf)
  rw [h4] at hp
  obtain ⟨s, -, hsl, hsh, hs, -⟩ := c03_round_trip (nest k).encode
  have hfs : Fits m s.length := fits_mono hm (by omega)
  have hlong := nest_long k
  have hne : s ≠ [] := fun h0 => by rw [h0] at hsl; simp at hsl; omega
  have hc : ':' ∉ s := fun h => absurd (hsh _ h) (by decide)
  obtain ⟨n1, n2⟩ := c30_no_colon masks s hfs hne hc
  have hno : ¬ ((∀ c ∈ s, c.toNat < 128) ∧ ∃ rs, IsIngenico masks s rs) := fun hi => by
    obtain ⟨b, hb⟩ := (c29_languages masks s hfs).1.2 ⟨hne, hi⟩
    exact n1 b hb
  refine ⟨(nest k).encode, s, _, h2, by omega, (c109_ber masks k _ hf).1.2 hl, hp,
    (c109_auto masks k s hfs).1.2 ⟨hne, Or.inr ⟨hno, by rw [← parseHexStr_eq, hs]; exact hl⟩⟩,
    ((c29_agrees masks s hfs).2.1 _).2 ⟨hne, fun ⟨b, hb⟩ => n1 b (((c29_agrees masks s hfs).1 b).2 ⟨hne, hb⟩), by rw [hs]; exact hp⟩⟩

/-- Two levels. -/
example : ∃ bytes s ns, bytes.length ≤ 14 ∧ s.length ≤ 28 ∧
    berParseOn 2 .debug64 bytes [] = .diverge ∧ berParse .debug64 bytes [] = .ok ns ∧
    autoParseOn 2 .debug64 s [] = .diverge ∧ autoParse .debug64 s [] = .ok (.berTlv, ns) :=
  c109_reached [] 2 (by decide) (by unfold Fits; decide)

/-- **C109.** The depth of the calls cannot be told from the result: data that are shown as one object without contents
can need any depth. -/
theorem c109_hidden {m : Machine} (masks : List Char) (k : Nat) (h : k < 2 ^ 29) (hm : Fits m (6 * k + 9)) :
    ∃ bytes t, bytes.length ≤ 6 * k + 9 ∧ berParseOn (k + 1) m bytes masks = .diverge ∧
      berParse m bytes masks = .ok [.mk t []] := by
  obtain ⟨h1, h2, -⟩ := nest_encode k (by omega) masks
  have hvl : (hiddenElem k).value.length ≤ 6 * k + 3 := by simp [hiddenElem]; omega
  have hlw := encodeLength_spec (n := (hiddenElem k).value.length) (by omega)
  have hll := encodeLength_length (n := (hiddenElem k).value.length) (by omega)
  have hw : (hiddenElem k).WF := ⟨.low 0x70 (by decide), hlw⟩
  have hlen : (hiddenElem k).bytes.length ≤ 6 * k + 9 := by
    show ([0x70] ++ encodeLength (hiddenElem k).value.length ++ (hiddenElem k).value).length ≤ _
    simp only [List.length_append, List.length_singleton]
    omega
  have hnz : ¬ (hiddenElem k).LongZero := fun hz => by
    have : (nest k).encode ++ [0x5A] = [] := hz.1
    simp at this
  have hf : Fits m (hiddenElem k).bytes.length := fits_mono hm hlen
  have hread : readElem (hiddenElem k).bytes = .ok (hiddenElem k, []) :=
    (readElem_iff _ _ _).2 ⟨by simp, hw, fun _ => hnz⟩
  refine ⟨(hiddenElem k).bytes, ⟨[0x70], classOf [0x70], typeOf [0x70], .normal (hiddenElem k).value⟩, hlen, ?_, ?_⟩
  · refine (c109_ber masks (k + 1) _ hf).1.2 ?_
    have := LooksInto.inside (masks := masks) [] (hiddenElem k) [] k (by simp) hw (fun _ => hnz)
      (show typeOf [0x70] = .constructed by decide) (hidden_unmasked k (by omega) masks)
      (looksInto_append [0x5A] (nest_looksInto k (by omega) masks))
    simpa [concat] using this
  · have hf' : Fits m ((nest k).encode ++ [0x5A]).length := fits_mono hm (by simp; omega)
    have hp := c11_round_trip (m := m) masks [nest k] ⟨h1, trivial⟩ (by
      rw [show encodeAll [nest k] = (nest k).encode by simp [encodeAll]]; exact fits_mono hm (by omega))
    rw [show encodeAll [nest k] = (nest k).encode by simp [encodeAll]] at hp
    have hhalf : berParse m [0x5A] masks = .err .nonCompliant :=
      c14_truncation (m := m) masks [] ⟨[0x5A], [0x00], []⟩ [0x5A] [0x00] (by simp) ⟨.low 0x5A (by decide), .short 0 (by decide)⟩
        rfl (by simp) (by simp) (fits_mono hm (by simp [concat]))
    have hv : ∀ b, berParse m (hiddenElem k).value masks ≠ .ok b := fun b hb => by
      obtain ⟨y, hy⟩ := (c13_iff masks _ _ hf' _ hp).1 ⟨b, hb⟩
      rw [hhalf] at hy
      cases hy
    rw [berParse_eq masks _ hf, (readElems_iff _ _).2 ⟨show (hiddenElem k).bytes = concat [hiddenElem k] by simp [concat],
      by simp only [List.mem_singleton]; rintro e rfl; exact hw, by rintro e he; cases he; exact hnz⟩]
    have hmk := hidden_unmasked k (by omega) masks
    simp only [List.map_cons, List.map_nil, nodeOf]
    rw [if_pos ⟨show typeOf [0x70] = .constructed by decide, hmk⟩, dataOf, if_neg hmk]
    cases hb : berParse m (hiddenElem k).value masks with
    | ok b => exact absurd hb (hv b)
    | _ => rfl

/-- An object in a template that is also half an object: nothing is shown of it. -/
example : berParseOn 2 .debug64 [0x70, 0x05, 0x70, 0x02, 0x5A, 0x00, 0x5A] [] = .diverge ∧
    berParse .debug64 [0x70, 0x05, 0x70, 0x02, 0x5A, 0x00, 0x5A] [] =
      .ok [.mk ⟨[0x70], .application, .constructed, .normal [0x70, 0x02, 0x5A, 0x00, 0x5A]⟩ []] := by
  decide +kernel

/-- **C109.** What is read with such a stack is not nested deeper than it has room for. -/
theorem c109_levels {m : Machine} (masks : List Char) (k : Nat) (bytes : List Byte) (ns : RawEmvBlock)
    (h : berParseOn k m bytes masks = .ok ns) : blockDepth ns ≤ k := by
  rw [berParseOn_eq] at h
  exact berParseF_depth m masks k bytes ns h

/-- Two levels with room for two. -/
example : ∃ ns, berParseOn 2 .debug64 [0x70, 0x02, 0x5A, 0x00] [] = .ok ns ∧ blockDepth ns = 2 :=
  ⟨_, rfl, by decide +kernel⟩

end Pemv
