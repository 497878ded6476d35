import Verif.Proofs.Objects
import Verif.Props.Whole

/-!
# C111: which data look alike
-/

namespace Pemv

open Spec

/-- **C111.** Two blocks, each given as BER-TLV or as Ingenico records, are shown as the same text exactly if they hold
the same data objects: the same tags with the same values, or with values that are masked in both. Then the colours
are the same, too. -/
theorem c111_alike {m : Machine} (masks : List Char) (sort : Bool) (ops ops' : CliOps) (b b' : List RawEmvNode)
    (h : Reads m masks ops b) (h' : Reads m masks ops' b') (hd : blockDepth b ≤ 254) (hd' : blockDepth b' ≤ 254)
    (l l' : List (List Byte × EmvData)) (hl : Holds masks ops l) (hl' : Holds masks ops' l') (c c' : Cells)
    (hs : Succeeds (run m ops masks sort) c) (hs' : Succeeds (run m ops' masks sort) c') :
    (c.map (·.1) = c'.map (·.1) ↔ SameObjects sort l l') ∧ (SameObjects sort l l' → c = c') := by
  have hb := holds_reads h hl
  have hb' := holds_reads h' hl'
  have back : SameObjects sort l l' → c = c' := by
    intro hsame
    obtain ⟨a, h1, rfl⟩ := reads_shown h hd hs
    obtain ⟨a', h1', rfl⟩ := reads_shown h' hd' hs'
    rw [hb] at h1
    rw [hb'] at h1'
    rw [same_arranged h1 h1' hsame]
  refine ⟨⟨fun hc => ?_, fun hsame => by rw [back hsame]⟩, back⟩
  obtain ⟨a, h1, h2⟩ := c74_read_back masks masks ops ops' sort sort b b' h h' hd hd' c c' hs hs' hc
  rw [hb] at h1
  rw [hb'] at h2
  exact arranged_same h1 h2

/-- A label and a name; the other way round, with a length of two bytes. -/
example :
    paint plainStyle (run .debug64 { berTlv := some "50 01 41 9F12 01 42".toList } [] true).disp.evs =
      paint plainStyle (run .debug64 { berTlv := some "9F12 01 42 50 81 01 41".toList } [] true).disp.evs := by
  have w1 : Elem.WF ⟨[0x50], [0x01], [0x41]⟩ := ⟨.low _ (by decide), .short 1 (by decide)⟩
  have w2 : Elem.WF ⟨[0x9F, 0x12], [0x01], [0x42]⟩ :=
    ⟨.high 0x9F [] 0x12 (by decide) (by simp) (by decide), .short 1 (by decide)⟩
  have w3 : Elem.WF ⟨[0x50], [0x81, 0x01], [0x41]⟩ := ⟨.low _ (by decide), .long 0x81 [0x01] rfl (by decide)⟩
  have b1 : IsBlock [⟨[0x50], [0x01], [0x41]⟩, ⟨[0x9F, 0x12], [0x01], [0x42]⟩] := by
    refine ⟨?_, ?_⟩
    · intro e he
      simp only [List.mem_cons, List.not_mem_nil, or_false] at he
      rcases he with rfl | rfl <;> assumption
    · rintro e he ⟨h, -⟩; cases he; cases h
  have b2 : IsBlock [⟨[0x9F, 0x12], [0x01], [0x42]⟩, ⟨[0x50], [0x81, 0x01], [0x41]⟩] := by
    refine ⟨?_, ?_⟩
    · intro e he
      simp only [List.mem_cons, List.not_mem_nil, or_false] at he
      rcases he with rfl | rfl <;> assumption
    · rintro e he ⟨h, -⟩; cases he; cases h
  refine (c111_alike (m := .debug64) [] true { berTlv := some "50 01 41 9F12 01 42".toList }
    { berTlv := some "9F12 01 42 50 81 01 41".toList } _ _ (.ber (by unfold Fits; decide +kernel) rfl)
    (.ber (by unfold Fits; decide +kernel) rfl) (by decide +kernel) (by decide +kernel) _ _
    (.ber b1 (by decide +kernel)) (.ber b2 (by decide +kernel)) _ _
    ⟨⟨by decide +kernel, rfl, by decide +kernel⟩, by decide +kernel, by decide +kernel, by decide +kernel⟩
    ⟨⟨by decide +kernel, rfl, by decide +kernel⟩, by decide +kernel, by decide +kernel, by decide +kernel⟩).2 ?_
  show ∀ k, _
  intro k
  by_cases h : [0x9F, 0x12] = k
  · subst h; simp
  · by_cases h' : [0x50] = k
    · subst h'; simp
    · simp [h, h']

/-- **C111.** What the options do is the same for the same data objects, errors and panics included. -/
theorem c111_same {m : Machine} (masks : List Char) (sort : Bool) (ops ops' : CliOps) (b b' : List RawEmvNode)
    (h : Reads m masks ops b) (h' : Reads m masks ops' b') (l : List (List Byte × EmvData))
    (hl : Holds masks ops l) (hl' : Holds masks ops' l) : run m ops masks sort = run m ops' masks sort := by
  have hb : b = b' := (holds_reads h hl).trans (holds_reads h' hl').symm
  subst hb
  have key : ∀ {ops : CliOps}, Reads m masks ops b →
      run m ops masks sort = finish .nil ((Out.ok b >>= processBlock).map (maybeSort sort))
        (fun b => displayBlock m b 0 true) := by
    intro ops h
    cases h with
    | ber hm h =>
      show finish _ _ _ = _
      rw [hexBytes_eq, h]
    | ingenico hm h =>
      show finish _ _ _ = _
      rw [h]
  rw [key h, key h']

/-- The same label as an object with a length of two bytes and as a record, after one that is no EMV data. -/
example : run .debug64 { berTlv := some "50 81 01 41".toList } [] true =
    run .debug64 { ingenicoTlv := some "F01:01:a?,T0050:01:aA".toList } [] true := by
  have w : Elem.WF ⟨[0x50], [0x81, 0x01], [0x41]⟩ := ⟨.low _ (by decide), .long 0x81 [0x01] rfl (by decide)⟩
  have w1 : Record.WF [] ⟨'F', "01".toList, "01".toList, 'a', "?".toList⟩ :=
    ⟨by decide, by decide, by decide, by decide, Or.inl ⟨rfl, by decide⟩⟩
  have w2 : Record.WF [] ⟨'T', "0050".toList, "01".toList, 'a', "A".toList⟩ :=
    ⟨by decide, by decide, by decide, by decide, Or.inl ⟨rfl, by decide⟩⟩
  have hr : Recorded [] "F01:01:a?,T0050:01:aA".toList _ := ⟨by decide +kernel, .cons _ w1 ',' _ _ (.last _ w2)⟩
  have hb : IsBlock [⟨[0x50], [0x81, 0x01], [0x41]⟩] := by
    refine ⟨fun e he => ?_, ?_⟩
    · rw [List.mem_singleton.1 he]; exact w
    · rintro e he ⟨h, -⟩; cases he; cases h
  refine c111_same (m := .debug64) [] true _ _ [.mk ⟨[0x50], .application, .primitive, .normal [0x41]⟩ []]
    [.mk ⟨[0x50], .application, .primitive, .normal [0x41]⟩ []] (.ber (by unfold Fits; decide +kernel) (by decide +kernel))
    (.ingenico (by unfold Fits; decide +kernel) (by decide +kernel)) [([0x50], .normal [0x41])] ?_ ?_
  · have := Holds.ber (masks := []) (s := "50 81 01 41".toList) hb (by decide +kernel)
    rw [List.map_cons, List.map_nil, dataOf, if_neg (fun ⟨_, _, h, _⟩ => nomatch h)] at this
    exact this
  · have := Holds.ingenico hr
    have e : emvRecords [⟨'F', "01".toList, "01".toList, 'a', "?".toList⟩, ⟨'T', "0050".toList, "01".toList, 'a', "A".toList⟩] =
      [⟨'T', "0050".toList, "01".toList, 'a', "A".toList⟩] := rfl
    have t : Record.tag ⟨'T', "0050".toList, "01".toList, 'a', "A".toList⟩ = [0x50] := by decide +kernel
    have v : ("A".toList.map (fun c => UInt8.ofNat c.toNat)) = [0x41] := by decide +kernel
    rw [e, List.map_cons, List.map_nil, Record.data, if_neg (fun ⟨_, _, h, _⟩ => nomatch h), if_neg (by decide), t, v] at this
    exact this

/-- **C111.** Every block that is read holds some data objects, so that the above is about all of them. -/
theorem c111_holds {m : Machine} (masks : List Char) (ops : CliOps) (b : List RawEmvNode) (h : Reads m masks ops b) :
    ∃ l, Holds masks ops l ∧ b.map (fun n => (n.tag.tag, n.tag.data)) = l := by
  have key : ∃ l, Holds masks ops l := by
    cases h with
    | ber hm h =>
      obtain ⟨es, hs, hb, -⟩ := (c10_language masks _ hm _).1 h
      exact ⟨_, .ber hb hs⟩
    | ingenico hm h =>
      obtain ⟨ha, rs, hr, -⟩ := (c21_language masks _ hm _).1 h
      exact ⟨_, .ingenico ⟨ha, hr⟩⟩
  obtain ⟨l, hl⟩ := key
  refine ⟨l, hl, ?_⟩
  rw [holds_reads h hl]
  exact tops_map m masks l

example := c111_holds (m := .debug64) [] { berTlv := some "50 01 41".toList } _ (.ber (by unfold Fits; decide +kernel) rfl)

/-- **C111.** If the format is detected, what is shown tells the format, too: two texts are shown as the same exactly if
their formats are the same and they hold the same data objects. -/
theorem c111_detected {m : Machine} (masks : List Char) (sort : Bool) (s s' : Text) (h0 : s ≠ []) (h0' : s' ≠ [])
    (hm : Fits m s.length) (hm' : Fits m s'.length) (f f' : String) (ops ops' : CliOps) (hf : Detects masks s f ops)
    (hf' : Detects masks s' f' ops') (b b' : List RawEmvNode) (h : Reads m masks ops b) (h' : Reads m masks ops' b')
    (hd : blockDepth b ≤ 254) (hd' : blockDepth b' ≤ 254) (l l' : List (List Byte × EmvData)) (hl : Holds masks ops l)
    (hl' : Holds masks ops' l') (c c' : Cells) (hs : Succeeds (run m { autoTlv := some s } masks sort) c)
    (hs' : Succeeds (run m { autoTlv := some s' } masks sort) c') :
    (c.map (·.1) = c'.map (·.1) ↔ f = f' ∧ SameObjects sort l l') ∧ (f = f' ∧ SameObjects sort l l' → c = c') := by
  obtain ⟨x, hx, rfl⟩ := announced (detects_announces sort h0 hm hf) hs
  obtain ⟨x', hx', rfl⟩ := announced (detects_announces sort h0' hm' hf') hs'
  obtain ⟨k, k'⟩ := c111_alike masks sort ops ops' b b' h h' hd hd' l l' hl hl' x x' hx hx'
  refine ⟨⟨fun hc => ?_, fun ⟨e, hsame⟩ => by rw [e, k' hsame]⟩, fun ⟨e, hsame⟩ => by rw [e, k' hsame]⟩
  have e : f = f' := formats_inj hf hf' (by rw [List.map_append, List.map_append] at hc; exact hc)
  subst e
  rw [List.map_append, List.map_append, List.append_cancel_left_eq] at hc
  exact ⟨rfl, k.1 hc⟩

/-- The same label in each of the two formats: only what is told about the format differs. -/
example :
    (run .debug64 { autoTlv := some "50 01 41".toList } [] true).disp.text =
      "TLV Format: BER-TLV\n\n".toList ++ (run .debug64 { berTlv := some "50 01 41".toList } [] true).disp.text ∧
    (run .debug64 { autoTlv := some "T50:01:aA".toList } [] true).disp.text =
      "TLV Format: Ingenico\n\n".toList ++ (run .debug64 { berTlv := some "50 01 41".toList } [] true).disp.text := by
  decide +kernel

/-- A label in ASCII and in hex. -/
example :
    paint plainStyle (run .debug64 { autoTlv := some "T50:01:aA".toList } [] true).disp.evs =
      paint plainStyle (run .debug64 { autoTlv := some "T50:01:h41".toList } [] true).disp.evs := by
  have w1 : Record.WF [] ⟨'T', "50".toList, "01".toList, 'a', "A".toList⟩ :=
    ⟨by decide, by decide, by decide, by decide, Or.inl ⟨rfl, by decide⟩⟩
  have w2 : Record.WF [] ⟨'T', "50".toList, "01".toList, 'h', "41".toList⟩ :=
    ⟨by decide, by decide, by decide, by decide, Or.inr ⟨rfl, by decide, .inl (by decide)⟩⟩
  have r1 : Recorded [] "T50:01:aA".toList _ := ⟨by decide +kernel, .last _ w1⟩
  have r2 : Recorded [] "T50:01:h41".toList _ := ⟨by decide +kernel, .last _ w2⟩
  refine (c111_detected (m := .debug64) [] true "T50:01:aA".toList "T50:01:h41".toList (by decide +kernel)
    (by decide +kernel) (by unfold Fits; decide +kernel) (by unfold Fits; decide +kernel) _ _ _ _ (.ingenico ⟨_, r1⟩)
    (.ingenico ⟨_, r2⟩) [.mk ⟨[0x50], .application, .primitive, .normal [0x41]⟩ []]
    [.mk ⟨[0x50], .application, .primitive, .normal [0x41]⟩ []] (.ingenico (by unfold Fits; decide +kernel) (by decide +kernel))
    (.ingenico (by unfold Fits; decide +kernel) (by decide +kernel)) (by decide +kernel) (by decide +kernel)
    [([0x50], .normal [0x41])] [([0x50], .normal [0x41])] ?_ ?_ _ _
    ⟨⟨by decide +kernel, rfl, by decide +kernel⟩, by decide +kernel, by decide +kernel, by decide +kernel⟩
    ⟨⟨by decide +kernel, rfl, by decide +kernel⟩, by decide +kernel, by decide +kernel, by decide +kernel⟩).2
    ⟨rfl, fun _ => rfl⟩
  · obtain ⟨l, hl, e⟩ := c111_holds (m := .debug64) [] _ [.mk ⟨[0x50], .application, .primitive, .normal [0x41]⟩ []]
      (.ingenico (s := "T50:01:aA".toList) (by unfold Fits; decide +kernel) (by decide +kernel))
    rw [← e] at hl; exact hl
  · obtain ⟨l, hl, e⟩ := c111_holds (m := .debug64) [] _ [.mk ⟨[0x50], .application, .primitive, .normal [0x41]⟩ []]
      (.ingenico (s := "T50:01:h41".toList) (by unfold Fits; decide +kernel) (by decide +kernel))
    rw [← e] at hl; exact hl

end Pemv
