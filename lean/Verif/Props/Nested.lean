import Verif.Proofs.Nested

/-!
# C84: templates are shown as what they contain
-/

namespace Pemv

open Spec

/-! ### C84 -/

/-- **C84.** If what is inside a template can be shown by itself, then the template is shown as its tag, its bytes
and, one level deeper, exactly what is shown for the inside alone. -/
theorem c84_template {m : Machine} (masks : List Char) (sort : Bool) (e : Elem) (hw : e.WF)
    (hc : typeOf e.tag = .constructed) (hk : ¬ IsMasked (latin1 e.value) masks) (s w : Text)
    (hs : hexBytes s = e.value) (hb : hexBytes w = e.bytes) (hm : Fits m e.bytes.length)
    (b : RawEmvBlock) (h : berParse m e.value masks = .ok b) (hne : b ≠ []) (ha : AllAcceptable b)
    (hd : blockDepth b < 254 ∨ m.overflowChecks = false) :
    ∃ doc, Succeeds (run m { berTlv := some s } masks sort) (showLines 0 doc) ∧
      Succeeds (run m { berTlv := some w } masks sort) (showLines 0 (
        [tagLine ⟨e.tag, classOf e.tag, .constructed, .normal e.value⟩] ++ rawLines (.normal e.value) ++
        title "Constructed Data Object's Child Tags:" :: deeper doc)) := by
  obtain ⟨q, hq⟩ := (c34_ok_iff b).2 ha
  exact ⟨_, ber_run (by rw [hs]; exact h) hq (shows_maybeSort (m := m) hq sort (hd.imp Nat.le_of_lt id)),
    template_run masks sort hq hne hd e hw hc hk w hb hm h⟩

/-- **C84.** If what is inside cannot be read, the template is shown as its tag and its bytes alone. -/
theorem c84_opaque {m : Machine} (masks : List Char) (sort : Bool) (e : Elem) (hw : e.WF) (hz : ¬ e.LongZero)
    (hc : typeOf e.tag = .constructed) (hk : ¬ IsMasked (latin1 e.value) masks) (w : Text)
    (hb : hexBytes w = e.bytes) (hm : Fits m e.bytes.length) (err : ParseError)
    (h : berParse m e.value masks = .err err) :
    Succeeds (run m { berTlv := some w } masks sort) (showLines 0 (
      [tagLine ⟨e.tag, classOf e.tag, .constructed, .normal e.value⟩] ++ rawLines (.normal e.value))) := by
  obtain ⟨p, -, hr, hok, -⟩ := template_process ⟨e.tag, classOf e.tag, .constructed, .normal e.value⟩ hc []
  have hpar := template_parse masks e hw hz hc hk hm
  rw [h] at hpar
  have h2 := shows_maybeSort (m := m) (hok [] rfl) sort (Or.inl (by simp [blockDepth, nodeDepth]))
  have hrun := ber_run (s := w) (by rw [hb]; exact hpar) (hok [] rfl) h2
  have h0 : maybeSort sort [] = [] := by cases sort <;> rfl
  rw [maybeSort_single, eraseBlock, eraseNode, hr, eraseBlock, blockLines_template _ _ _ hc, h0, eraseBlock,
    if_pos rfl, List.append_nil] at hrun
  exact hrun

/-- **C84.** If what is inside can be read but contains a value that is not understood, the template is rejected
with the message for that value. -/
theorem c84_error {m : Machine} (masks : List Char) (sort sort' : Bool) (e : Elem) (hw : e.WF) (hz : ¬ e.LongZero)
    (hc : typeOf e.tag = .constructed) (hk : ¬ IsMasked (latin1 e.value) masks) (s w : Text)
    (hs : hexBytes s = e.value) (hb : hexBytes w = e.bytes) (hm : Fits m e.bytes.length)
    (b : RawEmvBlock) (h : berParse m e.value masks = .ok b) (msg : Text)
    (hf : Fails (run m { berTlv := some s } masks sort) msg) :
    Fails (run m { berTlv := some w } masks sort') msg := by
  obtain ⟨err, rfl, herr⟩ := ber_fails hf
  rw [hs, h] at herr
  rcases herr with herr | ⟨b', hb', herr⟩
  · cases herr
  · cases hb'
    obtain ⟨p, -, -, -, herr'⟩ := template_process ⟨e.tag, classOf e.tag, .constructed, .normal e.value⟩ hc b
    have hpar := template_parse masks e hw hz hc hk hm
    rw [h] at hpar
    exact ber_run_err (Or.inr ⟨_, by rw [hb]; exact hpar, herr' err herr⟩)

/-- A response template with a label, with a truncated label, and with a bad transaction type in it. -/
example : Elem.WF ⟨[0x77], [0x03], [0x50, 0x01, 0x41]⟩ ∧ typeOf [0x77] = .constructed ∧
    berParse .debug64 [0x50, 0x01, 0x41] [] = .ok [.mk ⟨[0x50], .application, .primitive, .normal [0x41]⟩ []] ∧
    berParse .debug64 [0x50, 0x02, 0x41] [] = .err .nonCompliant ∧
    (run .debug64 { berTlv := some "9C 02 00 00".toList } [] true).stderr ≠ none ∧
    (run .debug64 { berTlv := some "77 04 9C 02 00 00".toList } [] true).stderr =
      (run .debug64 { berTlv := some "9C 02 00 00".toList } [] true).stderr := by
  refine ⟨⟨.low _ (by decide), .short 3 (by decide)⟩, rfl, ?_⟩
  decide +kernel

/-- Each of the three theorems at work. -/
example :
    (∃ doc, Succeeds (run .debug64 { berTlv := some "50 01 41".toList } [] true) (showLines 0 doc) ∧
      Succeeds (run .debug64 { berTlv := some "77 03 50 01 41".toList } [] true) (showLines 0 (
        [tagLine ⟨[0x77], .application, .constructed, .normal [0x50, 0x01, 0x41]⟩] ++ rawLines (.normal [0x50, 0x01, 0x41]) ++
        title "Constructed Data Object's Child Tags:" :: deeper doc))) ∧
    Succeeds (run .debug64 { berTlv := some "77 03 50 02 41".toList } [] true) (showLines 0 (
      [tagLine ⟨[0x77], .application, .constructed, .normal [0x50, 0x02, 0x41]⟩] ++ rawLines (.normal [0x50, 0x02, 0x41]))) ∧
    ∃ msg, Fails (run .debug64 { berTlv := some "77 04 9C 02 00 00".toList } [] false) msg := by
  have hu : ∀ v : List Byte, ¬ IsMasked (latin1 v) [] := by rintro v ⟨-, c, hc, -⟩; cases hc
  have wf : ∀ v : List Byte, v.length = 3 → Elem.WF ⟨[0x77], [0x03], v⟩ := by
    intro v hv
    exact ⟨.low _ (by decide), by rw [hv]; exact .short 3 (by decide)⟩
  refine ⟨?_, ?_, ?_⟩
  · refine c84_template [] true ⟨[0x77], [0x03], [0x50, 0x01, 0x41]⟩ (wf _ rfl) rfl (hu _) _ _ (by decide +kernel)
      (by decide +kernel) (c16_fits_64 rfl _ (by decide)) [.mk ⟨[0x50], .application, .primitive, .normal [0x41]⟩ []] rfl (by simp)
      ((c34_ok_iff _).1 ?_) (Or.inl (by decide))
    exact ⟨_, rfl⟩
  · exact c84_opaque [] true ⟨[0x77], [0x03], [0x50, 0x02, 0x41]⟩ (wf _ rfl) (fun h => by cases h.1) rfl (hu _) _ (by decide +kernel)
      (c16_fits_64 rfl _ (by decide)) .nonCompliant rfl
  · refine ⟨_, c84_error [] true false ⟨[0x77], [0x04], [0x9C, 0x02, 0x00, 0x00]⟩ ⟨.low _ (by decide), .short 4 (by decide)⟩
      (fun h => by cases h.1) rfl (hu _) "9C 02 00 00".toList _ (by decide +kernel) (by decide +kernel) (c16_fits_64 rfl _ (by decide))
      _ rfl (message (.byteCountIncorrect .eq 1 2)) ?_⟩
    constructor <;> decide +kernel

end Pemv
