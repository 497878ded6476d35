import Verif.Proofs.Whole
import Verif.Proofs.CliOrder
import Verif.Proofs.Reading
import Verif.Proofs.ReadBack
import Verif.Proofs.Announce

/-!
# C73–C78: relations between whole runs
-/

namespace Pemv

open Spec

/-! ### C73 -/

/-- **C73.** The same objects, nested to any depth, are shown in the same way whether they are given as BER-TLV or
as Ingenico records, in hex or ASCII and with any separators. -/
theorem c73_formats {m : Machine} (masks : List Char) (hmasks : ∀ c ∈ masks, ¬ IsHex c) (sort : Bool)
    (l : List (Obj × Bool × Char)) (h : allWF masks (l.map (·.1)))
    (hascii : ∀ p ∈ l, p.2.1 = true → ∀ b ∈ p.1.content, b.toNat < 128) (hsep : ∀ p ∈ l, p.2.2.toNat < 128)
    (s : Text) (hs : hexBytes s = encodeAll (l.map (·.1)))
    (hm : Fits m (asRecords l).length) (hm' : Fits m (encodeAll (l.map (·.1))).length) :
    run m { ingenicoTlv := some (asRecords l) } masks sort = run m { berTlv := some s } masks sort := by
  show finish .nil ((ingParse m (asRecords l) masks >>= processBlock).map (maybeSort sort)) _ =
    finish .nil ((berParse m (parseHexStr s) masks >>= processBlock).map (maybeSort sort)) _
  rw [hexBytes_eq, hs, c11_round_trip masks _ h hm', records_parse masks hmasks l h hascii hsep hm hm']

example : run .debug64 { ingenicoTlv := some "T70:05:h9F020212AB,T50:02:aVI\n".toList } [] true =
    run .debug64 { berTlv := some "70 05 9F 02 02 12 AB 50 02 56 49".toList } [] true := by
  have e : asRecords [(.cons [0x70] [.prim [0x9F, 0x02] [0x12, 0xAB]], false, ','), (.prim [0x50] [0x56, 0x49], true, '\n')] =
      "T70:05:h9F020212AB,T50:02:aVI\n".toList := by decide +kernel
  have no : ∀ s : Text, ¬ IsMasked s [] := by rintro s ⟨-, c, h, -⟩; cases h
  have := c73_formats (m := .debug64) [] (by simp) true
    [(.cons [0x70] [.prim [0x9F, 0x02] [0x12, 0xAB]], false, ','), (.prim [0x50] [0x56, 0x49], true, '\n')]
    ⟨⟨.low _ (by decide), by decide, by decide +kernel, no _,
      ⟨.high 0x9F [] 0x02 (by decide) (by simp) (by decide), by decide, by decide, no _⟩, trivial⟩,
      ⟨.low _ (by decide), by decide, by decide, no _⟩, trivial⟩
    (by decide +kernel) (by decide +kernel) "70 05 9F 02 02 12 AB 50 02 56 49".toList (by decide +kernel)
    (by unfold Fits; decide +kernel) (by unfold Fits; decide +kernel)
  rwa [e] at this

/-- **C73.** Whatever the Ingenico option shows for a text, automatic detection shows too, after the lines that tell
the format. -/
theorem c73_auto_ingenico {m : Machine} (masks : List Char) (sort : Bool) (s : Text) (hs : s ≠ []) (shown : Cells)
    (h : Succeeds (run m { ingenicoTlv := some s } masks sort) shown) :
    Succeeds (run m { autoTlv := some s } masks sort) (showLines 0 (formatLines "Ingenico") ++ shown) := by
  obtain ⟨v, hv, hsh⟩ := finish_succeeds (x := (ingParse m s masks >>= processBlock).map (maybeSort sort)) h
  obtain ⟨q, hq, rfl⟩ := map_ok hv
  obtain ⟨b, hb, hp⟩ := bind_ok hq
  show Succeeds (runAuto m s masks sort) _
  rw [runAuto, autoParse, if_neg hs, hb]
  simp only [hp]
  exact finish_shows rfl (shows_header .ingenico) hsh

example := c73_auto_ingenico (m := .debug64) [] true "T50:01:h41".toList (by decide +kernel)
  (paint plainStyle (run .debug64 { ingenicoTlv := some "T50:01:h41".toList } [] true).disp.evs)
  ⟨⟨by decide +kernel, rfl, by decide +kernel⟩, by decide +kernel, by decide +kernel, by decide +kernel⟩

/-- **C73.** The same for BER-TLV and a text that cannot be Ingenico data. -/
theorem c73_auto_ber {m : Machine} (masks : List Char) (sort : Bool) (s : Text) (hs : s ≠ []) (hc : ':' ∉ s)
    (hm : Fits m s.length) (shown : Cells) (h : Succeeds (run m { berTlv := some s } masks sort) shown) :
    Succeeds (run m { autoTlv := some s } masks sort) (showLines 0 (formatLines "BER-TLV") ++ shown) := by
  obtain ⟨v, hv, hsh⟩ := finish_succeeds (x := (berParse m (parseHexStr s) masks >>= processBlock).map (maybeSort sort)) h
  obtain ⟨q, hq, rfl⟩ := map_ok hv
  obtain ⟨b, hb, hp⟩ := bind_ok hq
  have ha : autoParse m s masks = .ok (.berTlv, b) := by
    rcases (c30_no_colon masks s hm hs hc).2 with ⟨b', hb', ha⟩ | ⟨hn, -⟩
    · rw [hb] at hb'; cases hb'; exact ha
    · exact absurd ⟨b, hb⟩ hn
  show Succeeds (runAuto m s masks sort) _
  rw [runAuto, ha]
  simp only [hp]
  exact finish_shows rfl (shows_header .berTlv) hsh

example := c73_auto_ber (m := .debug64) [] true "500141".toList (by decide +kernel) (by decide +kernel)
  (by unfold Fits; decide +kernel) (paint plainStyle (run .debug64 { berTlv := some "500141".toList } [] true).disp.evs)
  ⟨⟨by decide +kernel, rfl, by decide +kernel⟩, by decide +kernel, by decide +kernel, by decide +kernel⟩

/-- **C73.** Detection altogether: it does what the option for the format found does, errors and panics included, after
telling the format. The Ingenico format is tried first; a text in neither format is reported as unrecognised. -/
theorem c73_auto_decides {m : Machine} (masks : List Char) (sort : Bool) (s : Text) (hs : s ≠ []) (hm : Fits m s.length) :
    (((∀ c ∈ s, c.toNat < 128) ∧ ∃ rs, IsIngenico masks s rs) →
      Announces "Ingenico" (run m { ingenicoTlv := some s } masks sort) (run m { autoTlv := some s } masks sort)) ∧
    ((¬ ((∀ c ∈ s, c.toNat < 128) ∧ ∃ rs, IsIngenico masks s rs)) → (∃ es, hexBytes s = concat es ∧ IsBlock es) →
      Announces "BER-TLV" (run m { berTlv := some s } masks sort) (run m { autoTlv := some s } masks sort)) ∧
    ((¬ ((∀ c ∈ s, c.toNat < 128) ∧ ∃ rs, IsIngenico masks s rs)) → (¬ ∃ es, hexBytes s = concat es ∧ IsBlock es) →
      Fails (run m { autoTlv := some s } masks sort) (message .unrecognised)) := by
  obtain ⟨l1, l2⟩ := c29_languages masks s hm
  obtain ⟨a1, a2, a3⟩ := c29_agrees masks s hm
  rw [hexBytes_eq] at l2
  have e1 : run m { ingenicoTlv := some s } masks sort = tlvOutcome m sort (tlvParse m masks .ingenicoTlv s) := by
    rw [run_eq]; exact runOp_tlv m masks sort .ingenicoTlv (by simp) s
  have e2 : run m { berTlv := some s } masks sort = tlvOutcome m sort (tlvParse m masks .berTlv s) := by
    rw [run_eq]; exact runOp_tlv m masks sort .berTlv (by simp) s
  have e3 : run m { autoTlv := some s } masks sort = tlvOutcome m sort (tlvParse m masks .autoTlv s) := by
    rw [run_eq]; exact runOp_tlv m masks sort .autoTlv (by simp) s
  refine ⟨fun hi => ?_, fun hi hb => ?_, fun hi hb => ?_⟩
  · obtain ⟨b, h⟩ := l1.2 ⟨hs, hi⟩
    have h' := ((a1 b).1 h).2
    rw [e1, e3, tlvParse, tlvParse, h, h']
    exact announces_outcome .ingenico b
  · obtain ⟨b, h⟩ := l2.2 ⟨hs, hi, hb⟩
    have h' := ((a2 b).1 h).2.2
    rw [e2, e3, tlvParse, tlvParse, h, h']
    exact announces_outcome .berTlv b
  · refine (c58_auto m _ masks sort s rfl).1 _ (a3 ?_)
    rintro ⟨⟨f, b⟩, h⟩
    cases f with
    | ingenico => exact hi (l1.1 ⟨b, h⟩).2
    | berTlv => exact hb (l2.1 ⟨b, h⟩).2.2

/-- A text in each of the two formats, one in neither, and one of which a value is not understood: the format is not told
then. -/
example : (run .debug64 { autoTlv := some "T50:02:h41".toList } [] true).stderr.isSome ∧
    (run .debug64 { autoTlv := some "T50:01:h41".toList } [] true).disp.text =
      "TLV Format: Ingenico\n\n".toList ++ (run .debug64 { ingenicoTlv := some "T50:01:h41".toList } [] true).disp.text ∧
    (run .debug64 { autoTlv := some "500141".toList } [] true).disp.text =
      "TLV Format: BER-TLV\n\n".toList ++ (run .debug64 { berTlv := some "500141".toList } [] true).disp.text ∧
    (run .debug64 { autoTlv := some "T95:00:h".toList } [] true).disp = .nil := by decide +kernel

/-- A template with an amount in it, and a label in ASCII. -/
example : asRecords [(.cons [0x70] [.prim [0x9F, 0x02] [0x12, 0xAB]], false, ','), (.prim [0x50] [0x56, 0x49], true, '\n')] =
      "T70:05:h9F020212AB,T50:02:aVI\n".toList ∧
    encodeAll [.cons [0x70] [.prim [0x9F, 0x02] [0x12, 0xAB]], .prim [0x50] [0x56, 0x49]] =
      hexBytes "70 05 9F 02 02 12 AB 50 02 56 49".toList := by
  decide +kernel

/-! ### C74 -/

/-- **C74.** What is shown tells what was read: if two runs show the same text, apart from colours, the blocks they show
are the same. The options, the masking characters and the machines may differ. -/
theorem c74_read_back {m m' : Machine} (masks masks' : List Char) (ops ops' : CliOps) (sort sort' : Bool)
    (b b' : List RawEmvNode) (h : Reads m masks ops b) (h' : Reads m' masks' ops' b') (hd : blockDepth b ≤ 254)
    (hd' : blockDepth b' ≤ 254) (c c' : Cells) (hs : Succeeds (run m ops masks sort) c)
    (hs' : Succeeds (run m' ops' masks' sort') c') (hc : c.map (·.1) = c'.map (·.1)) :
    ∃ a, Arranged sort b a ∧ Arranged sort' b' a := by
  obtain ⟨a, h1, rfl⟩ := reads_shown h hd hs
  obtain ⟨a', h1', rfl⟩ := reads_shown h' hd' hs'
  have := arranged_depth h1
  have := arranged_depth h1'
  have : a = a' := block_inj a a' (by omega) (by omega) (arranged_typed h1 (reads_typed h)) (arranged_typed h1' (reads_typed h')) hc
  subst this
  exact ⟨a, h1, h1'⟩

example := c74_read_back (m := .debug64) (m' := .debug64) [] [] { berTlv := some "50 01 41".toList }
  { ingenicoTlv := some "T50:01:aA".toList } true false [.mk ⟨[0x50], .application, .primitive, .normal [0x41]⟩ []]
  [.mk ⟨[0x50], .application, .primitive, .normal [0x41]⟩ []]
  (.ber (by unfold Fits; decide +kernel) (by decide +kernel)) (.ingenico (by unfold Fits; decide +kernel) (by decide +kernel))
  (by decide) (by decide) (paint plainStyle (run .debug64 { berTlv := some "50 01 41".toList } [] true).disp.evs)
  (paint plainStyle (run .debug64 { ingenicoTlv := some "T50:01:aA".toList } [] false).disp.evs)
  ⟨⟨by decide +kernel, rfl, by decide +kernel⟩, by decide +kernel, by decide +kernel, by decide +kernel⟩
  ⟨⟨by decide +kernel, rfl, by decide +kernel⟩, by decide +kernel, by decide +kernel, by decide +kernel⟩ (by decide +kernel)

/-- **C74.** So without sorting the blocks read are the same, with all their tags and values. -/
theorem c74_unsorted {m m' : Machine} (masks masks' : List Char) (ops ops' : CliOps)
    (b b' : List RawEmvNode) (h : Reads m masks ops b) (h' : Reads m' masks' ops' b') (hd : blockDepth b ≤ 254)
    (hd' : blockDepth b' ≤ 254) (c c' : Cells) (hs : Succeeds (run m ops masks false) c)
    (hs' : Succeeds (run m' ops' masks' false) c') (hc : c.map (·.1) = c'.map (·.1)) : b = b' := by
  obtain ⟨a, h1, h2⟩ := c74_read_back masks masks' ops ops' false false b b' h h' hd hd' c c' hs hs' hc
  exact (show a = b from h1).symm.trans h2

/-- Two texts that are read as the same block, and one that is read as another. -/
example : Reads .debug64 [] { berTlv := some "50 01 41".toList } [.mk ⟨[0x50], .application, .primitive, .normal [0x41]⟩ []] ∧
    Reads .debug64 [] { ingenicoTlv := some "T50:01:aA".toList } [.mk ⟨[0x50], .application, .primitive, .normal [0x41]⟩ []] ∧
    Reads .debug64 ['A'] { berTlv := some "50044141 4141".toList } [.mk ⟨[0x50], .application, .primitive, .masked⟩ []] :=
  ⟨.ber (by unfold Fits; decide +kernel) (by decide +kernel), .ingenico (by unfold Fits; decide +kernel) (by decide +kernel),
    .ber (by unfold Fits; decide +kernel) (by decide +kernel)⟩

/-! ### C75 -/

/-- **C75.** Without sorting, a text made of two is shown as the first, an empty line, and the second. -/
theorem c75_concatenation {m : Machine} (masks : List Char) (s s' : Text) (c c' : Cells) (hw : WholeBytes s)
    (hm : Fits m (hexBytes (s ++ s')).length) (h : Succeeds (run m { berTlv := some s } masks false) c)
    (h' : Succeeds (run m { berTlv := some s' } masks false) c') (hc : c ≠ []) (hc' : c' ≠ []) :
    Succeeds (run m { berTlv := some (s ++ s') } masks false) (c ++ plain ['\n'] ++ c') := by
  obtain ⟨b, q, hb, hp, hs⟩ := ber_succeeds h
  obtain ⟨b', q', hb', hp', hs'⟩ := ber_succeeds h'
  rw [hexBytes_append s s' hw] at hm
  have hb2 := c13_append masks (hexBytes s) (hexBytes s') hm b b' hb hb'
  rw [← hexBytes_append s s' hw] at hb2
  refine ber_run hb2 (processBlock_append hp hp') ?_
  have hq : q ≠ [] := by
    rintro rfl
    exact hc (shows_cells_unique hs shows_nil)
  have hq' : q' ≠ [] := by
    rintro rfl
    exact hc' (shows_cells_unique hs' shows_nil)
  have he : (true && q.isEmpty) = false := by
    cases q with
    | nil => exact absurd rfl hq
    | cons _ _ => rfl
  show Shows (displayNodes m true (q ++ q') true 0) _
  rw [displayNodes_append, he, displayNodes_false m true q' 0 hq', List.append_assoc]
  exact hs.seq ((shows_println []).seq hs')

/-- **C75.** An error in the second text is that of the whole. -/
theorem c75_error {m : Machine} (masks : List Char) (s s' : Text) (c : Cells) (hw : WholeBytes s) (sort sort' : Bool)
    (hm : Fits m (hexBytes (s ++ s')).length) (h : Succeeds (run m { berTlv := some s } masks sort) c)
    (msg : Text) (h' : Fails (run m { berTlv := some s' } masks sort') msg) :
    Fails (run m { berTlv := some (s ++ s') } masks sort) msg := by
  obtain ⟨b, q, hb, hp, -⟩ := ber_succeeds h
  obtain ⟨e, rfl, he⟩ := ber_fails h'
  apply ber_run_err
  rw [hexBytes_append s s' hw] at hm ⊢
  rw [c13_compositional masks (hexBytes s) (hexBytes s') hm b hb]
  rcases he with he | ⟨b', hb', he⟩
  · rw [he]; exact Or.inl rfl
  · rw [hb']
    exact Or.inr ⟨b ++ b', rfl, processBlock_append_err hp he⟩

/-- Two objects. -/
example : WholeBytes "9F02 02 12-34".toList ∧ hexBytes "9F02 02 12-34".toList = [0x9F, 0x02, 0x02, 0x12, 0x34] ∧
    hexBytes ("9F02 02 12-34".toList ++ "5000".toList) = [0x9F, 0x02, 0x02, 0x12, 0x34, 0x50, 0x00] := by
  unfold WholeBytes
  decide +kernel

/-- An object before another, and before one that is cut short. -/
example : (∃ c c', Succeeds (run .debug64 { berTlv := some "9F02 02 12-34".toList } [] false) c ∧ c ≠ [] ∧
      Succeeds (run .debug64 { berTlv := some ("9F02 02 12-34".toList ++ "5000".toList) } [] false) (c ++ plain ['\n'] ++ c')) ∧
    ∃ msg, Fails (run .debug64 { berTlv := some ("9F02 02 12-34".toList ++ "5002".toList) } [] true) msg := by
  have hw : WholeBytes "9F02 02 12-34".toList := by unfold WholeBytes; decide +kernel
  have ok : ∀ sort, Succeeds (run .debug64 { berTlv := some "9F02 02 12-34".toList } [] sort)
      (paint plainStyle (run .debug64 { berTlv := some "9F02 02 12-34".toList } [] sort).disp.evs) := by
    intro sort
    cases sort <;> exact ⟨⟨by decide +kernel, rfl, by decide +kernel⟩, by decide +kernel, by decide +kernel, by decide +kernel⟩
  have ne : paint plainStyle (run .debug64 { berTlv := some "9F02 02 12-34".toList } [] false).disp.evs ≠ [] := by decide +kernel
  refine ⟨⟨_, _, ok false, ne, c75_concatenation [] _ _ _
    (paint plainStyle (run .debug64 { berTlv := some "5000".toList } [] false).disp.evs) hw (c16_fits_64 rfl _ (by decide +kernel))
    (ok false) ⟨⟨by decide +kernel, rfl, by decide +kernel⟩, by decide +kernel, by decide +kernel, by decide +kernel⟩ ne
    (by decide +kernel)⟩, _, c75_error [] _ _ _ hw true true (c16_fits_64 rfl _ (by decide +kernel)) (ok true)
    (message .nonCompliant) ?_⟩
  constructor <;> decide +kernel

/-! ### C76 -/

/-- **C76.** Different errors have different messages, including the numbers of bytes expected and found. -/
theorem c76_distinct (e e' : ParseError) (h : e.text = e'.text) : e = e' := by
  rw [text_message, text_message] at h
  exact message_inj e e' h

/-- Two errors that differ in one number. -/
example : (ParseError.byteCountIncorrect .eq 5 1).text ≠ (ParseError.byteCountIncorrect .eq 5 11).text :=
  fun h => absurd (c76_distinct _ _ h) (by decide)

/-! ### C77 -/

/-- **C77.** Masking characters are a set: their order and repetition do not matter. -/
theorem c77_masks (m : Machine) (ops : CliOps) (masks masks' : List Char) (sort : Bool)
    (h : ∀ c, c ∈ masks ↔ c ∈ masks') : run m ops masks sort = run m ops masks' sort := by
  obtain ⟨h1, h2, h3⟩ := c08_masks_are_a_set m masks masks' h
  rw [run_eq, run_eq]
  cases selected ops with
  | none => rfl
  | some p =>
    obtain ⟨op, s⟩ := p
    cases op <;> simp only [runOp, runAuto, h1, h2, h3]

example : run .debug64 { berTlv := some "5A022A2A".toList } ['*', '#'] true =
    run .debug64 { berTlv := some "5A022A2A".toList } ['#', '*', '#'] true :=
  c77_masks _ _ _ _ _ (fun c => by simp only [List.mem_cons, List.not_mem_nil, or_false]; exact
    ⟨fun h => h.elim (fun h => Or.inr (Or.inl h)) Or.inl, fun h => h.elim Or.inr (fun h => h.elim Or.inl Or.inr)⟩)

/-- **C77.** The order of the options does not matter. -/
theorem c77_order (m : Machine) (file : FigData) (env : Dict) (profile : Option String) (isTty : Bool)
    (uses uses' : List Use) (hp : uses.Perm uses') (h : ∀ u ∈ uses, ∃ g, understand u = some g ∧ g ≠ .help ∧ g ≠ .version) :
    execute m file env profile isTty uses = execute m file env profile isTty uses' := by
  obtain ⟨gs, hgs⟩ := mapM_some (fun u hu => (h u hu).imp (fun _ hg => hg.1))
  obtain ⟨gs', hgs', hperm⟩ := mapM_perm hp hgs
  have clean : ∀ g ∈ gs, g ≠ .help ∧ g ≠ .version := by
    intro g hg
    obtain ⟨u, hu, hug⟩ := mapM_mem hgs g hg
    obtain ⟨g', hg', hc⟩ := h u hu
    rw [hug] at hg'
    cases hg'
    exact hc
  have hh : .help ∉ gs := fun hg => (clean _ hg).1 rfl
  have hv : .version ∉ gs := fun hg => (clean _ hg).2 rfl
  have hh' : .help ∉ gs' := fun hg => hh (hperm.mem_iff.2 hg)
  have hv' : .version ∉ gs' := fun hg => hv (hperm.mem_iff.2 hg)
  by_cases hne : uses = []
  · subst hne
    rw [List.nil_perm.1 hp]
  have hne' : uses' ≠ [] := fun e => hne (by subst e; exact List.perm_nil.1 hp)
  by_cases hc : Consistent gs
  · have hc' := consistent_perm hperm hc
    obtain ⟨ops, hsel, hok, hbad⟩ := c70_runs m file env profile isTty uses gs hne hgs hh hv hc
    obtain ⟨ops', hsel', hok', hbad'⟩ := c70_runs m file env profile isTty uses' gs' hne' hgs' hh' hv' hc'
    have hops : selected ops = selected ops' := by
      rw [hsel, hsel', perm_short (operations_perm hperm) hc.operation]
    obtain ⟨v1, h1⟩ := valueInForce_some file env profile gs .cliColour
    obtain ⟨v2, h2⟩ := valueInForce_some file env profile gs .maskingCharacters
    obtain ⟨v3, h3⟩ := valueInForce_some file env profile gs .sortParsedTags
    have e1 := (valueInForce_perm file env profile hperm hc .cliColour (by decide)).symm.trans h1
    have e3 := (valueInForce_perm file env profile hperm hc .sortParsedTags (by decide)).symm.trans h3
    obtain ⟨v2', h2', e2⟩ := valueInForce_masks file env profile hperm h2
    by_cases t1 : RightType .cliColour v1
    · by_cases t3 : RightType .sortParsedTags v3
      · by_cases t2 : RightType .maskingCharacters v2
        · obtain ⟨col, rfl⟩ := rightType_colour t1
          obtain ⟨sort, rfl⟩ := rightType_sort t3
          obtain ⟨ms, rfl⟩ := rightType_masks t2
          obtain ⟨ms', rfl, hms⟩ := e2.1 ms rfl
          rw [hok col ms sort h1 h2 h3, hok' col ms' sort e1 h2' e3, c58_first_option m ops ops' ms sort hops,
            c77_masks m ops' ms ms' sort hms]
        · have : v2' = v2 := e2.2 t2
          subst this
          rw [hbad ⟨_, fun v hv => by rw [h2] at hv; cases hv; exact t2⟩,
            hbad' ⟨_, fun v hv => by rw [h2'] at hv; cases hv; exact t2⟩]
      · rw [hbad ⟨_, fun v hv => by rw [h3] at hv; cases hv; exact t3⟩,
          hbad' ⟨_, fun v hv => by rw [e3] at hv; cases hv; exact t3⟩]
    · rw [hbad ⟨_, fun v hv => by rw [h1] at hv; cases hv; exact t1⟩,
        hbad' ⟨_, fun v hv => by rw [e1] at hv; cases hv; exact t1⟩]
  · have hc' : ¬ Consistent gs' := fun h' => hc (consistent_perm hperm.symm h')
    rw [c70_inconsistent m file env profile isTty uses gs hne hgs hh hv hc,
      c70_inconsistent m file env profile isTty uses' gs' hne' hgs' hh' hv' hc']

/-- Three options in two orders. -/
example : [(⟨.short 'm', [['#']]⟩ : Use), ⟨.short 'b', ["5000".toList]⟩, ⟨.short 'm', [['X']]⟩].Perm
      [⟨.short 'm', [['X']]⟩, ⟨.short 'm', [['#']]⟩, ⟨.short 'b', ["5000".toList]⟩] ∧
    ∀ u ∈ [(⟨.short 'm', [['#']]⟩ : Use), ⟨.short 'b', ["5000".toList]⟩, ⟨.short 'm', [['X']]⟩],
      ∃ g, understand u = some g ∧ g ≠ .help ∧ g ≠ .version := by
  refine ⟨by decide +kernel, fun u hu => ?_⟩
  simp only [List.mem_cons, List.not_mem_nil, or_false] at hu
  rcases hu with rfl | rfl | rfl
  · exact ⟨.masking ['#'], by decide +kernel, by decide, by decide⟩
  · exact ⟨.operation .berTlv "5000".toList, by decide +kernel, by decide, by decide⟩
  · exact ⟨.masking ['X'], by decide +kernel, by decide, by decide⟩

/-! ### C78 -/

/-- **C78.** Masking characters only hide: what is read with them is what is read without them, with the masked values
and what is inside them removed. Nothing else changes, and whether the input is accepted does not depend on them. -/
theorem c78_ber {m : Machine} (masks : List Char) (bytes : List Byte) (hm : Fits m bytes.length) :
    berParse m bytes masks = (berParse m bytes []).map (hideBlock masks) :=
  ber_hide masks bytes.length bytes (Nat.le_refl _) hm

example := c78_ber (m := .debug64) ['*'] [0x5A, 0x02, 0x2A, 0x2A, 0x50, 0x00] (by unfold Fits; decide +kernel)

/-- **C78.** The same for Ingenico records, where it is the text of the value in the record that is masked or not. -/
theorem c78_ingenico {m : Machine} (masks : List Char) (s : Text) (hm : Fits m s.length) (b : RawEmvBlock)
    (h : ingParse m s [] = .ok b) : ∃ rs, IsIngenico [] s rs ∧
      b = (emvRecords rs).map (Record.node (fun v => berParse m v []) []) ∧
      ingParse m s masks =
        .ok ((emvRecords rs).map (fun r => hideRecord masks r (r.node (fun v => berParse m v []) []))) := by
  obtain ⟨hascii, rs, hrs, rfl⟩ := (c21_language [] s hm b).1 h
  refine ⟨rs, hrs, rfl, (c21_language masks s hm _).2 ⟨hascii, rs, ingenico_mono hrs, ?_⟩⟩
  apply List.map_congr_left
  intro r hr
  have hr' : r ∈ rs := (List.mem_filter.1 hr).1
  exact (record_hide masks r (fits_le hm (ingenico_value_length hrs r hr'))).symm

example := c78_ingenico (m := .debug64) ['*'] "T50:01:aA".toList (by unfold Fits; decide +kernel)
  [.mk ⟨[0x50], .application, .primitive, .normal [0x41]⟩ []] (by decide +kernel)

/-- **C78.** So a block that can be shown without masking can be shown with it, and what is shown is the block with the
masked values hidden. -/
theorem c78_shown {m : Machine} (masks : List Char) (sort : Bool) (s : Text) (hm : Fits m (hexBytes s).length)
    (b : RawEmvBlock) (h : berParse m (hexBytes s) [] = .ok b) (ha : AllAcceptable b)
    (hd : blockDepth b ≤ 254 ∨ m.overflowChecks = false) :
    ∃ b', Arranged sort (hideBlock masks b) b' ∧
      Succeeds (run m { berTlv := some s } masks sort) (showLines 0 (blockLines true b')) := by
  refine (c58_ber m { berTlv := some s } masks sort s rfl).2.2 (hideBlock masks b) ?_ ?_ ?_
  · rw [c78_ber masks _ hm, h]; rfl
  · exact fun t ht d htd => ha t (hideBlock_tags masks b t ht d htd) d htd
  · exact hd.imp (fun h => Nat.le_trans (hideBlock_depth masks b) h) id

/-- A template is hidden as a whole, or only what is masked in it. -/
example : hideBlock ['*'] [.mk ⟨[0x70], .application, .constructed, .normal [0x5A, 0x02, 0x2A, 0x2A, 0x50, 0x00]⟩
      [.mk ⟨[0x5A], .application, .primitive, .normal [0x2A, 0x2A]⟩ [],
       .mk ⟨[0x50], .application, .primitive, .normal []⟩ []]] =
    [.mk ⟨[0x70], .application, .constructed, .normal [0x5A, 0x02, 0x2A, 0x2A, 0x50, 0x00]⟩
      [.mk ⟨[0x5A], .application, .primitive, .masked⟩ [],
       .mk ⟨[0x50], .application, .primitive, .normal []⟩ []]] := by
  have h1 : ¬ IsMasked (latin1 [0x5A, 0x02, 0x2A, 0x2A, 0x50, 0x00]) ['*'] := by
    rintro ⟨-, c, hc, h⟩
    rw [List.mem_singleton.1 hc] at h
    exact absurd (h 'Z' (by decide)) (by decide)
  have h2 : IsMasked (latin1 [0x2A, 0x2A]) ['*'] := ⟨by decide, '*', by simp, by decide⟩
  have h3 : ¬ IsMasked (latin1 []) ['*'] := fun h => absurd h.1 (by decide)
  simp only [hideBlock, hideNode, if_neg h1, if_pos h2, if_neg h3]

end Pemv
