import Verif.Proofs.Help
import Verif.Props.Ingenico

/-!
# C107: What the help text tells is so

The help text is documentation inside the program. It names options, tags, values and effects; each of these is
compared here with what the program does.
-/

namespace Pemv

open Spec

/-! ### The texts -/

/-- **C107.** Every option is documented, once and in order; each text is a sentence, a long text begins with the short
one on a line of its own. -/
theorem c107_documented :
    helpTable.map ArgHelp.id = cliTable.map ArgDef.id ∧
    ∀ h ∈ helpTable, h.help.toList.getLast? = some '.' ∧ '\n' ∉ h.help.toList ∧
      (h.full = h.help ∨ (h.help.toList ++ ['\n']).isPrefixOf h.full.toList = true) ∧
      h.full.toList.getLast? = some '.' := by
  refine ⟨by decide +kernel, ?_⟩
  by_rows

/-- **C107.** The names shown are names of the option. Those not shown are: an American spelling, abbreviations, and the
hexadecimal names in small letters. -/
theorem c107_names :
    (∀ h ∈ helpTable, ∃ o, optOfHelp h = some o ∧ ∀ n ∈ h.visible, (.long n, o) ∈ optionNames) ∧
    (∀ h ∈ helpTable, ∀ o, optOfHelp h = some o → ∀ n ∈ longNames o, n = h.id ∨ n ∈ h.visible ∨
      n ∈ ["color", "masking-char", "id", "ber", "ingenico", "cvm-result"] ∨
      ∃ n' ∈ h.visible, (∀ c ∈ n'.toList, IsHex c) ∧ n.toList = n'.toList.map Char.toLower) := by
  constructor
  · intro h hh
    have key : ∀ h ∈ helpTable, (optOfHelp h).any (fun o => h.visible.all (fun n => decide ((.long n, o) ∈ optionNames)))
        = true := by decide +kernel
    have := key h hh
    cases ho : optOfHelp h with
    | none => rw [ho] at this; cases this
    | some o =>
      rw [ho, Option.any_some, List.all_eq_true] at this
      exact ⟨o, rfl, fun n hn => of_decide_eq_true (this n hn)⟩
  · intro h hh o ho
    have key : ∀ h ∈ helpTable, (optOfHelp h).all (fun o => (longNames o).all (fun n => decide (n = h.id ∨ n ∈ h.visible ∨
      n ∈ ["color", "masking-char", "id", "ber", "ingenico", "cvm-result"] ∨
      ∃ n' ∈ h.visible, (∀ c ∈ n'.toList, IsHex c) ∧ n.toList = n'.toList.map Char.toLower))) = true := by decide +kernel
    have := key h hh
    rw [ho, Option.all_some, List.all_eq_true] at this
    exact fun n hn => of_decide_eq_true (this n hn)

/-- **C107.** Each heading covers what it says; the options without a heading are not operations. -/
theorem c107_headings : ∀ h ∈ helpTable, ∀ o, optOfHelp h = some o →
    (∀ t, h.heading = some t → ∃ os, headings.lookup t = some os ∧ o ∈ os) ∧
    (h.heading = none → ∀ op, o ≠ .operation op) := by
  have key : ∀ h ∈ helpTable, (optOfHelp h).all (fun o => match h.heading with
      | some t => (headings.lookup t).any (fun os => decide (o ∈ os))
      | none => match o with | .operation _ => false | _ => true) = true := by decide +kernel
  intro h hh o ho
  have := key h hh
  rw [ho, Option.all_some] at this
  constructor
  · intro t ht
    rw [ht] at this
    simp only [Option.any_eq_true] at this
    obtain ⟨os, h1, h2⟩ := this
    exact ⟨os, h1, of_decide_eq_true h2⟩
  · intro hn op e
    rw [hn, e] at this
    cases this

/-- **C107.** What stands between backquotes is an option, or a value that the option in question takes. -/
theorem c107_quoted : ∀ h ∈ helpTable, ∀ q ∈ quotedIn false [] h.full.toList,
    (∃ n o, q = '-' :: '-' :: String.toList n ∧ (.long n, o) ∈ optionNames) ∨
    (∃ o g, optOfHelp h = some o ∧ understandOpt o [q] = some g) := by
  have key : ∀ h ∈ helpTable, ∀ q ∈ quotedIn false [] h.full.toList,
      (optionNames.any (fun p => match p.1 with | .long n => decide (q = '-' :: '-' :: n.toList) | _ => false)) = true ∨
      ((optionNames.lookup (.long h.id)).any (fun o => (understandOpt o [q]).isSome)) = true := by by_rows
  intro h hh q hq
  rcases key h hh q hq with k | k
  · left
    obtain ⟨⟨n, o⟩, hp, hn⟩ := List.any_eq_true.1 k
    cases n with
    | long n => exact ⟨n, o, of_decide_eq_true hn, hp⟩
    | short c => cases hn
  · right
    obtain ⟨o, ho, hs⟩ := (Option.any_eq_true _ _).1 k
    obtain ⟨g, hg⟩ := Option.isSome_iff_exists.1 hs
    exact ⟨o, g, ho, hg⟩

/-- The option quoted by a text. -/
example : quotedIn false [] "This is the inverse to `--sort-parsed-tags`.".toList = ["--sort-parsed-tags".toList] := by
  decide +kernel

/-! ### Tags -/

/-- **C107.** The tags that the short texts mention are the hexadecimal names of the option; only the text for the Card
Verification Results mentions a tag these are a part of. -/
theorem c107_tags : ∀ h ∈ helpTable, ∀ t : Text,
    t ∈ numbersIn h.help.toList ↔
      (∃ n ∈ h.visible, n.toList = t ∧ ∀ c ∈ t, IsHex c) ∨
      (occursIn "(part of tag 0x".toList h.help.toList = true ∧ h.id = "ccd-cvr" ∧ t = "9F10".toList) := by
  have key : ∀ h ∈ helpTable, numbersIn h.help.toList =
      ((h.visible.filter (fun n => n.toList.all (fun c => decide (IsHex c)))).map String.toList) ++
      (if occursIn "(part of tag 0x".toList h.help.toList = true ∧ h.id = "ccd-cvr" then ["9F10".toList] else []) := by
    by_rows
  intro h hh t
  rw [key h hh, List.mem_append, List.mem_map]
  refine or_congr ⟨?_, ?_⟩ ?_
  · rintro ⟨n, hn, rfl⟩
    obtain ⟨h1, h2⟩ := List.mem_filter.1 hn
    exact ⟨n, h1, rfl, fun c hc => of_decide_eq_true (List.all_eq_true.1 h2 c hc)⟩
  · rintro ⟨n, hn, rfl, hx⟩
    exact ⟨n, List.mem_filter.2 ⟨hn, List.all_eq_true.2 (fun c hc => decide_eq_true (hx c hc))⟩, rfl⟩
  · split
    · rename_i hp
      rw [List.mem_singleton]
      exact ⟨fun e => ⟨hp.1, hp.2, e⟩, fun e => e.2.2⟩
    · rename_i hp
      simp only [List.not_mem_nil, false_iff]
      rintro ⟨h1, h2, -⟩
      exact hp ⟨h1, h2⟩

/-- **C107.** The option shows what is shown for an object with the tag that its text mentions, and an error if the value
is not acceptable for it. -/
theorem c107_tag_shown (m : Machine) (file : FigData) (env : Dict) (profile : Option String) (isTty : Bool)
    (hw : WellTyped file env) (h : ArgHelp) (hh : h ∈ helpTable) (hid : h.id ≠ "ccd-cvr") (tag : Text)
    (ht : tag ∈ numbersIn h.help.toList) (s : Text) (hs : s ≠ []) :
    ∃ op colour r, optOfHelp h = some (.operation op) ∧
      execute m file env profile isTty [⟨.long h.id, [s]⟩] = .ran (.ok (colour, r)) ∧
      (∀ d ls, DataOf op s d → Acceptable (hexBytes tag) d → valueLines true (hexBytes tag) d = some ls →
        Succeeds r (showLines 0 ls)) ∧
      ((¬ ∃ d ls, DataOf op s d ∧ Acceptable (hexBytes tag) d ∧ valueLines true (hexBytes tag) d = some ls) →
        ∃ e, Fails r (message e)) := by
  rcases (c107_tags h hh tag).1 ht with ⟨n, hn, rfl, hx⟩ | ⟨-, h2, -⟩
  · obtain ⟨o, ho, hnames⟩ := c107_names.1 h hh
    have hop : ∃ op, o = .operation op := by
      have key : ∀ p ∈ optionNames, (match p.1 with
          | .long n => n.toList.all (fun c => decide (IsHex c))
          | _ => false) = true → (match p.2 with | .operation _ => true | _ => false) = true := by decide +kernel
      have := key _ (hnames n hn) (List.all_eq_true.2 (fun c hc => decide_eq_true (hx c hc)))
      cases o with
      | operation op => exact ⟨op, rfl⟩
      | _ => cases this
    obtain ⟨op, rfl⟩ := hop
    obtain ⟨colour, r, h1, h2⟩ := c71_by_tag m file env profile isTty hw n op (hnames n hn) hx s hs
    refine ⟨op, colour, r, ho, ?_, h2⟩
    rw [← h1]
    have u1 : understand ⟨.long h.id, [s]⟩ = some (.operation op s) := by
      rw [understand, show optionNames.lookup (.long h.id) = _ from ho]
      simp [understandOpt, hs]
    have u2 : understand ⟨.long n, [s]⟩ = some (.operation op s) := by
      rw [understand_of_mem (hnames n hn)]
      simp [understandOpt, hs]
    apply execute_same
    · simp
    · simp
    · intro u hu
      obtain rfl := List.mem_singleton.1 hu
      exact ⟨_, u1, by simp, by simp⟩
    · intro u hu
      obtain rfl := List.mem_singleton.1 hu
      exact ⟨_, u2, by simp, by simp⟩
    · simp [u1, u2]
    · simp [u1, u2]
    · simp [u1, u2]
  · exact absurd h2 hid

/-- The Transaction Status Information. -/
example (m : Machine) : ∃ op colour r, op = Operation.tsi ∧
    execute m (fun _ _ => none) (fun _ => none) none true [⟨.long "tsi", ["E800".toList]⟩] = .ran (.ok (colour, r)) ∧
    ∀ ls, Acceptable [0x9B] [0xE8, 0x00] → valueLines true [0x9B] [0xE8, 0x00] = some ls →
      Succeeds r (showLines 0 ls) := by
  have hh : ∃ h ∈ helpTable, h.id = "tsi" ∧ "9B".toList ∈ numbersIn h.help.toList := by
    by_rows
  obtain ⟨h, hm, hid, ht⟩ := hh
  obtain ⟨op, colour, r, h1, h2, h3, -⟩ := c107_tag_shown m (fun _ _ => none) (fun _ => none) none true
    ⟨(fun _ _ h => nomatch h), (fun _ _ _ h => nomatch h)⟩ h hm (by rw [hid]; decide) "9B".toList ht "E800".toList (by decide)
  rw [hid] at h2
  have hop : op = .tsi := by
    have e : optOfHelp h = some (.operation .tsi) := by unfold optOfHelp; rw [hid]; decide +kernel
    rw [e] at h1; cases h1; rfl
  refine ⟨op, colour, r, hop, h2, fun ls ha hl => ?_⟩
  have e9 : hexBytes "9B".toList = [0x9B] := by decide +kernel
  rw [e9] at h3
  exact h3 _ ls (by rw [DataOf, if_neg (by rw [hop]; decide)]; decide +kernel) ha hl

/-- **C107.** Every word of the name that the dictionary gives to the tag is a word of the text or of the placeholder. -/
theorem c107_words : ∀ h ∈ helpTable, ∀ tag ∈ numbersIn h.help.toList, h.id ≠ "ccd-cvr" →
    ∃ name, dictionaryName (hexBytes tag) = some name ∧
      ∀ w ∈ wordsIn [] name.toList, w ∈ wordsIn [] h.help.toList ∨ w ∈ wordsIn [] (h.valueName.getD "").toList := by
  have key : ∀ h ∈ helpTable, ∀ tag ∈ numbersIn h.help.toList, h.id ≠ "ccd-cvr" →
      (dictionaryName (hexBytes tag)).any (fun name => (wordsIn [] name.toList).all (fun w =>
        decide (w ∈ wordsIn [] h.help.toList ∨ w ∈ wordsIn [] (h.valueName.getD "").toList))) = true := by
    by_rows
  intro h hh tag ht hid
  obtain ⟨name, h1, h2⟩ := (Option.any_eq_true _ _).1 (key h hh tag ht hid)
  exact ⟨name, h1, fun w hw => of_decide_eq_true (List.all_eq_true.1 h2 w hw)⟩

/-- The words compared for the CVM List. -/
example : wordsIn [] "CVM List".toList = ["cvm".toList, "list".toList] ∧
    dictionaryName (hexBytes "8E".toList) = some "CVM List" ∧
    numbersIn "Parse a Cardholder Verification Method (CVM) List (tag 0x8E).".toList = ["8E".toList] := by
  decide +kernel

/-- **C107.** The Card Verification Results are a part of the data object with the tag mentioned: what `--ccd-cvr` shows
for bytes 4 to 8 is shown, one level deeper, for that object. -/
theorem c107_part (m : Machine) (file : FigData) (env : Dict) (profile : Option String) (isTty : Bool)
    (hw : WellTyped file env) (d : List Byte) (hd : isFormatA d = true) (s : Text)
    (hs : hexBytes s = (d.drop 3).take 5) :
    ∃ colour r ls before after, execute m file env profile isTty [⟨.long "ccd-cvr", [s]⟩] = .ran (.ok (colour, r)) ∧
      Succeeds r (showLines 0 ls) ∧
      valueLines true (hexBytes "9F10".toList) d = some (before ++ deeper ls ++ after) := by
  simp only [isFormatA, Bool.and_eq_true, beq_iff_eq] at hd
  have hlen : ((d.drop 3).take 5).length = 5 := by
    rw [List.length_take, List.length_drop]
    omega
  have hs0 : s ≠ [] := by
    rintro rfl
    rw [← hs] at hlen
    cases hlen
  obtain ⟨ops, hsel, masks, sort, colour, hexec⟩ :=
    execute_single m file env profile isTty hw (.long "ccd-cvr") .ccdCvr s hs0 (by decide +kernel)
  have hrep := c58_hex m ops masks sort .ccdCvr s hsel (by decide)
  rw [hs, hexReport, if_pos hlen] at hrep
  refine ⟨colour, _, _, [title "Common Core Identifier:"] ++
    deeper (bitLines cciItems cciLabels ((d.drop 1).take 1) true) ++
    [Spec.entry "Derivation Key Index:" (" 0x".toList ++ hexPair (d.getD 2 0)), title "Card Verification Results:"],
    [title "Counters: (Payment System-Specific)"] ++ deeper (dump ((d.drop 8).take 8)) ++
    [title "Issuer-Discretionary Data"] ++ deeper (dump (d.drop 17)), hexec, hrep, ?_⟩
  have hf : isFormatA d = true := by
    simp only [isFormatA, Bool.and_eq_true, beq_iff_eq]
    exact hd
  rw [show hexBytes "9F10".toList = [0x9F, 0x10] by decide +kernel]
  simp [valueLines, hf, iadLines]

/-- Such a value. -/
example : isFormatA (0x0F :: 0xA5 :: 0x01 :: List.replicate 5 0xFF ++ List.replicate 8 0 ++ 0x0F :: List.replicate 15 0) = true ∧
    hexBytes "FFFFFFFFFF".toList = ((0x0F :: 0xA5 :: 0x01 :: List.replicate 5 0xFF ++ List.replicate 8 0 ++
      0x0F :: List.replicate 15 0 : List Byte).drop 3).take 5 := by decide +kernel

/-- **C107.** Issuer Action Codes can be given to the option for the TVR: it accepts the values that are acceptable for
the three tags mentioned, and shows the bits and explanations shown for those. -/
theorem c107_action_codes (m : Machine) (file : FigData) (env : Dict) (profile : Option String) (isTty : Bool)
    (hw : WellTyped file env) (n : OptName) (hn : (n, .operation .tvr) ∈ optionNames) (s : Text) (hs : s ≠ []) :
    ∃ h ∈ helpTable, optOfHelp h = some (.operation .tvr) ∧
      numbersIn h.full.toList = ["95".toList, "9F0D".toList, "9F0E".toList, "9F0F".toList] ∧
    ∃ colour r, execute m file env profile isTty [⟨n, [s]⟩] = .ran (.ok (colour, r)) ∧
      ∀ tag ∈ ["9F0D".toList, "9F0E".toList, "9F0F".toList],
        (Acceptable (hexBytes tag) (hexBytes s) → Succeeds r (showLines 0 (bitLines tvrItems tvrLabels (hexBytes s) true)) ∧
          ∃ about, valueLines true (hexBytes tag) (hexBytes s) =
            some (title about :: bitLines tvrItems tvrLabels (hexBytes s) false)) ∧
        (¬ Acceptable (hexBytes tag) (hexBytes s) → ∃ e, Fails r e) := by
  have e0 : ∃ h ∈ helpTable, optOfHelp h = some (.operation .tvr) ∧ h.id = "tvr" := by
    have : helpTable.any (fun h => decide (optOfHelp h = some (.operation .tvr) ∧ h.id = "tvr")) = true := by
      decide +kernel
    obtain ⟨h, h1, h2⟩ := List.any_eq_true.1 this
    exact ⟨h, h1, of_decide_eq_true h2⟩
  have e1 : ∀ h ∈ helpTable, h.id = "tvr" →
      numbersIn h.full.toList = ["95".toList, "9F0D".toList, "9F0E".toList, "9F0F".toList] := by
    by_rows
  obtain ⟨h, hh, ho, hid⟩ := e0
  refine ⟨h, hh, ho, e1 h hh hid, ?_⟩
  obtain ⟨ops, hsel, masks, sort, colour, hexec⟩ :=
    execute_single m file env profile isTty hw n .tvr s hs (lookup_of_mem _ hn)
  have hrep := c58_hex m ops masks sort .tvr s hsel (by decide)
  refine ⟨colour, _, hexec, ?_⟩
  have key : ∀ tag ∈ ["9F0D".toList, "9F0E".toList, "9F0F".toList],
      hexBytes tag = [0x9F, 0x0D] ∨ hexBytes tag = [0x9F, 0x0E] ∨ hexBytes tag = [0x9F, 0x0F] := by decide +kernel
  intro tag ht
  have ha : Acceptable (hexBytes tag) (hexBytes s) ↔ (hexBytes s).length = 5 := by
    rcases key tag ht with e | e | e <;> rw [e] <;>
      exact ⟨fun h => h.h5 (by simp), fun h => by constructor <;> simp [h]⟩
  rw [ha]
  constructor
  · intro hl
    rw [hexReport, if_pos hl] at hrep
    refine ⟨hrep, ?_⟩
    rcases key tag ht with e | e | e <;> rw [e]
    · exact ⟨iacHeading .default, rfl⟩
    · exact ⟨iacHeading .denial, rfl⟩
    · exact ⟨iacHeading .online, rfl⟩
  · intro hl
    rw [hexReport, if_neg hl] at hrep
    exact ⟨_, hrep⟩

example : (OptName.long "iac", Opt.operation .tvr) ∈ optionNames ∧ hexBytes "FC50ACA000".toList = [0xFC, 0x50, 0xAC, 0xA0, 0x00] := by
  decide +kernel

/-! ### Effects -/

/-- **C107.** `--no-sort-parsed-tags` is the inverse of `--sort-parsed-tags`: one with a truth value has the effect of the
other with the opposite, whatever else is given. -/
theorem c107_inverse (m : Machine) (file : FigData) (env : Dict) (profile : Option String) (isTty : Bool)
    (n n' : OptName) (hn : (n, .noSort) ∈ optionNames) (hn' : (n', .sort) ∈ optionNames) (v v' : Text) (b : Bool)
    (hv : truthValue v = some b) (hv' : truthValue v' = some (!b)) (before after : List Use)
    (h : ∀ u ∈ before ++ after, ∃ g, understand u = some g ∧ g ≠ .help ∧ g ≠ .version) :
    execute m file env profile isTty (before ++ ⟨n, [v]⟩ :: after) =
    execute m file env profile isTty (before ++ ⟨n', [v']⟩ :: after) := by
  have u1 : understand ⟨n, [v]⟩ = some (.noSort b) := by
    rw [understand_of_mem hn]
    simp [understandOpt, hv]
  have u2 : understand ⟨n', [v']⟩ = some (.sort (!b)) := by
    rw [understand_of_mem hn']
    simp [understandOpt, hv']
  have clean : ∀ (u0 : Use) (g0 : Given), understand u0 = some g0 → g0 ≠ .help → g0 ≠ .version →
      ∀ u ∈ before ++ u0 :: after, ∃ g, understand u = some g ∧ g ≠ .help ∧ g ≠ .version := by
    intro u0 g0 h0 h1 h2 u hu
    rcases List.mem_append.1 hu with hu | hu
    · exact h u (List.mem_append_left _ hu)
    · rcases List.mem_cons.1 hu with rfl | hu
      · exact ⟨g0, h0, h1, h2⟩
      · exact h u (List.mem_append_right _ hu)
  have f1 : (before ++ (⟨n, [v]⟩ : Use) :: after).filterMap understand =
      before.filterMap understand ++ .noSort b :: after.filterMap understand := by
    rw [List.filterMap_append, List.filterMap_cons, u1]
  have f2 : (before ++ (⟨n', [v']⟩ : Use) :: after).filterMap understand =
      before.filterMap understand ++ .sort (!b) :: after.filterMap understand := by
    rw [List.filterMap_append, List.filterMap_cons, u2]
  apply execute_same
  · simp
  · simp
  · exact clean _ _ u1 (by simp) (by simp)
  · exact clean _ _ u2 (by simp) (by simp)
  · rw [f1, f2]
    exact consistent_swap _ _ b
  · rw [f1, f2]
    simp [operationsOf, List.filterMap_append, List.filterMap_cons, Given.operation?]
  · rw [f1, f2]
    intro hc k
    have := hc.sorting
    simp only [sortsOf, noSortsOf, List.filterMap_append, List.filterMap_cons, Given.sort?, Given.noSort?,
      List.length_append, List.length_cons] at this
    have a1 : (before.filterMap understand).filterMap Given.sort? = [] := List.length_eq_zero_iff.1 (by omega)
    have a2 : (before.filterMap understand).filterMap Given.noSort? = [] := List.length_eq_zero_iff.1 (by omega)
    have a3 : (after.filterMap understand).filterMap Given.sort? = [] := List.length_eq_zero_iff.1 (by omega)
    have a4 : (after.filterMap understand).filterMap Given.noSort? = [] := List.length_eq_zero_iff.1 (by omega)
    cases k
    · simp [settingsGiven, coloursOf, List.filterMap_append, List.filterMap_cons, Given.colour?]
    · simp only [settingsGiven, masksOf, List.filterMap_append, List.filterMap_cons, Given.masking?]
    · simp [settingsGiven, sortsOf, noSortsOf, List.filterMap_append, List.filterMap_cons, Given.sort?, Given.noSort?, a1, a2, a3, a4]

/-- `--ber-tlv 5000 --no-sort=false` and `--ber-tlv 5000 --sort=true`. -/
example (m : Machine) (file : FigData) (env : Dict) (profile : Option String) (isTty : Bool) :
    execute m file env profile isTty [⟨.long "ber-tlv", ["5000".toList]⟩, ⟨.long "no-sort", ["false".toList]⟩] =
    execute m file env profile isTty [⟨.long "ber-tlv", ["5000".toList]⟩, ⟨.long "sort", ["true".toList]⟩] :=
  c107_inverse m file env profile isTty _ _ (by decide +kernel) (by decide +kernel) _ _ false (by decide +kernel)
    (by decide +kernel) [⟨.long "ber-tlv", ["5000".toList]⟩] [] (fun u hu => by
      obtain rfl := List.mem_singleton.1 hu
      exact ⟨.operation .berTlv "5000".toList, by decide +kernel, by simp, by simp⟩)

/-- **C107.** An option for masking characters can be given several times: that is the same as giving all the
characters at once. -/
theorem c107_repeated (m : Machine) (file : FigData) (env : Dict) (profile : Option String) (isTty : Bool)
    (n n' : OptName) (hn : (n, .masking) ∈ optionNames) (hn' : (n', .masking) ∈ optionNames) (cs cs' : List Char)
    (hcs : cs ≠ []) (hcs' : cs' ≠ []) (before between after : List Use)
    (h : ∀ u ∈ before ++ between ++ after, ∃ g, understand u = some g ∧ g ≠ .help ∧ g ≠ .version) :
    execute m file env profile isTty (before ++ ⟨n, cs.map (fun c => [c])⟩ :: between ++ ⟨n', cs'.map (fun c => [c])⟩ :: after) =
    execute m file env profile isTty (before ++ ⟨n, (cs ++ cs').map (fun c => [c])⟩ :: between ++ after) := by
  have single : ∀ l : List Char, singleChars (l.map (fun c => [c])) = some l := by
    intro l
    induction l with
    | nil => rfl
    | cons c l ih => simp [singleChars, ih]
  have u : ∀ (k : OptName) (l : List Char), (k, .masking) ∈ optionNames → l ≠ [] →
      understand ⟨k, l.map (fun c => [c])⟩ = some (.masking l) := by
    intro k l hk hl
    rw [understand_of_mem hk]
    cases l with
    | nil => exact absurd rfl hl
    | cons c l =>
      have := single (c :: l)
      rw [List.map_cons] at this ⊢
      rw [understandOpt, this]
      rfl
  have u1 := u n cs hn hcs
  have u2 := u n' cs' hn' hcs'
  have u3 := u n (cs ++ cs') hn (by simp [hcs])
  have clean : ∀ us : List Use, (∀ x ∈ us, x ∈ before ++ between ++ after ∨ ∃ g, understand x = some (.masking g)) →
      ∀ x ∈ us, ∃ g, understand x = some g ∧ g ≠ .help ∧ g ≠ .version := by
    intro us hus x hx
    rcases hus x hx with hx | ⟨g, hg⟩
    · exact h x hx
    · exact ⟨_, hg, by simp, by simp⟩
  have p1 : (before ++ (⟨n, cs.map (fun c => [c])⟩ : Use) :: between ++ ⟨n', cs'.map (fun c => [c])⟩ :: after).Perm
      (⟨n, cs.map (fun c => [c])⟩ :: ⟨n', cs'.map (fun c => [c])⟩ :: (before ++ between ++ after)) := by
    refine List.perm_middle.trans (List.Perm.trans ?_ (List.Perm.swap _ _ _))
    rw [List.append_assoc, List.cons_append, List.append_assoc before between after]
    exact List.Perm.cons _ List.perm_middle
  have p2 : (before ++ (⟨n, (cs ++ cs').map (fun c => [c])⟩ : Use) :: between ++ after).Perm
      (⟨n, (cs ++ cs').map (fun c => [c])⟩ :: (before ++ between ++ after)) := by
    rw [List.append_assoc, List.cons_append, List.append_assoc before between after]
    exact List.perm_middle
  have c1 : ∀ x ∈ (⟨n, cs.map (fun c => [c])⟩ : Use) :: ⟨n', cs'.map (fun c => [c])⟩ :: (before ++ between ++ after),
      ∃ g, understand x = some g ∧ g ≠ .help ∧ g ≠ .version := by
    refine clean _ (fun x hx => ?_)
    rcases List.mem_cons.1 hx with rfl | hx
    · exact Or.inr ⟨_, u1⟩
    · rcases List.mem_cons.1 hx with rfl | hx
      · exact Or.inr ⟨_, u2⟩
      · exact Or.inl hx
  have c2 : ∀ x ∈ (⟨n, (cs ++ cs').map (fun c => [c])⟩ : Use) :: (before ++ between ++ after),
      ∃ g, understand x = some g ∧ g ≠ .help ∧ g ≠ .version := by
    refine clean _ (fun x hx => ?_)
    rcases List.mem_cons.1 hx with rfl | hx
    · exact Or.inr ⟨_, u3⟩
    · exact Or.inl hx
  rw [c77_order m file env profile isTty _ _ p1 (fun x hx => c1 x (p1.mem_iff.1 hx)),
    c77_order m file env profile isTty _ _ p2 (fun x hx => c2 x (p2.mem_iff.1 hx))]
  have f1 : ((⟨n, cs.map (fun c => [c])⟩ : Use) :: ⟨n', cs'.map (fun c => [c])⟩ ::
      (before ++ between ++ after)).filterMap understand =
      .masking cs :: .masking cs' :: (before ++ between ++ after).filterMap understand := by
    rw [List.filterMap_cons, u1, List.filterMap_cons, u2]
  have f2 : ((⟨n, (cs ++ cs').map (fun c => [c])⟩ : Use) :: (before ++ between ++ after)).filterMap understand =
      .masking (cs ++ cs') :: (before ++ between ++ after).filterMap understand := by
    rw [List.filterMap_cons, u3]
  apply execute_same
  · simp
  · simp
  · exact c1
  · exact c2
  · rw [f1, f2]
    constructor
    · rintro ⟨h1, h2, h3, h4⟩
      exact ⟨h1, h2, h3, fun _ => h4 (Or.inl (by simp [masksOf, Given.masking?]))⟩
    · rintro ⟨h1, h2, h3, h4⟩
      exact ⟨h1, h2, h3, fun _ => h4 (Or.inl (by simp [masksOf, Given.masking?]))⟩
  · rw [f1, f2]
    rfl
  · rw [f1, f2]
    intro _ k
    cases k
    · rfl
    · simp [settingsGiven, masksOf, Given.masking?]
    · rfl

/-- `-m X -b 5000 -m #` and `-m X # -b 5000`. -/
example (m : Machine) (file : FigData) (env : Dict) (profile : Option String) (isTty : Bool) :
    execute m file env profile isTty
      [⟨.short 'm', [['X']]⟩, ⟨.short 'b', ["5000".toList]⟩, ⟨.short 'm', [['#']]⟩] =
    execute m file env profile isTty [⟨.short 'm', [['X'], ['#']]⟩, ⟨.short 'b', ["5000".toList]⟩] :=
  c107_repeated m file env profile isTty (.short 'm') (.short 'm') (by decide +kernel) (by decide +kernel) ['X'] ['#']
    (by simp) (by simp) [] [⟨.short 'b', ["5000".toList]⟩] [] (fun u hu => by
      obtain rfl := List.mem_singleton.1 hu
      exact ⟨.operation .berTlv "5000".toList, by decide +kernel, by simp, by simp⟩)

/-- **C107.** The colour choice `ansi` is the same as `always` (on targets other than Windows): the same is written to
standard output, on every terminal, and to standard error. -/
theorem c107_ansi (m : Machine) (file : FigData) (env : Dict) (profile : Option String) (isTty : Bool) (n : OptName)
    (hn : (n, .colour) ∈ optionNames) (before after : List Use)
    (h : ∀ u ∈ before ++ after, ∃ g, understand u = some g ∧ g ≠ .help ∧ g ≠ .version) :
    (∀ x, execute m file env profile isTty (before ++ ⟨n, ["ansi".toList]⟩ :: after) = .ran (.ok x) →
      ∃ y, execute m file env profile isTty (before ++ ⟨n, ["always".toList]⟩ :: after) = .ran (.ok y) ∧
        y.2 = x.2 ∧ ∀ t, stdoutOf t y = stdoutOf t x) ∧
    ((∀ x, execute m file env profile isTty (before ++ ⟨n, ["ansi".toList]⟩ :: after) ≠ .ran (.ok x)) →
      execute m file env profile isTty (before ++ ⟨n, ["always".toList]⟩ :: after) =
      execute m file env profile isTty (before ++ ⟨n, ["ansi".toList]⟩ :: after)) := by
  have u : ∀ v : Text, v ∈ ["ansi".toList, "always".toList] → understand ⟨n, [v]⟩ = some (.colour v) := by
    intro v hv
    rw [understand_of_mem hn, understandOpt, if_pos]
    revert v
    decide +kernel
  have clean : ∀ v : Text, v ∈ ["ansi".toList, "always".toList] →
      ∀ x ∈ before ++ (⟨n, [v]⟩ : Use) :: after, ∃ g, understand x = some g ∧ g ≠ .help ∧ g ≠ .version := by
    intro v hv x hx
    rcases List.mem_append.1 hx with hx | hx
    · exact h x (List.mem_append_left _ hx)
    · rcases List.mem_cons.1 hx with rfl | hx
      · exact ⟨_, u v hv, by simp, by simp⟩
      · exact h x (List.mem_append_right _ hx)
  have f : ∀ v : Text, v ∈ ["ansi".toList, "always".toList] →
      (before ++ (⟨n, [v]⟩ : Use) :: after).filterMap understand =
      before.filterMap understand ++ .colour v :: after.filterMap understand := by
    intro v hv
    rw [List.filterMap_append, List.filterMap_cons, u v hv]
  have hansi : "ansi".toList ∈ ["ansi".toList, "always".toList] := by simp
  have halw : "always".toList ∈ ["ansi".toList, "always".toList] := by simp
  have e1 := execute_cases m file env profile isTty _ (by simp) (clean _ hansi)
  have e2 := execute_cases m file env profile isTty _ (by simp) (clean _ halw)
  rw [f _ hansi] at e1
  rw [f _ halw] at e2
  exact colour_alike m file env profile isTty _ _ _ _ e1 e2

example : (OptName.long "color", Opt.colour) ∈ optionNames ∧
    understand ⟨.long "color", ["ansi".toList]⟩ = some (.colour "ansi".toList) ∧
    TermColorChoice.alwaysAnsi.coloured ⟨some "dumb".toList, true⟩ = true := by decide +kernel

/-- **C107.** Tags that are not of EMV are ignored in Ingenico data: they can be left out. -/
theorem c107_ignored (m : Machine) (masks : List Char) (sort : Bool) (l : List (Record × Char))
    (hl : ∀ p ∈ l, p.1.WF masks) (ha : ∀ x ∈ render l, x.toNat < 128) (hm : Fits m (render l).length)
    (ops ops' : CliOps) (ho : selected ops = some (.ingenicoTlv, render l))
    (ho' : selected ops' = some (.ingenicoTlv, render (l.filter (fun p => p.1.typ == 'T')))) :
    run m ops masks sort = run m ops' masks sort := by
  rw [run_eq, run_eq, ho, ho']
  simp only [runOp]
  rw [c24_skips_other_types masks l hl ha hm]

/-- A record of another type before one of EMV. -/
example := c107_ignored .debug64 [] true
  [(⟨'C', "1F".toList, "02".toList, 'a', "::".toList⟩, '|'), (⟨'T', "5A".toList, "01".toList, 'h', "12".toList⟩, ',')]
  (fun p hp => by
    simp only [List.mem_cons, List.not_mem_nil, or_false] at hp
    rcases hp with rfl | rfl
    · exact ⟨by decide, by decide, by decide, by decide, Or.inl ⟨rfl, by decide⟩⟩
    · exact ⟨by decide, by decide, by decide, by decide, Or.inr ⟨rfl, by decide, Or.inl (by decide)⟩⟩)
  (by decide +kernel) (by unfold Fits; decide +kernel) { ingenicoTlv := some "C1F:02:a::|T5A:01:h12,".toList }
  { ingenicoTlv := some "T5A:01:h12,".toList } (by decide +kernel) (by decide +kernel)

/-! ### Where the help text is not accurate -/

/-- **C107.** The placeholder `TRUE/FALSE` cannot be taken literally: the words in it are rejected. In small letters they
are accepted. -/
theorem c107_placeholder (m : Machine) (file : FigData) (env : Dict) (profile : Option String) (isTty : Bool)
    (h : ArgHelp) (hh : h ∈ helpTable) (hp : h.valueName = some "TRUE/FALSE") (w : String) (hw : w ∈ ["TRUE", "FALSE"])
    (after : List Use) :
    execute m file env profile isTty (⟨.long h.id, [w.toList]⟩ :: after) = .rejected ∧
    ∃ g, understand ⟨.long h.id, [w.toList.map Char.toLower]⟩ = some g := by
  have key : ∀ h ∈ helpTable, h.valueName = some "TRUE/FALSE" → ∀ w ∈ ["TRUE", "FALSE"],
      understand ⟨.long h.id, [w.toList]⟩ = none ∧
      (understand ⟨.long h.id, [w.toList.map Char.toLower]⟩).isSome = true := by decide +kernel
  obtain ⟨h1, h2⟩ := key h hh hp w hw
  exact ⟨(c70_ends m file env profile isTty [] [] rfl (by simp) (by simp)
    ⟨by simp [operationsOf], by simp [coloursOf], by simp [sortsOf], by simp [noSortsOf]⟩ _ after).1 h1,
    Option.isSome_iff_exists.1 h2⟩

example : understand ⟨.long "sort-parsed-tags", ["TRUE".toList]⟩ = none := by decide +kernel

/-- **C107.** "A tag is considered to be masked if the entire contents match the masking character": not if the contents
are a single byte. -/
theorem c107_single_byte {m : Machine} (masks : List Char) (tag : List Byte) (ht : IsTag tag)
    (hp : typeOf tag = .primitive) (b : Byte) (hm : Fits m (tag ++ [0x01, b]).length) :
    berParse m (tag ++ [0x01, b]) masks = .ok [.mk ⟨tag, classOf tag, .primitive, .normal [b]⟩ []] := by
  have h := c11_round_trip (m := m) masks [.prim tag [b]] ⟨⟨ht, hp, by simp, by simp [IsMasked, latin1]⟩, trivial⟩
  have e : encodeAll [.prim tag [b]] = tag ++ [0x01, b] := by
    simp [encodeAll, Obj.encode, encodeLength]
  rw [e] at h
  exact h hm

/-- A label that is one masking character, and one that is two. -/
example : berParse .debug64 [0x50, 0x01, 0x2A] ['*'] =
      .ok [.mk ⟨[0x50], .application, .primitive, .normal [0x2A]⟩ []] ∧
    berParse .debug64 [0x50, 0x02, 0x2A, 0x2A] ['*'] = .ok [.mk ⟨[0x50], .application, .primitive, .masked⟩ []] := by
  decide +kernel

end Pemv
