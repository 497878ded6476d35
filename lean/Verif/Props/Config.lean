import Verif.Proofs.Config
import Verif.Props.Run

/-!
# C60–C62: configuration

`ColourChecked` is what the option parser guarantees: a colour choice on the command line is one of the four
names.
-/

namespace Pemv

open Spec

/-! ### C60 -/

/-- **C60.** The settings the program works with are the values in force (`Spec.inForce`): command line if given
by the user, environment, configuration file (`global`, selected profile, `default`), built-in value. The
program panics if one of them has the wrong type. -/
theorem c60_in_force (file : FigData) (env : Dict) (profile : Option String) (c : CliConfig) (isTty : Bool)
    (h : ColourChecked c) (s : Settings) : settings (configFigment file env profile) c isTty = .ok s ↔
      ∃ colour, inForce file env profile c .cliColour = some (.colour colour) ∧
        inForce file env profile c .maskingCharacters = some (.chars s.masks) ∧
        inForce file env profile c .sortParsedTags = some (.bool s.sort) ∧
        s.colour = (colour.changeBasedOnTty isTty).toTerm := by
  rw [settings_spec file env profile c isTty h]
  obtain ⟨sc, sm, ss⟩ := s
  constructor
  · intro hs
    split at hs
    · rename_i colour masks sort h1 h2 h3
      cases hs
      exact ⟨colour, h1, h2, h3, rfl⟩
    · cases hs
  · rintro ⟨colour, h1, h2, h3, h4⟩
    rw [h1, h2, h3]
    simp only at h4
    rw [h4]

/-- Nothing is given. -/
example := c60_in_force (fun _ _ => none) (fun _ => none) none
  ⟨⟨some "auto".toList, true⟩, ⟨some ['#'], false⟩, ⟨some true, true⟩, ⟨some false, true⟩⟩ true
  (fun s hs => by cases hs; exact ⟨("auto", .auto), by decide, rfl⟩)

/-- **C60.** Otherwise, that is if a value in force has the wrong type, the program panics; it cannot fail in
another way, and no value is ever missing. -/
theorem c60_otherwise_panics (file : FigData) (env : Dict) (profile : Option String) (c : CliConfig) (isTty : Bool)
    (h : ColourChecked c) :
    ((∃ s, settings (configFigment file env profile) c isTty = .ok s) ∨
      settings (configFigment file env profile) c isTty = .panic) ∧
    ∀ k, ∃ v, inForce file env profile c k = some v := by
  constructor
  · rw [settings_spec file env profile c isTty h]
    split
    · exact Or.inl ⟨_, rfl⟩
    · exact Or.inr rfl
  · have key : ∀ (l : List (Option CfgVal)) (v : CfgVal), ∃ w, firstOf (l ++ [some v]) = some w := by
      intro l v
      induction l with
      | nil => exact ⟨v, rfl⟩
      | cons x l ih =>
        cases x with
        | none => exact ih
        | some w => exact ⟨w, rfl⟩
    intro k
    rw [inForce]
    cases k with
    | cliColour => exact key [_, _, _, _, _] _
    | maskingCharacters => exact key [_, _, _, _, _] _
    | sortParsedTags => exact key [_, _, _, _, _] _

example := c60_otherwise_panics (fun _ k => if k = .sortParsedTags then some (.chars []) else none) (fun _ => none) none
  ⟨⟨some "never".toList, false⟩, ⟨some ['#'], false⟩, ⟨some true, true⟩, ⟨some false, true⟩⟩ true
  (fun s hs => by cases hs; exact ⟨("never", .never), by decide, rfl⟩)

/-- **C60.** Each level is decisive exactly when those above it are silent. -/
theorem c60_levels (file : FigData) (env : Dict) (profile : Option String) (c : CliConfig) (k : CfgKey) (v : CfgVal) :
    (givenSettings c k = some v → inForce file env profile c k = some v) ∧
    (givenSettings c k = none → env k = some v → inForce file env profile c k = some v) ∧
    (givenSettings c k = none → env k = none → file "global" k = none → file (profile.getD "default") k = some v →
      inForce file env profile c k = some v) ∧
    (givenSettings c k = none → env k = none → file "global" k = none → file (profile.getD "default") k = none →
      file "default" k = some v → inForce file env profile c k = some v) ∧
    (givenSettings c k = none → env k = none → (∀ p, file p k = none) → inForce file env profile c k = builtIn k) := by
  refine ⟨fun h => ?_, fun h1 h2 => ?_, fun h1 h2 h3 h4 => ?_, fun h1 h2 h3 h4 h5 => ?_, fun h1 h2 h3 => ?_⟩
  · rw [inForce, h]; rfl
  · rw [inForce, h1, h2]; rfl
  · rw [inForce, h1, h2, h3, h4]; rfl
  · rw [inForce, h1, h2, h3, h4, h5]; rfl
  · rw [inForce, h1, h2, h3, h3, h3]
    cases builtIn k <;> rfl

/-- **C60.** Default values of command-line options never override anything: what they are makes no
difference. -/
theorem c60_defaults_ignored (m : Machine) (file : FigData) (env : Dict) (profile : Option String) (c c' : CliConfig)
    (isTty : Bool) (ops : CliOps) (h : ColourChecked c) (h' : ColourChecked c')
    (h1 : givenBy c.colour = givenBy c'.colour) (h2 : givenBy c.maskingCharacter = givenBy c'.maskingCharacter)
    (h3 : givenBy c.sortParsedTags = givenBy c'.sortParsedTags)
    (h4 : givenBy c.noSortParsedTags = givenBy c'.noSortParsedTags) :
    program m file env profile c isTty ops = program m file env profile c' isTty ops := by
  have hg : givenSettings c = givenSettings c' := by
    funext k
    cases k with
    | cliColour => show Option.bind _ _ = Option.bind _ _; rw [h1]
    | maskingCharacters => show Option.map _ _ = Option.map _ _; rw [h2]
    | sortParsedTags => show firstOf _ = firstOf _; rw [h3, h4]
  have hi : inForce file env profile c = inForce file env profile c' := by
    funext k; rw [inForce, inForce, hg]
  rw [program, program, settings_spec file env profile c isTty h, settings_spec file env profile c' isTty h', hi]

/-- A default value that differs. -/
example (m : Machine) (file : FigData) (env : Dict) (ops : CliOps) :
    program m file env none ⟨⟨some "auto".toList, true⟩, ⟨none, true⟩, ⟨some true, true⟩, ⟨none, true⟩⟩ true ops =
    program m file env none ⟨⟨none, true⟩, ⟨some ['#'], true⟩, ⟨some false, true⟩, ⟨none, true⟩⟩ true ops :=
  c60_defaults_ignored m file env none _ _ true ops
    (fun s hs => by cases hs; exact ⟨("auto", .auto), by decide, rfl⟩) (fun s hs => nomatch hs) rfl rfl rfl rfl

/-- **C60.** Sections of profiles other than `global`, `default` and the selected one have no influence. -/
theorem c60_other_profiles (file file' : FigData) (env : Dict) (profile : Option String) (c : CliConfig)
    (h : ∀ p, p = "global" ∨ p = "default" ∨ some p = profile → file p = file' p) (k : CfgKey) :
    inForce file env profile c k = inForce file' env profile c k := by
  rw [inForce, inForce, h "global" (by simp), h "default" (by simp), h (profile.getD "default")]
  cases profile with
  | none => simp
  | some p => simp

/-- All levels at once: masking characters from the command line, sorting from the environment, colours from the
selected profile of the file. -/
example : settings (configFigment
      (fun p k => if p = "shop" ∧ k = .cliColour then some (.colour .never)
        else if p = "default" ∧ k = .sortParsedTags then some (.bool true) else none)
      (fun k => if k = .sortParsedTags then some (.bool false) else none) (some "shop"))
      ⟨⟨some "auto".toList, true⟩, ⟨some ['#'], false⟩, ⟨some true, true⟩, ⟨some false, true⟩⟩ true =
    .ok ⟨.never, ['#'], false⟩ := by decide +kernel

/-- A configuration file that sets the sort order to a character list. -/
example : settings (configFigment (fun p k => if p = "default" ∧ k = .sortParsedTags then some (.chars []) else none)
      (fun _ => none) none) ⟨⟨none, true⟩, ⟨none, true⟩, ⟨none, true⟩, ⟨none, true⟩⟩ true = .panic := by decide +kernel

/-! ### C61 -/

/-- **C61.** Whether tags are sorted: `--no-sort-parsed-tags` decides if the user gave it, else
`--sort-parsed-tags` if the user gave it, else environment, file and built-in value (to sort). -/
theorem c61_preference (file : FigData) (env : Dict) (profile : Option String) (c : CliConfig) (isTty : Bool)
    (h : ColourChecked c) (s : Settings) (hs : settings (configFigment file env profile) c isTty = .ok s) :
    (∀ b, givenBy c.noSortParsedTags = some b → s.sort = !b) ∧
    (∀ b, givenBy c.noSortParsedTags = none → givenBy c.sortParsedTags = some b → s.sort = b) ∧
    (givenBy c.noSortParsedTags = none → givenBy c.sortParsedTags = none →
      firstOf [env .sortParsedTags, file "global" .sortParsedTags, file (profile.getD "default") .sortParsedTags,
        file "default" .sortParsedTags, some (.bool true)] = some (.bool s.sort)) := by
  obtain ⟨-, -, -, hsort, -⟩ := (c60_in_force file env profile c isTty h s).1 hs
  rw [inForce, firstOf_cons] at hsort
  have hg : givenSettings c .sortParsedTags = firstOf [(givenBy c.noSortParsedTags).map (fun b => .bool (!b)),
      (givenBy c.sortParsedTags).map CfgVal.bool] := rfl
  refine ⟨fun b hb => ?_, fun b hn hb => ?_, fun hn hb => ?_⟩
  · rw [hg, hb] at hsort
    simp only [Option.map_some, firstOf, Option.some_or, Option.some.injEq, CfgVal.bool.injEq] at hsort
    exact hsort.symm
  · rw [hg, hn, hb] at hsort
    simp only [Option.map_some, Option.map_none, firstOf, Option.some_or, Option.some.injEq, CfgVal.bool.injEq] at hsort
    exact hsort.symm
  · rw [hg, hn, hb] at hsort
    exact hsort

/-- Not to sort, on the command line, against the environment. -/
example : ∃ s, settings (configFigment (fun _ _ => none) (fun k => if k = .sortParsedTags then some (.bool true) else none) none)
    ⟨⟨none, true⟩, ⟨none, true⟩, ⟨none, true⟩, ⟨some true, false⟩⟩ true = .ok s ∧ s.sort = false := by
  refine ⟨_, rfl, ?_⟩
  exact (c61_preference (fun _ _ => none) (fun k => if k = .sortParsedTags then some (.bool true) else none) none
    ⟨⟨none, true⟩, ⟨none, true⟩, ⟨none, true⟩, ⟨some true, false⟩⟩ true (fun s hs => nomatch hs) _ rfl).1 true rfl

/-- **C61.** The output is sorted, at every level and stably, exactly as the setting says. -/
theorem c61_output (m : Machine) (file : FigData) (env : Dict) (profile : Option String) (c : CliConfig)
    (isTty : Bool) (s : Settings) (hs : settings (configFigment file env profile) c isTty = .ok s)
    (ops : CliOps) (t : Text) (hsel : selected ops = some (.berTlv, t)) (b : RawEmvBlock)
    (hb : berParse m (hexBytes t) s.masks = .ok b) (ha : AllAcceptable b)
    (hd : blockDepth b ≤ 254 ∨ m.overflowChecks = false) :
    ∃ r b', program m file env profile c isTty ops = .ok (s.colour, r) ∧
      Succeeds r (showLines 0 (blockLines true b')) ∧
      (s.sort = true → InTagOrder b b') ∧ (s.sort = false → b' = b) := by
  obtain ⟨b', h1, h2⟩ := (c58_ber m ops s.masks s.sort t hsel).2.2 b hb ha hd
  refine ⟨run m ops s.masks s.sort, b', by rw [program, hs]; rfl, h2, fun h => ?_, fun h => ?_⟩
  · rw [h] at h1; exact h1
  · rw [h] at h1; exact h1

/-- The setting matters: the two tags change places. -/
example : InTagOrder
      [.mk ⟨[0x9B], .contextSpecific, .primitive, .masked⟩ [], .mk ⟨[0x5A], .application, .primitive, .masked⟩ []]
      [.mk ⟨[0x5A], .application, .primitive, .masked⟩ [], .mk ⟨[0x9B], .contextSpecific, .primitive, .masked⟩ []] := by
  have h := sortNodes_inOrder
    [.mk (.raw ⟨[0x9B], .contextSpecific, .primitive, .masked⟩) [],
     .mk (.raw ⟨[0x5A], .application, .primitive, .masked⟩) []]
  exact h

/-- Both options given, and one. -/
example : cliSortPreference ⟨⟨none, true⟩, ⟨none, true⟩, ⟨some true, false⟩, ⟨some true, false⟩⟩ = some false ∧
    cliSortPreference ⟨⟨none, true⟩, ⟨none, true⟩, ⟨some false, false⟩, ⟨some false, true⟩⟩ = some false ∧
    cliSortPreference ⟨⟨none, true⟩, ⟨none, true⟩, ⟨some true, true⟩, ⟨some false, true⟩⟩ = none := by decide

/-! ### C62 -/

/-- **C62.** Exactly the four names are accepted, in any letter case, and everything else is `Unsupported`. -/
theorem c62_names (s : Text) (v : ColourChoice) :
    ColourChoice.tryFrom s = .ok v ↔ ∃ n, (n, v) ∈ colourNames ∧ SameLetters s n.toList := by
  have e : ∀ n ∈ ["always", "ansi", "auto", "never"], lowerText s = n.toList ↔ SameLetters s n.toList := by
    intro n hn
    refine lowerText_iff _ ?_ s
    simp only [List.mem_cons, List.not_mem_nil, or_false] at hn
    rcases hn with rfl | rfl | rfl | rfl <;> decide +kernel
  rw [colour_cases]
  have h1 := e "always" (by simp)
  have h2 := e "ansi" (by simp)
  have h3 := e "auto" (by simp)
  have h4 := e "never" (by simp)
  have d : ("always" : String).toList ≠ "ansi".toList ∧ ("always" : String).toList ≠ "auto".toList ∧
    ("always" : String).toList ≠ "never".toList ∧ ("ansi" : String).toList ≠ "auto".toList ∧
    ("ansi" : String).toList ≠ "never".toList ∧ ("auto" : String).toList ≠ "never".toList := by decide +kernel
  constructor
  · intro h
    split at h
    · cases h; exact ⟨"always", by simp [colourNames], h1.1 ‹_›⟩
    · split at h
      · cases h; exact ⟨"ansi", by simp [colourNames], h2.1 ‹_›⟩
      · split at h
        · cases h; exact ⟨"auto", by simp [colourNames], h3.1 ‹_›⟩
        · split at h
          · cases h; exact ⟨"never", by simp [colourNames], h4.1 ‹_›⟩
          · cases h
  · rintro ⟨n, hn, hs⟩
    simp only [colourNames, List.mem_cons, List.not_mem_nil, or_false, Prod.mk.injEq] at hn
    rcases hn with ⟨rfl, rfl⟩ | ⟨rfl, rfl⟩ | ⟨rfl, rfl⟩ | ⟨rfl, rfl⟩
    · rw [h3.2 hs, if_neg d.2.1.symm, if_neg d.2.2.2.1.symm, if_pos rfl]
    · rw [h1.2 hs, if_pos rfl]
    · rw [h2.2 hs, if_neg d.1.symm, if_pos rfl]
    · rw [h4.2 hs, if_neg d.2.2.1.symm, if_neg d.2.2.2.2.1.symm, if_neg d.2.2.2.2.2.symm, if_pos rfl]

/-- **C62.** Everything else is `Unsupported`. -/
theorem c62_otherwise (s : Text) (h : ¬ ∃ v, ColourChoice.tryFrom s = .ok v) :
    ColourChoice.tryFrom s = .err .unsupported := by
  rw [colour_cases] at h ⊢
  split
  · rename_i h1; rw [if_pos h1] at h; exact absurd ⟨_, rfl⟩ h
  · rename_i h1; rw [if_neg h1] at h
    split
    · rename_i h2; rw [if_pos h2] at h; exact absurd ⟨_, rfl⟩ h
    · rename_i h2; rw [if_neg h2] at h
      split
      · rename_i h3; rw [if_pos h3] at h; exact absurd ⟨_, rfl⟩ h
      · rename_i h3; rw [if_neg h3] at h
        split
        · rename_i h4; rw [if_pos h4] at h; exact absurd ⟨_, rfl⟩ h
        · rfl

example : ColourChoice.tryFrom "blue".toList = .err .unsupported :=
  c62_otherwise _ (fun ⟨v, h⟩ => by
    have e : ColourChoice.tryFrom "blue".toList = .err .unsupported := by decide +kernel
    rw [e] at h
    cases h)

/-- **C62.** Conversions to text and back, and to the terminal library's type and back in both directions, lose
nothing. -/
theorem c62_round_trip (v : ColourChoice) (t : TermColorChoice) :
    ColourChoice.tryFrom v.text.toList = .ok v ∧ (v.text, v) ∈ colourNames ∧
    ColourChoice.ofTerm v.toTerm = v ∧ (ColourChoice.ofTerm t).toTerm = t := by
  refine ⟨?_, ?_, ?_, ?_⟩
  · cases v <;> decide +kernel
  · cases v <;> simp [ColourChoice.text, colourNames]
  · cases v <;> rfl
  · cases t <;> rfl

/-- **C62.** Only `auto` depends on whether the output is a terminal, and then it becomes `never` if it is
not. -/
theorem c62_terminal (v : ColourChoice) (isTty : Bool) :
    v.changeBasedOnTty isTty = if v = .auto ∧ isTty = false then .never else v := by
  cases v <;> cases isTty <;> rfl

example : ColourChoice.tryFrom "AlWaYs".toList = .ok .always ∧
    ColourChoice.tryFrom "alwаys".toList = .err .unsupported ∧
    ColourChoice.tryFrom " auto".toList = .err .unsupported := by decide +kernel

end Pemv
