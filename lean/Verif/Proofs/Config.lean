import Verif.Spec.Config
import Verif.Model.Main

/-! # Configuration -/

namespace Pemv

open Spec

theorem lowerChar_iff (c d : Char) (h : 97 ≤ d.toNat ∧ d.toNat ≤ 122) (hk : d ≠ 'k') :
    lowerChar c = d ↔ c = d ∨ (97 ≤ d.toNat ∧ d.toNat ≤ 122 ∧ c.toNat + 32 = d.toNat) := by
  have hle : ∀ a b : Char, a ≤ b ↔ a.toNat ≤ b.toNat := fun _ _ => Iff.rfl
  have hA : ('A' : Char).toNat = 65 := rfl
  have hZ : ('Z' : Char).toNat = 90 := rfl
  have hinj : ∀ a b : Char, a.toNat = b.toNat → a = b := fun a b h => Char.ext (UInt32.toNat_inj.1 h)
  rw [lowerChar]
  by_cases h1 : 'A' ≤ c ∧ c ≤ 'Z'
  · rw [if_pos h1]
    rw [hle, hle, hA, hZ] at h1
    have hv : (Char.ofNat (c.toNat + 32)).toNat = c.toNat + 32 := by
      rw [Char.ofNat, dif_pos (by rw [Nat.isValidChar]; omega)]; rfl
    constructor
    · intro e; right; rw [← e, hv]; omega
    · rintro (rfl | ⟨_, _, e⟩)
      · omega
      · apply hinj; rw [hv, e]
  · rw [if_neg h1]
    by_cases h2 : c.toNat = 0x212A
    · rw [if_pos h2]
      constructor
      · intro e; exact absurd e.symm hk
      · rintro (rfl | ⟨_, _, e⟩) <;> omega
    · rw [if_neg h2]
      constructor
      · exact Or.inl
      · rintro (rfl | ⟨_, _, e⟩)
        · rfl
        · rw [hle, hle, hA, hZ] at h1; omega

theorem lowerText_iff (t : Text) (h : ∀ d ∈ t, (97 ≤ d.toNat ∧ d.toNat ≤ 122) ∧ d ≠ 'k') :
    ∀ s : Text, lowerText s = t ↔ SameLetters s t := by
  induction t with
  | nil => intro s; cases s <;> simp [lowerText, SameLetters]
  | cons d t ih =>
    intro s
    cases s with
    | nil => simp [lowerText, SameLetters]
    | cons c s =>
      have := ih (fun d hd => h d (by simp [hd])) s
      rw [lowerText] at this
      rw [lowerText, List.map_cons, List.cons.injEq, SameLetters, this,
        lowerChar_iff c d (h d (by simp)).1 (h d (by simp)).2]

theorem colour_cases (s : Text) :
    ColourChoice.tryFrom s =
      if lowerText s = "always".toList then .ok .always
      else if lowerText s = "ansi".toList then .ok .alwaysAnsi
      else if lowerText s = "auto".toList then .ok .auto
      else if lowerText s = "never".toList then .ok .never
      else .err .unsupported := rfl

theorem colour_checked {c : CliConfig} (h : ColourChecked c) (s : Text) (hs : c.colour.value = some s) :
    ∃ v, ColourChoice.tryFrom s = .ok v ∧ colourNames.lookup (String.ofList s) = some v := by
  obtain ⟨p, hp, rfl⟩ := h s hs
  simp only [colourNames, List.mem_cons, List.not_mem_nil, or_false] at hp
  rcases hp with rfl | rfl | rfl | rfl
  · exact ⟨.auto, by decide +kernel, by decide +kernel⟩
  · exact ⟨.always, by decide +kernel, by decide +kernel⟩
  · exact ⟨.alwaysAnsi, by decide +kernel, by decide +kernel⟩
  · exact ⟨.never, by decide +kernel, by decide +kernel⟩

theorem firstOf_cons {α : Type} (x : Option α) (l : List (Option α)) : firstOf (x :: l) = x.or (firstOf l) := by
  cases x <;> rfl

theorem sort_given (c : CliConfig) :
    givenSettings c .sortParsedTags = (cliSortPreference c).map CfgVal.bool := by
  obtain ⟨_, _, ⟨v, d⟩, ⟨v', d'⟩⟩ := c
  cases v <;> cases v' <;> cases d <;> cases d' <;> rfl

theorem merge_global (f : Figment) (d : Dict) (k : CfgKey) : (f.merge (globalProvider d)).data "global" k =
    (d k).or (f.data "global" k) := rfl

theorem merge_other (f : Figment) (d : Dict) (p : String) (h : p ≠ "global") (k : CfgKey) :
    (f.merge (globalProvider d)).data p k = f.data p k := by
  show ((globalProvider d p k).or _) = _
  rw [globalProvider, if_neg h]; rfl

theorem extract_merge (f : Figment) (d : Dict) (k : CfgKey) :
    (f.merge (globalProvider d)).extract k = (d k).or (f.extract k) := by
  rw [Figment.extract, Figment.extract, merge_global]
  have hp : (f.merge (globalProvider d)).profile = f.profile := rfl
  rw [hp, merge_other f d "default" (by decide)]
  by_cases h : f.profile = "global"
  · rw [h, merge_global]
    cases d k <;> cases f.data "global" k <;> rfl
  · rw [merge_other f d _ h, Option.or_assoc]

theorem extract_config (file : FigData) (env : Dict) (profile : Option String) (k : CfgKey) :
    (configFigment file env profile).extract k = firstOf [env k, file "global" k, file (profile.getD "default") k,
      file "default" k, builtIn k] := by
  have hb : ∀ k, configDefault k = builtIn k := by intro k; cases k <;> rfl
  have base : ∀ p k, (defaultsProvider configDefault) p k = if p = "default" then builtIn k else none := by
    intro p k
    rw [defaultsProvider]
    by_cases h : p = "default"
    · rw [if_pos h, if_pos h, hb]
    · rw [if_neg h, if_neg h]
  have e : ∀ p k, (configFigment file env profile).data p k =
      (if p = "global" then env k else none).or ((file p k).or (if p = "default" then builtIn k else none)) := by
    intro p k
    show ((globalProvider env p k).or ((file p k).or (defaultsProvider configDefault p k))) = _
    rw [base, globalProvider]
    by_cases h : p = "global"
    · rw [if_pos h, if_pos h]
    · rw [if_neg h, if_neg h]
  have hprof : (configFigment file env profile).profile = profile.getD "default" := rfl
  rw [Figment.extract, hprof, e, e, e, if_pos rfl, if_neg (by decide : ¬ ("default" = "global")),
    if_neg (by decide : ¬ ("global" = "default")), if_pos rfl]
  simp only [firstOf_cons]
  generalize profile.getD "default" = p
  by_cases h1 : p = "global"
  · subst h1
    rw [if_pos rfl, if_neg (by decide : ¬ ("global" = "default"))]
    cases env k <;> cases file "global" k <;> cases file "default" k <;> cases builtIn k <;> rfl
  · rw [if_neg h1]
    by_cases h2 : p = "default"
    · subst h2
      rw [if_pos rfl]
      cases env k <;> cases file "global" k <;> cases file "default" k <;> cases builtIn k <;> rfl
    · rw [if_neg h2]
      cases env k <;> cases file "global" k <;> cases file p k <;> cases file "default" k <;> cases builtIn k <;> rfl

theorem colour_spec (f : Figment) (c : CliConfig) (h : ColourChecked c) :
    ∃ f', applyColour f c = .ok f' ∧
      f'.extract .cliColour = (givenSettings c .cliColour).or (f.extract .cliColour) ∧
      ∀ k, k ≠ .cliColour → f'.extract k = f.extract k := by
  rw [applyColour]
  cases hv : c.colour.value with
  | none => exact ⟨f, rfl, by simp [givenSettings, givenBy, hv], fun _ _ => rfl⟩
  | some s =>
    obtain ⟨v, h1, h2⟩ := colour_checked h s hv
    cases hd : c.colour.isDefault with
    | true => exact ⟨f, rfl, by simp [givenSettings, givenBy, hd], fun _ _ => rfl⟩
    | false =>
      refine ⟨f.merge (pairProvider .cliColour (.colour v)), by simp only [Bool.not_false, if_true, h1]; rfl, ?_, ?_⟩
      · rw [pairProvider, extract_merge, if_pos rfl]
        simp [givenSettings, givenBy, hd, hv, h2]
      · intro k hk
        rw [pairProvider, extract_merge, if_neg hk]; rfl

theorem masking_spec (f : Figment) (c : CliConfig) :
    (applyMasking f c).extract .maskingCharacters =
      (givenSettings c .maskingCharacters).or (f.extract .maskingCharacters) ∧
      ∀ k, k ≠ .maskingCharacters → (applyMasking f c).extract k = f.extract k := by
  rw [applyMasking]
  cases hv : c.maskingCharacter.value with
  | none => exact ⟨by simp [givenSettings, givenBy, hv], fun _ _ => rfl⟩
  | some s =>
    cases hd : c.maskingCharacter.isDefault with
    | true => exact ⟨by simp [givenSettings, givenBy, hd], fun _ _ => rfl⟩
    | false =>
      refine ⟨?_, ?_⟩
      · show (f.merge (pairProvider .maskingCharacters (.chars s))).extract _ = _
        rw [pairProvider, extract_merge, if_pos rfl]
        simp [givenSettings, givenBy, hd, hv]
      · intro k hk
        show (f.merge (pairProvider .maskingCharacters (.chars s))).extract _ = _
        rw [pairProvider, extract_merge, if_neg hk]; rfl

theorem sort_spec (f : Figment) (c : CliConfig) :
    (applySort f c).extract .sortParsedTags =
      (givenSettings c .sortParsedTags).or (f.extract .sortParsedTags) ∧
      ∀ k, k ≠ .sortParsedTags → (applySort f c).extract k = f.extract k := by
  rw [applySort, sort_given]
  cases hp : cliSortPreference c with
  | none => exact ⟨by simp, fun _ _ => rfl⟩
  | some b =>
    refine ⟨?_, ?_⟩
    · show (f.merge (pairProvider .sortParsedTags (.bool b))).extract _ = _
      rw [pairProvider, extract_merge, if_pos rfl]; rfl
    · intro k hk
      show (f.merge (pairProvider .sortParsedTags (.bool b))).extract _ = _
      rw [pairProvider, extract_merge, if_neg hk]; rfl

/-- What the command line changes. -/
theorem apply_spec (f : Figment) (c : CliConfig) (h : ColourChecked c) :
    ∃ f', applyCliArguments f c = .ok f' ∧ ∀ k, f'.extract k = (givenSettings c k).or (f.extract k) := by
  obtain ⟨f1, e1, a1, b1⟩ := colour_spec f c h
  obtain ⟨a2, b2⟩ := masking_spec f1 c
  obtain ⟨a3, b3⟩ := sort_spec (applyMasking f1 c) c
  refine ⟨applySort (applyMasking f1 c) c, by rw [applyCliArguments, e1]; rfl, fun k => ?_⟩
  cases k with
  | cliColour => rw [b3 _ (by simp), b2 _ (by simp), a1]
  | maskingCharacters => rw [b3 _ (by simp), a2, b1 _ (by simp)]
  | sortParsedTags => rw [a3, b2 _ (by simp), b1 _ (by simp)]

/-- The values in force decide the settings. -/
theorem settings_spec (file : FigData) (env : Dict) (profile : Option String) (c : CliConfig) (isTty : Bool)
    (h : ColourChecked c) : settings (configFigment file env profile) c isTty =
      match inForce file env profile c .cliColour, inForce file env profile c .maskingCharacters,
        inForce file env profile c .sortParsedTags with
      | some (.colour colour), some (.chars masks), some (.bool sort) =>
        .ok ⟨(colour.changeBasedOnTty isTty).toTerm, masks, sort⟩
      | _, _, _ => .panic := by
  obtain ⟨f, hf, he⟩ := apply_spec (configFigment file env profile) c h
  have hk : ∀ k, f.extract k = inForce file env profile c k := by
    intro k; rw [he, extract_config, inForce, firstOf_cons (givenSettings c k)]
  rw [settings, hf]
  show (match f.extract .cliColour with
  | some (.colour colour) =>
    match f.extract .maskingCharacters with
    | some (.chars masks) =>
      match f.extract .sortParsedTags with
      | some (.bool sort) => .ok ⟨(colour.changeBasedOnTty isTty).toTerm, masks, sort⟩
      | _ => .panic
    | _ => .panic
  | _ => .panic : Out Settings) = _
  rw [hk, hk, hk]
  clear he hk hf
  generalize inForce file env profile c .cliColour = x
  generalize inForce file env profile c .maskingCharacters = y
  generalize inForce file env profile c .sortParsedTags = z
  rcases x with _ | x
  · rfl
  · rcases y with _ | y
    · cases x <;> rfl
    · rcases z with _ | z
      · cases x <;> cases y <;> rfl
      · cases x <;> cases y <;> cases z <;> rfl

end Pemv
