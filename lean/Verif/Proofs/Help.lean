import Verif.Props.Whole
import Verif.Spec.Help
import Verif.Model.Terminal

/-!
# Lemmas about what the help text tells
-/

namespace Pemv

open Spec

/-- A fact about every help text, checked one by one. Literals are turned into lists of characters by a lemma, as
computing them is slow. -/
macro "by_rows" : tactic => `(tactic| (
  simp only [helpTable, ArgHelp.full, List.forall_mem_cons, List.forall_mem_nil, and_true, Option.getD_some,
    Option.getD_none]
  and_intros
  all_goals ((repeat rw [String.toList_ofList]) <;> decide +kernel)))

/-- What happens with options that are understood and do not ask for help or version. -/
theorem execute_cases (m : Machine) (file : FigData) (env : Dict) (profile : Option String) (isTty : Bool)
    (uses : List Use) (hne : uses ≠ []) (h : ∀ u ∈ uses, ∃ g, understand u = some g ∧ g ≠ .help ∧ g ≠ .version) :
    let gs := uses.filterMap understand
    (¬ Consistent gs ∧ execute m file env profile isTty uses = .rejected) ∨
    (Consistent gs ∧ ((∃ ops colour masks sort, selected ops = (operationsOf gs).head? ∧
        valueInForce file env profile gs .cliColour = some (.colour colour) ∧
        valueInForce file env profile gs .maskingCharacters = some (.chars masks) ∧
        valueInForce file env profile gs .sortParsedTags = some (.bool sort) ∧
        execute m file env profile isTty uses =
          .ran (.ok ((colour.changeBasedOnTty isTty).toTerm, run m ops masks sort))) ∨
      ((∃ k v, valueInForce file env profile gs k = some v ∧ ¬ RightType k v) ∧
        execute m file env profile isTty uses = .ran .panic))) := by
  obtain ⟨gs, hgs⟩ := mapM_some (fun u hu => (h u hu).imp (fun _ hg => hg.1))
  have e := mapM_filterMap hgs
  rw [← e]
  have clean : ∀ g ∈ gs, g ≠ .help ∧ g ≠ .version := by
    intro g hg
    obtain ⟨u, hu, hug⟩ := mapM_mem hgs g hg
    obtain ⟨g', hg', hc⟩ := h u hu
    rw [hug] at hg'
    cases hg'
    exact hc
  have hh : .help ∉ gs := fun hg => (clean _ hg).1 rfl
  have hv : .version ∉ gs := fun hg => (clean _ hg).2 rfl
  by_cases hc : Consistent gs
  · refine Or.inr ⟨hc, ?_⟩
    obtain ⟨ops, hsel, hok, hbad⟩ := c70_runs m file env profile isTty uses gs hne hgs hh hv hc
    have bad : ∀ k v, valueInForce file env profile gs k = some v → ¬ RightType k v →
        execute m file env profile isTty uses = .ran .panic := by
      intro k v hk ht
      exact hbad ⟨k, fun w hw => by rw [hk] at hw; cases hw; exact ht⟩
    obtain ⟨v1, h1⟩ := valueInForce_some file env profile gs .cliColour
    obtain ⟨v2, h2⟩ := valueInForce_some file env profile gs .maskingCharacters
    obtain ⟨v3, h3⟩ := valueInForce_some file env profile gs .sortParsedTags
    by_cases t1 : RightType .cliColour v1
    · by_cases t2 : RightType .maskingCharacters v2
      · by_cases t3 : RightType .sortParsedTags v3
        · obtain ⟨col, rfl⟩ := rightType_colour t1
          obtain ⟨ms, rfl⟩ := rightType_masks t2
          obtain ⟨sort, rfl⟩ := rightType_sort t3
          exact Or.inl ⟨ops, col, ms, sort, hsel, h1, h2, h3, hok col ms sort h1 h2 h3⟩
        · exact Or.inr ⟨⟨_, _, h3, t3⟩, bad _ _ h3 t3⟩
      · exact Or.inr ⟨⟨_, _, h2, t2⟩, bad _ _ h2 t2⟩
    · exact Or.inr ⟨⟨_, _, h1, t1⟩, bad _ _ h1 t1⟩
  · exact Or.inl ⟨hc, c70_inconsistent m file env profile isTty uses gs hne hgs hh hv hc⟩

/-- Two lists of options that say the same have the same effect. -/
theorem execute_same (m : Machine) (file : FigData) (env : Dict) (profile : Option String) (isTty : Bool)
    (uses uses' : List Use) (hne : uses ≠ []) (hne' : uses' ≠ [])
    (h : ∀ u ∈ uses, ∃ g, understand u = some g ∧ g ≠ .help ∧ g ≠ .version)
    (h' : ∀ u ∈ uses', ∃ g, understand u = some g ∧ g ≠ .help ∧ g ≠ .version)
    (hc : Consistent (uses.filterMap understand) ↔ Consistent (uses'.filterMap understand))
    (ho : operationsOf (uses.filterMap understand) = operationsOf (uses'.filterMap understand))
    (hs : Consistent (uses.filterMap understand) →
      ∀ k, settingsGiven (uses.filterMap understand) k = settingsGiven (uses'.filterMap understand) k) :
    execute m file env profile isTty uses = execute m file env profile isTty uses' := by
  have key : ∀ k, Consistent (uses.filterMap understand) →
      valueInForce file env profile (uses.filterMap understand) k =
      valueInForce file env profile (uses'.filterMap understand) k := by
    intro k hcc
    rw [valueInForce, valueInForce, hs hcc k]
  rcases execute_cases m file env profile isTty uses hne h with
    ⟨a1, a2⟩ | ⟨a0, ⟨ops, c, ms, s, a1, a2, a3, a4, a5⟩ | ⟨⟨k, v, a1, a2⟩, a3⟩⟩
  · rcases execute_cases m file env profile isTty uses' hne' h' with ⟨b1, b2⟩ | ⟨b0, _⟩
    · rw [a2, b2]
    · exact absurd (hc.2 b0) a1
  · rw [key _ a0] at a2 a3 a4
    rcases execute_cases m file env profile isTty uses' hne' h' with
      ⟨b1, b2⟩ | ⟨b0, ⟨ops', c', ms', s', b1, b2, b3, b4, b5⟩ | ⟨⟨k, v, b1, b2⟩, b3⟩⟩
    · exact absurd (hc.1 a0) b1
    · rw [a2] at b2
      rw [a3] at b3
      rw [a4] at b4
      cases b2
      cases b3
      cases b4
      rw [a5, b5, c58_first_option m ops ops' ms s (by rw [a1, b1, ho])]
    · cases k
      · rw [a2] at b1; cases b1; exact absurd trivial b2
      · rw [a3] at b1; cases b1; exact absurd trivial b2
      · rw [a4] at b1; cases b1; exact absurd trivial b2
  · rw [key _ a0] at a1
    rcases execute_cases m file env profile isTty uses' hne' h' with
      ⟨b1, b2⟩ | ⟨b0, ⟨ops', c', ms', s', b1, b2, b3, b4, b5⟩ | ⟨⟨k', v', b1, b2⟩, b3⟩⟩
    · exact absurd (hc.1 a0) b1
    · cases k
      · rw [b2] at a1; cases a1; exact absurd trivial a2
      · rw [b3] at a1; cases a1; exact absurd trivial a2
      · rw [b4] at a1; cases a1; exact absurd trivial a2
    · rw [a3, b3]

theorem lookup_of_mem (p : OptName × Opt) (h : p ∈ optionNames) : optionNames.lookup p.1 = some p.2 :=
  (by decide +kernel : ∀ p ∈ optionNames, optionNames.lookup p.1 = some p.2) p h

theorem understand_of_mem {n : OptName} {o : Opt} (h : (n, o) ∈ optionNames) (vs : List Text) :
    understand ⟨n, vs⟩ = understandOpt o vs := by
  rw [understand, lookup_of_mem (n, o) h]
  rfl

/-- For consistency it does not matter which of the two options about sorting is given. -/
theorem consistent_swap (a c : List Given) (b : Bool) :
    Consistent (a ++ .noSort b :: c) ↔ Consistent (a ++ .sort (!b) :: c) := by
  have ho : operationsOf (a ++ .noSort b :: c) = operationsOf (a ++ .sort (!b) :: c) := by
    simp [operationsOf, List.filterMap_append, List.filterMap_cons, Given.operation?]
  have hc : coloursOf (a ++ .noSort b :: c) = coloursOf (a ++ .sort (!b) :: c) := by
    simp [coloursOf, List.filterMap_append, List.filterMap_cons, Given.colour?]
  have hs : (sortsOf (a ++ .noSort b :: c)).length + (noSortsOf (a ++ .noSort b :: c)).length =
      (sortsOf (a ++ .sort (!b) :: c)).length + (noSortsOf (a ++ .sort (!b) :: c)).length := by
    simp only [sortsOf, noSortsOf, List.filterMap_append, List.filterMap_cons, Given.sort?, Given.noSort?,
      List.length_append, List.length_cons]
    omega
  have g1 : noSortsOf (a ++ .noSort b :: c) ≠ [] := by simp [noSortsOf, List.filterMap_append, Given.noSort?]
  have g2 : sortsOf (a ++ .sort (!b) :: c) ≠ [] := by simp [sortsOf, List.filterMap_append, List.filterMap_cons, Given.sort?]
  constructor
  · rintro ⟨h1, h2, h3, h4⟩
    exact ⟨ho ▸ h1, hc ▸ h2, hs ▸ h3, fun _ => ho ▸ h4 (Or.inr (Or.inr g1))⟩
  · rintro ⟨h1, h2, h3, h4⟩
    exact ⟨ho ▸ h1, hc ▸ h2, hs ▸ h3, fun _ => ho ▸ h4 (Or.inr (Or.inl g2))⟩

/-- The values in force with a colour choice given once. -/
theorem colour_alike (m : Machine) (file : FigData) (env : Dict) (profile : Option String) (isTty : Bool)
    (a c : List Given) (x y : Execution)
    (e1 : (¬ Consistent (a ++ .colour "ansi".toList :: c) ∧ x = .rejected) ∨
      (Consistent (a ++ .colour "ansi".toList :: c) ∧ ((∃ ops colour masks sort,
          selected ops = (operationsOf (a ++ .colour "ansi".toList :: c)).head? ∧
          valueInForce file env profile (a ++ .colour "ansi".toList :: c) .cliColour = some (.colour colour) ∧
          valueInForce file env profile (a ++ .colour "ansi".toList :: c) .maskingCharacters = some (.chars masks) ∧
          valueInForce file env profile (a ++ .colour "ansi".toList :: c) .sortParsedTags = some (.bool sort) ∧
          x = .ran (.ok ((colour.changeBasedOnTty isTty).toTerm, run m ops masks sort))) ∨
        ((∃ k v, valueInForce file env profile (a ++ .colour "ansi".toList :: c) k = some v ∧ ¬ RightType k v) ∧
          x = .ran .panic))))
    (e2 : (¬ Consistent (a ++ .colour "always".toList :: c) ∧ y = .rejected) ∨
      (Consistent (a ++ .colour "always".toList :: c) ∧ ((∃ ops colour masks sort,
          selected ops = (operationsOf (a ++ .colour "always".toList :: c)).head? ∧
          valueInForce file env profile (a ++ .colour "always".toList :: c) .cliColour = some (.colour colour) ∧
          valueInForce file env profile (a ++ .colour "always".toList :: c) .maskingCharacters = some (.chars masks) ∧
          valueInForce file env profile (a ++ .colour "always".toList :: c) .sortParsedTags = some (.bool sort) ∧
          y = .ran (.ok ((colour.changeBasedOnTty isTty).toTerm, run m ops masks sort))) ∨
        ((∃ k v, valueInForce file env profile (a ++ .colour "always".toList :: c) k = some v ∧ ¬ RightType k v) ∧
          y = .ran .panic)))) :
    (∀ r, x = .ran (.ok r) → ∃ r', y = .ran (.ok r') ∧ r'.2 = r.2 ∧ ∀ t, stdoutOf t r' = stdoutOf t r) ∧
    ((∀ r, x ≠ .ran (.ok r)) → y = x) := by
  have ho : operationsOf (a ++ .colour "ansi".toList :: c) = operationsOf (a ++ .colour "always".toList :: c) := by
    simp only [operationsOf, List.filterMap_append, List.filterMap_cons, Given.operation?]
  have hm : masksOf (a ++ .colour "ansi".toList :: c) = masksOf (a ++ .colour "always".toList :: c) := by
    simp only [masksOf, List.filterMap_append, List.filterMap_cons, Given.masking?]
  have hs : sortsOf (a ++ .colour "ansi".toList :: c) = sortsOf (a ++ .colour "always".toList :: c) := by
    simp only [sortsOf, List.filterMap_append, List.filterMap_cons, Given.sort?]
  have hn : noSortsOf (a ++ .colour "ansi".toList :: c) = noSortsOf (a ++ .colour "always".toList :: c) := by
    simp only [noSortsOf, List.filterMap_append, List.filterMap_cons, Given.noSort?]
  have hl : ∀ v : Text, (coloursOf (a ++ .colour v :: c)).length = (coloursOf a).length + ((coloursOf c).length + 1) := by
    intro v
    simp only [coloursOf, List.filterMap_append, List.filterMap_cons, Given.colour?, List.length_append,
      List.length_cons]
  have hc : Consistent (a ++ .colour "ansi".toList :: c) ↔ Consistent (a ++ .colour "always".toList :: c) := by
    constructor
    · rintro ⟨h1, h2, h3, h4⟩
      refine ⟨ho ▸ h1, ?_, ?_, ?_⟩
      · rw [hl] at h2 ⊢; exact h2
      · rw [← hs, ← hn]; exact h3
      · rw [← hm, ← hs, ← hn, ← ho]; exact h4
    · rintro ⟨h1, h2, h3, h4⟩
      refine ⟨ho ▸ h1, ?_, ?_, ?_⟩
      · rw [hl] at h2 ⊢; exact h2
      · rw [hs, hn]; exact h3
      · rw [hm, hs, hn, ho]; exact h4
  have hv2 : valueInForce file env profile (a ++ .colour "ansi".toList :: c) .maskingCharacters =
      valueInForce file env profile (a ++ .colour "always".toList :: c) .maskingCharacters := by
    rw [valueInForce, valueInForce, settingsGiven, settingsGiven, hm]
  have hv3 : valueInForce file env profile (a ++ .colour "ansi".toList :: c) .sortParsedTags =
      valueInForce file env profile (a ++ .colour "always".toList :: c) .sortParsedTags := by
    rw [valueInForce, valueInForce, settingsGiven, settingsGiven, hs, hn]
  have hv1 : ∀ (v : Text) (k : ColourChoice), Consistent (a ++ .colour v :: c) →
      colourNames.lookup (String.ofList v) = some k →
      valueInForce file env profile (a ++ .colour v :: c) .cliColour = some (.colour k) := by
    intro v k hcv hk
    have h2 := hcv.colour
    rw [hl] at h2
    have ha : coloursOf a = [] := List.length_eq_zero_iff.1 (by omega)
    have hcl : coloursOf (a ++ .colour v :: c) = v :: coloursOf c := by
      simp only [coloursOf] at ha ⊢
      rw [List.filterMap_append, ha, List.filterMap_cons]
      rfl
    rw [valueInForce, settingsGiven, hcl]
    simp [hk, firstOf]
  have hk1 : colourNames.lookup (String.ofList "ansi".toList) = some .alwaysAnsi := by decide +kernel
  have hk2 : colourNames.lookup (String.ofList "always".toList) = some .always := by decide +kernel
  rcases e1 with ⟨n1, rfl⟩ | ⟨y1, ⟨ops, col, ms, so, p1, p2, p3, p4, rfl⟩ | ⟨⟨k, v, p1, p2⟩, rfl⟩⟩
  · rcases e2 with ⟨_, rfl⟩ | ⟨y2, _⟩
    · exact ⟨fun r h => (by cases h), fun _ => rfl⟩
    · exact absurd (hc.2 y2) n1
  · rw [hv1 _ _ y1 hk1] at p2
    cases p2
    rw [hv2] at p3
    rw [hv3] at p4
    refine ⟨fun r hr => ?_, fun h => absurd rfl (h _)⟩
    cases hr
    rcases e2 with ⟨n2, _⟩ | ⟨y2, ⟨ops', col', ms', so', q1, q2, q3, q4, rfl⟩ | ⟨⟨k, v, q1, q2⟩, rfl⟩⟩
    · exact absurd (hc.1 y1) n2
    · rw [hv1 _ _ y2 hk2] at q2
      cases q2
      rw [p3] at q3
      rw [p4] at q4
      cases q3
      cases q4
      have er : run m ops' ms so = run m ops ms so := c58_first_option m ops' ops ms so (by rw [q1, p1, ho])
      refine ⟨_, rfl, er, fun t => ?_⟩
      rw [stdoutOf, stdoutOf, er]
      rfl
    · exfalso
      cases k
      · rw [hv1 _ _ y2 hk2] at q1; cases q1; exact q2 trivial
      · rw [p3] at q1; cases q1; exact q2 trivial
      · rw [p4] at q1; cases q1; exact q2 trivial
  · refine ⟨fun r h => (by cases h), fun _ => ?_⟩
    rcases e2 with ⟨n2, _⟩ | ⟨y2, ⟨ops', col', ms', so', q1, q2, q3, q4, rfl⟩ | ⟨_, rfl⟩⟩
    · exact absurd (hc.1 y1) n2
    · exfalso
      cases k
      · rw [hv1 _ _ y1 hk1] at p1; cases p1; exact p2 trivial
      · rw [hv2, q3] at p1; cases p1; exact p2 trivial
      · rw [hv3, q4] at p1; cases p1; exact p2 trivial
    · rfl

end Pemv
