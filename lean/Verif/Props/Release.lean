import Verif.Proofs.Release

/-!
# C108: the release script
-/

namespace Pemv

open Spec

/-- **C108.** Without a tag, or with changes that are not committed, nothing is touched. -/
theorem c108_refused (t : Tools) (arg : Option Text) (r : Repo) (h : Refused t arg) :
    (release t arg r).repo = r ∧ ¬ SaysSuccess (release t arg r) := by
  rw [refused_iff] at h
  unfold release SaysSuccess
  by_cases h1 : arg.getD [] = []
  · rw [if_pos h1]; exact ⟨rfl, by simp⟩
  · rw [if_neg h1, if_pos (h.resolve_left h1)]; exact ⟨rfl, by simp⟩

/-- **C108.** Success is announced exactly when the script begins and no command it looks at fails. -/
theorem c108_success_iff (t : Tools) (arg : Option Text) (r : Repo) :
    SaysSuccess (release t arg r) ↔ ¬ Refused t arg ∧ ChecksPass t := by
  rw [refused_iff]
  unfold release SaysSuccess ChecksPass
  constructor
  · intro h
    repeat' split at h
    all_goals first
      | (simp at h; done)
      | (simp_all; done)
  · rintro ⟨h1, h2, h3, h4, h5, h6, h7⟩
    have h1' := not_or.1 h1
    simp only [if_neg h1'.1, if_neg h1'.2, h2, h3, h4, h5, h6, h7, ne_eq, not_true, if_false]
    exact List.mem_cons_self

/-- **C108.** If the commit is made, success means a release: one new commit with the new version and the new list of
changes, and one new tag for it. (What is missing: the script does not ask whether the commit is made.) -/
theorem c108_released_partial (t : Tools) (tag version : Text) (r : Repo) (hv : IsVersionOf tag version)
    (hc : CommitPasses t) (h : SaysSuccess (release t (some tag) r)) :
    Released t tag version r (release t (some tag) r).repo := by
  have hh := (c108_success_iff t (some tag) r).1 h
  obtain ⟨h1, h2, h3, h4, h5, h6, h7⟩ := hh
  rw [refused_iff] at h1
  have h1' := not_or.1 h1
  obtain rfl := isVersionOf_unique hv (withoutV_isVersionOf tag)
  obtain ⟨ca, cb⟩ := hc
  have e : (release t (some tag) r).repo =
      ⟨r.manifest.map (sedLine tag), t.cliffOutput,
        ⟨r.manifest.map (sedLine tag), t.cliffOutput, "misc(release): Prepare for ".toList ++ tag ++ ['.']⟩ :: r.commits,
        ⟨tag, some ⟨r.manifest.map (sedLine tag), t.cliffOutput, "misc(release): Prepare for ".toList ++ tag ++ ['.']⟩,
          ["Release ".toList ++ tag, t.notes ++ ['\n']]⟩ :: r.tags⟩ := by
    have g : tag ≠ [] := by simpa using h1'.1
    simp only [release, Option.getD_some, if_neg g, if_neg h1'.2, h2, h3, h4, h5, h6, h7, ne_eq, not_true, if_false,
      ca, cb, and_self, if_true, List.head?_cons]
  rw [e]
  exact ⟨newVersion_map tag _, rfl, rfl, ⟨_, rfl⟩⟩

/-- **C108.** If it is not made, success is announced all the same: the tag stands for the commit before, and there is
no release. -/
theorem c108_unreleased (t : Tools) (tag : Text) (r : Repo) (hc : ¬ CommitPasses t)
    (h : SaysSuccess (release t (some tag) r)) :
    (release t (some tag) r).status = 0 ∧ (release t (some tag) r).repo.commits = r.commits ∧
    (∃ message, (release t (some tag) r).repo.tags = ⟨tag, r.commits.head?, message⟩ :: r.tags) ∧
    ∀ version, ¬ Released t tag version r (release t (some tag) r).repo := by
  have hh := (c108_success_iff t (some tag) r).1 h
  obtain ⟨h1, h2, h3, h4, h5, h6, h7⟩ := hh
  rw [refused_iff] at h1
  have h1' := not_or.1 h1
  have g : tag ≠ [] := by simpa using h1'.1
  have hc' : ¬ (t.add = 0 ∧ t.commit = 0) := hc
  have e : release t (some tag) r = ⟨0,
      ⟨r.manifest.map (sedLine tag), t.cliffOutput, r.commits,
        ⟨tag, r.commits.head?, ["Release ".toList ++ tag, t.notes ++ ['\n']]⟩ :: r.tags⟩,
      ["New version created successfully."]⟩ := by
    simp only [release, Option.getD_some, if_neg g, if_neg h1'.2, h2, h3, h4, h5, h6, h7, ne_eq, not_true,
      if_false, if_neg hc']
  rw [e]
  refine ⟨rfl, rfl, ⟨_, rfl⟩, fun version hr => ?_⟩
  have := congrArg List.length hr.commits
  simp at this

/-- **C108.** Status 0 is success, or a refusal: without a tag or with changes the script says so and ends with 0. -/
theorem c108_status (t : Tools) (arg : Option Text) (r : Repo) :
    (release t arg r).status = 0 ↔ SaysSuccess (release t arg r) ∨ Refused t arg := by
  constructor
  · intro h
    by_cases hr : Refused t arg
    · exact Or.inr hr
    refine Or.inl ((c108_success_iff t arg r).2 ⟨hr, ?_⟩)
    rw [refused_iff] at hr
    have h1' := not_or.1 hr
    unfold release at h
    rw [if_neg h1'.1, if_neg h1'.2] at h
    unfold ChecksPass
    repeat' split at h
    all_goals simp_all
  · rintro (h | h)
    · obtain ⟨h1, h2, h3, h4, h5, h6, h7⟩ := (c108_success_iff t arg r).1 h
      rw [refused_iff] at h1
      have h1' := not_or.1 h1
      simp only [release, if_neg h1'.1, if_neg h1'.2, h2, h3, h4, h5, h6, h7, ne_eq, not_true, if_false]
    · rw [refused_iff] at h
      unfold release
      by_cases h1 : arg.getD [] = []
      · rw [if_pos h1]
      · rw [if_neg h1, if_pos (h.resolve_left h1)]

/-- **C108.** There is no new commit and no new tag unless formatting, lints and the list of changes are in order. -/
theorem c108_gated (t : Tools) (arg : Option Text) (r : Repo) (h : t.fmt ≠ 0 ∨ t.clippy ≠ 0 ∨ t.cliff ≠ 0) :
    (release t arg r).repo.commits = r.commits ∧ (release t arg r).repo.tags = r.tags := by
  unfold release
  repeat' split
  all_goals first
    | exact ⟨rfl, rfl⟩
    | (simp_all; done)

/-- **C108.** Whatever happens, commits and tags are only added, at most one of each, and the tag has the name asked
for. -/
theorem c108_only_adds (t : Tools) (arg : Option Text) (r : Repo) :
    (∃ new : List Commit, (release t arg r).repo.commits = new ++ r.commits ∧ new.length ≤ 1) ∧
    (∃ new : List GitTag, (release t arg r).repo.tags = new ++ r.tags ∧ new.length ≤ 1 ∧
      ∀ x ∈ new, arg = some x.name) := by
  have ha : arg.getD [] ≠ [] → arg = some (arg.getD []) := by
    cases arg <;> simp
  unfold release
  repeat' split
  all_goals first
    | exact ⟨⟨[], rfl, by simp⟩, ⟨[], rfl, by simp, by simp⟩⟩
    | exact ⟨⟨[_], rfl, by simp⟩, ⟨[], rfl, by simp, by simp⟩⟩
    | exact ⟨⟨[], rfl, by simp⟩, ⟨[_], rfl, by simp, by simpa using ha ‹_›⟩⟩
    | exact ⟨⟨[_], rfl, by simp⟩, ⟨[_], rfl, by simp, by simpa using ha ‹_›⟩⟩

/-- **C108.** The manifest either stays as it is or is given the new version, and in no other way changes. -/
theorem c108_manifest (t : Tools) (tag version : Text) (r : Repo) (hv : IsVersionOf tag version) :
    (release t (some tag) r).repo.manifest = r.manifest ∨
    NewVersion version r.manifest (release t (some tag) r).repo.manifest := by
  obtain rfl := isVersionOf_unique hv (withoutV_isVersionOf tag)
  unfold release
  repeat' split
  all_goals first
    | exact Or.inl rfl
    | exact Or.inr (newVersion_map tag _)

/-- **C108.** A check that fails leaves the new version in the working directory, where the next run finds it: it is
then refused. -/
theorem c108_left_behind (t : Tools) (tag version : Text) (r : Repo) (hv : IsVersionOf tag version)
    (hb : ¬ Refused t (some tag)) (hs : t.sed = 0) :
    NewVersion version r.manifest (release t (some tag) r).repo.manifest := by
  obtain rfl := isVersionOf_unique hv (withoutV_isVersionOf tag)
  rw [refused_iff] at hb
  have h1' := not_or.1 hb
  unfold release
  rw [if_neg h1'.1, if_neg h1'.2]
  repeat' split
  all_goals first
    | exact absurd hs ‹_›
    | exact newVersion_map tag _

/-- **C108.** The version can be replaced again: a second release leaves what it would have left without the first. -/
theorem c108_again (va vb : Text) (m a b : List Text) (ha : NewVersion va m a) (hb : NewVersion vb a b) :
    NewVersion vb m b := by
  have key : ∀ v : Text, ∃ tag, withoutV tag = v := fun v => ⟨'v' :: v, rfl⟩
  obtain ⟨ta, rfl⟩ := key va
  obtain ⟨tb, rfl⟩ := key vb
  obtain rfl := newVersion_unique ha (newVersion_map ta m)
  obtain rfl := newVersion_unique hb (newVersion_map tb _)
  rw [List.map_map, show sedLine tb ∘ sedLine ta = sedLine tb from funext (sedLine_sedLine ta tb)]
  exact newVersion_map tb m

/-- **C108.** In the manifest of this project the third line, the version of the package, is the only one concerned. -/
theorem c108_third_line (version : Text) (after : List Text)
    (h : NewVersion version (cargoToml.map String.toList) after) :
    after = (cargoToml.map String.toList).set 2 (versionLine version) := by
  obtain rfl := newVersion_unique h (newVersion_map ('v' :: version) _)
  have hm : ∀ i : Fin 28, i.val ≠ 2 → sedMatches ((cargoToml.map String.toList)[i.val]?.getD []) = false := by
    decide +kernel
  have h2 : sedMatches ((cargoToml.map String.toList)[2]?.getD []) = true := by decide +kernel
  apply List.ext_getElem?
  intro i
  rw [List.getElem?_map, List.getElem?_set]
  have hl : (cargoToml.map String.toList).length = 28 := rfl
  by_cases hi : 2 = i
  · subst hi
    rw [if_pos rfl, if_pos (by rw [hl]; omega), List.getElem?_eq_getElem (by rw [hl]; omega)]
    rw [List.getElem?_eq_getElem (by rw [hl]; omega)] at h2
    exact congrArg some (sedLine_managed ((sedMatches_iff _).1 h2))
  · rw [if_neg hi]
    by_cases hi' : i < 28
    · have := hm ⟨i, hi'⟩ (fun e => hi e.symm)
      rw [List.getElem?_eq_getElem (by rw [hl]; exact hi')] at this ⊢
      rw [Option.map_some, sedLine_other (fun hx => by
        exact Bool.false_ne_true (Eq.trans (Eq.symm this) ((sedMatches_iff _).2 hx)))]
    · rw [List.getElem?_eq_none (by rw [hl]; omega)]; rfl

/-- **C108.** What the script says: why it does not begin, that it succeeded, or nothing of its own. -/
theorem c108_says (t : Tools) (arg : Option Text) (r : Repo) :
    (release t arg r).said =
      if arg = none ∨ arg = some [] then ["Please provide the tag as an argument, in the format `vX.Y.Z`."]
      else if t.porcelain ≠ [] then ["You have uncommitted changes. Please clean up first."]
      else if t.sed = 0 ∧ t.fmt = 0 ∧ t.clippy = 0 ∧ t.cliff = 0 ∧ t.tag = 0 ∧ t.verify = 0 then
        ["New version created successfully."]
      else [] := by
  have h0 : arg.getD [] = [] ↔ arg = none ∨ arg = some [] := by
    cases arg <;> simp
  unfold release
  simp only [← h0]
  by_cases h1 : arg.getD [] = []
  · rw [if_pos h1, if_pos h1]
  · rw [if_neg h1, if_neg h1]
    by_cases h2 : t.porcelain ≠ []
    · rw [if_pos h2, if_pos h2]
    · rw [if_neg h2, if_neg h2]
      repeat' split
      all_goals first
        | rfl
        | (exfalso; simp_all; done)

/-- **C108.** This is version 0.4.2: so say the answer to `--version` and the first lines of the help text. -/
theorem c108_this_version :
    versionText (cargoToml.map String.toList) = some "ParseEMV 0.4.2\n".toList ∧
    helpHead (cargoToml.map String.toList) = some ("ParseEMV 0.4.2\n" ++
      "Zacchary Dempsey-Plante <zacc@ztdp.ca>\nA utility for parsing EMV-related data.\n").toList := by
  decide +kernel

/-- **C108.** A program built from a release says the version of its tag. -/
theorem c108_next_version (version : Text) (hq : '"' ∉ version) (after : List Text)
    (h : NewVersion version (cargoToml.map String.toList) after) :
    versionText after = some ("ParseEMV ".toList ++ version ++ "\n".toList) ∧
    helpHead after = some ("ParseEMV ".toList ++ version ++
      "\nZacchary Dempsey-Plante <zacc@ztdp.ca>\nA utility for parsing EMV-related data.\n".toList) := by
  have h := c108_third_line version after h
  subst h
  have ev : "version = \"".toList = 'v' :: "ersion = \"".toList := by decide +kernel
  have et : "\" # Managed by release.sh".toList = '"' :: " # Managed by release.sh".toList := by decide +kernel
  have ea : "authors = [\"".toList = 'a' :: "uthors = [\"".toList := by decide +kernel
  have ed : "description = \"".toList = 'd' :: "escription = \"".toList := by decide +kernel
  obtain ⟨hl, pv, hd⟩ := versionLine_eq version rfl ev et
  have hp : packageLines ((cargoToml.map String.toList).set 2 (versionLine version)) =
      "name = \"pemv\"".toList :: versionLine version :: ((cargoToml.map String.toList).drop 3).take 7 := by
    have hv : (versionLine version).head? = some 'v' := by rw [hl, List.head?_cons]
    simp only [packageLines, cargoToml, List.map_cons, List.map_nil, List.set_cons_succ, List.set_cons_zero]
    rw [List.dropWhile_cons_of_neg (by decide +kernel), List.drop_succ_cons, List.drop_zero, List.takeWhile_cons_of_pos (by decide +kernel), List.takeWhile_cons_of_pos (by rw [hv]; decide)]
    rfl
  have hw : (version ++ '"' :: " # Managed by release.sh".toList).takeWhile (· != '"') = version := by
    rw [List.takeWhile_append_of_pos (fun c hc => by simp; rintro rfl; exact hq hc), List.takeWhile_cons_of_neg (by decide), List.append_nil]
  have f1 : packageField "version = \"" ((cargoToml.map String.toList).set 2 (versionLine version)) = some version := by
    rw [packageField, hp, List.findSome?_cons, if_neg (by decide +kernel), List.findSome?_cons, if_pos pv, hd, hw]
  have f2 : packageField "authors = [\"" ((cargoToml.map String.toList).set 2 (versionLine version)) =
      some "Zacchary Dempsey-Plante <zacc@ztdp.ca>".toList := by
    rw [packageField, hp, List.findSome?_cons, if_neg (by decide +kernel), List.findSome?_cons,
      if_neg (by rw [ea, hl]; exact not_prefix_head (by decide))]
    decide +kernel
  have f3 : packageField "description = \"" ((cargoToml.map String.toList).set 2 (versionLine version)) =
      some "A utility for parsing EMV-related data.".toList := by
    rw [packageField, hp, List.findSome?_cons, if_neg (by decide +kernel), List.findSome?_cons,
      if_neg (by rw [ed, hl]; exact not_prefix_head (by decide))]
    decide +kernel
  have e1 : versionText ((cargoToml.map String.toList).set 2 (versionLine version)) =
      some ("ParseEMV ".toList ++ version ++ "\n".toList) := by
    rw [versionText, f1]
    rfl
  refine ⟨e1, ?_⟩
  rw [helpHead, e1, f2, f3]
  simp only [Option.bind_some, Option.map_some, List.append_assoc]
  congr 3

section Examples


private def allWell : Tools := ⟨[], 0, 0, 0, 0, "# Changelog".toList, 0, 0, "- one".toList, 0, 0⟩
private def start : Repo := ⟨cargoToml.map String.toList, [], [⟨cargoToml.map String.toList, [], "Before".toList⟩], []⟩

/-- Tag v0.5.0: the third line says 0.5.0. -/
example : ((release allWell (some "v0.5.0".toList) start).repo.manifest[2]?.map String.ofList) =
    some "version = \"0.5.0\" # Managed by release.sh" := by decide +kernel

/-- A commit that is refused (by a hook, say): the script announces success and the tag is on the commit before, whose
manifest says 0.4.2. -/
example : let x := release { allWell with commit := 1 } (some "v0.5.0".toList) start
    x.said = ["New version created successfully."] ∧
    x.repo.tags.map (fun g => (String.ofList g.name, g.target.map (fun c => String.ofList c.message))) =
      [("v0.5.0", some "Before")] := by decide +kernel

/-- Without a tag: status 0, nothing done. -/
example : (release allWell none start).status = 0 ∧ (release allWell none start).repo = start := by decide +kernel

/-- The inner versions, of the dependencies, stay. -/
example : sedLine "v9".toList "clap = { version = \"4.0\" }".toList = "clap = { version = \"4.0\" }".toList := by
  decide +kernel

example : (release allWell (some []) start).repo = start := (c108_refused _ _ _ (Or.inr (Or.inl rfl))).1

example := c108_released_partial allWell "v0.5.0".toList "0.5.0".toList start (Or.inl rfl) ⟨rfl, rfl⟩
  (by unfold SaysSuccess; decide +kernel)

example := c108_unreleased { allWell with commit := 1 } "v0.5.0".toList start (fun h => nomatch h.2)
  (by unfold SaysSuccess; decide +kernel)

example := c108_gated { allWell with clippy := 101 } (some "v0.5.0".toList) start (Or.inr (Or.inl (by decide)))

example := c108_manifest allWell "0.5.0".toList "0.5.0".toList start (Or.inr ⟨rfl, by decide⟩)

/-- The formatting is found wrong: the manifest has the new version all the same. -/
example := c108_left_behind { allWell with fmt := 1 } "v0.5.0".toList "0.5.0".toList start (Or.inl rfl)
  (by rintro (h | h | h) <;> first | cases h | exact h rfl) rfl

/-- Released as 0.5.0, then as 0.6.0. -/
example : NewVersion "0.6.0".toList start.manifest
    (release allWell (some "v0.6.0".toList) (release allWell (some "v0.5.0".toList) start).repo).repo.manifest :=
  c108_again "0.5.0".toList "0.6.0".toList _ _ _
    (c108_left_behind allWell _ _ start (Or.inl rfl) (by rintro (h | h | h) <;> first | cases h | exact h rfl) rfl)
    (c108_left_behind allWell _ _ _ (Or.inl rfl) (by rintro (h | h | h) <;> first | cases h | exact h rfl) rfl)

/-- Changes that are not committed. -/
example : (release { allWell with porcelain := " M x".toList } (some "v0.5.0".toList) start).said =
    ["You have uncommitted changes. Please clean up first."] := by
  rw [c108_says]; decide +kernel

example : versionText ((cargoToml.map String.toList).set 2 (versionLine "0.5.0".toList)) =
    some "ParseEMV 0.5.0\n".toList := by decide +kernel

example := c108_next_version "0.5.0".toList (by decide +kernel) _
  (newVersion_map "v0.5.0".toList (cargoToml.map String.toList))

example := c108_third_line "0.5.0".toList _ (newVersion_map "v0.5.0".toList (cargoToml.map String.toList))

end Examples

end Pemv
