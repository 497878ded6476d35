import Verif.Proofs.Ignore
import Verif.Props.Build
import Verif.Props.Release

/-!
# C116: what git ignores, and what gets into a release
-/

namespace Pemv

open Spec

/-- **C116.** Exactly the files that are to be ignored are ignored. -/
theorem c116_exact (p : GitPath) : ignored p = true ↔ ToIgnore p := ignored_iff p

/-- Settings of a developer, the program that was built, and a directory of that name elsewhere. -/
example : ignored ["src".toList, ".env".toList] = true ∧ ignored ["target".toList, "release".toList, "pemv".toList] = true ∧
    ignored ["src".toList, "target".toList, "x".toList] = false ∧ ignored ["target".toList] = false := by decide +kernel

/-- **C116.** There is nothing to commit exactly if every file is as in the last commit, new files that are to be
ignored aside. -/
theorem c116_clean (head work : FileTree) : (∀ p, statusTells head work p = false) ↔
    ∀ p, work p = head p ∨ (head p = none ∧ ToIgnore p) := by
  refine forall_congr' fun p => ?_
  rw [← c116_exact, statusTells]
  by_cases he : head p = work p
  · simp [he]
  · cases hh : head p with
    | none =>
      rw [hh] at he
      simp [he, Ne.symm he]
    | some c =>
      rw [hh] at he
      simp [he, Ne.symm he]

example : ∀ p, statusTells (fun _ => none) (fun p => if p = [".env".toList] then some [] else none) p = false :=
  (c116_clean _ _).2 fun p => by
    by_cases h : p = [".env".toList]
    · exact Or.inr ⟨rfl, h ▸ (c116_exact _).1 (by decide +kernel)⟩
    · exact Or.inl (if_neg h)

/-- **C116.** The commit of a release has exactly the files there are, those to be ignored only if they were in the last
commit, too. -/
theorem c116_commit (head work : FileTree) (p : GitPath) (c : Text) :
    addAll head work p = some c ↔ work p = some c ∧ ((∃ c', head p = some c') ∨ ¬ ToIgnore p) := by
  rw [← c116_exact, addAll]
  cases hh : head p with
  | none => cases hi : ignored p <;> simp
  | some c' => simp

example : addAll (fun _ => none) (fun _ => some ['x']) ["a.rs".toList] = some ['x'] ∧
    addAll (fun _ => none) (fun _ => some ['x']) ["a.rs.bk".toList] = none := by decide +kernel

/-- **C116.** Private settings are not told of and do not get into a release, wherever the file is, if they are not in
the last commit already. -/
theorem c116_private (head work : FileTree) (p : GitPath) (hp : ".env".toList ∈ p) (hh : head p = none) :
    statusTells head work p = false ∧ addAll head work p = none := by
  obtain ⟨above, rest, rfl⟩ := List.append_of_mem hp
  have hi := (c116_exact _).2 (ToIgnore.named above ".env".toList rest (Or.inl (by decide +kernel)))
  rw [statusTells, addAll, hh, hi]
  exact ⟨Bool.and_false _, rfl⟩

example (work : FileTree) := c116_private (fun _ => none) work ["tools".toList, ".env".toList] (by decide +kernel) rfl

/-- **C116.** Other common names of such files are not ignored: they get into a release if they are there when it is
made. -/
theorem c116_false : ∀ n ∈ [".env.local", "prod.env", ".envrc", ".ENV"], ∀ c,
    ignored [n.toList] = false ∧ addAll (fun _ => none) (fun _ => some c) [n.toList] = some c := by
  have h : ∀ n ∈ [".env.local", "prod.env", ".envrc", ".ENV"], ignored [n.toList] = false := by decide +kernel
  intro n hn c
  exact ⟨h n hn, by simp [addAll, h n hn]⟩

/-- **C116.** But the script refuses to begin if they are there: it refuses exactly if a file is not as in the last commit
and not one that is new and to be ignored. Then nothing is changed. -/
theorem c116_refuses (t : Tools) (tag : Text) (r : Repo) (head work : FileTree)
    (ht : t.porcelain = [] ↔ ∀ p, statusTells head work p = false)
    (h : ¬ ∀ p, work p = head p ∨ (head p = none ∧ ToIgnore p)) :
    (release t (some tag) r).repo = r ∧ (release t (some tag) r).status = 0 ∧ ¬ SaysSuccess (release t (some tag) r) := by
  rw [← c116_clean, ← ht] at h
  obtain ⟨h1, h2⟩ := c108_refused t (some tag) r (Or.inr (Or.inr h))
  refine ⟨h1, ?_, h2⟩
  unfold release
  by_cases hn : (some tag).getD [] = []
  · rw [if_pos hn]
  · rw [if_neg hn, if_pos h]

/-- A file of that kind, with a tag. -/
example (r : Repo) := c116_refuses ⟨"?? prod.env".toList, 0, 0, 0, 0, [], 0, 0, [], 0, 0⟩ "v1.0.0".toList r (fun _ => none)
  (fun p => if p = ["prod.env".toList] then some [] else none)
  ⟨fun h => absurd h (by decide), fun h => absurd (h ["prod.env".toList]) (by decide +kernel)⟩
  (fun h => by
    rcases h ["prod.env".toList] with h | ⟨-, h⟩
    · exact absurd h (by decide +kernel)
    · exact absurd ((c116_exact _).2 h) (by decide +kernel))

/-- The files the script and the commands in it change: the manifest, the list of changes, and the versions in use. -/
def releaseFiles : List GitPath := [["Cargo.toml".toList], ["CHANGELOG.md".toList], ["Cargo.lock".toList]]

/-- **C116.** If there was nothing to commit, and from then on nothing else changes but files that are new and to be
ignored (such as those in `target`), the commit of the release differs from the one before in the three files at most. -/
theorem c116_release (head work after : FileTree) (hc : ∀ p, statusTells head work p = false)
    (ha : ∀ p, p ∉ releaseFiles → after p = work p ∨ (head p = none ∧ ToIgnore p)) (p : GitPath) (hp : p ∉ releaseFiles) :
    addAll head after p = head p := by
  rcases ha p hp with h | ⟨h, hi⟩
  · rcases (c116_clean head work).1 hc p with h' | ⟨h', hi⟩
    · rw [addAll, h, h']
      cases hh : head p <;> simp
    · rw [addAll, h', (c116_exact p).2 hi]; rfl
  · rw [addAll, h, (c116_exact p).2 hi]; rfl

/-- Lints leave something in `target`. -/
example (head : FileTree) (hh : head ["target".toList, "x".toList] = none) :=
  c116_release head head (fun p => if p = ["target".toList, "x".toList] then some [] else head p)
    ((c116_clean head head).2 fun _ => Or.inl rfl) (fun p _ => by
      by_cases h : p = ["target".toList, "x".toList]
      · exact Or.inr (h ▸ ⟨hh, .built _ _ _ (by decide +kernel)⟩)
      · exact Or.inl (if_neg h)) ["README.md".toList] (by decide +kernel)

/-- The file a step of the build leaves behind, in the directory it is run in. -/
def fileOf : BuildEv → Option GitPath
  | .notSpecified _ => none
  | .manPage _ dir name => some (pathNames dir ++ [name])
  | .completion _ _ _ path => some (pathNames path)

/-- **C116.** A build does not get in the way of a release: if its files go to `install_integrations` or below, they are
ignored. (The generator of completion scripts is taken to put them into the directory it is given.) -/
theorem c116_build (mode : Bool) (io : BuildIo) (env dotenv : List (String × Text))
    (hgen : ∀ s d bin dir path, io.generate s d bin dir = some path → ∃ name, pathNames path = pathNames dir ++ [name])
    (hdir : ∀ v ∈ ["MAN_PAGE_OUT_DIR", "COMPLETION_SCRIPTS_OUT_DIR"], ∀ dir, settingOf env dotenv v = some dir →
      dir.head? ≠ some '/' ∧ ∃ sub, pathNames dir = "install_integrations".toList :: sub ∧ "..".toList ∉ sub)
    (e : BuildEv) (he : e ∈ (buildMain mode io env dotenv).1) (p : GitPath) (hp : fileOf e = some p) :
    ignored p = true := by
  rw [c116_exact]
  have built : ∀ sub name, ToIgnore (("install_integrations".toList :: sub) ++ [name]) := by
    intro sub name
    cases sub with
    | nil => exact .built _ _ _ (by decide +kernel)
    | cons x xs => exact .built _ _ _ (by decide +kernel)
  cases mode with
  | false => cases he
  | true =>
    rw [(c86_release io env dotenv).1, achieved, List.mem_filterMap] at he
    obtain ⟨o, ho, heq⟩ := he
    obtain ⟨t, ht, htr⟩ := List.mem_map.1 ((List.takeWhile_subset _) ho)
    subst htr
    simp only [id_eq] at heq
    have hset : (∀ dir, t = .man dir → settingOf env dotenv "MAN_PAGE_OUT_DIR" = some dir) ∧
        ∀ s dir, t = .script s dir → settingOf env dotenv "COMPLETION_SCRIPTS_OUT_DIR" = some dir := by
      rw [plan] at ht
      cases h1 : settingOf env dotenv "MAN_PAGE_OUT_DIR" <;> cases h2 : settingOf env dotenv "COMPLETION_SCRIPTS_OUT_DIR" <;>
        simp only [h1, h2, List.mem_append, List.mem_cons, List.not_mem_nil, or_false] at ht <;>
        constructor <;> intros <;> subst_vars <;> simp_all <;>
        rcases ht with ⟨-, h⟩ | ⟨-, h⟩ | ⟨-, h⟩ | ⟨-, h⟩ | ⟨-, h⟩ <;> exact h.symm
    cases t with
    | tell v =>
      simp only [Task.result, Option.some.injEq] at heq
      subst heq
      cases hp
    | man dir =>
      obtain ⟨-, sub, hsub, -⟩ := hdir _ (by simp) dir (hset.1 dir rfl)
      simp only [Task.result] at heq
      split at heq
      · cases heq
        cases hp
        rw [hsub]
        exact built _ _
      · cases heq
    | script s dir =>
      obtain ⟨-, sub, hsub, -⟩ := hdir _ (by simp) dir (hset.2 s dir rfl)
      rw [Task.result, Option.map_eq_some_iff] at heq
      obtain ⟨path, hpath, rfl⟩ := heq
      obtain ⟨name, hname⟩ := hgen _ _ _ _ _ hpath
      cases hp
      rw [hname, hsub]
      exact built _ _

/-- The man page. -/
example := c116_build true ⟨fun _ => true, fun _ _ => true, fun _ _ _ _ => none⟩
  [("MAN_PAGE_OUT_DIR", "install_integrations".toList)] [] (fun _ _ _ _ _ h => nomatch h)
  (fun v hv dir h => by
    simp only [List.mem_cons, List.not_mem_nil, or_false] at hv
    rcases hv with rfl | rfl
    · have : dir = "install_integrations".toList := by
        have e : settingOf [("MAN_PAGE_OUT_DIR", "install_integrations".toList)] [] "MAN_PAGE_OUT_DIR" =
          some "install_integrations".toList := by decide +kernel
        rw [e] at h; exact (Option.some.inj h).symm
      subst this
      exact ⟨by decide +kernel, [], by decide +kernel, by simp⟩
    · have e : settingOf [("MAN_PAGE_OUT_DIR", "install_integrations".toList)] [] "COMPLETION_SCRIPTS_OUT_DIR" = none := by
        decide +kernel
      rw [e] at h; cases h)
  (.manPage cliTable "install_integrations".toList "pemv.1".toList) (by decide +kernel)

/-- **C116.** With a directory elsewhere in the repository the release is refused from then on. -/
theorem c116_build_elsewhere : ignored (pathNames "man".toList ++ ["pemv.1".toList]) = false ∧
    ignored (pathNames "target".toList ++ ["pemv.1".toList]) = true := by decide +kernel

/-- The files of the repository. -/
def repositoryFiles : List String := [
  ".gitattributes", ".github/workflows/artifacts.yml", ".github/workflows/integrity.yml",
  ".gitignore", "CHANGELOG.md", "Cargo.lock",
  "Cargo.toml", "LICENSE-APACHE", "LICENSE-MIT",
  "README.md", "build.rs", "cliff.toml",
  "references/ServiceCodeChart.jpg", "release.sh", "rustfmt.toml",
  "src/cli.rs", "src/config/colour_choice.rs", "src/config/mod.rs",
  "src/emv/additional_terminal_capabilities.rs", "src/emv/authorisation_response_code.rs", "src/emv/bitflag_values.rs",
  "src/emv/ccd/cci.rs", "src/emv/ccd/cvr.rs", "src/emv/ccd/iad.rs",
  "src/emv/ccd/mod.rs", "src/emv/cv_rule/cv_method.rs", "src/emv/cv_rule/cvm_condition.rs",
  "src/emv/cv_rule/mod.rs", "src/emv/cvm_list.rs", "src/emv/cvm_results.rs",
  "src/emv/iac/default.rs", "src/emv/iac/denial.rs", "src/emv/iac/mod.rs",
  "src/emv/iac/online.rs", "src/emv/mod.rs", "src/emv/pos_entry_mode.rs",
  "src/emv/tag_basic_info.rs", "src/emv/terminal_capabilities.rs", "src/emv/terminal_type.rs",
  "src/emv/tlv_parsing/auto_tlv.rs", "src/emv/tlv_parsing/ber_tlv.rs", "src/emv/tlv_parsing/ingenico_tlv.rs",
  "src/emv/tlv_parsing/mod.rs", "src/emv/tlv_parsing/process_emv_tag.rs", "src/emv/transaction_type.rs",
  "src/emv/tsi.rs", "src/emv/tvr.rs", "src/error.rs",
  "src/macros.rs", "src/main.rs", "src/non_emv/mod.rs",
  "src/non_emv/service_code.rs", "src/output_colours.rs", "src/testing_macros.rs",
  "src/util.rs"]

/-- **C116.** None of the files of the repository is ignored. -/
theorem c116_files : ∀ f ∈ repositoryFiles, ignored (pathNames f.toList) = false := by decide +kernel

example : pathNames "src/emv/tvr.rs".toList = ["src".toList, "emv".toList, "tvr.rs".toList] := by decide +kernel

end Pemv
