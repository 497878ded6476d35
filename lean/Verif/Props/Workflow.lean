import Verif.Proofs.Workflow
import Verif.Props.Build
import Verif.Props.Ci
import Verif.Props.Release

/-!
# C117: what the workflows guarantee
-/

namespace Pemv

open Spec

/-- **C117.** The program for an operating system can be downloaded exactly if it was built there; what happens on the
other one makes no difference. Nothing else can be downloaded, and nothing under a name that is used twice. -/
theorem c117_programs (o : StepOracle) :
    (∀ os, programName os ∈ artifactsMade o artifactsWorkflow ↔ ProgramBuilt o os) ∧
    (∀ a ∈ artifactsMade o artifactsWorkflow, ∃ os, a = programName os) ∧
    (artifactsMade o artifactsWorkflow).Nodup := by
  have key : artifactsMade o artifactsWorkflow =
      (if (buildSteps.all (o "Build" .ubuntu) && o "Build" .ubuntu "Upload Artifacts (Linux)") = true then [programName .ubuntu] else []) ++
      (if (buildSteps.all (o "Build" .windows) && o "Build" .windows "Upload Artifacts (Windows)") = true then [programName .windows] else []) := by
    simp only [artifactsMade, artifactsWorkflow, List.flatMap_cons, List.flatMap_nil, List.append_nil]
    congr 1
    · generalize o "Build" .ubuntu = w
      simp only [begunSteps, buildSteps, List.all_cons, List.all_nil, Option.any, Bool.and_true, Bool.or_false, programName]
      cases w "Checkout" <;> cases w "Install `nightly` Rust toolchain" <;> cases w "Restore Rust cache" <;>
        cases w "Cargo Build" <;> cases h : w "Upload Artifacts (Linux)" <;> simp [h]
    · generalize o "Build" .windows = w
      simp only [begunSteps, buildSteps, List.all_cons, List.all_nil, Option.any, Bool.and_true, Bool.or_false, programName]
      cases w "Checkout" <;> cases w "Install `nightly` Rust toolchain" <;> cases w "Restore Rust cache" <;>
        cases w "Cargo Build" <;> cases h : w "Upload Artifacts (Windows)" <;> simp [h]
  have hb : ∀ os, ProgramBuilt o os ↔ (match os with
      | .ubuntu => (buildSteps.all (o "Build" .ubuntu) && o "Build" .ubuntu "Upload Artifacts (Linux)") = true
      | .windows => (buildSteps.all (o "Build" .windows) && o "Build" .windows "Upload Artifacts (Windows)") = true) := by
    intro os
    cases os <;> simp only [ProgramBuilt, Bool.and_eq_true, List.all_eq_true]
  have hne : programName .ubuntu ≠ programName .windows := by decide
  rw [key]
  refine ⟨fun os => ?_, fun a ha => ?_, ?_⟩
  · rw [hb]
    cases os
    · split <;> split <;> simp_all [programName]
    · split <;> split <;> simp_all [programName]
  · rcases List.mem_append.1 ha with h | h <;> split at h
    · exact ⟨.ubuntu, by simpa using h⟩
    · cases h
    · exact ⟨.windows, by simpa using h⟩
    · cases h
  · split <;> split <;> simp [hne]

/-- The build fails on Windows. -/
example : artifactsMade (fun _ os s => !(os == .windows && s == "Cargo Build")) artifactsWorkflow = ["ParseEMV (Linux)"] := by
  decide +kernel

/-- **C117.** The workflow for artifacts succeeds exactly if both programs can be downloaded. -/
theorem c117_artifacts (o : StepOracle) : workflowPasses o artifactsWorkflow = true ↔
    ∀ os, programName os ∈ artifactsMade o artifactsWorkflow := by
  have hos : ∀ P : RunnerOs → Prop, (∀ os, P os) ↔ P .ubuntu ∧ P .windows :=
    fun P => ⟨fun h => ⟨h _, h _⟩, fun h os => by cases os; exact h.1; exact h.2⟩
  rw [hos, (c117_programs o).1, (c117_programs o).1]
  simp only [workflowPasses, artifactsWorkflow, jobPasses, List.all_cons, List.all_nil, Bool.and_true, Bool.and_eq_true,
    all_begunSteps, ProgramBuilt, buildSteps]
  simp [Option.any, and_assoc]

example : workflowPasses (fun _ _ _ => true) artifactsWorkflow = true := by decide +kernel

/-- **C117.** The workflow for integrity succeeds exactly if every step does but one: whether Tarpaulin can be installed
makes no difference. -/
theorem c117_integrity (o : StepOracle) : workflowPasses o integrityWorkflow = true ↔
    ∀ x ∈ integritySteps, o x.1 x.2.1 x.2.2 = true := by
  simp only [workflowPasses, integrityWorkflow, jobPasses, List.all_cons, List.all_nil, Bool.and_true, Bool.and_eq_true,
    all_begunSteps, integritySteps]
  simp [Option.any]
  constructor
  · rintro ⟨⟨a1, a2, a3⟩, ⟨⟨b1, b2, b3, b4⟩, c1, c2, c3, c4⟩, d, e⟩
    simp_all
  · intro h
    simp_all

/-- Only Tarpaulin cannot be installed; and only ripgrep. -/
example : workflowPasses (fun _ _ s => s != "Install Tarpaulin") integrityWorkflow = true ∧
    workflowPasses (fun _ _ s => s != "Install Ripgrep") integrityWorkflow = false := by decide +kernel

/-- **C117.** If the workflow for integrity succeeds on files that can all be read, none of them has a line that begins
with `use` above the header. -/
theorem c117_use (o : StepOracle) (files : List SourceFile)
    (ho : o "Misplaced `use` Statements Check" .ubuntu "Check For Misplaced `use` Statements" = useCheckPasses files)
    (hr : ∀ f ∈ files, ∀ name, f.name = name ++ ".rs".toList → f.content ≠ none)
    (h : workflowPasses o integrityWorkflow = true) :
    ¬ ∃ f ∈ files, ∃ name s, f.name = name ++ ".rs".toList ∧ f.content = some s ∧
      Above BeginsWithUse (fun l => l = usesHeader) s := by
  refine (c113_passes files hr).1 ?_
  rw [← ho]
  exact (c117_integrity o).1 h ("Misplaced `use` Statements Check", .ubuntu, "Check For Misplaced `use` Statements")
    (by simp [integritySteps])

/-- One file, in order. -/
example := c117_use (fun _ _ _ => true) [⟨"a.rs".toList, some "// Uses\nuse a;".toList⟩] (by decide +kernel)
  (fun f hf _ _ => by rw [List.mem_singleton.1 hf]; simp) (by decide +kernel)

/-- **C117.** What passes the lints of the workflow passes those of the release script; conversely, what can be released
fails the workflow exactly if there is a warning other than of something unused. -/
theorem c117_lints (rs : List Remark) :
    (clippyInWorkflow rs = true → clippyAtRelease rs = true) ∧
    (clippyAtRelease rs = true → (clippyInWorkflow rs = false ↔ ∃ r ∈ rs, r.isError = false ∧ r.unused = false)) := by
  simp only [clippyInWorkflow, clippyAtRelease, Bool.not_eq_true', Bool.not_eq_false', List.any_eq_false, List.any_eq_true,
    Bool.or_eq_true, Bool.not_eq_true']
  refine ⟨fun h r hr he => h r hr (Or.inl he), fun h => ⟨?_, ?_⟩⟩
  · rintro ⟨r, hr, he⟩
    have := h r hr
    exact ⟨r, hr, by simpa using this, he.resolve_left this⟩
  · rintro ⟨r, hr, -, hu⟩
    exact ⟨r, hr, Or.inr hu⟩

/-- A release that the workflow for integrity rejects afterwards. -/
example : clippyAtRelease [⟨false, false⟩] = true ∧ clippyInWorkflow [⟨false, false⟩] = false := by decide

/-- **C117.** So a release that succeeds can be one for which the workflow fails. -/
theorem c117_false (r : Repo) (tag : Text) (ht : tag ≠ []) : ∃ (t : Tools) (o : StepOracle) (rs : List Remark),
    (t.clippy = 0 ↔ clippyAtRelease rs = true) ∧ (∀ os, o "Clippy" os "Cargo Clippy" = clippyInWorkflow rs) ∧
    SaysSuccess (release t (some tag) r) ∧ workflowPasses o integrityWorkflow = false := by
  refine ⟨⟨[], 0, 0, 0, 0, [], 0, 0, [], 0, 0⟩, fun _ _ s => s != "Cargo Clippy", [⟨false, false⟩], by decide, fun os => by cases os <;> decide,
    ?_, by decide +kernel⟩
  rw [c108_success_iff]
  refine ⟨?_, rfl, rfl, rfl, rfl, rfl, rfl⟩
  rintro (h | h | h)
  · cases h
  · exact ht (Option.some.inj h)
  · exact h rfl

example (r : Repo) := c117_false r "v0.4.3".toList (by decide)

/-- **C117.** The programs are built for release, without the variables of the build script and without a `.env` file,
which is not in the repository (C116): whatever the file system does, the build script succeeds and writes no files. -/
theorem c117_script (io : BuildIo) (env : List (String × Text)) (h : ∀ v ∈ env, v.1 ∉ ["MAN_PAGE_OUT_DIR", "COMPLETION_SCRIPTS_OUT_DIR"]) :
    buildMain true io env [] = ([.notSpecified "MAN_PAGE_OUT_DIR", .notSpecified "COMPLETION_SCRIPTS_OUT_DIR"], true) :=
  c86_no_directories io env [] (fun v hv => h _ (by simpa using hv) (by simp)) (fun v hv => h _ (by simpa using hv) (by simp))

example (io : BuildIo) := c117_script io [("CARGO_TERM_COLOR", "always".toList)] (by decide)

end Pemv
