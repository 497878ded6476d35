import Verif.Model.Basic

/-!
# The workflows, .github/workflows/artifacts.yml and .github/workflows/integrity.yml

How GitHub runs them is a contract: a job is run for each of its runners; its steps are begun one after the other, those
with a condition on the runner only there; a step that fails ends the job unless it has `continue-on-error`, and then
the job has failed. With `fail-fast: false` (and in workflows without it, for jobs with one runner) a job that fails does
not stop others. Which steps succeed is an oracle.
-/

namespace Pemv

/-- The runners. -/
inductive RunnerOs where
  | ubuntu | windows
  deriving DecidableEq, Repr

/-- A step. -/
structure WorkStep where
  name : String
  /-- `if: runner.os == …` -/
  only : Option RunnerOs := none
  /-- `continue-on-error` -/
  tolerant : Bool := false
  /-- the artifact `actions/upload-artifact` makes, with `if-no-files-found: error` -/
  upload : Option String := none
  deriving DecidableEq, Repr

/-- A job, and the runners in its matrix. -/
structure WorkJob where
  name : String
  runners : List RunnerOs
  steps : List WorkStep
  deriving DecidableEq, Repr

/-- .github/workflows/artifacts.yml:10-56. -/
def artifactsWorkflow : List WorkJob := [
  ⟨"Build", [.ubuntu, .windows], [
    { name := "Checkout" },
    { name := "Install `nightly` Rust toolchain" },
    { name := "Restore Rust cache" },
    { name := "Cargo Build" },
    { name := "Upload Artifacts (Linux)", only := some .ubuntu, upload := some "ParseEMV (Linux)" },
    { name := "Upload Artifacts (Windows)", only := some .windows, upload := some "ParseEMV (Windows)" }]⟩]

/-- .github/workflows/integrity.yml:10-154. -/
def integrityWorkflow : List WorkJob := [
  ⟨"Rustfmt Check", [.ubuntu], [
    { name := "Checkout" }, { name := "Install `nightly` toolchain" }, { name := "Rustfmt" }]⟩,
  ⟨"Clippy", [.windows, .ubuntu], [
    { name := "Checkout" }, { name := "Install `nightly` toolchain" }, { name := "Restore cache" },
    { name := "Cargo Clippy" }]⟩,
  ⟨"Test", [.ubuntu], [
    { name := "Checkout" }, { name := "Install `nightly` toolchain" }, { name := "Restore cache" },
    { name := "Install Tarpaulin", tolerant := true },
    { name := "Test & Generate Coverage" },
    { name := "Upload HTML Coverage Report", upload := some "Coverage Report" },
    { name := "Upload Codecov Coverage Report" }]⟩,
  ⟨"Misplaced `use` Statements Check", [.ubuntu], [
    { name := "Checkout" }, { name := "Install `nightly` toolchain" }, { name := "Restore cache" },
    { name := "Install Ripgrep" }, { name := "Check For Misplaced `use` Statements" }]⟩]

/-- Which steps succeed, of which job and on which runner. -/
abbrev StepOracle := String → RunnerOs → String → Bool

/-- The steps that are begun. -/
def begunSteps (works : String → Bool) (os : RunnerOs) : List WorkStep → List WorkStep
  | [] => []
  | s :: ss =>
    if s.only.any (· != os) then begunSteps works os ss
    else if works s.name || s.tolerant then s :: begunSteps works os ss
    else [s]

/-- Does a job succeed on a runner? -/
def jobPasses (o : StepOracle) (j : WorkJob) (os : RunnerOs) : Bool :=
  (begunSteps (o j.name os) os j.steps).all (fun s => o j.name os s.name || s.tolerant)

/-- Does a workflow succeed? -/
def workflowPasses (o : StepOracle) (jobs : List WorkJob) : Bool :=
  jobs.all (fun j => j.runners.all (jobPasses o j))

/-- The artifacts that can be downloaded. -/
def artifactsMade (o : StepOracle) (jobs : List WorkJob) : List String :=
  jobs.flatMap (fun j => j.runners.flatMap (fun os =>
    (begunSteps (o j.name os) os j.steps).filterMap (fun s => if o j.name os s.name then s.upload else none)))

/-- Something the compiler or the lints remark: an error or a warning, and whether it is of the group `unused`. -/
structure Remark where
  isError : Bool
  unused : Bool
  deriving DecidableEq, Repr

/-- `cargo clippy`, release.sh:24: fails if there are errors. -/
def clippyAtRelease (rs : List Remark) : Bool := !rs.any (fun r => r.isError)

/-- `cargo clippy -- -D warnings -A unused`, .github/workflows/integrity.yml:56-60: warnings are errors, except those
that are not given at all. -/
def clippyInWorkflow (rs : List Remark) : Bool := !rs.any (fun r => r.isError || !r.unused)

end Pemv
