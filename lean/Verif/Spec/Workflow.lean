import Verif.Model.Workflow

/-!
# Specification of the workflows
-/

namespace Pemv.Spec

/-- What has to succeed on a runner for there to be a program for it. -/
def buildSteps : List String := ["Checkout", "Install `nightly` Rust toolchain", "Restore Rust cache", "Cargo Build"]

/-- There is a program for Linux, or for Windows. -/
def ProgramBuilt (o : StepOracle) : RunnerOs → Prop
  | .ubuntu => (∀ s ∈ buildSteps, o "Build" .ubuntu s = true) ∧ o "Build" .ubuntu "Upload Artifacts (Linux)" = true
  | .windows => (∀ s ∈ buildSteps, o "Build" .windows s = true) ∧ o "Build" .windows "Upload Artifacts (Windows)" = true

/-- The name of the program for a runner. -/
def programName : RunnerOs → String
  | .ubuntu => "ParseEMV (Linux)"
  | .windows => "ParseEMV (Windows)"

/-- What has to succeed for the integrity of the project: job, runner and step. -/
def integritySteps : List (String × RunnerOs × String) :=
  (["Checkout", "Install `nightly` toolchain", "Rustfmt"].map (fun s => ("Rustfmt Check", .ubuntu, s))) ++
  (["Checkout", "Install `nightly` toolchain", "Restore cache", "Cargo Clippy"].flatMap (fun s =>
    [("Clippy", .ubuntu, s), ("Clippy", .windows, s)])) ++
  (["Checkout", "Install `nightly` toolchain", "Restore cache", "Test & Generate Coverage",
    "Upload HTML Coverage Report", "Upload Codecov Coverage Report"].map (fun s => ("Test", .ubuntu, s))) ++
  (["Checkout", "Install `nightly` toolchain", "Restore cache", "Install Ripgrep",
    "Check For Misplaced `use` Statements"].map (fun s => ("Misplaced `use` Statements Check", .ubuntu, s)))

end Pemv.Spec
