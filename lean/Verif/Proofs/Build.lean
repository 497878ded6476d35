import Verif.Spec.Build

/-!
# The build script
-/

namespace Pemv

open Spec

theorem buildVar_eq (env dotenv : List (String × Text)) (name : String) :
    buildVar env dotenv name = settingOf env dotenv name := by
  have key : ∀ l : List (String × Text), l.lookup name = (l.find? (fun e => e.1 == name)).map Prod.snd := by
    intro l
    induction l with
    | nil => rfl
    | cons e l ih =>
      rw [List.lookup, List.find?_cons]
      have : (name == e.1) = (e.1 == name) := by
        rw [Bool.eq_iff_iff, beq_iff_eq, beq_iff_eq]; exact eq_comm
      rw [this]
      cases (e.1 == name) with
      | true => rfl
      | false => exact ih
  rw [buildVar, settingOf, List.find?_append, key env, key dotenv]
  cases env.find? (fun e => e.1 == name) <;> rfl

theorem takeWhile_all {α : Type} (p : α → Bool) (l : List α) (h : ∀ a ∈ l, p a = true) : l.takeWhile p = l := by
  induction l with
  | nil => rfl
  | cons a l ih =>
    rw [List.takeWhile_cons, if_pos (h a (by simp)), ih (fun b hb => h b (List.mem_cons_of_mem _ hb))]

/-- Carrying out tasks one after the other. -/
def carry (io : BuildIo) (ts : List Task) : BuildRun :=
  (achieved io ts, ts.all (fun t => (t.result io).isSome))

theorem carry_nil (io : BuildIo) : carry io [] = ([], true) := rfl

theorem carry_cons (io : BuildIo) (t : Task) (ts : List Task) : carry io (t :: ts) =
    BuildRun.andThen (carry io [t]) (carry io ts) := by
  rw [carry, carry, carry, BuildRun.andThen, achieved, achieved, achieved]
  cases h : t.result io <;> simp [h]

theorem andThen_assoc (a b c : BuildRun) : (a.andThen b).andThen c = a.andThen (b.andThen c) := by
  obtain ⟨a, x⟩ := a
  obtain ⟨b, y⟩ := b
  cases x <;> cases y <;> simp [BuildRun.andThen]

theorem andThen_done (a : BuildRun) : a.andThen ([], true) = a := by
  obtain ⟨a, x⟩ := a
  cases x <;> simp [BuildRun.andThen]

theorem carry_append (io : BuildIo) (ts us : List Task) : carry io (ts ++ us) =
    BuildRun.andThen (carry io ts) (carry io us) := by
  induction ts with
  | nil => simp [carry_nil, BuildRun.andThen]
  | cons t ts ih => rw [List.cons_append, carry_cons, ih, carry_cons io t ts, andThen_assoc]

theorem carry_single (io : BuildIo) (t : Task) :
    carry io [t] = match t.result io with
      | some e => ([e], true)
      | none => ([], false) := by
  rw [carry, achieved]
  cases h : t.result io <;> simp [h]

theorem script_carry (io : BuildIo) (s : Shell) (dir : Text) :
    generateShellCompletion io (shellName s) s cliTable dir = carry io [.script s dir] := by
  have e : applicationBinName = "pemv".toList := rfl
  rw [generateShellCompletion, carry_single, Task.result, e]
  cases io.generate s cliTable "pemv".toList dir <;> rfl

theorem man_carry (io : BuildIo) (dir : Text) :
    (if io.render cliTable then
      if io.write dir (applicationBinName ++ ".1".toList) then
        (([.manPage cliTable dir (applicationBinName ++ ".1".toList)], true) : BuildRun)
      else ([], false)
    else ([], false)) = carry io [.man dir] := by
  have e : applicationBinName ++ ".1".toList = "pemv.1".toList := by decide +kernel
  rw [e, carry_single, Task.result]
  generalize "pemv.1".toList = name
  cases h : io.render cliTable <;> cases h' : io.write dir name <;> simp

theorem tell_carry (io : BuildIo) (v : String) : (([.notSpecified v], true) : BuildRun) = carry io [.tell v] := rfl

theorem build_carry (io : BuildIo) (env dotenv : List (String × Text)) :
    buildMain true io env dotenv = carry io (plan env dotenv) := by
  rw [buildMain, if_pos rfl, plan, carry_append, generateManPage, generateShellCompletions, buildVar_eq, buildVar_eq]
  congr 1
  · show (match settingOf env dotenv "MAN_PAGE_OUT_DIR" with | none => _ | some _ => _) = _
    cases settingOf env dotenv "MAN_PAGE_OUT_DIR" with
    | none => exact tell_carry io _
    | some dir => exact man_carry io dir
  · show (match settingOf env dotenv "COMPLETION_SCRIPTS_OUT_DIR" with | none => _ | some _ => _) = _
    cases settingOf env dotenv "COMPLETION_SCRIPTS_OUT_DIR" with
    | none => exact tell_carry io _
    | some dir =>
      show BuildRun.andThen (generateShellCompletion io (shellName .bash) .bash cliTable dir)
        (BuildRun.andThen (generateShellCompletion io (shellName .elvish) .elvish cliTable dir)
        (BuildRun.andThen (generateShellCompletion io (shellName .fish) .fish cliTable dir)
        (BuildRun.andThen (generateShellCompletion io (shellName .powerShell) .powerShell cliTable dir)
        (generateShellCompletion io (shellName .zsh) .zsh cliTable dir)))) = _
      rw [script_carry, script_carry, script_carry, script_carry, script_carry, ← carry_cons, ← carry_cons,
        ← carry_cons, ← carry_cons]

end Pemv
