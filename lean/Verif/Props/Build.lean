import Verif.Proofs.Build

/-!
# C86: the build script
-/

namespace Pemv

open Spec

/-- **C86.** A debug build generates nothing, says nothing and succeeds. -/
theorem c86_debug (io : BuildIo) (env dotenv : List (String × Text)) : buildMain false io env dotenv = ([], true) := rfl

/-- **C86.** A release build does what it is asked for, in order, up to the first failure, and fails if there is one. -/
theorem c86_release (io : BuildIo) (env dotenv : List (String × Text)) :
    (buildMain true io env dotenv).1 = achieved io (plan env dotenv) ∧
    ((buildMain true io env dotenv).2 = true ↔ ∀ t ∈ plan env dotenv, (t.result io).isSome = true) := by
  rw [build_carry]
  exact ⟨rfl, List.all_eq_true⟩

/-- **C86.** A release build that succeeds has done everything. -/
theorem c86_complete (io : BuildIo) (env dotenv : List (String × Text)) (h : (buildMain true io env dotenv).2 = true)
    (t : Task) (ht : t ∈ plan env dotenv) : ∃ e, t.result io = some e ∧ e ∈ (buildMain true io env dotenv).1 := by
  have hall := (c86_release io env dotenv).2.1 h
  obtain ⟨e, he⟩ := Option.isSome_iff_exists.1 (hall t ht)
  refine ⟨e, he, ?_⟩
  rw [(c86_release io env dotenv).1, achieved, List.mem_filterMap]
  refine ⟨some e, ?_, rfl⟩
  rw [takeWhile_all _ _ (fun a ha => by
    obtain ⟨u, hu, rfl⟩ := List.mem_map.1 ha
    exact hall u hu)]
  exact List.mem_map.2 ⟨t, ht, he⟩

/-- The script for fish. -/
example := c86_complete ⟨fun _ => true, fun _ _ => true, fun _ _ _ d => some d⟩
  [("COMPLETION_SCRIPTS_OUT_DIR", "sh".toList)] [] (by decide +kernel) (.script .fish "sh".toList) (by decide +kernel)

/-- **C86.** Without directories a release build succeeds whatever the file system does, names both variables and
generates nothing. -/
theorem c86_no_directories (io : BuildIo) (env dotenv : List (String × Text))
    (h1 : ∀ v, ("MAN_PAGE_OUT_DIR", v) ∉ env ++ dotenv) (h2 : ∀ v, ("COMPLETION_SCRIPTS_OUT_DIR", v) ∉ env ++ dotenv) :
    buildMain true io env dotenv =
      ([.notSpecified "MAN_PAGE_OUT_DIR", .notSpecified "COMPLETION_SCRIPTS_OUT_DIR"], true) := by
  have key : ∀ n : String, (∀ v, (n, v) ∉ env ++ dotenv) → settingOf env dotenv n = none := by
    intro n h
    rw [settingOf, Option.map_eq_none_iff, List.find?_eq_none]
    rintro ⟨k, v⟩ hm he
    have : k = n := by simpa using he
    exact h v (this ▸ hm)
  rw [build_carry, plan, key _ h1, key _ h2]
  rfl

/-- Everything would fail, but there is nothing to do. -/
example := c86_no_directories ⟨fun _ => false, fun _ _ => false, fun _ _ _ _ => none⟩ [("PATH", "/bin".toList)] []
  (fun v => by simp) (fun v => by simp)

/-- **C86.** A variable of the environment wins over the `.env` file. -/
theorem c86_environment_wins (io : BuildIo) (env dotenv dotenv' : List (String × Text))
    (h1 : ∃ v, ("MAN_PAGE_OUT_DIR", v) ∈ env) (h2 : ∃ v, ("COMPLETION_SCRIPTS_OUT_DIR", v) ∈ env) :
    buildMain true io env dotenv = buildMain true io env dotenv' := by
  have key : ∀ n : String, (∃ v, (n, v) ∈ env) → settingOf env dotenv n = settingOf env dotenv' n := by
    rintro n ⟨v, hv⟩
    have : (env.find? (fun e => e.1 == n)).isSome = true := by
      rw [List.find?_isSome]
      exact ⟨_, hv, by simp⟩
    obtain ⟨e, he⟩ := Option.isSome_iff_exists.1 this
    rw [settingOf, settingOf, List.find?_append, List.find?_append, he]
    rfl
  rw [build_carry, build_carry, plan, plan, key _ h1, key _ h2]

/-- Everything works: six files. -/
example : (buildMain true ⟨fun _ => true, fun _ _ => true, fun _ _ _ d => some d⟩
    [("MAN_PAGE_OUT_DIR", "man".toList), ("COMPLETION_SCRIPTS_OUT_DIR", "sh".toList)] []).1.length = 6 := by decide +kernel
/-- Fish cannot be written: the man page and two scripts are there, the build fails. -/
example : (buildMain true ⟨fun _ => true, fun _ _ => true, fun s _ _ d => if s = .fish then none else some d⟩
    [("MAN_PAGE_OUT_DIR", "man".toList)] [("COMPLETION_SCRIPTS_OUT_DIR", "sh".toList)]) =
    ([.manPage cliTable "man".toList "pemv.1".toList, .completion .bash "Bash" cliTable "sh".toList,
      .completion .elvish "Elvish" cliTable "sh".toList], false) := by
  rw [build_carry]; rfl
/-- The man page cannot be written: no script is attempted. -/
example : (buildMain true ⟨fun _ => true, fun _ _ => false, fun _ _ _ d => some d⟩
    [("MAN_PAGE_OUT_DIR", "man".toList), ("COMPLETION_SCRIPTS_OUT_DIR", "sh".toList)] []) = ([], false) := by
  decide +kernel

end Pemv
