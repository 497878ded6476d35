import Verif.Props.Ends

/-!
# C94: the exit status
-/

namespace Pemv

open Spec

/-! ### C94 -/

/-- **C94.** What has been shown, help and version included, is reported as success; a wrong command line is reported as
2 and a panic as 101. The full statement, that success is reported only if what was asked for has been shown, is false:
see `c94_refuted`. -/
theorem c94_status_partial (lib : Library) (m : Machine) (w : World) :
    (∀ c r shown, runProcess lib m w = .ran (.ok (c, r)) → Succeeds r shown → exitStatus lib m w = 0) ∧
    (∀ c r, runProcess lib m w = .ran (.ok (c, r)) → ShowsHelp r → exitStatus lib m w = 0) ∧
    (runProcess lib m w = .version → exitStatus lib m w = 0) ∧
    (runProcess lib m w = .rejected → exitStatus lib m w = 2) ∧
    (Panics (runProcess lib m w) → exitStatus lib m w = 101) := by
  refine ⟨?_, ?_, ?_, ?_, ?_⟩
  · intro c r shown h hs
    simp only [exitStatus, h, hs.shows.returns]
    rfl
  · intro c r h hs
    simp only [exitStatus, h, hs.returns]
    rfl
  · intro h; rw [exitStatus, h]
  · intro h; rw [exitStatus, h]
  · rintro (h | ⟨c, r, h, hp⟩)
    · rw [exitStatus, h]
    · simp only [exitStatus, h, hp]
      rfl

/-- **C94.** The help text is success if an option asks for it, wherever in the command line, and 2 if it is printed
because there are no options. -/
theorem c94_help (lib : Library) (m : Machine) (w : World) :
    (w.args = [] ∨ w.args = ["--".toList] → exitStatus lib m w = 2) ∧
    ∀ us ts gs, AllWritten us ts → us.mapM understand = some gs → .help ∉ gs → .version ∉ gs → NoRepeats gs →
      ∀ n name rest, WrittenAs ⟨n, []⟩ [name] → (n, .help) ∈ optionNames → w.args = ts ++ name :: rest →
      exitStatus lib m w = 0 := by
  have key : ∀ x, (∀ file env profile, executeArgv m file env profile w.isTty w.args = x) → x = .help →
      runProcess lib m w = .help := by
    intro x h hx
    subst hx
    rw [runProcess]
    split
    · exact h _ _ _
    · exact h _ _ _
    · rw [h]
  constructor
  · intro h
    have h1 : runProcess lib m w = .help := by
      refine key .help (fun file env profile => ?_) rfl
      rcases h with h | h
      · rw [h]; exact (c88_empty m file env profile w.isTty).1
      · rw [h]; exact (c88_empty m file env profile w.isTty).2
    have h2 : (lexArgs cliTable none w.args).1 = [] := by
      rcases h with h | h
      · rw [h]; rfl
      · rw [h, dashes]; rfl
    rw [exitStatus, h1]
    simp only [h2, if_pos]
  · intro us ts gs hw hu hh hv hn n name rest hname ho hargs
    have h1 : runProcess lib m w = .help := by
      refine key .help (fun file env profile => ?_) rfl
      rw [hargs]
      exact (c88_help m file env profile w.isTty us ts gs hw hu hh hv hn n name hname rest).1 ho
    have hl := lex_allWritten us ts hw (fun u hu' => (understood_all us gs hu u hu').imp fun _ h => h.1)
      (name :: rest) (Or.inl (written_begins _ _ rest hname))
    have hlk : optionNames.lookup n = some .help :=
      (by decide +kernel : ∀ p ∈ optionNames, optionNames.lookup p.1 = some p.2) _ ho
    have hun : understand ⟨n, []⟩ = some .help := by rw [understand, hlk]; rfl
    rw [← List.singleton_append (x := name), lex_written _ _ rest _ hun hname (Or.inr (Or.inl (maxArgs_eq _)))] at hl
    rw [exitStatus, h1, hargs, ← List.singleton_append (x := name), hl]
    simp

/-- **C94.** An error in the data, with its message on standard error and nothing on standard output, is reported as
success, every time. -/
theorem c94_data_errors (lib : Library) (m : Machine) (w : World) (c : TermColorChoice) (r : Run) (msg : Text)
    (h : runProcess lib m w = .ran (.ok (c, r))) (hf : Fails r msg) : exitStatus lib m w = 0 := by
  simp only [exitStatus, h, hf.returns]
  rfl

/-- **C94.** The other way round: 0 means that nothing panicked and the command line was right, and a process that ends
properly has no other status than 0 and 2. -/
theorem c94_meaning (lib : Library) (m : Machine) (w : World) :
    (exitStatus lib m w = 0 → ¬ Panics (runProcess lib m w) ∧ runProcess lib m w ≠ .rejected) ∧
    (exitStatus lib m w = 2 → runProcess lib m w = .rejected ∨ runProcess lib m w = .help) ∧
    (EndsProperly (runProcess lib m w) → exitStatus lib m w = 0 ∨ exitStatus lib m w = 2) := by
  obtain ⟨-, -, -, h3, h4⟩ := c94_status_partial lib m w
  refine ⟨fun h => ⟨fun hp => ?_, fun hr => ?_⟩, fun h => ?_, fun h => ?_⟩
  · rw [h4 hp] at h; cases h
  · rw [h3 hr] at h; cases h
  · rw [exitStatus] at h
    split at h
    · rename_i e; exact Or.inl e
    · rename_i e; exact Or.inr e
    · cases h
    · split at h <;> cases h
    · cases h
  · obtain ⟨hp, -⟩ := c90_proper _ h
    rw [exitStatus]
    split
    · exact Or.inr rfl
    · split
      · exact Or.inr rfl
      · exact Or.inl rfl
    · exact Or.inl rfl
    · rename_i c r e
      split
      · rename_i hpan
        exact absurd (Or.inr ⟨c, r, e, hpan⟩) hp
      · exact Or.inl rfl
    · rename_i o hno e
      rw [e] at h
      cases h <;> exact absurd rfl (hno _ _)

/-- **C94 does not hold**: whatever the machine and the syntax of configuration files, the request to decode `00` as a
TVR, in surroundings without any configuration, fails with a message and has the status of success. -/
theorem c94_refuted (lib : Library) (m : Machine) :
    ∃ w : World, w.args = ["--tvr=00".toList] ∧ ∃ c r msg, runProcess lib m w = .ran (.ok (c, r)) ∧ Fails r msg ∧
      (¬ ∃ shown, Succeeds r shown) ∧ exitStatus lib m w = 0 := by
  let w : World := ⟨["--tvr=00".toList], [], [], fun _ _ => none, fun _ => none, true⟩
  have hn : ∀ name v, ¬ HasVariable w.vars name v := by
    rintro name v ⟨n, h, -⟩
    cases h
  have hu : Unambiguous w.vars := fun name _ v _ h => absurd h (hn name v)
  have hf : FileIs w none := by
    rw [configFile_iff w hu]
    decide +kernel
  have ha : w.args = ["--".toList ++ "tvr".toList ++ '=' :: ['0', '0']] ++ [] := by decide +kernel
  have hg : [(⟨.long "tvr", [['0', '0']]⟩ : Use)].mapM understand = some [.operation .tvr ['0', '0']] := by decide +kernel
  obtain ⟨ops, hsel, hrun, -⟩ := c89_in_force lib m w hu none hf "default" (Or.inl ⟨fun v => hn _ v, rfl⟩) (fun _ => none)
    (fun k => Or.inl ⟨fun v => hn _ v, rfl⟩) (fun _ _ => none) rfl _ _ (.cons (.longEquals "tvr" ['0', '0']) .nil)
    (Or.inl ha) _ (by simp) hg (by simp) (by simp)
    ⟨Nat.le_refl 1, Nat.zero_le 1, Nat.zero_le 1, fun h => by rcases h with h | h | h <;> exact absurd rfl h⟩ builtIn
    (fun k => by cases k <;> rfl)
  have hr := hrun .auto ['*'] true rfl rfl rfl
  have hf := c58_hex m ops ['*'] true .tvr ['0', '0'] hsel (by decide +kernel)
  obtain ⟨msg, hm⟩ : ∃ msg, hexReport .tvr (hexBytes ['0', '0']) = .error msg := ⟨_, rfl⟩
  rw [hm] at hf
  refine ⟨w, rfl, _, _, msg, hr, hf, ?_, c94_data_errors lib m w _ _ msg hr hf⟩
  rintro ⟨shown, hs⟩
  exact (c57_exclusive _ msg shown).2.2 ⟨hf, hs⟩

/-- Asking for help after an operation. -/
example (lib : Library) : exitStatus lib .debug64
    ⟨["--tvr=00".toList, "-h".toList, "junk".toList], [], [], fun _ _ => none, fun _ => none, true⟩ = 0 := by
  rfl

/-- No options, a wrong one and one without its value. -/
example (lib : Library) (args : List Text) (h : args ∈ [[], ["--nothing".toList], ["--tvr".toList]]) :
    exitStatus lib .debug64 ⟨args, [], [], fun _ _ => none, fun _ => none, true⟩ = 2 := by
  simp only [List.mem_cons, List.not_mem_nil, or_false] at h
  rcases h with rfl | rfl | rfl <;> rfl

/-- A wrong number of bytes. -/
example : exitStatus ⟨fun _ => none, fun _ _ => .bool true⟩ .debug64
    ⟨["--tvr=00".toList], [], [], fun _ _ => none, fun _ => none, false⟩ = 0 := by
  have h : ∃ c r, runProcess ⟨fun _ => none, fun _ _ => .bool true⟩ .debug64
      ⟨["--tvr=00".toList], [], [], fun _ _ => none, fun _ => none, false⟩ = .ran (.ok (c, r)) ∧
      r = run .debug64 { tvr := some "00".toList } ['*'] true := ⟨_, _, rfl, by decide +kernel⟩
  obtain ⟨c, r, h, hr⟩ := h
  refine c94_data_errors _ _ _ c r (message (.byteCountIncorrect .eq 5 1)) h ?_
  rw [hr]
  exact ⟨by decide +kernel, by decide +kernel, by decide +kernel, by decide +kernel, by decide +kernel⟩

end Pemv
