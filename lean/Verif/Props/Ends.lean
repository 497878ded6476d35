import Verif.Proofs.Ends
import Verif.Props.World
import Verif.Props.Builds
import Verif.Proofs.CliOrder

/-!
# C90: every process ends properly
-/

namespace Pemv

open Spec

/-- **C90.** On 64-bit targets the program ends properly, whatever its arguments are, if the configuration file can be
understood and the settings in it and in the environment have the right types. If overflows are checked, the arguments
have to be shorter than 510 characters. -/
theorem c90_ends (lib : Library) (m : Machine) (hm : m.usizeBits = 64) (w : World) (hu : Unambiguous w.vars)
    (content : Option Text) (hf : FileIs w content) (env : Dict) (he : ∀ k, VariableIs lib w.vars k (env k)) (file : FigData)
    (hfile : match content with | none => file = fun _ _ => none | some text => lib.toml text = some file)
    (ht : WellTyped file env) (hlen : ∀ a ∈ w.args, a.length < 2 ^ 63)
    (hd : m.overflowChecks = false ∨ ∀ a ∈ w.args, a.length < 510) : EndsProperly (runProcess lib m w) := by
  obtain ⟨-, ⟨profile, hp, -⟩, -⟩ := c89_determined lib w hu
  have hrun : runProcess lib m w = executeArgv m file env (some profile) w.isTty w.args := by
    have := c89_surroundings lib m w hu content hf profile hp env he
    cases content with
    | none => simp only at hfile; rw [this.1 rfl, hfile]
    | some text => exact (this.2 text rfl).1 file hfile
  rw [hrun]
  cases hex : executeArgv m file env (some profile) w.isTty w.args with
  | rejected => exact .rejected
  | help => exact .help
  | version => exact .version
  | ran x =>
    obtain ⟨us, ts, hw, hargs, hx⟩ := c88_only m file env (some profile) w.isTty w.args x hex
    obtain ⟨⟨c, r⟩, rfl⟩ := c70_no_panic m file env (some profile) w.isTty ht us x hx
    obtain ⟨gs, hne, h, hh, hv, hc⟩ := execute_ran m file env (some profile) w.isTty us _ hx
    obtain ⟨ops, hsel, h1, -⟩ := c70_runs m file env (some profile) w.isTty us gs hne h hh hv hc
    have hty := valueInForce_rightType file env (some profile) gs ht
    obtain ⟨v1, h2, t1⟩ := hty .cliColour
    obtain ⟨v2, h3, t2⟩ := hty .maskingCharacters
    obtain ⟨v3, h4, t3⟩ := hty .sortParsedTags
    obtain ⟨colour, rfl⟩ := rightType_colour t1
    obtain ⟨masks, rfl⟩ := rightType_masks t2
    obtain ⟨sort, rfl⟩ := rightType_sort t3
    have hr := h1 colour masks sort h2 h3 h4
    rw [hx] at hr
    cases hr
    have hlong : ∀ p, selected ops = some p → ∃ a ∈ w.args, p.2.length ≤ a.length := by
      intro p hps
      rw [hsel] at hps
      obtain ⟨u, hu1, hu2⟩ := operation_from us gs h p.1 p.2 (List.mem_of_mem_head? hps)
      obtain ⟨t, ht1, ht2⟩ := allWritten_length us ts hw u hu1 p.2 hu2
      refine ⟨t, ?_, ht2⟩
      rcases hargs with e | e
      · rw [e]; exact ht1
      · rw [e]; exact List.mem_append_left _ ht1
    have hfit : ∀ p, selected ops = some p → Fits m p.2.length := by
      intro p hps
      obtain ⟨a, ha1, ha2⟩ := hlong p hps
      exact c16_fits_64 hm _ (by have := hlen a ha1; omega)
    have hshort : m.overflowChecks = false ∨ ∀ p, selected ops = some p → p.2.length < 510 := by
      refine hd.imp id (fun h' p hps => ?_)
      obtain ⟨a, ha1, ha2⟩ := hlong p hps
      have := h' a ha1
      omega
    rcases c57_outcome m ops masks sort hfit hshort with ⟨h5, -⟩ | ⟨e, h5⟩ | ⟨ls, h5⟩
    · exact .noOperation _ _ h5
    · exact .fails _ _ e h5
    · exact .succeeds _ _ ls h5

/-- **C90.** To end properly is not to panic, and the program comes to an end. -/
theorem c90_proper (e : Execution) (h : EndsProperly e) :
    ¬ Panics e ∧ ∀ c r, e = .ran (.ok (c, r)) → r.diverged = false := by
  cases h with
  | rejected => exact ⟨(by rintro (h | ⟨_, _, h, -⟩) <;> cases h), (by intro c r h; cases h)⟩
  | help => exact ⟨(by rintro (h | ⟨_, _, h, -⟩) <;> cases h), (by intro c r h; cases h)⟩
  | version => exact ⟨(by rintro (h | ⟨_, _, h, -⟩) <;> cases h), (by intro c r h; cases h)⟩
  | noOperation c r h =>
    refine ⟨?_, ?_⟩
    · rintro (h' | ⟨_, _, h', hp⟩)
      · cases h'
      · cases h'; rw [h.returns] at hp; cases hp
    · intro c' r' h'; cases h'; exact h.terminates
  | fails c r e h =>
    refine ⟨?_, ?_⟩
    · rintro (h' | ⟨_, _, h', hp⟩)
      · cases h'
      · cases h'; rw [h.returns] at hp; cases hp
    · intro c' r' h'; cases h'; exact h.terminates
  | succeeds c r ls h =>
    refine ⟨?_, ?_⟩
    · rintro (h' | ⟨_, _, h', hp⟩)
      · cases h'
      · cases h'; rw [h.shows.returns] at hp; cases hp
    · intro c' r' h'; cases h'; exact h.terminates

/-- Help that is asked for. -/
example : ¬ Panics .help := (c90_proper .help .help).1

/-- **C90.** These are all the causes of a panic on 64-bit targets: a configuration file that is not understood, a setting
of the wrong type in the environment or in the file, and, if overflows are checked, an argument of 510 or more
characters (it has to be a block nested more than 254 levels deep, by `c57_panic`). -/
theorem c90_causes (lib : Library) (m : Machine) (hm : m.usizeBits = 64) (w : World) (hu : Unambiguous w.vars)
    (hlen : ∀ a ∈ w.args, a.length < 2 ^ 63) (h : Panics (runProcess lib m w)) :
    (∃ text, FileIs w (some text) ∧ lib.toml text = none) ∨
    (∃ k v, ¬ RightType k v ∧ (VariableIs lib w.vars k (some v) ∨
      ∃ text file section', FileIs w (some text) ∧ lib.toml text = some file ∧ file section' k = some v)) ∨
    (m.overflowChecks = true ∧ ∃ a ∈ w.args, 510 ≤ a.length) := by
  obtain ⟨⟨content, hf, -⟩, -, henv⟩ := c89_determined lib w hu
  have he := fun k => (Classical.choose_spec (henv k)).1
  generalize hE : (fun k => Classical.choose (henv k)) = env at he
  have he' : ∀ k, VariableIs lib w.vars k (env k) := by
    intro k; rw [← hE]; exact he k
  apply Classical.byContradiction
  intro hno
  simp only [not_or] at hno
  obtain ⟨n1, n2, n3⟩ := hno
  have hd : m.overflowChecks = false ∨ ∀ a ∈ w.args, a.length < 510 := by
    cases hc : m.overflowChecks with
    | false => exact Or.inl rfl
    | true =>
      refine Or.inr (fun a ha => ?_)
      apply Nat.lt_of_not_le
      exact fun hle => n3 ⟨hc, a, ha, hle⟩
  have hvars : ∀ k v, env k = some v → RightType k v := by
    intro k v hv
    apply Classical.byContradiction
    intro hr
    exact n2 ⟨k, v, hr, Or.inl (hv ▸ he' k)⟩
  cases content with
  | none =>
    have := c90_ends lib m hm w hu none hf env he' (fun _ _ => none) rfl
      ⟨hvars, fun p k v hv => by cases hv⟩ hlen hd
    exact (c90_proper _ this).1 h
  | some text =>
    cases htoml : lib.toml text with
    | none => exact n1 ⟨text, hf, htoml⟩
    | some file =>
      have := c90_ends lib m hm w hu (some text) hf env he' file htoml
        ⟨hvars, fun p k v hv => by
          apply Classical.byContradiction
          intro hr
          exact n2 ⟨k, v, hr, Or.inr ⟨text, file, p, hf, htoml, hv⟩⟩⟩ hlen hd
      exact (c90_proper _ this).1 h

/-- **C90.** The causes do occur. With a file that is not understood every request that makes sense panics; for the
others see `c89_in_force` and `c55_false`. -/
theorem c90_bad_file (lib : Library) (m : Machine) (w : World) (hu : Unambiguous w.vars) (text : Text)
    (hf : FileIs w (some text)) (hb : lib.toml text = none) (us : List Use) (ts : List Text) (hw : AllWritten us ts)
    (hargs : w.args = ts) (gs : List Given) (hne : us ≠ []) (h : us.mapM understand = some gs) (hh : .help ∉ gs)
    (hv : .version ∉ gs) (hc : Consistent gs) : Panics (runProcess lib m w) := by
  obtain ⟨-, ⟨profile, hp, -⟩, henv⟩ := c89_determined lib w hu
  have he := fun k => (Classical.choose_spec (henv k)).1
  generalize hE : (fun k => Classical.choose (henv k)) = env at he
  have he' : ∀ k, VariableIs lib w.vars k (env k) := by
    intro k; rw [← hE]; exact he k
  have h1 := ((c89_surroundings lib m w hu (some text) hf profile hp env he').2 text rfl).2 hb
  have h2 := (c88_styles m (fun _ _ => none) env (some profile) w.isTty us ts hw
    (fun u hu' => (understood_all us gs h u hu').imp fun _ h => h.1)).1
  rw [hargs, h2] at h1
  have hs : ∀ g ∈ gs, endsReading g = false := fun g hg => ends_iff g (fun e => hh (e ▸ hg)) (fun e => hv (e ▸ hg))
  obtain ⟨c, hcfg, -, -⟩ := cliConfigOf_eq us gs h hc.sorting
  rw [execute_eq m _ env (some profile) w.isTty us gs hne h hs hc c hcfg] at h1
  exact Or.inl h1

/-- Surroundings as they usually are, and a request. -/
example : ∃ w : World, w.args = ["--tvr".toList, "8000000000".toList] ∧ Unambiguous w.vars ∧ FileIs w none ∧
    ∀ lib, EndsProperly (runProcess lib .debug64 w) := by
  let w : World := ⟨["--tvr".toList, "8000000000".toList], [], [['a'], ['b']], fun _ _ => none, fun _ => none, true⟩
  have hu : Unambiguous w.vars := by
    intro name hn v v' h
    obtain ⟨n, h, -⟩ := h
    cases h
  have hf : FileIs w none := by
    rw [configFile_iff w hu]
    decide +kernel
  refine ⟨w, rfl, hu, hf, fun lib => ?_⟩
  have hn : ∀ name v, ¬ HasVariable w.vars name v := by
    rintro name v ⟨n, h, -⟩
    cases h
  exact c90_ends lib .debug64 rfl w hu none hf (fun _ => none)
    (fun k => Or.inl ⟨fun v => hn _ v, rfl⟩) _ rfl ⟨fun k v h => (by cases h), fun p k v h => (by cases h)⟩
    (by decide +kernel) (Or.inr (by decide +kernel))

/-- The same request with a configuration file that is not understood. -/
example (lib : Library) (text : Text) (hb : lib.toml text = none) : ∃ w : World, w.args = ["--".toList ++ "tvr".toList, "8000000000".toList] ∧
    FileIs w (some text) ∧ Panics (runProcess lib .debug64 w) := by
  let w : World := ⟨["--".toList ++ "tvr".toList, "8000000000".toList], [], [['a'], ['b']], fun _ _ => some text, fun _ => none, true⟩
  have hu : Unambiguous w.vars := by
    intro name hn v v' h
    obtain ⟨n, h, -⟩ := h
    cases h
  have hf : FileIs w (some text) := by
    rw [configFile_iff w hu]
    rfl
  refine ⟨w, rfl, hf, ?_⟩
  have hd : ∀ v ∈ ["8000000000".toList], StandsAlone v := fun v hv => by
    rcases List.mem_singleton.1 hv with rfl
    exact Or.inr (by decide +kernel)
  exact c90_bad_file lib .debug64 w hu text hf hb [⟨.long "tvr", ["8000000000".toList]⟩] _ (.cons (.long "tvr" _ hd) .nil) rfl
    [.operation .tvr "8000000000".toList] (by simp) (by decide +kernel) (by simp) (by simp)
    ⟨by decide +kernel, by decide +kernel, by decide +kernel, fun h => by rcases h with h | h | h <;> exact absurd rfl h⟩

/-- The same world, when asked for the causes. -/
example : ∃ (lib : Library) (w : World), Panics (runProcess lib .debug64 w) ∧ Unambiguous w.vars ∧
    ((∃ text, FileIs w (some text) ∧ lib.toml text = none) ∨
      (∃ k v, ¬ RightType k v ∧ (VariableIs lib w.vars k (some v) ∨
        ∃ text file section', FileIs w (some text) ∧ lib.toml text = some file ∧ file section' k = some v)) ∨
      (Machine.debug64.overflowChecks = true ∧ ∃ a ∈ w.args, 510 ≤ a.length)) := by
  have hu : Unambiguous [] := fun _ _ _ _ ⟨_, h, _⟩ => nomatch h
  have hp : Panics (runProcess ⟨fun _ => none, fun _ _ => .bool true⟩ .debug64
      ⟨["--tvr=00".toList], [], [], fun _ _ => some [], fun _ => none, false⟩) := Or.inl rfl
  exact ⟨_, _, hp, hu, c90_causes _ .debug64 rfl _ hu (by decide +kernel) hp⟩

end Pemv
