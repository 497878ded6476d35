import Verif.Proofs.Complaints

/-!
# C97: the errors each option can report
-/

namespace Pemv

open Spec

/-- **C97.** Whatever an option complains about is one of the things that can be wrong with what it is given. -/
theorem c97_only {m : Machine} (ops : CliOps) (masks : List Char) (sort : Bool) (op : Operation) (s : Text)
    (hs : selected ops = some (op, s)) (hm : Fits m s.length) (e : ParseError)
    (h : Fails (run m ops masks sort) (message e)) : CanReport op e := by
  rw [run_eq, hs] at h
  exact canReport_of_fails hm h

/-- Four bytes for the terminal verification results. -/
example : CanReport .tvr (.byteCountIncorrect .eq 5 4) :=
  c97_only (m := .debug64) { tvr := some "00 00 00 00".toList } ['*'] false .tvr _ rfl
    (by unfold Fits; decide +kernel) _ (by constructor <;> decide +kernel)

/-- **C97.** Each of them occurs. -/
theorem c97_each {m : Machine} (h64 : m.usizeBits = 64) (masks : List Char)
    (hmasks : ∀ c ∈ masks, ¬ IsHex c ∧ c ≠ Char.ofNat 0) (sort : Bool) (op : Operation) (e : ParseError)
    (h : CanReport op e) (hs : SmallCount e) :
    ∃ ops s, selected ops = some (op, s) ∧ Fits m s.length ∧ Fails (run m ops masks sort) (message e) := by
  obtain ⟨s, hm, hf⟩ := reports_each h64 masks hmasks sort h hs
  have hsel : ∃ ops, selected ops = some (op, s) := by
    cases op with
    | tvr => exact ⟨{ tvr := some s }, rfl⟩
    | ccdIad => exact ⟨{ ccdIad := some s }, rfl⟩
    | ccdCvr => exact ⟨{ ccdCvr := some s }, rfl⟩
    | tsi => exact ⟨{ tsi := some s }, rfl⟩
    | cvmResults => exact ⟨{ cvmResults := some s }, rfl⟩
    | cvmList => exact ⟨{ cvmList := some s }, rfl⟩
    | identify => exact ⟨{ identify := some s }, rfl⟩
    | autoTlv => exact ⟨{ autoTlv := some s }, rfl⟩
    | berTlv => exact ⟨{ berTlv := some s }, rfl⟩
    | ingenicoTlv => exact ⟨{ ingenicoTlv := some s }, rfl⟩
    | serviceCode => exact ⟨{ serviceCode := some s }, rfl⟩
  obtain ⟨ops, hops⟩ := hsel
  refine ⟨ops, s, hops, hm, ?_⟩
  rw [run_eq, hops]
  exact hf

example := c97_each (m := .release64) rfl ['*'] (fun c hc => by rcases List.mem_singleton.1 hc with rfl; decide +kernel) true
  .tvr _ (.tvr 4 (by decide)) (show 4 < 2 ^ 32 by decide)

/-- **C97.** In particular, the complaint about invalid bytes is never made, and non-compliance with CCD is only
reported for issuer application data given alone. -/
theorem c97_never {m : Machine} (ops : CliOps) (masks : List Char) (sort : Bool) (op : Operation) (s : Text)
    (hs : selected ops = some (op, s)) (hm : Fits m s.length) :
    ¬ Fails (run m ops masks sort) (message .invalidBytes) ∧
    (Fails (run m ops masks sort) (message .nonCcdCompliant) → op = .ccdIad) ∧
    (Fails (run m ops masks sort) (message .unsupported) → op = .berTlv ∨ op = .ingenicoTlv) ∧
    (Fails (run m ops masks sort) (message .unrecognised) → op = .autoTlv ∨ op = .berTlv ∨ op = .ingenicoTlv) := by
  refine ⟨fun h => ?_, fun h => ?_, fun h => ?_, fun h => ?_⟩ <;> have := c97_only ops masks sort op s hs hm _ h
  · cases this <;> rename_i h' <;> cases h'
  · cases this with
    | ccdIad => rfl
    | autoTlvValue _ h' => cases h'
    | berTlvValue _ h' => cases h'
    | ingenicoTlvValue _ h' => cases h'
  · cases this with
    | berTlvLength => exact .inl rfl
    | ingenicoTlvLength => exact .inr rfl
    | autoTlvValue _ h' => cases h'
    | berTlvValue _ h' => cases h'
    | ingenicoTlvValue _ h' => cases h'
  · cases this with
    | autoTlv => exact .inl rfl
    | autoTlvValue _ h' => exact .inl rfl
    | berTlvValue _ h' => exact .inr (.inl rfl)
    | ingenicoTlvValue _ h' => exact .inr (.inr rfl)

/-- Three errors of options, and two that those options cannot report. -/
example : CanReport .tvr (.byteCountIncorrect .eq 5 4) ∧ CanReport .berTlv (.byteCountIncorrect .eq 2 7) ∧
    CanReport .ingenicoTlv .unrecognised ∧ ¬ CanReport .tvr (.byteCountIncorrect .eq 5 5) ∧
    ¬ CanReport .berTlv (.byteCountIncorrect .eq 4 7) := by
  refine ⟨.tvr 4 (by decide), .berTlvValue _ (.size 2 7 (by simp) (by decide)), .ingenicoTlvValue _ .unlisted, ?_, ?_⟩
  · intro h; cases h; contradiction
  · intro h
    cases h with
    | berTlvValue _ h => cases h with | size _ _ hk => simp at hk

/-- Runs that report them. -/
example : (run .debug64 { tvr := some "00 00 00 00".toList } ['*'] false).stderr =
      some (message (.byteCountIncorrect .eq 5 4) ++ ['\n']) ∧
    (run .debug64 { berTlv := some "9B0700000000000000".toList } ['*'] false).stderr =
      some (message (.byteCountIncorrect .eq 2 7) ++ ['\n']) ∧
    (run .debug64 { ingenicoTlv := some "T9F35:01:h00".toList } ['*'] false).stderr =
      some (message .unrecognised ++ ['\n']) := by decide +kernel

end Pemv
