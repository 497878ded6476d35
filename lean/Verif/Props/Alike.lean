import Verif.Proofs.AlikeCodes
import Verif.Props.Run

/-!
# C79: two values look alike exactly when they mean the same
-/

namespace Pemv

open Spec

/-- **C79.** Take two values in hex given to the same operation, both of which are shown, on whatever machines and
with whatever other settings. If the two texts shown are the same, even if only their colours differ, the values have
the same meaning; and values of the same meaning are shown in the same way, colours included. -/
theorem c79_hex (m m' : Machine) (ops ops' : CliOps) (masks masks' : List Char) (sort sort' : Bool) (op : Operation)
    (s s' : Text) (hop : op ∈ hexOperations) (hs : selected ops = some (op, s)) (hs' : selected ops' = some (op, s'))
    (c c' : Cells) (hc : Succeeds (run m ops masks sort) c) (hc' : Succeeds (run m' ops' masks' sort') c') :
    (c.map (·.1) = c'.map (·.1) → SameMeaning op (hexBytes s) (hexBytes s')) ∧
    (SameMeaning op (hexBytes s) (hexBytes s') → c = c') := by
  obtain ⟨ls, h1, rfl⟩ := succeeds_ok (c58_hex m ops masks sort op s hs hop) hc
  obtain ⟨ls', h1', rfl⟩ := succeeds_ok (c58_hex m' ops' masks' sort' op s' hs' hop) hc'
  exact ⟨report_alike hop h1 h1', fun h => congrArg (showLines 0) (report_same hop h1 h1' h)⟩

/-- Two command lines whose arguments are written differently and mean the same: both succeed, with the same display. -/
example (m m' : Machine) : ∃ c c', Succeeds (run m { tvr := some "80 00 04 80 00".toList } [] true) c ∧
    Succeeds (run m' { tvr := some "8000048003".toList } ['*'] false) c' ∧ c = c' := by
  have e1 : hexBytes "80 00 04 80 00".toList = [0x80, 0, 4, 0x80, 0] := by decide +kernel
  have e2 : hexBytes "8000048003".toList = [0x80, 0, 4, 0x80, 3] := by decide +kernel
  have h1 := c58_hex m { tvr := some "80 00 04 80 00".toList } [] true .tvr _ rfl (by decide)
  have h2 := c58_hex m' { tvr := some "8000048003".toList } ['*'] false .tvr _ rfl (by decide)
  rw [e1] at h1
  rw [e2] at h2
  refine ⟨_, _, h1, h2, (c79_hex m m' _ _ [] ['*'] true false .tvr _ _ (by decide) rfl rfl _ _ h1 h2).2 ?_⟩
  rw [e1, e2]
  exact ⟨rfl, by decide +kernel⟩

/-- **C79.** Two service codes that are shown look alike exactly if they are the same number. -/
theorem c79_service_code (m m' : Machine) (ops ops' : CliOps) (masks masks' : List Char) (sort sort' : Bool)
    (s s' : Text) (hs : selected ops = some (.serviceCode, s)) (hs' : selected ops' = some (.serviceCode, s'))
    (c c' : Cells) (hc : Succeeds (run m ops masks sort) c) (hc' : Succeeds (run m' ops' masks' sort') c') :
    (c.map (·.1) = c'.map (·.1) → ∃ n, IsU16Text s n ∧ IsU16Text s' n) ∧
    ((∃ n, IsU16Text s n ∧ IsU16Text s' n) → c = c') := by
  have key : ∀ (m : Machine) (ops : CliOps) (masks : List Char) (sort : Bool) (s : Text) (c : Cells),
      selected ops = some (.serviceCode, s) → Succeeds (run m ops masks sort) c →
      ∃ n, IsU16Text s n ∧ n ≤ 999 ∧ c = showLines 0 (serviceCodeLines (n / 100) (n / 10 % 10) (n % 10)) := by
    intro m ops masks sort s c hs hc
    obtain ⟨h1, h2⟩ := c58_service_code m ops masks sort s hs
    by_cases hn : ∃ n, IsU16Text s n ∧ n ≤ 999
    · obtain ⟨n, hn, hle⟩ := hn
      exact ⟨n, hn, hle, shows_cells_unique hc.shows (h1 n hn hle).shows⟩
    · have := (h2 hn).stderr
      rw [hc.stderr] at this
      cases this
  obtain ⟨n, hn, hle, rfl⟩ := key m ops masks sort s c hs hc
  obtain ⟨n', hn', hle', rfl⟩ := key m' ops' masks' sort' s' c' hs' hc'
  constructor
  · intro h
    have := serviceCode_alike hle hle' h
    subst this
    exact ⟨n, hn, hn'⟩
  · rintro ⟨k, hk, hk'⟩
    have e1 := ((c07_u16 s n).2 hn).symm.trans ((c07_u16 s k).2 hk)
    have e2 := ((c07_u16 s' n').2 hn').symm.trans ((c07_u16 s' k).2 hk')
    cases e1
    cases e2
    rfl

/-- Two spellings of the same terminal verification results, another value that differs in an unused bit only, and one that
means something else. -/
example : selected { tvr := some "80 00 04 80 00".toList } = some (.tvr, "80 00 04 80 00".toList) ∧
    hexBytes "80 00 04 80 00".toList = [0x80, 0, 4, 0x80, 0] ∧
    SameMeaning .tvr [0x80, 0, 4, 0x80, 0] [0x80, 0, 4, 0x80, 3] ∧ ¬ SameMeaning .tvr [0x80, 0, 4, 0x80, 0] [0x80, 0, 8, 0x80, 0] ∧
    hexReport .tvr [0x80, 0, 4, 0x80, 3] = .ok (bitLines tvrItems tvrLabels [0x80, 0, 4, 0x80, 3] true) := by
  refine ⟨by decide +kernel, by decide +kernel, ⟨rfl, by decide +kernel⟩, ?_, rfl⟩
  intro h
  exact absurd h.2 (by decide +kernel)

/-- CVM Lists: the unused bit of a rule and the code of an unlisted method do not matter; everything else does. -/
example :
    SameMeaning .cvmList [0, 0, 0, 0, 0, 0, 0, 0, 0x42, 3, 0x20, 0] [0, 0, 0, 0, 0, 0, 0, 0, 0xC2, 3, 0x21, 0] ∧
    ¬ SameMeaning .cvmList [0, 0, 0, 0, 0, 0, 0, 0, 0x42, 3] [0, 0, 0, 0, 0, 0, 0, 0, 0x02, 3] ∧
    ¬ SameMeaning .cvmList [0, 0, 0, 1, 0, 0, 0, 0, 0x42, 3] [0, 0, 0, 0, 0, 0, 0, 0, 0x42, 3] ∧
    SameMeaning .cvmResults [0x42, 3, 2] [0xC2, 3, 2] ∧ ¬ SameMeaning .cvmResults [0x42, 3, 2] [0x42, 3, 1] := by
  simp only [SameMeaning]
  refine ⟨?_, ?_, ?_, ?_, ?_⟩ <;> first | exact of_decide_eq_true (by decide +kernel) | decide +kernel

end Pemv
