import Verif.Proofs.Builds
import Verif.Props.Run

/-!
# C83: targets and build modes

A `Machine` is a target and a build mode: the width of `usize` and whether overflows are checked. `Fits m n` says
that `usize` has room for lengths of `n` plus what the parsers add; on 64-bit targets it always does.
-/

namespace Pemv

open Spec

/-! ### C83 -/

/-- **C83.** Two builds in which a run does not panic do exactly the same: same output, same colours, same
message. -/
theorem c83_agree (m m' : Machine) (ops : CliOps) (masks : List Char) (sort : Bool)
    (h1 : ∀ p, selected ops = some p → Fits m p.2.length) (h2 : ∀ p, selected ops = some p → Fits m' p.2.length)
    (hp : (run m ops masks sort).disp.panicked = false) (hp' : (run m' ops masks sort).disp.panicked = false) :
    run m ops masks sort = run m' ops masks sort := by
  have build : ∀ {r r' : Run}, r.disp = r'.disp → r.stderr = r'.stderr ∧ r.help = r'.help ∧ r.diverged = r'.diverged →
      r = r' := by
    rintro ⟨a, b, c, d⟩ ⟨a', b', c', d'⟩ e ⟨e1, e2, e3⟩
    cases e; cases e1; cases e2; cases e3; rfl
  obtain ⟨h3, h4, h5⟩ := run_machines (m := m) (m' := m') ops masks sort (fun op s h => h1 _ h) (fun op s h => h2 _ h)
  obtain ⟨-, -, h6⟩ := run_machines (m := m') (m' := m) ops masks sort (fun op s h => h2 _ h) (fun op s h => h1 _ h)
  refine build ?_ h3
  by_cases hc : m.overflowChecks = m'.overflowChecks
  · exact h4 hc
  · cases hc' : m'.overflowChecks with
    | false =>
      rcases h5 hc' with h | ⟨h, -⟩
      · exact h
      · rw [hp] at h; cases h
    | true =>
      have : m.overflowChecks = false := by
        cases h : m.overflowChecks with
        | false => rfl
        | true => rw [h, hc'] at hc; exact absurd rfl hc
      rcases h6 this with h | ⟨h, -⟩
      · exact h.symm
      · rw [hp'] at h; cases h

example := c83_agree .debug64 .release64 { berTlv := some "9A03261116".toList } [] true
  (fun p hp => by cases hp; unfold Fits; decide +kernel) (fun p hp => by cases hp; unfold Fits; decide +kernel)
  (by decide +kernel) (by decide +kernel)

/-- **C83.** The width of `usize` makes no difference, even if the run panics. -/
theorem c83_same_mode (m m' : Machine) (ops : CliOps) (masks : List Char) (sort : Bool)
    (h1 : ∀ p, selected ops = some p → Fits m p.2.length) (h2 : ∀ p, selected ops = some p → Fits m' p.2.length)
    (hc : m.overflowChecks = m'.overflowChecks) : run m ops masks sort = run m' ops masks sort := by
  obtain ⟨⟨e1, e2, e3⟩, h4, -⟩ :=
    run_machines (m := m) (m' := m') ops masks sort (fun op s h => h1 _ h) (fun op s h => h2 _ h)
  have e := h4 hc
  generalize run m ops masks sort = r at *
  generalize run m' ops masks sort = r' at *
  obtain ⟨a, b, c, d⟩ := r
  obtain ⟨a', b', c', d'⟩ := r'
  cases e; cases e1; cases e2; cases e3; rfl

example := c83_same_mode .debug64 ⟨128, true⟩ { berTlv := some "9A03261116".toList } [] true
  (fun p hp => by cases hp; unfold Fits; decide +kernel) (fun p hp => by cases hp; unfold Fits; decide +kernel) rfl

/-- **C83.** Without overflow checks a run never panics. A run that panics with overflow checks has until then
shown a beginning of what is shown without, and it does so only for a block that is read and understood but nested
more than 254 levels deep. -/
theorem c83_checks (m m' : Machine) (ops : CliOps) (masks : List Char) (sort : Bool)
    (h1 : ∀ p, selected ops = some p → Fits m p.2.length) (h2 : ∀ p, selected ops = some p → Fits m' p.2.length)
    (hc : m'.overflowChecks = false) : (run m' ops masks sort).disp.panicked = false ∧
      (run m ops masks sort).disp.evs <+: (run m' ops masks sort).disp.evs ∧
      ((run m ops masks sort).disp.panicked = true → ∃ s b,
        (selected ops = some (.autoTlv, s) ∧ (∃ f, autoParse m s masks = .ok (f, b)) ∨
          selected ops = some (.berTlv, s) ∧ berParse m (parseHexStr s) masks = .ok b ∨
          selected ops = some (.ingenicoTlv, s) ∧ ingParse m s masks = .ok b) ∧ 255 ≤ blockDepth b) := by
  obtain ⟨-, -, h5⟩ := run_machines (m := m) (m' := m') ops masks sort (fun op s h => h1 _ h) (fun op s h => h2 _ h)
  refine ⟨?_, truncates_prefix (h5 hc), fun hp => ?_⟩
  · cases h : (run m' ops masks sort).disp.panicked with
    | false => rfl
    | true =>
      have := (c57_panic m' ops masks sort h2 h).1
      rw [hc] at this; cases this
  · obtain ⟨-, s, b, h3, -, h4⟩ := c57_panic m ops masks sort h1 hp
    exact ⟨s, b, h3, h4⟩

example := c83_checks .debug64 .release64 { berTlv := some "9A03261116".toList } [] true
  (fun p hp => by cases hp; unfold Fits; decide +kernel) (fun p hp => by cases hp; unfold Fits; decide +kernel) rfl

/-- **C83.** For arguments of fewer than 510 characters all builds agree, without further assumptions on 64-bit
targets. -/
theorem c83_short (m m' : Machine) (ops : CliOps) (masks : List Char) (sort : Bool)
    (h : ∀ p, selected ops = some p → p.2.length < 510) (h1 : m.usizeBits = 64) (h2 : m'.usizeBits = 64) :
    run m ops masks sort = run m' ops masks sort := by
  have key : ∀ k : Machine, k.usizeBits = 64 → (∀ p, selected ops = some p → Fits k p.2.length) ∧
      (run k ops masks sort).disp.panicked = false := by
    intro k hk
    have hf : ∀ p, selected ops = some p → Fits k p.2.length := fun p hp =>
      c16_fits_64 hk _ (by have := h p hp; omega)
    refine ⟨hf, ?_⟩
    rcases c57_outcome k ops masks sort hf (Or.inr h) with ⟨h, -⟩ | ⟨e, h⟩ | ⟨ls, h⟩
    · exact h.returns
    · exact h.returns
    · exact h.shows.returns
  exact c83_agree m m' ops masks sort (key m h1).1 (key m' h2).1 (key m h1).2 (key m' h2).2

example := c83_short .debug64 .release64 { berTlv := some "9A03261116".toList } [] true
  (fun p hp => by cases hp; decide +kernel) rfl rfl

/-- **C83.** On 32-bit targets lengths near 2^32 have no room, and there the builds do differ. -/
theorem c83_32_bit_differs : (run .debug32 { berTlv := some "5A84FFFFFFFF00".toList } [] true).disp.panicked = true ∧
    (run .debug64 { berTlv := some "5A84FFFFFFFF00".toList } [] true).stderr ≠ none := by
  decide +kernel

/-- A block that is shown, in both modes and on both targets. -/
example : run .debug32 { berTlv := some "9A03261116".toList } [] true =
      run .release64 { berTlv := some "9A03261116".toList } [] true ∧
    (run .release64 { berTlv := some "9A03261116".toList } [] true).disp.evs ≠ [] := by decide +kernel

end Pemv
