import Verif.Proofs.Stream

/-!
# C92: a reader of standard output that goes away

`deliver capacity room actions panics` is a process whose reader takes `room` bytes and then goes away; `Writes` cuts
the texts into pieces in any way.
-/

namespace Pemv

open Spec

/-- **C92.** What arrives is exactly the beginning of the output, as much of it as the reader takes: whatever the size of
the buffer and however the texts are handed over, nothing is lost in between, repeated or put in another order, with
and without colours, and also if the run panics. -/
theorem c92_arrives (capacity room : Nat) (env : TermEnv) (colour : TermColorChoice) (r : Run) (actions : List Action)
    (h : Writes (colour.coloured env) r.disp.evs actions) :
    (deliver capacity room actions r.disp.panicked).arrived = (asBytes (stdoutOf env (colour, r))).take room := by
  obtain ⟨h1, -, h3⟩ := writes_facts h
  obtain ⟨g1, -⟩ := inv_perform actions (inv_fresh capacity room) h3
  rw [List.nil_append, h1] at g1
  exact inv_flush g1

/-- **C92.** To a reader that stays, everything arrives, and the process ends as the run does. -/
theorem c92_stays (capacity room : Nat) (env : TermEnv) (colour : TermColorChoice) (r : Run) (actions : List Action)
    (h : Writes (colour.coloured env) r.disp.evs actions) (hr : (asBytes (stdoutOf env (colour, r))).length ≤ room) :
    (deliver capacity room actions r.disp.panicked).arrived = asBytes (stdoutOf env (colour, r)) ∧
      (deliver capacity room actions r.disp.panicked).panicked = r.disp.panicked ∧
      (deliver capacity room actions r.disp.panicked).status = if r.disp.panicked then 101 else 0 := by
  obtain ⟨h1, -, h3⟩ := writes_facts h
  obtain ⟨-, -, -, g4⟩ := inv_perform actions (inv_fresh capacity room) h3
  refine ⟨by rw [c92_arrives capacity room env colour r actions h, List.take_of_length_le hr], ?_⟩
  suffices hp : (deliver capacity room actions r.disp.panicked).panicked = r.disp.panicked by
    exact ⟨hp, by rw [Delivered.status, hp]⟩
  show ((perform _ actions).2 || _) = _
  cases hp : (perform ⟨capacity, [], [], room⟩ actions).2 with
  | false => rfl
  | true =>
    have := g4 hp
    rw [List.nil_append, h1] at this
    exact absurd hr (Nat.not_le_of_lt this)

/-- **C92.** A run that would end normally panics, and its exit status is 101 instead of 0, exactly if the reader goes
away before it has taken the last line break. -/
theorem c92_leaves (capacity room : Nat) (env : TermEnv) (colour : TermColorChoice) (m : Machine) (ops : CliOps)
    (masks : List Char) (sort : Bool) (r : Run) (hr : r = run m ops masks sort) (hn : r.disp.panicked = false)
    (actions : List Action) (h : Writes (colour.coloured env) r.disp.evs actions) :
    ((deliver capacity room actions r.disp.panicked).status = 101 ↔
      ∃ pre post, stdoutOf env (colour, r) = pre ++ '\n' :: post ∧ room ≤ (asBytes pre).length) ∧
    ((deliver capacity room actions r.disp.panicked).status = 101 ∨
      (deliver capacity room actions r.disp.panicked).status = 0) := by
  refine ⟨?_, by rw [Delivered.status]; split <;> simp⟩
  obtain ⟨h1, h2, h3⟩ := writes_facts h
  obtain ⟨-, g2, g3, -⟩ := inv_perform actions (inv_fresh capacity room) h3
  rw [List.nil_append, h1] at g2 g3
  have e : stdoutOf env (colour, r) = written (colour.coloured env) r.disp.evs := rfl
  rw [← lost_utf8, e]
  have hd : (deliver capacity room actions r.disp.panicked).panicked =
      (perform ⟨capacity, [], [], room⟩ actions).2 := by
    show ((perform _ actions).2 || _) = _
    rw [hn, Bool.or_false]
  rw [Delivered.status, hd]
  cases hp : (perform ⟨capacity, [], [], room⟩ actions).2 with
  | false =>
    have := g2 hp (lost_nil room)
    constructor
    · intro h; cases h
    · intro h; exact absurd h this
  | true =>
    refine ⟨fun _ => g3 hp ?_, fun _ => rfl⟩
    rw [h2]
    have := run_ends_line m ops masks sort (hr ▸ hn)
    rw [← hr] at this
    rcases this with ht | ⟨t, ht⟩
    · right
      rw [show evText r.disp.evs = [] from ht]
      rfl
    · left
      rw [show evText r.disp.evs = t ++ ['\n'] from ht, utf8_append]
      show (asBytes t ++ (String.utf8EncodeChar '\n' ++ [])).getLast? = _
      rw [utf8_break]
      simp

/-- **C92.** Neither the size of the buffer nor the pieces matter: every two ways to write the same run deliver the
same. -/
theorem c92_buffering (capacity capacity' room : Nat) (env : TermEnv) (colour : TermColorChoice) (m : Machine)
    (ops : CliOps) (masks : List Char) (sort : Bool) (actions actions' : List Action)
    (h : Writes (colour.coloured env) (run m ops masks sort).disp.evs actions)
    (h' : Writes (colour.coloured env) (run m ops masks sort).disp.evs actions') :
    deliver capacity room actions (run m ops masks sort).disp.panicked =
      deliver capacity' room actions' (run m ops masks sort).disp.panicked := by
  have ha := c92_arrives capacity room env colour _ actions h
  rw [← c92_arrives capacity' room env colour _ actions' h'] at ha
  have hp : (deliver capacity room actions (run m ops masks sort).disp.panicked).panicked =
      (deliver capacity' room actions' (run m ops masks sort).disp.panicked).panicked := by
    cases hn : (run m ops masks sort).disp.panicked with
    | true => 
      show (_ || true) = (_ || true)
      rw [Bool.or_true, Bool.or_true]
    | false =>
      have g := (c92_leaves capacity room env colour m ops masks sort _ rfl hn actions h).1
      rw [← (c92_leaves capacity' room env colour m ops masks sort _ rfl hn actions' h').1, Delivered.status,
        Delivered.status, hn] at g
      cases h1 : (deliver capacity room actions false).panicked <;>
        cases h2 : (deliver capacity' room actions' false).panicked
      · rfl
      · rw [h1, h2] at g; exact absurd (g.2 rfl) (by decide)
      · rw [h1, h2] at g; exact absurd (g.1 rfl) (by decide)
      · rfl
  generalize deliver capacity room actions (run m ops masks sort).disp.panicked = x at ha hp
  generalize deliver capacity' room actions' (run m ops masks sort).disp.panicked = y at ha hp
  cases x; cases y
  simp only at ha hp
  rw [ha, hp]

/-- **C92.** Whatever has been written so far, the buffer holds no more than its size: the rest has been handed over. -/
theorem c92_buffer (capacity room : Nat) (actions : List Action) :
    (perform ⟨capacity, [], [], room⟩ actions).1.buffer.length ≤ capacity :=
  (keeps_perform actions ⟨capacity, [], [], room⟩).2 (Nat.zero_le _)

/-- **C92.** Every run can be written: the hypothesis of these theorems can always be met. -/
theorem c92_writes (coloured : Bool) : ∀ evs : List Ev, ∃ actions, Writes coloured evs actions
  | [] => ⟨[], .nil⟩
  | .text t :: evs => by
    obtain ⟨as, h⟩ := c92_writes coloured evs
    exact ⟨_, .text t [asBytes t] (by simp) h⟩
  | .setColor c :: evs => by
    obtain ⟨as, h⟩ := c92_writes coloured evs
    exact ⟨_, .setColor c h⟩
  | .reset :: evs => by
    obtain ⟨as, h⟩ := c92_writes coloured evs
    exact ⟨_, .reset h⟩

example := c92_arrives 1024 45 ⟨none, false⟩ .never (run .debug64 { tvr := some "1000000000".toList } [] true) _
  (Classical.choose_spec (c92_writes _ _))

example := c92_stays 1024 1000 ⟨none, false⟩ .never (run .debug64 { tvr := some "1000000000".toList } [] true) _
  (Classical.choose_spec (c92_writes _ _)) (by decide +kernel)

example := c92_buffering 1024 1 45 ⟨none, false⟩ .never .debug64 { tvr := some "1000000000".toList } [] true _ _
  (Classical.choose_spec (c92_writes _ _)) (Classical.choose_spec (c92_writes _ _))

/-- Two lines, of which the reader takes the first and three bytes of the second, with a small buffer, the second
line in three pieces and a colour change before the end. -/
example : deliver 4 6 [⟨[[65, 10]], true⟩, ⟨[asBytes (sgr "0")], false⟩, ⟨[[66], [67, 68], [10]], true⟩] false =
    ⟨[65, 10, 27, 91, 48, 109], true⟩ := by decide +kernel

/-- All but the escape sequence at the end: no panic. -/
example : deliver 1024 3 [⟨[[65], [66, 10]], true⟩, ⟨[asBytes (sgr "0")], false⟩] false = ⟨[65, 66, 10], false⟩ := by
  decide +kernel

/-- A run whose reader leaves after the first line. -/
example : ∃ actions, Writes false (run .debug64 { tvr := some "1000000000".toList } [] true).disp.evs actions ∧
    (deliver 1024 45 actions false).status = 101 := by
  obtain ⟨actions, h⟩ := c92_writes false (run .debug64 { tvr := some "1000000000".toList } [] true).disp.evs
  have hn : (run .debug64 { tvr := some "1000000000".toList } [] true).disp.panicked = false := by decide +kernel
  refine ⟨actions, h, ?_⟩
  have := (c92_leaves 1024 45 ⟨none, false⟩ .never .debug64 _ [] true _ rfl hn actions h).1.2
    ⟨(stdoutOf ⟨none, false⟩ (.never, run .debug64 { tvr := some "1000000000".toList } [] true)).dropLast, [],
      by decide +kernel, by decide +kernel⟩
  rw [hn] at this
  exact this

end Pemv
