import Verif.Proofs.Alarms

/-!
# C112: red and yellow
-/

namespace Pemv

open Spec

/-- **C112.** What is shown has something in red if and only if one of the results shown reports an error, and something
in yellow if and only if one of them reports a warning. -/
theorem c112_colours (m : Machine) (ops : CliOps) (masks : List Char) (sort : Bool) (op : Operation) (s : Text)
    (hs : selected ops = some (op, s)) (hm : Fits m s.length) (c : Cells) (h : Succeeds (run m ops masks sort) c) :
    (InColour .red c ↔ Alarming masks .error op s) ∧ (InColour .yellow c ↔ Alarming masks .warning op s) := by
  obtain ⟨ls, ha, -, rfl⟩ := ((c99_only m ops masks sort op s hs hm).2.1 c).1 h
  rw [coloured_show, coloured_show]
  exact ⟨coloured_answer (Or.inl ⟨rfl, rfl⟩) ha, coloured_answer (Or.inr ⟨rfl, rfl⟩) ha⟩

/-- The PIN was not entered: yellow, and not red. -/
example : Succeeds (run .debug64 { tvr := some "0000080000".toList } [] true)
      (showLines 0 (bitLines tvrItems tvrLabels [0, 0, 8, 0, 0] true)) ∧
    InColour .yellow (showLines 0 (bitLines tvrItems tvrLabels [0, 0, 8, 0, 0] true)) ∧
    ¬ InColour .red (showLines 0 (bitLines tvrItems tvrLabels [0, 0, 8, 0, 0] true)) := by
  have hr : Succeeds (run .debug64 { tvr := some "0000080000".toList } [] true)
      (showLines 0 (bitLines tvrItems tvrLabels [0, 0, 8, 0, 0] true)) :=
    (c99_answers .debug64 { tvr := some "0000080000".toList } [] true .tvr _ rfl (by unfold Fits; decide +kernel) _
      (.hex _ (by decide))).1 (Or.inr (hexReport_shallow (by decide) _))
  have hb : hexBytes "0000080000".toList = [0, 0, 8, 0, 0] := by decide +kernel
  have := c112_colours .debug64 { tvr := some "0000080000".toList } [] true .tvr _ rfl (by unfold Fits; decide +kernel) _ hr
  simp only [Alarming, hb] at this
  refine ⟨hr, this.2.2 ⟨(3, 4), by decide, by unfold BitSet; decide +kernel⟩, fun h => ?_⟩
  obtain ⟨p, hp, h⟩ := this.1.1 h
  exact absurd h (by revert p; unfold BitSet; decide +kernel)

/-- **C112.** Issuer action codes are lists of what to check, not results. They are never shown in red or yellow, nor is
anything else but Terminal Verification Results, Issuer Application Data and CVM Results, nor a masked value. -/
theorem c112_only (m : Machine) (ops : CliOps) (masks : List Char) (sort : Bool) (op : Operation) (s : Text)
    (hs : selected ops = some (op, s)) (hm : Fits m s.length) (c : Cells) (h : Succeeds (run m ops masks sort) c)
    (f : Option String) (b : List RawEmvNode) (hb : BlockReads masks op s (.ok (f, b)))
    (ht : ∀ t ∈ blockTags b, t.tag = [0x95] ∨ t.tag = [0x9F, 0x10] ∨ t.tag = [0x9F, 0x34] → t.data = .masked) :
    ¬ InColour .red c ∧ ¬ InColour .yellow c := by
  have hc := c112_colours m ops masks sort op s hs hm c h
  rw [alarming_block hb, alarming_block hb] at hc
  have hno : ∀ sev, ¬ ∃ t ∈ blockTags b, TagAlarms sev t := by
    rintro sev ⟨t, h1, d, h2, h3⟩
    have := ht t h1 (by
      rcases h3 with ⟨h3, -⟩ | ⟨h3, -⟩ | ⟨h3, -⟩
      · exact Or.inl h3
      · exact Or.inr (Or.inl h3)
      · exact Or.inr (Or.inr h3))
    rw [this] at h2
    cases h2
  exact ⟨fun h => hno _ (hc.1.1 h), fun h => hno _ (hc.2.1 h)⟩

/-- An issuer action code with every bit set, and masked results. -/
example : ∃ c, Succeeds (run .debug64 { berTlv := some "9F0D 05 FFFFFFFFFF 95 05 2A2A2A2A2A".toList } ['*'] true) c ∧
    ¬ InColour .red c ∧ ¬ InColour .yellow c := by
  have h : Succeeds (run .debug64 { berTlv := some "9F0D 05 FFFFFFFFFF 95 05 2A2A2A2A2A".toList } ['*'] true) _ :=
    ⟨⟨by decide +kernel, rfl, by decide +kernel⟩, by decide +kernel, by decide +kernel, by decide +kernel⟩
  have hb : BlockReads ['*'] .berTlv "9F0D 05 FFFFFFFFFF 95 05 2A2A2A2A2A".toList (.ok (none,
      [.mk ⟨[0x9F, 0x0D], .contextSpecific, .primitive, .normal [0xFF, 0xFF, 0xFF, 0xFF, 0xFF]⟩ [],
       .mk ⟨[0x95], .contextSpecific, .primitive, .masked⟩ []])) :=
    .ber ((ber_iff (m := .debug64) ['*'] _ (by unfold Fits; decide +kernel) _).2 (by decide +kernel))
  exact ⟨_, h, c112_only .debug64 { berTlv := some "9F0D 05 FFFFFFFFFF 95 05 2A2A2A2A2A".toList } ['*'] true .berTlv _ rfl
    (by unfold Fits; decide +kernel) _ h none _ hb (by decide +kernel)⟩

/-- **C112.** One result is enough: wherever it is in the data, whatever else they hold and whatever the order. -/
theorem c112_anywhere (m : Machine) (ops : CliOps) (masks : List Char) (sort : Bool) (op : Operation) (s : Text)
    (hs : selected ops = some (op, s)) (hm : Fits m s.length) (c : Cells) (h : Succeeds (run m ops masks sort) c)
    (f : Option String) (b : List RawEmvNode) (hb : BlockReads masks op s (.ok (f, b))) (t : RawEmvTag)
    (ht : t ∈ blockTags b) (d : List Byte) (hd : t.data = .normal d) :
    (Alarms .error t.tag d → InColour .red c) ∧ (Alarms .warning t.tag d → InColour .yellow c) := by
  have hc := c112_colours m ops masks sort op s hs hm c h
  rw [alarming_block hb, alarming_block hb] at hc
  exact ⟨fun ha => hc.1.2 ⟨t, ht, d, hd, ha⟩, fun ha => hc.2.2 ⟨t, ht, d, hd, ha⟩⟩

/-- A failed CVM in a template. -/
example : ∃ c, Succeeds (run .debug64 { berTlv := some "70 06 9F34 03 1F0001".toList } [] true) c ∧ InColour .red c := by
  have h : Succeeds (run .debug64 { berTlv := some "70 06 9F34 03 1F0001".toList } [] true) _ :=
    ⟨⟨by decide +kernel, rfl, by decide +kernel⟩, by decide +kernel, by decide +kernel, by decide +kernel⟩
  have hb : BlockReads [] .berTlv "70 06 9F34 03 1F0001".toList (.ok (none,
      [.mk ⟨[0x70], .application, .constructed, .normal [0x9F, 0x34, 3, 0x1F, 0, 1]⟩
        [.mk ⟨[0x9F, 0x34], .contextSpecific, .primitive, .normal [0x1F, 0, 1]⟩ []]])) :=
    .ber ((ber_iff (m := .debug64) [] _ (by unfold Fits; decide +kernel) _).2 (by decide +kernel))
  exact ⟨_, h, (c112_anywhere .debug64 { berTlv := some "70 06 9F34 03 1F0001".toList } [] true .berTlv _ rfl
    (by unfold Fits; decide +kernel) _ h none _ hb ⟨[0x9F, 0x34], .contextSpecific, .primitive, .normal [0x1F, 0, 1]⟩
    (by decide +kernel) _ rfl).1 (Or.inr (Or.inr ⟨rfl, rfl, rfl⟩))⟩

end Pemv
