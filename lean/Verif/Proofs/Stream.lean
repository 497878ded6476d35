import Verif.Model.Stream
import Verif.Proofs.Terminal
import Verif.Proofs.Breaks

/-!
# Lemmas about the buffered stream
-/

namespace Pemv

open Spec

/-! ### Single calls -/

/-- What every call does: bytes only ever arrive in order and at the expense of the room; what has arrived together with
what is in the buffer is a part of what was written, and all of it if there was no error; an error means that the
room is used up. -/
structure Call (s : Stream) (bs : List Byte) (x : Written) : Prop where
  grows : ∃ y, x.1.arrived = s.arrived ++ y ∧ y.length + x.1.room = s.room
  part : x.1.arrived ++ x.1.buffer <+: s.arrived ++ s.buffer ++ bs
  all : x.2 = true → x.1.arrived ++ x.1.buffer = s.arrived ++ s.buffer ++ bs
  used : x.2 = false → x.1.room = 0 ∧ s.room < (s.buffer ++ bs).length
  subset : ∀ b ∈ x.1.buffer, b ∈ s.buffer ++ bs

/-- A call that writes nothing and succeeds. -/
theorem Call.skip (s : Stream) : Call s [] (s, true) :=
  ⟨⟨[], by simp⟩, by simp, by simp, by simp, by simp⟩

theorem Call.andThen {s : Stream} {a b : List Byte} {x : Written} {f : Stream → Written} (h : Call s a x)
    (hf : x.2 = true → Call x.1 b (f x.1)) : Call s (a ++ b) (x.andThen f) := by
  obtain ⟨s', ok⟩ := x
  cases ok with
  | false =>
    obtain ⟨h1, h2, h3, h4, h5⟩ := h
    refine ⟨h1, ?_, ?_, ?_, ?_⟩
    · rw [← List.append_assoc]
      exact h2.trans (List.prefix_append _ _)
    · intro h; cases h
    · intro _
      have h4 := h4 rfl
      refine ⟨h4.1, ?_⟩
      have := h4.2
      simp only [List.length_append] at this ⊢
      omega
    · intro c hc
      have := h5 c hc
      simp only [List.mem_append] at this ⊢
      rcases this with h | h
      · exact Or.inl h
      · exact Or.inr (Or.inl h)
  | true =>
    obtain ⟨⟨y, h1, h1'⟩, h2, h3, h4, h5⟩ := h
    obtain ⟨⟨z, g1, g1'⟩, g2, g3, g4, g5⟩ := hf rfl
    have h3 := h3 rfl
    simp only at h1 h1' h3 h5 g1 g1' g2 g3 g4 g5
    show Call s (a ++ b) (f s')
    refine ⟨⟨y ++ z, ?_, ?_⟩, ?_, ?_, ?_, ?_⟩
    · rw [g1, h1, List.append_assoc]
    · rw [List.length_append]; omega
    · rw [h3, List.append_assoc] at g2
      exact g2
    · intro h
      rw [g3 h, h3, List.append_assoc]
    · intro h
      refine ⟨(g4 h).1, ?_⟩
      have e := congrArg List.length h3
      have e' := congrArg List.length h1
      have := (g4 h).2
      simp only [List.length_append] at this e e' ⊢
      omega
    · intro c hc
      have := g5 c hc
      rcases List.mem_append.1 this with h | h
      · have := h5 c h
        simp only [List.mem_append] at this ⊢
        rcases this with h | h
        · exact Or.inl h
        · exact Or.inr (Or.inl h)
      · simp [h]

theorem call_raw_nil (s : Stream) : Call s [] (s.raw []) := by
  rw [Stream.raw, if_pos (show ([] : List Byte).length ≤ _ from Nat.zero_le _)]
  refine ⟨⟨[], ?_⟩, ?_, ?_, ?_, ?_⟩ <;> simp

theorem call_raw (s : Stream) (h : s.buffer = []) (bs : List Byte) : Call s bs (s.raw bs) := by
  rw [Stream.raw]
  split
  · rename_i hl
    refine ⟨⟨bs, rfl, ?_⟩, ?_, ?_, ?_, ?_⟩
    · simp only; omega
    · simp [h]
    · simp [h]
    · simp
    · simp [h]
  · rename_i hl
    refine ⟨⟨bs.take s.room, rfl, ?_⟩, ?_, ?_, ?_, ?_⟩
    · simp only [List.length_take]; omega
    · simp only [h, List.append_nil]
      exact (List.prefix_append_right_inj _).2 (List.take_prefix _ _)
    · simp
    · simp [h]; omega
    · simp [h]

theorem call_flush (s : Stream) : Call s [] s.flush := by
  rw [Stream.flush, Stream.raw]
  by_cases hl : s.buffer.length ≤ s.room
  · rw [if_pos hl, if_pos rfl]
    refine ⟨⟨s.buffer, rfl, ?_⟩, ?_, ?_, ?_, ?_⟩
    · simp only; omega
    · simp
    · simp
    · simp
    · simp
  · rw [if_neg hl, if_neg (by simp)]
    refine ⟨⟨s.buffer.take s.room, rfl, ?_⟩, ?_, ?_, ?_, ?_⟩
    · simp only [List.length_take]; omega
    · simp
    · simp
    · simp; omega
    · intro b hb
      simp only [List.append_nil]
      exact List.mem_of_mem_drop hb

theorem call_push (s : Stream) (bs : List Byte) : Call s bs (s.push bs) := by
  refine ⟨⟨[], ?_⟩, ?_, ?_, ?_, ?_⟩ <;> simp [Stream.push]

theorem flush_buffer {s : Stream} (h : s.flush.2 = true) : s.flush.1.buffer = [] := by
  rw [Stream.flush] at h ⊢
  split
  · rfl
  · rename_i hn
    rw [if_neg hn] at h
    cases h

theorem flush_capacity (s : Stream) : s.flush.1.capacity = s.capacity := by
  rw [Stream.flush, Stream.raw]
  split <;> split <;> rfl

theorem call_bufWrite (s : Stream) (bs : List Byte) : Call s bs (s.bufWrite bs) := by
  rw [Stream.bufWrite]
  split
  · exact call_push s bs
  · rename_i hn
    have hlast : ∀ s' : Stream, (s'.capacity ≤ bs.length → s'.buffer = [] ∨ bs = []) →
        Call s' bs (if s'.capacity ≤ bs.length then s'.raw bs else s'.push bs) := by
      intro s' h
      split
      · rename_i hc
        rcases h hc with h | h
        · exact call_raw s' h bs
        · rw [h]; exact call_raw_nil s'
      · exact call_push s' bs
    have := Call.andThen (a := []) (b := bs)
      (x := if s.capacity - s.buffer.length < bs.length then s.flush else (s, true))
      (f := fun s => if s.capacity ≤ bs.length then s.raw bs else s.push bs) (s := s) (by
        split
        · exact call_flush s
        · exact Call.skip s) (by
        split
        · intro h
          exact hlast _ (fun _ => Or.inl (flush_buffer h))
        · rename_i hc
          intro _
          refine hlast _ (fun h => ?_)
          simp only at h
          by_cases hb : s.buffer = []
          · exact Or.inl hb
          · have : 0 < s.buffer.length := List.length_pos_iff.2 hb
            exact Or.inr (List.length_eq_zero_iff.1 (by omega)))
    rw [List.nil_append] at this
    exact this

theorem splitLines_none : ∀ {bs : List Byte}, Stream.splitLines bs = none → 10 ∉ bs
  | [], _ => by simp
  | b :: bs, h => by
    rw [Stream.splitLines] at h
    cases hs : Stream.splitLines bs with
    | some p => rw [hs] at h; cases h
    | none =>
      rw [hs] at h
      have := splitLines_none hs
      by_cases hb : b = 10
      · simp only [if_pos hb] at h; cases h
      · simp only [List.mem_cons, not_or]
        exact ⟨fun e => hb e.symm, this⟩

theorem splitLines_some : ∀ {bs lines tail : List Byte}, Stream.splitLines bs = some (lines, tail) →
    bs = lines ++ tail ∧ 10 ∈ lines ∧ 10 ∉ tail
  | [], _, _, h => by cases h
  | b :: bs, lines, tail, h => by
    rw [Stream.splitLines] at h
    cases hs : Stream.splitLines bs with
    | some p =>
      obtain ⟨l, t⟩ := p
      rw [hs] at h
      cases h
      obtain ⟨h1, h2, h3⟩ := splitLines_some hs
      exact ⟨by rw [h1]; rfl, by simp [h2], h3⟩
    | none =>
      rw [hs] at h
      by_cases hb : b = 10
      · simp only [if_pos hb] at h
        cases h
        exact ⟨rfl, by simp [hb], splitLines_none hs⟩
      · simp only [if_neg hb] at h; cases h

theorem call_lineWrite (s : Stream) (bs : List Byte) : Call s bs (s.lineWrite bs) := by
  rw [Stream.lineWrite.eq_def]
  cases hs : Stream.splitLines bs with
  | none =>
    have := Call.andThen (a := []) (b := bs) (s := s)
      (x := if s.buffer.getLast? = some 10 then s.flush else (s, true)) (f := (·.bufWrite bs)) (by
        split
        · exact call_flush s
        · exact Call.skip s) (fun _ => call_bufWrite _ bs)
    rw [List.nil_append] at this
    exact this
  | some p =>
    obtain ⟨lines, tail⟩ := p
    obtain ⟨rfl, -, -⟩ := splitLines_some hs
    refine Call.andThen ?_ (fun _ => call_bufWrite _ tail)
    split
    · rename_i hb; exact call_raw s hb lines
    · have := Call.andThen (a := lines) (b := []) (call_bufWrite s lines) (fun _ => call_flush (s.bufWrite lines).1)
      rw [List.append_nil] at this
      exact this

/-! ### What happens to line breaks -/

theorem andThen_ok {x : Written} {f : Stream → Written} (h : (x.andThen f).2 = true) :
    x.2 = true ∧ (f x.1).2 = true ∧ x.andThen f = f x.1 := by
  obtain ⟨s, ok⟩ := x
  cases ok with
  | false => cases h
  | true => exact ⟨rfl, h, rfl⟩

/-- After an accepted line break nothing but the rest of the line is in the buffer. -/
theorem lineWrite_break {s : Stream} {bs : List Byte} (h10 : 10 ∈ bs) (h : (s.lineWrite bs).2 = true) :
    10 ∉ (s.lineWrite bs).1.buffer ∧ s.room ≠ 0 := by
  rw [Stream.lineWrite.eq_def] at h ⊢
  cases hs : Stream.splitLines bs with
  | none => exact absurd h10 (splitLines_none hs)
  | some p =>
    obtain ⟨lines, tail⟩ := p
    obtain ⟨-, h1, h2⟩ := splitLines_some hs
    rw [hs] at h
    simp only at h ⊢
    obtain ⟨g1, g2, g3⟩ := andThen_ok h
    rw [g3]
    have hsub := (call_bufWrite (if s.buffer = [] then s.raw lines
      else Written.andThen (s.bufWrite lines) (·.flush)).1 tail).subset
    have hne : lines ≠ [] := fun e => by rw [e] at h1; cases h1
    by_cases hb : s.buffer = []
    · rw [if_pos hb] at g1 hsub ⊢
      have hbuf : (s.raw lines).1.buffer = [] := by
        rw [Stream.raw]; split <;> exact hb
      rw [hbuf] at hsub
      refine ⟨fun hm => h2 (hsub _ hm), fun hr => ?_⟩
      rw [Stream.raw, hr, if_neg (fun hl => hne (List.length_eq_zero_iff.1 (Nat.le_zero.1 hl)))] at g1
      cases g1
    · rw [if_neg hb] at g1 hsub ⊢
      obtain ⟨k1, k2, k3⟩ := andThen_ok g1
      rw [k3] at hsub ⊢
      rw [flush_buffer k2] at hsub
      refine ⟨fun hm => h2 (hsub _ hm), fun hr => ?_⟩
      have c1 := call_bufWrite s lines
      obtain ⟨y, c2, c3⟩ := c1.grows
      have c4 := c1.all k1
      have c5 : y = [] := List.length_eq_zero_iff.1 (by omega)
      rw [c2, c5, List.append_nil, List.append_assoc] at c4
      have c6 := List.append_cancel_left c4
      have c7 := (call_flush (s.bufWrite lines).1).all k2
      rw [flush_buffer k2] at c7
      obtain ⟨z, c8, c9⟩ := (call_flush (s.bufWrite lines).1).grows
      have c10 : z = [] := List.length_eq_zero_iff.1 (by omega)
      rw [c8, c10, c6] at c7
      have := congrArg List.length c7
      have h3 : 0 < lines.length := List.length_pos_iff.2 hne
      simp only [List.length_append, List.length_nil] at this
      omega

/-- Writing nothing fails only if a complete line is left in the buffer. -/
theorem lineWrite_nil {s : Stream} (h : (s.lineWrite []).2 = false) : 10 ∈ s.buffer := by
  apply Classical.byContradiction
  intro hn
  have e : s.lineWrite [] = s.bufWrite [] := by
    rw [Stream.lineWrite.eq_def]
    show Written.andThen (if _ then _ else _) _ = _
    rw [if_neg (fun hl => hn (List.mem_of_getLast? hl))]
    rfl
  have hf : ∀ s : Stream, (if s.capacity ≤ ([] : List Byte).length then s.raw [] else s.push []).2 = true := by
    intro s
    split
    · rw [Stream.raw, if_pos (show ([] : List Byte).length ≤ _ from Nat.zero_le _)]
    · rfl
  rw [e, Stream.bufWrite] at h
  split at h
  · cases h
  · rw [if_neg (show ¬ _ < ([] : List Byte).length from Nat.not_lt_zero _)] at h
    exact absurd ((hf s).symm.trans h) (by simp)

/-! ### Whole outputs -/

/-- A line break the reader does not take. -/
def Lost (room : Nat) (bs : List Byte) : Prop := ∃ pre post, bs = pre ++ 10 :: post ∧ room ≤ pre.length

theorem Lost.append {room : Nat} {bs : List Byte} (h : Lost room bs) (more : List Byte) : Lost room (bs ++ more) := by
  obtain ⟨pre, post, rfl, h⟩ := h
  exact ⟨pre, post ++ more, by simp, h⟩

theorem lost_right {room : Nat} {bs more : List Byte} (h : room ≤ bs.length) (hm : 10 ∈ more) : Lost room (bs ++ more) := by
  obtain ⟨a, b, rfl⟩ := List.append_of_mem hm
  exact ⟨bs ++ a, b, by simp, by rw [List.length_append]; omega⟩

theorem lost_left {room : Nat} {bs more : List Byte} (h : Lost room (bs ++ more)) (hm : 10 ∉ more) : Lost room bs := by
  obtain ⟨pre, post, e, h⟩ := h
  rcases List.append_eq_append_iff.1 e with ⟨a, rfl, ha⟩ | ⟨a, rfl, ha⟩
  · rw [ha] at hm
    exact absurd (by simp) hm
  · cases a with
    | nil =>
      simp only [List.nil_append] at ha
      rw [← ha] at hm
      exact absurd (by simp) hm
    | cons x a =>
      simp only [List.cons_append, List.cons.injEq] at ha
      obtain ⟨rfl, -⟩ := ha
      exact ⟨pre, a, rfl, h⟩

/-- The state after `done` has been written, whether all of it could be handed over or not. -/
structure Inv (s : Stream) (room : Nat) (done : List Byte) : Prop where
  sum : s.arrived.length + s.room = room
  state : (s.arrived ++ s.buffer = done ∧ 10 ∉ s.buffer) ∨
    (s.room = 0 ∧ s.arrived <+: done ∧ (10 ∈ s.buffer → Lost room done))

theorem inv_step {s : Stream} {room : Nat} {done : List Byte} (h : Inv s room done) (bs : List Byte) :
    Inv (s.lineWrite bs).1 room (done ++ bs) ∧
    ((s.lineWrite bs).2 = false → (bs ≠ [] ∧ room < (done ++ bs).length) ∨ Lost room done) ∧
    ((s.lineWrite bs).2 = true → ¬ Lost room done → ¬ Lost room (done ++ bs)) := by
  have hc := call_lineWrite s bs
  obtain ⟨y, h1, h2⟩ := hc.grows
  have hsum : (s.lineWrite bs).1.arrived.length + (s.lineWrite bs).1.room = room := by
    rw [h1, List.length_append, ← h.sum]; omega
  refine ⟨⟨hsum, ?_⟩, ?_, ?_⟩
  · rcases h.state with ⟨ha, hb⟩ | ⟨ha, hb, hl⟩
    · cases hok : (s.lineWrite bs).2 with
      | true =>
        refine Or.inl ⟨by rw [hc.all hok, ha], ?_⟩
        by_cases h10 : 10 ∈ bs
        · exact (lineWrite_break h10 hok).1
        · intro hm
          rcases List.mem_append.1 (hc.subset _ hm) with h | h
          · exact hb h
          · exact h10 h
      | false =>
        have hp := hc.part
        rw [ha] at hp
        refine Or.inr ⟨(hc.used hok).1, (List.prefix_append _ _).trans hp, fun hm => ?_⟩
        obtain ⟨z, hz⟩ := hp
        rw [← hz]
        refine Lost.append ?_ z
        exact lost_right (by have := (hc.used hok).1; omega) hm
    · have hy : y = [] := List.length_eq_zero_iff.1 (by omega)
      rw [hy, List.append_nil] at h1
      refine Or.inr ⟨by omega, by rw [h1]; exact hb.trans (List.prefix_append _ _), fun hm => ?_⟩
      rcases List.mem_append.1 (hc.subset _ hm) with h' | h'
      · exact (hl h').append bs
      · refine lost_right ?_ h'
        have := hb.length_le
        have := h.sum
        omega
  · intro hok
    by_cases hbs : bs = []
    · subst hbs
      have h10 := lineWrite_nil hok
      rcases h.state with ⟨-, hb⟩ | ⟨-, -, hl⟩
      · exact absurd h10 hb
      · exact Or.inr (hl h10)
    · refine Or.inl ⟨hbs, ?_⟩
      rcases h.state with ⟨ha, -⟩ | ⟨ha, hb, -⟩
      · have h3 := (hc.used hok).2
        have h4 := congrArg List.length ha
        have h5 := h.sum
        simp only [List.length_append] at h3 h4 ⊢
        omega
      · have h3 := hb.length_le
        have h5 := h.sum
        have h6 : 0 < bs.length := List.length_pos_iff.2 hbs
        rw [List.length_append]
        omega
  · intro hok hn hl
    by_cases h10 : 10 ∈ bs
    · obtain ⟨k1, k2⟩ := lineWrite_break h10 hok
      rcases h.state with ⟨ha, -⟩ | ⟨ha, -⟩
      · have h3 := hc.all hok
        rw [ha] at h3
        rw [← h3] at hl
        obtain ⟨pre, post, e, hle⟩ := lost_left hl k1
        have := congrArg List.length e
        simp only [List.length_append, List.length_cons] at this
        omega
      · exact k2 ha
    · exact hn (lost_left hl h10)

theorem inv_pieces : ∀ (ps : List (List Byte)) {s : Stream} {room : Nat} {done : List Byte} (_ : Inv s room done),
    Inv (s.writePieces ps).1 room (done ++ ps.flatten) ∧
    ((s.writePieces ps).2 = false → (ps.flatten ≠ [] ∧ room < (done ++ ps.flatten).length) ∨ Lost room done) ∧
    ((s.writePieces ps).2 = true → ¬ Lost room done → ¬ Lost room (done ++ ps.flatten)) ∧
    ((s.writePieces ps).2 = false → (s.writePieces ps).1.room = 0)
  | [], s, room, done, h => by
    rw [Stream.writePieces, List.flatten_nil, List.append_nil]
    exact ⟨h, (by intro h; cases h), fun _ h => h, (by intro h; cases h)⟩
  | p :: ps, s, room, done, h => by
    obtain ⟨h1, h2, h3⟩ := inv_step h p
    rw [Stream.writePieces, List.flatten_cons, ← List.append_assoc]
    cases hok : (s.lineWrite p).2 with
    | true =>
      obtain ⟨g1, g2, g3, g6⟩ := inv_pieces ps h1
      have e : Written.andThen (s.lineWrite p) (·.writePieces ps) = (s.lineWrite p).1.writePieces ps := by
        rw [Written.andThen, if_pos hok]
      rw [e]
      refine ⟨g1, fun hf => ?_, fun ht hn => g3 ht (h3 hok hn), g6⟩
      rcases g2 hf with ⟨g4, g5⟩ | g4
      · exact Or.inl ⟨fun e => g4 (List.append_eq_nil_iff.1 e).2, g5⟩
      · by_cases hl : Lost room done
        · exact Or.inr hl
        · exact absurd g4 (h3 hok hl)
    | false =>
      have e : Written.andThen (s.lineWrite p) (·.writePieces ps) = s.lineWrite p := by
        rw [Written.andThen, if_neg (by rw [hok]; simp)]
      rw [e]
      have hr := ((call_lineWrite s p).used hok).1
      refine ⟨?_, fun _ => ?_, (fun ht => by rw [hok] at ht; cases ht), fun _ => hr⟩
      · refine ⟨h1.sum, Or.inr ?_⟩
        rcases h1.state with ⟨ha, hb⟩ | ⟨ha, hb, hl⟩
        · refine ⟨hr, ?_, fun h => absurd h hb⟩
          exact ((List.prefix_append _ _).trans (by rw [ha]; exact List.prefix_rfl)).trans (List.prefix_append _ _)
        · exact ⟨ha, hb.trans (List.prefix_append _ _), fun h => (hl h).append _⟩
      · rcases h2 hok with ⟨k1, k2⟩ | k1
        · refine Or.inl ⟨fun e => k1 (List.append_eq_nil_iff.1 e).1, ?_⟩
          simp only [List.length_append] at k2 ⊢
          omega
        · exact Or.inr k1

/-- The bytes of actions. -/
def actionBytes (as : List Action) : List Byte := as.flatMap (fun a => a.pieces.flatten)

/-- The bytes whose loss is noticed. -/
def checkedBytes (as : List Action) : List Byte := as.flatMap (fun a => if a.checked then a.pieces.flatten else [])

/-- Colour changes have no line breaks. -/
def QuietColours (as : List Action) : Prop := ∀ a ∈ as, a.checked = false → 10 ∉ a.pieces.flatten

theorem checked_mem {as : List Action} {b : Byte} (h : b ∈ checkedBytes as) : b ∈ actionBytes as := by
  rw [checkedBytes, List.mem_flatMap] at h
  obtain ⟨a, ha, hb⟩ := h
  rw [actionBytes, List.mem_flatMap]
  refine ⟨a, ha, ?_⟩
  split at hb
  · exact hb
  · cases hb

theorem checked_tail {a : Action} {as : List Action} (h : (checkedBytes (a :: as)).getLast? = some 10 ∨ checkedBytes (a :: as) = []) :
    (checkedBytes as).getLast? = some 10 ∨ checkedBytes as = [] := by
  by_cases hn : checkedBytes as = []
  · exact Or.inr hn
  · left
    rcases h with h | h
    · rw [checkedBytes, List.flatMap_cons, ← checkedBytes, List.getLast?_append] at h
      cases hl : (checkedBytes as).getLast? with
      | none => exact absurd (List.getLast?_eq_none_iff.1 hl) hn
      | some x => rw [hl] at h; exact h
    · rw [checkedBytes, List.flatMap_cons, ← checkedBytes] at h
      exact absurd (List.append_eq_nil_iff.1 h).2 hn

theorem inv_perform : ∀ (as : List Action) {s : Stream} {room : Nat} {done : List Byte} (_ : Inv s room done)
    (_ : QuietColours as),
    Inv (perform s as).1 room (done ++ actionBytes as) ∧
    ((perform s as).2 = false → ¬ Lost room done → ¬ Lost room (done ++ actionBytes as)) ∧
    ((perform s as).2 = true → (checkedBytes as).getLast? = some 10 ∨ checkedBytes as = [] →
      Lost room (done ++ actionBytes as)) ∧
    ((perform s as).2 = true → room < (done ++ actionBytes as).length)
  | [], s, room, done, h, _ => by
    rw [perform, actionBytes, List.flatMap_nil, List.append_nil]
    exact ⟨h, fun _ h => h, (by intro h; cases h), (by intro h; cases h)⟩
  | a :: as, s, room, done, h, hq => by
    obtain ⟨h1, h2, h3, h4⟩ := inv_pieces a.pieces h
    have hq' : QuietColours as := fun b hb => hq b (by simp [hb])
    have e : actionBytes (a :: as) = a.pieces.flatten ++ actionBytes as := rfl
    rw [e, ← List.append_assoc, perform]
    by_cases hf : (s.writePieces a.pieces).2 = false ∧ a.checked
    · rw [if_pos hf]
      obtain ⟨hf1, hf2⟩ := hf
      have hlong : room < (done ++ a.pieces.flatten ++ actionBytes as).length := by
        rcases h2 hf1 with ⟨-, k⟩ | ⟨pre, post, e', k⟩
        · rw [List.length_append]; omega
        · rw [e']
          simp only [List.length_append, List.length_cons]
          omega
      refine ⟨?_, (by intro h; cases h), fun _ hl => ?_, fun _ => hlong⟩
      · refine ⟨h1.sum, ?_⟩
        rcases h1.state with ⟨ha, hb⟩ | ⟨ha, hb, hl⟩
        · refine Or.inr ⟨h4 hf1, ?_, fun h => absurd h hb⟩
          rw [← ha, List.append_assoc]
          exact List.prefix_append _ _
        · exact Or.inr ⟨ha, hb.trans (List.prefix_append _ _), fun h => (hl h).append _⟩
      · rcases h2 hf1 with ⟨k1, k2⟩ | k
        · have ec : checkedBytes (a :: as) = a.pieces.flatten ++ checkedBytes as := by
            rw [checkedBytes, List.flatMap_cons, if_pos hf2]; rfl
          rw [ec] at hl
          by_cases hn : checkedBytes as = []
          · rw [hn, List.append_nil] at hl
            rcases hl with hl | hl
            · obtain ⟨x, hx⟩ := List.getLast?_eq_some_iff.1 hl
              refine Lost.append ?_ _
              rw [hx, List.length_append, List.length_append] at k2
              rw [hx]
              refine ⟨done ++ x, [], by simp, ?_⟩
              simp only [List.length_append, List.length_cons, List.length_nil] at k2 ⊢
              omega
            · exact absurd hl k1
          · have hl' : (checkedBytes as).getLast? = some 10 := by
              have := checked_tail (a := a) (as := as) (by rw [ec]; exact hl)
              exact this.resolve_right hn
            exact lost_right (by omega) (checked_mem (List.mem_of_getLast? hl'))
        · exact (k.append _).append _
    · rw [if_neg hf]
      obtain ⟨g1, g2, g3, g4⟩ := inv_perform as h1 hq'
      refine ⟨g1, fun hp hn => g2 hp ?_, fun hp hl => g3 hp (checked_tail hl), g4⟩
      cases hok : (s.writePieces a.pieces).2 with
      | true => exact h3 hok hn
      | false =>
        have hc : a.checked = false := by
          cases hc : a.checked with
          | false => rfl
          | true => exact absurd ⟨hok, hc⟩ hf
        exact fun hl => hn (lost_left hl (hq a (by simp) hc))

/-- What has arrived when everything is over. -/
theorem inv_flush {s : Stream} {room : Nat} {done : List Byte} (h : Inv s room done) : s.flush.1.arrived = done.take room := by
  have hs := h.sum
  have e : s.flush.1.arrived = s.arrived ++ s.buffer.take s.room := by
    rw [Stream.flush, Stream.raw]
    by_cases hl : s.buffer.length ≤ s.room
    · rw [if_pos hl, if_pos rfl, List.take_of_length_le hl]
    · rw [if_neg hl, if_neg (by simp)]
  rw [e]
  rcases h.state with ⟨ha, -⟩ | ⟨ha, hb, -⟩
  · rw [← ha, ← hs, List.take_append, Nat.add_sub_cancel_left, List.take_of_length_le (i := _ + _) (by omega)]
  · rw [ha, List.take_zero, List.append_nil]
    rw [← hs, ha, Nat.add_zero]
    exact List.prefix_iff_eq_take.1 hb

theorem inv_fresh (capacity room : Nat) : Inv ⟨capacity, [], [], room⟩ room [] :=
  ⟨Nat.zero_add _, Or.inl ⟨rfl, by simp⟩⟩

theorem lost_nil (room : Nat) : ¬ Lost room [] := by
  rintro ⟨pre, post, h, -⟩
  cases pre <;> cases h

/-! ### UTF-8 -/

theorem utf8_append (a b : Text) : asBytes (a ++ b) = asBytes a ++ asBytes b := List.flatMap_append

theorem ofNat_ne_10 {n : Nat} (h1 : 128 ≤ n) (h2 : n < 256) : (10 : Byte) ≠ UInt8.ofNat n := by
  intro h
  have := congrArg UInt8.toNat h
  rw [UInt8.toNat_ofNat'] at this
  have e : (10 : Byte).toNat = 10 := rfl
  rw [e] at this
  omega

theorem utf8_char (c : Char) (h : 10 ∈ String.utf8EncodeChar c) : c = '\n' := by
  rw [String.utf8EncodeChar.eq_def] at h
  extract_lets v at h
  split at h
  · rename_i hl
    simp only [List.mem_singleton] at h
    have := congrArg UInt8.toNat h
    rw [UInt8.toNat_ofNat'] at this
    have e : (10 : Byte).toNat = 10 := rfl
    rw [e] at this
    apply Char.ext
    apply UInt32.toNat_inj.1
    show v = 10
    omega
  · split at h
    · simp only [List.mem_cons, List.not_mem_nil, or_false] at h
      rcases h with h | h
      · exact absurd h (ofNat_ne_10 (by omega) (by omega))
      · exact absurd h (ofNat_ne_10 (by omega) (by omega))
    · split at h
      · simp only [List.mem_cons, List.not_mem_nil, or_false] at h
        rcases h with h | h | h
        · exact absurd h (ofNat_ne_10 (by omega) (by omega))
        · exact absurd h (ofNat_ne_10 (by omega) (by omega))
        · exact absurd h (ofNat_ne_10 (by omega) (by omega))
      · simp only [List.mem_cons, List.not_mem_nil, or_false] at h
        rcases h with h | h | h | h
        · exact absurd h (ofNat_ne_10 (by omega) (by omega))
        · exact absurd h (ofNat_ne_10 (by omega) (by omega))
        · exact absurd h (ofNat_ne_10 (by omega) (by omega))
        · exact absurd h (ofNat_ne_10 (by omega) (by omega))

theorem utf8_break : String.utf8EncodeChar '\n' = [10] := by decide +kernel

/-- Line breaks of the bytes are line breaks of the text. -/
theorem utf8_split : ∀ (t : Text) (pre post : List Byte), asBytes t = pre ++ 10 :: post →
    ∃ a b, t = a ++ '\n' :: b ∧ asBytes a = pre ∧ asBytes b = post
  | [], pre, post, h => by cases pre <;> cases h
  | c :: t, pre, post, h => by
    by_cases hc : c = '\n'
    · subst hc
      change String.utf8EncodeChar '\n' ++ asBytes t = _ at h
      rw [utf8_break] at h
      cases pre with
      | nil =>
        simp only [List.nil_append, List.cons_append, List.cons.injEq, true_and] at h
        exact ⟨[], t, rfl, rfl, h⟩
      | cons x pre =>
        simp only [List.nil_append, List.cons_append, List.cons.injEq] at h
        obtain ⟨h1, h2⟩ := h
        obtain ⟨a, b, k1, k2, k3⟩ := utf8_split t pre post h2
        refine ⟨'\n' :: a, b, by rw [k1]; rfl, ?_, k3⟩
        change String.utf8EncodeChar '\n' ++ asBytes a = _
        rw [utf8_break, k2, ← h1]; rfl
    · have hn : 10 ∉ String.utf8EncodeChar c := fun h => hc (utf8_char c h)
      change String.utf8EncodeChar c ++ asBytes t = _ at h
      rcases List.append_eq_append_iff.1 h with ⟨x, h1, h2⟩ | ⟨x, h1, h2⟩
      · obtain ⟨a, b, k1, k2, k3⟩ := utf8_split t x post h2
        refine ⟨c :: a, b, by rw [k1]; rfl, ?_, k3⟩
        change String.utf8EncodeChar c ++ asBytes a = _
        rw [k2, h1]
      · cases x with
        | nil =>
          rw [List.append_nil] at h1
          obtain ⟨a, b, k1, k2, k3⟩ := utf8_split t [] post h2.symm
          refine ⟨c :: a, b, by rw [k1]; rfl, ?_, k3⟩
          change String.utf8EncodeChar c ++ asBytes a = _
          rw [k2, h1, List.append_nil]
        | cons y x =>
          simp only [List.cons_append, List.cons.injEq] at h2
          rw [h1, ← h2.1] at hn
          exact absurd (by simp) hn

theorem lost_utf8 (room : Nat) (t : Text) :
    Lost room (asBytes t) ↔ ∃ pre post, t = pre ++ '\n' :: post ∧ room ≤ (asBytes pre).length := by
  constructor
  · rintro ⟨pre, post, h, hr⟩
    obtain ⟨a, b, h1, rfl, -⟩ := utf8_split t pre post h
    exact ⟨a, b, h1, hr⟩
  · rintro ⟨pre, post, rfl, hr⟩
    refine ⟨asBytes pre, asBytes post, ?_, hr⟩
    rw [utf8_append]
    congr 1

/-! ### The actions of the program -/

theorem colourPieces_flatten (coloured : Bool) (e : Ev) (h : ∀ t, e ≠ .text t) :
    (colourPieces coloured e).flatten = asBytes (e.written coloured) := by
  cases e with
  | text t => exact absurd rfl (h t)
  | reset => cases coloured <;> simp [colourPieces, Ev.written, asBytes]
  | setColor c =>
    cases coloured with
    | false => rfl
    | true =>
      obtain ⟨b, fg⟩ := c
      cases b <;> cases fg <;> simp [colourPieces, Ev.written, ansiSetColor, asBytes]

theorem sgr_quiet (k : Colour) : '\n' ∉ sgr "0" ∧ '\n' ∉ sgr "1" ∧ '\n' ∉ sgr k.code := by
  cases k <;> decide +kernel

theorem written_quiet (coloured : Bool) (e : Ev) (h : ∀ t, e ≠ .text t) : '\n' ∉ e.written coloured := by
  cases e with
  | text t => exact absurd rfl (h t)
  | reset =>
    cases coloured
    · simp [Ev.written]
    · exact (sgr_quiet .red).1
  | setColor c =>
    cases coloured with
    | false => simp [Ev.written]
    | true =>
      obtain ⟨b, fg⟩ := c
      have h0 := (sgr_quiet .red).1
      have h1 := (sgr_quiet .red).2.1
      show '\n' ∉ ansiSetColor _
      rw [ansiSetColor]
      simp only [List.mem_append, not_or]
      refine ⟨⟨h0, ?_⟩, ?_⟩
      · cases b
        · simp
        · exact h1
      · cases fg with
        | none => simp
        | some k => exact (sgr_quiet k).2.2

theorem utf8_no_break {t : Text} (h : '\n' ∉ t) : 10 ∉ asBytes t := by
  intro hm
  rw [asBytes, List.mem_flatMap] at hm
  obtain ⟨c, hc, hm⟩ := hm
  rw [utf8_char c hm] at hc
  exact h hc

theorem writes_facts {coloured : Bool} {evs : List Ev} {as : List Action} (h : Writes coloured evs as) :
    actionBytes as = asBytes (written coloured evs) ∧ checkedBytes as = asBytes (evText evs) ∧ QuietColours as := by
  induction h with
  | nil => exact ⟨rfl, rfl, fun a h => by cases h⟩
  | text t pieces h rest ih =>
    obtain ⟨h1, h2, h3⟩ := ih
    refine ⟨?_, ?_, ?_⟩
    · show pieces.flatten ++ actionBytes _ = asBytes (t ++ written coloured _)
      rw [h, h1, utf8_append]
    · show pieces.flatten ++ checkedBytes _ = asBytes (t ++ evText _)
      rw [h, h2, utf8_append]
    · intro a ha
      rcases List.mem_cons.1 ha with rfl | ha
      · intro hf; cases hf
      · exact h3 a ha
  | setColor c rest ih =>
    obtain ⟨h1, h2, h3⟩ := ih
    have e := colourPieces_flatten coloured (.setColor c) (by intro t h; cases h)
    refine ⟨?_, h2, ?_⟩
    · show (colourPieces coloured (.setColor c)).flatten ++ actionBytes _ = asBytes (_ ++ written coloured _)
      rw [e, h1, ← utf8_append]
    · intro a ha
      rcases List.mem_cons.1 ha with rfl | ha
      · intro _
        show 10 ∉ (colourPieces coloured (.setColor c)).flatten
        rw [e]
        exact utf8_no_break (written_quiet coloured _ (by intro t h; cases h))
      · exact h3 a ha
  | reset rest ih =>
    obtain ⟨h1, h2, h3⟩ := ih
    have e := colourPieces_flatten coloured .reset (by intro t h; cases h)
    refine ⟨?_, h2, ?_⟩
    · show (colourPieces coloured .reset).flatten ++ actionBytes _ = asBytes (_ ++ written coloured _)
      rw [e, h1, ← utf8_append]
    · intro a ha
      rcases List.mem_cons.1 ha with rfl | ha
      · intro _
        show 10 ∉ (colourPieces coloured .reset).flatten
        rw [e]
        exact utf8_no_break (written_quiet coloured _ (by intro t h; cases h))
      · exact h3 a ha

/-- The text of a run that does not panic is empty or ends with a line break. -/
theorem run_ends_line (m : Machine) (ops : CliOps) (masks : List Char) (sort : Bool)
    (h : (run m ops masks sort).disp.panicked = false) :
    (run m ops masks sort).disp.text = [] ∨ ∃ t, (run m ops masks sort).disp.text = t ++ ['\n'] := by
  rw [run_eq] at h ⊢
  cases hs : selected ops with
  | none => exact Or.inl rfl
  | some p =>
    obtain ⟨op, s⟩ := p
    rw [hs] at h
    show (runOp m masks sort op s).disp.text = [] ∨ ∃ t, (runOp m masks sort op s).disp.text = t ++ ['\n']
    replace h : (runOp m masks sort op s).disp.panicked = false := h
    obtain ⟨ls, d, ht, hd, hl⟩ := run_document m masks sort op s
    rcases ht with ht | ⟨hp, -⟩
    · rw [ht, shows_text hd]
      have hw := whole_document hl
      show docText 0 ls = [] ∨ ∃ t, docText 0 ls = t ++ ['\n']
      by_cases hne : ls = []
      · rw [hne]; exact Or.inl rfl
      · right
        obtain ⟨l, hlast⟩ := List.getLast?_isSome.2 hne |> Option.isSome_iff_exists.1
        obtain ⟨xs, rfl⟩ := List.getLast?_eq_some_iff.1 hlast
        obtain ⟨t, e, -⟩ := hw l (by simp)
        replace e : cellText l.cells = t ++ ['\n'] := e
        have e2 : docText 0 (xs ++ [l]) = docText 0 xs ++ cellText (l.render 0) := by
          rw [docText_append]
          show _ ++ cellText (l.render 0 ++ []) = _
          rw [List.append_nil]
        rw [e2, render_text, e]
        exact ⟨_, (List.append_assoc ..).symm.trans (List.append_assoc ..).symm⟩
    · rw [h] at hp; cases hp

/-! ### The size of the buffer -/

/-- A call keeps the buffer within its size. -/
def Keeps (s : Stream) (x : Written) : Prop :=
  x.1.capacity = s.capacity ∧ (s.buffer.length ≤ s.capacity → x.1.buffer.length ≤ s.capacity)

theorem Keeps.skip (s : Stream) : Keeps s (s, true) := ⟨rfl, id⟩

theorem Keeps.andThen {s : Stream} {x : Written} {f : Stream → Written} (h : Keeps s x) (hf : Keeps x.1 (f x.1)) :
    Keeps s (x.andThen f) := by
  rw [Written.andThen]
  split
  · refine ⟨hf.1.trans h.1, fun hs => ?_⟩
    have h2 := h.2 hs
    rw [← h.1] at h2 ⊢
    exact hf.2 h2
  · exact h

theorem keeps_raw (s : Stream) (bs : List Byte) : Keeps s (s.raw bs) := by
  rw [Stream.raw]
  split <;> exact ⟨rfl, id⟩

theorem keeps_flush (s : Stream) : Keeps s s.flush := by
  rw [Stream.flush]
  split
  · exact ⟨(keeps_raw s s.buffer).1, fun _ => Nat.zero_le _⟩
  · refine ⟨(keeps_raw s s.buffer).1, fun h => ?_⟩
    show (s.buffer.drop s.room).length ≤ _
    rw [List.length_drop]
    omega

theorem keeps_bufWrite (s : Stream) (bs : List Byte) : Keeps s (s.bufWrite bs) := by
  rw [Stream.bufWrite]
  split
  · refine ⟨rfl, fun h => ?_⟩
    show (s.buffer ++ bs).length ≤ _
    rw [List.length_append]
    omega
  · split
    · rename_i h1 h2
      rw [Written.andThen]
      split
      · rename_i h3
        have hb : s.flush.1.buffer = [] := by
          rw [Stream.flush] at h3 ⊢
          split
          · rfl
          · rename_i h4
            rw [if_neg h4] at h3
            cases h3
        have hc := (keeps_flush s).1
        split
        · refine ⟨(keeps_raw _ bs).1.trans hc, fun h => ?_⟩
          have := (keeps_raw s.flush.1 bs).2
          rw [hb, hc] at this
          exact this (Nat.zero_le _)
        · rename_i h4
          refine ⟨hc, fun h => ?_⟩
          show (s.flush.1.buffer ++ bs).length ≤ _
          rw [hb, List.nil_append, ← hc]
          omega
      · exact keeps_flush s
    · rw [Written.andThen, if_pos rfl]
      split
      · exact keeps_raw s bs
      · refine ⟨rfl, fun h => ?_⟩
        show (s.buffer ++ bs).length ≤ _
        rw [List.length_append]
        omega

theorem keeps_lineWrite (s : Stream) (bs : List Byte) : Keeps s (s.lineWrite bs) := by
  rw [Stream.lineWrite]
  split
  · refine Keeps.andThen ?_ (keeps_bufWrite _ _)
    split
    · exact keeps_flush s
    · exact .skip s
  · refine Keeps.andThen ?_ (keeps_bufWrite _ _)
    split
    · exact keeps_raw s _
    · exact (keeps_bufWrite s _).andThen (keeps_flush _)

theorem keeps_pieces : ∀ (ps : List (List Byte)) (s : Stream), Keeps s (s.writePieces ps)
  | [], s => .skip s
  | p :: ps, s => by
    rw [Stream.writePieces]
    exact (keeps_lineWrite s p).andThen (keeps_pieces ps _)

theorem keeps_perform : ∀ (as : List Action) (s : Stream), Keeps s (perform s as)
  | [], s => ⟨rfl, id⟩
  | a :: as, s => by
    have h := keeps_pieces a.pieces s
    rw [perform]
    split
    · exact h
    · have g := keeps_perform as (s.writePieces a.pieces).1
      refine ⟨g.1.trans h.1, fun hs => ?_⟩
      have h2 := h.2 hs
      have g2 := g.2
      rw [h.1] at g2
      exact g2 h2

end Pemv
