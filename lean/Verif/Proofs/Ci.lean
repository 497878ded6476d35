import Verif.Spec.Ci

/-!
# Proofs about the check for misplaced `use` statements
-/

namespace Pemv

open Spec

/-- The character before a place, if a text comes before it. -/
def lastOr (prev : Option Char) (t : Text) : Option Char := match t.getLast? with | some c => some c | none => prev

theorem lastOr_nil (prev : Option Char) : lastOr prev [] = prev := rfl

theorem lastOr_cons (prev : Option Char) (c : Char) (t : Text) : lastOr prev (c :: t) = lastOr (some c) t := by
  cases t with
  | nil => rfl
  | cons d t =>
    rw [lastOr, lastOr, List.getLast?_cons_cons]
    obtain ⟨x, hx⟩ : ∃ x, (d :: t).getLast? = some x := by
      cases h : (d :: t).getLast? with
      | none => rw [List.getLast?_eq_none_iff] at h; cases h
      | some x => exact ⟨x, rfl⟩
    rw [hx]

theorem lastOr_snoc (prev : Option Char) (t : Text) (c : Char) : lastOr prev (t ++ [c]) = some c := by
  rw [lastOr, List.getLast?_concat]

theorem matchHere_word (w : Text) (ps : List Piece) : ∀ (prev : Option Char) (s : Text),
    matchHere (w.map Piece.char ++ ps) prev s = true ↔ ∃ r, s = w ++ r ∧ matchHere ps (lastOr prev w) r = true := by
  induction w with
  | nil =>
    intro prev s
    exact ⟨fun h => ⟨s, rfl, h⟩, fun ⟨r, h1, h2⟩ => by rw [h1]; exact h2⟩
  | cons c w ih =>
    intro prev s
    cases s with
    | nil =>
      rw [List.map_cons, List.cons_append, matchHere]
      exact ⟨(fun h => nomatch h), (fun ⟨r, h, _⟩ => nomatch h)⟩
    | cons x s =>
      rw [List.map_cons, List.cons_append, matchHere, Bool.and_eq_true, beq_iff_eq, ih]
      constructor
      · rintro ⟨rfl, r, rfl, h⟩
        exact ⟨r, rfl, by rw [lastOr_cons]; exact h⟩
      · rintro ⟨r, h1, h2⟩
        injection h1 with h3 h4
        subst h3
        refine ⟨rfl, r, h4, ?_⟩
        rw [lastOr_cons] at h2
        exact h2

theorem afterSome_iff (f : Option Char → Text → Bool) : ∀ s : Text,
    afterSome f s = true ↔ ∃ m x r, s = m ++ x :: r ∧ f (some x) r = true
  | [] => by
    rw [afterSome]
    exact ⟨(fun h => nomatch h), (fun ⟨m, x, r, h, _⟩ => by cases m <;> cases h)⟩
  | y :: s => by
    rw [afterSome, Bool.or_eq_true, afterSome_iff f s]
    constructor
    · rintro (h | ⟨m, x, r, rfl, h⟩)
      · exact ⟨[], y, s, rfl, h⟩
      · exact ⟨y :: m, x, r, rfl, h⟩
    · rintro ⟨m, x, r, h1, h2⟩
      cases m with
      | nil =>
        cases h1
        exact Or.inl h2
      | cons z m =>
        injection h1 with h3 h4
        exact Or.inr ⟨m, x, r, h4, h2⟩

theorem matchHere_anything (ps : List Piece) (s : Text) (prev : Option Char) :
    matchHere (.anything :: ps) prev s = true ↔ ∃ m x r, s = m ++ x :: r ∧ matchHere ps (some x) r = true := by
  rw [matchHere, afterSome_iff]

theorem search_iff (ps : List Piece) : ∀ (s : Text) (prev : Option Char),
    search ps prev s = true ↔ ∃ a b, s = a ++ b ∧ matchHere ps (lastOr prev a) b = true
  | [], prev => by
    rw [search]
    constructor
    · exact fun h => ⟨[], [], rfl, h⟩
    · rintro ⟨a, b, h1, h2⟩
      obtain ⟨rfl, rfl⟩ := List.append_eq_nil_iff.1 h1.symm
      exact h2
  | x :: s, prev => by
    rw [search, Bool.or_eq_true, search_iff ps s]
    constructor
    · rintro (h | ⟨a, b, rfl, h⟩)
      · exact ⟨[], x :: s, rfl, h⟩
      · exact ⟨x :: a, b, rfl, by rw [lastOr_cons]; exact h⟩
    · rintro ⟨a, b, h1, h2⟩
      cases a with
      | nil =>
        rw [List.nil_append] at h1
        subst h1
        exact Or.inl h2
      | cons y a =>
        injection h1 with h3 h4
        subst h3
        rw [lastOr_cons] at h2
        exact Or.inr ⟨a, b, h4, h2⟩

/-- Where the pattern is found. -/
theorem search_pattern (s : Text) : search (compile usePattern) none s = true ↔
    ∃ a m r, s = a ++ ("use ".toList ++ (m ++ '\n' :: (usesHeader ++ r))) ∧
      (a = [] ∨ ∃ a', a = a' ++ ['\n']) ∧ (r = [] ∨ ∃ r', r = '\n' :: r') := by
  have hp : compile usePattern = .lineBegin :: ("use ".toList.map Piece.char ++
      (.anything :: .lineBegin :: (usesHeader.map Piece.char ++ [.lineEnd]))) := by decide +kernel
  have hl : ∀ a : Text, ((lastOr none a == none || lastOr none a == some '\n') = true) ↔ (a = [] ∨ ∃ a', a = a' ++ ['\n']) := by
    intro a
    rcases List.eq_nil_or_concat a with rfl | ⟨a', c, rfl⟩
    · simp [lastOr]
    · rw [List.concat_eq_append, lastOr_snoc]
      simp
  have hr : ∀ r : Text, ((r.head? == none || r.head? == some '\n') = true) ↔ (r = [] ∨ ∃ r', r = '\n' :: r') := by
    intro r
    cases r with
    | nil => simp
    | cons c r => simp
  rw [search_iff, hp]
  constructor
  · rintro ⟨a, b, rfl, h⟩
    rw [matchHere, Bool.and_eq_true, hl, matchHere_word] at h
    obtain ⟨h1, r1, rfl, h⟩ := h
    rw [matchHere_anything] at h
    obtain ⟨m, x, r2, rfl, h⟩ := h
    rw [matchHere, Bool.and_eq_true, matchHere_word] at h
    obtain ⟨h2, r, rfl, h⟩ := h
    rw [matchHere, Bool.and_eq_true, hr] at h
    have hx : x = '\n' := by simpa using h2
    subst hx
    exact ⟨a, m, r, rfl, h1, h.1⟩
  · rintro ⟨a, m, r, rfl, h1, h2⟩
    refine ⟨a, _, rfl, ?_⟩
    rw [matchHere, Bool.and_eq_true, hl, matchHere_word]
    refine ⟨h1, _, rfl, ?_⟩
    rw [matchHere_anything]
    refine ⟨m, '\n', _, rfl, ?_⟩
    rw [matchHere, Bool.and_eq_true, matchHere_word]
    refine ⟨rfl, r, rfl, ?_⟩
    rw [matchHere, Bool.and_eq_true, hr, matchHere]
    exact ⟨h2, rfl⟩

/-! ### Lines -/

theorem linesOf_ne_nil : ∀ s : Text, linesOf s ≠ []
  | [] => by rw [linesOf]; exact fun h => nomatch h
  | c :: s => by
    rw [linesOf]
    split
    · exact fun h => nomatch h
    · split <;> exact fun h => nomatch h

theorem linesOf_append (t : Text) : ∀ s : Text, linesOf (s ++ '\n' :: t) = linesOf s ++ linesOf t
  | [] => by rw [List.nil_append, linesOf.eq_2, if_pos rfl]; rfl
  | c :: s => by
    rw [List.cons_append, linesOf, linesOf, linesOf_append t s]
    split
    · rfl
    · obtain ⟨l, ls, h⟩ : ∃ l ls, linesOf s = l :: ls := by
        cases h : linesOf s with
        | nil => exact absurd h (linesOf_ne_nil s)
        | cons l ls => exact ⟨l, ls, rfl⟩
      rw [h]; rfl

/-- Lines put together again. -/
def ended (ls : List Text) : Text := ls.flatMap (fun l => l ++ ['\n'])

theorem linesOf_join : ∀ s : Text, s ++ ['\n'] = ended (linesOf s)
  | [] => rfl
  | c :: s => by
    have ih := linesOf_join s
    rw [linesOf]
    split
    · rename_i h
      subst h
      rw [List.cons_append, ih]; rfl
    · split
      · rename_i l ls h
        rw [h] at ih
        rw [List.cons_append, ih]; rfl
      · rename_i h
        exact absurd h (linesOf_ne_nil s)

theorem linesOf_one : ∀ l : Text, '\n' ∉ l → linesOf l = [l]
  | [], _ => rfl
  | c :: l, h => by
    rw [linesOf, if_neg (fun e => h (by rw [e]; exact List.mem_cons_self)),
      linesOf_one l (fun h' => h (List.mem_cons_of_mem _ h'))]

theorem linesOf_prefix (w t : Text) (h : '\n' ∉ w) : ∃ rest ls, linesOf (w ++ t) = (w ++ rest) :: ls := by
  induction w with
  | nil =>
    cases e : linesOf t with
    | nil => exact absurd e (linesOf_ne_nil t)
    | cons l ls => exact ⟨l, ls, e⟩
  | cons c w ih =>
    obtain ⟨rest, ls, e⟩ := ih (fun h' => h (List.mem_cons_of_mem _ h'))
    refine ⟨rest, ls, ?_⟩
    rw [List.cons_append, linesOf, if_neg (fun e => h (by rw [e]; exact List.mem_cons_self)), e]
    rfl

theorem ended_snoc (ls : List Text) (t : Text) : ∃ m, t ++ '\n' :: ended ls = m ++ ['\n'] := by
  rcases List.eq_nil_or_concat ls with rfl | ⟨ls', l, rfl⟩
  · exact ⟨t, rfl⟩
  · refine ⟨t ++ '\n' :: (ended ls' ++ l), ?_⟩
    rw [ended, List.concat_eq_append, List.flatMap_append]
    simp [ended]

/-- The pattern is found if and only if a line that begins with `use` is above the header. -/
theorem search_lines (s : Text) :
    search (compile usePattern) none s = true ↔ Above BeginsWithUse (fun l => l = usesHeader) s := by
  rw [search_pattern]
  have hu : '\n' ∉ usesHeader := by decide +kernel
  constructor
  · rintro ⟨a, m, r, rfl, ha, hr⟩
    have hlast : ∃ zs, linesOf (usesHeader ++ r) = usesHeader :: zs := by
      rcases hr with rfl | ⟨r', rfl⟩
      · exact ⟨[], by rw [List.append_nil, linesOf_one _ hu]⟩
      · exact ⟨_, by rw [linesOf_append, linesOf_one _ hu]; rfl⟩
    obtain ⟨zs, hz⟩ := hlast
    obtain ⟨rest, ys, hy⟩ := linesOf_prefix "use ".toList m (by decide)
    have hmid : linesOf ("use ".toList ++ (m ++ '\n' :: (usesHeader ++ r))) =
        ("use ".toList ++ rest) :: ys ++ usesHeader :: zs := by
      rw [← List.append_assoc, linesOf_append, hy, hz]
    have hall : ∃ xs, linesOf (a ++ ("use ".toList ++ (m ++ '\n' :: (usesHeader ++ r)))) =
        xs ++ (("use ".toList ++ rest) :: ys ++ usesHeader :: zs) := by
      rcases ha with rfl | ⟨a', rfl⟩
      · exact ⟨[], hmid⟩
      · exact ⟨linesOf a', by rw [List.append_assoc, List.singleton_append, linesOf_append, hmid]⟩
    obtain ⟨xs, hx⟩ := hall
    refine ⟨xs, "use ".toList ++ rest, ys, usesHeader, zs, ?_, ⟨rest, rfl⟩, rfl⟩
    rw [hx]; simp only [List.append_assoc, List.cons_append]
  · rintro ⟨xs, u, ys, h, zs, hs, ⟨rest, rfl⟩, rfl⟩
    have hj := linesOf_join s
    rw [hs] at hj
    have e : ended (xs ++ ("use ".toList ++ rest) :: ys ++ usesHeader :: zs) =
        ended xs ++ ("use ".toList ++ (rest ++ '\n' :: ended ys) ++ (usesHeader ++ '\n' :: ended zs)) := by
      simp [ended, List.flatMap_append, List.append_assoc]
    obtain ⟨m, hm⟩ := ended_snoc ys rest
    obtain ⟨r, hr⟩ : ∃ r, usesHeader ++ '\n' :: ended zs = usesHeader ++ (r ++ ['\n']) := by
      obtain ⟨r, hr⟩ := ended_snoc zs []
      exact ⟨r, by rw [← hr]; rfl⟩
    rw [e, hm, hr] at hj
    refine ⟨ended xs, m, r, ?_, ?_, ?_⟩
    · apply List.append_cancel_right (bs := ['\n'])
      rw [hj]
      simp only [List.append_assoc, List.cons_append, List.nil_append]
    · rcases List.eq_nil_or_concat xs with rfl | ⟨xs', l, rfl⟩
      · exact Or.inl rfl
      · refine Or.inr ⟨ended xs' ++ l, ?_⟩
        rw [ended, List.concat_eq_append, List.flatMap_append]
        simp [ended]
    · have hr' := List.append_cancel_left hr
      cases r with
      | nil => exact Or.inl rfl
      | cons c r =>
        injection hr' with h1 h2
        exact Or.inr ⟨r, by rw [← h1]⟩

theorem isRust_iff (f : SourceFile) : isRust f = true ↔ ∃ name, f.name = name ++ ".rs".toList := by
  rw [isRust, List.isSuffixOf_iff_suffix]
  exact ⟨fun ⟨t, h⟩ => ⟨t, h.symm⟩, fun ⟨t, h⟩ => ⟨t, h.symm⟩⟩

end Pemv
