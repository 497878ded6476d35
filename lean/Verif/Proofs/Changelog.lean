import Verif.Spec.Changelog
import Verif.Proofs.Ci

/-!
# Lemmas on the list of changes
-/

namespace Pemv

open Spec

theorem messageLines_eq : ∀ s : Text, linesOf s = (messageLines s).1 :: (messageLines s).2
  | [] => rfl
  | c :: s => by
    rw [linesOf, messageLines_eq s]
    by_cases h : c = '\n'
    · subst h; rw [if_pos rfl, messageLines]
    · rw [if_neg h, messageLines.eq_3 _ _ (fun e => h e)]

theorem messageLines_noBreak : ∀ s : Text, '\n' ∉ (messageLines s).1
  | [] => by simp [messageLines]
  | c :: s => by
    by_cases h : c = '\n'
    · subst h; rw [messageLines]; simp
    · rw [messageLines.eq_3 _ _ (fun e => h e)]
      intro hm
      rcases List.mem_cons.1 hm with e | hm
      · exact h e.symm
      · exact messageLines_noBreak s hm

theorem beginsWith_iff (p s : Text) : BeginsWith p s ↔ p.isPrefixOf s = true := by
  rw [List.isPrefixOf_iff_prefix]
  exact ⟨fun ⟨r, h⟩ => ⟨r, h.symm⟩, fun ⟨r, h⟩ => ⟨r, h.symm⟩⟩

theorem isBreakingNote_iff (l : Text) : isBreakingNote l = true ↔ NotesBreaking l := by
  rw [isBreakingNote, Bool.or_eq_true, ← beginsWith_iff, ← beginsWith_iff]; rfl

theorem hasBreakingNote_iff (message : Text) :
    hasBreakingNote message = true ↔ ∃ l ∈ (linesOf message).tail, NotesBreaking l := by
  rw [hasBreakingNote, List.any_eq_true, messageLines_eq, List.tail_cons]
  exact ⟨fun ⟨l, h, h'⟩ => ⟨l, h, (isBreakingNote_iff l).1 h'⟩, fun ⟨l, h, h'⟩ => ⟨l, h, (isBreakingNote_iff l).2 h'⟩⟩

theorem hasWord_iff (w : Text) : ∀ s : Text, hasWord w s = true ↔ ∃ a b, s = a ++ w ++ b
  | [] => by
    rw [hasWord, List.isEmpty_iff]
    constructor
    · rintro rfl; exact ⟨[], [], rfl⟩
    · rintro ⟨a, b, h⟩
      have := congrArg List.length h
      simp only [List.length_append, List.length_nil] at this
      exact List.length_eq_zero_iff.1 (by omega)
  | c :: s => by
    rw [hasWord, Bool.or_eq_true, ← beginsWith_iff, hasWord_iff w s]
    constructor
    · rintro (⟨r, h⟩ | ⟨a, b, h⟩)
      · exact ⟨[], r, h⟩
      · exact ⟨c :: a, b, by rw [h]; rfl⟩
    · rintro ⟨a, b, h⟩
      cases a with
      | nil => exact Or.inl ⟨b, h⟩
      | cons x a =>
        injection h with h1 h2
        exact Or.inr ⟨a, b, h2⟩

/-- A line above which, and in which, there is no note. -/
theorem takeWhile_mem {α : Type} (p : α → Bool) (x : α) : ∀ l : List α,
    x ∈ l.takeWhile p ↔ ∃ above below, l = above ++ x :: below ∧ ∀ y ∈ above ++ [x], p y = true
  | [] => by
    constructor
    · intro h; cases h
    · rintro ⟨a, b, h, -⟩
      cases a <;> cases h
  | y :: l => by
    constructor
    · intro h
      by_cases hy : p y = true
      · rw [List.takeWhile_cons, if_pos hy] at h
        rcases List.mem_cons.1 h with rfl | h
        · exact ⟨[], l, rfl, by simpa using hy⟩
        · obtain ⟨a, b, h1, h2⟩ := (takeWhile_mem p x l).1 h
          refine ⟨y :: a, b, by rw [h1]; rfl, ?_⟩
          intro z hz
          rcases List.mem_cons.1 hz with rfl | hz
          · exact hy
          · exact h2 z hz
      · rw [List.takeWhile_cons, if_neg hy] at h; cases h
    · rintro ⟨a, b, h1, h2⟩
      cases a with
      | nil =>
        injection h1 with h1 h3
        subst h1
        rw [List.takeWhile_cons, if_pos (h2 _ (by simp))]
        exact List.mem_cons_self
      | cons z a =>
        injection h1 with h1 h3
        subst h1
        rw [List.takeWhile_cons, if_pos (h2 _ (by simp))]
        exact List.mem_cons_of_mem _ ((takeWhile_mem p x l).2 ⟨a, b, h3, fun w hw => h2 w (List.mem_cons_of_mem _ hw)⟩)

theorem security_iff (message : Text) :
    (bodyLines message).any (hasWord "security".toList) = true ↔ MentionsSecurity message := by
  rw [List.any_eq_true]
  unfold MentionsSecurity bodyLines
  rw [messageLines_eq, List.tail_cons]
  constructor
  · rintro ⟨l, h1, h2⟩
    obtain ⟨a, b, h3, h4⟩ := (takeWhile_mem _ _ _).1 h1
    refine ⟨a, l, b, h3, fun x hx hn => ?_, (hasWord_iff _ _).1 h2⟩
    have := h4 x hx
    rw [(isBreakingNote_iff x).2 hn] at this
    cases this
  · rintro ⟨a, l, b, h3, h4, h5⟩
    refine ⟨l, (takeWhile_mem _ _ _).2 ⟨a, b, h3, fun x hx => ?_⟩, (hasWord_iff _ _).2 h5⟩
    cases e : isBreakingNote x with
    | true => exact absurd ((isBreakingNote_iff x).1 e) (h4 x hx)
    | false => rfl

/-! ### Conventional commits -/

theorem takeWhile_stop {p : Char → Bool} {a r : Text} (ha : ∀ c ∈ a, p c = true) (hr : ∀ c, r.head? = some c → p c = false) :
    (a ++ r).takeWhile p = a ∧ (a ++ r).dropWhile p = r := by
  rw [List.takeWhile_append_of_pos ha, List.dropWhile_append_of_pos ha]
  cases r with
  | nil => simp
  | cons c r =>
    have := hr c rfl
    rw [List.takeWhile_cons, List.dropWhile_cons, if_neg (by rw [this]; decide), if_neg (by rw [this]; decide)]
    simp

theorem takeWhile_split (p : Char → Bool) (s : Text) :
    s = s.takeWhile p ++ s.dropWhile p ∧ (∀ c ∈ s.takeWhile p, p c = true) ∧
      ∀ c, (s.dropWhile p).head? = some c → p c = false := by
  refine ⟨(List.takeWhile_append_dropWhile).symm, ?_, ?_⟩
  · intro c h
    obtain ⟨a, b, -, h2⟩ := (takeWhile_mem p c s).1 h
    exact h2 c (by simp)
  · intro c h
    have := List.head?_dropWhile_not p s
    rw [h] at this
    simpa using this

theorem isTypeChar_iff (c : Char) : isTypeChar c = true ↔ c ∉ "():! \t".toList ∧ c ≠ '\n' := by
  simp [isTypeChar, and_assoc]

theorem isScopeChar_iff (c : Char) : isScopeChar c = true ↔ c ∉ "()".toList ∧ c ≠ '\n' := by
  simp [isScopeChar, and_assoc]

/-- A scope in brackets, or none. -/
def IsScope (scope : Text) : Prop :=
  scope = [] ∨ ∃ name, scope = "(".toList ++ name ++ ")".toList ∧ name ≠ [] ∧ ∀ c ∈ name, isScopeChar c = true

theorem afterScope_iff (s r : Text) (hr : r.head? ≠ some '(') :
    afterScope s = some r ↔ ∃ scope, s = scope ++ r ∧ IsScope scope := by
  constructor
  · intro h
    unfold afterScope at h
    split at h
    · rename_i t
      split at h
      · cases h
      · rename_i h1
        split at h
        · rename_i t' h2
          cases h
          obtain ⟨h3, h4, -⟩ := takeWhile_split isScopeChar t
          refine ⟨"(".toList ++ t.takeWhile isScopeChar ++ ")".toList, ?_, Or.inr ⟨_, rfl, h1, h4⟩⟩
          rw [h2] at h3
          conv => lhs; rw [h3]
          simp
        · cases h
    · cases h
      exact ⟨[], rfl, Or.inl rfl⟩
  · rintro ⟨scope, rfl, rfl | ⟨name, rfl, hn, hc⟩⟩
    · unfold afterScope
      split
      · rename_i h; exact absurd (congrArg List.head? h) hr
      · rfl
    · have h1 : "(".toList ++ name ++ ")".toList ++ r = '(' :: (name ++ ')' :: r) := by simp
      obtain ⟨h2, h3⟩ := takeWhile_stop (p := isScopeChar) (a := name) (r := ')' :: r) hc
        (by intro c h; cases h; decide)
      rw [h1, afterScope, h2, h3, if_neg hn]; rfl

theorem parseSubject_iff (s : Text) (conv : Conventional) : parseSubject s = some conv ↔
    ∃ scope spaces, s = conv.type ++ scope ++ (if conv.bang then "!".toList else []) ++ ":".toList ++ spaces ++
        conv.description ∧
      conv.type ≠ [] ∧ (∀ c ∈ conv.type, isTypeChar c = true) ∧ IsScope scope ∧
      (∀ c ∈ spaces, c = ' ') ∧ conv.description ≠ [] ∧ conv.description.head? ≠ some ' ' := by
  constructor
  · intro h
    unfold parseSubject at h
    split at h
    · cases h
    · rename_i ht
      obtain ⟨h1, h2, -⟩ := takeWhile_split isTypeChar s
      have fin : ∀ (bang : Bool) (r : Text),
          afterScope (s.dropWhile isTypeChar) = some ((if bang then "!".toList else []) ++ ':' :: r) →
          (if r.dropWhile (· == ' ') = [] then none
            else some (⟨s.takeWhile isTypeChar, bang, r.dropWhile (· == ' ')⟩ : Conventional)) = some conv →
          ∃ scope spaces, s = conv.type ++ scope ++ (if conv.bang then "!".toList else []) ++ ":".toList ++ spaces ++
              conv.description ∧
            conv.type ≠ [] ∧ (∀ c ∈ conv.type, isTypeChar c = true) ∧ IsScope scope ∧
            (∀ c ∈ spaces, c = ' ') ∧ conv.description ≠ [] ∧ conv.description.head? ≠ some ' ' := by
        intro bang r ha hc
        obtain ⟨scope, h3, h4⟩ := (afterScope_iff _ _ (by cases bang <;> simp)).1 ha
        obtain ⟨h5, h6, h7⟩ := takeWhile_split (· == ' ') r
        by_cases hd : r.dropWhile (· == ' ') = []
        · rw [if_pos hd] at hc; cases hc
        · rw [if_neg hd] at hc
          cases hc
          refine ⟨scope, r.takeWhile (· == ' '), ?_, ht, h2, h4, fun c h => by simpa using h6 c h, hd, fun h => ?_⟩
          · conv => lhs; rw [h1, h3, h5]
            simp
          · have := h7 _ h
            simp at this
      split at h
      · rename_i r ha; exact fin true r ha h
      · rename_i r ha; exact fin false r ha h
      · cases h
  · obtain ⟨type, bang, description⟩ := conv
    rintro ⟨scope, spaces, h1, h2, h3, h4, h5, h6, h7⟩
    dsimp only at h1 h2 h3 h6 h7
    obtain ⟨h8, h9⟩ := takeWhile_stop (p := isTypeChar) (a := type)
      (r := scope ++ ((if bang then "!".toList else []) ++ ':' :: (spaces ++ description))) h3 (by
        intro c hc
        rcases h4 with rfl | ⟨name, rfl, -, -⟩
        · cases bang
          · simp at hc; subst hc; decide
          · simp at hc; subst hc; decide
        · simp at hc; subst hc; decide)
    have h10 : s = type ++ (scope ++ ((if bang then "!".toList else []) ++ ':' :: (spaces ++ description))) := by
      rw [h1]; simp
    have h11 := (afterScope_iff (scope ++ ((if bang then "!".toList else []) ++ ':' :: (spaces ++ description))) _
      (by cases bang <;> simp)).2 ⟨scope, rfl, h4⟩
    obtain ⟨-, h12⟩ := takeWhile_stop (p := (· == ' ')) (a := spaces) (r := description)
      (fun c h => by simpa using h5 c h) (fun c h => by
        cases e : c == ' ' with
        | false => rfl
        | true => exact absurd (h.trans (congrArg some (by simpa using e))) h7)
    unfold parseSubject
    rw [h10, h8, h9, if_neg h2, h11]
    cases bang
    · show (if (spaces ++ description).dropWhile (· == ' ') = [] then none else _) = _
      rw [h12, if_neg h6]
    · show (if (spaces ++ description).dropWhile (· == ' ') = [] then none else _) = _
      rw [h12, if_neg h6]

theorem conventional_iff (message : Text) (conv : Conventional) : parseSubject (messageLines message).1 = some conv ↔
    IsConventional message conv.type conv.bang conv.description := by
  rw [parseSubject_iff]
  have hn := messageLines_noBreak message
  have scopes : ∀ scope : Text, '\n' ∉ scope → (IsScope scope ↔
      (scope = [] ∨ ∃ name, scope = "(".toList ++ name ++ ")".toList ∧ name ≠ [] ∧ ∀ c ∈ name, c ∉ "()".toList)) := by
    intro scope hs
    constructor
    · rintro (h | ⟨name, h1, h2, h3⟩)
      · exact Or.inl h
      · exact Or.inr ⟨name, h1, h2, fun c hc => ((isScopeChar_iff c).1 (h3 c hc)).1⟩
    · rintro (h | ⟨name, h1, h2, h3⟩)
      · exact Or.inl h
      · refine Or.inr ⟨name, h1, h2, fun c hc => (isScopeChar_iff c).2 ⟨h3 c hc, ?_⟩⟩
        rintro rfl
        exact hs (by rw [h1]; simp [hc])
  constructor
  · rintro ⟨scope, spaces, h1, h2, h3, h4, h5⟩
    refine ⟨scope, spaces, (messageLines message).2, by rw [messageLines_eq]; exact congrArg (· :: _) h1, h2,
      fun c hc => ((isTypeChar_iff c).1 (h3 c hc)).1, (scopes scope ?_).1 h4, h5⟩
    intro h; exact hn (by rw [h1]; simp [h])
  · rintro ⟨scope, spaces, below, h1, h2, h3, h4, h5⟩
    rw [messageLines_eq] at h1
    injection h1 with h1 _
    refine ⟨scope, spaces, h1, h2, fun c hc => (isTypeChar_iff c).2 ⟨h3 c hc, ?_⟩, (scopes scope ?_).2 h4, h5⟩
    · rintro rfl; exact hn (by rw [h1]; simp [hc])
    · intro h; exact hn (by rw [h1]; simp [h])

/-! ### Groups -/

theorem begins_one (w s : Text) : begins [[w]] s = w.isPrefixOf s := by
  simp [begins]

theorem begins_two (a b s : Text) : begins [[a, b]] s = (a.isPrefixOf s || b.isPrefixOf s) := by
  simp [begins]

theorem prefix_drop (a b s : Text) : (a.isPrefixOf s && b.isPrefixOf (s.drop a.length)) = (a ++ b).isPrefixOf s := by
  rw [Bool.eq_iff_iff, Bool.and_eq_true, ← beginsWith_iff, ← beginsWith_iff, ← beginsWith_iff]
  constructor
  · rintro ⟨⟨r, rfl⟩, ⟨r', h⟩⟩
    rw [List.drop_left] at h
    exact ⟨r', by rw [h]; simp⟩
  · rintro ⟨r, rfl⟩
    exact ⟨⟨b ++ r, by simp⟩, ⟨r, by rw [List.append_assoc, List.drop_left]⟩⟩

theorem begins_release (s : Text) :
    begins [["misc".toList, "chore".toList], ["(release): Prepare for ".toList]] s =
      ("misc(release): Prepare for ".toList.isPrefixOf s || "chore(release): Prepare for ".toList.isPrefixOf s) := by
  have h1 : "misc(release): Prepare for ".toList = "misc".toList ++ "(release): Prepare for ".toList := by decide +kernel
  have h2 : "chore(release): Prepare for ".toList = "chore".toList ++ "(release): Prepare for ".toList := by decide +kernel
  rw [h1, h2, ← prefix_drop, ← prefix_drop]
  simp only [begins, List.any_cons, List.any_nil, Bool.or_false, Bool.and_true]

/-- Two texts that a third begins with: one begins with the other. -/
theorem beginsWith_both {p q s : Text} (hp : BeginsWith p s) (hq : BeginsWith q s) : p.isPrefixOf q = true ∨ q.isPrefixOf p = true := by
  obtain ⟨a, ha⟩ := hp
  obtain ⟨b, hb⟩ := hq
  rw [List.isPrefixOf_iff_prefix, List.isPrefixOf_iff_prefix]
  exact List.prefix_or_prefix_of_prefix ⟨a, ha.symm⟩ ⟨b, hb.symm⟩

theorem heading_unique {message g g' : Text} (h : HasHeading message g) (h' : HasHeading message g') : g = g' := by
  obtain ⟨p, x, h1, h2, rfl⟩ := h
  obtain ⟨q, y, h3, h4, rfl⟩ := h'
  have key : ∀ e ∈ changeHeadings, ∀ f ∈ changeHeadings,
      (e.1.toList.isPrefixOf f.1.toList = true ∨ f.1.toList.isPrefixOf e.1.toList = true) → e.2 = f.2 := by decide +kernel
  exact congrArg String.toList (key _ h1 _ h3 (beginsWith_both h2 h4))

theorem not_both {p q s : Text} (hp : p.isPrefixOf s = true) (h : (p.isPrefixOf q || q.isPrefixOf p) = false) :
    q.isPrefixOf s = false := by
  rw [Bool.eq_false_iff]
  intro hq
  rw [Bool.or_eq_false_iff] at h
  rcases beginsWith_both ((beginsWith_iff p s).2 hp) ((beginsWith_iff q s).2 hq) with h' | h'
  · rw [h.1] at h'; cases h'
  · rw [h.2] at h'; cases h'

theorem isSkipped_iff (message : Text) : IsSkipped message ↔
    ("misc(release): Prepare for ".toList.isPrefixOf message || "chore(release): Prepare for ".toList.isPrefixOf message) = true ∨
      "revert".toList.isPrefixOf message = true := by
  rw [IsSkipped, Bool.or_eq_true, beginsWith_iff, beginsWith_iff, beginsWith_iff, or_assoc]

/-- What the first parser that matches says: whether to skip, and the group. -/
def parserFor (message : Text) : Option (Bool × Option Text) :=
  (commitParsers.find? (·.matches message)).map fun p => (p.skip, p.group)

theorem parserFor_eq (message : Text) : parserFor message =
    bif "feat".toList.isPrefixOf message then some (false, some "Features".toList)
    else bif "fix".toList.isPrefixOf message then some (false, some "Bug Fixes".toList)
    else bif "deprecate".toList.isPrefixOf message then some (false, some "Deprecated Features".toList)
    else bif "remove".toList.isPrefixOf message then some (false, some "Removed Features".toList)
    else bif "doc".toList.isPrefixOf message then some (false, some "Documentation".toList)
    else bif "perf".toList.isPrefixOf message then some (false, some "Performance".toList)
    else bif "refactor".toList.isPrefixOf message then some (false, some "Refactor".toList)
    else bif "test".toList.isPrefixOf message then some (false, some "Testing".toList)
    else bif "ci".toList.isPrefixOf message then some (false, some "Continuous Integration".toList)
    else bif "misc(release): Prepare for ".toList.isPrefixOf message ||
        "chore(release): Prepare for ".toList.isPrefixOf message then some (true, none)
    else bif "misc".toList.isPrefixOf message || "chore".toList.isPrefixOf message then
      some (false, some "Miscellaneous Tasks".toList)
    else bif "revert".toList.isPrefixOf message then some (true, none)
    else bif (bodyLines message).any (hasWord "security".toList) then some (false, some "Security".toList)
    else none := by
  have step : ∀ (p : CommitParser) (ps : List CommitParser),
      ((p :: ps).find? (·.matches message)).map (fun p => (p.skip, p.group)) =
        bif p.matches message then some (p.skip, p.group)
        else (ps.find? (·.matches message)).map fun p => (p.skip, p.group) := by
    intro p ps
    rw [List.find?_cons]
    cases p.matches message <;> rfl
  unfold parserFor commitParsers
  simp only [step]
  simp only [CommitParser.matches, begins_one, begins_two, begins_release, List.find?_nil, Option.map_none]

theorem groupOf_eq (message : Text) (conv : Conventional) (hc : parseSubject (messageLines message).1 = some conv) :
    groupOf message = match parserFor message with
      | none => some conv.type
      | some (skip, group) =>
        if skip && !(conv.bang || hasBreakingNote message) then none else some (group.getD conv.type) := by
  unfold groupOf parserFor
  rw [hc]
  cases commitParsers.find? (·.matches message) <;> rfl

/-- What is skipped has a parser that says so. -/
theorem parserFor_skipped (message : Text) (h : IsSkipped message) : parserFor message = some (true, none) := by
  rw [parserFor_eq]
  rw [isSkipped_iff] at h
  have go : ∀ p : Text, p.isPrefixOf message = true →
      (∀ q ∈ ["feat", "fix", "deprecate", "remove", "doc", "perf", "refactor", "test", "ci"],
        (p.isPrefixOf q.toList || q.toList.isPrefixOf p) = false) →
      ∀ q ∈ ["feat", "fix", "deprecate", "remove", "doc", "perf", "refactor", "test", "ci"],
        q.toList.isPrefixOf message = false :=
    fun p hp h q hq => not_both hp (h q hq)
  have all : ∀ q ∈ ["feat", "fix", "deprecate", "remove", "doc", "perf", "refactor", "test", "ci"],
      q.toList.isPrefixOf message = false := by
    rcases h with h | h
    · rcases Bool.or_eq_true _ _ ▸ h with h | h
      · exact go _ h (by decide +kernel)
      · exact go _ h (by decide +kernel)
    · exact go _ h (by decide +kernel)
  rw [all "feat" (by decide), all "fix" (by decide), all "deprecate" (by decide), all "remove" (by decide),
    all "doc" (by decide), all "perf" (by decide), all "refactor" (by decide), all "test" (by decide), all "ci" (by decide)]
  simp only [cond_false]
  rcases h with h | h
  · rw [h, cond_true]
  · rw [not_both h (q := "misc".toList) (by decide +kernel), not_both h (q := "chore".toList) (by decide +kernel),
      not_both h (q := "misc(release): Prepare for ".toList) (by decide +kernel),
      not_both h (q := "chore(release): Prepare for ".toList) (by decide +kernel), h]
    rfl

/-- What is not skipped is under the heading for it. -/
theorem parserFor_heading (message g : Text) (h : ¬ IsSkipped message) (hg : HasHeading message g) :
    parserFor message = some (false, some g) := by
  rw [parserFor_eq]
  rw [isSkipped_iff, not_or] at h
  have give : ∀ p x, (p, x) ∈ changeHeadings → ∀ rest : Option (Bool × Option Text),
      (p.toList.isPrefixOf message = false → rest = some (false, some g)) →
      (bif p.toList.isPrefixOf message then some (false, some x.toList) else rest) = some (false, some g) := by
    intro p x hm o ho
    cases hp : p.toList.isPrefixOf message with
    | false => exact ho hp
    | true => rw [heading_unique ⟨p, x, hm, (beginsWith_iff _ _).2 hp, rfl⟩ hg]; rfl
  refine give "feat" _ (by decide +kernel) _ fun h1 => ?_
  refine give "fix" _ (by decide +kernel) _ fun h2 => ?_
  refine give "deprecate" _ (by decide +kernel) _ fun h3 => ?_
  refine give "remove" _ (by decide +kernel) _ fun h4 => ?_
  refine give "doc" _ (by decide +kernel) _ fun h5 => ?_
  refine give "perf" _ (by decide +kernel) _ fun h6 => ?_
  refine give "refactor" _ (by decide +kernel) _ fun h7 => ?_
  refine give "test" _ (by decide +kernel) _ fun h8 => ?_
  refine give "ci" _ (by decide +kernel) _ fun h9 => ?_
  rw [Bool.eq_false_iff.2 h.1, cond_false]
  obtain ⟨p, x, hm, hb, rfl⟩ := hg
  have hb' := (beginsWith_iff _ _).1 hb
  simp only [changeHeadings, List.mem_cons, List.not_mem_nil, or_false, Prod.mk.injEq] at hm
  rcases hm with ⟨rfl, rfl⟩ | ⟨rfl, rfl⟩ | ⟨rfl, rfl⟩ | ⟨rfl, rfl⟩ | ⟨rfl, rfl⟩ | ⟨rfl, rfl⟩ | ⟨rfl, rfl⟩ | ⟨rfl, rfl⟩ |
    ⟨rfl, rfl⟩ | ⟨rfl, rfl⟩ | ⟨rfl, rfl⟩
  · rw [h1] at hb'; cases hb'
  · rw [h2] at hb'; cases hb'
  · rw [h3] at hb'; cases hb'
  · rw [h4] at hb'; cases hb'
  · rw [h5] at hb'; cases hb'
  · rw [h6] at hb'; cases hb'
  · rw [h7] at hb'; cases hb'
  · rw [h8] at hb'; cases hb'
  · rw [h9] at hb'; cases hb'
  · rw [hb', Bool.true_or, cond_true]
  · rw [hb', Bool.or_true, cond_true]

/-- Everything else: only the body counts. -/
theorem parserFor_plain (message : Text) (h : ¬ IsSkipped message) (hg : ∀ g, ¬ HasHeading message g) :
    parserFor message =
      bif (bodyLines message).any (hasWord "security".toList) then some (false, some "Security".toList) else none := by
  rw [parserFor_eq]
  rw [isSkipped_iff, not_or] at h
  have no : ∀ p, p ∈ changeHeadings.map Prod.fst → p.toList.isPrefixOf message = false := by
    intro p hm
    obtain ⟨⟨p, x⟩, he, rfl⟩ := List.mem_map.1 hm
    rw [Bool.eq_false_iff]
    exact fun hp => hg _ ⟨p, x, he, (beginsWith_iff _ _).2 hp, rfl⟩
  rw [no "feat" (by decide +kernel), no "fix" (by decide +kernel), no "deprecate" (by decide +kernel),
    no "remove" (by decide +kernel), no "doc" (by decide +kernel), no "perf" (by decide +kernel),
    no "refactor" (by decide +kernel), no "test" (by decide +kernel), no "ci" (by decide +kernel),
    no "misc" (by decide +kernel), no "chore" (by decide +kernel), Bool.eq_false_iff.2 h.1, Bool.eq_false_iff.2 h.2]
  rfl

/-! ### Commits by groups -/

theorem lt_or_eq_or_gt (a b : Text) : a < b ∨ a = b ∨ b < a := by
  by_cases h : a < b
  · exact Or.inl h
  · by_cases h' : b < a
    · exact Or.inr (Or.inr h')
    · exact Or.inr (Or.inl (List.le_antisymm (List.not_lt.1 h') (List.not_lt.1 h)))

/-- Groups in the order of their names. -/
def Ordered (gs : List (Text × List HistoryCommit)) : Prop := gs.Pairwise fun x y => x.1 < y.1

theorem mem_addCommit (g : Text) (c : HistoryCommit) : ∀ gs : List (Text × List HistoryCommit), Ordered gs →
    ∀ x, x ∈ addCommit g c gs ↔ (x.1 ≠ g ∧ x ∈ gs) ∨
      (x.1 = g ∧ ∃ old, x.2 = old ++ [c] ∧ ((g, old) ∈ gs ∨ (old = [] ∧ ∀ y ∈ gs, y.1 ≠ g)))
  | [], _, x => by
    rw [addCommit, List.mem_singleton]
    constructor
    · rintro rfl; exact Or.inr ⟨rfl, [], rfl, Or.inr ⟨rfl, fun _ h => nomatch h⟩⟩
    · rintro (⟨-, h⟩ | ⟨h, old, h', h'' | ⟨rfl, -⟩⟩)
      · cases h
      · cases h''
      · exact Prod.ext h h'
  | (h, cs) :: rest, ho, x => by
    obtain ⟨ho1, ho2⟩ := List.pairwise_cons.1 ho
    rw [addCommit]
    by_cases h1 : g < h
    · have nog : ∀ y ∈ (h, cs) :: rest, y.1 ≠ g := by
        intro y hy e
        rcases List.mem_cons.1 hy with rfl | hy
        · dsimp only at e; subst e; exact List.lt_irrefl _ h1
        · have := ho1 y hy
          rw [e] at this
          exact List.lt_irrefl _ (List.lt_trans h1 this)
      rw [if_pos h1, List.mem_cons]
      constructor
      · rintro (rfl | hx)
        · exact Or.inr ⟨rfl, [], rfl, Or.inr ⟨rfl, nog⟩⟩
        · exact Or.inl ⟨nog x hx, hx⟩
      · rintro (⟨-, hx⟩ | ⟨e, old, h2, h3 | ⟨rfl, -⟩⟩)
        · exact Or.inr hx
        · exact absurd rfl (nog _ h3)
        · exact Or.inl (Prod.ext e h2)
    · rw [if_neg h1]
      by_cases h2 : g = h
      · subst h2
        have nog : ∀ y ∈ rest, y.1 ≠ g := fun y hy e => List.lt_irrefl _ (e ▸ ho1 y hy)
        rw [if_pos rfl, List.mem_cons]
        constructor
        · rintro (rfl | hx)
          · exact Or.inr ⟨rfl, cs, rfl, Or.inl List.mem_cons_self⟩
          · exact Or.inl ⟨nog x hx, List.mem_cons_of_mem _ hx⟩
        · rintro (⟨hn, hx⟩ | ⟨e, old, h2, h3 | ⟨rfl, h3⟩⟩)
          · rcases List.mem_cons.1 hx with rfl | hx
            · exact absurd rfl hn
            · exact Or.inr hx
          · rcases List.mem_cons.1 h3 with h3 | h3
            · cases h3; exact Or.inl (Prod.ext e h2)
            · exact absurd rfl (nog _ h3)
          · exact absurd rfl (h3 _ List.mem_cons_self)
      · rw [if_neg h2, List.mem_cons, mem_addCommit g c rest ho2 x]
        constructor
        · rintro (rfl | ⟨hn, hx⟩ | ⟨e, old, h3, h4 | ⟨rfl, h4⟩⟩)
          · exact Or.inl ⟨fun e => h2 e.symm, List.mem_cons_self⟩
          · exact Or.inl ⟨hn, List.mem_cons_of_mem _ hx⟩
          · exact Or.inr ⟨e, old, h3, Or.inl (List.mem_cons_of_mem _ h4)⟩
          · refine Or.inr ⟨e, [], h3, Or.inr ⟨rfl, fun y hy => ?_⟩⟩
            rcases List.mem_cons.1 hy with rfl | hy
            · exact fun e => h2 e.symm
            · exact h4 y hy
        · rintro (⟨hn, hx⟩ | ⟨e, old, h3, h4 | ⟨rfl, h4⟩⟩)
          · rcases List.mem_cons.1 hx with rfl | hx
            · exact Or.inl rfl
            · exact Or.inr (Or.inl ⟨hn, hx⟩)
          · rcases List.mem_cons.1 h4 with h4 | h4
            · cases h4; exact absurd rfl h2
            · exact Or.inr (Or.inr ⟨e, old, h3, Or.inl h4⟩)
          · exact Or.inr (Or.inr ⟨e, [], h3, Or.inr ⟨rfl, fun y hy => h4 y (List.mem_cons_of_mem _ hy)⟩⟩)

theorem ordered_addCommit (g : Text) (c : HistoryCommit) : ∀ gs : List (Text × List HistoryCommit), Ordered gs →
    Ordered (addCommit g c gs)
  | [], _ => by rw [addCommit]; exact List.pairwise_singleton _ _
  | (h, cs) :: rest, ho => by
    obtain ⟨ho1, ho2⟩ := List.pairwise_cons.1 ho
    rw [addCommit]
    by_cases h1 : g < h
    · rw [if_pos h1]
      refine List.pairwise_cons.2 ⟨fun y hy => ?_, ho⟩
      rcases List.mem_cons.1 hy with rfl | hy
      · exact h1
      · exact List.lt_trans h1 (ho1 y hy)
    · rw [if_neg h1]
      by_cases h2 : g = h
      · rw [if_pos h2]; exact List.pairwise_cons.2 ⟨ho1, ho2⟩
      · rw [if_neg h2]
        refine List.pairwise_cons.2 ⟨fun y hy => ?_, ordered_addCommit g c rest ho2⟩
        rcases (mem_addCommit g c rest ho2 y).1 hy with ⟨-, hy⟩ | ⟨e, -⟩
        · exact ho1 y hy
        · rw [e]
          exact ((lt_or_eq_or_gt g h).resolve_left h1).resolve_left h2

/-- The commits of a group are those of the history that belong to it. -/
def GroupsHold (gs : List (Text × List HistoryCommit)) (history : List HistoryCommit) : Prop :=
  ∀ g cs, (g, cs) ∈ gs ↔ cs ≠ [] ∧ cs = history.filter fun c => groupOf c.message == some g

theorem holds_step (gs : List (Text × List HistoryCommit)) (history : List HistoryCommit) (c : HistoryCommit)
    (ho : Ordered gs) (hh : GroupsHold gs history) :
    GroupsHold (match groupOf c.message with | some g => addCommit g c gs | none => gs) (history ++ [c]) := by
  intro g cs
  rw [List.filter_append]
  cases hg : groupOf c.message with
  | none =>
    have : [c].filter (fun c => groupOf c.message == some g) = [] := by simp [hg]
    rw [this, List.append_nil]
    exact hh g cs
  | some g' =>
    show (g, cs) ∈ addCommit g' c gs ↔ _
    rw [mem_addCommit g' c gs ho]
    by_cases e : g = g'
    · subst e
      have : [c].filter (fun c => groupOf c.message == some g) = [c] := by simp [hg]
      rw [this]
      constructor
      · rintro (⟨hn, -⟩ | ⟨-, old, h1, h2 | ⟨rfl, h2⟩⟩)
        · exact absurd rfl hn
        · dsimp only at h1
          rw [h1, ← ((hh g old).1 h2).2]
          exact ⟨by simp, rfl⟩
        · dsimp only at h1
          refine ⟨by rw [h1]; simp, ?_⟩
          by_cases hf : history.filter (fun c => groupOf c.message == some g) = []
          · rw [hf, h1]
          · exact absurd rfl (h2 _ ((hh g _).2 ⟨hf, rfl⟩))
      · rintro ⟨-, rfl⟩
        refine Or.inr ⟨rfl, _, rfl, ?_⟩
        by_cases hf : history.filter (fun c => groupOf c.message == some g) = []
        · refine Or.inr ⟨hf, fun y hy e => ?_⟩
          obtain ⟨y1, y2⟩ := y
          dsimp only at e; subst e
          obtain ⟨h1, h2⟩ := (hh _ _).1 hy
          exact h1 (h2.trans hf)
        · exact Or.inl ((hh g _).2 ⟨hf, rfl⟩)
    · have : [c].filter (fun c => groupOf c.message == some g) = [] := by
        have : ¬ g' = g := fun h => e h.symm
        simp [hg, this]
      rw [this, List.append_nil, ← hh g cs]
      constructor
      · rintro (⟨-, h⟩ | ⟨h, -⟩)
        · exact h
        · exact absurd h e
      · exact fun h => Or.inl ⟨e, h⟩

theorem groupCommits_holds (history : List HistoryCommit) :
    Ordered (groupCommits history) ∧ GroupsHold (groupCommits history) history := by
  have go : ∀ (todo done : List HistoryCommit) (gs : List (Text × List HistoryCommit)), Ordered gs → GroupsHold gs done →
      Ordered (todo.foldl (fun gs c => match groupOf c.message with
        | some g => addCommit g c gs
        | none => gs) gs) ∧
      GroupsHold (todo.foldl (fun gs c => match groupOf c.message with
        | some g => addCommit g c gs
        | none => gs) gs) (done ++ todo) := by
    intro todo
    induction todo with
    | nil => intro done gs ho hh; rw [List.append_nil]; exact ⟨ho, hh⟩
    | cons c todo ih =>
      intro done gs ho hh
      rw [List.foldl_cons, show done ++ c :: todo = done ++ [c] ++ todo by simp]
      refine ih _ _ ?_ (holds_step gs done c ho hh)
      cases groupOf c.message with
      | none => exact ho
      | some g => exact ordered_addCommit g c gs ho
  exact go history [] [] List.Pairwise.nil (by
    intro g cs
    constructor
    · intro h; cases h
    · rintro ⟨h1, h2⟩; exact absurd h2 h1)

/-! ### Releases -/

theorem groupCommits_skip (cs : List HistoryCommit) (c : HistoryCommit) (h : groupOf c.message = none) :
    groupCommits (cs ++ [c]) = groupCommits cs := by
  rw [groupCommits, List.foldl_append, List.foldl_cons, List.foldl_nil, h]; rfl

theorem releaseLines_skip (tag date : Text) (cs : List HistoryCommit) (c : HistoryCommit) (h : groupOf c.message = none) :
    releaseLines tag date (cs ++ [c]) = releaseLines tag date cs := by
  rw [releaseLines, releaseLines, groupCommits_skip cs c h]

theorem splitReleases_untagged : ∀ (later : List Tagged) (acc : List HistoryCommit), (∀ x ∈ later, x.tag = none) →
    splitReleases acc later = ([], acc ++ later.map Tagged.commit)
  | [], acc, _ => by rw [splitReleases]; simp
  | ⟨c, some _⟩ :: later, acc, h => by cases h _ List.mem_cons_self
  | ⟨c, none⟩ :: later, acc, h => by
    rw [splitReleases, splitReleases_untagged later _ (fun x hx => h x (List.mem_cons_of_mem _ hx))]
    simp

theorem splitReleases_append (more : List Tagged) : ∀ (h : List Tagged) (acc : List HistoryCommit),
    splitReleases acc (h ++ more) =
      ((splitReleases acc h).1 ++ (splitReleases (splitReleases acc h).2 more).1,
        (splitReleases (splitReleases acc h).2 more).2)
  | [], acc => by simp [splitReleases]
  | ⟨c, none⟩ :: h, acc => by
    rw [List.cons_append, splitReleases, splitReleases, splitReleases_append more h]
  | ⟨c, some (t, d)⟩ :: h, acc => by
    rw [List.cons_append, splitReleases, splitReleases, splitReleases_append more h]
    rfl

theorem splitReleases_releases {h : List Tagged} {rs : List (Text × Text × List HistoryCommit)} {rest : List HistoryCommit}
    (hr : Releases h rs rest) : splitReleases [] h = (rs, rest) := by
  have untagged : ∀ cs : List HistoryCommit, ∀ x ∈ cs.map (fun c => (⟨c, none⟩ : Tagged)), x.tag = none := by
    intro cs x hx
    obtain ⟨c, -, rfl⟩ := List.mem_map.1 hx
    rfl
  have back : ∀ cs : List HistoryCommit, (cs.map fun c => (⟨c, none⟩ : Tagged)).map Tagged.commit = cs := by
    intro cs
    rw [List.map_map]
    exact List.map_id cs
  induction hr with
  | new cs => rw [splitReleases_untagged _ _ (untagged cs), back, List.nil_append]
  | release cs c tag date later ih =>
    rw [splitReleases_append, splitReleases_untagged _ _ (untagged cs), back, List.nil_append, splitReleases, ih]
    rfl

theorem releases_exist : ∀ h : List Tagged, ∃ rs rest, Releases h rs rest
  | [] => ⟨[], [], .new []⟩
  | ⟨c, none⟩ :: h => by
    obtain ⟨rs, rest, hr⟩ := releases_exist h
    cases hr with
    | new cs => exact ⟨[], c :: rest, .new (c :: rest)⟩
    | release cs c' tag date later => exact ⟨_, _, .release (c :: cs) c' tag date later⟩
  | ⟨c, some (tag, date)⟩ :: h => by
    obtain ⟨rs, rest, hr⟩ := releases_exist h
    exact ⟨_, _, .release [] c tag date hr⟩

end Pemv
