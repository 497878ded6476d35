import Verif.Spec.Ignore

/-!
# Proofs about ignored files
-/

namespace Pemv

open Spec

theorem globMatch_literal (l : Text) (hl : '*' ∉ l) (s : Text) : globMatch l s = true ↔ s = l := by
  induction l generalizing s with
  | nil => rw [globMatch, List.isEmpty_iff]
  | cons a l ih =>
    have ha : a ≠ '*' := fun e => hl (by simp [e])
    have hl' : '*' ∉ l := fun h => hl (by simp [h])
    cases s with
    | nil => simp [globMatch, ha]
    | cons c s =>
      simp only [globMatch, ha, if_false, Bool.and_eq_true, beq_iff_eq, ih hl', List.cons.injEq]
      exact ⟨fun h => ⟨h.1.symm, h.2⟩, fun h => ⟨h.1.symm, h.2⟩⟩

theorem globMatch_star (l : Text) (hl : '*' ∉ l) (s : Text) : globMatch ('*' :: l) s = true ↔ ∃ pre, s = pre ++ l := by
  rw [globMatch.eq_def]
  simp only [if_true, List.any_eq_true]
  constructor
  · rintro ⟨k, -, h⟩
    rw [globMatch_literal l hl] at h
    exact ⟨s.take k, by rw [← h, List.take_append_drop]⟩
  · rintro ⟨pre, rfl⟩
    refine ⟨pre.length, List.mem_range.2 (by simp; omega), ?_⟩
    rw [globMatch_literal l hl, List.drop_left]

theorem ignoredFrom_iff (rules : List IgnoreRule) (above p : GitPath) :
    ignoredFrom rules above p = true ↔ ∃ pre n rest, p = pre ++ n :: rest ∧
      ∃ r ∈ rules, r.fits (above ++ pre) n (!rest.isEmpty) = true := by
  induction p generalizing above with
  | nil => simp [ignoredFrom]
  | cons name rest ih =>
    rw [ignoredFrom, Bool.or_eq_true, List.any_eq_true, ih]
    constructor
    · rintro (⟨r, hr, h⟩ | ⟨pre, n, rest', rfl, r, hr, h⟩)
      · exact ⟨[], name, rest, rfl, r, hr, by rwa [List.append_nil]⟩
      · exact ⟨name :: pre, n, rest', rfl, r, hr, by rwa [List.append_assoc] at h⟩
    · rintro ⟨pre, n, rest', he, r, hr, h⟩
      cases pre with
      | nil =>
        simp only [List.nil_append, List.cons.injEq] at he
        obtain ⟨rfl, rfl⟩ := he
        exact Or.inl ⟨r, hr, by rwa [List.append_nil] at h⟩
      | cons x pre =>
        simp only [List.cons_append, List.cons.injEq] at he
        obtain ⟨rfl, rfl⟩ := he
        exact Or.inr ⟨pre, n, rest', rfl, r, hr, by rwa [List.append_assoc]⟩

theorem gitignore_rules : gitignore.filterMap (fun l => ignoreRule l.toList) = [
    ⟨true, true, "target".toList⟩, ⟨false, false, '*' :: ".rs.bk".toList⟩, ⟨false, true, ".idea".toList⟩,
    ⟨false, false, '*' :: ".lib".toList⟩, ⟨false, false, '*' :: "bindings.rs".toList⟩,
    ⟨false, false, "tarpaulin-report.html".toList⟩, ⟨false, false, '*' :: ".profraw".toList⟩,
    ⟨false, false, ".env".toList⟩, ⟨true, true, "install_integrations".toList⟩, ⟨false, false, "TODO.md".toList⟩] := by
  decide +kernel

theorem not_isEmpty_iff {α : Type} (l : List α) : (!l.isEmpty) = true ↔ ∃ x xs, l = x :: xs := by
  cases l with
  | nil => simp
  | cons x xs => simp

theorem ignored_iff (p : GitPath) : ignored p = true ↔ ToIgnore p := by
  rw [ignored, gitignore_rules, ignoredFrom_iff]
  have lit : ∀ (a d : Bool) (s : String) (above : GitPath) (n : Text) (dir : Bool), '*' ∉ s.toList →
      (IgnoreRule.fits ⟨a, d, s.toList⟩ above n dir = true ↔ (a = true → above = []) ∧ (d = true → dir = true) ∧ n = s.toList) := by
    intro a d s above n dir hs
    simp only [IgnoreRule.fits, Bool.and_eq_true, globMatch_literal _ hs, and_assoc]
    cases a <;> cases d <;> simp
  have star : ∀ (s : String) (above : GitPath) (n : Text) (dir : Bool), '*' ∉ s.toList →
      (IgnoreRule.fits ⟨false, false, '*' :: s.toList⟩ above n dir = true ↔ EndsIn s n) := by
    intro s above n dir hs
    simp only [IgnoreRule.fits, Bool.and_eq_true, globMatch_star _ hs, EndsIn]
    simp
  constructor
  · rintro ⟨pre, n, rest, rfl, r, hr, h⟩
    simp only [List.nil_append] at h
    simp only [List.mem_cons, List.not_mem_nil, or_false] at hr
    rcases hr with rfl | rfl | rfl | rfl | rfl | rfl | rfl | rfl | rfl | rfl
    · obtain ⟨h1, h2, rfl⟩ := (lit _ _ _ _ _ _ (by decide +kernel)).1 h
      obtain ⟨x, xs, rfl⟩ := (not_isEmpty_iff rest).1 (h2 rfl)
      rw [h1 rfl]
      exact .built _ x xs (by decide +kernel)
    · exact .named _ _ _ (Or.inr (Or.inl ((star _ _ _ _ (by decide +kernel)).1 h)))
    · obtain ⟨-, h2, rfl⟩ := (lit _ _ _ _ _ _ (by decide +kernel)).1 h
      obtain ⟨x, xs, rfl⟩ := (not_isEmpty_iff rest).1 (h2 rfl)
      exact .idea pre x xs
    · exact .named _ _ _ (Or.inr (Or.inr (Or.inl ((star _ _ _ _ (by decide +kernel)).1 h))))
    · exact .named _ _ _ (Or.inr (Or.inr (Or.inr (Or.inl ((star _ _ _ _ (by decide +kernel)).1 h)))))
    · obtain ⟨-, -, rfl⟩ := (lit _ _ _ _ _ _ (by decide +kernel)).1 h
      exact .named _ _ _ (Or.inl (by decide +kernel))
    · exact .named _ _ _ (Or.inr (Or.inr (Or.inr (Or.inr ((star _ _ _ _ (by decide +kernel)).1 h)))))
    · obtain ⟨-, -, rfl⟩ := (lit _ _ _ _ _ _ (by decide +kernel)).1 h
      exact .named _ _ _ (Or.inl (by decide +kernel))
    · obtain ⟨h1, h2, rfl⟩ := (lit _ _ _ _ _ _ (by decide +kernel)).1 h
      obtain ⟨x, xs, rfl⟩ := (not_isEmpty_iff rest).1 (h2 rfl)
      rw [h1 rfl]
      exact .built _ x xs (by decide +kernel)
    · obtain ⟨-, -, rfl⟩ := (lit _ _ _ _ _ _ (by decide +kernel)).1 h
      exact .named _ _ _ (Or.inl (by decide +kernel))
  · rintro (⟨d, n, rest, h⟩ | ⟨above, n, rest⟩ | ⟨above, n, rest, h⟩)
    · refine ⟨[], d, n :: rest, rfl, ⟨true, true, d⟩, ?_, ?_⟩
      · simp only [List.mem_cons, List.not_mem_nil, or_false] at h
        rcases h with rfl | rfl <;> simp only [List.mem_cons, true_or, or_true]
      · simp only [List.mem_cons, List.not_mem_nil, or_false] at h
        rcases h with rfl | rfl <;> exact (lit _ _ _ _ _ _ (by decide +kernel)).2 ⟨fun _ => rfl, fun _ => rfl, rfl⟩
    · exact ⟨above, ".idea".toList, n :: rest, rfl, ⟨false, true, ".idea".toList⟩, by simp only [List.mem_cons, true_or, or_true],
        (lit _ _ _ _ _ _ (by decide +kernel)).2 ⟨(fun h => nomatch h), fun _ => rfl, rfl⟩⟩
    · refine ⟨above, n, rest, rfl, ?_⟩
      rcases h with h | h | h | h | h
      · refine ⟨⟨false, false, n⟩, ?_, ?_⟩
        · simp only [List.mem_cons, List.not_mem_nil, or_false] at h
          rcases h with rfl | rfl | rfl <;> simp only [List.mem_cons, true_or, or_true]
        · simp only [List.mem_cons, List.not_mem_nil, or_false] at h
          rcases h with rfl | rfl | rfl <;>
            exact (lit _ _ _ _ _ _ (by decide +kernel)).2 ⟨(fun h => nomatch h), (fun h => nomatch h), rfl⟩
      · exact ⟨_, by simp only [List.mem_cons, true_or, or_true], (star ".rs.bk" _ _ _ (by decide +kernel)).2 h⟩
      · exact ⟨_, by simp only [List.mem_cons, true_or, or_true], (star ".lib" _ _ _ (by decide +kernel)).2 h⟩
      · exact ⟨_, by simp only [List.mem_cons, true_or, or_true], (star "bindings.rs" _ _ _ (by decide +kernel)).2 h⟩
      · exact ⟨_, by simp only [List.mem_cons, true_or, or_true], (star ".profraw" _ _ _ (by decide +kernel)).2 h⟩

end Pemv
