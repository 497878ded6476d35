import Verif.Proofs.Ci

/-!
# C113: the check for misplaced `use` statements
-/

namespace Pemv

open Spec

/-- **C113.** If all files can be read, the check passes if and only if no Rust file has a line that begins with `use`
above a line that is the header and nothing else. -/
theorem c113_passes (files : List SourceFile) (hr : ∀ f ∈ files, ∀ name, f.name = name ++ ".rs".toList → f.content ≠ none) :
    useCheckPasses files = true ↔ ¬ ∃ f ∈ files, ∃ name s, f.name = name ++ ".rs".toList ∧ f.content = some s ∧
      Above BeginsWithUse (fun l => l = usesHeader) s := by
  have h1 : (files.filter isRust).any (fun f => f.content.isNone) = false := by
    rw [Bool.eq_false_iff]
    intro h
    obtain ⟨f, hf, hn⟩ := List.any_eq_true.1 h
    obtain ⟨h2, h3⟩ := List.mem_filter.1 hf
    obtain ⟨name, h4⟩ := (isRust_iff f).1 h3
    exact hr f h2 name h4 (Option.isNone_iff_eq_none.1 hn)
  have h2 : (files.filter isRust).any (fun f => search (compile usePattern) none (f.content.getD [])) = true ↔
      ∃ f ∈ files, ∃ name s, f.name = name ++ ".rs".toList ∧ f.content = some s ∧
        Above BeginsWithUse (fun l => l = usesHeader) s := by
    rw [List.any_eq_true]
    constructor
    · rintro ⟨f, hf, hs⟩
      obtain ⟨h2, h3⟩ := List.mem_filter.1 hf
      obtain ⟨name, h4⟩ := (isRust_iff f).1 h3
      cases hc : f.content with
      | none => exact absurd hc (hr f h2 name h4)
      | some s =>
        rw [hc] at hs
        exact ⟨f, h2, name, s, h4, hc, (search_lines s).1 hs⟩
    · rintro ⟨f, h2, name, s, h4, hc, h5⟩
      refine ⟨f, List.mem_filter.2 ⟨h2, (isRust_iff f).2 ⟨name, h4⟩⟩, ?_⟩
      rw [hc]
      exact (search_lines s).2 h5
  rw [← h2]
  simp only [useCheckPasses, ripgrep, h1, Bool.false_eq_true, if_false]
  split
  · rename_i h
    rw [h]; decide
  · rename_i h
    exact ⟨fun _ => h, fun _ => rfl⟩

/-- **C113.** There are no false alarms: if the check fails, there is a `use` statement above the header. -/
theorem c113_alarm (files : List SourceFile) (h : useCheckPasses files = false) : Misplaced files := by
  have hr : ∀ f ∈ files, ∀ name, f.name = name ++ ".rs".toList → f.content ≠ none := by
    intro f hf name hn hc
    have h1 : (files.filter isRust).any (fun f => f.content.isNone) = true :=
      List.any_eq_true.2 ⟨f, List.mem_filter.2 ⟨hf, (isRust_iff f).2 ⟨name, hn⟩⟩, by rw [hc]; rfl⟩
    simp only [useCheckPasses, ripgrep, h1, if_true] at h
    cases h
  have := (not_congr (c113_passes files hr)).1 (by rw [h]; exact Bool.false_ne_true)
  obtain ⟨f, hf, name, s, hn, hc, xs, u, ys, b, zs, hs, ⟨rest, hu⟩, hb⟩ := Classical.not_not.1 this
  exact ⟨f, hf, name, s, hn, hc, xs, u, ys, b, zs, hs,
    ⟨[], [], rest, hu, (fun _ h => nomatch h), by decide⟩, Or.inl hb⟩

/-- The header has slipped down. -/
example : useCheckPasses [⟨"src/util.rs".toList, some "use std::fmt;\n// Uses\nuse crate::error;\n".toList⟩] = false := by
  decide +kernel

/-- The header is where it should be. -/
example : useCheckPasses [⟨"src/util.rs".toList, some "// Uses\nuse std::fmt;\nuse crate::error;\n".toList⟩,
    ⟨"README.md".toList, some "use it\n// Uses\n".toList⟩] = true := by decide +kernel

/-- **C113 does not hold** as the check says of itself: it passes although there is a `use` statement above the header if
the statement is public, if it is indented, and if lines end as on Windows; and as soon as one Rust file cannot be read,
it passes whatever the others hold. -/
theorem c113_false :
    (∀ s ∈ ["pub use a;\n// Uses", "pub(crate) use a;\n// Uses", "\tuse a;\n// Uses", " use a;\n// Uses",
        "use a;\r\n// Uses\r\n"],
      Misplaced [⟨"a.rs".toList, some s.toList⟩] ∧ useCheckPasses [⟨"a.rs".toList, some s.toList⟩] = true) ∧
    (∀ s : Text, Above IsUse (fun l => l = usesHeader) s → (∀ l ∈ linesOf s, ¬ BeginsWithUse l) →
      Misplaced [⟨"a.rs".toList, some s⟩] ∧ useCheckPasses [⟨"a.rs".toList, some s⟩] = true) ∧
    (∀ s : Text, usesHeader ∉ linesOf s → useCheckPasses [⟨"a.rs".toList, some s⟩] = true) ∧
    (∀ (files : List SourceFile) (f : SourceFile) (name : Text), f ∈ files → f.name = name ++ ".rs".toList →
      f.content = none → useCheckPasses files = true) := by
  have one : ∀ s : Text, ¬ Above BeginsWithUse (fun l => l = usesHeader) s → useCheckPasses [⟨"a.rs".toList, some s⟩] = true := by
    intro s hs
    rw [c113_passes _ (by simp)]
    rintro ⟨f, hf, name, s', -, hc, h⟩
    rw [List.mem_singleton.1 hf] at hc
    cases hc
    exact hs h
  have hidden : ∀ s : Text, Above IsUse (fun l => l = usesHeader) s → (∀ l ∈ linesOf s, ¬ BeginsWithUse l) →
      Misplaced [⟨"a.rs".toList, some s⟩] ∧ useCheckPasses [⟨"a.rs".toList, some s⟩] = true := by
    intro s hs hn
    refine ⟨?_, one s ?_⟩
    · obtain ⟨xs, u, ys, b, zs, h1, h2, h3⟩ := hs
      exact ⟨_, List.mem_singleton_self _, "a".toList, s, rfl, rfl, xs, u, ys, b, zs, h1, h2, Or.inl h3⟩
    · rintro ⟨xs, u, ys, b, zs, h1, h2, h3⟩
      exact hn u (by rw [h1]; simp) h2
  refine ⟨?_, hidden, ?_, ?_⟩
  · have first : ∀ (s u ind vis rest : Text), linesOf s = [u, usesHeader] → u = ind ++ vis ++ "use ".toList ++ rest →
        (∀ c ∈ ind, c = ' ' ∨ c = '\t') → vis ∈ ["".toList, "pub ".toList, "pub(crate) ".toList] →
        Misplaced [⟨"a.rs".toList, some s⟩] := by
      intro s u ind vis rest h1 h2 h3 h4
      exact ⟨_, List.mem_singleton_self _, "a".toList, s, rfl, rfl, [], u, [], usesHeader, [], h1, ⟨ind, vis, rest, h2, h3, h4⟩,
        Or.inl rfl⟩
    intro s hs
    simp only [List.mem_cons, List.not_mem_nil, or_false] at hs
    rcases hs with rfl | rfl | rfl | rfl | rfl
    · exact ⟨first _ "pub use a;".toList [] "pub ".toList "a;".toList (by decide +kernel) (by decide +kernel)
        (fun _ h => nomatch h) (by decide), by decide +kernel⟩
    · exact ⟨first _ "pub(crate) use a;".toList [] "pub(crate) ".toList "a;".toList (by decide +kernel) (by decide +kernel)
        (fun _ h => nomatch h) (by decide), by decide +kernel⟩
    · exact ⟨first _ "\tuse a;".toList ['\t'] [] "a;".toList (by decide +kernel) (by decide +kernel)
        (by simp) (by decide), by decide +kernel⟩
    · exact ⟨first _ " use a;".toList [' '] [] "a;".toList (by decide +kernel) (by decide +kernel)
        (by simp) (by decide), by decide +kernel⟩
    · refine ⟨?_, by decide +kernel⟩
      exact ⟨_, List.mem_singleton_self _, "a".toList, _, rfl, rfl, [], "use a;\r".toList, [], "// Uses\r".toList, [[]],
        by decide +kernel, ⟨[], [], "a;\r".toList, by decide +kernel, (fun _ h => nomatch h), by decide⟩,
        Or.inr (by decide +kernel)⟩
  · intro s hs
    refine one s ?_
    rintro ⟨xs, u, ys, b, zs, h1, -, rfl⟩
    exact hs (by rw [h1]; simp)
  · intro files f name hf hn hc
    have h1 : (files.filter isRust).any (fun f => f.content.isNone) = true :=
      List.any_eq_true.2 ⟨f, List.mem_filter.2 ⟨hf, (isRust_iff f).2 ⟨name, hn⟩⟩, by rw [hc]; rfl⟩
    simp only [useCheckPasses, ripgrep, h1, if_true]
    decide

/-- A statement inside a module. -/
example : useCheckPasses [⟨"a.rs".toList, some "mod b {\n\tuse a;\n}\n// Uses\n".toList⟩] = true := by decide +kernel

/-- One unreadable file. -/
example : useCheckPasses [⟨"a.rs".toList, some "use a;\n// Uses\n".toList⟩, ⟨"b.rs".toList, none⟩] = true := by
  decide +kernel

/-- **C113.** The check fails if there is a `use` statement above the header in a Rust file. Missing: statements that are
public or indented, lines that end as on Windows, and files that cannot be read; see `c113_false`. -/
theorem c113_fails_partial (files : List SourceFile)
    (hr : ∀ f ∈ files, ∀ name, f.name = name ++ ".rs".toList → f.content ≠ none)
    (hu : ∀ f ∈ files, ∀ s, f.content = some s → ∀ l ∈ linesOf s, (IsUse l → BeginsWithUse l) ∧ l ≠ usesHeader ++ ['\r'])
    (h : Misplaced files) : useCheckPasses files = false := by
  rw [Bool.eq_false_iff]
  intro hp
  obtain ⟨f, hf, name, s, hn, hc, xs, u, ys, b, zs, hs, h1, h2⟩ := h
  refine (c113_passes files hr).1 hp ⟨f, hf, name, s, hn, hc, xs, u, ys, b, zs, hs, ?_, ?_⟩
  · exact (hu f hf s hc u (by rw [hs]; simp)).1 h1
  · exact h2.resolve_right (hu f hf s hc b (by rw [hs]; simp)).2

/-- The hypotheses can be met. -/
example : useCheckPasses [⟨"a.rs".toList, some "use a;\n// Uses".toList⟩] = false := by
  have hl : linesOf "use a;\n// Uses".toList = ["use a;".toList, "// Uses".toList] := by decide +kernel
  refine c113_fails_partial _ (by simp) ?_ ?_
  · intro f hf s hs l h
    rw [List.mem_singleton.1 hf] at hs
    cases hs
    rw [hl, List.mem_cons, List.mem_singleton] at h
    rcases h with rfl | rfl
    · exact ⟨fun _ => ⟨"a;".toList, by decide⟩, by decide +kernel⟩
    · refine ⟨?_, by decide +kernel⟩
      rintro ⟨ind, vis, rest, h, hi, hv⟩
      exfalso
      cases ind with
      | cons c ind =>
        injection h with h1 h2
        rcases hi c List.mem_cons_self with rfl | rfl <;> exact absurd h1 (by decide)
      | nil =>
        simp only [List.mem_cons, List.not_mem_nil, or_false] at hv
        rcases hv with rfl | rfl | rfl <;> (injection h with h1 h2; exact absurd h1 (by decide))
  · exact ⟨_, List.mem_singleton_self _, "a".toList, _, rfl, rfl, [], "use a;".toList, [], usesHeader, [],
      by decide +kernel, ⟨[], [], "a;".toList, by decide +kernel, (fun _ h => nomatch h), by decide⟩, Or.inl rfl⟩

end Pemv
