import Verif.Proofs.Truncated

/-!
# Lemmas about exactly which documents are too deep

With overflow checks the output routines panic exactly when a line of the document is indented by 256 or more.
-/

namespace Pemv

open Spec

/-- Some line of the document, indented as a whole by `i`, is indented by 256 or more. -/
def TooDeep (i : Nat) (ls : List Line) : Prop := ∃ l ∈ ls, ∃ k, l.indent = some k ∧ 256 ≤ i + k

/-- Some line is indented. -/
def Tall (ls : List Line) : Prop := ∃ l ∈ ls, ∃ k, l.indent = some k

/-- A routine panics exactly when its document is too deep. -/
def ExactPanic (d : Disp) (i : Nat) (ls : List Line) : Prop := d.panicked = true ↔ TooDeep i ls

theorem tooDeep_nil (i : Nat) : TooDeep i [] ↔ False := by simp [TooDeep]

theorem tooDeep_cons (i : Nat) (l : Line) (ls : List Line) :
    TooDeep i (l :: ls) ↔ (∃ k, l.indent = some k ∧ 256 ≤ i + k) ∨ TooDeep i ls := by
  simp [TooDeep]

theorem tooDeep_append (i : Nat) (a b : List Line) : TooDeep i (a ++ b) ↔ TooDeep i a ∨ TooDeep i b := by
  simp only [TooDeep, List.mem_append]
  constructor
  · rintro ⟨l, h | h, k⟩
    · exact Or.inl ⟨l, h, k⟩
    · exact Or.inr ⟨l, h, k⟩
  · rintro (⟨l, h, k⟩ | ⟨l, h, k⟩)
    · exact ⟨l, Or.inl h, k⟩
    · exact ⟨l, Or.inr h, k⟩

theorem tooDeep_line {i : Nat} (hi : i < 256) (c : Cells) (ls : List Line) :
    TooDeep i (line c :: ls) ↔ TooDeep i ls := by
  rw [tooDeep_cons]
  constructor
  · rintro (⟨k, h, h'⟩ | h)
    · simp only [line, Option.some.injEq] at h; omega
    · exact h
  · exact Or.inr

theorem tooDeep_title {i : Nat} (hi : i < 256) (t : String) (ls : List Line) :
    TooDeep i (title t :: ls) ↔ TooDeep i ls := tooDeep_line hi _ _

theorem tooDeep_deeper (i : Nat) (ls : List Line) : TooDeep i (deeper ls) ↔ TooDeep (i + 1) ls := by
  simp only [TooDeep, deeper, List.mem_map]
  constructor
  · rintro ⟨_, ⟨l, hl, rfl⟩, k, hk, h⟩
    simp only [Option.map_eq_some_iff] at hk
    obtain ⟨j, hj, rfl⟩ := hk
    exact ⟨l, hl, j, hj, by omega⟩
  · rintro ⟨l, hl, k, hk, h⟩
    exact ⟨_, ⟨l, hl, rfl⟩, k + 1, by simp [hk], by omega⟩

theorem tall_tooDeep {i : Nat} (hi : 256 ≤ i) {ls : List Line} (h : Tall ls) : TooDeep i ls := by
  obtain ⟨l, hl, k, hk⟩ := h
  exact ⟨l, hl, k, hk, by omega⟩

theorem tall_line (c : Cells) (ls : List Line) : Tall (line c :: ls) := ⟨_, List.mem_cons_self .., 0, rfl⟩

theorem seq_panicked (a b : Disp) : (a.seq b).panicked = (a.panicked || b.panicked) := by
  rw [Disp.seq]
  cases h : a.panicked <;> simp [h]

theorem allNil_panicked : (Disp.all []).panicked = false := rfl

theorem allCons_panicked (d : Disp) (ds : List Disp) :
    (Disp.all (d :: ds)).panicked = (d.panicked || (Disp.all ds).panicked) := seq_panicked _ _

theorem print_quiet (t : Text) : (Disp.print t).panicked = false := rfl
theorem println_quiet (t : Text) : (Disp.println t).panicked = false := rfl
theorem color_quiet (c : ColorSpec) : (Disp.color c).panicked = false := rfl
theorem reset_quiet : Disp.reset.panicked = false := rfl
theorem nil_quiet : Disp.nil.panicked = false := rfl
theorem indent_quiet (i : Nat) : (printIndentation i).panicked = false := rfl

/-- Going one level deeper. -/
theorem exact_deeper {m : Machine} (hm : m.overflowChecks = true) {i : Nat} {k : Nat → Disp} {ls : List Line}
    (ht : Tall ls) (h : i + 1 < 256 → ExactPanic (k (i + 1)) (i + 1) ls) :
    ExactPanic (withIndentSucc m i k) i (deeper ls) := by
  rw [ExactPanic, tooDeep_deeper, withIndentSucc]
  by_cases hi : i + 1 < 256
  · rw [if_pos hi]; exact h hi
  · rw [if_neg hi, if_pos hm]
    exact ⟨fun _ => tall_tooDeep (by omega) ht, fun _ => rfl⟩

/-! ### Values -/

/-- No line is indented further. -/
def FlatLines (ls : List Line) : Prop := ∀ l ∈ ls, ∀ k, l.indent = some k → k = 0

theorem flat_not_tooDeep {i : Nat} (hi : i < 256) {ls : List Line} (h : FlatLines ls) : ¬ TooDeep i ls := by
  rintro ⟨l, hl, k, hk, h'⟩
  have := h l hl k hk
  omega

theorem flat_cons {c : Cells} {ls : List Line} (h : FlatLines ls) : FlatLines (line c :: ls) := by
  intro l hl k hk
  rcases List.mem_cons.1 hl with rfl | hl
  · simp only [line, Option.some.injEq] at hk; exact hk.symm
  · exact h l hl k hk

theorem flat_nil : FlatLines [] := fun _ h => by cases h

theorem flat_append {a b : List Line} (ha : FlatLines a) (hb : FlatLines b) : FlatLines (a ++ b) := by
  intro l hl
  rcases List.mem_append.1 hl with h | h
  · exact ha l h
  · exact hb l h

theorem flat_map {α : Type} (f : α → Cells) (as : List α) : FlatLines (as.map (fun a => line (f a))) := by
  intro l hl k hk
  obtain ⟨a, -, rfl⟩ := List.mem_map.1 hl
  simp only [line, Option.some.injEq] at hk; exact hk.symm

theorem flat_drawing (bs : List Byte) (rs : List Annotation) (c : Bool) : FlatLines (drawingLines bs rs c) := by
  rw [drawingLines]
  refine flat_append (flat_append (flat_cons flat_nil) ?_) (flat_map _ _)
  split
  · exact flat_cons flat_nil
  · exact flat_nil

theorem tall_drawing (bs : List Byte) (rs : List Annotation) (c : Bool) : Tall (drawingLines bs rs c) := by
  rw [drawingLines]; exact tall_line _ _

theorem flat_bits (items : List Item) (labels : List (String × Severity × String)) (bs : List Byte) (c : Bool) :
    FlatLines (bitLines items labels bs c) := flat_drawing _ _ _

theorem tall_bits (items : List Item) (labels : List (String × Severity × String)) (bs : List Byte) (c : Bool) :
    Tall (bitLines items labels bs c) := tall_drawing _ _ _

theorem exact_flat {d : Disp} {i : Nat} (hi : i < 256) {ls : List Line} (hf : FlatLines ls)
    (h : d.panicked = false) : ExactPanic d i ls := by
  rw [ExactPanic, h]
  exact ⟨(fun h => by cases h), (fun h' => absurd h' (flat_not_tooDeep hi hf))⟩

theorem exact_ruleLines {m : Machine} (hm : m.overflowChecks = true) {i : Nat} (hi : i < 256) (n n' : Nat) (r : Value)
    (p : Byte × Byte) : ExactPanic (displayCvmRule m i n r) i (ruleLines n' p) := by
  rw [ExactPanic, displayCvmRule, ruleLines, tooDeep_line hi]
  simp only [allCons_panicked, allNil_panicked, print_quiet, println_quiet, color_quiet, reset_quiet, indent_quiet,
    Bool.false_or, Bool.or_false, Bool.or_self, tooDeep_cons, tooDeep_nil, ruleAspect, or_false, or_self]
  rw [withIndentSucc]
  by_cases h : i + 1 < 256
  · rw [if_pos h, indent_quiet]
    constructor
    · intro h; cases h
    · rintro ⟨k, hk, h'⟩
      simp only [Option.some.injEq] at hk; omega
  · rw [if_neg h, if_pos hm]
    exact ⟨fun _ => ⟨1, rfl, by omega⟩, fun _ => rfl⟩

theorem exact_rules {m : Machine} (hm : m.overflowChecks = true) {i : Nat} (hi : i < 256) :
    ∀ (rs : List Value) (ps : List (Byte × Byte)) (n n' : Nat), rs.length = ps.length →
    ExactPanic (displayCvmRules m i n rs) i ((ps.zipIdx n').flatMap (fun p => ruleLines p.2 p.1))
  | [], [], n, n', _ => by
    rw [ExactPanic, displayCvmRules]
    simp [tooDeep_nil, nil_quiet]
  | [], _ :: _, _, _, h => by cases h
  | _ :: _, [], _, _, h => by cases h
  | r :: rs, p :: ps, n, n', h => by
    rw [ExactPanic, displayCvmRules, seq_panicked, List.zipIdx_cons, List.flatMap_cons, tooDeep_append,
      Bool.or_eq_true]
    have h1 := exact_ruleLines hm hi n n' r p
    have h2 := exact_rules hm hi rs ps (n + 1) (n' + 1) (by simpa using h)
    rw [ExactPanic] at h1 h2
    rw [h1, h2]

theorem exact_cvmList {m : Machine} (hm : m.overflowChecks = true) {bs : List Byte} {v : CvmList}
    (h : CvmList.tryFrom bs = .ok v) {i : Nat} (hi : i < 256) :
    ExactPanic (displayCvmList m v i) i (cvmListLines bs) := by
  have hr : v.cvRules = (pairs (bs.drop 8)).map (fun p => ruleOf p.1 p.2) := by rw [cvmList_eq h]
  have hq : (if showXY v then displayXY v i else Disp.nil).panicked = false := by split <;> rfl
  have hf : ¬ TooDeep i (if amountsMatter bs then
      [entry "X Value:" (' ' :: digitsAtLeast (max 3 (max (decimal (amountX bs)).length (decimal (amountY bs)).length))
        (amountX bs) ++ " (implicit decimal point based on application currency)".toList),
       entry "Y Value:" (' ' :: digitsAtLeast (max 3 (max (decimal (amountX bs)).length (decimal (amountY bs)).length))
        (amountY bs))] else []) := by
    refine flat_not_tooDeep hi ?_
    split
    · exact flat_cons (flat_cons flat_nil)
    · exact flat_nil
  have h1 := exact_rules hm hi v.cvRules (pairs (bs.drop 8)) 1 1 (by rw [hr, List.length_map])
  rw [ExactPanic] at h1
  rw [ExactPanic, displayCvmList, cvmListLines]
  simp only [allCons_panicked, allNil_panicked, println_quiet, color_quiet, reset_quiet, indent_quiet, hq,
    Bool.false_or, Bool.or_false, tooDeep_append, tooDeep_title hi, tooDeep_nil, hf, false_or, h1]

theorem exact_iad {m : Machine} (hm : m.overflowChecks = true) {bs : List Byte} {v : Iad}
    (h : Iad.tryFrom bs = .ok v) {i : Nat} (hi : i < 256) (c : Bool) :
    ExactPanic (displayIad m v i c) i (iadLines bs c) := by
  by_cases h' : i + 1 < 256
  · haveI : Small i := ⟨hi⟩
    have hs := (shows_iad (m := m) h (i := i) (Or.inl (by omega)) c).2.returns
    have hd : ∀ bs, FlatLines (dump bs) := fun bs => flat_map _ _
    have hx := fun its labels bs => flat_not_tooDeep h' (flat_bits its labels bs c)
    have hy := fun bs => flat_not_tooDeep h' (hd bs)
    rw [ExactPanic, hs, iadLines]
    simp only [tooDeep_append, tooDeep_title hi, tooDeep_deeper, tooDeep_nil, hx, hy, entry, tooDeep_line hi, or_self,
      Bool.false_eq_true]
  · rw [ExactPanic]
    refine iff_of_true ?_ ?_
    · rw [displayIad]
      refine all_panicked (d := withIndentSucc m i (fun i => displayLayout cciLayout v.cci i c)) (by simp) ?_
      rw [withIndentSucc, if_neg h', if_pos hm]; rfl
    · rw [iadLines]
      simp only [tooDeep_append, tooDeep_deeper]
      simp only [tall_tooDeep (show 256 ≤ i + 1 by omega) (tall_bits _ _ _ _), true_or, or_true]

theorem if_some {α : Type} {p : Prop} [Decidable p] {a b : Option α} {x : α} (h : (if p then a else b) = some x) :
    (p ∧ a = some x) ∨ b = some x := by
  by_cases hp : p
  · rw [if_pos hp] at h; exact Or.inl ⟨hp, h⟩
  · rw [if_neg hp] at h; exact Or.inr h

/-- Only two kinds of values go a level deeper. -/
theorem flat_value {c : Bool} {tag d : List Byte} {ls : List Line} (h : valueLines c tag d = some ls)
    (h1 : tag ≠ [0x8E]) (h2 : tag ≠ [0x9F, 0x10]) : FlatLines ls := by
  have code : ∀ (x : Option String), x.map (fun t => [textLine t.toList]) = some ls → FlatLines ls := by
    intro x hx
    obtain ⟨t, -, rfl⟩ := Option.map_eq_some_iff.1 hx
    exact flat_cons flat_nil
  have six : ∀ a b c d e f, FlatLines [line a, line b, line c, line d, line e, line f] := fun _ _ _ _ _ _ =>
    flat_cons (flat_cons (flat_cons (flat_cons (flat_cons (flat_cons flat_nil)))))
  rw [valueLines] at h
  rcases if_some h with ⟨e, h⟩ | h
  · cases h; exact six _ _ _ _ _ _
  rcases if_some h with ⟨e, h⟩ | h
  · exact code _ h
  rcases if_some h with ⟨e, h⟩ | h
  · exact absurd e h1
  rcases if_some h with ⟨e, h⟩ | h
  · cases h; exact flat_bits _ _ _ _
  rcases if_some h with ⟨e, h⟩ | h
  · cases h; exact flat_bits _ _ _ _
  rcases if_some h with ⟨e, h⟩ | h
  · exact code _ h
  rcases if_some h with ⟨e, h⟩ | h
  · cases h; exact flat_cons (flat_bits _ _ _ _)
  rcases if_some h with ⟨e, h⟩ | h
  · cases h; exact flat_cons (flat_bits _ _ _ _)
  rcases if_some h with ⟨e, h⟩ | h
  · cases h; exact flat_cons (flat_bits _ _ _ _)
  rcases if_some h with ⟨e, h⟩ | h
  · exact absurd e h2
  rcases if_some h with ⟨e, h⟩ | h
  · cases h; exact flat_bits _ _ _ _
  rcases if_some h with ⟨e, h⟩ | h
  · cases h; exact flat_drawing _ _ _
  rcases if_some h with ⟨e, h⟩ | h
  · exact code _ h
  rcases if_some h with ⟨e, h⟩ | h
  · exact code _ h
  rcases if_some h with ⟨e, h⟩ | h
  · cases h; exact flat_bits _ _ _ _
  cases h

theorem tall_mid {a c : List Line} {l : Line} (h : l.indent = some 0) : Tall (a ++ [l] ++ c) :=
  ⟨l, List.mem_append_left _ (List.mem_append_right _ (List.mem_cons_self ..)), 0, h⟩

theorem tall_cvmList (d : List Byte) : Tall (cvmListLines d) := tall_mid rfl

/-- Something is shown of every decoded value. -/
theorem tall_value {c : Bool} {tag d : List Byte} {ls : List Line} (h : valueLines c tag d = some ls) : Tall ls := by
  have code : ∀ (x : Option String), x.map (fun t => [textLine t.toList]) = some ls → Tall ls := by
    intro x hx
    obtain ⟨t, -, rfl⟩ := Option.map_eq_some_iff.1 hx
    exact tall_line _ _
  rw [valueLines] at h
  rcases if_some h with ⟨e, h⟩ | h
  · cases h; exact tall_line _ _
  rcases if_some h with ⟨e, h⟩ | h
  · exact code _ h
  rcases if_some h with ⟨e, h⟩ | h
  · cases h; exact tall_cvmList d
  rcases if_some h with ⟨e, h⟩ | h
  · cases h; exact tall_bits _ _ _ _
  rcases if_some h with ⟨e, h⟩ | h
  · cases h; exact tall_bits _ _ _ _
  rcases if_some h with ⟨e, h⟩ | h
  · exact code _ h
  rcases if_some h with ⟨e, h⟩ | h
  · cases h; exact tall_line _ _
  rcases if_some h with ⟨e, h⟩ | h
  · cases h; exact tall_line _ _
  rcases if_some h with ⟨e, h⟩ | h
  · cases h; exact tall_line _ _
  rcases if_some h with ⟨e, h⟩ | h
  · rcases if_some h with ⟨-, h⟩ | h
    · cases h; exact tall_line _ _
    · cases h
  rcases if_some h with ⟨e, h⟩ | h
  · cases h; exact tall_bits _ _ _ _
  rcases if_some h with ⟨e, h⟩ | h
  · cases h; exact tall_drawing _ _ _
  rcases if_some h with ⟨e, h⟩ | h
  · exact code _ h
  rcases if_some h with ⟨e, h⟩ | h
  · exact code _ h
  rcases if_some h with ⟨e, h⟩ | h
  · cases h; exact tall_bits _ _ _ _
  cases h

theorem exact_value {m : Machine} (hm : m.overflowChecks = true) {tag d : List Byte}
    {dec : List Byte → Out ParsedValue} {p : ParsedValue} (hmem : (tag, dec) ∈ decoders) (h : dec d = .ok p) {i : Nat}
    (hi : i < 256) {c : Bool} {ls : List Line} (hl : valueLines c tag d = some ls) :
    ExactPanic (p.display m i c) i ls := by
  haveI : Small i := ⟨hi⟩
  have mapOk : ∀ {α : Type} {x : Out α} {f : α → ParsedValue}, x.map f = .ok p → ∃ v, x = .ok v ∧ p = f v := by
    intro α x f hx
    cases x with
    | ok v => simp only [Out.map_ok, Out.ok.injEq] at hx; exact ⟨v, rfl, hx.symm⟩
    | _ => cases hx
  obtain ⟨ls', hl', hs⟩ := shows_value hmem h m.unchecked (i := i) (Or.inr rfl) c
  rw [hl] at hl'; cases hl'
  by_cases h1 : tag = [0x8E]
  · subst h1
    simp only [decoders, List.mem_cons, List.not_mem_nil, or_false, Prod.mk.injEq] at hmem
    simp at hmem
    subst hmem
    obtain ⟨v, hv, rfl⟩ := mapOk h
    cases hl
    exact exact_cvmList hm hv hi
  by_cases h2 : tag = [0x9F, 0x10]
  · subst h2
    simp only [decoders, List.mem_cons, List.not_mem_nil, or_false, Prod.mk.injEq] at hmem
    simp at hmem
    subst hmem
    obtain ⟨v, hv, rfl⟩ := mapOk h
    have hx : valueLines c [0x9F, 0x10] d = if isFormatA d then some (iadLines d c) else none := rfl
    rw [hx, (shows_iad (m := m.unchecked) hv (i := i) (Or.inr rfl) c).1] at hl
    cases hl
    exact exact_iad hm hv hi c
  refine exact_flat hi (flat_value hl h1 h2) ?_
  have hd : p.display m i c = p.display m.unchecked i c := by
    simp only [decoders, List.mem_cons, List.not_mem_nil, or_false, Prod.mk.injEq] at hmem
    rcases hmem with ⟨rfl, rfl⟩ | ⟨rfl, rfl⟩ | ⟨rfl, rfl⟩ | ⟨rfl, rfl⟩ | ⟨rfl, rfl⟩ | ⟨rfl, rfl⟩ | ⟨rfl, rfl⟩ |
      ⟨rfl, rfl⟩ | ⟨rfl, rfl⟩ | ⟨rfl, rfl⟩ | ⟨rfl, rfl⟩ | ⟨rfl, rfl⟩ | ⟨rfl, rfl⟩ | ⟨rfl, rfl⟩ | ⟨rfl, rfl⟩ <;>
      first
      | exact absurd rfl h1
      | exact absurd rfl h2
      | (obtain ⟨v, hv, rfl⟩ := mapOk h; rfl)
  rw [hd]; exact hs.returns

/-! ### Tags and blocks -/

theorem tall_dumpWithText (b : Byte) (bs : List Byte) : Tall (dumpWithText (b :: bs)) := by
  rw [dumpWithText, rowsOf16]
  refine ⟨textLine _, List.mem_map.2 ⟨_, List.mem_map.2 ⟨0, ?_, rfl⟩, rfl⟩, 0, rfl⟩
  rw [List.mem_range, List.length_cons]; omega

theorem exact_rawTag {m : Machine} (hm : m.overflowChecks = true) (t : RawEmvTag) {i : Nat} (hi : i < 256) :
    ExactPanic (displayRawTag m t i) i (rawLines t.data) := by
  obtain ⟨tag, cls, typ, data⟩ := t
  cases data with
  | masked => exact exact_flat hi (flat_cons flat_nil) rfl
  | normal d =>
    cases d with
    | nil => exact exact_flat hi flat_nil rfl
    | cons b bs =>
      have h := exact_deeper hm (i := i) (k := printBytesPretty (b :: bs) 16) (tall_dumpWithText b bs)
        (fun h => by
          haveI : Small (i + 1) := ⟨h⟩
          exact exact_flat h (flat_map _ _) (shows_dumpWithText _ _).returns)
      rw [ExactPanic] at h
      rw [ExactPanic, displayRawTag, rawLines, tooDeep_title hi, ← h]
      · simp only [allCons_panicked, allNil_panicked, println_quiet, color_quiet, reset_quiet, indent_quiet,
          Bool.false_or, Bool.or_false]
      all_goals simp

theorem tagName_quiet (i : Nat) (tag : List Byte) (len : Option Nat) (name : Option String) :
    (printTagName i tag len name).panicked = false := by
  rw [printTagName.eq_def]
  cases len <;> rfl

theorem exact_tag {m : Machine} (hm : m.overflowChecks = true) {t : RawEmvTag} {p : ProcessedEmvTag}
    (h : processEmvTag t = .ok p) {i : Nat} (hi : i < 256) (c : Bool) :
    ExactPanic (displayTag m p i c) i ([tagLine t] ++ rawLines t.data ++ parsedLines c t) := by
  have hraw : ∀ (x : ProcessedEmvTag) (name : Option String), parsedLines c t = [] →
      displayTag m x i c = .all [printTagName i t.tag t.data.len name, displayRawTag m t i] →
      ExactPanic (displayTag m x i c) i ([tagLine t] ++ rawLines t.data ++ parsedLines c t) := by
    intro x name h2 h3
    have hr := exact_rawTag hm t hi
    rw [ExactPanic] at hr
    rw [ExactPanic, h2, h3, tagLine, List.append_nil, tooDeep_append, tooDeep_line hi, tooDeep_nil, false_or, ← hr]
    simp only [allCons_panicked, allNil_panicked, tagName_quiet, Bool.false_or, Bool.or_false]
  rcases processEmvTag_cases t with ⟨dec, d, hdec, hd, hc⟩ | ⟨dec, name, hdec, hd, hn, hc⟩ | ⟨hn, hc⟩
  · rcases hc with ⟨name, q, hname, hq, hc, -⟩ | ⟨e, n, he, htol, hc, -⟩ | ⟨e, -, hc, -⟩
    · rw [hc] at h; cases h
      obtain ⟨ls, hl, -⟩ := shows_value hdec hq m.unchecked (i := 0) (Or.inr rfl) c
      have h2 : parsedLines c t = title "Parsed:" :: deeper ls := by
        simp only [parsedLines, hd, hl]
      have hr := exact_rawTag hm t hi
      have hv := exact_deeper hm (i := i) (k := fun i => q.display m i c) (tall_value hl)
        (fun h => exact_value hm hdec hq h hl)
      rw [ExactPanic] at hr hv
      rw [ExactPanic, h2, displayTag, tagLine, tooDeep_append, tooDeep_append, tooDeep_line hi, tooDeep_nil, false_or,
        tooDeep_title hi, ← hr, ← hv]
      simp only [allCons_panicked, allNil_panicked, tagName_quiet, println_quiet, color_quiet, reset_quiet,
        indent_quiet, Bool.false_or, Bool.or_false, Bool.or_eq_true]
    · rw [hc] at h; cases h
      refine hraw _ (some n) ?_ rfl
      simp only [parsedLines, hd, value_none hdec he htol]
    · rw [hc] at h; cases h
  · rw [hc] at h; cases h
    refine hraw _ (some name) ?_ rfl
    simp only [parsedLines, hd]
  · have h2 : parsedLines c t = [] := by
      rw [parsedLines]
      split
      · rfl
      · rw [lookup_eq_none hn]
    rcases hc with ⟨name, hi', hc⟩ | ⟨hi', hc⟩
    · rw [hc] at h; cases h
      exact hraw _ (some name) h2 rfl
    · rw [hc] at h; cases h
      exact hraw _ none h2 rfl

theorem tall_node (c : Bool) (n : RawEmvNode) (ls : List Line) : Tall (nodeLines c n ++ ls) := by
  obtain ⟨t, cs⟩ := n
  refine ⟨tagLine t, ?_, 0, rfl⟩
  cases cs <;> (rw [nodeLines]; simp)

mutual
theorem exact_node {m : Machine} (hm : m.overflowChecks = true) {c : Bool} : ∀ (n : ProcessedEmvNode) (i : Nat),
    i < 256 → (∀ t ∈ nodeProcessed n, processEmvTag (rawOf t) = .ok t) →
    ExactPanic (displayNode m c n i) i (nodeLines c (eraseNode n))
  | .mk t [], i, hi, hp => by
    have ht := exact_tag hm (hp t (by simp [nodeProcessed])) hi c
    rw [ExactPanic] at ht
    rw [displayNode, eraseNode, eraseBlock, nodeLines, ExactPanic, List.append_nil, ← ht]
    simp only [allCons_panicked, allNil_panicked, List.isEmpty_nil, if_true, nil_quiet, Bool.or_false]
  | .mk t (n :: ns), i, hi, hp => by
    have ht := exact_tag hm (hp t (by simp [nodeProcessed])) hi c
    have hb := exact_deeper hm (i := i) (k := fun i => displayNodes m c (n :: ns) true i)
      (ls := nodeLines c (eraseNode n) ++ moreLines c (eraseBlock ns)) (tall_node _ _ _)
      (fun h => by
        have := exact_nodes hm (c := c) (n :: ns) (i + 1) h
          (fun t ht => hp t (by simp [nodeProcessed]; exact Or.inr ht))
        rw [eraseBlock, blockLines] at this; exact this)
    rw [ExactPanic] at ht hb
    rw [displayNode, eraseNode, eraseBlock, nodeLines, ExactPanic, tooDeep_append, ← ht, tooDeep_title hi, ← hb]
    simp only [allCons_panicked, allNil_panicked, List.isEmpty_cons, Bool.false_eq_true, if_false, println_quiet,
      color_quiet, reset_quiet, indent_quiet, Bool.false_or, Bool.or_false, Bool.or_eq_true]
theorem exact_nodes {m : Machine} (hm : m.overflowChecks = true) {c : Bool} :
    ∀ (b : List ProcessedEmvNode) (i : Nat), i < 256 → AllProcessed b →
    ExactPanic (displayNodes m c b true i) i (blockLines c (eraseBlock b))
  | [], i, hi, _ => by
    rw [displayNodes, eraseBlock, blockLines]
    exact exact_flat hi flat_nil rfl
  | n :: ns, i, hi, hp => by
    have hn := exact_node hm (c := c) n i hi
      (fun t ht => hp t (by rw [blockProcessed]; exact List.mem_append_left _ ht))
    have hs := exact_more hm (c := c) ns i hi
      (fun t ht => hp t (by rw [blockProcessed]; exact List.mem_append_right _ ht))
    rw [ExactPanic] at hn hs
    rw [displayNodes, eraseBlock, blockLines, ExactPanic, tooDeep_append, ← hn, ← hs]
    simp only [allCons_panicked, allNil_panicked, if_true, nil_quiet, Bool.false_or, Bool.or_false, Bool.or_eq_true]
theorem exact_more {m : Machine} (hm : m.overflowChecks = true) {c : Bool} :
    ∀ (ns : List ProcessedEmvNode) (i : Nat), i < 256 → AllProcessed ns →
    ExactPanic (displayNodes m c ns false i) i (moreLines c (eraseBlock ns))
  | [], i, hi, _ => by
    rw [displayNodes, eraseBlock, moreLines]
    exact exact_flat hi flat_nil rfl
  | n :: ns, i, hi, hp => by
    have hn := exact_node hm (c := c) n i hi
      (fun t ht => hp t (by rw [blockProcessed]; exact List.mem_append_left _ ht))
    have hs := exact_more hm (c := c) ns i hi
      (fun t ht => hp t (by rw [blockProcessed]; exact List.mem_append_right _ ht))
    have he : ¬ TooDeep i [⟨none, plain ['\n']⟩] := by simp [TooDeep]
    rw [ExactPanic] at hn hs
    rw [displayNodes, eraseBlock, moreLines, ExactPanic, tooDeep_append, tooDeep_append, ← hn, ← hs]
    simp only [allCons_panicked, allNil_panicked, Bool.false_eq_true, if_false, println_quiet, he, Bool.false_or,
      Bool.or_false, Bool.or_eq_true, false_or]
end

end Pemv
