import Verif.Spec.Reserved
import Verif.Proofs.Rearranged

/-!
# Lemmas: where reserved codes are shown (C98)
-/

namespace Pemv

open Spec

/-! ### Words in texts -/

/-- Do three things follow each other? -/
def has3 {α : Type} [DecidableEq α] (x y z : α) : List α → Bool
  | [] => false
  | a :: t => (decide (a = x) && decide (t.head? = some y) && decide (t[1]? = some z)) || has3 x y z t

/-- Do two things follow each other? -/
def has2 {α : Type} [DecidableEq α] (x y : α) : List α → Bool
  | [] => false
  | a :: t => (decide (a = x) && decide (t.head? = some y)) || has2 x y t

theorem has3_iff {α : Type} [DecidableEq α] {x y z : α} : ∀ {l : List α}, has3 x y z l = true ↔ [x, y, z] <:+: l
  | [] => by simp [has3]
  | a :: t => by
    rw [has3, Bool.or_eq_true, has3_iff, List.infix_cons_iff]
    refine or_congr ?_ Iff.rfl
    match t with
    | [] => simp
    | [b] => simp
    | b :: c :: t =>
      simp only [List.cons_prefix_cons, List.nil_prefix, and_true, List.head?_cons, Bool.and_eq_true, decide_eq_true_eq,
        Option.some.injEq, List.getElem?_cons_succ, List.getElem?_cons_zero]
      constructor
      · rintro ⟨⟨h1, h2⟩, h3⟩; exact ⟨h1.symm, h2.symm, h3.symm⟩
      · rintro ⟨h1, h2, h3⟩; exact ⟨⟨h1.symm, h2.symm⟩, h3.symm⟩

theorem has2_of_has3 {α : Type} [DecidableEq α] {x y z : α} : ∀ {l : List α}, has3 x y z l = true → has2 x y l = true
  | [], h => by cases h
  | a :: t, h => by
    rw [has3, Bool.or_eq_true] at h
    rw [has2, Bool.or_eq_true]
    rcases h with h | h
    · simp only [Bool.and_eq_true] at h ⊢; exact .inl h.1
    · exact .inr (has2_of_has3 h)

theorem has2_append {α : Type} [DecidableEq α] {x y : α} : ∀ {a b : List α}, has2 x y a = false → has2 x y b = false →
    (a.getLast? ≠ some x ∨ b.head? ≠ some y) → has2 x y (a ++ b) = false
  | [], b, _, hb, _ => hb
  | [c], b, _, hb, h => by
    rw [List.singleton_append, has2, hb, Bool.or_false]
    rw [Bool.and_eq_false_iff, decide_eq_false_iff_not, decide_eq_false_iff_not]
    simpa using h
  | c :: d :: a, b, ha, hb, h => by
    rw [has2, Bool.or_eq_false_iff] at ha
    rw [List.cons_append, has2, Bool.or_eq_false_iff]
    refine ⟨?_, has2_append ha.2 hb ?_⟩
    · simpa using ha.1
    · simpa using h

theorem has3_skip {α : Type} [DecidableEq α] {x y z : α} {b : List α} : ∀ {a : List α}, x ∉ a →
    has3 x y z (a ++ b) = has3 x y z b
  | [], _ => rfl
  | c :: a, h => by
    rw [List.cons_append, has3, has3_skip (fun h' => h (List.mem_cons_of_mem _ h'))]
    have : c ≠ x := fun e => h (e ▸ List.mem_cons_self ..)
    simp [this]

theorem has3_break {α : Type} [DecidableEq α] {x y z n : α} {b : List α} (h : n ≠ x ∧ n ≠ y ∧ n ≠ z) : ∀ {a : List α},
    has3 x y z (a ++ n :: b) = (has3 x y z a || has3 x y z b)
  | [] => by
    rw [List.nil_append, has3]
    simp [h.1, has3]
  | c :: a => by
    rw [List.cons_append, has3, has3, has3_break h, Bool.or_assoc]
    congr 1
    match a with
    | [] => simp [h.2.1]
    | [d] => simp [h.2.2]
    | d :: e :: a => rfl

/-- A text in which R is never followed by F. -/
def Calm (t : Text) : Prop := has2 'R' 'F' t = false

/-- The same, and not ending with R. -/
def Steady (t : Text) : Prop := Calm t ∧ t.getLast? ≠ some 'R'

theorem calm_of_no {t : Text} (h : 'R' ∉ t) : Calm t := by
  induction t with
  | nil => rfl
  | cons c t ih =>
    rw [Calm, has2, Bool.or_eq_false_iff]
    refine ⟨?_, ih (fun h' => h (List.mem_cons_of_mem _ h'))⟩
    have : c ≠ 'R' := fun e => h (e ▸ List.mem_cons_self ..)
    simp [this]

theorem steady_of_no {t : Text} (h : 'R' ∉ t) : Steady t :=
  ⟨calm_of_no h, fun e => h (List.mem_of_getLast? e)⟩

theorem Steady.append {a b : Text} (ha : Steady a) (hb : Steady b) : Steady (a ++ b) := by
  refine ⟨has2_append ha.1 hb.1 (.inl ha.2), ?_⟩
  rw [List.getLast?_append]
  cases h : b.getLast? with
  | none => simpa using ha.2
  | some c => simpa [h] using hb.2

theorem Steady.calm_append {a b : Text} (ha : Steady a) (hb : Calm b) : Calm (a ++ b) :=
  has2_append ha.1 hb (.inl ha.2)

theorem Calm.break {a : Text} (ha : Calm a) : Calm (a ++ ['\n']) := has2_append ha rfl (.inr (by simp))

/-- A check on numbers. -/
def adjacent : List Nat → Bool
  | [] => false
  | a :: t => (Nat.beq a 82 && (match t with | b :: _ => Nat.beq b 70 | [] => false)) || adjacent t

/-- A check on the bytes of a string. -/
def calmBytes (s : String) : Bool := !adjacent (s.toByteArray.data.toList.map UInt8.toNat)

/-- A check on the bytes of a string. -/
def steadyBytes (s : String) : Bool :=
  calmBytes s && !(match s.toByteArray.data.toList.getLast? with | some b => Nat.beq b.toNat 82 | none => false)

theorem adjacent_infix : ∀ {l : List Nat}, [82, 70] <:+: l → adjacent l = true
  | [], h => by simp at h
  | a :: t, h => by
    rw [adjacent.eq_def]
    simp only [Bool.or_eq_true]
    rcases List.infix_cons_iff.1 h with h | h
    · left
      obtain ⟨r, hr⟩ := h
      cases hr
      rfl
    · exact .inr (adjacent_infix h)

theorem has2_iff {α : Type} [DecidableEq α] {x y : α} : ∀ {l : List α}, has2 x y l = true ↔ [x, y] <:+: l
  | [] => by simp [has2]
  | a :: t => by
    rw [has2, Bool.or_eq_true, has2_iff, List.infix_cons_iff]
    refine or_congr ?_ Iff.rfl
    match t with
    | [] => simp
    | b :: t =>
      simp only [List.cons_prefix_cons, List.nil_prefix, and_true, List.head?_cons, Bool.and_eq_true, decide_eq_true_eq,
        Option.some.injEq]
      constructor
      · rintro ⟨h1, h2⟩; exact ⟨h1.symm, h2.symm⟩
      · rintro ⟨h1, h2⟩; exact ⟨h1.symm, h2.symm⟩

theorem string_bytes (s : String) : s.toByteArray.data.toList = s.toList.flatMap String.utf8EncodeChar := by
  rw [← String.utf8Encode_toList, List.utf8Encode]
  simp

theorem calm_str {s : String} (h : calmBytes s = true) : Calm s.toList := by
  rw [Calm, Bool.eq_false_iff]
  intro h2
  obtain ⟨a, b, hab⟩ := has2_iff.1 h2
  rw [calmBytes, string_bytes, ← hab] at h
  have : adjacent (((a ++ ['R', 'F'] ++ b).flatMap String.utf8EncodeChar).map UInt8.toNat) = true := by
    apply adjacent_infix
    refine ⟨(a.flatMap String.utf8EncodeChar).map UInt8.toNat, (b.flatMap String.utf8EncodeChar).map UInt8.toNat, ?_⟩
    rw [List.flatMap_append, List.flatMap_append, List.map_append, List.map_append]
    rfl
  rw [this] at h
  cases h

theorem steady_str {s : String} (h : steadyBytes s = true) : Steady s.toList := by
  rw [steadyBytes, Bool.and_eq_true] at h
  refine ⟨calm_str h.1, fun e => ?_⟩
  obtain ⟨a, ha⟩ := List.getLast?_eq_some_iff.1 e
  have := h.2
  rw [string_bytes, ha, List.flatMap_append] at this
  have e2 : List.flatMap String.utf8EncodeChar ['R'] = [82] := by decide
  rw [e2, List.getLast?_append] at this
  simp at this

theorem steady_all {α : Type} {l : List α} {f : α → String} (h : l.all (fun p => steadyBytes (f p)) = true) :
    ∀ p ∈ l, Steady (f p).toList := fun p hp => steady_str (List.all_eq_true.1 h p hp)

/-! ### Lines -/

/-- Does a line contain the word? -/
def saysLine (l : Line) : Bool := has3 'R' 'F' 'U' (cellText l.cells)

/-- Does a document contain it? -/
def saysLines (ls : List Line) : Bool := ls.any saysLine

theorem says_doc (i : Nat) {ls : List Line} (h : WholeLines ls) : Says rfu (showLines i ls) ↔ saysLines ls = true := by
  rw [Says, rfu, ← has3_iff]
  show has3 'R' 'F' 'U' (docText i ls) = true ↔ _
  rw [Bool.eq_iff_iff.symm]
  induction ls with
  | nil => rfl
  | cons l ls ih =>
    obtain ⟨t, ht, -⟩ := h l (List.mem_cons_self ..)
    replace ht : cellText l.cells = t ++ ['\n'] := ht
    have e : docText i (l :: ls) = cellText (l.render i) ++ docText i ls := by
      rw [docText, docText, ← cellText_append]; rfl
    obtain ⟨pre, hp, hn⟩ : ∃ pre, cellText (l.render i) = pre ++ cellText l.cells ∧ 'R' ∉ pre := by
      refine ⟨_, render_text i l, fun hm => ?_⟩
      cases hk : l.indent with
      | none => rw [hk] at hm; cases hm
      | some k =>
        rw [hk] at hm
        have := List.eq_of_mem_replicate hm
        exact absurd this (by decide)
    have hb : ('\n' : Char) ≠ 'R' ∧ ('\n' : Char) ≠ 'F' ∧ ('\n' : Char) ≠ 'U' := by decide
    rw [e, hp, List.append_assoc, has3_skip hn, ht, List.append_assoc, List.singleton_append, has3_break hb,
      ih (fun l' hl' => h l' (List.mem_cons_of_mem _ hl'))]
    show _ = (saysLine l || saysLines ls)
    rw [saysLine, ht, has3_break hb]
    simp [has3, saysLines]

theorem saysLines_append (a b : List Line) : saysLines (a ++ b) = (saysLines a || saysLines b) := List.any_append

theorem saysLines_cons (l : Line) (b : List Line) : saysLines (l :: b) = (saysLine l || saysLines b) := List.any_cons

theorem saysLines_deeper (a : List Line) : saysLines (deeper a) = saysLines a := by
  rw [saysLines, deeper, List.any_map]; rfl

theorem quiet_of_calm {l : Line} (h : Calm (cellText l.cells)) : saysLine l = false := by
  rw [saysLine, Bool.eq_false_iff]
  intro h3
  rw [Calm, has2_of_has3 h3] at h
  cases h

theorem quiet_lines {ls : List Line} (h : ∀ l ∈ ls, saysLine l = false) : saysLines ls = false := by
  rw [saysLines, List.any_eq_false]
  intro l hl
  rw [h l hl]; simp

theorem quiet_textLine {t : Text} (h : Calm t) : saysLine (textLine t) = false := by
  apply quiet_of_calm
  rw [textLine, line, cellText_plain]
  exact h.break

theorem quiet_title {t : String} (h : steadyBytes t = true) : saysLine (title t) = false := by
  apply quiet_of_calm
  rw [title, line, heading, cellText_styled, String.toList_append]
  exact (steady_str h).calm_append rfl

theorem quiet_entry {t : String} {r : Text} (h : steadyBytes t = true) (hr : Calm r) : saysLine (entry t r) = false := by
  apply quiet_of_calm
  rw [entry, line, heading, cellText_append, cellText_styled, cellText_plain]
  exact (steady_str h).calm_append hr.break

/-! ### Pieces -/

theorem no_decimal (n : Nat) : 'R' ∉ decimal n := by
  rw [← natToText_decimal, natToText, natToTextF_eq _ _ (Nat.lt_succ_self n)]
  intro hc
  exact absurd (Nat.isDigit_of_mem_toDigits (b := 10) (by omega) (by omega) hc) (by decide)

theorem no_hexPair (b : Byte) : 'R' ∉ hexPair b := by
  revert b; apply forall_byte; decide +kernel

theorem no_hexPairs (bs : List Byte) : 'R' ∉ bs.flatMap hexPair := by
  intro h
  obtain ⟨b, -, hb⟩ := List.mem_flatMap.1 h
  exact no_hexPair b hb

theorem mem_hexRow {bs : List Byte} {c : Char} (hc : c ∈ hexRow bs) : c = ' ' ∨ ∃ b, c ∈ hexPair b := by
  rw [hexRow] at hc
  generalize hm : bs.map hexPair = l at hc
  have hl : ∀ x ∈ l, ∃ b, x = hexPair b := by
    intro x hx; rw [← hm] at hx
    obtain ⟨b, -, rfl⟩ := List.mem_map.1 hx
    exact ⟨b, rfl⟩
  clear hm
  rw [List.intercalate] at hc
  obtain ⟨x, hx, hcx⟩ := List.mem_flatten.1 hc
  clear hc
  induction l with
  | nil => cases hx
  | cons y l ih =>
    cases l with
    | nil =>
      rw [List.intersperse] at hx
      simp only [List.mem_singleton] at hx
      obtain ⟨b, rfl⟩ := hl y (by simp)
      rw [hx] at hcx; exact Or.inr ⟨b, hcx⟩
    | cons z l =>
      rw [List.intersperse_cons_cons] at hx
      rcases List.mem_cons.1 hx with rfl | hx
      · obtain ⟨b, rfl⟩ := hl x (by simp)
        exact Or.inr ⟨b, hcx⟩
      rcases List.mem_cons.1 hx with rfl | hx
      · left; simpa using hcx
      · exact ih (fun x hx => hl x (by simp [hx])) hx

theorem no_hexRow (bs : List Byte) : 'R' ∉ hexRow bs := by
  intro h
  rcases mem_hexRow h with h | ⟨b, h⟩
  · exact absurd h (by decide)
  · exact no_hexPair b h

theorem quiet_dump (bs : List Byte) : saysLines (dump bs) = false := by
  apply quiet_lines
  intro l hl
  obtain ⟨r, -, rfl⟩ := List.mem_map.1 hl
  exact quiet_textLine (calm_of_no (no_hexRow r))

theorem has3_readable : ∀ r : List Byte, has3 'R' 'F' 'U' (r.map readable) = has3 0x52 0x46 0x55 r
  | [] => rfl
  | b :: r => by
    have hR : ∀ b : Byte, decide (readable b = 'R') = decide (b = 0x52) := by apply forall_byte; decide +kernel
    have hF : ∀ b : Byte, decide (readable b = 'F') = decide (b = 0x46) := by apply forall_byte; decide +kernel
    have hU : ∀ b : Byte, decide (readable b = 'U') = decide (b = 0x55) := by apply forall_byte; decide +kernel
    rw [List.map_cons, has3, has3, has3_readable r, hR]
    congr 1
    match r with
    | [] => rfl
    | [c] => simp
    | c :: d :: r =>
      have := hF c
      have := hU d
      simp_all

theorem says_dumpWithText (d : List Byte) : saysLines (dumpWithText d) = true ↔ SpellsRfu d := by
  rw [saysLines, List.any_eq_true, SpellsRfu, dumpWithText]
  have row : ∀ r : List Byte, saysLine (textLine (padTo 49 (hexRow r) ++ r.map readable)) = has3 0x52 0x46 0x55 r := by
    intro r
    have hb : ('\n' : Char) ≠ 'R' ∧ ('\n' : Char) ≠ 'F' ∧ ('\n' : Char) ≠ 'U' := by decide
    rw [saysLine, textLine, line, cellText_plain, List.append_assoc, has3_skip, has3_break hb, has3_readable]
    · simp [has3]
    · intro h
      rcases List.mem_append.1 h with h | h
      · exact no_hexRow r h
      · exact absurd (List.eq_of_mem_replicate h) (by decide)
  constructor
  · rintro ⟨l, hl, h⟩
    obtain ⟨r, hr, rfl⟩ := List.mem_map.1 hl
    rw [row] at h
    exact ⟨r, hr, has3_iff.1 h⟩
  · rintro ⟨r, hr, h⟩
    exact ⟨_, List.mem_map_of_mem hr, by rw [row]; exact has3_iff.2 h⟩

/-! ### Bit-mapped values -/

/-- A drawing contains the word if and only if one of its explanations does. -/
theorem says_drawing (bytes : List Byte) (rs : List Annotation) (colours : Bool) :
    saysLines (drawingLines bytes rs colours) = rs.any (fun r => has3 'R' 'F' 'U' r.text) := by
  have hb : ('\n' : Char) ≠ 'R' ∧ ('\n' : Char) ≠ 'F' ∧ ('\n' : Char) ≠ 'U' := by decide
  have h1 : saysLine (line (bold (digitLine bytes ++ ['\n']))) = false := by
    apply quiet_of_calm
    rw [line, bold, cellText_styled]
    refine Calm.break (calm_of_no (fun h => ?_))
    obtain ⟨k, -, hk⟩ := List.mem_map.1 h
    split at hk
    · split at hk <;> exact absurd hk (by decide)
    · exact absurd hk (by decide)
  have h2 : saysLine (textLine (header bytes.length rs)) = false := by
    refine quiet_textLine (calm_of_no (fun h => ?_))
    obtain ⟨k, -, hk⟩ := List.mem_map.1 h
    split at hk
    · rw [headerGlyphAt] at hk
      repeat' split at hk
      all_goals exact absurd hk (by decide)
    · exact absurd hk (by decide)
  rw [drawingLines, saysLines_append, saysLines_append]
  have e1 : saysLines [line (bold (digitLine bytes ++ ['\n']))] = false := by rw [saysLines, List.any_cons, h1]; rfl
  have e2 : saysLines (if rs.any (fun r => r.width ≠ 1) then [textLine (header bytes.length rs)] else []) = false := by
    split
    · rw [saysLines, List.any_cons, h2]; rfl
    · rfl
  rw [e1, e2, Bool.false_or, Bool.false_or, saysLines, List.any_map, List.any_reverse]
  congr 1
  funext r
  show has3 'R' 'F' 'U' (cellText (plain (lead bytes.length rs r ++ ['└', ' ']) ++
    styled (if colours then severityStyle r.severity else plainStyle) (r.text ++ ['\n']))) = _
  rw [cellText_append, cellText_plain, cellText_styled, has3_skip, has3_break hb]
  · simp [has3]
  · intro h
    rcases List.mem_append.1 h with h | h
    · obtain ⟨k, -, hk⟩ := List.mem_map.1 h
      split at hk
      · split at hk <;> exact absurd hk (by decide)
      · exact absurd hk (by decide)
    · exact absurd h (by decide)

theorem quiet_text {t : Text} (h : Calm t) : has3 'R' 'F' 'U' t = false := by
  rw [Bool.eq_false_iff]
  intro h3
  rw [Calm, has2_of_has3 h3] at h
  cases h

theorem codeTexts_steady : ∀ p ∈ codeTexts, p.1 ≠ "Rfu" → Steady p.2.toList := by
  have : (codeTexts.filter (fun p => p.1 != "Rfu")).all (fun p => steadyBytes p.2) = true := by decide +kernel
  intro p hp hne
  refine steady_str (List.all_eq_true.1 this p (List.mem_filter.2 ⟨hp, ?_⟩))
  simpa using hne

theorem unlistedTexts_steady : ∀ p ∈ unlistedTexts, Steady p.2.toList := steady_all (by decide +kernel)

theorem steady_nil : Steady [] := ⟨rfl, by simp⟩

theorem steady_empty : Steady "".toList := steady_str (by decide +kernel)

/-- The values of an item whose codes are all in use. -/
theorem steady_valueText {t : Item} {n : Nat}
    (h : ∀ codes, (t.kind = .code codes ∨ t.kind = .openCode codes) → codes.lookup n ≠ some "Rfu") :
    Steady (t.valueText n) := by
  have code : ∀ c, c ≠ "Rfu" → Steady ((codeTexts.lookup c).getD "").toList := by
    intro c hc
    cases hl : codeTexts.lookup c with
    | none => exact steady_empty
    | some x => exact codeTexts_steady _ (lookup_mem hl) hc
  rw [Item.valueText.eq_def]
  split
  · exact steady_nil
  · exact steady_of_no (no_decimal n)
  · rename_i codes hk
    cases hl : codes.lookup n with
    | none => exact steady_empty
    | some c => exact code c (fun e => h codes (.inl hk) (e ▸ hl))
  · rename_i codes hk
    split
    · rename_i c hl
      exact code c (fun e => h codes (.inr hk) (e ▸ hl))
    · cases hl : unlistedTexts.lookup t.name with
      | none => exact steady_empty
      | some x => exact unlistedTexts_steady _ (lookup_mem hl)

theorem steady_annotation {labels : List (String × Severity × String)} (h : ∀ p ∈ labels, Steady p.2.2.toList)
    (n : Nat) (bs : List Byte) {t : Item}
    (hc : ∀ codes, (t.kind = .code codes ∨ t.kind = .openCode codes) → codes.lookup (t.bitsOf bs) ≠ some "Rfu") :
    Steady (t.annotation labels n bs).text := by
  rw [Item.annotation.eq_def]
  split
  · rename_i s l hl
    show Steady (t.explanation l (t.bitsOf bs))
    rw [Item.explanation.eq_def]
    split
    · exact h _ (lookup_mem hl)
    · exact ((h _ (lookup_mem hl)).append (steady_str (by decide +kernel))).append (steady_valueText hc)
  · exact steady_nil

/-- Does an item have no reserved codes? -/
def allInUse (t : Item) : Bool :=
  match t.kind with
  | .code codes => codes.all (fun p => p.2 != "Rfu")
  | .openCode codes => codes.all (fun p => p.2 != "Rfu")
  | _ => true

theorem allInUse_lookup {t : Item} (h : allInUse t = true) (n : Nat) :
    ∀ codes, (t.kind = .code codes ∨ t.kind = .openCode codes) → codes.lookup n ≠ some "Rfu" := by
  intro codes hk hl
  rw [allInUse] at h
  have : codes.all (fun p => p.2 != "Rfu") = true := by
    rcases hk with hk | hk <;> rw [hk] at h <;> exact h
  have := List.all_eq_true.1 this _ (lookup_mem hl)
  simp at this

theorem quiet_annotations {labels : List (String × Severity × String)} (h : ∀ p ∈ labels, Steady p.2.2.toList)
    {items : List Item} (hi : items.all allInUse = true) (bs : List Byte) :
    ∀ r ∈ annotations labels items bs, Steady r.text := by
  intro r hr
  obtain ⟨t, ht, rfl⟩ := List.mem_map.1 hr
  exact steady_annotation h _ _ (allInUse_lookup (List.all_eq_true.1 hi t (List.mem_filter.1 ht).1) _)

theorem quiet_bitLines {labels : List (String × Severity × String)} (h : ∀ p ∈ labels, Steady p.2.2.toList)
    {items : List Item} (hi : items.all allInUse = true) (bs : List Byte) (c : Bool) :
    saysLines (bitLines items labels bs c) = false := by
  rw [bitLines, says_drawing, List.any_eq_false]
  intro r hr
  rw [quiet_text (quiet_annotations h hi bs r hr).1]
  simp

theorem steady_labels {labels : List (String × Severity × String)} (h : labels.all (fun p => steadyBytes p.2.2) = true) :
    ∀ p ∈ labels, Steady p.2.2.toList := fun p hp => steady_str (List.all_eq_true.1 h p hp)

theorem quiet_iacLines (k : IacKind) (bs : List Byte) : saysLines (iacLines k bs) = false := by
  rw [iacLines, saysLines_cons, quiet_title (by cases k <;> decide +kernel),
    quiet_bitLines (steady_labels (by decide +kernel)) (by decide +kernel)]
  rfl

theorem quiet_cvmResultsLines (bs : List Byte) (c : Bool) : saysLines (cvmResultsLines bs c) = false := by
  rw [cvmResultsLines, says_drawing, List.any_eq_false]
  intro r hr
  obtain ⟨r', hr', rfl⟩ := List.mem_map.1 hr
  have := quiet_text (quiet_annotations (steady_labels (labels := cvmResultsLabels) (by decide +kernel))
    (items := cvmResultsItems) (by decide +kernel) bs r' hr').1
  split <;> simp [this]

/-! ### Service codes -/

theorem quiet_aspect {b l t : String} (h1 : steadyBytes b = true) (h2 : steadyBytes l = true) (h3 : calmBytes t = true) :
    saysLine (aspect b l t) = false := by
  apply quiet_of_calm
  rw [aspect, line, cellText_append, cellText_append, cellText_plain, bold, cellText_styled, cellText_plain,
    List.append_assoc]
  refine (steady_str h1).calm_append ((steady_str h2).calm_append ?_)
  rw [List.append_assoc]
  refine (steady_of_no (fun h => ?_)).calm_append (calm_str h3).break
  exact absurd (List.eq_of_mem_replicate h) (by decide)

theorem says_aspect (b l : String) : saysLine (aspect b l "RFU") = true := by
  rw [saysLine, has3_iff, aspect, line, cellText_append, cellText_append, cellText_plain, bold, cellText_styled, cellText_plain]
  refine ⟨b.toList ++ l.toList ++ List.replicate (26 - l.toList.length) ' ', ['\n'], ?_⟩
  have : "RFU".toList = ['R', 'F', 'U'] := by decide +kernel
  rw [this]
  simp

theorem says_serviceCodeLines (a b c : Nat) : saysLines (serviceCodeLines a b c) = true ↔ ReservedServiceCode a b c := by
  have h0 : saysLine (line (bold (decimal a ++ decimal b ++ decimal c ++ ['\n']))) = false := by
    apply quiet_of_calm
    rw [line, bold, cellText_styled]
    refine Calm.break (calm_of_no (fun h => ?_))
    rcases List.mem_append.1 h with h | h
    · rcases List.mem_append.1 h with h | h
      · exact no_decimal a h
      · exact no_decimal b h
    · exact no_decimal c h
  have h1 : saysLine (aspect "││├ " "Allowed Services:" (services c)) = true ↔ 7 < c := by
    rw [services]
    split
    · rw [quiet_aspect (by decide +kernel) (by decide +kernel) (by decide +kernel)]
      simp; omega
    split
    · rw [quiet_aspect (by decide +kernel) (by decide +kernel) (by decide +kernel)]
      simp; omega
    split
    · rw [quiet_aspect (by decide +kernel) (by decide +kernel) (by decide +kernel)]
      simp; omega
    split
    · rw [quiet_aspect (by decide +kernel) (by decide +kernel) (by decide +kernel)]
      simp; omega
    · rw [says_aspect]
      simp; omega
  have h2 : saysLine (aspect "││└ " "PIN Requirements:" (pin c)) = false := by
    rw [pin]
    split
    · exact quiet_aspect (by decide +kernel) (by decide +kernel) (by decide +kernel)
    split
    · exact quiet_aspect (by decide +kernel) (by decide +kernel) (by decide +kernel)
    · exact quiet_aspect (by decide +kernel) (by decide +kernel) (by decide +kernel)
  have h3 : saysLine (aspect "│└─ " "Authorisation Processing:" (authorisation b)) = true ↔ b ∉ [0, 2, 4] := by
    rw [authorisation]
    split
    · rw [quiet_aspect (by decide +kernel) (by decide +kernel) (by decide +kernel)]
      simp; omega
    split
    · rw [quiet_aspect (by decide +kernel) (by decide +kernel) (by decide +kernel)]
      simp; omega
    split
    · rw [quiet_aspect (by decide +kernel) (by decide +kernel) (by decide +kernel)]
      simp; omega
    · rw [says_aspect]
      simp; omega
  have h4 : saysLine (aspect "├── " "Interchange:" (interchange a)) = true ↔ a ∉ [1, 2, 5, 6, 7, 9] := by
    rw [interchange]
    split
    · rw [quiet_aspect (by decide +kernel) (by decide +kernel) (by decide +kernel)]
      simp; omega
    split
    · rw [quiet_aspect (by decide +kernel) (by decide +kernel) (by decide +kernel)]
      simp; omega
    split
    · rw [quiet_aspect (by decide +kernel) (by decide +kernel) (by decide +kernel)]
      simp; omega
    split
    · rw [quiet_aspect (by decide +kernel) (by decide +kernel) (by decide +kernel)]
      simp; omega
    · rw [says_aspect]
      simp; omega
  have h5 : saysLine (aspect "└── " "Technology:" (technology a)) = false := by
    rw [technology]
    split
    · exact quiet_aspect (by decide +kernel) (by decide +kernel) (by decide +kernel)
    · exact quiet_aspect (by decide +kernel) (by decide +kernel) (by decide +kernel)
  rw [serviceCodeLines, saysLines_cons, saysLines_cons, saysLines_cons, saysLines_cons, saysLines_cons, saysLines_cons,
    h0, h2, h5]
  simp only [Bool.or_eq_true, h1, h3, h4, ReservedServiceCode]
  simp only [saysLines, List.any_nil, Bool.false_eq_true, false_or, or_false]
  constructor
  · rintro (h | h | h)
    · exact .inr (.inr h)
    · exact .inr (.inl h)
    · exact .inl h
  · rintro (h | h | h)
    · exact .inr (.inr h)
    · exact .inr (.inl h)
    · exact .inl h

/-! ### Card Verification Results -/

/-- The only reserved codes are in the types of the cryptograms. -/
def reservedPlaces (t : Item) : Bool :=
  match t.kind with
  | .code codes => codes.all (fun p => p.2 != "Rfu" ||
      (p.1 == 3 && t.byte == 1 && (t.hi == 8 && t.lo == 7 || t.hi == 6 && t.lo == 5)))
  | .openCode codes => codes.all (fun p => p.2 != "Rfu")
  | _ => true

theorem reservedPlaces_cvr : cvrItems.all reservedPlaces = true := by decide +kernel

theorem says_cvr (bs : List Byte) (c : Bool) : saysLines (bitLines cvrItems cvrLabels bs c) = true ↔ ReservedCvr bs := by
  rw [bitLines, says_drawing]
  constructor
  · intro h
    rw [List.any_eq_true] at h
    obtain ⟨r, hr, h⟩ := h
    apply Classical.byContradiction
    intro hn
    rw [ReservedCvr, not_or] at hn
    obtain ⟨t, ht, rfl⟩ := List.mem_map.1 hr
    have hp := List.all_eq_true.1 reservedPlaces_cvr t (List.mem_filter.1 ht).1
    have : Steady (t.annotation cvrLabels bs.length bs).text := by
      refine steady_annotation (steady_labels (by decide +kernel)) _ _ ?_
      intro codes hk hl
      have hm := lookup_mem hl
      rw [reservedPlaces] at hp
      rcases hk with hk | hk
      · rw [hk] at hp
        have := List.all_eq_true.1 hp _ hm
        simp only [bne_self_eq_false, Bool.false_or, Bool.and_eq_true, Bool.or_eq_true, beq_iff_eq] at this
        obtain ⟨⟨h3, hb⟩, hh⟩ := this
        rw [Item.bitsOf, hb] at h3
        rcases hh with ⟨e1, e2⟩ | ⟨e1, e2⟩
        · rw [e1, e2] at h3; exact hn.1 h3
        · rw [e1, e2] at h3; exact hn.2 h3
      · rw [hk] at hp
        have := List.all_eq_true.1 hp _ hm
        simp at this
    rw [quiet_text this.1] at h
    cases h
  · intro h
    rw [List.any_eq_true]
    have key : ∀ (t : Item) (codes : List (Nat × String)) (sev : Severity) (lab : String), t ∈ cvrItems →
        t.kind = .code codes → codes.lookup (t.bitsOf bs) = some "Rfu" → cvrLabels.lookup t.name = some (sev, lab) →
        ∃ r ∈ annotations cvrLabels cvrItems bs, has3 'R' 'F' 'U' r.text = true := by
      intro t codes sev lab ht hk hl hlab
      refine ⟨_, List.mem_map_of_mem (List.mem_filter.2 ⟨ht, ?_⟩), ?_⟩
      · simp [hk]
      · rw [has3_iff, Item.annotation.eq_def, hlab]
        show _ <:+: t.explanation lab (t.bitsOf bs)
        rw [Item.explanation.eq_def, hk]
        show _ <:+: lab.toList ++ _ ++ t.valueText (t.bitsOf bs)
        have : t.valueText (t.bitsOf bs) = "RFU (Reserved For Use)".toList := by
          rw [Item.valueText.eq_def, hk]
          show (((codes.lookup (t.bitsOf bs)).bind (fun c => codeTexts.lookup c)).getD "").toList = _
          rw [hl]
          rfl
        rw [this]
        refine List.IsInfix.trans ?_ (List.suffix_append _ _).isInfix
        decide +kernel
    rcases h with h | h
    · refine key ⟨"gen_ac_2_application_cryptogram_type", 1, 8, 7,
        .code [(0, "Aac"), (1, "Tc"), (2, "SecondGenAcNotRequested"), (3, "Rfu")]⟩ _ _ _ (by decide +kernel) rfl ?_ rfl
      show List.lookup (bits (bs.getD 0 0) 8 7) _ = _
      rw [h]; rfl
    · refine key ⟨"gen_ac_1_application_cryptogram_type", 1, 6, 5,
        .code [(0, "Aac"), (1, "Tc"), (2, "Arqc"), (3, "Rfu")]⟩ _ _ _ (by decide +kernel) rfl ?_ rfl
      show List.lookup (bits (bs.getD 0 0) 6 5) _ = _
      rw [h]; rfl

/-! ### Other values -/

theorem steady_codeText {item : String} {codes : List (Nat × String)} (h : codes.all (fun p => p.2 != "Rfu") = true)
    (n : Nat) : Steady (codeText item codes n).toList := by
  rw [codeText]
  split
  · rename_i c hl
    have hc : c ≠ "Rfu" := by simpa using List.all_eq_true.1 h _ (lookup_mem hl)
    cases hx : codeTexts.lookup c with
    | none => exact steady_empty
    | some x => exact codeTexts_steady _ (lookup_mem hx) hc
  · cases hx : unlistedTexts.lookup item with
    | none => exact steady_empty
    | some x => exact unlistedTexts_steady _ (lookup_mem hx)

theorem quiet_ruleAspect {l t : String} (h1 : steadyBytes l = true) (h2 : Steady t.toList) :
    saysLine (ruleAspect l t) = false := by
  apply quiet_of_calm
  rw [ruleAspect, cellText_append, bold, cellText_styled, cellText_plain]
  refine (steady_str h1).calm_append ?_
  exact (steady_of_no (t := [' ']) (by decide)).calm_append h2.1.break

theorem quiet_ruleLines (n : Nat) (p : Byte × Byte) : saysLines (ruleLines n p) = false := by
  rw [ruleLines, saysLines_cons, saysLines_cons, saysLines_cons, saysLines_cons, cvm_colon,
    quiet_ruleAspect (by decide +kernel) (steady_codeText (by decide +kernel) _),
    quiet_ruleAspect (by decide +kernel) (steady_codeText (by decide +kernel) _), quiet_ruleAspect (by decide +kernel),
    quiet_of_calm]
  · rfl
  · rw [line, bold, cellText_styled]
    refine Calm.break (calm_of_no (fun h => ?_))
    rcases List.mem_append.1 h with h | h
    · rcases List.mem_append.1 h with h | h
      · exact absurd h (by decide +kernel)
      · exact no_decimal n h
    · exact absurd h (by decide)
  · split <;> exact steady_str (by decide +kernel)

theorem no_digitsAtLeast (w n : Nat) : 'R' ∉ digitsAtLeast w n := by
  intro h
  rcases List.mem_append.1 h with h | h
  · exact absurd (List.eq_of_mem_replicate h) (by decide)
  · exact no_decimal n h

theorem quiet_cvmListLines (bs : List Byte) : saysLines (cvmListLines bs) = false := by
  have space : ∀ {t : Text}, 'R' ∉ t → 'R' ∉ ' ' :: t := by
    intro t h h'
    rcases List.mem_cons.1 h' with h' | h'
    · exact absurd h' (by decide)
    · exact h h'
  rw [cvmListLines.eq_def]
  dsimp only
  rw [saysLines_append, saysLines_append, saysLines_cons, quiet_title (by decide +kernel)]
  have h1 : ∀ (p : Bool) (x y : Nat) (w : Nat), saysLines (if p = true then [entry "X Value:" (' ' :: digitsAtLeast w x ++
      " (implicit decimal point based on application currency)".toList),
      entry "Y Value:" (' ' :: digitsAtLeast w y)] else []) = false := by
    intro p x y w
    split
    · rw [saysLines_cons, saysLines_cons, quiet_entry (by decide +kernel), quiet_entry (by decide +kernel)]
      · rfl
      · exact calm_of_no (space (no_digitsAtLeast _ _))
      · exact (steady_of_no (space (no_digitsAtLeast _ _))).calm_append (calm_str (by decide +kernel))
    · rfl
  rw [h1, quiet_lines (ls := List.flatMap _ _)]
  · rfl
  · intro l hl
    obtain ⟨p, -, hp⟩ := List.mem_flatMap.1 hl
    have := quiet_ruleLines p.2 p.1
    rw [saysLines, List.any_eq_false] at this
    simpa using this l hp

theorem says_iadLines (bs : List Byte) (c : Bool) :
    saysLines (iadLines bs c) = true ↔ ReservedCvr ((bs.drop 3).take 5) := by
  rw [← says_cvr _ c, iadLines.eq_def]
  have h1 : saysLine (entry "Derivation Key Index:" (" 0x".toList ++ hexPair (bs.getD 2 0))) = false := by
    refine quiet_entry (by decide +kernel) (calm_of_no (fun h => ?_))
    rcases List.mem_append.1 h with h | h
    · exact absurd h (by decide +kernel)
    · exact no_hexPair _ h
  have h2 : saysLines (bitLines cciItems cciLabels ((bs.drop 1).take 1) c) = false :=
    quiet_bitLines (steady_labels (by decide +kernel)) (by decide +kernel) _ _
  have t : ∀ {x : String}, steadyBytes x = true → saysLines [title x] = false := by
    intro x hx
    rw [saysLines_cons, quiet_title hx]; rfl
  rw [saysLines_append, saysLines_append, saysLines_append, saysLines_append, saysLines_append, saysLines_append,
    saysLines_append, saysLines_deeper, saysLines_deeper, saysLines_deeper, saysLines_deeper, h2, quiet_dump, quiet_dump,
    t (by decide +kernel), t (by decide +kernel), t (by decide +kernel), saysLines_cons, h1, t (by decide +kernel)]
  simp

theorem quiet_code {o : Option String} (h : ∀ t, o = some t → Calm t.toList) {ls : List Line}
    (hl : o.map (fun t => [textLine t.toList]) = some ls) : saysLines ls = false := by
  cases o with
  | none => cases hl
  | some t =>
    cases hl
    rw [saysLines_cons, quiet_textLine (h t rfl)]; rfl

theorem calm_lookup {l : List (Nat × String)} (h : l.all (fun p => calmBytes p.2) = true) (x : Nat) :
    ∀ t, l.lookup x = some t → Calm t.toList := fun _ ht => calm_str (List.all_eq_true.1 h _ (lookup_mem ht))

theorem calm_terminalType (b : Byte) : ∀ t, terminalType b.toNat = some t → Calm t.toList := by
  have : ∀ b : Byte, (match terminalType b.toNat with
      | some t => calmBytes t
      | none => true) = true := by apply forall_byte; decide +kernel
  intro t ht
  have := this b
  rw [ht] at this
  exact calm_str this

theorem calm_responseText (d : List Byte) : ∀ t, responseText d = some t → Calm t.toList := by
  intro t ht
  rw [responseText.eq_def] at ht
  split at ht
  · split at ht
    · exact calm_lookup (by decide +kernel) _ t ht
    · cases ht
  · cases ht

theorem says_valueLines (c : Bool) (tag d : List Byte) :
    (∃ ls, valueLines c tag d = some ls ∧ saysLines ls = true) ↔ ReservedValue tag d := by
  constructor
  · rintro ⟨ls, h, hs⟩
    have no : ∀ {x : List Line}, saysLines x = false → some x = some ls → ReservedValue tag d := by
      intro x hx e; cases e; rw [hx] at hs; cases hs
    have code : ∀ {o : Option String}, (∀ t, o = some t → Calm t.toList) →
        o.map (fun t => [textLine t.toList]) = some ls → ReservedValue tag d := by
      intro o ho e; rw [quiet_code ho e] at hs; cases hs
    rw [valueLines] at h
    by_cases h1 : tag = [0x5F, 0x30]
    · rw [if_pos h1] at h
      cases h
      exact .inl ⟨h1, (says_serviceCodeLines _ _ _).1 hs⟩
    rw [if_neg h1] at h
    refine ite_cases h (code (calm_responseText d)) (fun h => ?_)
    refine ite_cases h (no (quiet_cvmListLines _)) (fun h => ?_)
    refine ite_cases h (no (quiet_bitLines (steady_labels (by decide +kernel)) (by decide +kernel) _ _)) (fun h => ?_)
    refine ite_cases h (no (quiet_bitLines (steady_labels (by decide +kernel)) (by decide +kernel) _ _)) (fun h => ?_)
    refine ite_cases h (code (calm_lookup (by decide +kernel) _)) (fun h => ?_)
    refine ite_cases h (no (quiet_iacLines _ _)) (fun h => ?_)
    refine ite_cases h (no (quiet_iacLines _ _)) (fun h => ?_)
    refine ite_cases h (no (quiet_iacLines _ _)) (fun h => ?_)
    by_cases h2 : tag = [0x9F, 0x10]
    · rw [if_pos h2] at h
      split at h
      · rename_i hf
        cases h
        exact .inr ⟨h2, hf, (says_iadLines _ _).1 hs⟩
      · cases h
    rw [if_neg h2] at h
    refine ite_cases h (no (quiet_bitLines (steady_labels (by decide +kernel)) (by decide +kernel) _ _)) (fun h => ?_)
    refine ite_cases h (no (quiet_cvmResultsLines _ _)) (fun h => ?_)
    refine ite_cases h (code (calm_terminalType _)) (fun h => ?_)
    refine ite_cases h (code (calm_lookup (by decide +kernel) _)) (fun h => ?_)
    exact ite_cases h (no (quiet_bitLines (steady_labels (by decide +kernel)) (by decide +kernel) _ _)) (fun h => by cases h)
  · rintro (⟨rfl, h⟩ | ⟨rfl, hf, h⟩)
    · exact ⟨_, rfl, (says_serviceCodeLines _ _ _).2 h⟩
    · refine ⟨iadLines d c, ?_, (says_iadLines _ _).2 h⟩
      rw [valueLines]
      simp [hf]

/-! ### Tags and blocks -/

theorem steady_dictionaryName (tag : List Byte) : Steady ((dictionaryName tag).getD "<Unknown>").toList := by
  have hd : dictionary.all (fun p => steadyBytes p.1) = true := by decide +kernel
  rw [dictionaryName]
  cases h : dictionary.find? (fun p => tagBytes p.2 == tag) with
  | none => exact steady_str (by decide +kernel)
  | some p => exact steady_str (List.all_eq_true.1 hd p (List.mem_of_find?_eq_some h))

theorem steady_shownName (t : RawEmvTag) : Steady ((shownName t).getD "<Unknown>").toList := by
  have hd : tolerated.all (fun p => steadyBytes p.2.2) = true := by decide +kernel
  rw [shownName.eq_def]
  split
  · exact steady_dictionaryName _
  · split
    · rename_i h _
      exact steady_str (List.all_eq_true.1 hd _ (lookup_mem h))
    · exact steady_dictionaryName _

theorem no_sizeText (d : EmvData) : 'R' ∉ sizeText d := by
  rw [sizeText.eq_def]
  split
  · decide +kernel
  · split
    · decide +kernel
    · intro h
      rcases List.mem_append.1 h with h | h
      · exact no_decimal _ h
      · exact absurd h (by decide +kernel)

theorem quiet_tagLine (t : RawEmvTag) : saysLine (tagLine t) = false := by
  apply quiet_of_calm
  rw [tagLine, line, cellText_append, cellText_append, cellText_append, heading, cellText_styled, cellText_plain, bold,
    cellText_styled, cellText_plain]
  refine Steady.calm_append (Steady.append (Steady.append (steady_str (by decide +kernel)) (steady_str (by decide +kernel)))
    (steady_of_no (no_hexPairs _))) ?_
  exact (Calm.break ((Steady.append (Steady.append (Steady.append (steady_str (by decide +kernel))
    (steady_of_no (no_sizeText _))) (steady_str (by decide +kernel))) (steady_shownName t)).1))

/-- What is shown about a tag. -/
theorem says_tag (c : Bool) (t : RawEmvTag) : saysLines ([tagLine t] ++ rawLines t.data ++ parsedLines c t) = true ↔
    ∃ d, t.data = .normal d ∧ (ReservedValue t.tag d ∨ SpellsRfu d) := by
  have h1 : saysLines [tagLine t] = false := by rw [saysLines_cons, quiet_tagLine]; rfl
  rw [saysLines_append, saysLines_append, h1, Bool.false_or, Bool.or_eq_true]
  cases hd : t.data with
  | masked =>
    rw [rawLines, parsedLines, hd]
    simp only [saysLines_cons, quiet_title (t := "* Masked *") (by decide +kernel)]
    simp [saysLines]
  | normal d =>
    have h2 : saysLines (rawLines (.normal d)) = true ↔ SpellsRfu d := by
      rw [rawLines.eq_def]
      split
      · rename_i h; cases h
      · rename_i h; cases h
        rw [← says_dumpWithText]; rfl
      · rename_i h; cases h
        rw [saysLines_cons, quiet_title (by decide +kernel), saysLines_deeper, Bool.false_or, says_dumpWithText]
    have h3 : saysLines (parsedLines c t) = true ↔ ReservedValue t.tag d := by
      rw [← says_valueLines c, parsedLines.eq_def, hd]
      dsimp only
      cases hv : valueLines c t.tag d with
      | none => simp [saysLines]
      | some ls =>
        dsimp only
        rw [saysLines_cons, quiet_title (by decide +kernel), saysLines_deeper, Bool.false_or]
        simp
    rw [h2, h3]
    constructor
    · rintro (h | h)
      · exact ⟨d, rfl, .inr h⟩
      · exact ⟨d, rfl, .inl h⟩
    · rintro ⟨d', e, h | h⟩
      · cases e; exact .inr h
      · cases e; exact .inl h

mutual
theorem says_nodeLines (c : Bool) : ∀ n : RawEmvNode, saysLines (nodeLines c n) = true ↔
    ∃ t ∈ nodeTags n, ∃ d, t.data = .normal d ∧ (ReservedValue t.tag d ∨ SpellsRfu d)
  | .mk t [] => by
    rw [nodeLines.eq_def, nodeTags, blockTags, saysLines_append, Bool.or_eq_true, says_tag]
    simp [saysLines]
  | .mk t (n :: ns) => by
    rw [nodeLines.eq_def, nodeTags, blockTags, saysLines_append, Bool.or_eq_true, says_tag]
    dsimp only
    rw [saysLines_cons, quiet_title (by decide +kernel), saysLines_deeper, saysLines_append, Bool.false_or, Bool.or_eq_true,
      says_nodeLines c n, says_moreLines c ns]
    simp only [List.mem_cons, List.mem_append]
    constructor
    · rintro (h | ⟨t', h, h'⟩ | ⟨t', h, h'⟩)
      · exact ⟨t, .inl rfl, h⟩
      · exact ⟨t', .inr (.inl h), h'⟩
      · exact ⟨t', .inr (.inr h), h'⟩
    · rintro ⟨t', rfl | h | h, h'⟩
      · exact .inl h'
      · exact .inr (.inl ⟨t', h, h'⟩)
      · exact .inr (.inr ⟨t', h, h'⟩)
theorem says_moreLines (c : Bool) : ∀ b : List RawEmvNode, saysLines (moreLines c b) = true ↔
    ∃ t ∈ blockTags b, ∃ d, t.data = .normal d ∧ (ReservedValue t.tag d ∨ SpellsRfu d)
  | [] => by rw [moreLines, blockTags]; simp [saysLines]
  | n :: ns => by
    have h : saysLines [(⟨none, plain ['\n']⟩ : Line)] = false := by decide
    rw [moreLines, blockTags, saysLines_append, saysLines_append, h, Bool.false_or, Bool.or_eq_true,
      says_nodeLines c n, says_moreLines c ns]
    simp only [List.mem_append]
    constructor
    · rintro (⟨t', h, h'⟩ | ⟨t', h, h'⟩)
      · exact ⟨t', .inl h, h'⟩
      · exact ⟨t', .inr h, h'⟩
    · rintro ⟨t', h | h, h'⟩
      · exact .inl ⟨t', h, h'⟩
      · exact .inr ⟨t', h, h'⟩
end

theorem says_blockLines (c : Bool) (b : List RawEmvNode) : saysLines (blockLines c b) = true ↔
    ∃ t ∈ blockTags b, ∃ d, t.data = .normal d ∧ (ReservedValue t.tag d ∨ SpellsRfu d) := by
  rw [← says_moreLines c]
  cases b with
  | nil => rw [blockLines, moreLines]
  | cons n ns =>
    have h : saysLines [(⟨none, plain ['\n']⟩ : Line)] = false := by decide
    rw [blockLines, moreLines, List.append_assoc, saysLines_append [_], h, Bool.false_or]

theorem quiet_headerLines (f : Option TlvFormat) : saysLines (headerLines f) = false := by
  cases f with
  | none => rfl
  | some f =>
    have h : saysLine ⟨none, plain ['\n']⟩ = false := by decide
    rw [headerLines, formatLines, saysLines_cons, saysLines_cons, h, quiet_of_calm]
    · rfl
    · rw [heading, cellText_append, cellText_styled, cellText_plain]
      refine (steady_str (by decide +kernel)).calm_append (Calm.break (calm_str ?_))
      cases f <;> decide +kernel

theorem quiet_identifyLines (tag : List Byte) : saysLines (identifyLines tag) = false := by
  rw [identifyLines.eq_def, saysLines_cons, saysLines_cons, saysLines_cons, saysLines_cons, quiet_entry (by decide +kernel),
    quiet_of_calm, quiet_entry (by decide +kernel), quiet_entry (by decide +kernel)]
  · rfl
  · split <;> exact calm_str (by decide +kernel)
  · refine (steady_str (by decide +kernel)).calm_append ?_
    split <;> exact calm_str (by decide +kernel)
  · rw [line, cellText_append, cellText_append, cellText_append, heading, cellText_styled, cellText_plain, bold,
      cellText_styled, cellText_plain]
    exact Calm.break (Steady.append (Steady.append (steady_str (by decide +kernel)) (steady_str (by decide +kernel)))
      (steady_of_no (no_hexPairs _))).1
  · exact (steady_str (by decide +kernel)).calm_append (steady_dictionaryName tag).1

/-! ### Runs -/

theorem u16Text_unique {s : Text} {n n' : Nat} (h : IsU16Text s n) (h' : IsU16Text s n') : n' = n := by
  have := (c07_u16 s n).2 h
  rw [(c07_u16 s n').2 h'] at this
  cases this; rfl

theorem says_showLines {ls : List Line} (h : WholeLines ls) : Says rfu (showLines 0 ls) ↔ saysLines ls = true := by
  rw [← says_doc 0 h]

/-- What a run that succeeds shows. -/
theorem succeeds_reports {r : Run} {x : Except Text (List Line)} {c : Cells} (h : Reports r x) (hs : Succeeds r c) :
    ∃ ls, x = .ok ls ∧ c = showLines 0 ls := by
  cases x with
  | ok ls => exact ⟨ls, rfl, shows_cells_unique hs.shows h.shows⟩
  | error msg => exact ((c57_exclusive _ _ c).2.2 ⟨h, hs⟩).elim

theorem succeeds_block {m : Machine} {masks : List Char} {sort : Bool} {op : Operation} {s : Text} {f : Option TlvFormat}
    {b : RawEmvBlock} {c : Cells} (hop : op ∈ [Operation.autoTlv, .berTlv, .ingenicoTlv])
    (h : tlvParse m masks op s = .ok (f, b)) (hs : Succeeds (runOp m masks sort op s) c) :
    ∃ b', Arranged sort b b' ∧ c = showLines 0 (headerLines f ++ blockLines true b') := by
  rw [runOp_tlv m masks sort op hop, h, tlvOutcome] at hs
  rcases processBlock_total b with ⟨q, hq⟩ | ⟨e, he⟩
  · simp only [hq] at hs
    obtain ⟨b', hb, hw⟩ := shows_arranged (m := m.unchecked) hq sort (Or.inr rfl)
    refine ⟨b', hb, ?_⟩
    have ht := (Truncates.refl (headerOf f)).seq (truncates_nodes m true (maybeSort sort q) true 0)
    rcases ht with ht | ⟨hp, -⟩
    · refine shows_cells_unique hs.shows ?_
      have := (shows_headerLines f).seq hw
      rw [← render_append] at this
      exact ht ▸ this
    · have := hs.shows.returns
      exact absurd (this.symm.trans hp) (by decide)
  · simp only [he] at hs
    have := hs.stderr
    cases this

end Pemv
