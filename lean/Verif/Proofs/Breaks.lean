import Verif.Spec.Breaks
import Verif.Proofs.Safety
import Verif.Proofs.ReadBack
import Verif.Proofs.Depth

/-!
# Lemmas about the lines of documents
-/

namespace Pemv

open Spec

instance (t : Text) : Decidable (Inline t) := inferInstanceAs (Decidable (∀ c ∈ t, c ≠ '\n' ∧ c ≠ '\t'))

theorem Spec.Inline.append {a b : Text} (ha : Inline a) (hb : Inline b) : Inline (a ++ b) := by
  intro c hc
  rcases List.mem_append.1 hc with h | h
  · exact ha c h
  · exact hb c h

theorem inline_cons {x : Char} {b : Text} (ha : x ≠ '\n' ∧ x ≠ '\t') (hb : Inline b) : Inline (x :: b) := by
  intro c hc
  rcases List.mem_cons.1 hc with rfl | h
  · exact ha
  · exact hb c h

theorem inline_nil : Inline [] := fun _ h => by cases h

theorem inline_replicate (n : Nat) {c : Char} (h : c ≠ '\n' ∧ c ≠ '\t') : Inline (List.replicate n c) := by
  intro d hd
  rw [List.eq_of_mem_replicate hd]; exact h

theorem inline_map {α : Type} {l : List α} {f : α → Char} (h : ∀ x, f x ≠ '\n' ∧ f x ≠ '\t') : Inline (l.map f) := by
  intro c hc
  obtain ⟨x, -, rfl⟩ := List.mem_map.1 hc
  exact h x

theorem inline_flatMap {α : Type} {l : List α} {f : α → Text} (h : ∀ x, Inline (f x)) : Inline (l.flatMap f) := by
  intro c hc
  obtain ⟨x, -, hx⟩ := List.mem_flatMap.1 hc
  exact h x c hx

theorem inline_decimal (n : Nat) : Inline (decimal n) := by
  rw [← natToText_decimal, natToText, natToTextF_eq _ _ (Nat.lt_succ_self n)]
  intro c hc
  have := Nat.isDigit_of_mem_toDigits (b := 10) (by omega) (by omega) hc
  constructor
  · rintro rfl; exact absurd this (by decide)
  · rintro rfl; exact absurd this (by decide)

theorem inline_hexPair (b : Byte) : Inline (hexPair b) := by
  revert b; apply forall_byte; decide +kernel

theorem inline_hexRow (bs : List Byte) : Inline (hexRow bs) := by
  intro c hc
  have h1 : c = ' ' ∨ ∃ b, c ∈ hexPair b := by
    rw [hexRow] at hc
    generalize hm : bs.map hexPair = l at hc
    have hl : ∀ x ∈ l, ∃ b, x = hexPair b := by
      intro x hx; rw [← hm] at hx
      obtain ⟨b, -, rfl⟩ := List.mem_map.1 hx
      exact ⟨b, rfl⟩
    clear hm
    rw [List.intercalate] at hc
    obtain ⟨x, hx, hcx⟩ := List.mem_flatten.1 hc
    clear hc
    induction l with
    | nil => cases hx
    | cons y l ih =>
      cases l with
      | nil =>
        rw [List.intersperse] at hx
        simp only [List.mem_singleton] at hx
        obtain ⟨b, rfl⟩ := hl y (by simp)
        rw [hx] at hcx; exact Or.inr ⟨b, hcx⟩
      | cons z l =>
        rw [List.intersperse_cons_cons] at hx
        rcases List.mem_cons.1 hx with rfl | hx
        · obtain ⟨b, rfl⟩ := hl x (by simp)
          exact Or.inr ⟨b, hcx⟩
        rcases List.mem_cons.1 hx with rfl | hx
        · left; simpa using hcx
        · exact ih (fun x hx => hl x (by simp [hx])) hx
  rcases h1 with rfl | ⟨b, hb⟩
  · decide
  · exact inline_hexPair b c hb

theorem inline_readable (b : Byte) : readable b ≠ '\n' ∧ readable b ≠ '\t' := by
  revert b; apply forall_byte; decide +kernel

/-- A check on the bytes of a string. -/
def inlineBytes (s : String) : Bool :=
  s.toByteArray.data.toList.all (fun b => !(Nat.beq b.toNat 10 || Nat.beq b.toNat 9))

theorem inline_str {s : String} (h : inlineBytes s = true) : Inline s.toList := by
  have e : s.toByteArray.data.toList = s.toList.flatMap String.utf8EncodeChar := by
    rw [← String.utf8Encode_toList, List.utf8Encode]
    simp
  rw [inlineBytes, e, List.all_eq_true] at h
  intro c hc
  constructor
  · rintro rfl
    have := h 10 (List.mem_flatMap.2 ⟨'\n', hc, by decide⟩)
    exact absurd this (by decide)
  · rintro rfl
    have := h 9 (List.mem_flatMap.2 ⟨'\t', hc, by decide⟩)
    exact absurd this (by decide)

theorem inline_all {α : Type} {l : List α} {f : α → String} (h : l.all (fun p => inlineBytes (f p)) = true) :
    ∀ p ∈ l, Inline (f p).toList := fun p hp => inline_str (List.all_eq_true.1 h p hp)

/-! ### Lines -/

theorem whole_nil : WholeLines [] := fun _ h => by cases h

theorem Spec.WholeLines.append {a b : List Line} (ha : WholeLines a) (hb : WholeLines b) : WholeLines (a ++ b) := by
  intro l hl
  rcases List.mem_append.1 hl with h | h
  · exact ha l h
  · exact hb l h

theorem whole_cons {l : Line} {ls : List Line} (h : WholeLine l) (hs : WholeLines ls) : WholeLines (l :: ls) := by
  intro l' hl
  rcases List.mem_cons.1 hl with rfl | hl
  · exact h
  · exact hs l' hl

theorem whole_deeper {ls : List Line} (h : WholeLines ls) : WholeLines (deeper ls) := by
  intro l hl
  obtain ⟨l', hl', rfl⟩ := List.mem_map.1 hl
  exact h l' hl'

theorem whole_map {α : Type} {l : List α} {f : α → Line} (h : ∀ x ∈ l, WholeLine (f x)) : WholeLines (l.map f) := by
  intro l' hl
  obtain ⟨x, hx, rfl⟩ := List.mem_map.1 hl
  exact h x hx

/-- Cells without line breaks and tabs. -/
def InlineCells (c : Cells) : Prop := Inline (cellText c)

theorem inline_styled {s : ColorSpec} {t : Text} (h : Inline t) : InlineCells (styled s t) := by
  rw [InlineCells, cellText_styled]; exact h

theorem InlineCells.append {a b : Cells} (ha : InlineCells a) (hb : InlineCells b) : InlineCells (a ++ b) := by
  rw [InlineCells, cellText_append]; exact Inline.append ha hb

/-- Cells followed by text that ends a line. -/
theorem whole_of {i : Option Nat} {c : Cells} {s : ColorSpec} {t : Text} (hc : InlineCells c) (ht : Inline t) :
    WholeLine ⟨i, c ++ styled s (t ++ ['\n'])⟩ := by
  refine ⟨cellText c ++ t, ?_, Inline.append hc ht⟩
  show cellText (c ++ styled s (t ++ ['\n'])) = _
  rw [cellText_append, cellText_styled, List.append_assoc]

theorem whole_of_styled {i : Option Nat} {s : ColorSpec} {t : Text} (ht : Inline t) :
    WholeLine ⟨i, styled s (t ++ ['\n'])⟩ :=
  ⟨t, cellText_styled s _, ht⟩

theorem whole_textLine {t : Text} (h : Inline t) : WholeLine (textLine t) := whole_of_styled h

theorem whole_title {t : String} (h : inlineBytes t = true) : WholeLine (title t) := by
  refine ⟨t.toList, ?_, inline_str h⟩
  show cellText (styled _ (t ++ "\n").toList) = _
  rw [cellText_styled, String.toList_append]
  rfl

theorem whole_entry {t : String} {r : Text} (h : inlineBytes t = true) (hr : Inline r) : WholeLine (entry t r) :=
  whole_of (inline_styled (inline_str h)) hr

theorem whole_dump (bs : List Byte) : WholeLines (dump bs) :=
  whole_map (fun r _ => whole_textLine (inline_hexRow r))

theorem whole_dumpWithText (bs : List Byte) : WholeLines (dumpWithText bs) :=
  whole_map (fun r _ => whole_textLine (Inline.append
    (Inline.append (inline_hexRow r) (inline_replicate _ (by decide))) (inline_map inline_readable)))

/-! ### Bit-mapped values -/

theorem whole_drawing {bytes : List Byte} {rs : List Annotation} (h : ∀ r ∈ rs, Inline r.text) (colours : Bool) :
    WholeLines (drawingLines bytes rs colours) := by
  have hsp : ' ' ≠ '\n' ∧ ' ' ≠ '\t' := by decide
  refine (WholeLines.append (whole_cons (whole_of_styled (inline_map (fun k => ?_))) whole_nil) ?_).append
    (whole_map ?_)
  · split
    · split
      · decide
      · decide
    · exact hsp
  · split
    · refine whole_cons (whole_textLine (inline_map (fun k => ?_))) whole_nil
      split
      · rw [headerGlyphAt]
        split
        · exact hsp
        · split
          · decide
          · split
            · decide
            · split
              · decide
              · decide
      · exact hsp
    · exact whole_nil
  · intro r hr
    refine whole_of (inline_styled (Inline.append (inline_map (fun k => ?_)) (by decide)))
      (h r (List.mem_reverse.1 hr))
    split
    · split
      · decide
      · exact hsp
    · exact hsp

theorem inline_codeTexts : ∀ p ∈ codeTexts, Inline p.2.toList := inline_all (by decide +kernel)

theorem inline_unlistedTexts : ∀ p ∈ unlistedTexts, Inline p.2.toList := inline_all (by decide +kernel)

theorem inline_lookup {α : Type} [BEq α] [LawfulBEq α] {l : List (α × String)} (h : ∀ p ∈ l, Inline p.2.toList)
    (x : α) : Inline ((l.lookup x).getD "").toList := by
  cases hl : l.lookup x with
  | none => intro c hc; cases hc
  | some t => exact h (x, t) (lookup_mem hl)

theorem inline_empty : Inline "".toList := inline_str (by decide +kernel)

theorem inline_valueText (t : Item) (n : Nat) : Inline (t.valueText n) := by
  rw [Item.valueText.eq_def]
  split
  · intro c hc; cases hc
  · exact inline_decimal n
  · rename_i codes _
    cases hl : codes.lookup n with
    | none => exact inline_empty
    | some c => exact inline_lookup inline_codeTexts c
  · split
    · exact inline_lookup inline_codeTexts _
    · exact inline_lookup inline_unlistedTexts _

theorem inline_explanation (t : Item) {label : String} (h : Inline label.toList) (n : Nat) :
    Inline (t.explanation label n) := by
  rw [Item.explanation.eq_def]
  split
  · exact h
  · exact (h.append (by decide +kernel)).append (inline_valueText t n)

theorem inline_annotation {labels : List (String × Severity × String)} (h : ∀ p ∈ labels, Inline p.2.2.toList)
    (n : Nat) (bs : List Byte) (t : Item) : Inline (t.annotation labels n bs).text := by
  rw [Item.annotation.eq_def]
  split
  · rename_i s l hl
    exact inline_explanation t (h _ (lookup_mem hl)) _
  · intro c hc; cases hc

theorem inline_annotations {labels : List (String × Severity × String)} (h : ∀ p ∈ labels, Inline p.2.2.toList)
    (items : List Item) (bs : List Byte) : ∀ r ∈ annotations labels items bs, Inline r.text := by
  intro r hr
  obtain ⟨t, -, rfl⟩ := List.mem_map.1 hr
  exact inline_annotation h _ _ _

theorem whole_bitLines {labels : List (String × Severity × String)} (h : ∀ p ∈ labels, Inline p.2.2.toList)
    (items : List Item) (bs : List Byte) (c : Bool) : WholeLines (bitLines items labels bs c) :=
  whole_drawing (inline_annotations h items bs) c

theorem inline_tvrLabels : ∀ p ∈ tvrLabels, Inline p.2.2.toList := inline_all (by decide +kernel)
theorem inline_tsiLabels : ∀ p ∈ tsiLabels, Inline p.2.2.toList := inline_all (by decide +kernel)
theorem inline_tcLabels : ∀ p ∈ terminalCapabilitiesLabels, Inline p.2.2.toList := inline_all (by decide +kernel)
theorem inline_atcLabels : ∀ p ∈ additionalTerminalCapabilitiesLabels, Inline p.2.2.toList := inline_all (by decide +kernel)
theorem inline_cciLabels : ∀ p ∈ cciLabels, Inline p.2.2.toList := inline_all (by decide +kernel)
theorem inline_cvrLabels : ∀ p ∈ cvrLabels, Inline p.2.2.toList := inline_all (by decide +kernel)
theorem inline_cvmResultsLabels : ∀ p ∈ cvmResultsLabels, Inline p.2.2.toList := inline_all (by decide +kernel)

theorem whole_iacLines (k : IacKind) (bs : List Byte) : WholeLines (iacLines k bs) :=
  whole_cons (whole_title (by cases k <;> decide +kernel)) (whole_bitLines inline_tvrLabels _ _ _)

theorem whole_cvmResultsLines (bs : List Byte) (c : Bool) : WholeLines (cvmResultsLines bs c) := by
  refine whole_drawing ?_ c
  intro r hr
  obtain ⟨r', hr', rfl⟩ := List.mem_map.1 hr
  have := inline_annotations inline_cvmResultsLabels cvmResultsItems bs r' hr'
  split
  · exact this
  · exact this

/-! ### Other values -/

theorem whole_aspect {b l t : String} (h1 : inlineBytes b = true) (h2 : inlineBytes l = true) (h3 : Inline t.toList) :
    WholeLine (aspect b l t) :=
  whole_of (InlineCells.append (inline_styled (inline_str h1)) (inline_styled (inline_str h2)))
    (Inline.append (inline_replicate _ (by decide)) h3)

theorem inline_ite {p : Prop} [Decidable p] {a b : String} (ha : Inline a.toList) (hb : Inline b.toList) :
    Inline (if p then a else b).toList := by
  split
  · exact ha
  · exact hb

theorem whole_serviceCodeLines (a b c : Nat) : WholeLines (serviceCodeLines a b c) := by
  refine whole_cons (whole_of_styled (Inline.append (Inline.append (inline_decimal a) (inline_decimal b))
    (inline_decimal c))) (whole_cons (whole_aspect (by decide +kernel) (by decide +kernel) ?_)
    (whole_cons (whole_aspect (by decide +kernel) (by decide +kernel) ?_)
    (whole_cons (whole_aspect (by decide +kernel) (by decide +kernel) ?_)
    (whole_cons (whole_aspect (by decide +kernel) (by decide +kernel) ?_)
    (whole_cons (whole_aspect (by decide +kernel) (by decide +kernel) ?_) whole_nil)))))
  · exact inline_ite (inline_str (by decide +kernel)) (inline_ite (inline_str (by decide +kernel))
      (inline_ite (inline_str (by decide +kernel)) (inline_ite (inline_str (by decide +kernel))
        (inline_str (by decide +kernel)))))
  · exact inline_ite (inline_str (by decide +kernel)) (inline_ite (inline_str (by decide +kernel))
      (inline_str (by decide +kernel)))
  · exact inline_ite (inline_str (by decide +kernel)) (inline_ite (inline_str (by decide +kernel))
      (inline_ite (inline_str (by decide +kernel)) (inline_str (by decide +kernel))))
  · exact inline_ite (inline_str (by decide +kernel)) (inline_ite (inline_str (by decide +kernel))
      (inline_ite (inline_str (by decide +kernel)) (inline_ite (inline_str (by decide +kernel))
        (inline_str (by decide +kernel)))))
  · exact inline_ite (inline_str (by decide +kernel)) (inline_str (by decide +kernel))

theorem inline_codeText (item : String) (codes : List (Nat × String)) (n : Nat) :
    Inline (codeText item codes n).toList := by
  rw [codeText]
  split
  · exact inline_lookup inline_codeTexts _
  · exact inline_lookup inline_unlistedTexts _

theorem whole_ruleAspect {l t : String} (h1 : inlineBytes l = true) (h2 : Inline t.toList) :
    WholeLine (ruleAspect l t) :=
  whole_of (inline_styled (inline_str h1)) (inline_cons (by decide) h2)

theorem cvm_colon (n : Nat) : "CVM ".toList ++ decimal n ++ ":\n".toList = ("CVM ".toList ++ decimal n ++ [':']) ++ ['\n'] := by
  rw [List.append_assoc, List.append_assoc, List.append_assoc]; rfl

theorem whole_ruleLines (n : Nat) (p : Byte × Byte) : WholeLines (ruleLines n p) := by
  rw [ruleLines, cvm_colon]
  exact whole_cons (whole_of_styled (Inline.append (Inline.append (inline_str (by decide +kernel)) (inline_decimal n))
    (by decide))) (whole_cons (whole_ruleAspect (by decide +kernel) (inline_codeText _ _ _))
    (whole_cons (whole_ruleAspect (by decide +kernel) (inline_codeText _ _ _))
    (whole_cons (whole_ruleAspect (by decide +kernel) (inline_ite (inline_str (by decide +kernel))
      (inline_str (by decide +kernel)))) whole_nil)))

theorem inline_digitsAtLeast (w n : Nat) : Inline (digitsAtLeast w n) :=
  (inline_replicate _ (by decide)).append (inline_decimal n)

theorem whole_cvmListLines (bs : List Byte) : WholeLines (cvmListLines bs) := by
  rw [cvmListLines.eq_def]
  refine (WholeLines.append ?_ (whole_cons (whole_title (by decide +kernel)) whole_nil)).append ?_
  · split
    · exact whole_cons (whole_entry (by decide +kernel) ((inline_cons (by decide)
        (inline_digitsAtLeast _ _)).append (inline_str (by decide +kernel))))
        (whole_cons (whole_entry (by decide +kernel) (inline_cons (by decide) (inline_digitsAtLeast _ _))) whole_nil)
    · exact whole_nil
  · intro l hl
    obtain ⟨p, -, hp⟩ := List.mem_flatMap.1 hl
    exact whole_ruleLines _ _ l hp

theorem whole_iadLines (bs : List Byte) (c : Bool) : WholeLines (iadLines bs c) := by
  rw [iadLines.eq_def]
  exact ((((((WholeLines.append (whole_cons (whole_title (by decide +kernel)) whole_nil)
    (whole_deeper (whole_bitLines inline_cciLabels _ _ _))).append
    (whole_cons (whole_entry (by decide +kernel) (Inline.append (inline_str (by decide +kernel))
      (inline_hexPair _))) (whole_cons (whole_title (by decide +kernel)) whole_nil))).append
    (whole_deeper (whole_bitLines inline_cvrLabels _ _ _))).append
    (whole_cons (whole_title (by decide +kernel)) whole_nil)).append (whole_deeper (whole_dump _))).append
    (whole_cons (whole_title (by decide +kernel)) whole_nil)).append (whole_deeper (whole_dump _))

theorem whole_code {o : Option String} (h : ∀ t, o = some t → Inline t.toList) {ls : List Line}
    (hl : o.map (fun t => [textLine t.toList]) = some ls) : WholeLines ls := by
  cases o with
  | none => cases hl
  | some t =>
    cases hl
    exact whole_cons (whole_textLine (h t rfl)) whole_nil

theorem inline_lookup' {l : List (Nat × String)} (h : ∀ p ∈ l, Inline p.2.toList) (x : Nat) :
    ∀ t, l.lookup x = some t → Inline t.toList := fun t ht => h (x, t) (lookup_mem ht)

theorem inline_transactionTypes : ∀ p ∈ transactionTypes, Inline p.2.toList := inline_all (by decide +kernel)
theorem inline_responseCodes : ∀ p ∈ responseCodes, Inline p.2.toList := inline_all (by decide +kernel)
theorem inline_posEntryModeTexts : ∀ p ∈ posEntryModeTexts, Inline p.2.toList := inline_all (by decide +kernel)

theorem inline_terminalType (b : Byte) : ∀ t, terminalType b.toNat = some t → Inline t.toList := by
  have : ∀ b : Byte, (match terminalType b.toNat with
      | some t => inlineBytes t
      | none => true) = true := by apply forall_byte; decide +kernel
  intro t ht
  have := this b
  rw [ht] at this
  exact inline_str this

theorem inline_responseText (d : List Byte) : ∀ t, responseText d = some t → Inline t.toList := by
  intro t ht
  rw [responseText.eq_def] at ht
  split at ht
  · split at ht
    · exact inline_lookup' inline_responseCodes _ t ht
    · cases ht
  · cases ht

theorem whole_some {x ls : List Line} (h : WholeLines x) (e : some x = some ls) : WholeLines ls := by
  cases e; exact h

theorem whole_valueLines (c : Bool) (tag d : List Byte) (ls : List Line) (h : valueLines c tag d = some ls) :
    WholeLines ls := by
  rw [valueLines] at h
  refine ite_cases h (whole_some (whole_serviceCodeLines _ _ _)) (fun h => ?_)
  refine ite_cases h (whole_code (inline_responseText d)) (fun h => ?_)
  refine ite_cases h (whole_some (whole_cvmListLines _)) (fun h => ?_)
  refine ite_cases h (whole_some (whole_bitLines inline_tvrLabels _ _ _)) (fun h => ?_)
  refine ite_cases h (whole_some (whole_bitLines inline_tsiLabels _ _ _)) (fun h => ?_)
  refine ite_cases h (whole_code (inline_lookup' inline_transactionTypes _)) (fun h => ?_)
  refine ite_cases h (whole_some (whole_iacLines _ _)) (fun h => ?_)
  refine ite_cases h (whole_some (whole_iacLines _ _)) (fun h => ?_)
  refine ite_cases h (whole_some (whole_iacLines _ _)) (fun h => ?_)
  refine ite_cases h (fun h => ite_cases h (whole_some (whole_iadLines _ _)) (fun h => by cases h)) (fun h => ?_)
  refine ite_cases h (whole_some (whole_bitLines inline_tcLabels _ _ _)) (fun h => ?_)
  refine ite_cases h (whole_some (whole_cvmResultsLines _ _)) (fun h => ?_)
  refine ite_cases h (whole_code (inline_terminalType _)) (fun h => ?_)
  refine ite_cases h (whole_code (inline_lookup' inline_posEntryModeTexts _)) (fun h => ?_)
  exact ite_cases h (whole_some (whole_bitLines inline_atcLabels _ _ _)) (fun h => by cases h)

/-! ### Tags and blocks -/

theorem inline_dictionary : ∀ p ∈ dictionary, Inline p.1.toList := inline_all (by decide +kernel)

theorem inline_tolerated : ∀ p ∈ tolerated, Inline p.2.2.toList := inline_all (by decide +kernel)

theorem inline_unknown : Inline "<Unknown>".toList := inline_str (by decide +kernel)

theorem inline_dictionaryName (tag : List Byte) : Inline ((dictionaryName tag).getD "<Unknown>").toList := by
  rw [dictionaryName]
  cases h : dictionary.find? (fun p => tagBytes p.2 == tag) with
  | none => exact inline_unknown
  | some p => exact inline_dictionary p (List.mem_of_find?_eq_some h)

theorem inline_shownName (t : RawEmvTag) : Inline ((shownName t).getD "<Unknown>").toList := by
  rw [shownName.eq_def]
  split
  · exact inline_dictionaryName _
  · split
    · rename_i h _
      exact inline_tolerated _ (lookup_mem h)
    · exact inline_dictionaryName _

theorem inline_sizeText (d : EmvData) : Inline (sizeText d) := by
  rw [sizeText.eq_def]
  split
  · exact inline_str (by decide +kernel)
  · split
    · exact inline_str (by decide +kernel)
    · exact (inline_decimal _).append (inline_str (by decide +kernel))

theorem whole_tagLine (t : RawEmvTag) : WholeLine (tagLine t) :=
  whole_of (InlineCells.append (InlineCells.append (inline_styled (inline_str (by decide +kernel)))
    (inline_styled (inline_str (by decide +kernel)))) (inline_styled (inline_flatMap inline_hexPair)))
    (Inline.append (Inline.append (Inline.append (inline_str (by decide +kernel)) (inline_sizeText _))
      (inline_str (by decide +kernel))) (inline_shownName t))

theorem whole_rawLines (d : EmvData) : WholeLines (rawLines d) := by
  rw [rawLines.eq_def]
  split
  · exact whole_cons (whole_title (by decide +kernel)) whole_nil
  · exact whole_nil
  · exact whole_cons (whole_title (by decide +kernel)) (whole_deeper (whole_dumpWithText _))

theorem whole_parsedLines (c : Bool) (t : RawEmvTag) : WholeLines (parsedLines c t) := by
  rw [parsedLines.eq_def]
  split
  · exact whole_nil
  · split
    · rename_i h
      exact whole_cons (whole_title (by decide +kernel)) (whole_deeper (whole_valueLines _ _ _ _ h))
    · exact whole_nil

theorem whole_blank : WholeLine ⟨none, plain ['\n']⟩ := ⟨[], rfl, inline_nil⟩

mutual
theorem whole_nodeLines (c : Bool) : ∀ n : RawEmvNode, WholeLines (nodeLines c n)
  | .mk t [] => by
    rw [nodeLines.eq_def]
    exact ((WholeLines.append (whole_cons (whole_tagLine t) whole_nil) (whole_rawLines _)).append
      (whole_parsedLines _ _)).append whole_nil
  | .mk t (n :: ns) => by
    rw [nodeLines.eq_def]
    exact ((WholeLines.append (whole_cons (whole_tagLine t) whole_nil) (whole_rawLines _)).append
      (whole_parsedLines _ _)).append (whole_cons (whole_title (by decide +kernel))
        (whole_deeper ((whole_nodeLines c n).append (whole_moreLines c ns))))
theorem whole_moreLines (c : Bool) : ∀ b : List RawEmvNode, WholeLines (moreLines c b)
  | [] => by rw [moreLines]; exact whole_nil
  | n :: ns => by
    rw [moreLines]
    exact (WholeLines.append (whole_cons whole_blank whole_nil) (whole_nodeLines c n)).append
      (whole_moreLines c ns)
end

theorem whole_blockLines (c : Bool) (b : List RawEmvNode) : WholeLines (blockLines c b) := by
  cases b with
  | nil => exact whole_nil
  | cons n ns => exact (whole_nodeLines c n).append (whole_moreLines c ns)

theorem whole_identifyLines (tag : List Byte) : WholeLines (identifyLines tag) := by
  rw [identifyLines.eq_def]
  refine whole_cons (whole_entry (by decide +kernel) (Inline.append (inline_str (by decide +kernel))
    (inline_dictionaryName tag))) (whole_cons ?_ (whole_cons (whole_entry (by decide +kernel)
    (Inline.append (inline_str (by decide +kernel)) ?_)) (whole_cons (whole_entry (by decide +kernel) ?_) whole_nil)))
  · exact whole_of (t := []) (InlineCells.append (InlineCells.append (inline_styled (inline_str (by decide +kernel)))
      (inline_styled (inline_str (by decide +kernel)))) (inline_styled (inline_flatMap inline_hexPair))) inline_nil
  · split <;> exact inline_str (by decide +kernel)
  · split <;> exact inline_str (by decide +kernel)

theorem whole_formatLines (f : TlvFormat) : WholeLines (formatLines f.text) :=
  whole_cons (whole_of (inline_styled (inline_str (by decide +kernel)))
    (inline_str (by cases f <;> decide +kernel))) (whole_cons whole_blank whole_nil)

/-! ### Cutting -/

theorem cutLines_line {t : Text} (h : '\n' ∉ t) (r : Text) : cutLines (t ++ '\n' :: r) = (t ++ ['\n']) :: cutLines r := by
  induction t with
  | nil => rfl
  | cons c t ih =>
    have hc : c ≠ '\n' := fun e => h (by rw [e]; simp)
    rw [List.cons_append, cutLines, if_neg hc, ih (fun h' => h (List.mem_cons_of_mem _ h'))]
    rfl

theorem inline_no_break {t : Text} (h : Inline t) : '\n' ∉ t := fun h' => (h _ h').1 rfl

/-- The text of a line: its indentation, then its content. -/
theorem render_text (i : Nat) (l : Line) : cellText (l.render i) =
    (match l.indent with
      | some k => tabs ((i + k) % 256)
      | none => []) ++ cellText l.cells := by
  rw [Line.render]
  cases l.indent with
  | none => rfl
  | some k => rw [cellText_append, cellText_plain]

theorem cut_doc (i : Nat) {ls : List Line} (h : WholeLines ls) :
    cutLines (docText i ls) = ls.map (fun l => cellText (l.render i)) := by
  induction ls with
  | nil => rfl
  | cons l ls ih =>
    obtain ⟨t, ht, hi⟩ := h l (List.mem_cons_self ..)
    have hn : '\n' ∉ (match l.indent with
        | some k => tabs ((i + k) % 256)
        | none => []) ++ t := by
      intro hm
      rcases List.mem_append.1 hm with hm | hm
      · cases hk : l.indent with
        | none => rw [hk] at hm; cases hm
        | some k =>
          rw [hk] at hm
          have := List.eq_of_mem_replicate hm
          exact absurd this (by decide)
      · exact inline_no_break hi hm
    have e : docText i (l :: ls) = cellText (l.render i) ++ docText i ls := by
      rw [docText, docText, ← cellText_append]; rfl
    have ht' : cellText l.cells = t ++ ['\n'] := ht
    rw [e, render_text, ht', List.map_cons, ← ih (fun l' hl' => h l' (List.mem_cons_of_mem _ hl')), render_text, ht']
    rw [← List.append_assoc, List.append_assoc _ ['\n'] _]
    exact cutLines_line hn _

theorem count_cut : ∀ t : Text, t.count '\n' ≤ (cutLines t).length
  | [] => by simp
  | c :: t => by
    have ih := count_cut t
    rw [cutLines]
    by_cases hc : c = '\n'
    · rw [if_pos hc, hc, List.count_cons_self, List.length_cons]; omega
    · rw [if_neg hc, List.count_cons_of_ne hc]
      split
      · rename_i h; rw [h] at ih; simp at ih; simp [ih]
      · rename_i h; rw [h] at ih; exact ih

theorem count_doc (i : Nat) {ls : List Line} (h : WholeLines ls) : (docText i ls).count '\n' = ls.length := by
  induction ls with
  | nil => rfl
  | cons l ls ih =>
    obtain ⟨t, ht, hi⟩ := h l (List.mem_cons_self ..)
    have e : docText i (l :: ls) = cellText (l.render i) ++ docText i ls := by
      rw [docText, docText, ← cellText_append]; rfl
    have ht' : cellText l.cells = t ++ ['\n'] := ht
    rw [e, render_text, ht', List.count_append, ih (fun l' hl' => h l' (List.mem_cons_of_mem _ hl')),
      List.count_append, List.count_append, List.count_eq_zero.2 (inline_no_break hi)]
    have : (match l.indent with
        | some k => tabs ((i + k) % 256)
        | none => []).count '\n' = 0 := by
      cases l.indent with
      | none => rfl
      | some k =>
        rw [List.count_eq_zero]
        intro hm
        have := List.eq_of_mem_replicate hm
        exact absurd this (by decide)
    rw [this, List.length_cons]
    simp
    omega

/-! ### Lines that introduce tags -/

/-- The line does not look like one that introduces a tag. -/
def Silent (l : Line) : Prop := introducesTag (cellText l.cells) = false

def SilentLines (ls : List Line) : Prop := ∀ l ∈ ls, Silent l

theorem introducesTag_cons {c : Char} (r : Text) (h : c ≠ '\t') (h' : c ≠ 'T') : introducesTag (c :: r) = false := by
  have h1 : (c == '\t') = false := by simpa using h
  have h2 : ('T' == c) = false := by simpa using fun e => h' e.symm
  rw [introducesTag, List.dropWhile_cons, h1]
  simp only [Bool.false_eq_true, if_false, List.isPrefixOf, h2, Bool.false_and]

theorem introducesTag_T {c : Char} (r : Text) (h' : c ≠ 'a') : introducesTag ('T' :: c :: r) = false := by
  have h2 : ('a' == c) = false := by simpa using fun e => h' e.symm
  rw [introducesTag, List.dropWhile_cons]
  simp [List.isPrefixOf, h2]

/-- Text that is over or starts with another character. -/
theorem silent_pre {t : Text} (h : ∀ c ∈ t, c ≠ '\t' ∧ c ≠ 'T') {c : Char} (r : Text) (h1 : c ≠ '\t') (h2 : c ≠ 'T') :
    introducesTag (t ++ c :: r) = false := by
  cases t with
  | nil => exact introducesTag_cons r h1 h2
  | cons x t => exact introducesTag_cons _ (h x (List.mem_cons_self ..)).1 (h x (List.mem_cons_self ..)).2

/-- A check on the first two bytes of a string. -/
def silentBytes (s : String) : Bool :=
  match s.toByteArray.data.toList with
  | [] => true
  | [b] => !(Nat.beq b.toNat 9)
  | b :: b' :: _ => !(Nat.beq b.toNat 9 || (Nat.beq b.toNat 84 && Nat.beq b'.toNat 97))

theorem utf8_cons (s : String) (c : Char) (t : Text) (h : s.toList = c :: t) :
    s.toByteArray.data.toList = String.utf8EncodeChar c ++ t.flatMap String.utf8EncodeChar := by
  have e : s.toByteArray.data.toList = s.toList.flatMap String.utf8EncodeChar := by
    rw [← String.utf8Encode_toList, List.utf8Encode]
    simp
  rw [e, h, List.flatMap_cons]

theorem silent_str {s : String} (h : silentBytes s = true) (r : Text) : introducesTag (s.toList ++ '\n' :: r) = false := by
  generalize hs : s.toList = t
  cases t with
  | nil => exact introducesTag_cons r (by decide) (by decide)
  | cons c t =>
    have hb := utf8_cons s c t hs
    have h9 : c ≠ '\t' := by
      rintro rfl
      have e : String.utf8EncodeChar '\t' = [9] := by decide
      rw [silentBytes, hb, e] at h
      cases ht : t.flatMap String.utf8EncodeChar with
      | nil => rw [ht] at h; exact absurd h (by decide)
      | cons x y => rw [ht] at h; simp at h
    by_cases hT : c = 'T'
    · subst hT
      cases t with
      | nil => exact introducesTag_T _ (by decide)
      | cons d t =>
        refine introducesTag_T _ ?_
        rintro rfl
        have e : String.utf8EncodeChar 'T' = [84] := by decide
        have e' : String.utf8EncodeChar 'a' = [97] := by decide
        rw [silentBytes, hb, e, List.flatMap_cons, e'] at h
        simp at h
    · exact introducesTag_cons _ h9 hT

theorem silent_all {α : Type} {l : List α} {f : α → String} (h : l.all (fun p => silentBytes (f p)) = true) :
    ∀ p ∈ l, silentBytes (f p) = true := fun p hp => List.all_eq_true.1 h p hp

theorem silent_nil : SilentLines [] := fun _ h => by cases h

theorem SilentLines.append {a b : List Line} (ha : SilentLines a) (hb : SilentLines b) : SilentLines (a ++ b) := by
  intro l hl
  rcases List.mem_append.1 hl with h | h
  · exact ha l h
  · exact hb l h

theorem silent_cons {l : Line} {ls : List Line} (h : Silent l) (hs : SilentLines ls) : SilentLines (l :: ls) := by
  intro l' hl
  rcases List.mem_cons.1 hl with rfl | hl
  · exact h
  · exact hs l' hl

theorem silent_deeper {ls : List Line} (h : SilentLines ls) : SilentLines (deeper ls) := by
  intro l hl
  obtain ⟨l', hl', rfl⟩ := List.mem_map.1 hl
  exact h l' hl'

theorem silent_map {α : Type} {l : List α} {f : α → Line} (h : ∀ x ∈ l, Silent (f x)) : SilentLines (l.map f) := by
  intro l' hl
  obtain ⟨x, hx, rfl⟩ := List.mem_map.1 hl
  exact h x hx

theorem silent_title {t : String} (h : silentBytes t = true) : Silent (title t) := by
  show introducesTag (cellText (styled _ (t ++ "\n").toList)) = false
  rw [cellText_styled, String.toList_append]
  exact silent_str h []

theorem silent_strLine {t : String} (h : silentBytes t = true) : Silent (textLine t.toList) := by
  show introducesTag (cellText (styled _ (t.toList ++ ['\n']))) = false
  rw [cellText_styled]
  exact silent_str h []

/-- A check on the first byte of a string. -/
def firstBytes (s : String) : Bool :=
  match s.toByteArray.data.toList with
  | [] => false
  | b :: _ => !(Nat.beq b.toNat 9 || Nat.beq b.toNat 84)

theorem first_str {s : String} (h : firstBytes s = true) (r : Text) : introducesTag (s.toList ++ r) = false := by
  generalize hs : s.toList = t
  cases t with
  | nil =>
    have e : s.toByteArray.data.toList = s.toList.flatMap String.utf8EncodeChar := by
      rw [← String.utf8Encode_toList, List.utf8Encode]
      simp
    rw [firstBytes, e, hs] at h
    exact absurd h (by decide)
  | cons c t =>
    have hb := utf8_cons s c t hs
    have h9 : c ≠ '\t' := by
      rintro rfl
      have e : String.utf8EncodeChar '\t' = [9] := by decide
      rw [firstBytes, hb, e] at h
      simp at h
    have hT : c ≠ 'T' := by
      rintro rfl
      have e : String.utf8EncodeChar 'T' = [84] := by decide
      rw [firstBytes, hb, e] at h
      simp at h
    exact introducesTag_cons _ h9 hT

theorem silent_entry {t : String} {r : Text} (h : firstBytes t = true) : Silent (entry t r) := by
  show introducesTag (cellText (styled _ t.toList ++ styled _ (r ++ ['\n']))) = false
  rw [cellText_append, cellText_styled]
  exact first_str h _

theorem hexPair_first (b : Byte) : ∀ c ∈ hexPair b, c ≠ '\t' ∧ c ≠ 'T' := by
  revert b; apply forall_byte; decide +kernel

theorem hexRow_first (bs : List Byte) : ∃ t r, hexRow bs = t ++ r ∧ (∀ c ∈ t, c ≠ '\t' ∧ c ≠ 'T') ∧ (t = [] → r = []) := by
  cases bs with
  | nil => exact ⟨[], [], rfl, (fun _ h => by cases h), (fun _ => rfl)⟩
  | cons b bs =>
    refine ⟨hexPair b, (hexRow (b :: bs)).drop 2, ?_, hexPair_first b, fun h => ?_⟩
    · have : (hexRow (b :: bs)).take 2 = hexPair b := by
        cases bs with
        | nil => rfl
        | cons b' bs => rfl
      rw [← this, List.take_append_drop]
    · cases h

theorem silent_hexRow (bs : List Byte) {c : Char} (r : Text) (h1 : c ≠ '\t') (h2 : c ≠ 'T') :
    introducesTag (hexRow bs ++ c :: r) = false := by
  obtain ⟨t, u, e, ht, hu⟩ := hexRow_first bs
  rw [e]
  cases t with
  | nil => rw [hu rfl]; exact introducesTag_cons r h1 h2
  | cons x t => exact introducesTag_cons _ (ht x (List.mem_cons_self ..)).1 (ht x (List.mem_cons_self ..)).2

theorem silent_dump (bs : List Byte) : SilentLines (dump bs) := by
  refine silent_map (fun r _ => ?_)
  show introducesTag (cellText (styled _ (hexRow r ++ ['\n']))) = false
  rw [cellText_styled]
  exact silent_hexRow r [] (by decide) (by decide)

theorem silent_dumpWithText (bs : List Byte) : SilentLines (dumpWithText bs) := by
  refine silent_map (fun r hr => ?_)
  show introducesTag (cellText (styled _ (padTo 49 (hexRow r) ++ r.map readable ++ ['\n']))) = false
  rw [cellText_styled, padTo]
  have h16 : r.length ≤ 16 := by
    obtain ⟨i, -, rfl⟩ := List.mem_map.1 hr
    rw [List.length_take]; omega
  have hl := hexRow_length r
  obtain ⟨k, hk⟩ : ∃ k, 49 - (hexRow r).length = k + 1 := ⟨48 - (hexRow r).length, by omega⟩
  rw [hk, List.replicate_succ, List.append_assoc, List.append_assoc, List.cons_append]
  exact silent_hexRow r _ (by decide) (by decide)

theorem silent_drawing (bytes : List Byte) (rs : List Annotation) (colours : Bool) :
    SilentLines (drawingLines bytes rs colours) := by
  have hsp : ' ' ≠ '\t' ∧ ' ' ≠ 'T' := by decide
  have glyph : ∀ {α : Type} {l : List α} {f : α → Char}, (∀ x, f x ≠ '\t' ∧ f x ≠ 'T') →
      ∀ c ∈ l.map f, c ≠ '\t' ∧ c ≠ 'T' := by
    intro α l f h c hc
    obtain ⟨x, -, rfl⟩ := List.mem_map.1 hc
    exact h x
  refine (SilentLines.append (silent_cons ?_ silent_nil) ?_).append (silent_map ?_)
  · show introducesTag (cellText (styled _ (_ ++ ['\n']))) = false
    rw [cellText_styled]
    refine silent_pre (glyph (fun k => ?_)) [] (by decide) (by decide)
    split
    · split <;> decide
    · exact hsp
  · split
    · refine silent_cons ?_ silent_nil
      show introducesTag (cellText (styled _ (_ ++ ['\n']))) = false
      rw [cellText_styled]
      refine silent_pre (glyph (fun k => ?_)) [] (by decide) (by decide)
      split
      · rw [headerGlyphAt]
        split
        · exact hsp
        · split
          · decide
          · split
            · decide
            · split <;> decide
      · exact hsp
    · exact silent_nil
  · intro r hr
    show introducesTag (cellText (styled _ (_ ++ ['└', ' ']) ++ styled _ _)) = false
    rw [cellText_append, cellText_styled, List.append_assoc]
    refine silent_pre (glyph (fun k => ?_)) _ (by decide) (by decide)
    split
    · split
      · decide
      · exact hsp
    · exact hsp

theorem silent_bitLines (labels : List (String × Severity × String)) (items : List Item) (bs : List Byte) (c : Bool) :
    SilentLines (bitLines items labels bs c) := silent_drawing _ _ c

theorem silent_iacLines (k : IacKind) (bs : List Byte) : SilentLines (iacLines k bs) :=
  silent_cons (silent_title (by cases k <;> decide +kernel)) (silent_drawing _ _ _)

theorem silent_cvmResultsLines (bs : List Byte) (c : Bool) : SilentLines (cvmResultsLines bs c) := silent_drawing _ _ c

theorem decimal_first (n : Nat) : ∀ c ∈ decimal n, c ≠ '\t' ∧ c ≠ 'T' := by
  rw [← natToText_decimal, natToText, natToTextF_eq _ _ (Nat.lt_succ_self n)]
  intro c hc
  have := Nat.isDigit_of_mem_toDigits (b := 10) (by omega) (by omega) hc
  constructor
  · rintro rfl; exact absurd this (by decide)
  · rintro rfl; exact absurd this (by decide)

theorem silent_aspect {b l t : String} (h : firstBytes b = true) : Silent (aspect b l t) := by
  show introducesTag (cellText (styled _ b.toList ++ styled _ l.toList ++ styled _ _)) = false
  rw [cellText_append, cellText_append, cellText_styled, cellText_styled, List.append_assoc]
  exact first_str h _

theorem silent_serviceCodeLines (a b c : Nat) : SilentLines (serviceCodeLines a b c) := by
  refine silent_cons ?_ (silent_cons (silent_aspect (by decide +kernel))
    (silent_cons (silent_aspect (by decide +kernel)) (silent_cons (silent_aspect (by decide +kernel))
    (silent_cons (silent_aspect (by decide +kernel)) (silent_cons (silent_aspect (by decide +kernel)) silent_nil)))))
  show introducesTag (cellText (styled _ (_ ++ ['\n']))) = false
  rw [cellText_styled]
  refine silent_pre (fun d hd => ?_) [] (by decide) (by decide)
  rcases List.mem_append.1 hd with hd | hd
  · rcases List.mem_append.1 hd with hd | hd
    · exact decimal_first a d hd
    · exact decimal_first b d hd
  · exact decimal_first c d hd

theorem silent_ruleAspect {l t : String} (h : firstBytes l = true) : Silent (ruleAspect l t) := by
  show introducesTag (cellText (styled _ l.toList ++ styled _ _)) = false
  rw [cellText_append, cellText_styled]
  exact first_str h _

theorem silent_ruleLines (n : Nat) (p : Byte × Byte) : SilentLines (ruleLines n p) := by
  refine silent_cons ?_ (silent_cons (silent_ruleAspect (by decide +kernel)) (silent_cons
    (silent_ruleAspect (by decide +kernel)) (silent_cons (silent_ruleAspect (by decide +kernel)) silent_nil)))
  show introducesTag (cellText (styled _ _)) = false
  rw [cellText_styled, List.append_assoc]
  exact first_str (by decide +kernel) _

theorem silent_cvmListLines (bs : List Byte) : SilentLines (cvmListLines bs) := by
  rw [cvmListLines.eq_def]
  refine (SilentLines.append ?_ (silent_cons (silent_title (by decide +kernel)) silent_nil)).append ?_
  · split
    · exact silent_cons (silent_entry (by decide +kernel)) (silent_cons (silent_entry (by decide +kernel)) silent_nil)
    · exact silent_nil
  · intro l hl
    obtain ⟨p, -, hp⟩ := List.mem_flatMap.1 hl
    exact silent_ruleLines _ _ l hp

theorem silent_iadLines (bs : List Byte) (c : Bool) : SilentLines (iadLines bs c) := by
  rw [iadLines.eq_def]
  exact ((((((SilentLines.append (silent_cons (silent_title (by decide +kernel)) silent_nil)
    (silent_deeper (silent_bitLines _ _ _ _))).append
    (silent_cons (silent_entry (by decide +kernel)) (silent_cons (silent_title (by decide +kernel)) silent_nil))).append
    (silent_deeper (silent_bitLines _ _ _ _))).append
    (silent_cons (silent_title (by decide +kernel)) silent_nil)).append (silent_deeper (silent_dump _))).append
    (silent_cons (silent_title (by decide +kernel)) silent_nil)).append (silent_deeper (silent_dump _))

theorem silent_code {o : Option String} (h : ∀ t, o = some t → silentBytes t = true) {ls : List Line}
    (hl : o.map (fun t => [textLine t.toList]) = some ls) : SilentLines ls := by
  cases o with
  | none => cases hl
  | some t =>
    cases hl
    exact silent_cons (silent_strLine (h t rfl)) silent_nil

theorem silent_lookup {l : List (Nat × String)} (h : ∀ p ∈ l, silentBytes p.2 = true) (x : Nat) :
    ∀ t, l.lookup x = some t → silentBytes t = true := fun t ht => h (x, t) (lookup_mem ht)

theorem silent_transactionTypes : ∀ p ∈ transactionTypes, silentBytes p.2 = true := silent_all (by decide +kernel)
theorem silent_responseCodes : ∀ p ∈ responseCodes, silentBytes p.2 = true := silent_all (by decide +kernel)
theorem silent_posEntryModeTexts : ∀ p ∈ posEntryModeTexts, silentBytes p.2 = true := silent_all (by decide +kernel)

theorem silent_terminalType (b : Byte) : ∀ t, terminalType b.toNat = some t → silentBytes t = true := by
  have : ∀ b : Byte, (match terminalType b.toNat with
      | some t => silentBytes t
      | none => true) = true := by apply forall_byte; decide +kernel
  intro t ht
  have := this b
  rw [ht] at this
  exact this

theorem silent_responseText (d : List Byte) : ∀ t, responseText d = some t → silentBytes t = true := by
  intro t ht
  rw [responseText.eq_def] at ht
  split at ht
  · split at ht
    · exact silent_lookup silent_responseCodes _ t ht
    · cases ht
  · cases ht

theorem silent_some {x ls : List Line} (h : SilentLines x) (e : some x = some ls) : SilentLines ls := by
  cases e; exact h

theorem silent_valueLines (c : Bool) (tag d : List Byte) (ls : List Line) (h : valueLines c tag d = some ls) :
    SilentLines ls := by
  rw [valueLines] at h
  refine ite_cases h (silent_some (silent_serviceCodeLines _ _ _)) (fun h => ?_)
  refine ite_cases h (silent_code (silent_responseText d)) (fun h => ?_)
  refine ite_cases h (silent_some (silent_cvmListLines _)) (fun h => ?_)
  refine ite_cases h (silent_some (silent_bitLines _ _ _ _)) (fun h => ?_)
  refine ite_cases h (silent_some (silent_bitLines _ _ _ _)) (fun h => ?_)
  refine ite_cases h (silent_code (silent_lookup silent_transactionTypes _)) (fun h => ?_)
  refine ite_cases h (silent_some (silent_iacLines _ _)) (fun h => ?_)
  refine ite_cases h (silent_some (silent_iacLines _ _)) (fun h => ?_)
  refine ite_cases h (silent_some (silent_iacLines _ _)) (fun h => ?_)
  refine ite_cases h (fun h => ite_cases h (silent_some (silent_iadLines _ _)) (fun h => by cases h)) (fun h => ?_)
  refine ite_cases h (silent_some (silent_bitLines _ _ _ _)) (fun h => ?_)
  refine ite_cases h (silent_some (silent_cvmResultsLines _ _)) (fun h => ?_)
  refine ite_cases h (silent_code (silent_terminalType _)) (fun h => ?_)
  refine ite_cases h (silent_code (silent_lookup silent_posEntryModeTexts _)) (fun h => ?_)
  exact ite_cases h (silent_some (silent_bitLines _ _ _ _)) (fun h => by cases h)

theorem silent_rawLines (d : EmvData) : SilentLines (rawLines d) := by
  rw [rawLines.eq_def]
  split
  · exact silent_cons (silent_title (by decide +kernel)) silent_nil
  · exact silent_nil
  · exact silent_cons (silent_title (by decide +kernel)) (silent_deeper (silent_dumpWithText _))

theorem silent_parsedLines (c : Bool) (t : RawEmvTag) : SilentLines (parsedLines c t) := by
  rw [parsedLines.eq_def]
  split
  · exact silent_nil
  · split
    · rename_i h
      exact silent_cons (silent_title (by decide +kernel)) (silent_deeper (silent_valueLines _ _ _ _ h))
    · exact silent_nil

theorem silent_formatLines (f : TlvFormat) : SilentLines (formatLines f.text) := by
  refine silent_cons ?_ (silent_cons (introducesTag_cons [] (by decide) (by decide)) silent_nil)
  show introducesTag (cellText (styled _ "TLV Format: ".toList ++ _)) = false
  rw [cellText_append, cellText_styled]
  have : "TLV Format: ".toList = 'T' :: 'L' :: "V Format: ".toList := by decide +kernel
  rw [this]
  exact introducesTag_T _ (by decide)

theorem tagLine_loud (t : RawEmvTag) : introducesTag (cellText (tagLine t).cells) = true := by
  show introducesTag (cellText (((styled _ "Tag:".toList ++ _) ++ _) ++ _)) = true
  rw [cellText_append, cellText_append, cellText_append, cellText_styled]
  have : "Tag:".toList = ['T', 'a', 'g', ':'] := by decide +kernel
  rw [this]
  rfl

/-- Lines that introduce tags. -/
def loud (l : Line) : Bool := introducesTag (cellText l.cells)

theorem loud_silent {ls : List Line} (h : SilentLines ls) : ls.filter loud = [] := by
  rw [List.filter_eq_nil_iff]
  intro l hl hn
  rw [loud, h l hl] at hn
  cases hn

theorem loud_deeper (ls : List Line) : (deeper ls).filter loud = deeper (ls.filter loud) := by
  rw [deeper, List.filter_map]; rfl

mutual
theorem loud_node (c : Bool) : ∀ n : RawEmvNode, (nodeLines c n).filter loud = (nodeLevels 0 n).map tagLineAt
  | .mk t [] => by
    rw [nodeLines.eq_def, nodeLevels, blockLevels]
    simp only [List.filter_append, loud_silent (silent_rawLines _), loud_silent (silent_parsedLines _ _), List.append_nil]
    rw [List.filter_cons_of_pos (show loud (tagLine t) = true from tagLine_loud t)]
    rfl
  | .mk t (n :: ns) => by
    rw [nodeLines.eq_def, nodeLevels, blockLevels]
    simp only [List.filter_append, loud_silent (silent_rawLines _), loud_silent (silent_parsedLines _ _), List.append_nil]
    rw [List.filter_cons_of_pos (show loud (tagLine t) = true from tagLine_loud t), List.filter_cons_of_neg, loud_deeper, List.filter_append,
      loud_node c n, loud_more c ns]
    · rw [← List.map_append, List.map_cons, ← blockLevels, ← blockLevels, blockLevels_succ]
      rfl
    · have := silent_title (t := "Constructed Data Object's Child Tags:") (by decide +kernel)
      rw [Silent] at this
      rw [loud, this]
      decide
theorem loud_more (c : Bool) : ∀ b : List RawEmvNode, (moreLines c b).filter loud = (blockLevels 0 b).map tagLineAt
  | [] => by rw [moreLines, blockLevels]; rfl
  | n :: ns => by
    rw [moreLines, blockLevels, List.filter_append, List.filter_append, loud_node c n, loud_more c ns, List.map_append]
    rfl
end

theorem loud_block (c : Bool) (b : List RawEmvNode) : (blockLines c b).filter loud = (blockLevels 0 b).map tagLineAt := by
  cases b with
  | nil => rw [blockLevels]; rfl
  | cons n ns =>
    rw [blockLines, List.filter_append, loud_node, loud_more, blockLevels, List.map_append]

theorem introducesTag_tabs (k : Nat) (t : Text) : introducesTag (tabs k ++ t) = introducesTag t := by
  rw [introducesTag, introducesTag]
  congr 1
  induction k with
  | zero => rfl
  | succ k ih =>
    have : tabs (k + 1) = '\t' :: tabs k := rfl
    rw [this, List.cons_append, List.dropWhile_cons]
    simpa using ih

theorem introducesTag_render (i : Nat) (l : Line) : introducesTag (cellText (l.render i)) = loud l := by
  rw [render_text, loud]
  cases l.indent with
  | none => rfl
  | some k => exact introducesTag_tabs _ _

theorem loud_doc (i : Nat) {ls : List Line} (h : WholeLines ls) :
    (cutLines (docText i ls)).filter introducesTag = (ls.filter loud).map (fun l => cellText (l.render i)) := by
  rw [cut_doc i h, List.filter_map]
  congr 1
  apply List.filter_congr
  intro l _
  exact introducesTag_render i l

theorem blockLevels_flatMap (d : Nat) : ∀ b : List RawEmvNode, blockLevels d b = b.flatMap (nodeLevels d)
  | [] => by rw [blockLevels]; rfl
  | n :: ns => by rw [blockLevels, List.flatMap_cons, blockLevels_flatMap d ns]

mutual
theorem children_levels (d : Nat) : ∀ {b b' : List RawEmvNode}, ChildrenInOrder b b' →
    (blockLevels d b').Perm (blockLevels d b)
  | _, _, .nil => .refl _
  | _, _, .cons t hc hb => by
    rw [blockLevels, blockLevels, nodeLevels, nodeLevels]
    exact ((inTagOrder_levels (d + 1) hc).cons _).append (children_levels d hb)
theorem inTagOrder_levels (d : Nat) : ∀ {b b' : List RawEmvNode}, InTagOrder b b' →
    (blockLevels d b').Perm (blockLevels d b)
  | _, _, .mk hc hp _ _ => by
    refine List.Perm.trans ?_ (children_levels d hc)
    rw [blockLevels_flatMap, blockLevels_flatMap]
    exact hp.flatMap_right _
end

theorem arranged_levels (d : Nat) {sort : Bool} {b b' : List RawEmvNode} (h : Arranged sort b b') :
    (blockLevels d b').Perm (blockLevels d b) := by
  cases sort with
  | true => exact inTagOrder_levels d h
  | false => rw [show b' = b from h]

/-! ### Runs -/

theorem whole_hexReport (op : Operation) (bs : List Byte) (ls : List Line) (h : hexReport op bs = .ok ls) : WholeLines ls := by
  rw [hexReport.eq_def] at h
  split at h
  · split at h
    · cases h; exact whole_bitLines inline_tvrLabels _ _ _
    · cases h
  · split at h
    · cases h; exact whole_iadLines _ _
    · cases h
  · split at h
    · cases h; exact whole_bitLines inline_cvrLabels _ _ _
    · cases h
  · split at h
    · cases h; exact whole_bitLines inline_tsiLabels _ _ _
    · cases h
  · split at h
    · cases h
    · split at h
      · cases h
      · cases h; exact whole_cvmResultsLines _ _
  · split at h
    · cases h
    · split at h
      · cases h
      · cases h; exact whole_cvmListLines _
  · split at h
    · cases h
    · cases h; exact whole_identifyLines _
  · cases h

/-- The lines of the format. -/
def headerLines : Option TlvFormat → List Line
  | some f => formatLines f.text
  | none => []

theorem shows_headerLines (f : Option TlvFormat) : Shows (headerOf f) (showLines 0 (headerLines f)) := by
  cases f with
  | none => exact shows_nil
  | some f => exact shows_header f

/-- The documents of an operation. -/
inductive IsDocument (m : Machine) (masks : List Char) (sort : Bool) : Operation → Text → List Line → Prop
  | nothing (op : Operation) (s : Text) : IsDocument m masks sort op s []
  | hex {op : Operation} {s : Text} {ls : List Line} (h : hexReport op (hexBytes s) = .ok ls) :
      IsDocument m masks sort op s ls
  | serviceCode {s : Text} {n : Nat} (h : n ≤ 999) :
      IsDocument m masks sort .serviceCode s (serviceCodeLines (n / 100) (n / 10 % 10) (n % 10))
  | block {op : Operation} {s : Text} {f : Option TlvFormat} {b b' : List RawEmvNode}
      (h : tlvParse m masks op s = .ok (f, b)) (ha : AllAcceptable b) (hb : Arranged sort b b') :
      IsDocument m masks sort op s (headerLines f ++ blockLines true b')

/-- Whatever the program is given, its output is a document or the beginning of one. -/
theorem run_document (m : Machine) (masks : List Char) (sort : Bool) (op : Operation) (s : Text) :
    ∃ ls d, Truncates (runOp m masks sort op s).disp d ∧ Shows d (showLines 0 ls) ∧ IsDocument m masks sort op s ls := by
  have empty : ∀ {d : Disp}, Truncates d .nil →
      ∃ ls d', Truncates d d' ∧ Shows d' (showLines 0 ls) ∧ IsDocument m masks sort op s ls :=
    fun h => ⟨[], .nil, h, shows_nil, .nothing op s⟩
  have reports : ∀ {r : Run} {x : Except Text (List Line)}, Reports r x →
      (∀ ls, x = .ok ls → IsDocument m masks sort op s ls) →
      ∃ ls d', Truncates r.disp d' ∧ Shows d' (showLines 0 ls) ∧ IsDocument m masks sort op s ls := by
    intro r x h hs
    cases x with
    | ok ls => exact ⟨ls, _, .refl _, h.shows, hs ls rfl⟩
    | error msg => rw [fails_nil h]; exact empty (.refl _)
  have panic : Truncates .panic .nil := Or.inr ⟨rfl, List.nil_prefix⟩
  rcases operation_cases op with h | rfl | h
  · exact reports (reports_hex m masks sort op h s) (fun ls => .hex)
  · obtain ⟨h1, h2⟩ := reports_serviceCode m masks sort s
    by_cases hn : ∃ n, IsU16Text s n ∧ n ≤ 999
    · obtain ⟨n, hn, h9⟩ := hn
      exact reports (h1 n hn h9) (fun ls e => by cases e; exact .serviceCode h9)
    · exact reports (h2 hn) (fun ls e => by cases e)
  · rw [runOp_tlv m masks sort op h]
    cases ht : tlvParse m masks op s with
    | ok p =>
      obtain ⟨f, b⟩ := p
      rw [tlvOutcome]
      rcases processBlock_total b with ⟨q, hq⟩ | ⟨e, he⟩
      · simp only [hq]
        obtain ⟨b', hb, hs⟩ := shows_arranged (m := m.unchecked) hq sort (Or.inr rfl)
        refine ⟨headerLines f ++ blockLines true b', _, (Truncates.refl _).seq (truncates_nodes m true _ true 0), ?_,
          .block ht ((c34_ok_iff b).1 ⟨q, hq⟩) hb⟩
        rw [render_append]
        exact (shows_headerLines f).seq hs
      · simp only [he]; exact empty (.refl _)
    | err e => exact empty (.refl _)
    | panic => exact empty panic
    | diverge => exact empty (.refl _)

theorem whole_document {m : Machine} {masks : List Char} {sort : Bool} {op : Operation} {s : Text} {ls : List Line}
    (h : IsDocument m masks sort op s ls) : WholeLines ls := by
  cases h with
  | nothing => exact whole_nil
  | hex h => exact whole_hexReport _ _ _ h
  | serviceCode => exact whole_serviceCodeLines _ _ _
  | block h _ hb =>
    refine WholeLines.append ?_ (whole_blockLines _ _)
    generalize ‹Option TlvFormat› = f
    cases f with
    | none => exact whole_nil
    | some f => exact whole_formatLines f

theorem truncates_text {d d' : Disp} (h : Truncates d d') : d.text <+: d'.text := by
  obtain ⟨r, hr⟩ := truncates_prefix h
  refine ⟨evText r, ?_⟩
  rw [Disp.text, Disp.text, ← hr, evText_append]

theorem silent_headerLines (f : Option TlvFormat) : SilentLines (headerLines f) := by
  cases f with
  | none => exact silent_nil
  | some f => exact silent_formatLines f

theorem whole_headerLines (f : Option TlvFormat) : WholeLines (headerLines f) := by
  cases f with
  | none => exact whole_nil
  | some f => exact whole_formatLines f

/-- The block that an option reads. -/
theorem tlvParse_cases {m : Machine} {masks : List Char} {op : Operation} {s : Text} {b : RawEmvBlock}
    (h : op = .autoTlv ∧ (∃ f, autoParse m s masks = .ok (f, b)) ∨
      op = .berTlv ∧ berParse m (hexBytes s) masks = .ok b ∨ op = .ingenicoTlv ∧ ingParse m s masks = .ok b) :
    op ∈ [Operation.autoTlv, .berTlv, .ingenicoTlv] ∧ ∃ f, tlvParse m masks op s = .ok (f, b) := by
  rcases h with ⟨rfl, f, h⟩ | ⟨rfl, h⟩ | ⟨rfl, h⟩
  · exact ⟨by simp, some f, by rw [tlvParse, h]; rfl⟩
  · exact ⟨by simp, none, by rw [tlvParse, hexBytes_eq, h]; rfl⟩
  · exact ⟨by simp, none, by rw [tlvParse, h]; rfl⟩

end Pemv
