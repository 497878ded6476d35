import Verif.Spec.Safety
import Verif.Proofs.Truncated

/-!
# Lemmas about the characters of documents
-/

namespace Pemv

open Spec

theorem Spec.SafeText.append {a b : Text} (ha : SafeText a) (hb : SafeText b) : SafeText (a ++ b) := by
  intro c hc
  rcases List.mem_append.1 hc with h | h
  · exact ha c h
  · exact hb c h

theorem safe_cons {x : Char} {b : Text} (ha : SafeChar x) (hb : SafeText b) : SafeText (x :: b) := by
  intro c hc
  rcases List.mem_cons.1 hc with rfl | h
  · exact ha
  · exact hb c h

theorem safe_nl : SafeText ['\n'] := by decide +kernel

theorem safe_replicate (n : Nat) {c : Char} (h : SafeChar c) : SafeText (List.replicate n c) := by
  intro d hd
  rw [List.eq_of_mem_replicate hd]; exact h

theorem safe_tabs (n : Nat) : SafeText (tabs n) := safe_replicate n (Or.inl rfl)

theorem safe_map {α : Type} {l : List α} {f : α → Char} (h : ∀ x, SafeChar (f x)) : SafeText (l.map f) := by
  intro c hc
  obtain ⟨x, -, rfl⟩ := List.mem_map.1 hc
  exact h x

theorem safe_flatMap {α : Type} {l : List α} {f : α → Text} (h : ∀ x, SafeText (f x)) : SafeText (l.flatMap f) := by
  intro c hc
  obtain ⟨x, -, hx⟩ := List.mem_flatMap.1 hc
  exact h x c hx

theorem safe_digit (n : Nat) (h : n < 10) : SafeChar n.digitChar := by
  revert n; decide +kernel

theorem safe_decimal (n : Nat) : SafeText (decimal n) := by
  rw [← natToText_decimal, natToText, natToTextF_eq _ _ (Nat.lt_succ_self n)]
  intro c hc
  have := Nat.isDigit_of_mem_toDigits (b := 10) (by omega) (by omega) hc
  simp only [Char.isDigit, Bool.and_eq_true, decide_eq_true_eq, UInt32.le_iff_toNat_le] at this
  obtain ⟨h1, h2⟩ := this
  have e1 : '0'.val.toNat = 48 := rfl
  have e2 : '9'.val.toNat = 57 := rfl
  have e3 : c.val.toNat = c.toNat := rfl
  rw [e1, e3] at h1
  rw [e2, e3] at h2
  exact Or.inr (Or.inr (Or.inl ⟨by omega, by omega⟩))

theorem safe_hexPair (b : Byte) : SafeText (hexPair b) := by
  revert b; apply forall_byte; decide +kernel

theorem safe_hexRow (bs : List Byte) : SafeText (hexRow bs) := by
  intro c hc
  rw [hexRow] at hc
  induction bs with
  | nil => cases hc
  | cons b bs ih =>
    cases bs with
    | nil =>
      have : [' '].intercalate ([b].map hexPair) = hexPair b := by simp [List.intercalate]
      rw [this] at hc; exact safe_hexPair b c hc
    | cons b' bs =>
      have : [' '].intercalate ((b :: b' :: bs).map hexPair) =
        hexPair b ++ ' ' :: [' '].intercalate ((b' :: bs).map hexPair) := by simp [List.intercalate]
      rw [this] at hc
      rcases List.mem_append.1 hc with h | h
      · exact safe_hexPair b c h
      · rcases List.mem_cons.1 h with rfl | h
        · decide +kernel
        · exact ih h

theorem safe_readable (b : Byte) : SafeChar (readable b) := by
  revert b; apply forall_byte; decide +kernel

/-- A check on the bytes of a text. -/
def safeBytes (s : String) : Bool :=
  s.toByteArray.data.toList.all (fun b => Nat.beq b.toNat 9 || Nat.beq b.toNat 10 ||
    (Nat.ble 32 b.toNat && Nat.ble b.toNat 126))

theorem safe_str {s : String} (h : safeBytes s = true) : SafeText s.toList := by
  have e : s.toByteArray.data.toList = s.toList.flatMap String.utf8EncodeChar := by
    rw [← String.utf8Encode_toList, List.utf8Encode]
    simp
  rw [safeBytes, e, List.all_eq_true] at h
  intro c hc
  have key : ∀ b ∈ String.utf8EncodeChar c, b.toNat = 9 ∨ b.toNat = 10 ∨ (32 ≤ b.toNat ∧ b.toNat ≤ 126) := by
    intro b hb
    have := h b (List.mem_flatMap.2 ⟨c, hc, hb⟩)
    simp only [Bool.or_eq_true, Bool.and_eq_true, Nat.beq_eq, Nat.ble_eq] at this
    omega
  by_cases ha : c.toNat < 128
  · have := key (UInt8.ofNat c.toNat) (by rw [encode_ascii ha]; simp)
    have e : (UInt8.ofNat c.toNat).toNat = c.toNat := by simp; omega
    rw [e] at this
    rcases this with h | h | h
    · left; apply Char.ext; apply UInt32.toNat_inj.1; exact h
    · right; left; apply Char.ext; apply UInt32.toNat_inj.1; exact h
    · exact Or.inr (Or.inr (Or.inl h))
  · exfalso
    cases he : String.utf8EncodeChar c with
    | nil =>
      rw [String.utf8EncodeChar] at he
      split at he <;> try split at he <;> try split at he
      all_goals cases he
    | cons b l =>
      have hb : b ∈ String.utf8EncodeChar c := by rw [he]; simp
      have h1 := encode_nonascii ha b hb
      have h2 := key b hb
      rw [UInt8.le_iff_toNat_le] at h1
      have h3 : (0x80 : Byte).toNat = 128 := rfl
      omega

theorem safe_all {α : Type} {l : List α} {f : α → String} (h : l.all (fun p => safeBytes (f p)) = true) :
    ∀ p ∈ l, SafeText (f p).toList := fun p hp => safe_str (List.all_eq_true.1 h p hp)

/-! ### Lines -/

theorem safe_lines_nil : SafeLines [] := fun _ h => by cases h

theorem Spec.SafeLines.append {a b : List Line} (ha : SafeLines a) (hb : SafeLines b) : SafeLines (a ++ b) := by
  intro l hl
  rcases List.mem_append.1 hl with h | h
  · exact ha l h
  · exact hb l h

/-- The text of cells. -/
def SafeCells (c : Cells) : Prop := ∀ p ∈ c, SafeChar p.1

theorem safe_styled {s : ColorSpec} {t : Text} (h : SafeText t) : SafeCells (styled s t) := by
  intro p hp
  obtain ⟨c, hc, rfl⟩ := List.mem_map.1 hp
  exact h c hc

theorem SafeCells.append {a b : Cells} (ha : SafeCells a) (hb : SafeCells b) : SafeCells (a ++ b) := by
  intro l hl
  rcases List.mem_append.1 hl with h | h
  · exact ha l h
  · exact hb l h

theorem safe_lines_cons {l : Line} {ls : List Line} (h : SafeCells l.cells) (hs : SafeLines ls) : SafeLines (l :: ls) := by
  intro x hx
  rcases List.mem_cons.1 hx with rfl | hx
  · exact h
  · exact hs x hx

theorem safe_deeper {ls : List Line} (h : SafeLines ls) : SafeLines (deeper ls) := by
  intro l hl
  obtain ⟨x, hx, rfl⟩ := List.mem_map.1 hl
  exact h x hx

theorem safe_lines_map {α : Type} {l : List α} {f : α → Line} (h : ∀ x ∈ l, SafeCells (f x).cells) :
    SafeLines (l.map f) := by
  intro y hy
  obtain ⟨x, hx, rfl⟩ := List.mem_map.1 hy
  exact h x hx

theorem safe_textLine {t : Text} (h : SafeText t) : SafeCells (textLine t).cells := safe_styled (h.append safe_nl)

theorem safe_title {t : String} (h : SafeText (t ++ "\n").toList) : SafeCells (title t).cells := safe_styled h

theorem safe_entry {t : String} {r : Text} (h : SafeText t.toList) (hr : SafeText r) : SafeCells (entry t r).cells :=
  (safe_styled h).append (safe_styled (hr.append safe_nl))

theorem safe_dump (bs : List Byte) : SafeLines (dump bs) :=
  safe_lines_map (fun r _ => safe_textLine (safe_hexRow r))

theorem safe_dumpWithText (bs : List Byte) : SafeLines (dumpWithText bs) :=
  safe_lines_map (fun r _ => safe_textLine
    (((safe_hexRow r).append (safe_replicate _ (by decide +kernel))).append (safe_map safe_readable)))

theorem safe_render {ls : List Line} (h : SafeLines ls) (i : Nat) : SafeCells (showLines i ls) := by
  intro p hp
  obtain ⟨l, hl, hp⟩ := List.mem_flatMap.1 hp
  rw [Line.render] at hp
  split at hp
  · rcases List.mem_append.1 hp with hp | hp
    · exact safe_styled (safe_tabs _) p hp
    · exact h l hl p hp
  · exact h l hl p hp

/-! ### Bit-mapped values -/

theorem safe_drawing {bytes : List Byte} {rs : List Annotation} (h : ∀ r ∈ rs, SafeText r.text) (colours : Bool) :
    SafeLines (drawingLines bytes rs colours) := by
  have hsp : SafeChar ' ' := by decide +kernel
  refine (SafeLines.append (safe_lines_cons (safe_styled ?_) safe_lines_nil) ?_).append (safe_lines_map ?_)
  · refine SafeText.append (safe_map (fun k => ?_)) safe_nl
    split
    · split
      · decide +kernel
      · decide +kernel
    · exact hsp
  · split
    · refine safe_lines_cons (safe_textLine (safe_map (fun k => ?_))) safe_lines_nil
      split
      · rw [headerGlyphAt]
        split
        · exact hsp
        · split
          · decide +kernel
          · split
            · decide +kernel
            · split
              · decide +kernel
              · decide +kernel
      · exact hsp
    · exact safe_lines_nil
  · intro r hr
    refine SafeCells.append (safe_styled (SafeText.append (safe_map (fun k => ?_)) (by decide +kernel)))
      (safe_styled ((h r (List.mem_reverse.1 hr)).append safe_nl))
    split
    · split
      · decide +kernel
      · exact hsp
    · exact hsp

theorem safe_codeTexts : ∀ p ∈ codeTexts, SafeText p.2.toList := safe_all (by decide +kernel)

theorem safe_unlistedTexts : ∀ p ∈ unlistedTexts, SafeText p.2.toList := safe_all (by decide +kernel)

theorem safe_lookup {α : Type} [BEq α] [LawfulBEq α] {l : List (α × String)} (h : ∀ p ∈ l, SafeText p.2.toList)
    (x : α) : SafeText ((l.lookup x).getD "").toList := by
  cases hl : l.lookup x with
  | none => intro c hc; cases hc
  | some t => exact h (x, t) (lookup_mem hl)

theorem safe_empty : SafeText "".toList := by decide +kernel

theorem safe_valueText (t : Item) (n : Nat) : SafeText (t.valueText n) := by
  rw [Item.valueText.eq_def]
  split
  · intro c hc; cases hc
  · exact safe_decimal n
  · rename_i codes _
    cases hl : codes.lookup n with
    | none => exact safe_empty
    | some c => exact safe_lookup safe_codeTexts c
  · split
    · exact safe_lookup safe_codeTexts _
    · exact safe_lookup safe_unlistedTexts _

theorem safe_explanation (t : Item) {label : String} (h : SafeText label.toList) (n : Nat) :
    SafeText (t.explanation label n) := by
  rw [Item.explanation.eq_def]
  split
  · exact h
  · exact (h.append (by decide +kernel)).append (safe_valueText t n)

theorem safe_annotation {labels : List (String × Severity × String)} (h : ∀ p ∈ labels, SafeText p.2.2.toList)
    (n : Nat) (bs : List Byte) (t : Item) : SafeText (t.annotation labels n bs).text := by
  rw [Item.annotation.eq_def]
  split
  · rename_i s l hl
    exact safe_explanation t (h _ (lookup_mem hl)) _
  · intro c hc; cases hc

theorem safe_annotations {labels : List (String × Severity × String)} (h : ∀ p ∈ labels, SafeText p.2.2.toList)
    (items : List Item) (bs : List Byte) : ∀ r ∈ annotations labels items bs, SafeText r.text := by
  intro r hr
  obtain ⟨t, -, rfl⟩ := List.mem_map.1 hr
  exact safe_annotation h _ _ _

theorem safe_bitLines {labels : List (String × Severity × String)} (h : ∀ p ∈ labels, SafeText p.2.2.toList)
    (items : List Item) (bs : List Byte) (c : Bool) : SafeLines (bitLines items labels bs c) :=
  safe_drawing (safe_annotations h items bs) c

theorem safe_tvrLabels : ∀ p ∈ tvrLabels, SafeText p.2.2.toList := safe_all (by decide +kernel)
theorem safe_tsiLabels : ∀ p ∈ tsiLabels, SafeText p.2.2.toList := safe_all (by decide +kernel)
theorem safe_tcLabels : ∀ p ∈ terminalCapabilitiesLabels, SafeText p.2.2.toList := safe_all (by decide +kernel)
theorem safe_atcLabels : ∀ p ∈ additionalTerminalCapabilitiesLabels, SafeText p.2.2.toList := safe_all (by decide +kernel)
theorem safe_cciLabels : ∀ p ∈ cciLabels, SafeText p.2.2.toList := safe_all (by decide +kernel)
theorem safe_cvrLabels : ∀ p ∈ cvrLabels, SafeText p.2.2.toList := safe_all (by decide +kernel)
theorem safe_cvmResultsLabels : ∀ p ∈ cvmResultsLabels, SafeText p.2.2.toList := safe_all (by decide +kernel)

theorem safe_iacLines (k : IacKind) (bs : List Byte) : SafeLines (iacLines k bs) :=
  safe_lines_cons (safe_title (by cases k <;> decide +kernel)) (safe_bitLines safe_tvrLabels _ _ _)

theorem safe_cvmResultsLines (bs : List Byte) (c : Bool) : SafeLines (cvmResultsLines bs c) := by
  refine safe_drawing ?_ c
  intro r hr
  obtain ⟨r', hr', rfl⟩ := List.mem_map.1 hr
  have := safe_annotations safe_cvmResultsLabels cvmResultsItems bs r' hr'
  split
  · exact this
  · exact this

/-! ### Other values -/

theorem safe_aspect {b l t : String} (h1 : SafeText b.toList) (h2 : SafeText l.toList) (h3 : SafeText t.toList) :
    SafeCells (aspect b l t).cells :=
  ((safe_styled h1).append (safe_styled h2)).append
    (safe_styled (((safe_replicate _ (by decide +kernel)).append h3).append safe_nl))

theorem safe_ite {p : Prop} [Decidable p] {a b : String} (ha : SafeText a.toList) (hb : SafeText b.toList) :
    SafeText (if p then a else b).toList := by
  split
  · exact ha
  · exact hb

theorem safe_serviceCodeLines (a b c : Nat) : SafeLines (serviceCodeLines a b c) := by
  refine safe_lines_cons (safe_styled ((((safe_decimal a).append (safe_decimal b)).append (safe_decimal c)).append
    safe_nl)) (safe_lines_cons (safe_aspect (by decide +kernel) (by decide +kernel) ?_)
    (safe_lines_cons (safe_aspect (by decide +kernel) (by decide +kernel) ?_)
    (safe_lines_cons (safe_aspect (by decide +kernel) (by decide +kernel) ?_)
    (safe_lines_cons (safe_aspect (by decide +kernel) (by decide +kernel) ?_)
    (safe_lines_cons (safe_aspect (by decide +kernel) (by decide +kernel) ?_) safe_lines_nil)))))
  · exact safe_ite (by decide +kernel) (safe_ite (by decide +kernel) (safe_ite (by decide +kernel)
      (safe_ite (by decide +kernel) (by decide +kernel))))
  · exact safe_ite (by decide +kernel) (safe_ite (by decide +kernel) (by decide +kernel))
  · exact safe_ite (by decide +kernel) (safe_ite (by decide +kernel) (safe_ite (by decide +kernel) (by decide +kernel)))
  · exact safe_ite (by decide +kernel) (safe_ite (by decide +kernel) (safe_ite (by decide +kernel)
      (safe_ite (by decide +kernel) (by decide +kernel))))
  · exact safe_ite (by decide +kernel) (by decide +kernel)

theorem safe_codeText (item : String) (codes : List (Nat × String)) (n : Nat) :
    SafeText (codeText item codes n).toList := by
  rw [codeText]
  split
  · exact safe_lookup safe_codeTexts _
  · exact safe_lookup safe_unlistedTexts _

theorem safe_ruleAspect {l t : String} (h1 : SafeText l.toList) (h2 : SafeText t.toList) :
    SafeCells (ruleAspect l t).cells :=
  (safe_styled h1).append (safe_styled ((safe_cons (by decide +kernel) h2).append safe_nl))

theorem safe_ruleLines (n : Nat) (p : Byte × Byte) : SafeLines (ruleLines n p) := by
  refine safe_lines_cons (safe_styled (((show SafeText "CVM ".toList by decide +kernel).append (safe_decimal n)).append
    (by decide +kernel))) (safe_lines_cons (safe_ruleAspect (by decide +kernel) (safe_codeText _ _ _))
    (safe_lines_cons (safe_ruleAspect (by decide +kernel) (safe_codeText _ _ _))
    (safe_lines_cons (safe_ruleAspect (by decide +kernel) (safe_ite (by decide +kernel) (by decide +kernel)))
    safe_lines_nil)))

theorem safe_digitsAtLeast (w n : Nat) : SafeText (digitsAtLeast w n) :=
  (safe_replicate _ (by decide +kernel)).append (safe_decimal n)

theorem safe_cvmListLines (bs : List Byte) : SafeLines (cvmListLines bs) := by
  rw [cvmListLines.eq_def]
  refine (SafeLines.append ?_ (safe_lines_cons (safe_title (by decide +kernel)) safe_lines_nil)).append ?_
  · split
    · exact safe_lines_cons (safe_entry (by decide +kernel) ((safe_cons (by decide +kernel)
        (safe_digitsAtLeast _ _)).append (by decide +kernel)))
        (safe_lines_cons (safe_entry (by decide +kernel) (safe_cons (by decide +kernel) (safe_digitsAtLeast _ _)))
        safe_lines_nil)
    · exact safe_lines_nil
  · intro l hl
    obtain ⟨p, -, hp⟩ := List.mem_flatMap.1 hl
    exact safe_ruleLines _ _ l hp

theorem safe_iadLines (bs : List Byte) (c : Bool) : SafeLines (iadLines bs c) := by
  rw [iadLines.eq_def]
  exact ((((((SafeLines.append (safe_lines_cons (safe_title (by decide +kernel)) safe_lines_nil)
    (safe_deeper (safe_bitLines safe_cciLabels _ _ _))).append
    (safe_lines_cons (safe_entry (by decide +kernel) ((show SafeText " 0x".toList by decide +kernel).append
      (safe_hexPair _))) (safe_lines_cons (safe_title (by decide +kernel)) safe_lines_nil))).append
    (safe_deeper (safe_bitLines safe_cvrLabels _ _ _))).append
    (safe_lines_cons (safe_title (by decide +kernel)) safe_lines_nil)).append (safe_deeper (safe_dump _))).append
    (safe_lines_cons (safe_title (by decide +kernel)) safe_lines_nil)).append (safe_deeper (safe_dump _))

theorem safe_code {o : Option String} (h : ∀ t, o = some t → SafeText t.toList) {ls : List Line}
    (hl : o.map (fun t => [textLine t.toList]) = some ls) : SafeLines ls := by
  cases o with
  | none => cases hl
  | some t =>
    cases hl
    exact safe_lines_cons (safe_textLine (h t rfl)) safe_lines_nil

theorem safe_lookup' {l : List (Nat × String)} (h : ∀ p ∈ l, SafeText p.2.toList) (x : Nat) :
    ∀ t, l.lookup x = some t → SafeText t.toList := fun t ht => h (x, t) (lookup_mem ht)

theorem safe_transactionTypes : ∀ p ∈ transactionTypes, SafeText p.2.toList := safe_all (by decide +kernel)
theorem safe_responseCodes : ∀ p ∈ responseCodes, SafeText p.2.toList := safe_all (by decide +kernel)
theorem safe_posEntryModeTexts : ∀ p ∈ posEntryModeTexts, SafeText p.2.toList := safe_all (by decide +kernel)

theorem safe_terminalType (b : Byte) : ∀ t, terminalType b.toNat = some t → SafeText t.toList := by
  have : ∀ b : Byte, (match terminalType b.toNat with
      | some t => safeBytes t
      | none => true) = true := by apply forall_byte; decide +kernel
  intro t ht
  have := this b
  rw [ht] at this
  exact safe_str this

theorem safe_responseText (d : List Byte) : ∀ t, responseText d = some t → SafeText t.toList := by
  intro t ht
  rw [responseText.eq_def] at ht
  split at ht
  · split at ht
    · exact safe_lookup' safe_responseCodes _ t ht
    · cases ht
  · cases ht

theorem ite_cases {p : Prop} [Decidable p] {a b x : Option (List Line)} {Q : Prop} (h : (if p then a else b) = x)
    (ha : a = x → Q) (hb : b = x → Q) : Q := by
  by_cases hp : p
  · rw [if_pos hp] at h; exact ha h
  · rw [if_neg hp] at h; exact hb h

theorem safe_some {x ls : List Line} (h : SafeLines x) (e : some x = some ls) : SafeLines ls := by
  cases e; exact h

theorem safe_valueLines (c : Bool) (tag d : List Byte) (ls : List Line) (h : valueLines c tag d = some ls) :
    SafeLines ls := by
  rw [valueLines] at h
  refine ite_cases h (safe_some (safe_serviceCodeLines _ _ _)) (fun h => ?_)
  refine ite_cases h (safe_code (safe_responseText d)) (fun h => ?_)
  refine ite_cases h (safe_some (safe_cvmListLines _)) (fun h => ?_)
  refine ite_cases h (safe_some (safe_bitLines safe_tvrLabels _ _ _)) (fun h => ?_)
  refine ite_cases h (safe_some (safe_bitLines safe_tsiLabels _ _ _)) (fun h => ?_)
  refine ite_cases h (safe_code (safe_lookup' safe_transactionTypes _)) (fun h => ?_)
  refine ite_cases h (safe_some (safe_iacLines _ _)) (fun h => ?_)
  refine ite_cases h (safe_some (safe_iacLines _ _)) (fun h => ?_)
  refine ite_cases h (safe_some (safe_iacLines _ _)) (fun h => ?_)
  refine ite_cases h (fun h => ite_cases h (safe_some (safe_iadLines _ _)) (fun h => by cases h)) (fun h => ?_)
  refine ite_cases h (safe_some (safe_bitLines safe_tcLabels _ _ _)) (fun h => ?_)
  refine ite_cases h (safe_some (safe_cvmResultsLines _ _)) (fun h => ?_)
  refine ite_cases h (safe_code (safe_terminalType _)) (fun h => ?_)
  refine ite_cases h (safe_code (safe_lookup' safe_posEntryModeTexts _)) (fun h => ?_)
  exact ite_cases h (safe_some (safe_bitLines safe_atcLabels _ _ _)) (fun h => by cases h)

/-! ### Tags and blocks -/

theorem safe_dictionary : ∀ p ∈ dictionary, SafeText p.1.toList := safe_all (by decide +kernel)

theorem safe_tolerated : ∀ p ∈ tolerated, SafeText p.2.2.toList := safe_all (by decide +kernel)

theorem safe_unknown : SafeText "<Unknown>".toList := by decide +kernel

theorem safe_dictionaryName (tag : List Byte) : SafeText ((dictionaryName tag).getD "<Unknown>").toList := by
  rw [dictionaryName]
  cases h : dictionary.find? (fun p => tagBytes p.2 == tag) with
  | none => exact safe_unknown
  | some p => exact safe_dictionary p (List.mem_of_find?_eq_some h)

theorem safe_shownName (t : RawEmvTag) : SafeText ((shownName t).getD "<Unknown>").toList := by
  rw [shownName.eq_def]
  split
  · exact safe_dictionaryName _
  · split
    · rename_i h _
      exact safe_tolerated _ (lookup_mem h)
    · exact safe_dictionaryName _

theorem safe_sizeText (d : EmvData) : SafeText (sizeText d) := by
  rw [sizeText.eq_def]
  split
  · decide +kernel
  · split
    · decide +kernel
    · exact (safe_decimal _).append (by decide +kernel)

theorem safe_tagLine (t : RawEmvTag) : SafeCells (tagLine t).cells :=
  (((safe_styled (s := ⟨true, some .cyan⟩) (t := "Tag:".toList) (by decide +kernel)).append
    (safe_styled (by decide +kernel))).append
    (safe_styled (safe_flatMap safe_hexPair))).append
    (safe_styled (((((show SafeText " - ".toList by decide +kernel).append (safe_sizeText _)).append
      (by decide +kernel)).append (safe_shownName t)).append safe_nl))

theorem safe_rawLines (d : EmvData) : SafeLines (rawLines d) := by
  rw [rawLines.eq_def]
  split
  · exact safe_lines_cons (safe_title (by decide +kernel)) safe_lines_nil
  · exact safe_lines_nil
  · exact safe_lines_cons (safe_title (by decide +kernel)) (safe_deeper (safe_dumpWithText _))

theorem safe_parsedLines (c : Bool) (t : RawEmvTag) : SafeLines (parsedLines c t) := by
  rw [parsedLines.eq_def]
  split
  · exact safe_lines_nil
  · split
    · rename_i h
      exact safe_lines_cons (safe_title (by decide +kernel)) (safe_deeper (safe_valueLines _ _ _ _ h))
    · exact safe_lines_nil

mutual
theorem safe_nodeLines (c : Bool) : ∀ n : RawEmvNode, SafeLines (nodeLines c n)
  | .mk t [] => by
    rw [nodeLines.eq_def]
    exact (((safe_lines_cons (safe_tagLine t) safe_lines_nil).append (safe_rawLines _)).append
      (safe_parsedLines _ _)).append safe_lines_nil
  | .mk t (n :: ns) => by
    rw [nodeLines.eq_def]
    exact (((safe_lines_cons (safe_tagLine t) safe_lines_nil).append (safe_rawLines _)).append
      (safe_parsedLines _ _)).append (safe_lines_cons (safe_title (by decide +kernel))
        (safe_deeper ((safe_nodeLines c n).append (safe_moreLines c ns))))
theorem safe_moreLines (c : Bool) : ∀ b : List RawEmvNode, SafeLines (moreLines c b)
  | [] => by rw [moreLines]; exact safe_lines_nil
  | n :: ns => by
    rw [moreLines]
    exact ((safe_lines_cons (safe_styled safe_nl) safe_lines_nil).append (safe_nodeLines c n)).append
      (safe_moreLines c ns)
end

theorem safe_blockLines (c : Bool) (b : List RawEmvNode) : SafeLines (blockLines c b) := by
  cases b with
  | nil => exact safe_lines_nil
  | cons n ns => exact (safe_nodeLines c n).append (safe_moreLines c ns)

theorem safe_identifyLines (tag : List Byte) : SafeLines (identifyLines tag) := by
  rw [identifyLines.eq_def]
  refine safe_lines_cons (safe_entry (by decide +kernel) (SafeText.append (by decide +kernel)
    (safe_dictionaryName tag))) (safe_lines_cons ?_ (safe_lines_cons (safe_entry (by decide +kernel)
    (SafeText.append (by decide +kernel) ?_)) (safe_lines_cons (safe_entry (by decide +kernel) ?_) safe_lines_nil)))
  · exact (((safe_styled (s := ⟨true, some .cyan⟩) (t := "Tag:".toList) (by decide +kernel)).append
      (safe_styled (by decide +kernel))).append (safe_styled (safe_flatMap safe_hexPair))).append (safe_styled safe_nl)
  · split <;> decide +kernel
  · split <;> decide +kernel

theorem safe_formatLines (f : TlvFormat) : SafeLines (formatLines f.text) :=
  safe_lines_cons (SafeCells.append (safe_styled (s := ⟨true, some .cyan⟩) (t := "TLV Format: ".toList) (by decide +kernel))
    (safe_styled (SafeText.append (by cases f <;> decide +kernel) safe_nl)))
    (safe_lines_cons (safe_styled safe_nl) safe_lines_nil)

/-! ### Error messages -/

theorem safe_messages : ∀ p ∈ messages, SafeText p.2.toList := safe_all (by decide +kernel)

theorem safe_join {a b c d e f : Text} (ha : SafeText a) (hb : SafeText b) (hc : SafeText c) (hd : SafeText d)
    (he : SafeText e) (hf : SafeText f) : SafeText (a ++ b ++ c ++ d ++ e ++ f) :=
  ((((ha.append hb).append hc).append hd).append he).append hf

theorem safe_lengthMessage {how : String} (h : SafeText how.toList) (n k : Nat) : SafeText (lengthMessage how n k) := by
  unfold lengthMessage
  refine safe_join ?_ h ?_ (safe_decimal n) ?_ (safe_decimal k)
  · exact safe_str (by decide +kernel)
  · decide +kernel
  · exact safe_str (by decide +kernel)

theorem safe_message (e : ParseError) : SafeText (message e) := by
  rw [message.eq_def]
  split
  · exact safe_lengthMessage (by decide +kernel) _ _
  · exact safe_lengthMessage (by decide +kernel) _ _
  · exact safe_lengthMessage (by decide +kernel) _ _
  · exact safe_lookup safe_messages _

end Pemv
