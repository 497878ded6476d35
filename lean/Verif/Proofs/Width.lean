import Verif.Proofs.Lines
import Verif.Proofs.Alike

/-!
# Lemmas about the width of lines and the number of characters
-/

namespace Pemv

open Spec

/-! ### Texts -/

/-- A check on the bytes of a string. -/
def shortBytes (k : Nat) (s : String) : Bool := Nat.ble s.toByteArray.data.toList.length k

theorem flatMap_length_ge {α β : Type} (f : α → List β) (hf : ∀ a, 1 ≤ (f a).length) :
    ∀ l : List α, l.length ≤ (l.flatMap f).length
  | [] => Nat.le_refl _
  | a :: l => by
    have h1 := hf a
    have h2 := flatMap_length_ge f hf l
    rw [List.flatMap_cons, List.length_append, List.length_cons]
    omega

theorem short_str {k : Nat} {s : String} (h : shortBytes k s = true) : s.toList.length ≤ k := by
  have e : s.toByteArray.data.toList = s.toList.flatMap String.utf8EncodeChar := by
    rw [← String.utf8Encode_toList, List.utf8Encode]
    simp
  rw [shortBytes, e] at h
  refine Nat.le_trans (flatMap_length_ge String.utf8EncodeChar ?_ s.toList) (Nat.le_of_ble_eq_true h)
  intro c
  rw [String.length_utf8EncodeChar]
  exact c.utf8Size_pos

theorem short_all {α : Type} {k : Nat} {l : List α} {f : α → String} (h : l.all (fun p => shortBytes k (f p)) = true) :
    ∀ p ∈ l, (f p).toList.length ≤ k := fun p hp => short_str (List.all_eq_true.1 h p hp)

theorem short_lookup {α : Type} [BEq α] [LawfulBEq α] {k : Nat} {l : List (α × String)}
    (h : ∀ p ∈ l, p.2.toList.length ≤ k) (x : α) : ((l.lookup x).getD "").toList.length ≤ k := by
  cases hl : l.lookup x with
  | none => exact Nat.zero_le _
  | some t => exact h (x, t) (lookup_mem hl)

theorem short_lookup' {k : Nat} {l : List (Nat × String)} (h : ∀ p ∈ l, p.2.toList.length ≤ k) (x : Nat) :
    ∀ t, l.lookup x = some t → t.toList.length ≤ k := fun t ht => h (x, t) (lookup_mem ht)

theorem short_ite {k : Nat} {p : Prop} [Decidable p] {a b : String} (ha : a.toList.length ≤ k)
    (hb : b.toList.length ≤ k) : (if p then a else b).toList.length ≤ k := by
  split
  · exact ha
  · exact hb

theorem natToTextF_short : ∀ (k fuel n : Nat), n < 10 ^ (k + 1) → (natToTextF fuel n).length ≤ k + 1
  | _, 0, _, _ => by rw [natToTextF]; exact Nat.zero_le _
  | k, fuel + 1, n, h => by
    rw [natToTextF]
    split
    · rw [List.length_singleton]; omega
    · rename_i h10
      cases k with
      | zero => exact absurd h (by simpa using h10)
      | succ k =>
        have := natToTextF_short k fuel (n / 10) (by rw [Nat.pow_succ] at h; omega)
        rw [List.length_append, List.length_singleton]
        omega

/-- A number below ten to the power of `k + 1` has at most `k + 1` digits. -/
theorem decimal_length {k n : Nat} (h : n < 10 ^ (k + 1)) : (decimal n).length ≤ k + 1 := by
  rw [← natToText_decimal]; exact natToTextF_short k _ n h

theorem hexes_length : ∀ bs : List Byte, (bs.flatMap hexPair).length = 2 * bs.length
  | [] => rfl
  | b :: bs => by
    rw [List.flatMap_cons, List.length_append, hexPair_length, hexes_length bs, List.length_cons]
    omega

theorem row_length {bs r : List Byte} (h : r ∈ rowsOf16 bs) : r.length ≤ 16 := by
  obtain ⟨i, -, rfl⟩ := List.mem_map.1 h
  rw [List.length_take]; omega

/-! ### Narrow lines -/

/-- A narrow line. -/
def NarrowLine (l : Line) : Prop := l.cells.length ≤ 250

/-- A document of narrow lines. -/
def NarrowLines (ls : List Line) : Prop := ∀ l ∈ ls, NarrowLine l

theorem narrow_nil : NarrowLines [] := fun _ h => by cases h

theorem NarrowLines.append {a b : List Line} (ha : NarrowLines a) (hb : NarrowLines b) : NarrowLines (a ++ b) := by
  intro l hl
  rcases List.mem_append.1 hl with h | h
  · exact ha l h
  · exact hb l h

theorem narrow_cons {l : Line} {ls : List Line} (h : NarrowLine l) (hs : NarrowLines ls) : NarrowLines (l :: ls) := by
  intro l' hl
  rcases List.mem_cons.1 hl with rfl | hl
  · exact h
  · exact hs l' hl

theorem narrow_deeper {ls : List Line} (h : NarrowLines ls) : NarrowLines (deeper ls) := by
  intro l hl
  obtain ⟨l', hl', rfl⟩ := List.mem_map.1 hl
  exact h l' hl'

theorem narrow_map {α : Type} {l : List α} {f : α → Line} (h : ∀ x ∈ l, NarrowLine (f x)) : NarrowLines (l.map f) := by
  intro l' hl
  obtain ⟨x, hx, rfl⟩ := List.mem_map.1 hl
  exact h x hx

theorem styled_length (s : ColorSpec) (t : Text) : (styled s t).length = t.length := List.length_map _

theorem narrow_styled {i : Option Nat} {s : ColorSpec} {t : Text} (h : t.length ≤ 249) :
    NarrowLine ⟨i, styled s (t ++ ['\n'])⟩ := by
  show (styled s (t ++ ['\n'])).length ≤ 250
  rw [styled_length, List.length_append, List.length_singleton]; omega

theorem narrow_textLine {t : Text} (h : t.length ≤ 249) : NarrowLine (textLine t) := narrow_styled h

theorem narrow_title {t : String} (h : shortBytes 249 t = true) : NarrowLine (title t) := by
  have := short_str h
  show (styled _ (t ++ "\n").toList).length ≤ 250
  rw [styled_length, String.toList_append, List.length_append]
  have e : "\n".toList.length = 1 := by decide
  omega

theorem narrow_of {i : Option Nat} {c : Cells} {s : ColorSpec} {t : Text} (h : c.length + t.length ≤ 249) :
    NarrowLine ⟨i, c ++ styled s (t ++ ['\n'])⟩ := by
  show (c ++ styled s (t ++ ['\n'])).length ≤ 250
  rw [List.length_append, styled_length, List.length_append, List.length_singleton]; omega

theorem narrow_entry {t : String} {r : Text} (h : shortBytes 49 t = true) (hr : r.length ≤ 200) :
    NarrowLine (entry t r) := by
  have := short_str h
  refine narrow_of ?_
  rw [heading, styled_length]; omega

theorem narrow_dump (bs : List Byte) : NarrowLines (dump bs) :=
  narrow_map (fun r hr => narrow_textLine (by
    have h1 := hexRow_length r
    have h2 := row_length hr
    omega))

theorem narrow_dumpWithText (bs : List Byte) : NarrowLines (dumpWithText bs) :=
  narrow_map (fun r hr => narrow_textLine (by
    have h1 := hexRow_length r
    have h2 := row_length hr
    rw [List.length_append, List.length_map, padTo, List.length_append, List.length_replicate]
    omega))

/-! ### Bit-mapped values -/

theorem narrow_drawing {bytes : List Byte} {rs : List Annotation} (hb : bytes.length ≤ 5)
    (h : ∀ r ∈ rs, r.text.length ≤ 200) (colours : Bool) : NarrowLines (drawingLines bytes rs colours) := by
  have hc : ∀ b, column bytes.length b ≤ 45 := by
    intro b; rw [column]; omega
  refine (NarrowLines.append (narrow_cons (narrow_styled ?_) narrow_nil) ?_).append (narrow_map ?_)
  · rw [digitLine, List.length_map, List.length_range]; omega
  · split
    · refine narrow_cons (narrow_textLine ?_) narrow_nil
      rw [header, List.length_map, List.length_range]
      cases rs.getLast? with
      | none => exact Nat.zero_le _
      | some r =>
        have := hc r.right
        show column bytes.length r.right + 1 ≤ 249
        omega
    · exact narrow_nil
  · intro r hr
    refine narrow_of ?_
    have h1 := h r (List.mem_reverse.1 hr)
    have h2 := hc r.left
    rw [plain, styled_length, List.length_append, lead, List.length_map, List.length_range]
    simp only [List.length_cons, List.length_nil]
    omega

theorem short_codeTexts : ∀ p ∈ codeTexts, p.2.toList.length ≤ 100 := short_all (by decide +kernel)

theorem short_unlistedTexts : ∀ p ∈ unlistedTexts, p.2.toList.length ≤ 100 := short_all (by decide +kernel)

theorem bits_lt (b : Byte) (hi lo : Nat) : bits b hi lo < 256 := by
  rw [bits]
  have h1 := b.toNat_lt
  have h2 := Nat.div_le_self b.toNat (2 ^ (lo - 1))
  have h3 := Nat.mod_le (b.toNat / 2 ^ (lo - 1)) (2 ^ (hi + 1 - lo))
  omega

theorem short_valueText (t : Item) {n : Nat} (hn : n < 256) : (t.valueText n).length ≤ 100 := by
  rw [Item.valueText.eq_def]
  split
  · exact Nat.zero_le _
  · have : (decimal n).length ≤ 2 + 1 := decimal_length (by omega)
    omega
  · rename_i codes _
    cases hl : codes.lookup n with
    | none => exact Nat.zero_le _
    | some c => exact short_lookup short_codeTexts c
  · split
    · exact short_lookup short_codeTexts _
    · exact short_lookup short_unlistedTexts _

theorem short_explanation (t : Item) {label : String} (h : label.toList.length ≤ 90) {n : Nat} (hn : n < 256) :
    (t.explanation label n).length ≤ 200 := by
  rw [Item.explanation.eq_def]
  split
  · omega
  · have h1 := short_valueText t hn
    have h2 : ": ".toList.length = 2 := by decide +kernel
    rw [List.length_append, List.length_append]
    omega

theorem short_annotations {labels : List (String × Severity × String)} (h : ∀ p ∈ labels, p.2.2.toList.length ≤ 90)
    (items : List Item) (bs : List Byte) : ∀ r ∈ annotations labels items bs, r.text.length ≤ 200 := by
  intro r hr
  obtain ⟨t, -, rfl⟩ := List.mem_map.1 hr
  rw [Item.annotation.eq_def]
  split
  · rename_i s l hl
    exact short_explanation t (h _ (lookup_mem hl)) (bits_lt ..)
  · exact Nat.zero_le _

theorem narrow_bitLines {labels : List (String × Severity × String)} (h : ∀ p ∈ labels, p.2.2.toList.length ≤ 90)
    (items : List Item) {bs : List Byte} (hb : bs.length ≤ 5) (c : Bool) : NarrowLines (bitLines items labels bs c) :=
  narrow_drawing (by rw [clearUnused_length]; exact hb) (short_annotations h items bs) c

theorem short_tvrLabels : ∀ p ∈ tvrLabels, p.2.2.toList.length ≤ 90 := short_all (by decide +kernel)
theorem short_tsiLabels : ∀ p ∈ tsiLabels, p.2.2.toList.length ≤ 90 := short_all (by decide +kernel)
theorem short_tcLabels : ∀ p ∈ terminalCapabilitiesLabels, p.2.2.toList.length ≤ 90 := short_all (by decide +kernel)
theorem short_atcLabels : ∀ p ∈ additionalTerminalCapabilitiesLabels, p.2.2.toList.length ≤ 90 :=
  short_all (by decide +kernel)
theorem short_cciLabels : ∀ p ∈ cciLabels, p.2.2.toList.length ≤ 90 := short_all (by decide +kernel)
theorem short_cvrLabels : ∀ p ∈ cvrLabels, p.2.2.toList.length ≤ 90 := short_all (by decide +kernel)
theorem short_cvmResultsLabels : ∀ p ∈ cvmResultsLabels, p.2.2.toList.length ≤ 90 := short_all (by decide +kernel)

theorem narrow_iacLines (k : IacKind) {bs : List Byte} (hb : bs.length ≤ 5) : NarrowLines (iacLines k bs) :=
  narrow_cons (narrow_title (by cases k <;> decide +kernel)) (narrow_bitLines short_tvrLabels _ hb _)

theorem narrow_cvmResultsLines (bs : List Byte) (c : Bool) : NarrowLines (cvmResultsLines bs c) := by
  refine narrow_drawing (by rw [cvmResultsBits]; simp) ?_ c
  intro r hr
  obtain ⟨r', hr', rfl⟩ := List.mem_map.1 hr
  have := short_annotations short_cvmResultsLabels cvmResultsItems bs r' hr'
  split
  · exact this
  · exact this

/-! ### Other values -/

theorem narrow_aspect {b l t : String} (h1 : shortBytes 20 b = true) (h2 : shortBytes 30 l = true)
    (h3 : t.toList.length ≤ 150) : NarrowLine (aspect b l t) := by
  have h1 := short_str h1
  have h2 := short_str h2
  refine narrow_of ?_
  rw [List.length_append, plain, bold, styled_length, styled_length, List.length_append, List.length_replicate]
  omega

theorem narrow_serviceCodeLines {a b c : Nat} (ha : a < 1000) (hb : b < 1000) (hc : c < 1000) :
    NarrowLines (serviceCodeLines a b c) := by
  have ha : (decimal a).length ≤ 2 + 1 := decimal_length ha
  have hb : (decimal b).length ≤ 2 + 1 := decimal_length hb
  have hc : (decimal c).length ≤ 2 + 1 := decimal_length hc
  refine narrow_cons (narrow_styled ?_) (narrow_cons (narrow_aspect (by decide +kernel) (by decide +kernel) ?_)
    (narrow_cons (narrow_aspect (by decide +kernel) (by decide +kernel) ?_)
    (narrow_cons (narrow_aspect (by decide +kernel) (by decide +kernel) ?_)
    (narrow_cons (narrow_aspect (by decide +kernel) (by decide +kernel) ?_)
    (narrow_cons (narrow_aspect (by decide +kernel) (by decide +kernel) ?_) narrow_nil)))))
  · rw [List.length_append, List.length_append]; omega
  · exact short_ite (short_str (by decide +kernel)) (short_ite (short_str (by decide +kernel))
      (short_ite (short_str (by decide +kernel)) (short_ite (short_str (by decide +kernel))
        (short_str (by decide +kernel)))))
  · exact short_ite (short_str (by decide +kernel)) (short_ite (short_str (by decide +kernel))
      (short_str (by decide +kernel)))
  · exact short_ite (short_str (by decide +kernel)) (short_ite (short_str (by decide +kernel))
      (short_ite (short_str (by decide +kernel)) (short_str (by decide +kernel))))
  · exact short_ite (short_str (by decide +kernel)) (short_ite (short_str (by decide +kernel))
      (short_ite (short_str (by decide +kernel)) (short_ite (short_str (by decide +kernel))
        (short_str (by decide +kernel)))))
  · exact short_ite (short_str (by decide +kernel)) (short_str (by decide +kernel))

theorem short_codeText (item : String) (codes : List (Nat × String)) (n : Nat) :
    (codeText item codes n).toList.length ≤ 100 := by
  rw [codeText]
  split
  · exact short_lookup short_codeTexts _
  · exact short_lookup short_unlistedTexts _

theorem narrow_ruleAspect {l t : String} (h1 : shortBytes 30 l = true) (h2 : t.toList.length ≤ 100) :
    NarrowLine (ruleAspect l t) := by
  have h1 := short_str h1
  refine narrow_of (t := ' ' :: t.toList) ?_
  rw [bold, styled_length, List.length_cons]; omega

theorem narrow_ruleLines {n : Nat} (hn : n < 10 ^ 20) (p : Byte × Byte) : NarrowLines (ruleLines n p) := by
  have hn : (decimal n).length ≤ 19 + 1 := decimal_length hn
  have e : "CVM ".toList.length = 4 := by decide +kernel
  rw [ruleLines, cvm_colon]
  refine narrow_cons (narrow_styled ?_) (narrow_cons (narrow_ruleAspect (by decide +kernel) (short_codeText _ _ _))
    (narrow_cons (narrow_ruleAspect (by decide +kernel) (short_codeText _ _ _))
    (narrow_cons (narrow_ruleAspect (by decide +kernel) (short_ite (short_str (by decide +kernel))
      (short_str (by decide +kernel)))) narrow_nil)))
  rw [List.length_append, List.length_append, List.length_singleton]; omega

theorem amount_lt (bs : List Byte) (k : Nat) : beValue ((bs.drop k).take 4) < 10 ^ 10 := by
  have h := beValue_lt ((bs.drop k).take 4)
  have h2 : 256 ^ ((bs.drop k).take 4).length ≤ 256 ^ 4 :=
    Nat.pow_le_pow_right (by omega) (by rw [List.length_take]; omega)
  have h3 : (256 : Nat) ^ 4 < 10 ^ 10 := by decide
  omega

theorem narrow_cvmListLines {bs : List Byte} (hb : bs.length < 2 ^ 64) : NarrowLines (cvmListLines bs) := by
  have hx : (decimal (amountX bs)).length ≤ 9 + 1 := decimal_length (by
    have := amount_lt bs 0; rwa [List.drop_zero] at this)
  have hy : (decimal (amountY bs)).length ≤ 9 + 1 := decimal_length (amount_lt bs 4)
  have e : " (implicit decimal point based on application currency)".toList.length ≤ 60 := short_str (by decide +kernel)
  rw [cvmListLines.eq_def]
  refine (NarrowLines.append ?_ (narrow_cons (narrow_title (by decide +kernel)) narrow_nil)).append ?_
  · split
    · refine narrow_cons (narrow_entry (by decide +kernel) ?_)
        (narrow_cons (narrow_entry (by decide +kernel) ?_) narrow_nil)
      · rw [List.length_append, List.length_cons, digitsAtLeast, List.length_append, List.length_replicate]
        omega
      · rw [List.length_cons, digitsAtLeast, List.length_append, List.length_replicate]
        omega
    · exact narrow_nil
  · intro l hl
    obtain ⟨p, hz, hp⟩ := List.mem_flatMap.1 hl
    have h1 := List.snd_lt_add_of_mem_zipIdx hz
    have h2 := pairs_le (bs.drop 8)
    rw [List.length_drop] at h2
    have h3 : (2 : Nat) ^ 64 < 10 ^ 20 := by decide
    exact narrow_ruleLines (by omega) _ l hp

theorem narrow_iadLines (bs : List Byte) (c : Bool) : NarrowLines (iadLines bs c) := by
  rw [iadLines.eq_def]
  have e : " 0x".toList.length = 3 := by decide +kernel
  exact ((((((NarrowLines.append (narrow_cons (narrow_title (by decide +kernel)) narrow_nil)
    (narrow_deeper (narrow_bitLines short_cciLabels _ (by rw [List.length_take]; omega) _))).append
    (narrow_cons (narrow_entry (by decide +kernel) (by rw [List.length_append, hexPair_length]; omega))
      (narrow_cons (narrow_title (by decide +kernel)) narrow_nil))).append
    (narrow_deeper (narrow_bitLines short_cvrLabels _ (by rw [List.length_take]; omega) _))).append
    (narrow_cons (narrow_title (by decide +kernel)) narrow_nil)).append (narrow_deeper (narrow_dump _))).append
    (narrow_cons (narrow_title (by decide +kernel)) narrow_nil)).append (narrow_deeper (narrow_dump _))

theorem narrow_code {o : Option String} (h : ∀ t, o = some t → t.toList.length ≤ 200) {ls : List Line}
    (hl : o.map (fun t => [textLine t.toList]) = some ls) : NarrowLines ls := by
  cases o with
  | none => cases hl
  | some t =>
    cases hl
    have := h t rfl
    exact narrow_cons (narrow_textLine (by omega)) narrow_nil

theorem short_transactionTypes : ∀ p ∈ transactionTypes, p.2.toList.length ≤ 200 := short_all (by decide +kernel)
theorem short_responseCodes : ∀ p ∈ responseCodes, p.2.toList.length ≤ 200 := short_all (by decide +kernel)
theorem short_posEntryModeTexts : ∀ p ∈ posEntryModeTexts, p.2.toList.length ≤ 200 := short_all (by decide +kernel)

theorem short_terminalType (b : Byte) : ∀ t, terminalType b.toNat = some t → t.toList.length ≤ 200 := by
  have : ∀ b : Byte, (match terminalType b.toNat with
      | some t => shortBytes 200 t
      | none => true) = true := by apply forall_byte; decide +kernel
  intro t ht
  have := this b
  rw [ht] at this
  exact short_str this

theorem short_responseText (d : List Byte) : ∀ t, responseText d = some t → t.toList.length ≤ 200 := by
  intro t ht
  rw [responseText.eq_def] at ht
  split at ht
  · split at ht
    · exact short_lookup' short_responseCodes _ t ht
    · cases ht
  · cases ht

theorem narrow_some {x ls : List Line} (h : NarrowLines x) (e : some x = some ls) : NarrowLines ls := by
  cases e; exact h

/-- Every line of a decoded value is narrow. -/
theorem narrow_valueLines {c : Bool} {tag d : List Byte} (ha : Acceptable tag d) (hd : d.length < 2 ^ 64)
    {ls : List Line} (h : valueLines c tag d = some ls) : NarrowLines ls := by
  have byte : ∀ b : Byte, b.toNat % 16 < 1000 ∧ b.toNat / 16 < 1000 := by
    intro b; have := b.toNat_lt; omega
  rw [valueLines] at h
  by_cases g : tag = [0x5F, 0x30]
  · rw [if_pos g] at h
    exact narrow_some (narrow_serviceCodeLines (byte _).1 (byte _).2 (byte _).1) h
  rw [if_neg g] at h; clear g
  by_cases g : tag = [0x8A]
  · rw [if_pos g] at h; exact narrow_code (short_responseText d) h
  rw [if_neg g] at h; clear g
  by_cases g : tag = [0x8E]
  · rw [if_pos g] at h; exact narrow_some (narrow_cvmListLines hd) h
  rw [if_neg g] at h; clear g
  by_cases g : tag = [0x95]
  · rw [if_pos g] at h
    exact narrow_some (narrow_bitLines short_tvrLabels _ (Nat.le_of_eq (ha.h5 (by rw [g]; simp))) _) h
  rw [if_neg g] at h; clear g
  by_cases g : tag = [0x9B]
  · rw [if_pos g] at h
    have := ha.h9B g
    exact narrow_some (narrow_bitLines short_tsiLabels _ (by omega) _) h
  rw [if_neg g] at h; clear g
  by_cases g : tag = [0x9C]
  · rw [if_pos g] at h; exact narrow_code (short_lookup' short_transactionTypes _) h
  rw [if_neg g] at h; clear g
  by_cases g : tag = [0x9F, 0x0D]
  · rw [if_pos g] at h
    exact narrow_some (narrow_iacLines _ (Nat.le_of_eq (ha.h5 (by rw [g]; simp)))) h
  rw [if_neg g] at h; clear g
  by_cases g : tag = [0x9F, 0x0E]
  · rw [if_pos g] at h
    exact narrow_some (narrow_iacLines _ (Nat.le_of_eq (ha.h5 (by rw [g]; simp)))) h
  rw [if_neg g] at h; clear g
  by_cases g : tag = [0x9F, 0x0F]
  · rw [if_pos g] at h
    exact narrow_some (narrow_iacLines _ (Nat.le_of_eq (ha.h5 (by rw [g]; simp)))) h
  rw [if_neg g] at h; clear g
  refine ite_cases h (fun h => ite_cases h (narrow_some (narrow_iadLines _ _)) (fun h => by cases h)) (fun h => ?_)
  by_cases g : tag = [0x9F, 0x33]
  · rw [if_pos g] at h
    have := ha.h9F33 g
    exact narrow_some (narrow_bitLines short_tcLabels _ (by omega) _) h
  rw [if_neg g] at h; clear g
  refine ite_cases h (narrow_some (narrow_cvmResultsLines _ _)) (fun h => ?_)
  refine ite_cases h (narrow_code (short_terminalType _)) (fun h => ?_)
  refine ite_cases h (narrow_code (short_lookup' short_posEntryModeTexts _)) (fun h => ?_)
  by_cases g : tag = [0x9F, 0x40]
  · rw [if_pos g] at h
    exact narrow_some (narrow_bitLines short_atcLabels _ (Nat.le_of_eq (ha.h5 (by rw [g]; simp))) _) h
  rw [if_neg g] at h
  cases h

/-! ### The characters beyond narrow lines -/

/-- The characters of a document that exceed the width of narrow lines. -/
def excess (ls : List Line) : Nat := (ls.map (fun l => l.cells.length - 250)).sum

theorem excess_append (a b : List Line) : excess (a ++ b) = excess a + excess b := by
  rw [excess, List.map_append, List.sum_append]; rfl

theorem excess_cons (l : Line) (ls : List Line) : excess (l :: ls) = (l.cells.length - 250) + excess ls := rfl

theorem excess_narrow {ls : List Line} (h : NarrowLines ls) : excess ls = 0 := by
  induction ls with
  | nil => rfl
  | cons l ls ih =>
    have h1 : l.cells.length ≤ 250 := h l (List.mem_cons_self ..)
    rw [excess_cons, ih (fun x hx => h x (List.mem_cons_of_mem _ hx))]
    omega

theorem excess_deeper (ls : List Line) : excess (deeper ls) = excess ls := by
  rw [excess, excess, deeper, List.map_map]
  rfl

theorem excess_mem {ls : List Line} {l : Line} (h : l ∈ ls) : l.cells.length ≤ 250 + excess ls := by
  induction ls with
  | nil => cases h
  | cons x ls ih =>
    rw [excess_cons]
    rcases List.mem_cons.1 h with rfl | h
    · omega
    · have := ih h; omega

theorem render_length (i : Nat) (l : Line) : (l.render i).length ≤ 255 + l.cells.length := by
  rw [Line.render]
  cases l.indent with
  | none => simp
  | some k =>
    rw [List.length_append, plain, styled_length, tabs, List.length_replicate]
    omega

/-- The characters of a document. -/
theorem show_length (i : Nat) : ∀ ls : List Line, (showLines i ls).length ≤ 505 * ls.length + excess ls
  | [] => Nat.le_refl _
  | l :: ls => by
    have h1 := render_length i l
    have h2 := show_length i ls
    rw [showLines, List.flatMap_cons, List.length_append, excess_cons, List.length_cons]
    rw [showLines] at h2
    omega

/-! ### Blocks -/

theorem short_dictionary : ∀ p ∈ dictionary, p.1.toList.length ≤ 100 := short_all (by decide +kernel)

theorem short_tolerated : ∀ p ∈ tolerated, p.2.2.toList.length ≤ 100 := short_all (by decide +kernel)

theorem short_dictionaryName (tag : List Byte) : ((dictionaryName tag).getD "<Unknown>").toList.length ≤ 100 := by
  rw [dictionaryName]
  cases h : dictionary.find? (fun p => tagBytes p.2 == tag) with
  | none => exact short_str (by decide +kernel)
  | some p => exact short_dictionary p (List.mem_of_find?_eq_some h)

theorem short_shownName (t : RawEmvTag) : ((shownName t).getD "<Unknown>").toList.length ≤ 100 := by
  rw [shownName.eq_def]
  split
  · exact short_dictionaryName _
  · split
    · rename_i h _
      exact short_tolerated _ (lookup_mem h)
    · exact short_dictionaryName _

theorem short_sizeText {d : EmvData} (h : dataLength d < 2 ^ 64) : (sizeText d).length ≤ 30 := by
  rw [sizeText.eq_def]
  split
  · exact short_str (by decide +kernel)
  · split
    · exact short_str (by decide +kernel)
    · rename_i d _
      rw [dataLength] at h
      have h1 : (decimal d.length).length ≤ 19 + 1 := decimal_length (by
        have h3 : (2 : Nat) ^ 64 < 10 ^ 20 := by decide
        omega)
      have h2 : " bytes".toList.length = 6 := by decide +kernel
      rw [List.length_append]; omega

theorem tagLine_length {t : RawEmvTag} (h : dataLength t.data < 2 ^ 64) :
    (tagLine t).cells.length ≤ 250 + 2 * t.tag.length := by
  have h1 := short_shownName t
  have h2 := short_sizeText h
  have e1 : "Tag:".toList.length = 4 := by decide +kernel
  have e2 : " 0x".toList.length = 3 := by decide +kernel
  have e3 : " - ".toList.length = 3 := by decide +kernel
  rw [tagLine, line]
  simp only [List.length_append, heading, plain, bold, styled_length, hexes_length, e1, e2, e3, List.length_cons,
    List.length_nil]
  omega

theorem narrow_rawLines (d : EmvData) : NarrowLines (rawLines d) := by
  rw [rawLines.eq_def]
  split
  · exact narrow_cons (narrow_title (by decide +kernel)) narrow_nil
  · exact narrow_nil
  · exact narrow_cons (narrow_title (by decide +kernel)) (narrow_deeper (narrow_dumpWithText _))

/-- A tag whose value is acceptable and not too large. -/
def FineTag (t : RawEmvTag) : Prop :=
  (∀ d, t.data = .normal d → Acceptable t.tag d) ∧ dataLength t.data < 2 ^ 64

theorem narrow_parsedLines (c : Bool) {t : RawEmvTag} (h : FineTag t) : NarrowLines (parsedLines c t) := by
  rw [parsedLines.eq_def]
  split
  · exact narrow_nil
  · rename_i d hd
    split
    · rename_i hv
      refine narrow_cons (narrow_title (by decide +kernel)) (narrow_deeper (narrow_valueLines (h.1 d hd) ?_ hv))
      have := h.2
      rw [hd] at this
      exact this
    · exact narrow_nil

theorem narrow_blank : NarrowLine ⟨none, plain ['\n']⟩ := by show 1 ≤ 250; omega

theorem own_excess (c : Bool) {t : RawEmvTag} (h : FineTag t) :
    excess ([tagLine t] ++ rawLines t.data ++ parsedLines c t) ≤ 2 * t.tag.length := by
  have h1 := tagLine_length h.2
  rw [excess_append, excess_append, excess_narrow (narrow_rawLines _), excess_narrow (narrow_parsedLines c h),
    excess_cons, show excess [] = 0 from rfl]
  omega

/-- The bytes of the tags. -/
def tagSum (ts : List RawEmvTag) : Nat := (ts.map (fun t => t.tag.length)).sum

theorem tagSum_append (a b : List RawEmvTag) : tagSum (a ++ b) = tagSum a + tagSum b := by
  rw [tagSum, List.map_append, List.sum_append]; rfl

theorem tagSum_cons (t : RawEmvTag) (ts : List RawEmvTag) : tagSum (t :: ts) = t.tag.length + tagSum ts := rfl

mutual
theorem node_excess (c : Bool) : ∀ n : RawEmvNode, (∀ t ∈ nodeTags n, FineTag t) →
    excess (nodeLines c n) ≤ 2 * tagSum (nodeTags n)
  | .mk t [], h => by
    have h1 := own_excess c (h t (by rw [nodeTags]; simp))
    rw [nodeLines.eq_def, nodeTags, tagSum_cons]
    simp only [List.append_nil]
    omega
  | .mk t (n :: ns), h => by
    have h1 := own_excess c (h t (by rw [nodeTags]; simp))
    have h2 := node_excess c n (fun x hx => h x (by rw [nodeTags, blockTags]; simp [hx]))
    have h3 := more_excess c ns (fun x hx => h x (by rw [nodeTags, blockTags]; simp [hx]))
    have h4 : NarrowLine (title "Constructed Data Object's Child Tags:") := narrow_title (by decide +kernel)
    rw [NarrowLine] at h4
    rw [nodeLines.eq_def, nodeTags, tagSum_cons, blockTags, tagSum_append]
    simp only
    rw [excess_append, excess_cons, excess_deeper, excess_append (nodeLines c n)]
    omega
theorem more_excess (c : Bool) : ∀ b : List RawEmvNode, (∀ t ∈ blockTags b, FineTag t) →
    excess (moreLines c b) ≤ 2 * tagSum (blockTags b)
  | [], _ => by rw [moreLines]; exact Nat.zero_le _
  | n :: ns, h => by
    have h2 := node_excess c n (fun x hx => h x (by rw [blockTags]; simp [hx]))
    have h3 := more_excess c ns (fun x hx => h x (by rw [blockTags]; simp [hx]))
    have h4 : excess [⟨none, plain ['\n']⟩] = 0 := excess_narrow (narrow_cons narrow_blank narrow_nil)
    rw [moreLines, blockTags, tagSum_append, excess_append, excess_append, h4]
    omega
end

theorem block_excess (c : Bool) (b : List RawEmvNode) (h : ∀ t ∈ blockTags b, FineTag t) :
    excess (blockLines c b) ≤ 2 * tagSum (blockTags b) := by
  cases b with
  | nil => exact Nat.zero_le _
  | cons n ns =>
    have h2 := node_excess c n (fun x hx => h x (by rw [blockTags]; simp [hx]))
    have h3 := more_excess c ns (fun x hx => h x (by rw [blockTags]; simp [hx]))
    rw [blockLines, blockTags, tagSum_append, excess_append]
    omega

mutual
theorem node_tagSum : ∀ n : RawEmvNode, SnugNode n → tagSum (nodeTags n) ≤ nodeWeight n * nodeDepth n
  | .mk t c, h => by
    rw [SnugNode] at h
    have h1 := block_tagSum c h.2.2
    have h2 : blockWeight c * blockDepth c ≤ dataLength t.data * blockDepth c := Nat.mul_le_mul_right _ h.2.1
    rw [nodeTags, tagSum_cons, nodeDepth, nodeWeight, RawEmvNode.tag, Nat.mul_add, Nat.mul_one]
    have h3 : dataLength t.data * blockDepth c ≤ (t.tag.length + 1 + dataLength t.data) * blockDepth c :=
      Nat.mul_le_mul_right _ (by omega)
    omega
theorem block_tagSum : ∀ b : List RawEmvNode, SnugBlock b → tagSum (blockTags b) ≤ blockWeight b * blockDepth b
  | [], _ => Nat.zero_le _
  | n :: ns, h => by
    rw [SnugBlock] at h
    have h1 := node_tagSum n h.1
    have h2 := block_tagSum ns h.2
    rw [blockTags, tagSum_append, blockWeight, blockDepth, Nat.add_mul]
    have e1 : nodeWeight n * nodeDepth n ≤ nodeWeight n * max (nodeDepth n) (blockDepth ns) :=
      Nat.mul_le_mul_left _ (Nat.le_max_left _ _)
    have e2 : blockWeight ns * blockDepth ns ≤ blockWeight ns * max (nodeDepth n) (blockDepth ns) :=
      Nat.mul_le_mul_left _ (Nat.le_max_right _ _)
    omega
end

mutual
theorem node_dataLength : ∀ n : RawEmvNode, SnugNode n → ∀ t ∈ nodeTags n,
    t.tag.length + dataLength t.data ≤ nodeWeight n
  | .mk t c, h, x, hx => by
    rw [SnugNode] at h
    rw [nodeTags] at hx
    rw [nodeWeight, RawEmvNode.tag]
    rcases List.mem_cons.1 hx with rfl | hx
    · omega
    · have := block_dataLength c h.2.2 x hx
      omega
theorem block_dataLength : ∀ b : List RawEmvNode, SnugBlock b → ∀ t ∈ blockTags b,
    t.tag.length + dataLength t.data ≤ blockWeight b
  | [], _, x, hx => by rw [blockTags] at hx; cases hx
  | n :: ns, h, x, hx => by
    rw [SnugBlock] at h
    rw [blockTags] at hx
    rw [blockWeight]
    rcases List.mem_append.1 hx with hx | hx
    · have := node_dataLength n h.1 x hx; omega
    · have := block_dataLength ns h.2 x hx; omega
end

mutual
theorem nodeTags_levels (d : Nat) : ∀ n : RawEmvNode, nodeTags n = (nodeLevels d n).map Prod.snd
  | .mk t c => by rw [nodeTags, nodeLevels, List.map_cons, blockTags_levels (d + 1) c]
theorem blockTags_levels (d : Nat) : ∀ b : List RawEmvNode, blockTags b = (blockLevels d b).map Prod.snd
  | [] => by rw [blockTags, blockLevels]; rfl
  | n :: ns => by rw [blockTags, blockLevels, List.map_append, nodeTags_levels d n, blockTags_levels d ns]
end

theorem arranged_tags {sort : Bool} {b b' : List RawEmvNode} (h : Arranged sort b b') :
    (blockTags b').Perm (blockTags b) := by
  rw [blockTags_levels 0, blockTags_levels 0]
  exact (arranged_levels 0 h).map _

theorem arranged_tagSum {sort : Bool} {b b' : List RawEmvNode} (h : Arranged sort b b') :
    tagSum (blockTags b') = tagSum (blockTags b) :=
  ((arranged_tags h).map _).sum_nat

/-! ### The width of every line -/

/-- Lines that exceed the width of narrow lines by at most `k`. -/
def WithinLines (k : Nat) (ls : List Line) : Prop := ∀ l ∈ ls, l.cells.length ≤ 250 + k

theorem NarrowLines.within {ls : List Line} (h : NarrowLines ls) (k : Nat) : WithinLines k ls :=
  fun l hl => Nat.le_trans (h l hl) (Nat.le_add_right _ _)

theorem WithinLines.append {k : Nat} {a b : List Line} (ha : WithinLines k a) (hb : WithinLines k b) :
    WithinLines k (a ++ b) := by
  intro l hl
  rcases List.mem_append.1 hl with h | h
  · exact ha l h
  · exact hb l h

theorem within_deeper {k : Nat} {ls : List Line} (h : WithinLines k ls) : WithinLines k (deeper ls) := by
  intro l hl
  obtain ⟨l', hl', rfl⟩ := List.mem_map.1 hl
  exact h l' hl'

theorem within_own (c : Bool) {k : Nat} {t : RawEmvTag} (h : FineTag t) (hk : 2 * t.tag.length ≤ k) :
    WithinLines k ([tagLine t] ++ rawLines t.data ++ parsedLines c t) := by
  refine (WithinLines.append ?_ ((narrow_rawLines _).within k)).append ((narrow_parsedLines c h).within k)
  intro l hl
  rw [List.mem_singleton] at hl
  have := tagLine_length h.2
  rw [hl]; omega

mutual
theorem within_nodeLines (c : Bool) {k : Nat} : ∀ n : RawEmvNode,
    (∀ t ∈ nodeTags n, FineTag t ∧ 2 * t.tag.length ≤ k) → WithinLines k (nodeLines c n)
  | .mk t [], h => by
    have h1 := h t (by rw [nodeTags]; simp)
    rw [nodeLines.eq_def]
    simp only [List.append_nil]
    exact within_own c h1.1 h1.2
  | .mk t (n :: ns), h => by
    have h1 := h t (by rw [nodeTags]; simp)
    rw [nodeLines.eq_def]
    exact (within_own c h1.1 h1.2).append (WithinLines.append (a := [title _])
      ((narrow_cons (narrow_title (by decide +kernel)) narrow_nil).within k) (within_deeper
        ((within_nodeLines c n (fun x hx => h x (by rw [nodeTags, blockTags]; simp [hx]))).append
          (within_moreLines c ns (fun x hx => h x (by rw [nodeTags, blockTags]; simp [hx]))))))
theorem within_moreLines (c : Bool) {k : Nat} : ∀ b : List RawEmvNode,
    (∀ t ∈ blockTags b, FineTag t ∧ 2 * t.tag.length ≤ k) → WithinLines k (moreLines c b)
  | [], _ => by rw [moreLines]; exact narrow_nil.within k
  | n :: ns, h => by
    rw [moreLines]
    exact (WithinLines.append ((narrow_cons narrow_blank narrow_nil).within k)
      (within_nodeLines c n (fun x hx => h x (by rw [blockTags]; simp [hx])))).append
      (within_moreLines c ns (fun x hx => h x (by rw [blockTags]; simp [hx])))
end

theorem within_blockLines (c : Bool) {k : Nat} (b : List RawEmvNode)
    (h : ∀ t ∈ blockTags b, FineTag t ∧ 2 * t.tag.length ≤ k) : WithinLines k (blockLines c b) := by
  cases b with
  | nil => exact narrow_nil.within k
  | cons n ns =>
    exact (within_nodeLines c n (fun x hx => h x (by rw [blockTags]; simp [hx]))).append
      (within_moreLines c ns (fun x hx => h x (by rw [blockTags]; simp [hx])))

/-! ### Documents -/

theorem identify_split (tag : List Byte) : ∃ l a b, identifyLines tag = a ++ [l] ++ b ∧ NarrowLines a ∧ NarrowLines b ∧
    l.cells.length ≤ 250 + 2 * tag.length := by
  have h1 := short_dictionaryName tag
  have e1 : "             ".toList.length = 13 := by decide +kernel
  have e2 : "              0x".toList.length = 16 := by decide +kernel
  have e3 : "Tag:".toList.length = 4 := by decide +kernel
  have e4 : "            ".toList.length = 12 := by decide +kernel
  rw [identifyLines.eq_def]
  refine ⟨_, [_], _, rfl, narrow_cons (narrow_entry (by decide +kernel) ?_) narrow_nil,
    narrow_cons (narrow_entry (by decide +kernel) ?_) (narrow_cons (narrow_entry (by decide +kernel) ?_) narrow_nil), ?_⟩
  · rw [List.length_append]; omega
  · rw [List.length_append]
    have : ∀ s : String, s.toList.length ≤ 100 → "            ".toList.length + s.toList.length ≤ 200 := by
      intro s hs; omega
    split <;> exact this _ (short_str (by decide +kernel))
  · split <;> exact short_str (by decide +kernel)
  · rw [line]
    simp only [List.length_append, heading, plain, bold, styled_length, hexes_length, e2, e3, List.length_cons,
      List.length_nil]
    omega

theorem narrow_hexReport {op : Operation} {bs : List Byte} {ls : List Line} (hb : bs.length < 2 ^ 64)
    (h : hexReport op bs = .ok ls) : NarrowLines ls ∨ ls = identifyLines bs := by
  rw [hexReport.eq_def] at h
  split at h
  · split at h
    · rename_i h5; cases h; exact Or.inl (narrow_bitLines short_tvrLabels _ (Nat.le_of_eq h5) _)
    · cases h
  · split at h
    · cases h; exact Or.inl (narrow_iadLines _ _)
    · cases h
  · split at h
    · rename_i h5; cases h; exact Or.inl (narrow_bitLines short_cvrLabels _ (Nat.le_of_eq h5) _)
    · cases h
  · split at h
    · rename_i h2; cases h; exact Or.inl (narrow_bitLines short_tsiLabels _ (by omega) _)
    · cases h
  · split at h
    · cases h
    · split at h
      · cases h
      · cases h; exact Or.inl (narrow_cvmResultsLines _ _)
  · split at h
    · cases h
    · split at h
      · cases h
      · cases h; exact Or.inl (narrow_cvmListLines hb)
  · split at h
    · cases h
    · cases h; exact Or.inr rfl
  · cases h

theorem hexReport_excess {op : Operation} {bs : List Byte} {ls : List Line} (hb : bs.length < 2 ^ 64)
    (h : hexReport op bs = .ok ls) : excess ls ≤ 2 * bs.length ∧ WithinLines (2 * bs.length) ls := by
  rcases narrow_hexReport hb h with hn | rfl
  · rw [excess_narrow hn]; exact ⟨Nat.zero_le _, hn.within _⟩
  · obtain ⟨l, a, b, e, ha, hb, hl⟩ := identify_split bs
    rw [e, excess_append, excess_append, excess_narrow ha, excess_narrow hb, excess_cons, show excess [] = 0 from rfl]
    refine ⟨by omega, ((ha.within _).append ?_).append (hb.within _)⟩
    intro l' hl'
    rw [List.mem_singleton] at hl'
    rw [hl']; exact hl

theorem narrow_headerLines (f : Option TlvFormat) : NarrowLines (headerLines f) := by
  cases f with
  | none => exact narrow_nil
  | some f =>
    refine narrow_cons (narrow_of ?_) (narrow_cons narrow_blank narrow_nil)
    have h1 : "TLV Format: ".toList.length = 12 := by decide +kernel
    have h2 : f.text.toList.length ≤ 100 := short_str (by cases f <;> decide +kernel)
    rw [heading, styled_length]
    omega

theorem arranged_fine {m : Machine} {masks : List Char} {sort : Bool} {op : Operation} {s : Text} {f : Option TlvFormat}
    {b b' : List RawEmvNode} (hm : Fits m s.length) (h64 : s.length < 2 ^ 64)
    (h : tlvParse m masks op s = .ok (f, b)) (ha : AllAcceptable b) (hb : Arranged sort b b') :
    ∀ t ∈ blockTags b', FineTag t ∧ 2 * t.tag.length ≤ 2 * s.length := by
  intro t ht
  have ht := (arranged_tags hb).mem_iff.1 ht
  obtain ⟨h1, h2⟩ := tlv_snug masks op s hm _ _ h
  have := block_dataLength b h1 t ht
  exact ⟨⟨ha t ht, by omega⟩, by omega⟩

theorem block_document_excess {m : Machine} {masks : List Char} {sort : Bool} {op : Operation} {s : Text}
    {f : Option TlvFormat} {b b' : List RawEmvNode} (hm : Fits m s.length) (h64 : s.length < 2 ^ 64)
    (h : tlvParse m masks op s = .ok (f, b)) (ha : AllAcceptable b) (hb : Arranged sort b b') :
    excess (headerLines f ++ blockLines true b') ≤ 2 * (blockWeight b * blockDepth b) := by
  have h1 := block_excess true b' (fun t ht => (arranged_fine hm h64 h ha hb t ht).1)
  have h2 := block_tagSum b (tlv_snug masks op s hm _ _ h).1
  rw [arranged_tagSum hb] at h1
  rw [excess_append, excess_narrow (narrow_headerLines f)]
  omega

/-- The characters of a document beyond narrow lines. -/
theorem document_excess {m : Machine} {masks : List Char} {sort : Bool} {op : Operation} {s : Text} {ls : List Line}
    (hm : Fits m s.length) (h64 : s.length < 2 ^ 64) (h : IsDocument m masks sort op s ls) :
    excess ls ≤ s.length * s.length := by
  cases h with
  | nothing => exact Nat.zero_le _
  | hex h =>
    have h2 := hexBytes_length_le s
    have h1 := (hexReport_excess (by omega) h).1
    have h3 : s.length ≤ s.length * s.length := Nat.le_mul_self _
    omega
  | serviceCode =>
    rw [excess_narrow (narrow_serviceCodeLines (by omega) (by omega) (by omega))]
    exact Nat.zero_le _
  | @block _ _ f b b' h ha hb =>
    obtain ⟨h1, h2⟩ := tlv_snug masks op s hm _ _ h
    have h3 := block_document_excess hm h64 h ha hb
    have h4 := snug_blockDepth _ h1
    have h5 := Nat.mul_le_mul h2 h2
    have h6 : blockWeight b * (2 * blockDepth b) ≤ blockWeight b * blockWeight b := Nat.mul_le_mul_left _ h4
    rw [Nat.mul_left_comm] at h6
    omega

/-- The width of the lines of a document. -/
theorem document_within {m : Machine} {masks : List Char} {sort : Bool} {op : Operation} {s : Text} {ls : List Line}
    (hm : Fits m s.length) (h64 : s.length < 2 ^ 64) (h : IsDocument m masks sort op s ls) :
    WithinLines (2 * s.length) ls := by
  cases h with
  | nothing => exact narrow_nil.within _
  | hex h =>
    have h2 := hexBytes_length_le s
    intro l hl
    have := (hexReport_excess (by omega) h).2 l hl
    omega
  | serviceCode => exact (narrow_serviceCodeLines (by omega) (by omega) (by omega)).within _
  | block h ha hb =>
    exact ((narrow_headerLines _).within _).append (within_blockLines true _ (arranged_fine hm h64 h ha hb))

/-! ### Cutting -/

theorem cutLines_prefix : ∀ {a b : Text}, a <+: b → ∀ (i : Nat) (l : Text), (cutLines a)[i]? = some l →
    ∃ l', (cutLines b)[i]? = some l' ∧ l <+: l'
  | [], _, _, i, l, hl => by simp [cutLines] at hl
  | c :: a, [], h, _, _, _ => by simp at h
  | c :: a, d :: b, h, i, l, hl => by
    rw [List.cons_prefix_cons] at h
    obtain ⟨rfl, h⟩ := h
    have ih := cutLines_prefix h
    rw [cutLines] at hl ⊢
    by_cases hc : c = '\n'
    · rw [if_pos hc] at hl ⊢
      cases i with
      | zero => exact ⟨l, hl, List.prefix_refl _⟩
      | succ i => exact ih i l hl
    · rw [if_neg hc] at hl ⊢
      cases ha : cutLines a with
      | nil =>
        rw [ha] at hl
        cases i with
        | succ i => cases hl
        | zero =>
          cases hl
          cases hb : cutLines b with
          | nil => exact ⟨_, rfl, List.prefix_refl _⟩
          | cons y ys => exact ⟨_, rfl, by simp⟩
      | cons x xs =>
        rw [ha] at hl ih
        obtain ⟨y, hy, hxy⟩ := ih 0 x rfl
        cases hb : cutLines b with
        | nil => rw [hb] at hy; cases hy
        | cons y' ys =>
          rw [hb] at hy ih
          cases hy
          cases i with
          | zero => cases hl; exact ⟨_, rfl, by simpa using hxy⟩
          | succ i => exact ih (i + 1) l hl

/-! ### The bound is of the right order -/

theorem nest_length_ge (d : Nat) : 2 * (d + 1) ≤ (nest d).encode.length := by
  induction d with
  | zero => decide
  | succ d ih =>
    have h4 : encodeAll [nest d] = (nest d).encode := by simp [encodeAll]
    have h5 : 1 ≤ (encodeLength (nest d).encode.length).length := by
      rw [encodeLength]; split <;> simp
    rw [nest, Obj.encode, h4, List.length_append, List.length_append, List.length_singleton]
    omega

theorem nest_lines (c : Bool) (d : Nat) : d * d ≤ 16 * (nodeLines c (nest d).node).length := by
  induction d with
  | zero => exact Nat.zero_le _
  | succ d ih =>
    have h4 : encodeAll [nest d] = (nest d).encode := by simp [encodeAll]
    have h5 := nest_length_ge d
    have h6 : (rawLines (.normal (nest d).encode)).length = 1 + ((nest d).encode.length + 15) / 16 := by
      cases he : (nest d).encode with
      | nil => rw [he] at h5; simp at h5
      | cons b bs =>
        rw [rawLines.eq_def]
        simp only [List.length_cons, deeper_length, dumpWithText_length]
        omega
    rw [nest, Obj.node, nodes, nodes, nodeLines.eq_def, h4]
    simp only [List.length_append, List.length_cons, List.length_nil, deeper_length, h6]
    rw [Nat.add_mul, Nat.mul_add]
    omega

end Pemv
