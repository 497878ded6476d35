import Verif.Props.Ingenico

/-! # Objects at any level of an Ingenico block -/

namespace Pemv

open Spec

theorem isIngenico_mem {masks : List Char} {s : Text} {rs : List Record} (h : IsIngenico masks s rs) :
    ∀ r ∈ rs, r.WF masks ∧ r.value.length ≤ s.length := by
  induction h with
  | nil => simp
  | last r h =>
    intro r' hr'
    simp only [List.mem_singleton] at hr'
    subst hr'
    exact ⟨h, by have := text_length r'; omega⟩
  | cons r h sep rest rs hrest ih =>
    intro r' hr'
    rcases List.mem_cons.1 hr' with rfl | hr'
    · exact ⟨h, by have := text_length r'; simp; omega⟩
    · obtain ⟨h1, h2⟩ := ih r' hr'
      exact ⟨h1, by simp; omega⟩

theorem record_tag_ne_nil {masks : List Char} {r : Record} (h : r.WF masks) : r.tag ≠ [] := by
  rw [Record.tag, Ne, strip_eq_nil, hexBytes_eq_nil h.tagHex]
  have := h.tagLen
  omega

theorem hexBytes_le (t : Text) : (hexBytes t).length ≤ t.length := by
  rw [hexBytes, List.length_map, hexDecode, pairUp_length]
  have := List.length_filterMap_le hexDigit? t
  omega

theorem record_data_le {masks : List Char} {r : Record} {v : List Byte} (h : r.data masks = .normal v) :
    v.length ≤ r.value.length := by
  rw [Record.data] at h
  split at h
  · cases h
  · split at h
    · cases h; exact hexBytes_le _
    · cases h; simp

/-- An object of an Ingenico block is that of a record, or belongs to the BER-TLV value of one. -/
theorem ing_inBlock {m : Machine} {masks : List Char} {s : Text} (hm : Fits m s.length) {ns : RawEmvBlock}
    (h : ingParse m s masks = .ok ns) {n : RawEmvNode} (hn : InBlock n ns) :
    (∃ r : Record, r.WF masks ∧ n = r.node (fun v => berParse m v masks) masks) ∨
    (∃ bytes b, Fits m bytes.length ∧ berParse m bytes masks = .ok b ∧ InBlock n b) := by
  obtain ⟨-, rs, hrs, rfl⟩ := (c21_language masks s hm ns).1 h
  have hrec : ∀ p ∈ (emvRecords rs).map (Record.node (fun v => berParse m v masks) masks),
      ∃ r : Record, r.WF masks ∧ r.value.length ≤ s.length ∧
        p = r.node (fun v => berParse m v masks) masks := by
    intro p hp
    obtain ⟨r, hr, rfl⟩ := List.mem_map.1 hp
    obtain ⟨h1, h2⟩ := isIngenico_mem hrs r (List.mem_filter.1 hr).1
    exact ⟨r, h1, h2, rfl⟩
  cases hn with
  | here hmem =>
    obtain ⟨r, h1, -, h3⟩ := hrec n hmem
    exact Or.inl ⟨r, h1, h3⟩
  | deep hp hin =>
    obtain ⟨r, h1, h2, rfl⟩ := hrec _ hp
    right
    have nil : ∀ {n : RawEmvNode}, ¬ InBlock n [] := by
      intro n hn
      cases hn with
      | here h => cases h
      | deep h _ => cases h
    have hin' : InBlock n (childrenOf (fun v => berParse m v masks) (typeOf r.tag) (r.data masks)) := hin
    cases ht : typeOf r.tag with
    | primitive => rw [ht] at hin'; exact absurd hin' nil
    | constructed =>
      cases hd : r.data masks with
      | masked => rw [ht, hd] at hin'; exact absurd hin' nil
      | normal v =>
        rw [ht, hd] at hin'
        simp only [childrenOf] at hin'
        split at hin'
        · next b hb => exact ⟨v, b, fits_mono hm (Nat.le_trans (record_data_le hd) h2), hb, hin'⟩
        · exact absurd hin' nil

end Pemv
