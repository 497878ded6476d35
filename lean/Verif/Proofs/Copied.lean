import Verif.Spec.Copied
import Verif.Proofs.Breaks
import Verif.Proofs.Whole

/-!
# Lemmas for C110: what is copied from a dump
-/

namespace Pemv

open Spec

/-- The digits of bytes. -/
def nibbles (bs : List Byte) : List Nat := bs.flatMap (fun b => [b.toNat / 16, b.toNat % 16])

theorem nibbles_length (bs : List Byte) : (nibbles bs).length = 2 * bs.length := by
  induction bs with
  | nil => rfl
  | cons b bs ih =>
    have e : nibbles (b :: bs) = b.toNat / 16 :: b.toNat % 16 :: nibbles bs := rfl
    rw [e, List.length_cons, List.length_cons, ih, List.length_cons]
    omega

theorem nibbles_append (a b : List Byte) : nibbles (a ++ b) = nibbles a ++ nibbles b := List.flatMap_append

theorem readable_digit (b : Byte) : hexDigit? (readable b) = digitOfByte b := by
  revert b; apply forall_byte; decide +kernel

theorem readable_digits (r : List Byte) : (r.map readable).filterMap hexDigit? = r.filterMap digitOfByte := by
  rw [List.filterMap_map]
  congr 1
  funext b
  exact readable_digit b

theorem spaces_digits (n : Nat) : (List.replicate n ' ').filterMap hexDigit? = [] := by
  rw [List.filterMap_eq_nil_iff]
  intro c hc
  rw [List.eq_of_mem_replicate hc]; rfl

theorem rowText_digits (i : Nat) (r : List Byte) :
    (rowText i r).filterMap hexDigit? = nibbles r ++ r.filterMap digitOfByte := by
  rw [rowText, List.filterMap_append, tabs_digits, List.filterMap_append, List.filterMap_append, padTo,
    List.filterMap_append, hexRow_digits, spaces_digits, readable_digits, List.append_nil, List.nil_append]
  have : ['\n'].filterMap hexDigit? = [] := rfl
  rw [this, List.append_nil]; rfl

/-- The digits of the lines of a dump. -/
def lineDigits (rows : List (List Byte)) : List Nat := rows.flatMap (fun r => nibbles r ++ r.filterMap digitOfByte)

theorem lineDigits_append (a b : List (List Byte)) : lineDigits (a ++ b) = lineDigits a ++ lineDigits b :=
  List.flatMap_append

theorem lineDigits_cons (a : List Byte) (b : List (List Byte)) :
    lineDigits (a :: b) = nibbles a ++ a.filterMap digitOfByte ++ lineDigits b := by
  rw [lineDigits, List.flatMap_cons]; rfl

theorem seenDump_eq (i : Nat) (hi : i < 256) (d : List Byte) : seenDump i d = (rowsOf16 d).flatMap (rowText i) :=
  dump_text i hi d

theorem seenDump_digits (i : Nat) (hi : i < 256) (d : List Byte) :
    (seenDump i d).filterMap hexDigit? = lineDigits (rowsOf16 d) := by
  rw [seenDump_eq i hi]
  induction rowsOf16 d with
  | nil => rfl
  | cons r rows ih => rw [List.flatMap_cons, List.filterMap_append, rowText_digits, ih, lineDigits_cons]

theorem lineDigits_none {rows : List (List Byte)} (h : ∀ r ∈ rows, ∀ b ∈ r, digitOfByte b = none) :
    lineDigits rows = nibbles rows.flatten := by
  induction rows with
  | nil => rfl
  | cons r rows ih =>
    rw [lineDigits_cons, ih (fun x hx => h x (List.mem_cons_of_mem _ hx)), List.flatten_cons, nibbles_append,
      List.filterMap_eq_nil_iff.2 (h r (List.mem_cons_self ..)), List.append_nil]

theorem lineDigits_length (rows : List (List Byte)) :
    (lineDigits rows).length = 2 * rows.flatten.length + (rows.flatten.filterMap digitOfByte).length := by
  induction rows with
  | nil => rfl
  | cons r rows ih =>
    rw [lineDigits_cons, List.length_append, List.length_append, ih, nibbles_length, List.flatten_cons,
      List.filterMap_append, List.length_append, List.length_append]
    omega

/-- Bytes shifted by one digit are the same bytes only if all their digits are that digit. -/
theorem pairUp_shifted (v : Nat) (bs : List Byte) :
    pairUp (v :: nibbles bs) = bs.map UInt8.toNat ↔ ∀ b ∈ bs, b.toNat = 17 * v := by
  induction bs with
  | nil => simp [nibbles, pairUp]
  | cons b bs ih =>
    have e : v :: nibbles (b :: bs) = v :: (b.toNat / 16) :: (b.toNat % 16) :: nibbles bs := rfl
    rw [e, pairUp, List.map_cons, List.cons.injEq, List.forall_mem_cons]
    have hb : b.toNat < 256 := b.toNat_lt
    constructor
    · rintro ⟨h1, h2⟩
      have h3 : b.toNat = 17 * v ∧ b.toNat % 16 = v := by omega
      rw [h3.2] at h2
      exact ⟨h3.1, ih.1 h2⟩
    · rintro ⟨h1, h2⟩
      have h3 : b.toNat % 16 = v := by omega
      rw [h3]
      exact ⟨by omega, ih.2 h2⟩

/-- A list of lines with one digit in the text. -/
theorem one_digit {rows : List (List Byte)} {v : Nat} (h : rows.flatten.filterMap digitOfByte = [v]) :
    ∃ above line below, rows = above ++ line :: below ∧ line.filterMap digitOfByte = [v] ∧
      (∀ r ∈ above, ∀ b ∈ r, digitOfByte b = none) ∧ ∀ r ∈ below, ∀ b ∈ r, digitOfByte b = none := by
  induction rows with
  | nil => cases h
  | cons r rows ih =>
    rw [List.flatten_cons, List.filterMap_append] at h
    rcases List.append_eq_cons_iff.1 h with ⟨h1, h2⟩ | ⟨l, h1, h2⟩
    · obtain ⟨a, l, b, rfl, hl, ha, hb⟩ := ih h2
      refine ⟨r :: a, l, b, rfl, hl, fun x hx => ?_, hb⟩
      rcases List.mem_cons.1 hx with rfl | hx
      · exact List.filterMap_eq_nil_iff.1 h1
      · exact ha x hx
    · obtain ⟨rfl, h3⟩ := List.append_eq_nil_iff.1 h2.symm
      refine ⟨[], r, rows, rfl, h1, (fun x hx => nomatch hx), fun x hx b hb => ?_⟩
      exact List.filterMap_eq_nil_iff.1 h3 b (List.mem_flatten.2 ⟨x, hx, hb⟩)

theorem pairUp_lines {above below : List (List Byte)} {line : List Byte} {v : Nat}
    (hl : line.filterMap digitOfByte = [v]) (ha : ∀ r ∈ above, ∀ b ∈ r, digitOfByte b = none)
    (hb : ∀ r ∈ below, ∀ b ∈ r, digitOfByte b = none) :
    pairUp (lineDigits (above ++ line :: below)) = (above ++ line :: below).flatten.map UInt8.toNat ↔
      ∀ r ∈ below, ∀ b ∈ r, b.toNat = 17 * v := by
  rw [lineDigits_append, lineDigits_none ha, lineDigits_cons, lineDigits_none hb, hl, List.flatten_append,
    List.flatten_cons, List.append_assoc, ← List.append_assoc, ← nibbles_append, List.singleton_append,
    pairUp_append _ _ (by rw [nibbles_length]; omega), show pairUp (nibbles _) = _ from pairUp_nibbles _,
    ← List.append_assoc, List.map_append (l₂ := below.flatten), List.append_cancel_left_eq, pairUp_shifted]
  constructor
  · exact fun h r hr b hb => h b (List.mem_flatten.2 ⟨r, hr, hb⟩)
  · intro h b hb
    obtain ⟨r, hr, hb⟩ := List.mem_flatten.1 hb
    exact h r hr b hb

theorem whole_lines (i : Nat) (hi : i < 256) (d : List Byte) :
    hexDecode (seenDump i d) = d.map UInt8.toNat ↔ WholeLinesDo d := by
  rw [hexDecode, seenDump_digits i hi, WholeLinesDo]
  have hf := rowsOf16_flatten d
  constructor
  · intro h
    have hlen := congrArg List.length h
    rw [pairUp_length, lineDigits_length, List.length_map, hf] at hlen
    rcases he : d.filterMap digitOfByte with _ | ⟨v, l⟩
    · exact Or.inl (List.filterMap_eq_nil_iff.1 he)
    · rw [he, List.length_cons] at hlen
      have : l = [] := List.eq_nil_of_length_eq_zero (by omega)
      subst this
      rw [← hf] at he
      obtain ⟨a, l, b, hr, hl, ha, hb⟩ := one_digit he
      refine Or.inr ⟨a, l, b, v, hr, hl, ha, fun r hx y hy => ⟨hb r hx y hy, ?_⟩⟩
      rw [hr] at hf h
      rw [← hf] at h
      exact (pairUp_lines hl ha hb).1 h r hx y hy
  · rintro (h | ⟨a, l, b, v, hr, hl, ha, hb⟩)
    · rw [lineDigits_none, hf]
      · exact pairUp_nibbles d
      · intro r hr b hb
        exact h b (by rw [← hf]; exact List.mem_flatten.2 ⟨r, hr, hb⟩)
    · have := (pairUp_lines hl ha (fun r hx y hy => (hb r hx y hy).1)).2 (fun r hx y hy => (hb r hx y hy).2)
      rw [← hr, hf] at this
      exact this

/-! ### The columns -/

theorem columnsFrom_tabs (k i : Nat) (t : Text) : columnsFrom k (tabs i ++ t) = tabs i ++ columnsFrom k t := by
  induction i with
  | zero => rfl
  | succ i ih =>
    have e : tabs (i + 1) = '\t' :: tabs i := rfl
    rw [e, List.cons_append, columnsFrom, if_neg (by decide), if_pos rfl, ih]; rfl

theorem columnsFrom_line (k : Nat) (l : Text) (hl : Inline l) (t : Text) :
    columnsFrom k (l ++ '\n' :: t) = l.take (47 - k) ++ '\n' :: columnsFrom 0 t := by
  induction l generalizing k with
  | nil => rw [List.nil_append, columnsFrom, if_pos rfl, List.take_nil]; rfl
  | cons c l ih =>
    obtain ⟨h1, h2⟩ := hl c (List.mem_cons_self ..)
    rw [List.cons_append, columnsFrom, if_neg h1, if_neg h2, ih _ (fun x hx => hl x (List.mem_cons_of_mem _ hx))]
    split
    · obtain ⟨j, hj⟩ : ∃ j, 47 - k = j + 1 := ⟨46 - k, by omega⟩
      rw [hj, List.take_succ_cons, show 47 - (k + 1) = j by omega]; rfl
    · rw [show 47 - (k + 1) = 0 by omega, show 47 - k = 0 by omega]; rfl

theorem columns_row (r : List Byte) (hr : r.length ≤ 16) (hne : r ≠ []) :
    (padTo 49 (hexRow r) ++ r.map readable).take 47 =
      hexRow r ++ List.replicate (47 - (hexRow r).length) ' ' := by
  have hl := hexRow_length r
  have hp := List.length_pos_iff.2 hne
  rw [padTo, List.append_assoc, List.take_append, List.take_of_length_le (by omega)]
  congr 1
  rw [List.take_append, List.take_replicate, List.length_replicate,
    show 47 - (hexRow r).length - (49 - (hexRow r).length) = 0 by omega, List.take_zero, List.append_nil]
  congr 1
  omega

theorem inline_row (r : List Byte) : Inline (padTo 49 (hexRow r) ++ r.map readable) :=
  Inline.append (Inline.append (inline_hexRow r) (inline_replicate _ (by decide))) (inline_map inline_readable)

theorem columns_seen (i : Nat) (hi : i < 256) (d : List Byte) : hexColumns (seenDump i d) =
    (rowsOf16 d).flatMap (fun r => tabs i ++ (hexRow r ++ List.replicate (47 - (hexRow r).length) ' ') ++ ['\n']) := by
  rw [seenDump_eq i hi, hexColumns]
  have h : ∀ r ∈ rowsOf16 d, r ≠ [] ∧ r.length ≤ 16 := fun r hr => rowsOf16_mem hr
  revert h
  generalize rowsOf16 d = rows
  intro h
  induction rows with
  | nil => rfl
  | cons r rows ih =>
    rw [List.flatMap_cons, rowText, List.append_assoc, columnsFrom_tabs, List.append_assoc _ ['\n'], List.singleton_append,
      columnsFrom_line _ _ (inline_row r), Nat.sub_zero,
      columns_row r (h r (List.mem_cons_self ..)).2 (h r (List.mem_cons_self ..)).1,
      ih (fun x hx => h x (List.mem_cons_of_mem _ hx)), List.flatMap_cons]
    simp only [List.append_assoc, List.cons_append, List.nil_append]

theorem columns_decode (i : Nat) (hi : i < 256) (d : List Byte) :
    hexDecode (hexColumns (seenDump i d)) = d.map UInt8.toNat := by
  rw [columns_seen i hi, decode_rows, rowsOf16_flatten]
  intro r _
  rw [List.filterMap_append, List.filterMap_append, List.filterMap_append, tabs_digits, hexRow_digits, spaces_digits,
    List.append_nil, List.nil_append]
  exact List.append_nil _

theorem hexRow_chars {r : List Byte} {c : Char} (h : c ∈ hexRow r) : c ≠ ':' := by
  have hp : ∀ b : Byte, ∀ c ∈ hexPair b, c ≠ ':' := by
    intro b
    revert b; apply forall_byte; decide +kernel
  rw [← hexLine_eq] at h
  induction r with
  | nil => cases h
  | cons b bs ih =>
    cases bs with
    | nil => rw [hexLine, hexByte_eq] at h; exact hp b c h
    | cons x xs =>
      rw [hexLine, hexByte_eq] at h
      · rcases List.mem_append.1 h with h | h
        · exact hp b c h
        · rcases List.mem_cons.1 h with rfl | h
          · decide
          · exact ih h
      all_goals simp

theorem columns_no_colon (i : Nat) (hi : i < 256) (d : List Byte) : ':' ∉ hexColumns (seenDump i d) := by
  rw [columns_seen i hi]
  intro h
  obtain ⟨r, -, h⟩ := List.mem_flatMap.1 h
  rcases List.mem_append.1 h with h | h
  · rcases List.mem_append.1 h with h | h
    · cases List.eq_of_mem_replicate h
    · rcases List.mem_append.1 h with h | h
      · exact hexRow_chars h rfl
      · cases List.eq_of_mem_replicate h
  · cases List.mem_singleton.1 h

theorem ofNat_map_toNat (d : List Byte) : (d.map UInt8.toNat).map UInt8.ofNat = d := by
  rw [List.map_map]
  conv => rhs; rw [← List.map_id d]
  congr 1
  funext b
  exact UInt8.ofNat_toNat

theorem copy_bytes {d : List Byte} {s : Text} (h : CopyOf d s) : hexBytes s = d := by
  obtain ⟨i, hi, rfl | ⟨hw, rfl⟩⟩ := h
  · rw [hexBytes, columns_decode i hi, ofNat_map_toNat]
  · rw [hexBytes, (whole_lines i hi d).2 hw, ofNat_map_toNat]

theorem copy_ne {d : List Byte} {s : Text} (h : CopyOf d s) (hd : d ≠ []) : s ≠ [] := by
  rintro rfl
  exact hd (copy_bytes h).symm

/-! ### Numbers -/

theorem not_u16 {s A B : Text} (hs : s = A ++ ' ' :: B) (hA : ∃ x ∈ A, ¬ IsWs x) (hB : ∃ y ∈ B, ¬ IsWs y) (n : Nat) :
    ¬ IsU16Text s n := by
  rintro ⟨t, ds, ht, hd, -⟩
  obtain ⟨x, hx, hxw⟩ := hA
  obtain ⟨y, hy, hyw⟩ := hB
  have key : ∀ w : Text, ' ' ∉ w → IsTrim s w → False := by
    rintro w hw ⟨a, b, h, ha, hb, -⟩
    rw [hs, List.append_assoc] at h
    rcases List.append_eq_append_iff.1 h with ⟨c, rfl, h1⟩ | ⟨c, rfl, h1⟩
    · exact hxw (ha x (List.mem_append_left _ hx))
    · rcases List.append_eq_append_iff.1 h1.symm with ⟨e, rfl, h2⟩ | ⟨e, rfl, h2⟩
      · cases e with
        | nil => exact hyw (hb y (by rw [List.nil_append] at h2; rw [← h2]; simp [hy]))
        | cons z e =>
          obtain ⟨rfl, -⟩ := List.cons.inj h2
          exact hw (by simp)
      · exact hyw (hb y (by rw [h2]; simp [hy]))
  have hsp : ' ' ∉ t := by
    intro h
    have h1 : decDigit? ' ' ∈ ds.map some := hd ▸ List.mem_map_of_mem h
    obtain ⟨x, -, h2⟩ := List.mem_map.1 h1
    cases h2
  rcases ht with ht | ht
  · exact key t hsp ht
  · exact key _ (by simp [hsp]) ht

theorem hexPair_not_ws (b : Byte) : ∃ x ∈ hexPair b, ¬ IsWs x := by
  have h : ∀ b : Byte, ¬ IsWs ((hexPair b).getD 0 ' ') := by
    unfold IsWs
    apply forall_byte; decide +kernel
  exact ⟨_, List.mem_cons_self .., h b⟩

theorem copy_two {a b : Byte} {s : Text} (h : CopyOf [a, b] s) :
    ∃ A B, s = A ++ ' ' :: B ∧ (∃ x ∈ A, ¬ IsWs x) ∧ ∃ y ∈ B, ¬ IsWs y := by
  have hr : rowsOf16 [a, b] = [[a, b]] := by simp [rowsOf16, List.range_succ]
  have hx : hexRow [a, b] = hexPair a ++ ' ' :: hexPair b := rfl
  have key : ∀ (i : Nat) (rest : Text), ∃ A B, tabs i ++ (hexRow [a, b] ++ rest) = A ++ ' ' :: B ∧
      (∃ x ∈ A, ¬ IsWs x) ∧ ∃ y ∈ B, ¬ IsWs y := by
    intro i rest
    refine ⟨tabs i ++ hexPair a, hexPair b ++ rest, by rw [hx]; simp, ?_, ?_⟩
    · obtain ⟨x, h1, h2⟩ := hexPair_not_ws a
      exact ⟨x, List.mem_append_right _ h1, h2⟩
    · obtain ⟨x, h1, h2⟩ := hexPair_not_ws b
      exact ⟨x, List.mem_append_left _ h1, h2⟩
  obtain ⟨i, hi, rfl | ⟨-, rfl⟩⟩ := h
  · rw [columns_seen i hi, hr, List.flatMap_cons, List.flatMap_nil, List.append_nil, List.append_assoc,
      List.append_assoc]
    exact key i _
  · rw [seenDump_eq i hi, hr, List.flatMap_cons, List.flatMap_nil, List.append_nil, rowText, padTo]
    rw [List.append_assoc, List.append_assoc]
    exact key i _

end Pemv
