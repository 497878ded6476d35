import Verif.Proofs.ReadBack
import Verif.Spec.Alike

/-!
# When two values look alike
-/

namespace Pemv

open Spec

/-! ### The digits of a value -/

theorem byteBits_inj {a b : Byte} (h : byteBits a = byteBits b) : a = b := by
  have key : ∀ b : Byte, (byteBits b).foldl (fun acc c => 2 * acc + if c = '1' then 1 else 0) 0 = b.toNat := by
    apply forall_byte; decide +kernel
  apply UInt8.toNat_inj.1
  rw [← key a, ← key b, h]

theorem byteBits_chars (b : Byte) : '\n' ∉ byteBits b := by
  revert b; apply forall_byte; decide +kernel

theorem digitLine_single (b : Byte) : digitLine [b] = byteBits b := by
  rw [← binaryText_eq]; rfl

theorem digitLine_inj : ∀ {a b : List Byte}, a.length = b.length → digitLine a = digitLine b → a = b
  | [], [], _, _ => rfl
  | [], _ :: _, h, _ => by cases h
  | _ :: _, [], h, _ => by cases h
  | [x], [y], _, h => by
    rw [digitLine_single, digitLine_single] at h
    rw [byteBits_inj h]
  | [x], y :: y' :: b, h, _ => by simp at h
  | x :: x' :: a, [y], h, _ => by simp at h
  | x :: x' :: a, y :: y' :: b, hl, h => by
    rw [digitLine_cons x (x' :: a) (List.cons_ne_nil _ _), digitLine_cons y (y' :: b) (List.cons_ne_nil _ _)] at h
    obtain ⟨h1, h2⟩ := List.append_inj h rfl
    rw [byteBits_inj h1, digitLine_inj (Nat.succ.inj hl) (List.cons.inj h2).2]

theorem digitLine_chars (a : List Byte) : '\n' ∉ digitLine a := by
  rw [digitLine]
  intro h
  obtain ⟨k, -, hk⟩ := List.mem_map.1 h
  split at hk
  · split at hk
    · exact absurd hk (by decide)
    · exact absurd hk (by decide)
  · exact absurd hk (by decide)

theorem drawing_first {i : Nat} (hi : i < 256) (a : List Byte) (rs : List Annotation) (c : Bool) (x : Text) : ∃ r,
    docText i (drawingLines a rs c) ++ x = tabs i ++ (digitLine a ++ '\n' :: r) := by
  rw [drawingLines, List.append_assoc, List.singleton_append, docText_line i hi, bold, cellText_styled]
  simp only [List.append_assoc, List.singleton_append]
  exact ⟨_, rfl⟩

theorem drawing_inj {i : Nat} (hi : i < 256) {a b : List Byte} {rs rs' : List Annotation} {c : Bool} {x y : Text}
    (hl : a.length = b.length) (h : docText i (drawingLines a rs c) ++ x = docText i (drawingLines b rs' c) ++ y) : a = b := by
  obtain ⟨r, hr⟩ := drawing_first hi a rs c x
  obtain ⟨r', hr'⟩ := drawing_first hi b rs' c y
  rw [hr, hr'] at h
  exact digitLine_inj hl (split_at_first (digitLine_chars a) (digitLine_chars b) (List.append_cancel_left h)).1

theorem bitLines_agree {bv : BitValue} (hbv : bv ∈ bitValues) {a b : List Byte} (h : Agree bv.items a b)
    (hl : a.length = bv.numBytes) (labels : List (String × Severity × String)) (c : Bool) :
    bitLines bv.items labels a c = bitLines bv.items labels b c := by
  have hs : shown bv.items a = shown bv.items b := by
    rw [shown, shown]
    apply List.filter_congr
    intro t ht
    rw [h.2 t ht]
  have ha : annotations labels bv.items a = annotations labels bv.items b := by
    rw [annotations, annotations, hs, h.1]
    apply List.map_congr_left
    intro t ht
    have : t ∈ bv.items := (List.mem_filter.1 ht).1
    rw [Item.annotation, Item.annotation, h.2 t this]
  rw [bitLines, bitLines, ha, clear_of_agree (bitValues_ok bv (List.mem_cons_of_mem _ hbv)) hl h]

theorem agree_of_clear {bv : BitValue} (hbv : bv ∈ bitValues) (hcci : bv.items ≠ cciItems) {a b : List Byte}
    (ha : a.length = bv.numBytes) (hb : b.length = bv.numBytes) (h : clearUnused bv.items a = clearUnused bv.items b) :
    Agree bv.items a b := by
  have hok := bitValues_ok bv (List.mem_cons_of_mem _ hbv)
  obtain ⟨v, hv⟩ := c40_total bv (List.mem_cons_of_mem _ hbv) hcci a ha
  obtain ⟨v', hv'⟩ := c40_total bv (List.mem_cons_of_mem _ hbv) hcci b hb
  refine (c42_injective bv hbv a b v v' hv hv').1 ?_
  have h1 := tryFrom_clear hok ha
  have h2 := tryFrom_clear hok hb
  rw [hv] at h1
  rw [hv', ← h, h1] at h2
  cases h2; rfl

theorem clearUnused_length (items : List Item) (a : List Byte) : (clearUnused items a).length = a.length := by
  rw [clearUnused, List.length_mapIdx]

/-- Values of the same kind look alike exactly if they agree on all items. -/
theorem bitLines_alike {i : Nat} (hi : i < 256) {bv : BitValue} (hbv : bv ∈ bitValues) (hcci : bv.items ≠ cciItems)
    {a b : List Byte} (ha : a.length = bv.numBytes) (hb : b.length = bv.numBytes)
    {labels : List (String × Severity × String)} {c : Bool} {x y : Text}
    (h : docText i (bitLines bv.items labels a c) ++ x = docText i (bitLines bv.items labels b c) ++ y) :
    Agree bv.items a b ∧ x = y := by
  have h1 := agree_of_clear hbv hcci ha hb
    (drawing_inj hi (by rw [clearUnused_length, clearUnused_length, ha, hb]) h)
  rw [bitLines_agree hbv h1 ha] at h
  exact ⟨h1, List.append_cancel_left h⟩

/-! ### Tags and service codes -/

theorem decimal_line (n : Nat) : '\n' ∉ decimal n := fun h => absurd (decimal_digits n _ h).1 (by decide)

theorem digit_length (n : Nat) (h : n < 10) : (decimal n).length = 1 := by
  revert n; decide +kernel

theorem serviceCode_alike {n n' : Nat} (h : n ≤ 999) (h' : n' ≤ 999)
    (e : docText 0 (serviceCodeLines (n / 100) (n / 10 % 10) (n % 10)) =
      docText 0 (serviceCodeLines (n' / 100) (n' / 10 % 10) (n' % 10))) : n = n' := by
  rw [serviceCodeLines, serviceCodeLines, docText_line 0 (by omega), docText_line 0 (by omega), bold, bold, cellText_styled,
    cellText_styled] at e
  have e := List.append_cancel_left e
  simp only [List.append_assoc] at e
  obtain ⟨h1, e⟩ := List.append_inj e (by rw [digit_length _ (by omega), digit_length _ (by omega)])
  obtain ⟨h2, e⟩ := List.append_inj e (by rw [digit_length _ (by omega), digit_length _ (by omega)])
  obtain ⟨h3, e⟩ := List.append_inj e (by rw [digit_length _ (by omega), digit_length _ (by omega)])
  have h1 := decimal_inj h1
  have h2 := decimal_inj h2
  have h3 := decimal_inj h3
  omega

theorem hexPairs_line (a : List Byte) : '\n' ∉ a.flatMap hexPair := by
  have : ∀ b, '\n' ∉ hexPair b := by apply forall_byte; decide +kernel
  intro h
  obtain ⟨b, -, hb⟩ := List.mem_flatMap.1 h
  exact this b hb

theorem identify_text (a : List Byte) : ∃ r, docText 0 (identifyLines a) =
    tabs 0 ++ ("Name:".toList ++ ("             ".toList ++ (((dictionaryName a).getD "<Unknown>").toList ++ '\n' ::
      (tabs 0 ++ ("Tag:".toList ++ ("              0x".toList ++ (a.flatMap hexPair ++ '\n' :: r))))))) := by
  rw [identifyLines, entry, docText_line 0 (by omega), docText_line 0 (by omega)]
  simp only [cellText_append, heading, bold, plain, cellText_styled, List.append_assoc]
  exact ⟨_, rfl⟩

theorem identify_alike {a b : List Byte} (e : docText 0 (identifyLines a) = docText 0 (identifyLines b)) : a = b := by
  obtain ⟨r, hr⟩ := identify_text a
  obtain ⟨r', hr'⟩ := identify_text b
  rw [hr, hr'] at e
  have e := List.append_cancel_left (List.append_cancel_left (List.append_cancel_left e))
  obtain ⟨-, e⟩ := split_at_first (dictionaryName_line a) (dictionaryName_line b) e
  have e := List.append_cancel_left (List.append_cancel_left (List.append_cancel_left e))
  exact hexPairs_inj (split_at_first (hexPairs_line a) (hexPairs_line b) e).1

end Pemv
