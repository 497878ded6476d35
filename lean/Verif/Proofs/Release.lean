import Verif.Spec.Release

/-!
# Lemmas on the release script
-/

namespace Pemv

open Spec

theorem dotMatch_append (p q t : Text) (hp : '.' ∉ p) :
    dotMatch (p ++ q) t = true ↔ ∃ t', t = p ++ t' ∧ dotMatch q t' = true := by
  induction p generalizing t with
  | nil => simp
  | cons a p ih =>
    have ha : a ≠ '.' := fun h => hp (h ▸ List.mem_cons_self)
    have hp' : '.' ∉ p := fun h => hp (List.mem_cons_of_mem _ h)
    cases t with
    | nil => simp [dotMatch]
    | cons c t =>
      simp only [List.cons_append, dotMatch, Bool.and_eq_true, Bool.or_eq_true, beq_iff_eq, ih t hp', ha, false_or]
      constructor
      · rintro ⟨rfl, t', rfl, h⟩
        exact ⟨t', rfl, h⟩
      · rintro ⟨t', h, h'⟩
        injection h with h1 h2
        exact ⟨h1.symm, t', h2, h'⟩

theorem dotMatch_managed (t : Text) :
    dotMatch (' ' :: managedMsg) t = true ↔ ∃ c, t = " # Managed by release".toList ++ [c] ++ "sh".toList := by
  have e : ' ' :: managedMsg = " # Managed by release".toList ++ ('.' :: "sh".toList) := by decide
  rw [e, dotMatch_append _ _ _ (by decide)]
  constructor
  · rintro ⟨t', rfl, h⟩
    match t', h with
    | [], h => simp [dotMatch] at h
    | c :: t', h =>
      have h2 : dotMatch ("sh".toList ++ []) t' = true := by simpa [dotMatch] using h
      obtain ⟨u, rfl, hu⟩ := (dotMatch_append "sh".toList [] t' (by decide)).1 h2
      cases u with
      | nil => exact ⟨c, by simp⟩
      | cons _ _ => simp [dotMatch] at hu
  · rintro ⟨c, rfl⟩
    exact ⟨c :: "sh".toList, by simp, by simp [dotMatch]⟩

theorem sedMatches_iff (line : Text) : sedMatches line = true ↔ IsManaged line := by
  have l1 : "version = ".toList.length = 10 := by decide
  have l2 : (' ' :: managedMsg).length = 24 := by decide
  simp only [sedMatches, Bool.and_eq_true, decide_eq_true_eq, List.isPrefixOf_iff_prefix, l1, l2, dotMatch_managed]
  constructor
  · rintro ⟨⟨⟨rest, rfl⟩, hl⟩, c, hc⟩
    simp only [List.length_append, l1] at hl hc
    have e := List.take_append_drop (10 + rest.length - 24) ("version = ".toList ++ rest)
    rw [hc, List.take_append, l1, List.take_of_length_le (by rw [l1]; omega)] at e
    exact ⟨List.take (10 + rest.length - 24 - 10) rest, c, by rw [← e]; simp only [List.append_assoc]⟩
  · rintro ⟨old, c, rfl⟩
    have l3 : (" # Managed by release".toList ++ [c] ++ "sh".toList).length = 24 := by
      simp only [List.length_append, List.length_cons, List.length_nil]; decide
    have assoc : "version = ".toList ++ old ++ " # Managed by release".toList ++ [c] ++ "sh".toList =
        ("version = ".toList ++ old) ++ (" # Managed by release".toList ++ [c] ++ "sh".toList) := by
      simp only [List.append_assoc]
    rw [assoc]
    generalize ht : " # Managed by release".toList ++ [c] ++ "sh".toList = tail at l3
    refine ⟨⟨⟨old ++ tail, by simp only [List.append_assoc]⟩, ?_⟩, c, ?_⟩
    · rw [List.length_append, List.length_append, l1, l3]; omega
    · rw [List.length_append, l3, Nat.add_sub_cancel, List.drop_left]; exact ht.symm

theorem isManaged_versionLine (v : Text) : IsManaged (versionLine v) := by
  refine ⟨'"' :: v ++ ['"'], '.', ?_⟩
  unfold versionLine
  repeat rw [String.toList_ofList]
  simp only [List.append_assoc, List.cons_append, List.nil_append]

theorem sedLine_managed {tag line : Text} (h : IsManaged line) : sedLine tag line = versionLine (withoutV tag) := by
  rw [sedLine, if_pos ((sedMatches_iff line).2 h)]
  unfold versionLine managedMsg
  repeat rw [String.toList_ofList]
  simp only [List.append_assoc, List.cons_append, List.nil_append]

theorem sedLine_other {tag line : Text} (h : ¬ IsManaged line) : sedLine tag line = line := by
  rw [sedLine, if_neg (fun x => h ((sedMatches_iff line).1 x))]

theorem withoutV_isVersionOf (tag : Text) : IsVersionOf tag (withoutV tag) := by
  match tag with
  | [] => exact Or.inr ⟨rfl, by simp⟩
  | c :: t =>
    by_cases h : c = 'v'
    · subst h; exact Or.inl rfl
    · refine Or.inr ⟨?_, by simpa using h⟩
      unfold withoutV
      split
      · rename_i heq; injection heq with h1 _; exact absurd h1 h
      · rfl

theorem isVersionOf_unique {tag a b : Text} (ha : IsVersionOf tag a) (hb : IsVersionOf tag b) : a = b := by
  rcases ha with ha | ⟨ha, ha'⟩ <;> rcases hb with hb | ⟨hb, hb'⟩
  · rw [ha] at hb; injection hb
  · rw [ha] at hb'; simp at hb'
  · rw [hb] at ha'; simp at ha'
  · rw [← ha, ← hb]

theorem newVersion_map (tag : Text) (ls : List Text) : NewVersion (withoutV tag) ls (ls.map (sedLine tag)) := by
  refine ⟨List.length_map _, fun i old new ho hn => ?_⟩
  rw [List.getElem?_map, ho] at hn
  injection hn with hn
  subst hn
  exact ⟨sedLine_managed, sedLine_other⟩

theorem newVersion_unique {v : Text} {a b c : List Text} (hb : NewVersion v a b) (hc : NewVersion v a c) : b = c := by
  apply List.ext_getElem (hb.1.trans hc.1.symm)
  intro i h1 h2
  have h0 : i < a.length := hb.1 ▸ h1
  have x := hb.2 i a[i] b[i] (List.getElem?_eq_getElem h0) (List.getElem?_eq_getElem h1)
  have y := hc.2 i a[i] c[i] (List.getElem?_eq_getElem h0) (List.getElem?_eq_getElem h2)
  by_cases hm : IsManaged a[i]
  · rw [x.1 hm, y.1 hm]
  · rw [x.2 hm, y.2 hm]

/-- Twice is as good as once with the second version. -/
theorem sedLine_sedLine (a b line : Text) : sedLine b (sedLine a line) = sedLine b line := by
  by_cases h : IsManaged line
  · rw [sedLine_managed h, sedLine_managed h, sedLine_managed (isManaged_versionLine _)]
  · rw [sedLine_other h]

theorem refused_iff (t : Tools) (arg : Option Text) : Refused t arg ↔ (arg.getD [] = [] ∨ t.porcelain ≠ []) := by
  cases arg with
  | none => simp [Refused]
  | some x => simp [Refused]

/-! ### The version that is shown -/

theorem isPrefixOf_append_self (a b : Text) : a.isPrefixOf (a ++ b) = true := by
  rw [List.isPrefixOf_iff_prefix]; exact List.prefix_append a b

theorem not_prefix_head {c d : Char} {l t : Text} (hc : c ≠ d) : ¬ ((c :: l).isPrefixOf (d :: t) = true) := by
  simp [hc]

theorem versionLine_eq {p q a b : Text} {c : Char} (version : Text) (h : versionLine version = p ++ version ++ q)
    (hp : p = c :: a) (hq : q = '"' :: b) : versionLine version = c :: (a ++ (version ++ '"' :: b)) ∧
      p.isPrefixOf (versionLine version) = true ∧ (versionLine version).drop p.length = version ++ '"' :: b := by
  subst hp hq
  rw [h]
  refine ⟨by simp, by rw [List.append_assoc]; exact isPrefixOf_append_self _ _, by rw [List.append_assoc, List.drop_left]⟩

end Pemv
