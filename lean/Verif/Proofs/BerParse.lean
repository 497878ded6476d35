import Verif.Proofs.Ber

/-! # The BER-TLV parser as a whole -/

namespace Pemv

open Spec

theorem berLoop_eq {m : Machine} (masks : List Char) (parse : List Byte → Out RawEmvBlock)
    (fuel : Nat) (pre r : List Byte) (nodes : RawEmvBlock) (hf : r.length ≤ fuel)
    (hm : Fits m (pre.length + r.length))
    (hp : ∀ v : List Byte, v.length + 2 ≤ r.length → (parse v).isReturned = true) :
    berLoop m masks parse (pre ++ r) fuel pre.length nodes =
      match readElems r with
      | .error e => .err e
      | .ok es => .ok (nodes ++ es.map (nodeOf parse masks)) := by
  induction fuel generalizing pre r nodes with
  | zero =>
    have : r = [] := List.length_eq_zero_iff.1 (by omega)
    subst this
    rw [berLoop, readElems_nil]
    simp
  | succ fuel ih =>
    by_cases hr : r = []
    · subst hr
      rw [berLoop, readElems_nil]
      simp
    · have hpos : 0 < r.length := List.length_pos_iff.2 hr
      rw [berLoop, if_pos (by simp; omega)]
      simp only
      rw [berStep_eq masks parse pre r hr hm hp]
      cases hel : readElem r with
      | error e =>
        rw [readElems_error hr hel]
        rfl
      | ok p =>
        obtain ⟨e, rest⟩ := p
        obtain ⟨h1, h2, h3⟩ := (readElem_iff _ _ _).1 hel
        have hlen := elem_length h2
        have hrl : r.length = e.bytes.length + rest.length := by rw [h1]; simp
        rw [readElems_ok hr hel]
        simp only [Out.ok_bind]
        have := ih (pre ++ e.bytes) rest (nodes ++ [nodeOf parse masks e]) (by omega)
          (by rw [List.length_append, Nat.add_assoc, ← hrl]; exact hm)
          (fun v hv => hp v (by omega))
        rw [List.append_assoc, ← h1, List.length_append] at this
        rw [this]
        cases readElems rest with
        | error e => rfl
        | ok es => simp

theorem fits_mono {m : Machine} {a b : Nat} (h : Fits m b) (hab : a ≤ b) : Fits m a :=
  Nat.le_trans (Nat.add_le_add_right hab _) h

/-- Everything about the recursion at once: enough budget gives the result of `berParse`, which is
normal. -/
theorem berParseF_eq {m : Machine} (masks : List Char) (n : Nat) :
    ∀ bytes : List Byte, bytes.length ≤ n → Fits m bytes.length →
      (berParse m bytes masks).isReturned = true ∧
      ∀ d, bytes.length / 2 < d → berParseF m masks d bytes = berParse m bytes masks := by
  induction n with
  | zero =>
    intro bytes hb hm
    have : bytes = [] := List.length_eq_zero_iff.1 (by omega)
    subst this
    refine ⟨rfl, ?_⟩
    intro d hd
    cases d with
    | zero => simp at hd
    | succ d => simp [berParse, berParseF, berLoop]
  | succ n ih =>
    intro bytes hb hm
    have step : ∀ d, bytes.length / 2 < d → berParseF m masks d bytes =
        match readElems bytes with
        | .error e => .err e
        | .ok es => .ok (es.map (nodeOf (fun v => berParse m v masks) masks)) := by
      intro d hd
      cases d with
      | zero => omega
      | succ d =>
        have hret : ∀ v : List Byte, v.length + 2 ≤ bytes.length →
            berParseF m masks d v = berParse m v masks ∧ (berParse m v masks).isReturned = true := by
          intro v hv
          have := ih v (by omega) (fits_mono hm (by omega))
          exact ⟨this.2 d (by omega), this.1⟩
        rw [berParseF]
        have := berLoop_eq masks (berParseF m masks d) (bytes.length + 1) [] bytes []
          (by omega) (by simpa using hm)
          (fun v hv => by rw [(hret v hv).1]; exact (hret v hv).2)
        simp only [List.nil_append, List.length_nil] at this
        rw [this]
        cases hre : readElems bytes with
        | error e => rfl
        | ok es =>
          simp only
          congr 1
          apply List.map_congr_left
          intro e he
          obtain ⟨h1, h2, -⟩ := (readElems_iff _ _).1 hre
          have hlt : e.value.length + 2 ≤ bytes.length := by
            have := elem_length (h2 e he)
            have h3 : e.bytes.length ≤ bytes.length := by
              rw [h1, concat, List.flatMap]
              obtain ⟨s, t, rfl⟩ := List.append_of_mem he
              simp
              omega
            omega
          rw [nodeOf, nodeOf, (hret _ hlt).1]
    constructor
    · rw [berParse, step _ (by omega)]
      cases readElems bytes <;> rfl
    · intro d hd
      rw [step d hd, berParse, step _ (by omega)]

/-- The BER-TLV parser, one level unfolded. -/
theorem berParse_eq {m : Machine} (masks : List Char) (bytes : List Byte) (hm : Fits m bytes.length) :
    berParse m bytes masks =
      match readElems bytes with
      | .error e => .err e
      | .ok es => .ok (es.map (nodeOf (fun v => berParse m v masks) masks)) := by
  have := berLoop_eq masks (fun v => berParseF m masks bytes.length v) (bytes.length + 1) [] bytes []
    (by omega) (by simpa using hm)
    (fun v hv => by
      have := berParseF_eq (m := m) masks _ v (Nat.le_refl _) (fits_mono hm (by omega))
      rw [this.2 _ (by omega)]; exact this.1)
  simp only [List.nil_append, List.length_nil] at this
  rw [berParse, berParseF, this]
  cases hre : readElems bytes with
  | error e => rfl
  | ok es =>
    simp only
    congr 1
    apply List.map_congr_left
    intro e he
    obtain ⟨h1, h2, -⟩ := (readElems_iff _ _).1 hre
    have hlt : e.value.length < bytes.length := by
      have := elem_length (h2 e he)
      have h3 : e.bytes.length ≤ bytes.length := by
        rw [h1, concat, List.flatMap]
        obtain ⟨s, t, rfl⟩ := List.append_of_mem he
        simp
        omega
      omega
    rw [nodeOf, nodeOf]
    have := berParseF_eq (m := m) masks _ e.value (Nat.le_refl _) (fits_mono hm (by omega))
    rw [this.2 _ (by omega)]

theorem berParse_returned {m : Machine} (masks : List Char) (bytes : List Byte)
    (hm : Fits m bytes.length) : (berParse m bytes masks).isReturned = true :=
  (berParseF_eq masks _ bytes (Nat.le_refl _) hm).1

/-! ### Prefix-freeness and failures -/

theorem readTag_prefix {t r t' r' : List Byte} (h : t ++ r = t' ++ r') (ht : IsTag t) (ht' : IsTag t') :
    t = t' ∧ r = r' := by
  have h1 := (readTag_iff (t ++ r) t r).2 ⟨rfl, ht⟩
  have h2 := (readTag_iff (t ++ r) t' r').2 ⟨h, ht'⟩
  rw [h1] at h2
  simpa using h2

theorem isLength_prefix {l r l' r' : List Byte} {n n' : Nat} (h : l ++ r = l' ++ r')
    (hl : IsLength l n) (hl' : IsLength l' n') : l = l' ∧ r = r' ∧ n = n' := by
  cases hl with
  | short b hb =>
    cases hl' with
    | short b' hb' => simp at h; obtain ⟨rfl, rfl⟩ := h; exact ⟨rfl, rfl, rfl⟩
    | long b' ds h1 h4 => simp at h; obtain ⟨rfl, -⟩ := h; omega
  | long b ds h1 h4 =>
    cases hl' with
    | short b' hb' => simp at h; obtain ⟨rfl, -⟩ := h; omega
    | long b' ds' h1' h4' =>
      simp only [List.cons_append, List.cons.injEq] at h
      obtain ⟨rfl, h⟩ := h
      obtain ⟨rfl, rfl⟩ := List.append_inj h (by omega)
      exact ⟨rfl, rfl, rfl⟩

/-- Objects form a prefix code. -/
theorem elem_prefix {e e' : Elem} {r r' : List Byte} (h : e.bytes ++ r = e'.bytes ++ r') (he : e.WF)
    (he' : e'.WF) : e = e' ∧ r = r' := by
  simp only [Elem.bytes, List.append_assoc] at h
  obtain ⟨h1, h⟩ := readTag_prefix h he.1 he'.1
  obtain ⟨h2, h, h3⟩ := isLength_prefix h he.2 he'.2
  obtain ⟨h4, h⟩ := List.append_inj h h3
  refine ⟨?_, h⟩
  cases e; cases e'; simp_all

/-- The decomposition into objects is unique, also up to a rest. -/
theorem concat_prefix {es es' : List Elem} {r : List Byte} (h : concat es ++ r = concat es')
    (he : ∀ e ∈ es, e.WF) (he' : ∀ e ∈ es', e.WF) : ∃ es'', es' = es ++ es'' ∧ r = concat es'' := by
  induction es generalizing es' with
  | nil => exact ⟨es', rfl, h⟩
  | cons e es ih =>
    cases es' with
    | nil =>
      have := (List.append_eq_nil_iff.1 h).1
      rw [concat_cons] at this
      exact absurd (List.append_eq_nil_iff.1 this).1 (bytes_ne_nil (he e (by simp)))
    | cons e' es' =>
      rw [concat_cons, concat_cons, List.append_assoc] at h
      obtain ⟨rfl, hk⟩ := elem_prefix h (he e (by simp)) (he' e' (by simp))
      obtain ⟨es'', rfl, h2⟩ := ih hk (fun x hx => he x (by simp [hx])) (fun x hx => he' x (by simp [hx]))
      exact ⟨es'', rfl, h2⟩

theorem readElem_error {bs : List Byte} {x : ParseError} (h : readElem bs = .error x) :
    x = .nonCompliant ∨ x = .unsupported ∧ ∃ tag b rest, bs = tag ++ b :: rest ∧ IsTag tag ∧
      132 < b.toNat := by
  rw [readElem] at h
  split at h
  · cases h; exact Or.inl rfl
  · rename_i tag r ht
    obtain ⟨rfl, htag⟩ := (readTag_iff _ _ _).1 ht
    split at h
    · rename_i e hl
      cases h
      cases r with
      | nil => cases hl; exact Or.inl rfl
      | cons b r =>
        rw [readLen] at hl
        split at hl
        · cases hl
        · split at hl
          · rename_i h1 h2
            simp only [Except.error.injEq] at hl
            exact Or.inr ⟨hl.symm, tag, b, r, rfl, htag, by omega⟩
          · split at hl
            · simp only [Except.error.injEq] at hl; exact Or.inl hl.symm
            · cases hl
    · split at h
      · cases h; exact Or.inl rfl
      · cases h

theorem readElem_unsupported {tag : List Byte} {b : Byte} {rest : List Byte} (ht : IsTag tag)
    (hb : 132 < b.toNat) : readElem (tag ++ b :: rest) = .error .unsupported := by
  rw [readElem, (readTag_iff _ _ _).2 ⟨rfl, ht⟩]
  simp only
  rw [readLen, if_neg (by omega), if_pos (by omega)]

theorem readElems_unsupported_iff (bs : List Byte) :
    readElems bs = .error .unsupported ↔ ∃ es tag b rest, bs = concat es ++ (tag ++ b :: rest) ∧
      (∀ e ∈ es, e.WF) ∧ IsTag tag ∧ 132 < b.toNat := by
  constructor
  · intro h
    fun_induction readElems bs with
    | case1 => cases h
    | case2 bs hne e hel =>
      cases h
      rcases readElem_error hel with h | ⟨-, tag, b, rest, h1, h2, h3⟩
      · cases h
      · exact ⟨[], tag, b, rest, h1, by simp, h2, h3⟩
    | case3 bs hne e rest hel x hrest ih =>
      cases h
      obtain ⟨h1, h2, h3⟩ := (readElem_iff _ _ _).1 hel
      obtain ⟨es, tag, b, rest', k1, k2, k3, k4⟩ := ih hrest
      refine ⟨e :: es, tag, b, rest', ?_, ?_, k3, k4⟩
      · rw [h1, k1, concat_cons, List.append_assoc]
      · intro x hx
        rcases List.mem_cons.1 hx with rfl | hx
        · exact h2
        · exact k2 x hx
    | case4 => cases h
  · rintro ⟨es, tag, b, rest, rfl, h2, h3, h4⟩
    have hne : tag ++ b :: rest ≠ [] := by simp
    rw [readElems_append es _ h2 (fun h => absurd h hne),
      readElems_error hne (readElem_unsupported h3 h4)]

theorem readElems_error_kinds {bs : List Byte} {x : ParseError} (h : readElems bs = .error x) :
    x = .nonCompliant ∨ x = .unsupported := by
  fun_induction readElems bs with
  | case1 => cases h
  | case2 bs hne e hel =>
    cases h
    rcases readElem_error hel with h | ⟨h, -⟩
    · exact Or.inl h
    · exact Or.inr h
  | case3 bs hne e rest hel y hrest ih => cases h; exact ih hrest
  | case4 => cases h

end Pemv
