import Verif.Proofs.BitflagTables

/-! # What the check means for each layout -/

namespace Pemv

open Spec

theorem bitValues_ok : ∀ bv ∈ cvRule :: bitValues, layoutOk bv.layout bv.numBytes bv.items = true := by
  intro bv h
  simp only [bitValues, List.mem_cons, List.not_mem_nil, or_false] at h
  rcases h with rfl | rfl | rfl | rfl | rfl | rfl | rfl
  · exact cvRule_ok
  · exact tvr_ok
  · exact tsi_ok
  · exact terminalCapabilities_ok
  · exact additionalTerminalCapabilities_ok
  · exact cci_ok
  · exact cvr_ok

/-! ### Consequences for a checked layout -/

section
variable {l : Layout} {N : Nat} {items : List Item} (hl : layoutOk l N items = true)
include hl

theorem ok_iff (bs : List Byte) :
    (∃ v, l.tryFrom bs = .ok v) ↔
      bs.length = N ∧ ∀ t ∈ items, t.kind.accepts (t.bitsOf bs) = true := by
  constructor
  · rintro ⟨v, hv⟩
    obtain ⟨h1, h2⟩ := tryFrom_ok hl hv
    have := good_means (at_zero hl bs) h2 (layoutOk_row hl) (layoutOk_names hl)
    rw [itemsFrom_all hl] at this
    exact ⟨h1, this.1⟩
  · rintro ⟨h1, h2⟩
    rcases tryFrom_spec hl bs h1 with ⟨v, hv, -⟩ | ⟨-, hb⟩
    · exact ⟨v, hv⟩
    · obtain ⟨t, ht, hf⟩ := bad_rows (at_zero hl bs) hb (layoutOk_row hl)
      rw [itemsFrom_all hl] at ht
      rw [h2 t ht] at hf
      cases hf

theorem returned (bs : List Byte) (h : bs.length = N) :
    (∃ v, l.tryFrom bs = .ok v) ∨ l.tryFrom bs = .err .nonCcdCompliant := by
  rcases tryFrom_spec hl bs h with ⟨v, hv, -⟩ | ⟨h, -⟩
  · exact Or.inl ⟨v, hv⟩
  · exact Or.inr h

theorem masked_of_agree {bs bs' : List Byte} (h : Agree items bs bs') :
    List.zipWith (· &&& ·) bs (l.rows.map (fun r => rowMask r.2)) =
      List.zipWith (· &&& ·) bs' (l.rows.map (fun r => rowMask r.2)) :=
  mask_eq_of_agree (at_zero hl bs) (at_zero hl bs') h.1 (layoutOk_row hl)
    (by rw [itemsFrom_all hl]; exact h.2)

theorem tryFrom_agree {bs bs' : List Byte} (h : Agree items bs bs') :
    l.tryFrom bs = l.tryFrom bs' := by
  rw [Layout.tryFrom, Layout.tryFrom, h.1]
  split
  · rfl
  · next hn =>
    have hlen : bs'.length = l.usedBitsMask.length := by
      simp only [Layout.usedBitsMask, List.length_map, layoutOk_length hl]
      rw [← layoutOk_numBytes hl]; simpa using hn
    rw [maskBytes_eq _ _ (by rw [h.1, hlen]), maskBytes_eq _ _ hlen]
    have := masked_of_agree hl h
    simp only [Layout.usedBitsMask] at *
    simp only [rowMask] at this
    rw [this]

theorem means_all {bs : List Byte} {v : Value} (hv : l.tryFrom bs = .ok v) :
    All2 (fun t p => p.1 = t.name ∧ t.kind.means (t.bitsOf bs) p.2 = true) items
      (valuePairs l.rows v) := by
  have := good_means (at_zero hl bs) (tryFrom_ok hl hv).2 (layoutOk_row hl) (layoutOk_names hl)
  rw [itemsFrom_all hl] at this
  exact this.2.1

theorem repr_eq {bs : List Byte} {v : Value} (hv : l.tryFrom bs = .ok v)
    (hlist : ∀ t ∈ items, t.kind.listed (t.bitsOf bs) = true) :
    l.binaryRepresentation v = clearUnused items bs := by
  have h1 := good_repr (at_zero hl bs) (tryFrom_ok hl hv).2 (layoutOk_row hl)
    (by rw [itemsFrom_all hl]; exact hlist)
  have h2 := mask_eq_clear (at_zero hl bs) (by rw [(tryFrom_ok hl hv).1, layoutOk_length hl])
    (layoutOk_row hl)
  rw [h2] at h1
  simp only [Nat.zero_add] at h1
  exact h1

theorem clear_of_agree {bs bs' : List Byte} (hlen : bs.length = N) (h : Agree items bs bs') :
    clearUnused items bs = clearUnused items bs' := by
  have h1 := mask_eq_clear (at_zero hl bs) (by rw [hlen, layoutOk_length hl]) (layoutOk_row hl)
  have h2 := mask_eq_clear (at_zero hl bs') (by rw [← h.1, hlen, layoutOk_length hl]) (layoutOk_row hl)
  simp only [Nat.zero_add] at h1 h2
  rw [clearUnused, clearUnused, ← h1, ← h2]
  exact masked_of_agree hl h

theorem agree_of_eq {bs bs' : List Byte} {v : Value} (hv : l.tryFrom bs = .ok v)
    (hv' : l.tryFrom bs' = .ok v) (hk : ∀ t ∈ items, ∀ n n' x, t.kind.means n x = true →
      t.kind.means n' x = true → n < 2 ^ (t.hi + 1 - t.lo) → n' < 2 ^ (t.hi + 1 - t.lo) → n = n') :
    Agree items bs bs' := by
  refine ⟨by rw [(tryFrom_ok hl hv).1, (tryFrom_ok hl hv').1], ?_⟩
  have h1 := means_all hl hv
  have h2 := means_all hl hv'
  have hbits : ∀ (t : Item) bs, t.bitsOf bs < 2 ^ (t.hi + 1 - t.lo) :=
    fun t bs => Nat.mod_lt _ (Nat.two_pow_pos _)
  clear hl hv hv'
  generalize valuePairs l.rows v = ps at h1 h2
  induction items generalizing ps with
  | nil => simp
  | cons t ts ih =>
    cases ps with
    | nil => exact h1.elim
    | cons p ps =>
      intro t' ht'
      rw [List.mem_cons] at ht'
      rcases ht' with rfl | ht'
      · exact hk t' (by simp) _ _ p.2 h1.1.2 h2.1.2 (hbits _ _) (hbits _ _)
      · exact ih (fun t ht => hk t (by simp [ht])) ps h1.2 h2.2 t' ht'

theorem tryFrom_clear {bs : List Byte} (hlen : bs.length = N) :
    l.tryFrom (clearUnused items bs) = l.tryFrom bs := by
  have h1 := mask_eq_clear (at_zero hl bs) (by rw [hlen, layoutOk_length hl]) (layoutOk_row hl)
  simp only [Nat.zero_add] at h1
  have hcl : (clearUnused items bs).length = N := by simp [clearUnused, hlen]
  have hmask : l.usedBitsMask.length = N := by simp [Layout.usedBitsMask, layoutOk_length hl]
  rw [Layout.tryFrom, Layout.tryFrom, if_neg (by rw [hcl, layoutOk_numBytes hl]; simp),
    if_neg (by rw [hlen, layoutOk_numBytes hl]; simp), maskBytes_eq _ _ (by omega),
    maskBytes_eq _ _ (by omega)]
  have hand : ∀ (xs ms : List Byte), List.zipWith (· &&& ·) (List.zipWith (· &&& ·) xs ms) ms =
      List.zipWith (· &&& ·) xs ms := by
    intro xs
    induction xs with
    | nil => simp
    | cons x xs ih =>
      intro ms
      cases ms with
      | nil => simp
      | cons m ms =>
        simp only [List.zipWith_cons_cons, ih]
        congr 1
        rw [← UInt8.toNat_inj, UInt8.toNat_and, UInt8.toNat_and, Nat.and_assoc, Nat.and_self]
  have h2 : clearUnused items bs = List.zipWith (· &&& ·) bs l.usedBitsMask := by
    rw [clearUnused, ← h1]; rfl
  rw [h2, hand]

theorem ranges_eq {bs : List Byte} {v : Value} (hv : l.tryFrom bs = .ok v) :
    (l.bitDisplayInformation v).map (fun r => (r.offset, r.len)) =
      (shown items bs).map (fun t => t.range N) := by
  have := good_means (at_zero hl bs) (tryFrom_ok hl hv).2 (layoutOk_row hl) (layoutOk_names hl)
  rw [itemsFrom_all hl] at this
  rw [Layout.bitDisplayInformation, layoutOk_numBytes hl]
  exact this.2.2

theorem get_spec {bs : List Byte} {v : Value} (hv : l.tryFrom bs = .ok v) :
    (∀ t ∈ items, ∃ x, l.get v t.name = some x ∧ t.kind.means (t.bitsOf bs) x = true) ∧
    ∀ name, name ∉ items.map Item.name → l.get v name = none := by
  have h1 := means_all hl hv
  have hn := layoutOk_nodup hl
  have hget : ∀ name, l.get v name = (valuePairs l.rows v).lookup name := fun _ => rfl
  simp only [hget]
  clear hl hv hget
  generalize valuePairs l.rows v = ps at h1
  induction items generalizing ps with
  | nil =>
    cases ps with
    | nil => simp
    | cons _ _ => exact h1.elim
  | cons t ts ih =>
    cases ps with
    | nil => exact h1.elim
    | cons p ps =>
      obtain ⟨⟨hp, hm⟩, h2⟩ := h1
      simp only [List.map_cons, List.nodup_cons] at hn
      obtain ⟨i1, i2⟩ := ih hn.2 ps h2
      constructor
      · intro t' ht'
        rw [List.mem_cons] at ht'
        rcases ht' with rfl | ht'
        · exact ⟨p.2, by obtain ⟨p1, p2⟩ := p; simp at hp; subst hp; simp [List.lookup], hm⟩
        · obtain ⟨x, hx, hmx⟩ := i1 t' ht'
          refine ⟨x, ?_, hmx⟩
          have : ¬ t'.name = p.1 := by
            rw [hp]; rintro h; exact hn.1 (h ▸ List.mem_map_of_mem ht')
          obtain ⟨p1, p2⟩ := p
          rw [List.lookup_cons, show (t'.name == p1) = false from beq_false_of_ne this]; exact hx
      · intro name hname
        simp only [List.map_cons, List.mem_cons, not_or] at hname
        obtain ⟨p1, p2⟩ := p
        simp only at hp
        rw [List.lookup_cons, show (name == p1) = false from beq_false_of_ne (hp ▸ hname.1)]
        exact i2 name hname.2

end

theorem bitValues_listed : ∀ bv ∈ bitValues, ∀ t ∈ bv.items, ∀ n, t.kind.listed n = t.kind.accepts n := by
  have key : ∀ bv ∈ bitValues, ∀ t ∈ bv.items,
      (match t.kind with | .openCode _ => false | _ => true) = true := by decide +kernel
  intro bv hbv t ht n
  have := key bv hbv t ht
  cases hk : t.kind <;> rw [hk] at this <;> first | rfl | cases this

theorem bitValues_inj : ∀ bv ∈ bitValues, ∀ t ∈ bv.items, ∀ n n' x, t.kind.means n x = true →
    t.kind.means n' x = true → n < 2 ^ (t.hi + 1 - t.lo) → n' < 2 ^ (t.hi + 1 - t.lo) → n = n' := by
  have key : ∀ bv ∈ bitValues, ∀ t ∈ bv.items, t.hi + 1 - t.lo ≤ 4 ∧
      (match t.kind with
      | .flag => decide (t.hi + 1 - t.lo = 1)
      | .number => true
      | .code cs => (List.range 16).all (fun n => (List.range 16).all (fun n' =>
          !((cs.lookup n).isSome && (cs.lookup n == cs.lookup n')) || n == n'))
      | .openCode _ => false) = true := by
    decide +kernel
  intro bv hbv t ht n n' x h1 h2 hn hn'
  obtain ⟨k1, k2⟩ := key bv hbv t ht
  have h16 : 2 ^ (t.hi + 1 - t.lo) ≤ 2 ^ 4 := Nat.pow_le_pow_right (by omega) k1
  cases hk : t.kind with
  | flag =>
    rw [hk] at h1 h2 k2
    simp only [decide_eq_true_eq] at k2
    rw [k2] at hn hn'
    cases x <;> simp [Kind.means] at h1 h2
    subst h1
    have : n = 0 ∨ n = 1 := by omega
    have : n' = 0 ∨ n' = 1 := by omega
    rcases ‹n = 0 ∨ n = 1› with rfl | rfl <;> rcases ‹n' = 0 ∨ n' = 1› with rfl | rfl <;> simp at h2 ⊢
  | number =>
    rw [hk] at h1 h2
    cases x <;> simp [Kind.means] at h1 h2
    omega
  | code cs =>
    rw [hk] at h1 h2 k2
    cases x <;> simp [Kind.means] at h1 h2
    simp only [List.all_eq_true, List.mem_range] at k2
    have := k2 n (by omega) n' (by omega)
    rw [h1, h2] at this
    simpa using this
  | openCode cs => rw [hk] at k2; cases k2

theorem cvmResults_eq (a b c : Byte) :
    CvmResults.tryFrom [a, b, c] = (do
      let rule ← cvRuleTryFrom [a, b]
      let result ← enumTryFrom cvmResultTable .nonCompliant c
      .ok ⟨rule, result⟩) := by
  have hff : ∀ x : Byte, x &&& 0b11111111 = x := by
    apply forall_byte; decide +kernel
  have h1 : cvRuleTryFrom [a &&& 0b01111111, b] = cvRuleTryFrom [a, b] := by
    apply tryFrom_agree cvRule_ok
    refine ⟨rfl, ?_⟩
    have ha : ∀ x : Byte, bits (x &&& 0b01111111) 7 7 = bits x 7 7 ∧
        bits (x &&& 0b01111111) 6 1 = bits x 6 1 := by
      apply forall_byte; decide +kernel
    intro t ht
    simp only [cvRuleItems, List.mem_cons, List.not_mem_nil, or_false] at ht
    rcases ht with rfl | rfl | rfl
    · exact (ha a).1
    · exact (ha a).2
    · rfl
  rw [CvmResults.tryFrom, if_neg (by simp)]
  simp only [maskBytes, cvmResultsMask, hff, Out.ok_bind]
  rw [← h1]
  rfl

theorem cvmResults_wrong (bs : List Byte) (h : bs.length ≠ 3) :
    CvmResults.tryFrom bs = .err (.byteCountIncorrect .eq 3 bs.length) := by
  rw [CvmResults.tryFrom, if_pos h]

theorem cvRule_total (a b : Byte) : ∃ v, cvRuleTryFrom [a, b] = .ok v := by
  rw [cvRuleTryFrom, ok_iff cvRule_ok]
  refine ⟨rfl, ?_⟩
  intro t ht
  simp only [cvRuleItems, List.mem_cons, List.not_mem_nil, or_false] at ht
  rcases ht with rfl | rfl | rfl <;> rfl

theorem cvmResult_code (c : Byte) :
    (∃ r, enumTryFrom cvmResultTable .nonCompliant c = .ok r ∧ r.toByte = c ∧ c.toNat ≤ 2 ∧
      [(0, "Unknown"), (1, "Failed"), (2, "Successful")].lookup c.toNat = some r.name ∧
      r ∈ cvmResultTable) ∨
    (enumTryFrom cvmResultTable .nonCompliant c = .err .nonCompliant ∧ 2 < c.toNat) := by
  by_cases h : c.toNat ≤ 2
  · left
    have : c = 0 ∨ c = 1 ∨ c = 2 := by
      have : c.toNat = 0 ∨ c.toNat = 1 ∨ c.toNat = 2 := by omega
      rcases this with h | h | h
      · exact Or.inl (UInt8.toNat_inj.1 h)
      · exact Or.inr (Or.inl (UInt8.toNat_inj.1 h))
      · exact Or.inr (Or.inr (UInt8.toNat_inj.1 h))
    rcases this with rfl | rfl | rfl <;> exact ⟨_, rfl, rfl, by decide, rfl, by decide⟩
  · right
    refine ⟨?_, by omega⟩
    have key : ∀ n, n < 256 → 2 < n → enumTryFrom cvmResultTable .nonCompliant (UInt8.ofNat n) =
        .err .nonCompliant := by decide +kernel
    have := key c.toNat c.toNat_lt (by omega)
    simpa using this

theorem eq_three {bs : List Byte} (h : bs.length = 3) : ∃ a b c, bs = [a, b, c] := by
  match bs, h with
  | [a, b, c], _ => exact ⟨a, b, c, rfl⟩

end Pemv
