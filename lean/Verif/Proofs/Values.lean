import Verif.Proofs.BitflagLift
import Verif.Proofs.Ber

/-! # Lemmas about CVM lists and issuer application data -/

namespace Pemv

open Spec

theorem chunksF_two (fuel : Nat) (xs : List Byte) (n : Nat) (hlen : xs.length = 2 * n)
    (hf : xs.length ≤ fuel) :
    (chunksF 2 fuel xs).length = n ∧
    ∀ i a b, xs[2 * i]? = some a → xs[2 * i + 1]? = some b → (chunksF 2 fuel xs)[i]? = some [a, b] := by
  induction fuel generalizing xs n with
  | zero =>
    have : xs = [] := List.eq_nil_of_length_eq_zero (by omega)
    subst this
    have : n = 0 := by simp at hlen; omega
    subst this
    exact ⟨rfl, fun i a b h => by simp at h⟩
  | succ fuel ih =>
    match xs, hlen with
    | [], hlen =>
      have : n = 0 := by simp at hlen; omega
      subst this
      exact ⟨rfl, fun i a b h => by simp at h⟩
    | [_], hlen => simp at hlen; omega
    | x :: y :: zs, hlen =>
      cases n with
      | zero => simp at hlen
      | succ n =>
        simp only [List.length_cons] at hlen hf
        obtain ⟨h1, h2⟩ := ih zs n (by omega) (by omega)
        have e : chunksF 2 (fuel + 1) (x :: y :: zs) = [x, y] :: chunksF 2 fuel zs := by
          simp [chunksF]
        rw [e]
        refine ⟨by simp [h1], ?_⟩
        intro i a b ha hb
        cases i with
        | zero => simp at ha hb; subst ha; subst hb; rfl
        | succ i =>
          have e1 : 2 * (i + 1) = 2 * i + 1 + 1 := by omega
          rw [e1] at ha hb
          simp only [List.getElem?_cons_succ] at ha hb ⊢
          exact h2 i a b ha hb

theorem cvRulesFrom_spec (ps : List (List Byte)) (h : ∀ p ∈ ps, p.length = 2) :
    ∃ rs, cvRulesFrom ps = .ok rs ∧ rs.length = ps.length ∧
      ∀ (i : Nat) (p : List Byte), ps[i]? = some p → ∃ r, rs[i]? = some r ∧ cvRuleTryFrom p = .ok r := by
  induction ps with
  | nil => exact ⟨[], rfl, rfl, by simp⟩
  | cons p ps ih =>
    obtain ⟨rs, h1, h2, h3⟩ := ih (fun q hq => h q (by simp [hq]))
    obtain ⟨a, b, rfl⟩ : ∃ a b, p = [a, b] := by
      have := h p (by simp)
      match p, this with
      | [a, b], _ => exact ⟨a, b, rfl⟩
    obtain ⟨r, hr⟩ := cvRule_total a b
    refine ⟨r :: rs, by simp [cvRulesFrom, hr, h1], by simp [h2], ?_⟩
    intro i q hq
    cases i with
    | zero => simp at hq; subst hq; exact ⟨r, rfl, hr⟩
    | succ i => simpa using h3 i q (by simpa using hq)

theorem chunksF_mem_length (fuel : Nat) (xs : List Byte) (n : Nat) (hlen : xs.length = 2 * n)
    (hf : xs.length ≤ fuel) : ∀ p ∈ chunksF 2 fuel xs, p.length = 2 := by
  obtain ⟨h1, h2⟩ := chunksF_two fuel xs n hlen hf
  intro p hp
  obtain ⟨i, hi, hpi⟩ := List.getElem_of_mem hp
  have hi' : 2 * i + 1 < xs.length := by omega
  have := h2 i xs[2 * i] xs[2 * i + 1] (by simp) (by simp)
  rw [List.getElem?_eq_getElem hi, hpi] at this
  cases this; rfl

theorem slice_ok {α : Type} (xs : List α) (a b : Nat) (h : a ≤ b ∧ b ≤ xs.length) :
    slice xs a b = .ok ((xs.drop a).take (b - a)) := by rw [slice, if_pos h]

theorem cvmList_spec (bs : List Byte) (h8 : 8 ≤ bs.length) (heven : bs.length % 2 = 0) :
    ∃ v, CvmList.tryFrom bs = .ok v ∧ v.xValue = beValue (bs.take 4) ∧
      v.yValue = beValue ((bs.drop 4).take 4) ∧ 2 * v.cvRules.length = bs.length - 8 ∧
      ∀ i a b, bs[8 + 2 * i]? = some a → bs[8 + 2 * i + 1]? = some b →
        ∃ r, v.cvRules[i]? = some r ∧ cvRuleTryFrom [a, b] = .ok r := by
  have hl : (bs.drop 8).length = 2 * ((bs.length - 8) / 2) := by simp; omega
  obtain ⟨c1, c2⟩ := chunksF_two (bs.drop 8).length (bs.drop 8) _ hl (Nat.le_refl _)
  obtain ⟨rs, r1, r2, r3⟩ := cvRulesFrom_spec (chunks 2 (bs.drop 8))
    (chunksF_mem_length _ _ _ hl (Nat.le_refl _))
  refine ⟨⟨beValue (bs.take 4), beValue ((bs.drop 4).take 4), rs⟩, ?_, rfl, rfl, ?_, ?_⟩
  · rw [CvmList.tryFrom, if_neg (by omega), if_neg (by omega)]
    rw [slice_ok bs 0 4 (by omega), slice_ok bs 4 8 (by omega), slice_ok bs 8 bs.length (by omega)]
    simp only [Out.ok_bind, List.drop_zero, Nat.sub_zero]
    rw [byteSliceToU32_ok (by simp; omega), byteSliceToU32_ok (by simp; omega)]
    simp only [Out.ok_bind]
    have : List.take (bs.length - 8) (List.drop 8 bs) = bs.drop 8 := by
      apply List.take_of_length_le; simp
    rw [this, r1]
    rfl
  · simp only [r2, chunks, c1]; omega
  · intro i a b ha hb
    refine r3 i [a, b] (c2 i a b ?_ ?_)
    · rw [List.getElem?_drop]; exact ha
    · rw [List.getElem?_drop, ← Nat.add_assoc]; exact hb

theorem cvr_total (bs : List Byte) (h : bs.length = 5) : ∃ v, cvrLayout.tryFrom bs = .ok v := by
  rw [ok_iff cvr_ok]
  refine ⟨h, ?_⟩
  have key : ∀ t ∈ cvrItems, (match t.kind with
      | .code cs => decide (t.hi + 1 - t.lo ≤ 2) && (List.range 4).all (fun n => (cs.lookup n).isSome)
      | _ => true) = true := by decide +kernel
  intro t ht
  have hk := key t ht
  cases ht' : t.kind with
  | code cs =>
    rw [ht'] at hk
    simp only [Bool.and_eq_true, decide_eq_true_eq, List.all_eq_true, List.mem_range] at hk
    refine hk.2 _ (Nat.lt_of_lt_of_le (Nat.mod_lt _ (Nat.two_pow_pos _)) ?_)
    exact Nat.pow_le_pow_right (n := 2) (by omega) hk.1
  | _ => rfl

theorem cci_byte (b : Byte) : (∃ v, cciLayout.tryFrom [b] = .ok v) ↔ b = 0xA5 ∨ b = 0xA6 := by
  have key : ∀ b : Byte, (∀ t ∈ cciItems, t.kind.accepts (t.bitsOf [b]) = true) ↔ b = 0xA5 ∨ b = 0xA6 := by
    apply forall_byte; decide +kernel
  rw [ok_iff cci_ok]
  simp only [List.length_cons, List.length_nil, true_and]
  exact key b

/-- Issuer application data. -/
theorem iad_spec (bs : List Byte) :
    ((bs.length = 32 ∧ bs[0]? = some 0x0F ∧ bs[16]? = some 0x0F ∧
        (bs[1]? = some 0xA5 ∨ bs[1]? = some 0xA6)) →
      ∃ v, Iad.tryFrom bs = .ok v ∧ cciLayout.tryFrom ((bs.drop 1).take 1) = .ok v.cci ∧
        bs[2]? = some v.dki ∧ cvrLayout.tryFrom ((bs.drop 3).take 5) = .ok v.cvr ∧
        v.counterBytes = (bs.drop 8).take 8 ∧ v.issuerDiscretionaryData = bs.drop 17) ∧
    (¬ (bs.length = 32 ∧ bs[0]? = some 0x0F ∧ bs[16]? = some 0x0F ∧
        (bs[1]? = some 0xA5 ∨ bs[1]? = some 0xA6)) →
      Iad.tryFrom bs = .err .nonCcdCompliant) := by
  by_cases hlen : bs.length = 32
  · have i0 : index bs 0 = .ok bs[0] := by rw [index, List.getElem?_eq_getElem (by omega)]
    have i16 : index bs 16 = .ok bs[16] := by rw [index, List.getElem?_eq_getElem (by omega)]
    have i2 : index bs 2 = .ok bs[2] := by rw [index, List.getElem?_eq_getElem (by omega)]
    have g0 : bs[0]? = some bs[0] := by simp
    have g1 : bs[1]? = some bs[1] := by simp
    have g2 : bs[2]? = some bs[2] := by simp
    have g16 : bs[16]? = some bs[16] := by simp
    have s1 : (bs.drop 1).take 1 = [bs[1]] := by
      rw [List.drop_eq_getElem_cons (by omega)]; rfl
    have s17 : (bs.drop 17).take 15 = bs.drop 17 := List.take_of_length_le (by simp; omega)
    obtain ⟨cvr, hcvr⟩ := cvr_total ((bs.drop 3).take 5) (by simp; omega)
    have e : Iad.tryFrom bs = if bs[0] ≠ 0x0F ∨ bs[16] ≠ 0x0F then .err .nonCcdCompliant else
        (cciLayout.tryFrom [bs[1]] >>= fun cci =>
          Out.ok (Iad.mk cci bs[2] cvr ((bs.drop 8).take 8) (bs.drop 17))) := by
      rw [Iad.tryFrom, if_neg (by omega), i0, i16]
      simp only [Out.ok_bind]
      split
      · rfl
      · rw [slice_ok bs 1 2 (by omega), slice_ok bs 3 8 (by omega), slice_ok bs 8 16 (by omega),
          slice_ok bs 17 32 (by omega), i2]
        simp only [Out.ok_bind, Nat.reduceSub]
        rw [s1, hcvr, s17]
        rfl
    rw [e, g0, g1, g16, g2]
    simp only [Option.some.injEq, hlen, true_and]
    by_cases h0 : bs[0] = 0x0F ∧ bs[16] = 0x0F
    · rw [if_neg (by simp [h0])]
      by_cases h1 : bs[1] = 0xA5 ∨ bs[1] = 0xA6
      · obtain ⟨cci, hcci⟩ := (cci_byte bs[1]).2 h1
        refine ⟨fun _ => ⟨_, by rw [hcci]; rfl, by rw [s1]; exact hcci, rfl, hcvr, rfl, rfl⟩, ?_⟩
        intro hn; exact absurd ⟨h0.1, h0.2, h1⟩ hn
      · refine ⟨fun h => absurd h.2.2 h1, fun _ => ?_⟩
        rcases returned cci_ok [bs[1]] rfl with hok | herr
        · exact absurd ((cci_byte _).1 hok) h1
        · rw [herr]; rfl
    · rw [if_pos (by
        by_cases h : bs[0] = 0x0F
        · exact Or.inr (fun h' => h0 ⟨h, h'⟩)
        · exact Or.inl h)]
      exact ⟨fun h => absurd ⟨h.1, h.2.1⟩ h0, fun _ => rfl⟩
  · refine ⟨fun h => absurd h.1 hlen, fun _ => ?_⟩
    rw [Iad.tryFrom, if_pos hlen]

theorem tvr_all (b : Byte) (flag : Bool) (hb : (b = 0xFF ∧ flag = true) ∨ (b = 0 ∧ flag = false)) :
    ∃ v, tvrLayout.tryFrom [b, b, b, b, b] = .ok v ∧
      ∀ t ∈ tvrItems, tvrLayout.get v t.name = some (.bool flag) := by
  have hacc : ∀ t ∈ tvrItems, t.kind = .flag := by decide +kernel
  obtain ⟨v, hv⟩ := (ok_iff tvr_ok [b, b, b, b, b]).2 ⟨rfl, fun t ht => by rw [hacc t ht]; rfl⟩
  refine ⟨v, hv, ?_⟩
  intro t ht
  obtain ⟨x, hx, hm⟩ := (get_spec tvr_ok hv).1 t ht
  rw [hx]
  have key : ∀ t ∈ tvrItems, t.bitsOf [0xFF, 0xFF, 0xFF, 0xFF, 0xFF] = 1 ∧ t.bitsOf [0, 0, 0, 0, 0] = 0 := by
    decide +kernel
  rw [hacc t ht] at hm
  rcases hb with ⟨rfl, rfl⟩ | ⟨rfl, rfl⟩
  · rw [(key t ht).1] at hm
    cases x <;> simp [Kind.means] at hm; rw [hm]
  · rw [(key t ht).2] at hm
    cases x <;> simp [Kind.means] at hm; rw [hm]

end Pemv
