import Verif.Proofs.Work
import Verif.Proofs.IngenicoTree
import Verif.Proofs.BerTree

/-! # Lemmas about the amount of work: Ingenico and automatic detection -/

namespace Pemv

open Spec Counted

theorem sq_bound (C a b v L : Nat) (hC : 3 ≤ C) (hL : a + b + v + 2 ≤ L) :
    12 + 12 * a + 12 * b + 3 * (a * a) + C * (v * v) + 4 * (C * v) ≤ C * (L * L) := by
  have h1 : (a + b + v + 2) * (a + b + v + 2) ≤ L * L := Nat.mul_le_mul hL hL
  have h2 := Nat.mul_le_mul_left C h1
  have h3 : a * a + v * v + 4 * v + (4 + 4 * a + 4 * b) ≤ (a + b + v + 2) * (a + b + v + 2) := by
    simp only [Nat.mul_add, Nat.add_mul]
    omega
  have h4 := Nat.mul_le_mul_left C h3
  have h5 : 3 * (4 + 4 * a + 4 * b) ≤ C * (4 + 4 * a + 4 * b) := Nat.mul_le_mul_right _ hC
  have h6 : 3 * (a * a) ≤ C * (a * a) := Nat.mul_le_mul_right _ hC
  have h7 : C * (a * a + v * v + 4 * v + (4 + 4 * a + 4 * b)) =
      C * (a * a) + C * (v * v) + 4 * (C * v) + C * (4 + 4 * a + 4 * b) := by
    rw [Nat.mul_add, Nat.mul_add, Nat.mul_add, Nat.mul_left_comm C 4 v]
  omega

theorem sq_add (C t q L : Nat) (h : t + q ≤ L) : C * (t * t) + C * (q * q) ≤ C * (L * L) := by
  have h1 : (t + q) * (t + q) ≤ L * L := Nat.mul_le_mul h h
  have h2 : t * t + q * q ≤ (t + q) * (t + q) := by
    simp only [Nat.mul_add, Nat.add_mul]
    omega
  rw [← Nat.mul_add]
  exact Nat.mul_le_mul_left C (by omega)

/-! ### The parts of a record -/

theorem parseHexStrStrictW_work {s : Text} (h : ∀ c ∈ s, c.toNat < 128) :
    (parseHexStrStrictW s).work ≤ 3 * s.length := by
  rw [parseHexStrStrictW]
  simp only [tick_work, asBytes_length_of_ascii h]
  split
  · simp only [free_work]; omega
  · rw [parseHexStrW]
    simp only [tick_work, asBytes_length_of_ascii h, free_work]
    omega

theorem trimLeading0BytesW_work (bs : List Byte) :
    2 * (trimLeading0BytesW bs).work ≤ bs.length * (bs.length + 1) := by
  induction bs with
  | nil => exact Nat.zero_le _
  | cons a bs ih =>
    cases bs with
    | nil => exact Nat.zero_le _
    | cons b rest =>
      simp only [trimLeading0BytesW, tick_work]
      generalize hn : (b :: rest).length = n at *
      have hn' : (a :: b :: rest).length = n + 1 := by rw [← hn]; rfl
      have h1 : (n + 1) * (n + 1 + 1) = n * (n + 1) + 2 * (n + 1) := by
        simp only [Nat.mul_add, Nat.add_mul]
        omega
      rw [hn', h1]
      split
      · simp only [tick_work]
        omega
      · simp only [free_work]
        omega

theorem findColonW_work {m : Machine} (pre s : Text) :
    (findColonW m (pre ++ s) pre.length).work =
      match splitColon s with
      | none => s.length
      | some (a, _) => a.length + 1 := by
  have hs : slice (pre ++ s) pre.length (pre ++ s).length = .ok s := by
    have := slice_append pre s [] pre.length (pre ++ s).length rfl (by simp)
    simpa using this
  rw [findColonW, hs]
  simp only [free_ok_work]
  rw [findIdx_splitColon]
  cases splitColon s with
  | none => rfl
  | some p => rfl

theorem ingValueW_work {m : Machine} (masks : List Char) (pre : Text) (fmt : Char) (s : Text) (n : Nat)
    (hn : n < 2 ^ 32) (hm : pre.length + 1 + s.length + 2 ^ 34 ≤ 2 ^ m.usizeBits)
    (hs : ∀ c ∈ s, c.toNat < 128) :
    (ingValueW m masks (pre ++ fmt :: s) pre.length n).work ≤
      match readValue masks fmt n s with
      | none => (masks.length + 3) * s.length
      | some (value, _) => (masks.length + 3) * value.length := by
  generalize hP : 2 ^ m.usizeBits = P at hm
  rw [ingValueW, index_append, readValue]
  simp only [free_ok_work]
  have hsl : ∀ k, k ≤ s.length → slice (pre ++ fmt :: s) (pre.length + 1) (pre.length + 1 + k) =
      .ok (s.take k) := by
    intro k hk
    have := slice_append (pre ++ [fmt]) (s.take k) (s.drop k) (pre.length + 1) (pre.length + 1 + k)
      (by simp) (by simp; omega)
    simpa using this
  have hasc : ∀ k, ∀ c ∈ s.take k, c.toNat < 128 := fun k c hc => hs c (List.mem_of_mem_take hc)
  by_cases ha : fmt = 'a'
  · subst ha
    rw [if_pos rfl, if_pos rfl, add_ok (by omega)]
    simp only [free_ok_work]
    rw [add_ok (by omega)]
    simp only [free_ok_work]
    by_cases hl : s.length < n
    · rw [if_pos (by simp; omega), if_pos hl]
      exact Nat.zero_le _
    · rw [if_neg (by simp; omega), if_neg hl, hsl n (by omega)]
      simp only [free_ok_work, tick_work]
      have hlen : (s.take n).length = n := by rw [List.length_take]; omega
      simp only [hlen, Nat.add_mul]
      split
      · simp only [free_work]; omega
      · simp only [tick_work, free_work, asBytes_length_of_ascii (hasc n), hlen]
        omega
  · rw [if_neg ha, if_neg ha]
    by_cases hh : fmt = 'h'
    · subst hh
      rw [if_pos rfl, if_pos rfl, mul_ok (by omega)]
      simp only [free_ok_work]
      rw [add_ok (by omega)]
      simp only [free_ok_work]
      rw [add_ok (by omega)]
      simp only [free_ok_work]
      by_cases hl : s.length < n * 2
      · rw [if_pos (by simp; omega), if_pos hl]
        exact Nat.zero_le _
      · rw [if_neg (by simp; omega), if_neg hl, hsl (n * 2) (by omega)]
        simp only [free_ok_work, tick_work]
        have hlen : (s.take (n * 2)).length = n * 2 := by rw [List.length_take]; omega
        have hw := parseHexStrStrictW_work (hasc (n * 2))
        rw [hlen] at hw
        have hle : (masks.length + 3) * (n * 2) ≤ (masks.length + 3) * s.length := Nat.mul_le_mul_left _ (by omega)
        rw [Nat.add_mul] at hle
        by_cases hmask : isMaskedStr (s.take (n * 2)) masks = true
        · rw [if_pos hmask, if_pos (Or.inl hmask)]
          simp only [hlen, free_work, Nat.add_mul]
          omega
        · rw [if_neg hmask]
          by_cases hx : ∀ c ∈ s.take (n * 2), IsHex c
          · rw [if_pos (Or.inr hx)]
            have ho : ((parseHexStrStrictW (s.take (n * 2))).mapErr (fun _ => .nonCompliant)).out =
                .ok (parseHexStr (s.take (n * 2))) := by
              rw [mapErr_out, parseHexStrStrictW_out, parseHexStrStrict_ok_iff _ hx]; rfl
            rw [bind_work_ok ho]
            simp only [mapErr_work, hlen, free_work, Nat.add_mul]
            omega
          · rw [if_neg (fun h => h.elim hmask hx)]
            have ho : ((parseHexStrStrictW (s.take (n * 2))).mapErr (fun _ => .nonCompliant)).out =
                .err .nonCompliant := by
              rw [mapErr_out, parseHexStrStrictW_out, parseHexStrStrict_err _ hx]; rfl
            rw [bind_work_err ho]
            simp only [mapErr_work, hlen]
            omega
    · rw [if_neg hh, if_neg hh]
      exact Nat.zero_le _

theorem getChildBlockW_ing (parse : List Byte → Counted RawEmvBlock) (t : DataObjectType) (d : EmvData) (K : Nat)
    (v : Text) (hd : ∀ u, d = .normal u → u.length ≤ v.length ∧ 2 * (parse u).work ≤ (K + 2) * (u.length * (u.length + 2))) :
    2 * (getChildBlockW parse t d).work ≤ (K + 3) * (v.length * v.length) + 2 * ((K + 3) * v.length) := by
  cases t with
  | primitive => exact Nat.zero_le _
  | constructed =>
    cases d with
    | masked => exact Nat.zero_le _
    | normal u =>
      obtain ⟨h1, h2⟩ := hd u rfl
      show 2 * (parse u).work ≤ _
      have h3 : u.length * (u.length + 2) ≤ v.length * (v.length + 2) := Nat.mul_le_mul h1 (by omega)
      have h4 : (K + 2) * (u.length * (u.length + 2)) ≤ (K + 3) * (v.length * (v.length + 2)) :=
        Nat.mul_le_mul (by omega) h3
      have h5 : (K + 3) * (v.length * (v.length + 2)) =
          (K + 3) * (v.length * v.length) + 2 * ((K + 3) * v.length) := by
        rw [Nat.mul_add, Nat.mul_add, Nat.mul_comm v.length 2, Nat.mul_left_comm (K + 3) 2 v.length]
      omega

/-! ### One record -/

theorem ingStepW_work {m : Machine} (masks : List Char) (parse : List Byte → Counted RawEmvBlock)
    (pre s : Text) (hne : s ≠ []) (hm : Fits m (pre.length + s.length))
    (hs : ∀ c ∈ s, c.toNat < 128)
    (hp : ∀ v : List Byte, v.length < s.length → (parse v).out.isReturned = true)
    (hw : ∀ v : List Byte, v.length < s.length →
      2 * (parse v).work ≤ (masks.length + 2) * (v.length * (v.length + 2))) :
    2 * (ingStepW m masks parse (pre ++ s) pre.length).work ≤
      match readRecord masks s with
      | .error _ => (masks.length + 3) * (s.length * s.length)
      | .ok (r, _) => (masks.length + 3) * (r.text.length * r.text.length) := by
  have hM : pre.length + s.length + 2 ^ 34 ≤ 2 ^ m.usizeBits := hm
  generalize hP : 2 ^ m.usizeBits = P at hM
  have hC : 3 ≤ masks.length + 3 := by omega
  generalize hCe : masks.length + 3 = C at hC ⊢
  cases s with
  | nil => exact absurd rfl hne
  | cons typ s1 =>
    simp only [List.length_cons] at hM
    rw [ingStepW, index_append, readRecord]
    simp only [tick_work, free_ok_work]
    rw [add_ok (by omega)]
    simp only [free_ok_work]
    cases s1 with
    | nil =>
      rw [if_pos (by simp)]
      show 2 * (1 + 0) ≤ C * (1 * 1)
      omega
    | cons c0 s1' =>
      rw [if_neg (by simp)]
      generalize hs1 : c0 :: s1' = s1 at *
      have hL : 1 ≤ s1.length := by rw [← hs1]; simp
      have hfc := findColon_eq (m := m) (pre ++ [typ]) s1 (by rw [hP]; simp; omega)
      have hfw := findColonW_work (m := m) (pre ++ [typ]) s1
      rw [← findColonW_out] at hfc
      rw [show (pre ++ [typ]).length = pre.length + 1 by simp,
        show pre ++ [typ] ++ s1 = pre ++ typ :: s1 by simp] at hfc hfw
      cases hsp : splitColon s1 with
      | none =>
        rw [hsp] at hfc hfw
        rw [bind_work_err hfc, hfw]
        have := sq_bound C 0 (s1.length - 1) 0 (typ :: s1).length hC (by simp; omega)
        simp only [List.length_cons] at this ⊢
        omega
      | some p =>
        obtain ⟨tagHex, s2⟩ := p
        rw [hsp] at hfc hfw
        rw [bind_work_ok hfc, hfw]
        obtain ⟨e1, hnc1⟩ := splitColon_some hsp
        have l1 : s1.length = tagHex.length + (s2.length + 1) := by rw [e1]; simp
        simp only
        have hsl : slice (pre ++ typ :: s1) (pre.length + 1) (pre.length + 1 + tagHex.length) =
            .ok tagHex := by
          have := slice_append (pre ++ [typ]) tagHex (':' :: s2) (pre.length + 1)
            (pre.length + 1 + tagHex.length) (by simp) (by simp)
          rw [e1]; simpa using this
        rw [hsl]
        simp only [free_ok_work]
        have hwt := parseHexStrStrictW_work (s := tagHex) (fun c hc => hs c (by rw [e1]; simp [hc]))
        by_cases htag : ∀ c ∈ tagHex, IsHex c
        · have ho : ((parseHexStrStrictW tagHex).mapErr (fun _ => .nonCompliant)).out = .ok (hexBytes tagHex) := by
            rw [mapErr_out, parseHexStrStrictW_out, parseHexStrStrict_ok_iff _ htag, parseHexStr_eq]; rfl
          rw [bind_work_ok ho, mapErr_work]
          have hto : (trimLeading0BytesW (hexBytes tagHex)).out = .ok (stripZeros (hexBytes tagHex)) := by
            rw [trimLeading0BytesW_out, trim_eq_strip]
          rw [bind_work_ok hto]
          have htw : 2 * (trimLeading0BytesW (hexBytes tagHex)).work ≤ tagHex.length * tagHex.length + tagHex.length := by
            refine Nat.le_trans (trimLeading0BytesW_work _) ?_
            have := hexBytes_le tagHex
            exact Nat.le_trans (Nat.mul_le_mul this (Nat.add_le_add_right this 1)) (by rw [Nat.mul_add]; omega)
          rw [add_ok (by omega)]
          simp only [free_ok_work]
          have hnil : stripZeros (hexBytes tagHex) = [] ↔ tagHex.length < 2 := by
            rw [strip_eq_nil, hexBytes_eq_nil htag]
          have hsq1 := sq_bound C tagHex.length s2.length 0 (typ :: s1).length hC (by simp; omega)
          generalize hTW : (trimLeading0BytesW (hexBytes tagHex)).work = TW at *
          by_cases h2 : tagHex.length < 2
          · rw [if_pos (Or.inr (hnil.2 h2)), if_pos (Or.inr h2)]
            simp only [free_work, List.length_cons] at hsq1 ⊢
            omega
          · rw [if_neg (c := ¬ (∀ c ∈ tagHex, IsHex c) ∨ tagHex.length < 2)
              (fun h => h.elim (fun h => h htag) h2)]
            by_cases hs2 : s2 = []
            · subst hs2
              rw [if_pos (Or.inl (by simp [l1]; omega))]
              simp only [free_work, List.length_cons, splitColon] at hsq1 ⊢
              show _ ≤ C * ((s1.length + 1) * (s1.length + 1))
              omega
            · have hs2pos : 0 < s2.length := List.length_pos_iff.2 hs2
              have htne : stripZeros (hexBytes tagHex) ≠ [] := fun h => h2 (hnil.1 h)
              rw [if_neg (fun h => h.elim (fun h => by simp [l1] at h; omega) htne)]
              obtain ⟨b0, t0, hbt⟩ : ∃ b t, stripZeros (hexBytes tagHex) = b :: t := by
                cases h : stripZeros (hexBytes tagHex) with
                | nil => exact absurd h htne
                | cons b t => exact ⟨b, t, rfl⟩
              rw [hbt, show index (b0 :: t0) 0 = .ok b0 from rfl]
              simp only [free_ok_work]
              rw [parseTagMetadata_eq b0 t0]
              simp only [free_ok_work]
              have hfc2 := findColon_eq (m := m) (pre ++ typ :: tagHex ++ [':']) s2
                (by rw [hP]; simp; omega)
              have hfw2 := findColonW_work (m := m) (pre ++ typ :: tagHex ++ [':']) s2
              rw [← findColonW_out] at hfc2
              rw [show (pre ++ typ :: tagHex ++ [':']).length = pre.length + 1 + tagHex.length + 1 by
                  simp; omega,
                show pre ++ typ :: tagHex ++ [':'] ++ s2 = pre ++ typ :: s1 by rw [e1]; simp] at hfc2 hfw2
              cases hsp2 : splitColon s2 with
              | none =>
                rw [hsp2] at hfc2 hfw2
                rw [bind_work_err hfc2, hfw2]
                simp only [List.length_cons] at hsq1 ⊢
                omega
              | some q =>
                obtain ⟨lenHex, s3⟩ := q
                rw [hsp2] at hfc2 hfw2
                rw [bind_work_ok hfc2, hfw2]
                obtain ⟨e2, hnc2⟩ := splitColon_some hsp2
                have l2 : s2.length = lenHex.length + (s3.length + 1) := by rw [e2]; simp
                simp only
                have hsl2 : slice (pre ++ typ :: s1) (pre.length + 1 + tagHex.length + 1)
                    (pre.length + 1 + tagHex.length + 1 + lenHex.length) = .ok lenHex := by
                  have := slice_append (pre ++ typ :: tagHex ++ [':']) lenHex (':' :: s3)
                    (pre.length + 1 + tagHex.length + 1)
                    (pre.length + 1 + tagHex.length + 1 + lenHex.length) (by simp; omega)
                    (by simp; omega)
                  rw [e1, e2]; simpa using this
                rw [hsl2]
                simp only [free_ok_work]
                have hwl := parseHexStrStrictW_work (s := lenHex) (fun c hc => hs c (by rw [e1, e2]; simp [hc]))
                by_cases hlen : ∀ c ∈ lenHex, IsHex c
                · have ho2 : ((parseHexStrStrictW lenHex).mapErr (fun _ => .nonCompliant)).out =
                      .ok (hexBytes lenHex) := by
                    rw [mapErr_out, parseHexStrStrictW_out, parseHexStrStrict_ok_iff _ hlen, parseHexStr_eq]; rfl
                  rw [bind_work_ok ho2, mapErr_work]
                  have hbl := hexBytes_length hlen
                  rw [if_neg (c := ¬ (∀ c ∈ lenHex, IsHex c)) (fun h => h hlen)]
                  by_cases h9 : 9 < lenHex.length
                  · rw [if_pos (by omega), if_pos h9]
                    simp only [free_work, List.length_cons] at hsq1 ⊢
                    omega
                  · have h4 : (hexBytes lenHex).length ≤ 4 := by omega
                    have hn : beValue (hexBytes lenHex) < 2 ^ 32 :=
                      calc beValue (hexBytes lenHex) < 256 ^ (hexBytes lenHex).length := beValue_lt _
                        _ ≤ 256 ^ 4 := Nat.pow_le_pow_right (by omega) h4
                        _ = 2 ^ 32 := by decide
                    rw [if_neg (by omega), if_neg h9, byteSliceToU32_ok h4]
                    simp only [tick_work, free_ok_work]
                    rw [add_ok (by omega)]
                    simp only [free_ok_work]
                    cases s3 with
                    | nil =>
                      rw [if_pos (by simp at *; omega)]
                      simp only [free_work, List.length_cons] at hsq1 ⊢
                      omega
                    | cons fmt s4 =>
                      simp only [List.length_cons] at l2
                      rw [if_neg (by simp at *; omega)]
                      have hiv := ingValue_eq (m := m) masks
                        (pre ++ typ :: tagHex ++ ':' :: lenHex ++ [':']) fmt s4 _ hn
                        (by rw [hP]; simp; omega)
                        (fun c hc => hs c (by rw [e1, e2]; simp [hc]))
                      have hvw := ingValueW_work (m := m) masks
                        (pre ++ typ :: tagHex ++ ':' :: lenHex ++ [':']) fmt s4 _ hn
                        (by rw [hP]; simp; omega)
                        (fun c hc => hs c (by rw [e1, e2]; simp [hc]))
                      rw [← ingValueW_out] at hiv
                      rw [show (pre ++ typ :: tagHex ++ ':' :: lenHex ++ [':']).length =
                          pre.length + 1 + tagHex.length + 1 + lenHex.length + 1 by simp; omega,
                        show pre ++ typ :: tagHex ++ ':' :: lenHex ++ [':'] ++ fmt :: s4 =
                          pre ++ typ :: s1 by rw [e1, e2]; simp] at hiv hvw
                      rw [hCe] at hvw
                      simp only
                      cases hrv : readValue masks fmt (beValue (hexBytes lenHex)) s4 with
                      | none =>
                        rw [hrv] at hiv hvw
                        rw [bind_work_err hiv]
                        simp only at hvw
                        have hsq2 := sq_bound C tagHex.length lenHex.length s4.length (typ :: s1).length hC
                          (by simp; omega)
                        simp only [List.length_cons] at hsq2 ⊢
                        omega
                      | some w =>
                        obtain ⟨value, rest⟩ := w
                        rw [hrv] at hiv hvw
                        rw [bind_work_ok hiv]
                        simp only at hvw
                        obtain ⟨hsv, -⟩ := readValue_spec hrv
                        have l4 : s4.length = value.length + rest.length := by rw [hsv]; simp
                        simp only
                        rw [add_ok (by omega)]
                        simp only [free_ok_work]
                        have htl : (Record.mk typ tagHex lenHex fmt value).text.length =
                            tagHex.length + lenHex.length + value.length + 4 := by
                          simp [Record.text]; omega
                        have hsq2 := sq_bound C tagHex.length lenHex.length value.length _ hC
                          (show _ ≤ (Record.mk typ tagHex lenHex fmt value).text.length by omega)
                        rw [htl] at hsq2 ⊢
                        by_cases hT : typ = 'T'
                        · rw [if_neg (by simp [hT])]
                          have hdata : ∀ v, Record.data masks ⟨'T', [], [], fmt, value⟩ = .normal v →
                              v.length ≤ value.length := fun v hv => record_data_le hv
                          have hgo : (getChildBlockW parse (typeOf (b0 :: t0))
                              (Record.data masks ⟨'T', [], [], fmt, value⟩)).out =
                              .ok (childrenOf (fun v => (parse v).out) (typeOf (b0 :: t0))
                                (Record.data masks ⟨'T', [], [], fmt, value⟩)) := by
                            rw [getChildBlockW_out]
                            exact getChildBlock_of_returned _ _ _ (fun v hv => hp v (by
                              have := hdata v hv
                              simp only [List.length_cons]
                              omega))
                          rw [bind_work_ok hgo]
                          have hgw := getChildBlockW_ing parse (typeOf (b0 :: t0))
                            (Record.data masks ⟨'T', [], [], fmt, value⟩) masks.length value (fun v hv =>
                              ⟨hdata v hv, hw v (by
                                have := hdata v hv
                                simp only [List.length_cons]
                                omega)⟩)
                          rw [hCe] at hgw
                          simp only [free_work]
                          omega
                        · rw [if_pos hT]
                          simp only [free_work]
                          omega
                · have ho2 : ((parseHexStrStrictW lenHex).mapErr (fun _ => .nonCompliant)).out =
                      .err .nonCompliant := by
                    rw [mapErr_out, parseHexStrStrictW_out, parseHexStrStrict_err _ hlen]; rfl
                  rw [bind_work_err ho2, mapErr_work, if_pos hlen]
                  simp only [List.length_cons] at hsq1 ⊢
                  omega
        · have ho : ((parseHexStrStrictW tagHex).mapErr (fun _ => .nonCompliant)).out = .err .nonCompliant := by
            rw [mapErr_out, parseHexStrStrictW_out, parseHexStrStrict_err _ htag]; rfl
          rw [bind_work_err ho, mapErr_work, if_pos (Or.inl htag)]
          have := sq_bound C tagHex.length s2.length 0 (typ :: s1).length hC (by simp; omega)
          simp only [List.length_cons] at this ⊢
          omega

/-! ### The whole text -/

theorem ingLoopW_work {m : Machine} (masks : List Char) (parse : List Byte → Counted RawEmvBlock)
    (fuel : Nat) (pre s : Text) (nodes : RawEmvBlock) (hf : s.length ≤ fuel)
    (hm : Fits m (pre.length + s.length)) (hs : ∀ c ∈ s, c.toNat < 128)
    (hp : ∀ v : List Byte, v.length < s.length → (parse v).out.isReturned = true)
    (hw : ∀ v : List Byte, v.length < s.length →
      2 * (parse v).work ≤ (masks.length + 2) * (v.length * (v.length + 2))) :
    2 * (ingLoopW m masks parse (pre ++ s) fuel pre.length nodes).work ≤
      (masks.length + 3) * (s.length * s.length) := by
  induction fuel generalizing pre s nodes with
  | zero =>
    have : s = [] := List.length_eq_zero_iff.1 (by omega)
    subst this
    rw [ingLoopW, if_neg (by simp)]
    exact Nat.zero_le _
  | succ fuel ih =>
    by_cases hne : s = []
    · subst hne
      rw [ingLoopW, if_neg (by simp)]
      exact Nat.zero_le _
    · have hpos : 0 < s.length := List.length_pos_iff.2 hne
      rw [ingLoopW, if_pos (by simp; omega)]
      simp only
      have hso := ingStep_eq masks (fun v => (parse v).out) pre s hne hm hs hp
      rw [← ingStepW_out] at hso
      have hsw := ingStepW_work masks parse pre s hne hm hs hp hw
      cases hr : readRecord masks s with
      | error e =>
        rw [hr] at hso hsw
        rw [bind_work_err hso]
        exact hsw
      | ok p =>
        obtain ⟨r, rest⟩ := p
        rw [hr] at hso hsw
        simp only at hso hsw
        have h1 := (readRecord_split hr).1
        have hlen : s.length = r.text.length + rest.length := by rw [h1]; simp
        have htl := text_length r
        rw [bind_work_ok hso]
        simp only
        cases rest with
        | nil =>
          have : ¬ pre.length + r.text.length + 1 < (pre ++ s).length := by
            simp [hlen]
          have h0 : ∀ ns, (ingLoopW m masks parse (pre ++ s) fuel (pre.length + r.text.length + 1) ns).work = 0 := by
            intro ns
            cases fuel <;> rw [ingLoopW, if_neg this] <;> rfl
          rw [h0]
          have := sq_add (masks.length + 3) r.text.length 0 s.length (by omega)
          omega
        | cons sep rest =>
          simp only [List.length_cons] at hlen
          have := ih (pre ++ r.text ++ [sep]) rest
            (nodes ++ (if r.typ = 'T' then some (r.node (fun v => (parse v).out) masks) else none).toList) (by omega)
            (by
              have : (pre ++ r.text ++ [sep]).length + rest.length = pre.length + s.length := by
                simp; omega
              rw [this]; exact hm)
            (fun c hc => hs c (by rw [h1]; simp [hc])) (fun v hv => hp v (by omega)) (fun v hv => hw v (by omega))
          rw [show pre ++ r.text ++ [sep] ++ rest = pre ++ s by rw [h1]; simp,
            show (pre ++ r.text ++ [sep]).length = pre.length + r.text.length + 1 by simp; omega] at this
          have h2 := sq_add (masks.length + 3) r.text.length rest.length s.length (by omega)
          omega

theorem length_le_asBytes (s : Text) : s.length ≤ (asBytes s).length := by
  induction s with
  | nil => exact Nat.zero_le _
  | cons c s ih =>
    rw [asBytes, List.flatMap_cons, List.length_append, List.length_cons]
    have : 1 ≤ (String.utf8EncodeChar c).length := by
      rw [String.length_utf8EncodeChar]
      exact Char.utf8Size_pos c
    have ih' : s.length ≤ (s.flatMap String.utf8EncodeChar).length := ih
    omega

theorem ingParseW_work {m : Machine} (masks : List Char) (s : Text) (hm : Fits m s.length) :
    2 * (ingParseW m s masks).work ≤ (masks.length + 3) * ((asBytes s).length * ((asBytes s).length + 2)) := by
  have h3 : 3 * (2 * (asBytes s).length) ≤ (masks.length + 3) * (2 * (asBytes s).length) :=
    Nat.mul_le_mul_right _ (by omega)
  rw [Nat.mul_add, Nat.mul_add, Nat.mul_comm _ 2]
  rw [ingParseW]
  simp only [tick_work]
  by_cases hs : ∀ c ∈ s, c.toNat < 128
  · have ha : isAscii s = true := (isAscii_iff s).2 hs
    rw [ha]
    simp only [Bool.not_true, Bool.false_eq_true, if_false, tick_work]
    have := ingLoopW_work (m := m) masks (fun v => berParseW m v masks) (s.length + 1) [] s [] (by omega)
      (by simpa using hm) hs
      (fun v hv => by
        rw [berParseW_out]
        exact berParse_returned masks v (fits_mono hm (by omega)))
      (fun v hv => berParseW_work masks v (fits_mono hm (by omega)))
    simp only [List.nil_append, List.length_nil] at this
    rw [asBytes_length_of_ascii hs] at h3 ⊢
    omega
  · have : isAscii s = false := by
      cases h : isAscii s with
      | false => rfl
      | true => exact absurd ((isAscii_iff s).1 h) hs
    rw [this]
    simp only [Bool.not_false, if_true, free_work]
    omega

theorem parseHexStr_bytes_le (s : Text) : 2 * (parseHexStr s).length ≤ (asBytes s).length := by
  rw [parseHexStr]
  have h : ∀ n, ∀ l : List Byte, l.length ≤ n → 2 * (pairNibbles l).length ≤ l.length := by
    intro n
    induction n with
    | zero =>
      intro l hl
      have : l = [] := List.length_eq_zero_iff.1 (by omega)
      subst this
      simp [pairNibbles]
    | succ n ih =>
      intro l hl
      match l with
      | [] => simp [pairNibbles]
      | [_] => simp [pairNibbles]
      | a :: b :: r =>
        have := ih r (by simp at hl; omega)
        simp only [pairNibbles, List.length_cons]
        omega
  have h1 := h _ ((asBytes s).filterMap hexVal) (Nat.le_refl _)
  have h2 := List.length_filterMap_le hexVal (asBytes s)
  omega

theorem autoParseW_work {m : Machine} (masks : List Char) (s : Text) (hm : Fits m (asBytes s).length) :
    (autoParseW m s masks).work ≤ (masks.length + 3) * ((asBytes s).length * ((asBytes s).length + 2)) := by
  have hm' : Fits m s.length := fits_mono hm (length_le_asBytes s)
  have h1 := ingParseW_work masks s hm'
  have hle := parseHexStr_bytes_le s
  have h2 := berParseW_work masks (parseHexStr s) (fits_mono hm (by omega))
  have hb : (do let bytes ← parseHexStrW s; berParseW m bytes masks : Counted RawEmvBlock).work =
      (asBytes s).length + (berParseW m (parseHexStr s) masks).work := by
    have ho : (parseHexStrW s).out = .ok (parseHexStr s) := rfl
    rw [bind_work_ok ho]
    rfl
  generalize hN : (asBytes s).length = N at *
  generalize (parseHexStr s).length = n at *
  -- the bytes are at most half as many
  have h3 : 2 * N + (masks.length + 2) * (n * (n + 2)) ≤ (masks.length + 3) * (N * (N + 2)) := by
    have h4 : (masks.length + 2) * (n * (n + 2)) ≤ (masks.length + 2) * (N * (N + 2)) :=
      Nat.mul_le_mul_left _ (Nat.mul_le_mul (by omega) (by omega))
    have h5 : (masks.length + 3) * (N * (N + 2)) = (masks.length + 2) * (N * (N + 2)) + N * (N + 2) := by
      rw [show masks.length + 3 = masks.length + 2 + 1 by omega, Nat.add_mul, Nat.one_mul]
    have h6 : 2 * N ≤ N * (N + 2) := by rw [Nat.mul_comm]; exact Nat.mul_le_mul_left _ (by omega)
    omega
  rw [autoParseW]
  split
  · exact Nat.zero_le _
  · simp only [hb]
    split
    · simp only; omega
    · simp only; omega
    · simp only; omega
    · split <;> simp only <;> omega

/-! ### The bound is of the right order -/

theorem nest_work {m : Machine} (masks : List Char) (d : Nat) (h : 6 * d + 2 < 2 ^ 32)
    (hm : Fits m (nest d).encode.length) : 2 * (d + 1) ≤ (nest d).encode.length ∧
    ∀ D, (nest d).encode.length < D → d * d ≤ (berParseFW m masks D (nest d).encode).work := by
  induction d with
  | zero => exact ⟨by decide, fun _ _ => by simp⟩
  | succ d ih =>
    obtain ⟨hwf, hle, -⟩ := nest_encode d (by omega) masks
    obtain ⟨hwf', -, -⟩ := nest_encode (d + 1) h masks
    have h4 : encodeAll [nest d] = (nest d).encode := by simp [encodeAll]
    let e : Elem := ⟨[0x70], encodeLength (nest d).encode.length, (nest d).encode⟩
    have hbytes : (nest (d + 1)).encode = e.bytes := by
      simp only [nest, Obj.encode, h4, e, Elem.bytes]
    have hlspec := encodeLength_spec (n := (nest d).encode.length) (by omega)
    have hew : e.WF := ⟨.low 0x70 (by decide), hlspec⟩
    have hlen := elem_length hew
    obtain ⟨h1, h2⟩ := ih (by omega) (fits_mono hm (by rw [hbytes]; exact Nat.le_trans (Nat.le_add_right _ 2) hlen))
    have hv : e.value = (nest d).encode := rfl
    rw [hv] at hlen
    refine ⟨by rw [hbytes]; omega, fun D hD => ?_⟩
    cases D with
    | zero => omega
    | succ D =>
      rw [hbytes] at hD hm ⊢
      have hread : readElem e.bytes = .ok (e, []) :=
        (readElem_iff _ _ _).2 ⟨by simp, hew, fun _ hz => by
          have : (nest d).encode = [] := hz.1
          rw [this] at h1
          simp at h1⟩
      have hret : ∀ v : List Byte, v.length < e.bytes.length → (berParseFW m masks D v).out.isReturned = true := by
        intro v hv
        rw [congrFun (berParseFW_out m masks D) v]
        have hv' := berParseF_eq masks v.length v (Nat.le_refl _) (fits_mono hm (by omega))
        rw [hv'.2 D (by omega)]
        exact hv'.1
      have hne : e.bytes ≠ [] := by
        intro h0
        rw [h0] at hlen
        simp at hlen
      have hex := berStepW_exact (m := m) masks (berParseFW m masks D) [] e.bytes hne (by simpa using hm) hret
      have hso := berStep_eq masks (fun v => (berParseFW m masks D v).out) [] e.bytes hne (by simpa using hm)
        (fun v hv => hret v (by omega))
      rw [← berStepW_out] at hso
      rw [hread] at hex hso
      simp only [List.nil_append, List.length_nil] at hex hso
      have hchild : (getChildBlockW (berParseFW m masks D) (typeOf e.tag) (dataOf e.value masks)).work =
          (berParseFW m masks D (nest d).encode).work := by
        have hnm : ¬ IsMasked (latin1 e.value) masks := by
          have := hwf'.2.2.2.1
          rw [h4] at this
          exact this
        rw [dataOf, if_neg hnm]
        rfl
      rw [hchild, hv] at hex
      have hrec := h2 D (by omega)
      rw [berParseFW, berLoopW, if_pos (by omega)]
      simp only
      rw [bind_work_ok hso]
      have htl : e.tag.length = 1 := rfl
      have h5 : (nest d).encode.length ≤ (masks.length + 1) * (nest d).encode.length :=
        Nat.le_mul_of_pos_left _ (by omega)
      have h6 : (d + 1) * (d + 1) = d * d + 2 * d + 1 := by
        simp only [Nat.mul_add, Nat.add_mul]
        omega
      omega

end Pemv
