import Verif.Proofs.Values

/-!
# C49–C52: CVM list, CVM results, issuer application data, issuer action codes
-/

namespace Pemv

open Spec

/-! ### C49 -/

/-- **C49.** A CVM List of at least 8 bytes and even length is its two amounts and its rules in order. -/
theorem c49_accepted (bs : List Byte) (h8 : 8 ≤ bs.length) (heven : bs.length % 2 = 0) :
    ∃ v, CvmList.tryFrom bs = .ok v ∧ v.xValue = beValue (bs.take 4) ∧
      v.yValue = beValue ((bs.drop 4).take 4) ∧ 2 * v.cvRules.length = bs.length - 8 ∧
      ∀ i a b, bs[8 + 2 * i]? = some a → bs[8 + 2 * i + 1]? = some b →
        ∃ r, v.cvRules[i]? = some r ∧ cvRuleTryFrom [a, b] = .ok r :=
  cvmList_spec bs h8 heven

example := c49_accepted [0, 0, 3, 0xE8, 0, 0, 7, 0xD0, 0x42, 0x01, 0x1E, 0x00] (by decide) (by decide)

/-- **C49.** Every other input is rejected with the documented error. -/
theorem c49_rejected (bs : List Byte) :
    (bs.length < 8 → CvmList.tryFrom bs = .err (.byteCountIncorrect .gt 8 bs.length)) ∧
    (8 ≤ bs.length → bs.length % 2 = 1 →
      CvmList.tryFrom bs = .err .byteCountNotDivisibleIntoComponents) := by
  constructor
  · intro h; rw [CvmList.tryFrom, if_pos h]
  · intro h1 h2; rw [CvmList.tryFrom, if_neg (by omega), if_pos (by omega)]

/-- **C49.** Appending a rule to a list appends it to the parsed rules and changes nothing else. -/
theorem c49_append_rule (bs : List Byte) (v : CvmList) (a b : Byte) (r : Value)
    (h : CvmList.tryFrom bs = .ok v) (hr : cvRuleTryFrom [a, b] = .ok r) :
    CvmList.tryFrom (bs ++ [a, b]) = .ok { v with cvRules := v.cvRules ++ [r] } := by
  have h8 : 8 ≤ bs.length := by
    refine Nat.le_of_not_lt (fun hlt => ?_)
    rw [(c49_rejected bs).1 hlt] at h; cases h
  have heven : bs.length % 2 = 0 := by
    refine Classical.byContradiction (fun hne => ?_)
    rw [(c49_rejected bs).2 h8 (by omega)] at h; cases h
  obtain ⟨v1, e1, x1, y1, l1, r1⟩ := c49_accepted bs h8 heven
  obtain ⟨v2, e2, x2, y2, l2, r2⟩ := c49_accepted (bs ++ [a, b]) (by simp; omega) (by simp; omega)
  rw [h] at e1; cases e1
  rw [e2]
  obtain ⟨xv, yv, rules⟩ := v2
  have hx : xv = v.xValue := by
    rw [x1]; simp only at x2; rw [x2, List.take_append_of_le_length (by omega)]
  have hy : yv = v.yValue := by
    rw [y1]; simp only at y2
    rw [y2, List.drop_append_of_le_length (by omega), List.take_append_of_le_length (by simp; omega)]
  have hrules : rules = v.cvRules ++ [r] := by
    apply List.ext_getElem?
    intro i
    simp only [List.length_append, List.length_cons, List.length_nil] at l2
    by_cases hi : i < v.cvRules.length
    · have g1 : 8 + 2 * i < bs.length := by omega
      have g2 : 8 + 2 * i + 1 < bs.length := by omega
      obtain ⟨q, hq, hq'⟩ := r1 i bs[8 + 2 * i] bs[8 + 2 * i + 1] (by simp) (by simp)
      obtain ⟨q2, hq2, hq2'⟩ := r2 i bs[8 + 2 * i] bs[8 + 2 * i + 1]
        (by rw [List.getElem?_append_left g1]; simp) (by rw [List.getElem?_append_left g2]; simp)
      rw [hq'] at hq2'; cases hq2'
      simp only at hq2
      rw [hq2, List.getElem?_append_left hi, hq]
    · by_cases he : i = v.cvRules.length
      · obtain ⟨q2, hq2, hq2'⟩ := r2 i a b
          (by rw [List.getElem?_append_right (by omega), show 8 + 2 * i - bs.length = 0 by omega]; rfl)
          (by rw [List.getElem?_append_right (by omega), show 8 + 2 * i + 1 - bs.length = 1 by omega]; rfl)
        rw [hr] at hq2'; cases hq2'
        simp only at hq2
        rw [hq2, he]; simp
      · rw [List.getElem?_eq_none (by omega), List.getElem?_eq_none (by simp; omega)]
  subst hx hy hrules
  rfl

/-- Amounts 1000 and 2000, "PIN online if cash, else signature". -/
example : (CvmList.tryFrom [0, 0, 3, 0xE8, 0, 0, 7, 0xD0, 0x42, 0x01, 0x1E, 0x00]).map
    (fun v => (v.xValue, v.yValue, v.cvRules.length)) = .ok (1000, 2000, 2) := by decide +kernel

/-! ### C50 -/

/-- **C50.** CVM Results are accepted exactly for three bytes whose last is at most 2; the parsed value is
the rule of the first two bytes and the result with that code. -/
theorem c50_accepted (bs : List Byte) (v : CvmResults) :
    CvmResults.tryFrom bs = .ok v ↔ ∃ a b c, bs = [a, b, c] ∧ c.toNat ≤ 2 ∧
      cvRuleTryFrom [a, b] = .ok v.cvRule ∧ v.result ∈ cvmResultTable ∧ v.result.toByte = c := by
  constructor
  · intro h
    by_cases hlen : bs.length = 3
    · obtain ⟨a, b, c, rfl⟩ := eq_three hlen
      obtain ⟨r, hr⟩ := cvRule_total a b
      rw [cvmResults_eq, hr] at h
      rcases cvmResult_code c with ⟨x, hx, hxc, hle, -, hmem⟩ | ⟨hx, -⟩
      · rw [hx] at h; cases h; exact ⟨a, b, c, rfl, hle, hr, hmem, hxc⟩
      · rw [hx] at h; cases h
    · rw [cvmResults_wrong bs hlen] at h; cases h
  · rintro ⟨a, b, c, rfl, hle, hr, hmem, hxc⟩
    obtain ⟨rule, result⟩ := v
    rw [cvmResults_eq, hr]
    rcases cvmResult_code c with ⟨x, hx, hxc', -, -, hmem'⟩ | ⟨-, hlt⟩
    · have key : ∀ x ∈ cvmResultTable, ∀ y ∈ cvmResultTable, x.toByte = y.toByte → x = y := by decide +kernel
      have := key x hmem' result hmem (hxc'.trans hxc.symm)
      subst this
      rw [hx]; rfl
    · omega

/-- **C50.** In the breakdown the lines of the rule come first, eight bits further left, then the result,
marked as an error exactly when it is "failed". -/
theorem c50_breakdown (a b c : Byte) (v : CvmResults) (h : CvmResults.tryFrom [a, b, c] = .ok v) :
    v.bitDisplayInformation.length = (cvRuleLayout.bitDisplayInformation v.cvRule).length + 1 ∧
    (∀ (i : Nat) (r : EnabledBitRange), (cvRuleLayout.bitDisplayInformation v.cvRule)[i]? = some r →
      v.bitDisplayInformation[i]? = some ⟨r.offset + 8, r.len, r.explanation, r.severity⟩) ∧
    ∃ r, v.bitDisplayInformation.getLast? = some r ∧ r.offset = 7 ∧ r.len = 8 ∧
      r.explanation = (match c.toNat with
        | 0 => "Result: Unknown".toList | 1 => "Result: Failed".toList | _ => "Result: Successful".toList) ∧
      (r.severity = .error ↔ c = 1) := by
  obtain ⟨a', b', c', he, hle, hr, hmem, hxc⟩ := (c50_accepted _ v).1 h
  cases he
  refine ⟨by simp [CvmResults.bitDisplayInformation], ?_, ?_⟩
  · intro i r hi
    rw [CvmResults.bitDisplayInformation, List.getElem?_append_left]
    · rw [List.getElem?_map, hi]; rfl
    · rw [List.length_map]; exact (List.getElem?_eq_some_iff.1 hi).1
  · rw [CvmResults.bitDisplayInformation, List.getLast?_append]
    refine ⟨⟨7, 8, "Result: ".toList ++ v.result.text.toList,
      if v.result.name = "Failed" then .error else .normal⟩, rfl, rfl, rfl, ?_⟩
    have key : ∀ x ∈ cvmResultTable, ("Result: ".toList ++ x.text.toList = (match x.toByte.toNat with
        | 0 => "Result: Unknown".toList | 1 => "Result: Failed".toList | _ => "Result: Successful".toList)) ∧
        ((if x.name = "Failed" then Severity.error else Severity.normal) = Severity.error ↔
          x.toByte = 1) := by decide +kernel
    rw [← hxc]
    exact key _ hmem

example : ∃ v, CvmResults.tryFrom [0x5E, 0x03, 0x01] = .ok v ∧ v.result.name = "Failed" :=
  ⟨_, rfl, rfl⟩

/-! ### C51 -/

/-- **C51.** Issuer application data is accepted exactly if it is 32 bytes, bytes 1 and 17 are 0F and byte 2
is A5 or A6; its parts are then the corresponding slices. -/
theorem c51_accepted (bs : List Byte) (h : bs.length = 32) (h1 : bs[0]? = some 0x0F)
    (h17 : bs[16]? = some 0x0F) (h2 : bs[1]? = some 0xA5 ∨ bs[1]? = some 0xA6) :
    ∃ v, Iad.tryFrom bs = .ok v ∧ cciLayout.tryFrom ((bs.drop 1).take 1) = .ok v.cci ∧
      bs[2]? = some v.dki ∧ cvrLayout.tryFrom ((bs.drop 3).take 5) = .ok v.cvr ∧
      v.counterBytes = (bs.drop 8).take 8 ∧ v.issuerDiscretionaryData = bs.drop 17 :=
  (iad_spec bs).1 ⟨h, h1, h17, h2⟩

example := c51_accepted ([0x0F, 0xA5, 0x01, 0xA0, 0, 0, 0, 0] ++ List.replicate 8 0x11 ++ [0x0F] ++ List.replicate 15 0x22)
  (by decide) (by decide) (by decide) (Or.inl (by decide))

/-- **C51.** Everything else is rejected as not CCD-compliant; nothing panics. -/
theorem c51_rejected (bs : List Byte)
    (h : ¬ (bs.length = 32 ∧ bs[0]? = some 0x0F ∧ bs[16]? = some 0x0F ∧
      (bs[1]? = some 0xA5 ∨ bs[1]? = some 0xA6))) :
    Iad.tryFrom bs = .err .nonCcdCompliant :=
  (iad_spec bs).2 h

example : Iad.tryFrom [0x06, 0x01, 0x0A] = .err .nonCcdCompliant := c51_rejected _ (by decide)

/-- **C51.** No byte is lost: the parts, put together again, are the input up to the reserved bits of the
CVR (all of its fifth byte). -/
theorem c51_lossless (bs : List Byte) (v : Iad) (h : Iad.tryFrom bs = .ok v) :
    [0x0F] ++ cciLayout.binaryRepresentation v.cci ++ [v.dki] ++
      cvrLayout.binaryRepresentation v.cvr ++ v.counterBytes ++ [0x0F] ++ v.issuerDiscretionaryData =
    bs.set 7 0 := by
  by_cases hc : bs.length = 32 ∧ bs[0]? = some 0x0F ∧ bs[16]? = some 0x0F ∧
      (bs[1]? = some 0xA5 ∨ bs[1]? = some 0xA6)
  · obtain ⟨v', hv, hcci, hdki, hcvr, hcnt, hidd⟩ := c51_accepted bs hc.1 hc.2.1 hc.2.2.1 hc.2.2.2
    rw [h] at hv; cases hv
    have k1 : cciLayout.binaryRepresentation v.cci = clearUnused cciItems ((bs.drop 1).take 1) :=
      repr_eq cci_ok hcci (fun t ht => by
        rw [bitValues_listed ⟨cciLayout, 1, cciItems⟩ (by simp [bitValues]) t ht]
        exact ((ok_iff cci_ok _).1 ⟨_, hcci⟩).2 t ht)
    have k2 : cvrLayout.binaryRepresentation v.cvr = clearUnused cvrItems ((bs.drop 3).take 5) :=
      repr_eq cvr_ok hcvr (fun t ht => by
        rw [bitValues_listed ⟨cvrLayout, 5, cvrItems⟩ (by simp [bitValues]) t ht]
        exact ((ok_iff cvr_ok _).1 ⟨_, hcvr⟩).2 t ht)
    have c1 : ∀ b : Byte, clearByte cciItems 1 b = b := by apply forall_byte; decide +kernel
    have c2 : ∀ b : Byte, clearByte cvrItems 1 b = b ∧ clearByte cvrItems 2 b = b ∧
        clearByte cvrItems 3 b = b ∧ clearByte cvrItems 4 b = b ∧ clearByte cvrItems 5 b = 0 := by
      apply forall_byte; decide +kernel
    rw [k1, k2, hcnt, hidd]
    obtain ⟨b0, b1, b2, b3, b4, b5, b6, b7, b8, b9, b10, b11, b12, b13, b14, b15, b16, rest, rfl⟩ :
        ∃ b0 b1 b2 b3 b4 b5 b6 b7 b8 b9 b10 b11 b12 b13 b14 b15 b16 rest,
          bs = b0 :: b1 :: b2 :: b3 :: b4 :: b5 :: b6 :: b7 :: b8 :: b9 :: b10 :: b11 :: b12 :: b13 ::
            b14 :: b15 :: b16 :: rest := by
      have hl := hc.1
      match bs, hl with
      | b0 :: b1 :: b2 :: b3 :: b4 :: b5 :: b6 :: b7 :: b8 :: b9 :: b10 :: b11 :: b12 :: b13 ::
            b14 :: b15 :: b16 :: rest, _ =>
        exact ⟨b0, b1, b2, b3, b4, b5, b6, b7, b8, b9, b10, b11, b12, b13, b14, b15, b16, rest, rfl⟩
    simp only [List.getElem?_cons_zero, List.getElem?_cons_succ, Option.some.injEq] at hc hdki
    subst hdki
    simp [clearUnused, c1, c2, hc.2.1, hc.2.2.1]
  · rw [c51_rejected bs hc] at h; cases h

/-- A compliant and a non-compliant input. -/
example : (Iad.tryFrom ([0x0F, 0xA5, 0x01, 0xA0, 0, 0, 0, 0] ++ List.replicate 8 0x11 ++ [0x0F] ++
      List.replicate 15 0x22)).map (fun v => (v.dki, v.issuerDiscretionaryData.length)) = .ok (0x01, 15) ∧
    Iad.tryFrom [0x06, 0x01, 0x0A] = .err .nonCcdCompliant := by decide +kernel

/-! ### C52 -/

/-- **C52.** An issuer action code of any kind is exactly the TVR of the same bytes. -/
theorem c52_is_tvr (kind : IacKind) (bs : List Byte) :
    (bs.length = 5 → ∃ v, iacTryFrom kind bs = .ok v ∧ tvrLayout.tryFrom bs = .ok v ∧
      ∀ t ∈ tvrItems, tvrLayout.get v t.name =
        some (.bool (t.bitsOf bs == 1))) ∧
    (bs.length ≠ 5 → iacTryFrom kind bs = .err (.byteCountIncorrect .eq 5 bs.length)) := by
  constructor
  · intro h
    have hacc : ∀ t ∈ tvrItems, t.kind = .flag := by decide +kernel
    obtain ⟨v, hv⟩ := (ok_iff tvr_ok bs).2 ⟨h, fun t ht => by rw [hacc t ht]; rfl⟩
    refine ⟨v, hv, hv, ?_⟩
    intro t ht
    obtain ⟨x, hx, hm⟩ := (get_spec tvr_ok hv).1 t ht
    rw [hacc t ht] at hm
    cases x <;> simp [Kind.means] at hm
    rw [hx, hm]
  · intro h; exact tryFrom_wrong tvr_ok bs h

/-- **C52.** The default codes exist (building them does not panic): no flag set for Denial, all flags set
for Default and Online. -/
theorem c52_defaults (kind : IacKind) : ∃ v, iacDefault kind = .ok v ∧
    ∀ t ∈ tvrItems, tvrLayout.get v t.name = some (.bool (decide (kind ≠ .denial))) := by
  obtain ⟨v1, h1, f1⟩ := tvr_all 0xFF true (Or.inl ⟨rfl, rfl⟩)
  obtain ⟨v0, h0, f0⟩ := tvr_all 0 false (Or.inr ⟨rfl, rfl⟩)
  cases kind with
  | default => exact ⟨v1, by rw [iacDefault, h1]; rfl, f1⟩
  | denial => exact ⟨v0, by rw [iacDefault, h0]; rfl, f0⟩
  | online => exact ⟨v1, by rw [iacDefault, h1]; rfl, f1⟩

example : ∃ t ∈ tvrItems, t.name = "expired_application" := by decide +kernel

end Pemv
