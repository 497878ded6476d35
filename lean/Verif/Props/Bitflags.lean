import Verif.Proofs.BitflagLift

/-!
# C40–C45: bit-mapped values
-/

namespace Pemv

open Spec

/-! ### C40 -/

/-- **C40.** Every bit-mapped value rejects an input of another length, with the expected and the found
count. -/
theorem c40_wrong_length (bv : BitValue) (hbv : bv ∈ cvRule :: bitValues) (bs : List Byte)
    (h : bs.length ≠ bv.numBytes) :
    bv.layout.tryFrom bs = .err (.byteCountIncorrect .eq bv.numBytes bs.length) :=
  tryFrom_wrong (bitValues_ok bv hbv) bs h

example := c40_wrong_length ⟨tvrLayout, 5, tvrItems⟩ (by simp [bitValues]) [0x80, 0x00] (by decide)

/-- **C40.** The byte counts. -/
theorem c40_counts :
    (cvRule :: bitValues).map BitValue.numBytes = [2, 5, 2, 3, 5, 1, 5] ∧
    ∀ bv ∈ cvRule :: bitValues, bv.layout.numBytes = bv.numBytes := by
  refine ⟨rfl, fun bv h => layoutOk_numBytes (bitValues_ok bv h)⟩

/-- **C40.** An input is accepted exactly when it has the right length and every item that must hold a
listed code does. -/
theorem c40_accepted (bv : BitValue) (hbv : bv ∈ cvRule :: bitValues) (bs : List Byte) :
    (∃ v, bv.layout.tryFrom bs = .ok v) ↔
      bs.length = bv.numBytes ∧ ∀ t ∈ bv.items, t.kind.accepts (t.bitsOf bs) = true :=
  ok_iff (bitValues_ok bv hbv) bs

/-- The Common Core Identifier: the two that are defined, and another one. -/
example : (∃ v, cciLayout.tryFrom [0xA5] = .ok v) ∧ ¬ ∃ v, cciLayout.tryFrom [0x55] = .ok v := by
  rw [show cciLayout = (⟨cciLayout, 1, cciItems⟩ : BitValue).layout from rfl,
    c40_accepted ⟨cciLayout, 1, cciItems⟩ (by simp [bitValues]), c40_accepted ⟨cciLayout, 1, cciItems⟩ (by simp [bitValues])]
  decide +kernel

/-- **C40.** Everything but the Common Core Identifier accepts every input of the right length. -/
theorem c40_total (bv : BitValue) (hbv : bv ∈ cvRule :: bitValues) (hcci : bv.items ≠ cciItems)
    (bs : List Byte) (h : bs.length = bv.numBytes) : ∃ v, bv.layout.tryFrom bs = .ok v := by
  rw [c40_accepted bv hbv]
  refine ⟨h, ?_⟩
  have key : ∀ bv ∈ cvRule :: bitValues, bv.items ≠ cciItems → ∀ t ∈ bv.items,
      (match t.kind with
      | .code cs => decide (t.hi + 1 - t.lo ≤ 2) && (List.range 4).all (fun n => (cs.lookup n).isSome)
      | _ => true) = true := by decide +kernel
  intro t ht
  have hk := key bv hbv hcci t ht
  cases ht' : t.kind with
  | code cs =>
    rw [ht'] at hk
    simp only [Bool.and_eq_true, decide_eq_true_eq, List.all_eq_true, List.mem_range] at hk
    refine hk.2 _ (Nat.lt_of_lt_of_le (Nat.mod_lt _ (Nat.two_pow_pos _)) ?_)
    exact Nat.pow_le_pow_right (n := 2) (by omega) hk.1
  | _ => rfl

/-- **C40.** The Common Core Identifier accepts exactly the two bytes A5 and A6. -/
theorem c40_cci (b : Byte) : (∃ v, cciLayout.tryFrom [b] = .ok v) ↔ b = 0xA5 ∨ b = 0xA6 := by
  have key : ∀ b : Byte, (∀ t ∈ cciItems, t.kind.accepts (t.bitsOf [b]) = true) ↔ b = 0xA5 ∨ b = 0xA6 := by
    apply forall_byte; decide +kernel
  have := c40_accepted ⟨cciLayout, 1, cciItems⟩ (by simp [bitValues]) [b]
  rw [this]
  simp only [List.length_cons, List.length_nil, true_and]
  exact key b

/-- **C40.** An input of the right length never panics, and is only rejected as non-CCD-compliant. -/
theorem c40_errors (bv : BitValue) (hbv : bv ∈ cvRule :: bitValues) (bs : List Byte)
    (h : bs.length = bv.numBytes) :
    (∃ v, bv.layout.tryFrom bs = .ok v) ∨ bv.layout.tryFrom bs = .err .nonCcdCompliant :=
  returned (bitValues_ok bv hbv) bs h

example := c40_errors ⟨cciLayout, 1, cciItems⟩ (by simp [bitValues]) [0x55] rfl

/-- **C40.** CVM Results. -/
theorem c40_cvm_results (bs : List Byte) :
    (bs.length ≠ 3 → CvmResults.tryFrom bs = .err (.byteCountIncorrect .eq 3 bs.length)) ∧
    (bs.length = 3 → (bs.getD 2 0).toNat ≤ 2 → ∃ v, CvmResults.tryFrom bs = .ok v) ∧
    (bs.length = 3 → 2 < (bs.getD 2 0).toNat → CvmResults.tryFrom bs = .err .nonCompliant) := by
  refine ⟨cvmResults_wrong bs, ?_, ?_⟩
  · intro h hc
    obtain ⟨a, b, c, rfl⟩ := eq_three h
    obtain ⟨v, hv⟩ := cvRule_total a b
    rcases cvmResult_code c with ⟨r, hr, -⟩ | ⟨-, hr⟩
    · exact ⟨⟨v, r⟩, by rw [cvmResults_eq, hv, hr]; rfl⟩
    · simp at hc; omega
  · intro h hc
    obtain ⟨a, b, c, rfl⟩ := eq_three h
    obtain ⟨v, hv⟩ := cvRule_total a b
    rcases cvmResult_code c with ⟨r, -, -, hr, -⟩ | ⟨hr, -⟩
    · simp at hc; omega
    · rw [cvmResults_eq, hv, hr]; rfl

/-- A wrong and a right length. -/
example : (tsiLayout.tryFrom [0xFF]) = .err (.byteCountIncorrect .eq 2 1) ∧
    (tsiLayout.tryFrom [0xFF, 0x00]).isOk = true ∧ cciLayout.tryFrom [0x55] = .err .nonCcdCompliant := by
  decide +kernel

/-! ### C41 -/

/-- **C41.** Inputs that agree on the bits of all items give the same result, value or error. -/
theorem c41_reserved (bv : BitValue) (hbv : bv ∈ cvRule :: bitValues) (bs bs' : List Byte)
    (h : Agree bv.items bs bs') : bv.layout.tryFrom bs = bv.layout.tryFrom bs' :=
  tryFrom_agree (bitValues_ok bv hbv) h

example : tvrLayout.tryFrom [0x83, 0, 0, 0, 0] = tvrLayout.tryFrom [0x80, 0, 0, 0, 0] :=
  c41_reserved ⟨tvrLayout, 5, tvrItems⟩ (by simp [bitValues]) _ _ ⟨rfl, by decide +kernel⟩

/-- **C41.** CVM Results likewise. -/
theorem c41_cvm_results (bs bs' : List Byte) (h : Agree cvmResultsItems bs bs') :
    CvmResults.tryFrom bs = CvmResults.tryFrom bs' := by
  by_cases hlen : bs.length = 3
  · obtain ⟨a, b, c, rfl⟩ := eq_three hlen
    obtain ⟨a', b', c', rfl⟩ := eq_three (h.1 ▸ hlen : bs'.length = 3)
    have hc : c = c' := by
      have := h.2 _ (List.mem_append_right _ (List.mem_singleton.2 rfl))
      simp only [Item.bitsOf, bits] at this
      rw [← UInt8.toNat_inj]
      have h1 := c.toNat_lt
      have h2 := c'.toNat_lt
      simp at this
      omega
    have hr : cvRuleTryFrom [a, b] = cvRuleTryFrom [a', b'] := by
      apply c41_reserved cvRule (by simp)
      refine ⟨rfl, ?_⟩
      intro t ht
      have := h.2 t (List.mem_append_left _ ht)
      simp only [cvRule, cvRuleItems, List.mem_cons, List.not_mem_nil, or_false] at ht
      rcases ht with rfl | rfl | rfl <;> exact this
    rw [cvmResults_eq, cvmResults_eq, hr, hc]
  · rw [cvmResults_wrong bs hlen, cvmResults_wrong bs' (h.1 ▸ hlen), h.1]

/-- TVR bits 2 and 1 of byte 1 are reserved. -/
example : Agree tvrItems [0x83, 0, 0, 0, 0] [0x80, 0, 0, 0, 0] ∧
    ¬ Agree tvrItems [0x84, 0, 0, 0, 0] [0x80, 0, 0, 0, 0] := by
  constructor
  · exact ⟨rfl, by decide +kernel⟩
  · intro h; exact absurd h.2 (by decide +kernel)

/-! ### C42 -/

/-- **C42.** The binary representation of a parsed value is the input with its unused bits cleared. -/
theorem c42_representation (bv : BitValue) (hbv : bv ∈ bitValues) (bs : List Byte) (v : Value)
    (h : bv.layout.tryFrom bs = .ok v) :
    bv.layout.binaryRepresentation v = clearUnused bv.items bs := by
  have hok := bitValues_ok bv (List.mem_cons_of_mem _ hbv)
  refine repr_eq hok h ?_
  intro t ht
  rw [bitValues_listed bv hbv t ht]
  exact ((ok_iff hok bs).1 ⟨v, h⟩).2 t ht

/-- **C42.** Two accepted inputs parse to the same value if and only if they agree on all items. -/
theorem c42_injective (bv : BitValue) (hbv : bv ∈ bitValues) (bs bs' : List Byte) (v v' : Value)
    (h : bv.layout.tryFrom bs = .ok v) (h' : bv.layout.tryFrom bs' = .ok v') :
    v = v' ↔ Agree bv.items bs bs' := by
  have hok := bitValues_ok bv (List.mem_cons_of_mem _ hbv)
  constructor
  · rintro rfl
    exact agree_of_eq hok h h' (bitValues_inj bv hbv)
  · intro ha
    have := tryFrom_agree hok ha
    rw [h, h'] at this
    cases this; rfl

/-- Different in a flag. -/
example : ¬ Agree tsiItems [0x80, 0x00] [0x40, 0x00] := fun h => by
  obtain ⟨v, hv⟩ := c40_total ⟨tsiLayout, 2, tsiItems⟩ (by simp [bitValues]) (by decide +kernel) [0x80, 0x00] rfl
  obtain ⟨v', hv'⟩ := c40_total ⟨tsiLayout, 2, tsiItems⟩ (by simp [bitValues]) (by decide +kernel) [0x40, 0x00] rfl
  have e := (c42_injective ⟨tsiLayout, 2, tsiItems⟩ (by simp [bitValues]) _ _ v v' hv hv').2 h
  subst e
  have := (c42_representation ⟨tsiLayout, 2, tsiItems⟩ (by simp [bitValues]) _ v hv).symm.trans
    (c42_representation ⟨tsiLayout, 2, tsiItems⟩ (by simp [bitValues]) _ v hv')
  revert this
  decide +kernel

/-- **C42.** Parsing the binary representation of a parsed value gives the value back. -/
theorem c42_reparse (bv : BitValue) (hbv : bv ∈ bitValues) (bs : List Byte) (v : Value)
    (h : bv.layout.tryFrom bs = .ok v) : bv.layout.tryFrom (bv.layout.binaryRepresentation v) = .ok v := by
  have hok := bitValues_ok bv (List.mem_cons_of_mem _ hbv)
  rw [c42_representation bv hbv bs v h, ← h]
  exact tryFrom_clear hok (tryFrom_ok hok h).1

/-- A TVR with reserved bits set. -/
example : ∃ v, tvrLayout.tryFrom [0xFF, 0x07, 0x80, 0x00, 0x1F] = .ok v ∧
    tvrLayout.binaryRepresentation v = [0xFC, 0x00, 0x80, 0x00, 0x10] := by
  obtain ⟨v, hv⟩ := c40_total ⟨tvrLayout, 5, tvrItems⟩ (by simp [bitValues]) (by decide +kernel)
    [0xFF, 0x07, 0x80, 0x00, 0x1F] rfl
  refine ⟨v, hv, ?_⟩
  rw [c42_representation ⟨tvrLayout, 5, tvrItems⟩ (by simp [bitValues]) _ v hv]
  decide +kernel

/-! ### C43 -/

/-- **C43, in part.** The binary representation of a CV rule whose method and condition are listed codes is
the input with the unused bit cleared. -/
theorem c43_cv_rule_partial (a b : Byte) (v : Value) (h : cvRuleTryFrom [a, b] = .ok v)
    (hm : (cvmCodes.lookup (bits a 6 1)).isSome) (hc : (conditionCodes.lookup (bits b 8 1)).isSome) :
    cvRuleLayout.binaryRepresentation v = clearUnused cvRuleItems [a, b] := by
  refine repr_eq cvRule_ok h ?_
  intro t ht
  simp only [cvRuleItems, List.mem_cons, List.not_mem_nil, or_false] at ht
  rcases ht with rfl | rfl | rfl
  · rfl
  · exact hm
  · exact hc

example := c43_cv_rule_partial 0x42 0x03 _ rfl (by decide +kernel) (by decide +kernel)

/-- **C43, in part.** CVM Results likewise; the result byte is always shown as received. -/
theorem c43_cvm_results_partial (a b c : Byte) (v : CvmResults) (h : CvmResults.tryFrom [a, b, c] = .ok v) :
    v.binaryRepresentation.getD 2 0 = c ∧
    ((cvmCodes.lookup (bits a 6 1)).isSome → (conditionCodes.lookup (bits b 8 1)).isSome →
      v.binaryRepresentation = clearUnused cvmResultsItems [a, b, c]) := by
  obtain ⟨r, hr⟩ := cvRule_total a b
  rw [cvmResults_eq, hr] at h
  rcases cvmResult_code c with ⟨x, hx, hxc, -⟩ | ⟨hx, -⟩
  · rw [hx] at h
    cases h
    have hlen : (cvRuleLayout.binaryRepresentation r).length = 2 := by
      have := (tryFrom_ok cvRule_ok hr).2
      match r, this with
      | [_, _], _ => rfl
    constructor
    · simp only [CvmResults.binaryRepresentation, hxc]
      rw [List.getD_eq_getElem?_getD, List.getElem?_append_right (by omega), hlen]
      rfl
    · intro hm hc
      rw [CvmResults.binaryRepresentation, c43_cv_rule_partial a b r hr hm hc, hxc]
      have h3 : ∀ x : Byte, clearByte cvmResultsItems 1 x = clearByte cvRuleItems 1 x ∧
          clearByte cvmResultsItems 2 x = clearByte cvRuleItems 2 x ∧ clearByte cvmResultsItems 3 x = x := by
        apply forall_byte; decide +kernel
      simp [clearUnused, h3]
  · rw [hx] at h; cases h

example := (c43_cvm_results_partial 0x42 0x03 0x02 _ rfl).2 (by decide +kernel) (by decide +kernel)

/-- **C43 fails.** A rule with an unlisted method and an unlisted condition is shown with all-zero bits
instead of the received ones. -/
theorem c43_unlisted_fails : ∃ v, cvRuleTryFrom [0x46, 0x80] = .ok v ∧
    cvRuleLayout.binaryRepresentation v = [0x40, 0x00] ∧
    clearUnused cvRuleItems [0x46, 0x80] = [0x46, 0x80] := by
  refine ⟨_, by rfl, ?_, ?_⟩ <;> decide +kernel

/-- **C43 fails** for CVM Results in the same way. -/
theorem c43_unlisted_results_fails : ∃ v, CvmResults.tryFrom [0x20, 0x0A, 0x02] = .ok v ∧
    v.binaryRepresentation = [0x00, 0x00, 0x02] := by
  refine ⟨_, by rfl, ?_⟩; decide +kernel

/-- The hypotheses of the partial theorems are met by "enciphered PIN online, always". -/
example : (cvmCodes.lookup (bits 0x42 6 1)).isSome ∧ (conditionCodes.lookup (bits 0x00 8 1)).isSome := by
  decide +kernel

/-! ### C44 -/

/-- **C44.** Each item of a parsed value is the meaning of its EMV bits in the input. -/
theorem c44_items (bv : BitValue) (hbv : bv ∈ cvRule :: bitValues) (bs : List Byte) (v : Value)
    (h : bv.layout.tryFrom bs = .ok v) (t : Item) (ht : t ∈ bv.items) :
    ∃ x, bv.layout.get v t.name = some x ∧ t.kind.means (t.bitsOf bs) x = true :=
  (get_spec (bitValues_ok bv hbv) h).1 t ht

/-- The PIN try counter among the card verification results. -/
example : ∃ v, tvrLayout.tryFrom [0, 0x40, 0, 0, 0x10] = .ok v ∧
    ∀ t ∈ tvrItems, ∃ x, tvrLayout.get v t.name = some x ∧ t.kind.means (t.bitsOf [0, 0x40, 0, 0, 0x10]) x = true :=
  ⟨_, rfl, fun t ht => c44_items ⟨tvrLayout, 5, tvrItems⟩ (by simp [bitValues]) _ _ rfl t ht⟩

/-- **C44.** There is nothing else in a parsed value. -/
theorem c44_nothing_else (bv : BitValue) (hbv : bv ∈ cvRule :: bitValues) (bs : List Byte) (v : Value)
    (h : bv.layout.tryFrom bs = .ok v) (name : String) (hn : name ∉ bv.items.map Item.name) :
    bv.layout.get v name = none :=
  (get_spec (bitValues_ok bv hbv) h).2 name hn

example := c44_nothing_else ⟨tvrLayout, 5, tvrItems⟩ (by simp [bitValues]) [0, 0x40, 0, 0, 0] _ rfl "pin_try_counter"
  (by decide +kernel)

/-- **C44.** A flag is set exactly when its bit is. -/
theorem c44_flags (bv : BitValue) (hbv : bv ∈ cvRule :: bitValues) (bs : List Byte) (v : Value)
    (h : bv.layout.tryFrom bs = .ok v) (t : Item) (ht : t ∈ bv.items) (hf : t.kind = .flag) :
    bv.layout.get v t.name = some (.bool ((bs.getD (t.byte - 1) 0).toNat.testBit (t.hi - 1))) := by
  obtain ⟨x, hx, hm⟩ := c44_items bv hbv bs v h t ht
  rw [hx]
  have key : ∀ bv ∈ cvRule :: bitValues, ∀ t ∈ bv.items, t.kind = .flag → t.lo = t.hi ∧ 1 ≤ t.hi := by
    decide +kernel
  obtain ⟨k1, k2⟩ := key bv hbv t ht hf
  rw [hf] at hm
  cases x <;> simp [Kind.means] at hm
  rw [hm]
  congr 2
  rw [Item.bitsOf, bits, Nat.testBit_eq_decide_div_mod_eq, k1]
  congr 2
  have : t.hi + 1 - t.hi = 1 := by omega
  rw [this]

example : ∃ v, tvrLayout.tryFrom [0, 0x40, 0, 0, 0] = .ok v ∧
    ∀ t ∈ tvrItems, t.kind = .flag → tvrLayout.get v t.name =
      some (.bool (([0, 0x40, 0, 0, 0].getD (t.byte - 1) (0 : Byte)).toNat.testBit (t.hi - 1))) :=
  ⟨_, rfl, fun t ht hf => c44_flags ⟨tvrLayout, 5, tvrItems⟩ (by simp [bitValues]) _ _ rfl t ht hf⟩

/-- **C44.** CVM Results: the rule is that of the first two bytes, the result is the code of the third. -/
theorem c44_cvm_results (a b c : Byte) (v : CvmResults) (h : CvmResults.tryFrom [a, b, c] = .ok v) :
    cvRuleTryFrom [a, b] = .ok v.cvRule ∧
    [(0, "Unknown"), (1, "Failed"), (2, "Successful")].lookup c.toNat = some v.result.name := by
  obtain ⟨r, hr⟩ := cvRule_total a b
  rw [cvmResults_eq, hr] at h
  rcases cvmResult_code c with ⟨x, hx, -, -, hxc, -⟩ | ⟨hx, -⟩
  · rw [hx] at h; cases h; exact ⟨hr, hxc⟩
  · rw [hx] at h; cases h

/-- "Expired application" is bit 7 of byte 2 of the TVR. -/
example : ∃ v, tvrLayout.tryFrom [0, 0x40, 0, 0, 0] = .ok v ∧
    tvrLayout.get v "expired_application" = some (.bool true) ∧
    tvrLayout.get v "new_card" = some (.bool false) := by
  refine ⟨_, by rfl, ?_, ?_⟩ <;> decide +kernel

/-! ### C45 -/

/-- **C45.** The ranges of a breakdown are the bits of the items shown: flags that are set and all
multi-bit items, in the order of the coding table. -/
theorem c45_ranges (bv : BitValue) (hbv : bv ∈ cvRule :: bitValues) (bs : List Byte) (v : Value)
    (h : bv.layout.tryFrom bs = .ok v) :
    (bv.layout.bitDisplayInformation v).map (fun r => (r.offset, r.len)) =
      (shown bv.items bs).map (fun t => t.range bv.numBytes) :=
  ranges_eq (bitValues_ok bv hbv) h

example := c45_ranges ⟨tvrLayout, 5, tvrItems⟩ (by simp [bitValues]) [0x81, 0x40, 0, 0, 0] _ rfl

/-- **C45.** The ranges are non-empty, inside the value, from left to right, and do not overlap. -/
theorem c45_well_formed (bv : BitValue) (hbv : bv ∈ cvRule :: bitValues) (bs : List Byte) (v : Value)
    (h : bv.layout.tryFrom bs = .ok v) :
    WellFormedRanges bv.numBytes ((bv.layout.bitDisplayInformation v).map (fun r => (r.offset, r.len))) := by
  rw [c45_ranges bv hbv bs v h]
  have key : ∀ bv ∈ cvRule :: bitValues,
      WellFormedRanges bv.numBytes (bv.items.map (fun t => t.range bv.numBytes)) := by decide +kernel
  have hk := key bv hbv
  have hsub : List.Sublist ((shown bv.items bs).map (fun t => t.range bv.numBytes))
      (bv.items.map (fun t => t.range bv.numBytes)) := List.filter_sublist.map _
  exact ⟨fun r hr => hk.1 r (hsub.subset hr), hk.2.sublist hsub⟩

example := c45_well_formed ⟨tvrLayout, 5, tvrItems⟩ (by simp [bitValues]) [0x81, 0x40, 0, 0, 0] _ rfl

/-- **C45.** CVM Results: the ranges of the rule one byte further left, then the result byte. -/
theorem c45_cvm_results (a b c : Byte) (v : CvmResults) (h : CvmResults.tryFrom [a, b, c] = .ok v) :
    v.bitDisplayInformation.map (fun r => (r.offset, r.len)) =
      (shown cvmResultsItems [a, b, c]).map (fun t => t.range 3) ∧
    WellFormedRanges 3 (v.bitDisplayInformation.map (fun r => (r.offset, r.len))) := by
  have hr := (c44_cvm_results a b c v h).1
  have h1 := c45_ranges cvRule (by simp) [a, b] v.cvRule hr
  have h2 : v.bitDisplayInformation.map (fun r => (r.offset, r.len)) =
      (shown cvmResultsItems [a, b, c]).map (fun t => t.range 3) := by
    have h3 : ((cvRuleLayout.bitDisplayInformation v.cvRule).map
        (fun r => { r with offset := r.offset + 8 })).map (fun r => (r.offset, r.len)) =
        ((cvRuleLayout.bitDisplayInformation v.cvRule).map (fun r => (r.offset, r.len))).map
          (fun p => (p.1 + 8, p.2)) := by simp [Function.comp_def]
    rw [CvmResults.bitDisplayInformation, List.map_append, h3]
    simp only [cvRule] at h1
    rw [h1]
    have h4 : shown cvmResultsItems [a, b, c] = shown cvRuleItems [a, b] ++
        [⟨"result", 3, 8, 1, .code [(0, "Unknown"), (1, "Failed"), (2, "Successful")]⟩] := by
      rw [shown, cvmResultsItems, List.filter_append]
      congr 1
    rw [h4, List.map_append, List.map_map]
    congr 1
    apply List.map_congr_left
    intro t ht
    have ht := (List.mem_filter.1 ht).1
    simp only [cvRuleItems, List.mem_cons, List.not_mem_nil, or_false] at ht
    rcases ht with rfl | rfl | rfl <;> rfl
  refine ⟨h2, ?_⟩
  rw [h2]
  have hk : WellFormedRanges 3 (cvmResultsItems.map (fun t => t.range 3)) := by decide +kernel
  have hsub : List.Sublist ((shown cvmResultsItems [a, b, c]).map (fun t => t.range 3))
      (cvmResultsItems.map (fun t => t.range 3)) := List.filter_sublist.map _
  exact ⟨fun r hr => hk.1 r (hsub.subset hr), hk.2.sublist hsub⟩

/-- The ranges of a CVM Results value. -/
example : ∃ v, CvmResults.tryFrom [0x42, 0x03, 0x02] = .ok v ∧
    v.bitDisplayInformation.map (fun r => (r.offset, r.len)) = [(22, 1), (21, 6), (15, 8), (7, 8)] := by
  refine ⟨_, by rfl, ?_⟩; decide +kernel

end Pemv
