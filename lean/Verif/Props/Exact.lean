import Verif.Proofs.Document

/-!
# Where the binary representations of CV rules and CVM Results are faithful

The partial theorems of C43 say when the received bits are shown. Here the condition is shown to be exact:
whenever it fails, the bits shown are not the received ones.
-/

namespace Pemv

open Spec

/-- **C43, exactly where it holds.** The binary representation of a CV rule is the input with the unused bit
cleared if and only if both codes are listed. -/
theorem c43_cv_rule_exact_partial (a b : Byte) (v : Value) (h : cvRuleTryFrom [a, b] = .ok v) :
    cvRuleLayout.binaryRepresentation v = clearUnused cvRuleItems [a, b] ↔
      (cvmCodes.lookup (bits a 6 1)).isSome ∧ (conditionCodes.lookup (bits b 8 1)).isSome := by
  rw [cvRule_eq, Out.ok.injEq] at h
  have h1 : ∀ a : Byte, UInt8.ofNat (64 * bits a 7 7 + listedOrZero cvmCodes (bits a 6 1)) = clearByte cvRuleItems 1 a ↔
      (cvmCodes.lookup (bits a 6 1)).isSome := by
    apply forall_byte; decide +kernel
  have h2 : ∀ b : Byte, UInt8.ofNat (listedOrZero conditionCodes (bits b 8 1)) = clearByte cvRuleItems 2 b ↔
      (conditionCodes.lookup (bits b 8 1)).isSome := by
    apply forall_byte; decide +kernel
  rw [← h, ruleOf_repr]
  simp only [clearUnused, List.mapIdx_cons, List.mapIdx_nil, List.cons.injEq, and_true, Nat.zero_add]
  rw [h1, h2]

/-- A method that is not listed. -/
example : ∃ v, cvRuleTryFrom [0x46, 0x03] = .ok v ∧ cvRuleLayout.binaryRepresentation v ≠ clearUnused cvRuleItems [0x46, 0x03] :=
  ⟨_, rfl, fun h => absurd ((c43_cv_rule_exact_partial 0x46 0x03 _ rfl).1 h).1 (by decide +kernel)⟩

/-- **C43, exactly where it holds**, for CVM Results. -/
theorem c43_cvm_results_exact_partial (a b c : Byte) (v : CvmResults) (h : CvmResults.tryFrom [a, b, c] = .ok v) :
    v.binaryRepresentation = clearUnused cvmResultsItems [a, b, c] ↔
      (cvmCodes.lookup (bits a 6 1)).isSome ∧ (conditionCodes.lookup (bits b 8 1)).isSome := by
  have h1 : ∀ a : Byte, UInt8.ofNat (64 * bits a 7 7 + listedOrZero cvmCodes (bits a 6 1)) = clearByte cvmResultsItems 1 a ↔
      (cvmCodes.lookup (bits a 6 1)).isSome := by
    apply forall_byte; decide +kernel
  have h2 : ∀ b : Byte, UInt8.ofNat (listedOrZero conditionCodes (bits b 8 1)) = clearByte cvmResultsItems 2 b ↔
      (conditionCodes.lookup (bits b 8 1)).isSome := by
    apply forall_byte; decide +kernel
  have h3 : ∀ c : Byte, clearByte cvmResultsItems 3 c = c := by apply forall_byte; decide +kernel
  rw [cvmResults_bits a b c v h, cvmResultsBits]
  simp only [clearUnused, List.mapIdx_cons, List.mapIdx_nil, List.cons.injEq, and_true, Nat.zero_add, List.getD_cons_zero,
    List.getD_cons_succ, Nat.reduceAdd, h3]
  rw [h1, h2]

/-- Both sides occur: the first rule has listed codes, in the second only the condition is listed. -/
example : ((cvmCodes.lookup (bits 0x42 6 1)).isSome ∧ (conditionCodes.lookup (bits 0x03 8 1)).isSome) ∧
    ¬ (cvmCodes.lookup (bits 0x46 6 1)).isSome ∧ (conditionCodes.lookup (bits 0x03 8 1)).isSome := by
  decide +kernel

end Pemv
