import Verif.Model.Conversions
import Verif.Model.Display
import Verif.Props.Values

/-!
# C104: conversions of codes
-/

namespace Pemv

open Spec

/-- **C104.** Wrapping an optional code and unwrapping it are inverse to each other. -/
theorem c104_option (o : Option (Variant Byte)) (c : OptionalCode) :
    (OptionalCode.ofOption o).toOption = o ∧ OptionalCode.ofOption c.toOption = c := ⟨rfl, rfl⟩

/-- **C104.** As a number, a CVM code that EMV defines stays what it is; every other code becomes 0, the code of "Fail
CVM processing". -/
theorem c104_method (b : Byte) :
    (OptionalCode.ofByte cvMethodTable b).toByte =
      if b.toNat ≤ 5 ∨ b.toNat = 0x1E ∨ b.toNat = 0x1F ∨ b.toNat = 0x3F then b else 0 := by
  revert b; apply forall_byte; decide +kernel

/-- **C104.** A CVM condition that EMV defines stays what it is; every other one becomes 0, the code of "Always". -/
theorem c104_condition (b : Byte) :
    (OptionalCode.ofByte cvmConditionTable b).toByte = if b.toNat ≤ 9 then b else 0 := by
  revert b; apply forall_byte; decide +kernel

/-- **C104.** The number of a method or condition is read as that method or condition. -/
theorem c104_code (table : List (Variant Byte)) (ht : table ∈ [cvMethodTable, cvmConditionTable]) (v : Variant Byte)
    (hv : v ∈ table) : OptionalCode.ofByte table (OptionalCode.ofOption (some v)).toByte = ⟨some v⟩ := by
  revert v; revert table; decide +kernel

example := c104_code cvMethodTable (by simp) cvMethodTable[2] (by decide +kernel)

/-- **C104.** So two methods (or conditions) with the same number are the same. -/
theorem c104_injective (table : List (Variant Byte)) (ht : table ∈ [cvMethodTable, cvmConditionTable])
    (v w : Variant Byte) (hv : v ∈ table) (hw : w ∈ table)
    (h : (OptionalCode.ofOption (some v)).toByte = (OptionalCode.ofOption (some w)).toByte) : v = w := by
  have := c104_code table ht v hv
  rw [h, c104_code table ht w hw] at this
  cases this; rfl

/-- Two codes that differ. -/
example : (OptionalCode.ofOption (some cvMethodTable[2])).toByte ≠ (OptionalCode.ofOption (some cvMethodTable[3])).toByte :=
  fun h => absurd (c104_injective cvMethodTable (by simp) _ _ (by decide +kernel) (by decide +kernel) h) (by decide +kernel)

/-- **C104.** The parts of a CV rule are its bytes converted: the method is in the low six bits of the first byte, the
condition is the second. -/
theorem c104_rule (a b : Byte) : ∃ v, cvRuleTryFrom [a, b] = .ok v ∧
    cvRuleLayout.get v "method" = some (.optEnum (OptionalCode.ofByte cvMethodTable (a &&& 0x3F)).toOption) ∧
    cvRuleLayout.get v "condition" = some (.optEnum (OptionalCode.ofByte cvmConditionTable b).toOption) := by
  have ha : ∀ a : Byte, enumMatch cvMethodTable ((0x3F &&& (a &&& 0x7F)) >>> 0) =
      (OptionalCode.ofByte cvMethodTable (a &&& 0x3F)).toOption := by apply forall_byte; decide +kernel
  have hb : ∀ b : Byte, enumMatch cvmConditionTable ((0xFF &&& (b &&& 0xFF)) >>> 0) =
      (OptionalCode.ofByte cvmConditionTable b).toOption := by apply forall_byte; decide +kernel
  rw [← ha a, ← hb b]
  exact ⟨_, rfl, rfl, rfl⟩

/-- **C104.** What a CVM list shows of a rule are the texts of the converted codes, or that they are not known. -/
theorem c104_shown (a b : Byte) (v : Value) (h : cvRuleTryFrom [a, b] = .ok v) :
    ruleFieldText v "method" = (OptionalCode.ofByte cvMethodTable (a &&& 0x3F)).display
      "Unknown (likely issuer or payment system-specific)" ∧
    ruleFieldText v "condition" = (OptionalCode.ofByte cvmConditionTable b).display
      "Unknown (likely payment system-specific)" := by
  obtain ⟨v', hv, hm, hc⟩ := c104_rule a b
  rw [h] at hv; cases hv
  have f1 : (cvRuleLayout.rows.flatMap Prod.snd).find? (fun f => f.name == "method") =
      some ⟨"method", .optEnum cvMethodTable "Unknown (likely issuer or payment system-specific)", 0b00111111, none,
        .normal, "Method: {}"⟩ := by decide +kernel
  have f2 : (cvRuleLayout.rows.flatMap Prod.snd).find? (fun f => f.name == "condition") =
      some ⟨"condition", .optEnum cvmConditionTable "Unknown (likely payment system-specific)", 0b11111111, none,
        .normal, "Condition: {}"⟩ := by decide +kernel
  constructor
  · rw [ruleFieldText, f1, hm, OptionalCode.toOption, OptionalCode.display]
    cases (OptionalCode.ofByte cvMethodTable (a &&& 0x3F)).internal <;> rfl
  · rw [ruleFieldText, f2, hc, OptionalCode.toOption, OptionalCode.display]
    cases (OptionalCode.ofByte cvmConditionTable b).internal <;> rfl

example := c104_shown 0x5E 0x03 _ rfl

/-- **C104.** Issuer application data that are accepted have the format that their identifier says, compared either
way, and no other. -/
theorem c104_format (bs : List Byte) (v : Iad) (h : Iad.tryFrom bs = .ok v) :
    ∃ c ∈ formatCodeTable, cciLayout.get v.cci "iad_format_code" = some (.enum c) ∧
      ∀ d, (v.hasFormat d = true ↔ d = c) ∧ formatOf d v = v.hasFormat d := by
  by_cases hc : bs.length = 32 ∧ bs[0]? = some 0x0F ∧ bs[16]? = some 0x0F ∧
      (bs[1]? = some 0xA5 ∨ bs[1]? = some 0xA6)
  · obtain ⟨v', hv, hcci, -⟩ := c51_accepted bs hc.1 hc.2.1 hc.2.2.1 hc.2.2.2
    rw [h] at hv; cases hv
    refine ⟨formatCodeA, by decide +kernel, ?_, fun d => ⟨by simp [Iad.hasFormat], rfl⟩⟩
    have key : ∀ b ∈ [(0xA5 : Byte), 0xA6], ∀ x, cciLayout.tryFrom [b] = .ok x →
        cciLayout.get x "iad_format_code" = some (.enum formatCodeA) := by
      intro b hb x hx
      have hd : ∀ b ∈ [(0xA5 : Byte), 0xA6], ∃ y, cciLayout.tryFrom [b] = .ok y ∧
          cciLayout.get y "iad_format_code" = some (.enum formatCodeA) := by
        intro b hb
        simp only [List.mem_cons, List.not_mem_nil, or_false] at hb
        rcases hb with rfl | rfl <;> exact ⟨_, rfl, by decide +kernel⟩
      obtain ⟨y, hy, hg⟩ := hd b hb
      rw [hx] at hy; cases hy; exact hg
    have e : (bs.drop 1).take 1 = bs[1]?.toList := by
      match bs with
      | [] => rfl
      | [_] => rfl
      | _ :: _ :: _ => rfl
    rw [e] at hcci
    rcases hc.2.2.2 with h1 | h1 <;> rw [h1] at hcci <;> exact key _ (by simp) _ hcci
  · rw [c51_rejected bs hc] at h; cases h

/-- A code that EMV does not define. -/
example : (OptionalCode.ofByte cvMethodTable 0x20).toByte = 0 ∧
    (OptionalCode.ofByte cvMethodTable 0x20).display "Unknown" = "Unknown".toList ∧
    (OptionalCode.ofByte cvMethodTable 0x1E).display "Unknown" = "Signature (paper)".toList := by decide +kernel

/-- `comparing_format_codes`, src/emv/ccd/iad.rs:276-305. -/
example (v : Iad) : v.hasFormat formatCodeA = true ∧ formatOf formatCodeA v = true := ⟨rfl, rfl⟩

/-- The hypothesis of `c104_format` is met. -/
example : ∃ v, Iad.tryFrom ([0x0F, 0xA5, 0x01, 0xA0, 0, 0, 0, 0] ++ List.replicate 8 0x11 ++ [0x0F] ++
    List.replicate 15 0x22) = .ok v := ⟨_, rfl⟩

end Pemv
