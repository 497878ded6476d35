import Verif.Proofs.Cli
import Verif.Props.Config

/-!
# Options named by tags
-/

namespace Pemv

open Spec

/-- The names that are numbers, with the operation and the tag. -/
def tagNames : List (String × Operation × List Byte) := [
  ("95", .tvr, [0x95]), ("9F10", .ccdIad, [0x9F, 0x10]), ("9f10", .ccdIad, [0x9F, 0x10]), ("9B", .tsi, [0x9B]),
  ("9b", .tsi, [0x9B]), ("9F34", .cvmResults, [0x9F, 0x34]), ("9f34", .cvmResults, [0x9F, 0x34]),
  ("8E", .cvmList, [0x8E]), ("8e", .cvmList, [0x8E]), ("5F30", .serviceCode, [0x5F, 0x30]),
  ("5f30", .serviceCode, [0x5F, 0x30])]

theorem tagNames_lookup : ∀ p ∈ tagNames, optionNames.lookup (.long p.1) = some (.operation p.2.1) := by decide +kernel

/-- A name that is not a number, or a tag. -/
def tagNameOk : OptName × Opt → Bool
  | (.long n, .operation op) => !(n.toList.all (fun c => (hexDigit? c).isSome)) ||
    tagNames.any (fun p => p.1 == n && p.2.1 == op && hexBytes n.toList == p.2.2)
  | _ => true

theorem tagNames_complete (name : String) (op : Operation) (hn : (.long name, .operation op) ∈ optionNames)
    (hx : ∀ c ∈ name.toList, IsHex c) : ∃ p ∈ tagNames, p.1 = name ∧ p.2.1 = op ∧ hexBytes name.toList = p.2.2 := by
  have h := (by decide +kernel : ∀ q ∈ optionNames, tagNameOk q = true) _ hn
  rw [tagNameOk, List.all_eq_true.2 hx, Bool.not_true, Bool.false_or, List.any_eq_true] at h
  obtain ⟨p, hp, h⟩ := h
  simp only [Bool.and_eq_true, beq_iff_eq] at h
  exact ⟨p, hp, h.1.1, h.1.2, h.2⟩

theorem execute_single (m : Machine) (file : FigData) (env : Dict) (profile : Option String) (isTty : Bool)
    (hw : WellTyped file env) (n : OptName) (op : Operation) (s : Text) (hs : s ≠ [])
    (hn : optionNames.lookup n = some (.operation op)) :
    ∃ ops, selected ops = some (op, s) ∧ ∃ masks sort colour,
      execute m file env profile isTty [⟨n, [s]⟩] = .ran (.ok (colour, run m ops masks sort)) := by
  have h : [(⟨n, [s]⟩ : Use)].mapM understand = some [.operation op s] := by
    rw [List.mapM_cons, understand, hn]
    simp only [Option.bind_some, understandOpt, if_neg hs]
    rfl
  have hc : Consistent [.operation op s] := by
    refine ⟨(Nat.le_refl 1 : 1 ≤ 1), (Nat.zero_le 1 : 0 ≤ 1), (Nat.zero_le 1 : 0 ≤ 1), fun h => ?_⟩
    rcases h with h | h | h
    · exact absurd rfl h
    · exact absurd rfl h
    · exact absurd rfl h
  obtain ⟨c, hcfg, hcol, hgiven⟩ := cliConfigOf_eq _ _ h hc.sorting
  have hexec := execute_eq m file env profile isTty _ _ (by simp) h
    (fun g hg => by rw [List.mem_singleton] at hg; subst hg; rfl) hc c hcfg
  have hin : ∀ k, inForce file env profile c k = valueInForce file env profile [.operation op s] k := by
    intro k; rw [inForce, valueInForce, hgiven]
  refine ⟨_, selected_opsOf _ hc.operation, ?_⟩
  have hty := valueInForce_rightType file env profile [.operation op s] hw
  obtain ⟨v1, h1, t1⟩ := hty .cliColour
  obtain ⟨v2, h2, t2⟩ := hty .maskingCharacters
  obtain ⟨v3, h3, t3⟩ := hty .sortParsedTags
  cases v1 with
  | colour col =>
    cases v2 with
    | chars ms =>
      cases v3 with
      | bool b =>
        refine ⟨ms, b, (col.changeBasedOnTty isTty).toTerm, ?_⟩
        rw [hexec, program, settings_spec file env profile c isTty hcol, hin, hin, hin, h1, h2, h3]
        rfl
      | _ => cases t3
    | _ => cases t2
  | _ => cases t1

/-- A report that depends on one condition. -/
theorem report_cond {r : Run} {x : Except Text (List Line)} (hr : Reports r x) {P : List Byte → List Line → Prop}
    (h1 : ∀ d ls, P d ls → x = .ok ls) (h2 : (¬ ∃ d ls, P d ls) → ∃ e, x = .error (message e)) :
    (∀ d ls, P d ls → Succeeds r (showLines 0 ls)) ∧ ((¬ ∃ d ls, P d ls) → ∃ e, Fails r (message e)) := by
  refine ⟨fun d ls h => ?_, fun h => ?_⟩
  · rw [h1 d ls h] at hr; exact hr
  · obtain ⟨e, he⟩ := h2 h
    rw [he] at hr
    exact ⟨e, hr⟩

theorem report_tvr {bs : List Byte} {ls : List Line} (ha : Acceptable [0x95] bs)
    (hv : valueLines true [0x95] bs = some ls) : hexReport .tvr bs = .ok ls := by
  rw [hexReport, if_pos (ha.h5 (by decide))]
  cases hv
  rfl

theorem report_tsi {bs : List Byte} {ls : List Line} (ha : Acceptable [0x9B] bs)
    (hv : valueLines true [0x9B] bs = some ls) : hexReport .tsi bs = .ok ls := by
  rw [hexReport, if_pos (ha.h9B rfl)]
  cases hv
  rfl

theorem report_iad {bs : List Byte} {ls : List Line}
    (hv : valueLines true [0x9F, 0x10] bs = some ls) : hexReport .ccdIad bs = .ok ls := by
  replace hv : (if isFormatA bs then some (iadLines bs true) else none) = some ls := hv
  rw [hexReport]
  split at hv
  · rename_i h
    cases hv
    rw [if_pos h]
  · cases hv

theorem report_results {bs : List Byte} {ls : List Line} (ha : Acceptable [0x9F, 0x34] bs)
    (hv : valueLines true [0x9F, 0x34] bs = some ls) : hexReport .cvmResults bs = .ok ls := by
  obtain ⟨a, b, c, rfl, hc⟩ := ha.h9F34 rfl
  rw [hexReport, if_neg (by simp), if_neg (by simpa using hc)]
  cases hv
  rfl

theorem report_list {bs : List Byte} {ls : List Line} (ha : Acceptable [0x8E] bs)
    (hv : valueLines true [0x8E] bs = some ls) : hexReport .cvmList bs = .ok ls := by
  obtain ⟨k, hk⟩ := ha.h8E rfl
  rw [hexReport, if_neg (by omega), if_neg (by omega)]
  cases hv
  rfl

/-- Acceptability when only one of the conditions applies. -/
theorem acceptable_iff_only (tag value : List Byte) :
    Acceptable tag value ↔
      (tag = [0x5F, 0x30] → ∃ d1 d2 d3 : Nat, d1 ≤ 9 ∧ d2 ≤ 9 ∧ d3 ≤ 9 ∧
        value = [UInt8.ofNat d1, UInt8.ofNat (16 * d2 + d3)]) ∧
      (tag = [0x8A] → value.length = 2 ∧ IsUtf8 value) ∧
      (tag = [0x8E] → ∃ k, value.length = 8 + 2 * k) ∧
      (tag ∈ [[0x95], [0x9F, 0x0D], [0x9F, 0x0E], [0x9F, 0x0F], [0x9F, 0x40]] → value.length = 5) ∧
      (tag = [0x9B] → value.length = 2) ∧ (tag = [0x9C] → value.length = 1) ∧
      (tag = [0x9F, 0x33] → value.length = 3) ∧
      (tag = [0x9F, 0x34] → ∃ a b c : Byte, value = [a, b, c] ∧ c.toNat ≤ 2) ∧
      (tag = [0x9F, 0x35] → ∃ b : Byte, value = [b] ∧ (terminalType b.toNat).isSome) ∧
      (tag = [0x9F, 0x39] → ∃ b : Byte, value = [b] ∧ (posEntryModes.lookup b.toNat).isSome) :=
  ⟨fun h => ⟨h.h5F30, h.h8A, h.h8E, h.h5, h.h9B, h.h9C, h.h9F33, h.h9F34, h.h9F35, h.h9F39⟩,
   fun ⟨a, b, c, d, e, f, g, h, i, j⟩ => ⟨a, b, c, d, e, f, g, h, i, j⟩⟩

theorem reject_tvr {bs : List Byte} (hno : ∀ ls, Acceptable [0x95] bs → valueLines true [0x95] bs ≠ some ls) :
    ∃ e, hexReport .tvr bs = .error (message e) := by
  refine ⟨.byteCountIncorrect .eq 5 bs.length, ?_⟩
  rw [hexReport, if_neg]
  · rfl
  · intro h
    exact hno _ (by rw [acceptable_iff_only]; simp [h]) rfl

theorem reject_tsi {bs : List Byte} (hno : ∀ ls, Acceptable [0x9B] bs → valueLines true [0x9B] bs ≠ some ls) :
    ∃ e, hexReport .tsi bs = .error (message e) := by
  refine ⟨.byteCountIncorrect .eq 2 bs.length, ?_⟩
  rw [hexReport, if_neg]
  · rfl
  · intro h
    exact hno _ (by rw [acceptable_iff_only]; simp [h]) rfl

theorem reject_iad {bs : List Byte}
    (hno : ∀ ls, Acceptable [0x9F, 0x10] bs → valueLines true [0x9F, 0x10] bs ≠ some ls) :
    ∃ e, hexReport .ccdIad bs = .error (message e) := by
  refine ⟨.nonCcdCompliant, ?_⟩
  rw [hexReport, if_neg]
  intro h
  refine hno (iadLines bs true) (by rw [acceptable_iff_only]; simp) ?_
  show (if isFormatA bs then some (iadLines bs true) else none) = _
  rw [if_pos h]

theorem reject_results {bs : List Byte}
    (hno : ∀ ls, Acceptable [0x9F, 0x34] bs → valueLines true [0x9F, 0x34] bs ≠ some ls) :
    ∃ e, hexReport .cvmResults bs = .error (message e) := by
  rw [hexReport]
  by_cases h : bs.length ≠ 3
  · rw [if_pos h]
    exact ⟨.byteCountIncorrect .eq 3 bs.length, rfl⟩
  · rw [if_neg h]
    by_cases h' : 2 < (bs.getD 2 0).toNat
    · rw [if_pos h']
      exact ⟨.nonCompliant, rfl⟩
    · exfalso
      have hl : bs.length = 3 := by omega
      obtain ⟨a, b, c, rfl⟩ : ∃ a b c, bs = [a, b, c] := by
        match bs, hl with
        | [a, b, c], _ => exact ⟨a, b, c, rfl⟩
      refine hno _ ?_ rfl
      rw [acceptable_iff_only]
      simp only [List.getD_cons_succ, List.getD_cons_zero] at h'
      refine ⟨by simp, by simp, by simp, by simp, by simp, by simp, by simp, fun _ => ⟨a, b, c, rfl, by omega⟩,
        by simp, by simp⟩

theorem reject_list {bs : List Byte} (hno : ∀ ls, Acceptable [0x8E] bs → valueLines true [0x8E] bs ≠ some ls) :
    ∃ e, hexReport .cvmList bs = .error (message e) := by
  rw [hexReport]
  by_cases h : bs.length < 8
  · rw [if_pos h]
    exact ⟨.byteCountIncorrect .gt 8 bs.length, rfl⟩
  · rw [if_neg h]
    by_cases h' : bs.length % 2 = 1
    · rw [if_pos h']
      exact ⟨.byteCountNotDivisibleIntoComponents, rfl⟩
    · exfalso
      refine hno _ ?_ rfl
      rw [acceptable_iff_only]
      refine ⟨by simp, by simp, fun _ => ⟨(bs.length - 8) / 2, by omega⟩, by simp, by simp, by simp, by simp, by simp,
        by simp, by simp⟩

theorem service_lines (n : Nat) (h : n ≤ 999) :
    valueLines true [0x5F, 0x30] [UInt8.ofNat (n / 100), UInt8.ofNat (16 * (n / 10 % 10) + n % 10)] =
      some (serviceCodeLines (n / 100) (n / 10 % 10) (n % 10)) := by
  have e1 : (UInt8.ofNat (n / 100)).toNat = n / 100 := by rw [UInt8.toNat_ofNat']; omega
  have e2 : (UInt8.ofNat (16 * (n / 10 % 10) + n % 10)).toNat = 16 * (n / 10 % 10) + n % 10 := by
    rw [UInt8.toNat_ofNat']; omega
  show some (serviceCodeLines ((UInt8.ofNat (n / 100)).toNat % 16)
    ((UInt8.ofNat (16 * (n / 10 % 10) + n % 10)).toNat / 16)
    ((UInt8.ofNat (16 * (n / 10 % 10) + n % 10)).toNat % 16)) = _
  rw [e1, e2, show n / 100 % 16 = n / 100 by omega, show (16 * (n / 10 % 10) + n % 10) / 16 = n / 10 % 10 by omega,
    show (16 * (n / 10 % 10) + n % 10) % 16 = n % 10 by omega]

theorem service_acceptable (n : Nat) (h : n ≤ 999) :
    Acceptable [0x5F, 0x30] [UInt8.ofNat (n / 100), UInt8.ofNat (16 * (n / 10 % 10) + n % 10)] := by
  rw [acceptable_iff_only]
  refine ⟨fun _ => ⟨n / 100, n / 10 % 10, n % 10, by omega, by omega, by omega, rfl⟩, by simp, by simp, by simp,
    by simp, by simp, by simp, by simp, by simp, by simp⟩

/-- The lines of a report. -/
theorem tag_report (m : Machine) (ops : CliOps) (masks : List Char) (sort : Bool) (p : String × Operation × List Byte)
    (hp : p ∈ tagNames) (s : Text) (hsel : selected ops = some (p.2.1, s)) :
    (∀ d ls, DataOf p.2.1 s d → Acceptable p.2.2 d → valueLines true p.2.2 d = some ls →
      Succeeds (run m ops masks sort) (showLines 0 ls)) ∧
    ((¬ ∃ d ls, DataOf p.2.1 s d ∧ Acceptable p.2.2 d ∧ valueLines true p.2.2 d = some ls) →
      ∃ e, Fails (run m ops masks sort) (message e)) := by
  have close : (∀ d ls, (DataOf p.2.1 s d ∧ Acceptable p.2.2 d ∧ valueLines true p.2.2 d = some ls) →
      Succeeds (run m ops masks sort) (showLines 0 ls)) ∧
      ((¬ ∃ d ls, DataOf p.2.1 s d ∧ Acceptable p.2.2 d ∧ valueLines true p.2.2 d = some ls) →
        ∃ e, Fails (run m ops masks sort) (message e)) := by
    by_cases hop : p.2.1 ∈ hexOperations
    · have hr := c58_hex m ops masks sort p.2.1 s hsel hop
      have hd : ∀ d, DataOf p.2.1 s d ↔ d = hexBytes s := by
        intro d
        rw [DataOf, if_neg]
        intro e
        rw [e] at hop
        exact absurd hop (by decide)
      refine report_cond hr ?_ ?_
      · rintro d ls ⟨hd', ha, hv⟩
        rw [hd] at hd'
        subst hd'
        revert ha hv
        generalize hexBytes s = bs
        intro ha hv
        simp only [tagNames, List.mem_cons, List.not_mem_nil, or_false] at hp
        rcases hp with rfl | rfl | rfl | rfl | rfl | rfl | rfl | rfl | rfl | rfl | rfl
        all_goals first | exact absurd hop (by decide) | skip
        · exact report_tvr ha hv
        · exact report_iad hv
        · exact report_iad hv
        · exact report_tsi ha hv
        · exact report_tsi ha hv
        · exact report_results ha hv
        · exact report_results ha hv
        · exact report_list ha hv
        · exact report_list ha hv
      · intro hno
        have hno' : ∀ ls, Acceptable p.2.2 (hexBytes s) → valueLines true p.2.2 (hexBytes s) ≠ some ls :=
          fun ls h1 h2 => hno ⟨_, ls, (hd _).2 rfl, h1, h2⟩
        clear hno hr hsel
        revert hno'
        generalize hexBytes s = bs
        intro hno
        simp only [tagNames, List.mem_cons, List.not_mem_nil, or_false] at hp
        rcases hp with rfl | rfl | rfl | rfl | rfl | rfl | rfl | rfl | rfl | rfl | rfl
        all_goals first | exact absurd hop (by decide) | skip
        · exact reject_tvr hno
        · exact reject_iad hno
        · exact reject_iad hno
        · exact reject_tsi hno
        · exact reject_tsi hno
        · exact reject_results hno
        · exact reject_results hno
        · exact reject_list hno
        · exact reject_list hno
    · have hs : p.2.1 = .serviceCode ∧ p.2.2 = [0x5F, 0x30] := by
        revert hop
        exact (by decide +kernel : ∀ p ∈ tagNames, p.2.1 ∉ hexOperations →
          p.2.1 = .serviceCode ∧ p.2.2 = [0x5F, 0x30]) p hp
      rw [hs.1] at hsel
      rw [hs.1, hs.2]
      obtain ⟨h1, h2⟩ := c58_service_code m ops masks sort s hsel
      refine ⟨?_, fun hno => ⟨.invalidNumber, h2 ?_⟩⟩
      · rintro d ls ⟨hd, ha, hv⟩
        rw [DataOf, if_pos rfl] at hd
        obtain ⟨n, hn, hle, rfl⟩ := hd
        have := h1 n hn hle
        rw [service_lines n hle] at hv
        cases hv
        exact this
      · rintro ⟨n, hn, hle⟩
        refine hno ⟨_, _, ?_, service_acceptable n hle, service_lines n hle⟩
        rw [DataOf, if_pos rfl]
        exact ⟨n, hn, hle, rfl⟩
  exact ⟨fun d ls a b c => close.1 d ls ⟨a, b, c⟩, close.2⟩

end Pemv
