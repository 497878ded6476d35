import Verif.Proofs.Reserved
import Verif.Proofs.Width

/-!
# C98: RFU stands for reserved codes
-/

namespace Pemv

open Spec

/-- **C98.** A service code is shown with RFU if and only if one of its digits is reserved. -/
theorem c98_service_code (m : Machine) (ops : CliOps) (masks : List Char) (sort : Bool) (s : Text) (n : Nat) (c : Cells)
    (hs : selected ops = some (.serviceCode, s)) (hn : IsU16Text s n) (h : Succeeds (run m ops masks sort) c) :
    Says rfu c ↔ ReservedServiceCode (n / 100) (n / 10 % 10) (n % 10) := by
  rw [run_eq, hs] at h
  obtain ⟨h1, h2⟩ := reports_serviceCode m masks sort s
  have h9 : n ≤ 999 := by
    apply Decidable.byContradiction
    intro h9
    obtain ⟨ls, hl, -⟩ := succeeds_reports (h2 (fun ⟨n', hn', h9'⟩ => h9 (u16Text_unique hn hn' ▸ h9'))) h
    cases hl
  obtain ⟨ls, hl, rfl⟩ := succeeds_reports (h1 n hn h9) h
  cases hl
  rw [says_showLines (whole_serviceCodeLines _ _ _), says_serviceCodeLines]

example : ∃ c, Succeeds (run .debug64 { serviceCode := some "318".toList } [] false) c ∧ Says rfu c := by
  have h : Succeeds (run .debug64 { serviceCode := some "318".toList } [] false)
      (paint plainStyle (run .debug64 { serviceCode := some "318".toList } [] false).disp.evs) :=
    ⟨⟨by decide +kernel, rfl, by decide +kernel⟩, by decide +kernel, by decide +kernel, by decide +kernel⟩
  exact ⟨_, h, (c98_service_code .debug64 _ [] false "318".toList 318 _ rfl ((c07_u16 _ _).1 (by decide +kernel)) h).2
    (.inl (by decide))⟩

/-- **C98.** Card Verification Results are shown with RFU if and only if the type of one of the cryptograms is
reserved. -/
theorem c98_cvr (m : Machine) (ops : CliOps) (masks : List Char) (sort : Bool) (s : Text) (c : Cells)
    (hs : selected ops = some (.ccdCvr, s)) (h : Succeeds (run m ops masks sort) c) :
    Says rfu c ↔ ReservedCvr (hexBytes s) := by
  rw [run_eq, hs] at h
  obtain ⟨ls, hl, rfl⟩ := succeeds_reports (reports_hex m masks sort .ccdCvr (by simp [hexOperations]) s) h
  rw [hexReport] at hl
  split at hl
  · cases hl
    rw [says_showLines (whole_bitLines inline_cvrLabels _ _ _), says_cvr]
  · cases hl

example : ∃ c, Succeeds (run .debug64 { ccdCvr := some "3000000000".toList } [] false) c ∧ Says rfu c := by
  have h : Succeeds (run .debug64 { ccdCvr := some "3000000000".toList } [] false)
      (paint plainStyle (run .debug64 { ccdCvr := some "3000000000".toList } [] false).disp.evs) :=
    ⟨⟨by decide +kernel, rfl, by decide +kernel⟩, by decide +kernel, by decide +kernel, by decide +kernel⟩
  exact ⟨_, h, (c98_cvr .debug64 _ [] false "3000000000".toList _ rfl h).2 (.inr (by decide))⟩

/-- **C98.** Issuer Application Data are shown with RFU if and only if the Card Verification Results in them (the fourth
to eighth byte) have a reserved type of cryptogram. -/
theorem c98_iad (m : Machine) (ops : CliOps) (masks : List Char) (sort : Bool) (s : Text) (c : Cells)
    (hs : selected ops = some (.ccdIad, s)) (h : Succeeds (run m ops masks sort) c) :
    Says rfu c ↔ ReservedCvr (((hexBytes s).drop 3).take 5) := by
  rw [run_eq, hs] at h
  obtain ⟨ls, hl, rfl⟩ := succeeds_reports (reports_hex m masks sort .ccdIad (by simp [hexOperations]) s) h
  rw [hexReport] at hl
  split at hl
  · cases hl
    rw [says_showLines (whole_iadLines _ _), says_iadLines]
  · cases hl

example : ∃ c, Succeeds (run .debug64
      { ccdIad := some "0FA501 3000000000 1111111111111111 0F 222222222222222222222222222222".toList } [] false) c ∧
    Says rfu c := by
  have h : Succeeds (run .debug64
      { ccdIad := some "0FA501 3000000000 1111111111111111 0F 222222222222222222222222222222".toList } [] false)
      (paint plainStyle (run .debug64
        { ccdIad := some "0FA501 3000000000 1111111111111111 0F 222222222222222222222222222222".toList } [] false).disp.evs) :=
    ⟨⟨by decide +kernel, rfl, by decide +kernel⟩, by decide +kernel, by decide +kernel, by decide +kernel⟩
  refine ⟨_, h, (c98_iad .debug64 _ [] false _ _ rfl h).2 ?_⟩
  rw [show ((hexBytes "0FA501 3000000000 1111111111111111 0F 222222222222222222222222222222".toList).drop 3).take 5 =
    [0x30, 0, 0, 0, 0] by decide +kernel]
  exact .inr (by decide)

/-- **C98.** The other values that can be given alone are never shown with RFU. -/
theorem c98_never (m : Machine) (ops : CliOps) (masks : List Char) (sort : Bool) (op : Operation) (s : Text) (c : Cells)
    (hs : selected ops = some (op, s)) (hop : op ∈ [Operation.tvr, .tsi, .cvmResults, .cvmList, .identify])
    (h : Succeeds (run m ops masks sort) c) : ¬ Says rfu c := by
  rw [run_eq, hs] at h
  have hh : op ∈ hexOperations := by
    simp only [List.mem_cons, List.not_mem_nil, or_false] at hop
    rcases hop with rfl | rfl | rfl | rfl | rfl <;> simp [hexOperations]
  obtain ⟨ls, hl, rfl⟩ := succeeds_reports (reports_hex m masks sort op hh s) h
  rw [says_showLines (whole_hexReport _ _ _ hl)]
  have : saysLines ls = false := by
    simp only [List.mem_cons, List.not_mem_nil, or_false] at hop
    rcases hop with rfl | rfl | rfl | rfl | rfl
    · rw [hexReport] at hl
      split at hl <;> cases hl
      exact quiet_bitLines (steady_labels (by decide +kernel)) (by decide +kernel) _ _
    · rw [hexReport] at hl
      split at hl <;> cases hl
      exact quiet_bitLines (steady_labels (by decide +kernel)) (by decide +kernel) _ _
    · rw [hexReport] at hl
      split at hl
      · cases hl
      split at hl <;> cases hl
      exact quiet_cvmResultsLines _ _
    · rw [hexReport] at hl
      split at hl
      · cases hl
      split at hl <;> cases hl
      exact quiet_cvmListLines _
    · rw [hexReport] at hl
      split at hl <;> cases hl
      exact quiet_identifyLines _
  rw [this]; simp

example : ∃ c, Succeeds (run .debug64 { tvr := some "FFFFFFFFFF".toList } [] false) c ∧ ¬ Says rfu c := by
  have h : Succeeds (run .debug64 { tvr := some "FFFFFFFFFF".toList } [] false)
      (paint plainStyle (run .debug64 { tvr := some "FFFFFFFFFF".toList } [] false).disp.evs) :=
    ⟨⟨by decide +kernel, rfl, by decide +kernel⟩, by decide +kernel, by decide +kernel, by decide +kernel⟩
  exact ⟨_, h, c98_never .debug64 _ [] false .tvr _ _ rfl (by simp) h⟩

/-- **C98.** A block is shown with RFU, at whatever level, sorted or not, if and only if one of its values that is not
masked is a service code or Issuer Application Data with a reserved code, or contains the three letters itself. -/
theorem c98_blocks (m : Machine) (ops : CliOps) (masks : List Char) (sort : Bool) (op : Operation) (s : Text)
    (b : RawEmvBlock) (c : Cells) (hs : selected ops = some (op, s))
    (hb : op = .autoTlv ∧ (∃ f, autoParse m s masks = .ok (f, b)) ∨
      op = .berTlv ∧ berParse m (hexBytes s) masks = .ok b ∨ op = .ingenicoTlv ∧ ingParse m s masks = .ok b)
    (h : Succeeds (run m ops masks sort) c) :
    Says rfu c ↔ ∃ t ∈ blockTags b, ∃ d, t.data = .normal d ∧ (ReservedValue t.tag d ∨ SpellsRfu d) := by
  obtain ⟨hop, f, hp⟩ := tlvParse_cases hb
  rw [run_eq, hs] at h
  obtain ⟨b', ha, rfl⟩ := succeeds_block hop hp h
  rw [says_showLines ((whole_headerLines f).append (whole_blockLines _ _)), saysLines_append, quiet_headerLines,
    Bool.false_or, says_blockLines]
  have : ∀ {t}, t ∈ blockTags b' ↔ t ∈ blockTags b := (arranged_tags ha).mem_iff
  constructor
  · rintro ⟨t, ht, h⟩; exact ⟨t, this.1 ht, h⟩
  · rintro ⟨t, ht, h⟩; exact ⟨t, this.2 ht, h⟩

/-! ### Cases -/

/-- A national magnetic stripe card that needs a PIN, and a code with three reserved digits. -/
example : ¬ rfu <:+: (run .debug64 { serviceCode := some "500".toList } [] false).disp.text ∧
    rfu <:+: (run .debug64 { serviceCode := some "318".toList } [] false).disp.text ∧
    IsU16Text "318".toList 318 ∧ ReservedServiceCode 3 1 8 ∧ ¬ ReservedServiceCode 5 0 0 := by
  refine ⟨by decide +kernel, by decide +kernel, (c07_u16 _ _).1 (by decide +kernel), .inl (by decide), ?_⟩
  rw [ReservedServiceCode]; decide

/-- Card Verification Results with a reserved type of the first cryptogram, and ones with types in use. -/
example : rfu <:+: (run .debug64 { ccdCvr := some "3000000000".toList } [] false).disp.text ∧
    ¬ rfu <:+: (run .debug64 { ccdCvr := some "2000000000".toList } [] false).disp.text ∧
    ReservedCvr [0x30, 0, 0, 0, 0] ∧ ¬ ReservedCvr [0x20, 0, 0, 0, 0] := by
  refine ⟨by decide +kernel, by decide +kernel, .inr (by decide), ?_⟩
  rw [ReservedCvr]; decide

/-- A service code inside a template, a value that contains the word, and one that contains it across two rows. -/
example : rfu <:+: (run .debug64 { berTlv := some "7005 5F30020211".toList } [] true).disp.text ∧
    ReservedValue [0x5F, 0x30] [0x02, 0x11] ∧
    rfu <:+: (run .debug64 { berTlv := some "5003 524655".toList } [] true).disp.text ∧ SpellsRfu [0x52, 0x46, 0x55] ∧
    ¬ rfu <:+: (run .debug64 { berTlv := some "5011 41414141414141414141414141414152 4655".toList } [] true).disp.text := by
  refine ⟨by decide +kernel, .inl ⟨rfl, .inr (.inl (by decide))⟩, by decide +kernel, ⟨_, by decide +kernel, List.infix_rfl⟩,
    by decide +kernel⟩

end Pemv
