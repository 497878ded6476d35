import Verif.Proofs.Depth

/-!
# Lemmas for C83: targets and build modes
-/

namespace Pemv

open Spec

theorem berParse_machines {m m' : Machine} (masks : List Char) (n : Nat) : ∀ bytes : List Byte, bytes.length ≤ n →
    Fits m bytes.length → Fits m' bytes.length → berParse m bytes masks = berParse m' bytes masks := by
  induction n with
  | zero =>
    intro bytes h _ _
    have : bytes = [] := List.length_eq_zero_iff.1 (by omega)
    subst this; rfl
  | succ n ih =>
    intro bytes h h1 h2
    rw [berParse_eq masks bytes h1, berParse_eq masks bytes h2]
    cases hre : readElems bytes with
    | error e => rfl
    | ok es =>
      simp only
      congr 1
      apply List.map_congr_left
      intro e he
      obtain ⟨h3, h4⟩ := (readElems_iff _ _).1 hre
      have h5 := elem_length (h4.1 e he)
      have h6 := mem_concat_length he
      rw [← h3] at h6
      rw [nodeOf, nodeOf, ih e.value (by omega) (fits_mono h1 (by omega)) (fits_mono h2 (by omega))]

theorem childrenOf_congr (f g : List Byte → Out RawEmvBlock) (t : DataObjectType) (d : EmvData)
    (h : ∀ v, d = .normal v → f v = g v) : childrenOf f t d = childrenOf g t d := by
  cases d with
  | masked => cases t <;> rfl
  | normal v =>
    cases t with
    | primitive => rfl
    | constructed => rw [childrenOf, childrenOf, h v rfl]

theorem ingParse_machines {m m' : Machine} (masks : List Char) (s : Text) (h1 : Fits m s.length)
    (h2 : Fits m' s.length) : ingParse m s masks = ingParse m' s masks := by
  by_cases hs : ∀ c ∈ s, c.toNat < 128
  · rw [ingParse_eq masks s h1 hs, ingParse_eq masks s h2 hs]
    cases hr : readRecords masks s with
    | error e => rfl
    | ok rs =>
      simp only
      congr 1
      apply List.map_congr_left
      intro r hr'
      obtain ⟨-, hl⟩ := record_mem ((readRecords_iff hs rs).1 hr) r (List.mem_filter.1 hr').1
      have ht : r.text.length = r.tagHex.length + r.lenHex.length + r.value.length + 4 := by
        simp only [Record.text, List.length_cons, List.length_append]; omega
      rw [Record.node, Record.node]
      congr 1
      refine childrenOf_congr _ _ _ _ fun v hv => ?_
      have := record_value_length hv
      exact berParse_machines masks _ v (Nat.le_refl _) (fits_mono h1 (by omega)) (fits_mono h2 (by omega))
  · rw [ingParse_nonascii masks s hs, ingParse_nonascii masks s hs]

theorem tlvParse_machines {m m' : Machine} (masks : List Char) (op : Operation) (s : Text) (h1 : Fits m s.length)
    (h2 : Fits m' s.length) : tlvParse m masks op s = tlvParse m' masks op s := by
  have hl := hexBytes_length_le s
  rw [← hexBytes_eq] at hl
  have hb := berParse_machines masks _ (parseHexStr s) (Nat.le_refl _) (fits_mono h1 (by omega))
    (fits_mono h2 (by omega))
  have hi := ingParse_machines masks s h1 h2
  cases op with
  | autoTlv => rw [tlvParse, tlvParse, autoParse, autoParse, hi, hb]
  | berTlv => rw [tlvParse, tlvParse, hb]
  | ingenicoTlv => rw [tlvParse, tlvParse, hi]
  | _ => rfl

section
variable {m m' : Machine} (h : withIndentSucc m = withIndentSucc m')
include h

theorem cvmRules_checks (i n : Nat) (rs : List Value) : displayCvmRules m i n rs = displayCvmRules m' i n rs := by
  induction rs generalizing n with
  | nil => rw [displayCvmRules, displayCvmRules]
  | cons r rs ih => rw [displayCvmRules, displayCvmRules, ih, displayCvmRule, displayCvmRule, h]

theorem cvmList_checks (v : CvmList) (i : Nat) : displayCvmList m v i = displayCvmList m' v i := by
  rw [displayCvmList, displayCvmList, cvmRules_checks h]

theorem iad_checks (v : Iad) (i : Nat) (c : Bool) : displayIad m v i c = displayIad m' v i c := by
  rw [displayIad, displayIad, h]

theorem value_checks (v : ParsedValue) (i : Nat) (c : Bool) : v.display m i c = v.display m' i c := by
  cases v with
  | cvmList v => exact cvmList_checks h v i
  | iad v => exact iad_checks h v i c
  | _ => rfl

theorem rawTag_checks (t : RawEmvTag) (i : Nat) : displayRawTag m t i = displayRawTag m' t i := by
  rw [displayRawTag, displayRawTag, h]

theorem tag_checks (t : ProcessedEmvTag) (i : Nat) (c : Bool) : displayTag m t i c = displayTag m' t i c := by
  cases t with
  | raw t => rw [displayTag, displayTag, rawTag_checks h]
  | annotated n t => rw [displayTag, displayTag, rawTag_checks h]
  | parsed n v t =>
    have e : (fun i => v.display m i c) = fun i => v.display m' i c := funext fun i => value_checks h v i c
    rw [displayTag, displayTag, rawTag_checks h, e, h]

end

mutual
theorem node_checks {m m' : Machine} (h : withIndentSucc m = withIndentSucc m') (c : Bool) :
    ∀ (n : ProcessedEmvNode) (i : Nat), displayNode m c n i = displayNode m' c n i
  | .mk t children, i => by
    have e : (fun i => displayNodes m c children true i) = fun i => displayNodes m' c children true i :=
      funext fun i => nodes_checks h c children true i
    rw [displayNode, displayNode, tag_checks h, e, h]
theorem nodes_checks {m m' : Machine} (h : withIndentSucc m = withIndentSucc m') (c : Bool) :
    ∀ (b : List ProcessedEmvNode) (first : Bool) (i : Nat), displayNodes m c b first i = displayNodes m' c b first i
  | [], first, i => by rw [displayNodes, displayNodes]
  | n :: ns, first, i => by
    rw [displayNodes, displayNodes, node_checks h c n i, nodes_checks h c ns false i]
end

theorem indentSucc_checks {m m' : Machine} (h : m.overflowChecks = m'.overflowChecks) :
    withIndentSucc m = withIndentSucc m' := by
  funext i k
  rw [withIndentSucc, withIndentSucc, h]

theorem indentSucc_zero (m m' : Machine) (k : Nat → Disp) : withIndentSucc m 0 k = withIndentSucc m' 0 k := by
  rw [withIndentSucc, withIndentSucc, if_pos (by decide), if_pos (by decide)]

theorem cvmRules_zero (m m' : Machine) (rs : List Value) (n : Nat) :
    displayCvmRules m 0 n rs = displayCvmRules m' 0 n rs := by
  induction rs generalizing n with
  | nil => rw [displayCvmRules, displayCvmRules]
  | cons r rs ih =>
    rw [displayCvmRules, displayCvmRules, ih, displayCvmRule, displayCvmRule, indentSucc_zero m m']

theorem runOp_hex_machines (m m' : Machine) (masks : List Char) (sort : Bool) (op : Operation)
    (h : op ∈ hexOperations ∨ op = .serviceCode) (s : Text) : runOp m masks sort op s = runOp m' masks sort op s := by
  rcases h with h | rfl
  · simp only [hexOperations, List.mem_cons, List.not_mem_nil, or_false] at h
    rcases h with rfl | rfl | rfl | rfl | rfl | rfl | rfl
    · rw [runOp, runOp]
    · rw [runOp, runOp]
      have e : withIndentSucc m 0 = withIndentSucc m' 0 := funext (indentSucc_zero m m')
      have e' : (fun v => displayIad m v 0 true) = fun v => displayIad m' v 0 true := by
        funext v; rw [displayIad, displayIad, e]
      rw [e']
    · rw [runOp, runOp]
    · rw [runOp, runOp]
    · rw [runOp, runOp]
    · rw [runOp, runOp]
      have e : (fun v => displayCvmList m v 0) = fun v => displayCvmList m' v 0 := by
        funext v; rw [displayCvmList, displayCvmList, cvmRules_zero m m']
      rw [e]
    · rw [runOp, runOp]
  · rw [runOp, runOp]

/-- The parts of a run that are not standard output. -/
theorem run_machines {m m' : Machine} (ops : CliOps) (masks : List Char) (sort : Bool)
    (h1 : ∀ op s, selected ops = some (op, s) → Fits m s.length)
    (h2 : ∀ op s, selected ops = some (op, s) → Fits m' s.length) :
    ((run m ops masks sort).stderr = (run m' ops masks sort).stderr ∧
      (run m ops masks sort).help = (run m' ops masks sort).help ∧
      (run m ops masks sort).diverged = (run m' ops masks sort).diverged) ∧
    (m.overflowChecks = m'.overflowChecks → (run m ops masks sort).disp = (run m' ops masks sort).disp) ∧
    (m'.overflowChecks = false → Truncates (run m ops masks sort).disp (run m' ops masks sort).disp) := by
  have same : ∀ {r r' : Run}, r = r' → (r.stderr = r'.stderr ∧ r.help = r'.help ∧ r.diverged = r'.diverged) ∧
      (m.overflowChecks = m'.overflowChecks → r.disp = r'.disp) ∧
      (m'.overflowChecks = false → Truncates r.disp r'.disp) := by
    rintro r r' rfl
    exact ⟨⟨rfl, rfl, rfl⟩, fun _ => rfl, fun _ => .refl _⟩
  rw [run_eq, run_eq]
  cases hs : selected ops with
  | none => exact same rfl
  | some p =>
    obtain ⟨op, s⟩ := p
    simp only
    rcases operation_cases op with h | h | h
    · exact same (runOp_hex_machines m m' masks sort op (Or.inl h) s)
    · exact same (runOp_hex_machines m m' masks sort op (Or.inr h) s)
    · rw [runOp_tlv m masks sort op h, runOp_tlv m' masks sort op h,
        tlvParse_machines masks op s (h1 op s hs) (h2 op s hs)]
      cases tlvParse m' masks op s with
      | ok p =>
        obtain ⟨f, b⟩ := p
        rw [tlvOutcome, tlvOutcome]
        rcases processBlock_total b with ⟨q, hq⟩ | ⟨e, he⟩
        · simp only [hq]
          refine ⟨⟨trivial, trivial, trivial⟩, fun h => ?_, fun h => ?_⟩
          · rw [displayBlock, displayBlock, nodes_checks (indentSucc_checks h)]
          · refine (Truncates.refl _).seq ?_
            have e : displayBlock m' (maybeSort sort q) 0 true = displayBlock m.unchecked (maybeSort sort q) 0 true :=
              nodes_checks (indentSucc_checks h) true _ true 0
            rw [e]
            exact truncates_nodes m true _ true 0
        · simp only [he]
          exact ⟨⟨trivial, trivial, trivial⟩, fun _ => trivial, fun _ => .refl _⟩
      | err e => exact same rfl
      | panic => exact same rfl
      | diverge => exact same rfl

end Pemv
