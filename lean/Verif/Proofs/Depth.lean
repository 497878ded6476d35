import Verif.Proofs.Outcome
import Verif.Props.Auto

/-! # Nesting depth and the length of the input; the outcome of every run -/

namespace Pemv

open Spec

theorem blockDepth_le {b : List RawEmvNode} {n : Nat} (h : ∀ x ∈ b, nodeDepth x ≤ n) : blockDepth b ≤ n := by
  induction b with
  | nil => rw [blockDepth]; omega
  | cons x xs ih =>
    have h1 := h x (by simp)
    have h2 := ih (fun y hy => h y (by simp [hy]))
    rw [blockDepth]; omega

theorem hexBytes_length_le (s : Text) : 2 * (hexBytes s).length ≤ s.length := by
  rw [← hexBytes_eq, c01_length]
  have := List.length_filter_le (fun c => decide (IsHex c)) s
  omega

theorem record_mem {masks : List Char} {s : Text} {rs : List Record} (h : IsIngenico masks s rs) (r : Record)
    (hr : r ∈ rs) : r.WF masks ∧ r.text.length ≤ s.length := by
  induction h with
  | nil => cases hr
  | last r' hw =>
    rw [List.mem_singleton] at hr; subst hr
    exact ⟨hw, Nat.le_refl _⟩
  | cons r' hw sep rest rs _ ih =>
    rcases List.mem_cons.1 hr with rfl | hr
    · exact ⟨hw, by rw [List.length_append]; omega⟩
    · have := ih hr
      exact ⟨this.1, by rw [List.length_append, List.length_cons]; omega⟩

theorem record_value_length {masks : List Char} {r : Record} {v : List Byte} (h : r.data masks = .normal v) :
    v.length ≤ r.value.length := by
  rw [Record.data] at h
  split at h
  · cases h
  · split at h
    · cases h; have := hexBytes_length_le r.value; omega
    · cases h; rw [List.length_map]; exact Nat.le_refl _

theorem ing_depth {m : Machine} (masks : List Char) (s : Text) (hm : Fits m s.length) (b : RawEmvBlock)
    (h : ingParse m s masks = .ok b) : 2 * blockDepth b ≤ s.length := by
  obtain ⟨-, rs, hrs, rfl⟩ := (c21_language masks s hm b).1 h
  suffices blockDepth ((emvRecords rs).map (Record.node (fun v => berParse m v masks) masks)) ≤ s.length / 2 by omega
  refine blockDepth_le fun x hx => ?_
  obtain ⟨r, hr, rfl⟩ := List.mem_map.1 hx
  obtain ⟨hw, hl⟩ := record_mem hrs r (List.mem_filter.1 hr).1
  have ht : r.text.length = r.tagHex.length + r.lenHex.length + r.value.length + 4 := by
    simp only [Record.text, List.length_cons, List.length_append]; omega
  have h2 := hw.tagLen
  rw [Record.node, nodeDepth]
  have hc : 2 * blockDepth (childrenOf (fun v => berParse m v masks) (typeOf r.tag) (r.data masks)) ≤
      r.value.length := by
    cases hv : r.data masks with
    | masked => cases typeOf r.tag <;> simp [childrenOf, blockDepth]
    | normal v =>
      have hlen := record_value_length hv
      cases typeOf r.tag with
      | primitive => simp [childrenOf, blockDepth]
      | constructed =>
        show 2 * blockDepth (match berParse m v masks with | .ok b => b | _ => []) ≤ _
        cases hb : berParse m v masks with
        | ok b =>
          have := c18_bounds masks v (fits_mono hm (by omega)) b hb
          show 2 * blockDepth b ≤ _
          omega
        | _ => simp [blockDepth]
  omega

theorem ber_depth {m : Machine} (masks : List Char) (s : Text) (hm : Fits m s.length) (b : RawEmvBlock)
    (h : berParse m (parseHexStr s) masks = .ok b) : 2 * blockDepth b ≤ s.length := by
  have hl := hexBytes_length_le s
  rw [← hexBytes_eq] at hl
  have := c18_bounds masks _ (fits_mono hm (by omega)) b h
  omega

theorem tlv_depth {m : Machine} (masks : List Char) (op : Operation) (s : Text) (hm : Fits m s.length)
    (f : Option TlvFormat) (b : RawEmvBlock) (h : tlvParse m masks op s = .ok (f, b)) :
    2 * blockDepth b ≤ s.length := by
  cases op with
  | autoTlv =>
    rw [tlvParse] at h
    cases ha : autoParse m s masks with
    | ok p =>
      obtain ⟨f', b'⟩ := p
      rw [ha] at h
      simp only [Out.map_ok, Out.ok.injEq, Prod.mk.injEq] at h
      rw [← h.2]
      cases f' with
      | ingenico => exact ing_depth masks s hm b' (((c29_agrees masks s hm).1 b').1 ha).2
      | berTlv => exact ber_depth masks s hm b' (((c29_agrees masks s hm).2.1 b').1 ha).2.2
    | _ => rw [ha] at h; cases h
  | berTlv =>
    rw [tlvParse] at h
    cases hb : berParse m (parseHexStr s) masks with
    | ok b' =>
      rw [hb] at h
      simp only [Out.map_ok, Out.ok.injEq, Prod.mk.injEq] at h
      rw [← h.2]
      exact ber_depth masks s hm b' hb
    | _ => rw [hb] at h; cases h
  | ingenicoTlv =>
    rw [tlvParse] at h
    cases hb : ingParse m s masks with
    | ok b' =>
      rw [hb] at h
      simp only [Out.map_ok, Out.ok.injEq, Prod.mk.injEq] at h
      rw [← h.2]
      exact ing_depth masks s hm b' hb
    | _ => rw [hb] at h; cases h
  | _ => cases h

theorem tlv_returns {m : Machine} (masks : List Char) (op : Operation) (s : Text) (hm : Fits m s.length) :
    (∃ r, tlvParse m masks op s = .ok r) ∨ ∃ e, tlvParse m masks op s = .err e := by
  have hber := c16_returns masks (parseHexStr s) (m := m) (fits_mono hm (by
    have := hexBytes_length_le s
    rw [← hexBytes_eq] at this; omega))
  have hmap : ∀ {α β : Type} {x : Out α} (f : α → β), ((∃ v, x = .ok v) ∨ ∃ e, x = .err e) →
      (∃ r, x.map f = .ok r) ∨ ∃ e, x.map f = .err e := by
    rintro α β x f (⟨v, rfl⟩ | ⟨e, rfl⟩)
    · exact Or.inl ⟨_, rfl⟩
    · exact Or.inr ⟨_, rfl⟩
  cases op with
  | autoTlv =>
    refine hmap _ ?_
    by_cases h : ∃ r, autoParse m s masks = .ok r
    · exact Or.inl h
    · exact Or.inr ⟨_, (c29_agrees masks s hm).2.2 h⟩
  | berTlv => exact hmap _ hber
  | ingenicoTlv => exact hmap _ (c26_returns masks s hm)
  | _ => exact Or.inr ⟨_, rfl⟩

/-- The outcome of every operation. -/
theorem runOp_outcome (m : Machine) (masks : List Char) (sort : Bool) (op : Operation) (s : Text)
    (hm : Fits m s.length) (hd : m.overflowChecks = false ∨ s.length < 510) :
    (∃ e, Fails (runOp m masks sort op s) (message e)) ∨
    (∃ ls, Succeeds (runOp m masks sort op s) (showLines 0 ls)) := by
  rcases operation_cases op with h | rfl | h
  · have hr := reports_hex m masks sort op h s
    cases hx : hexReport op (hexBytes s) with
    | ok ls => rw [hx] at hr; exact Or.inr ⟨ls, hr⟩
    | error msg =>
      rw [hx] at hr
      have hst : (run m (match op with
        | .tvr => { tvr := some s } | .ccdIad => { ccdIad := some s } | .ccdCvr => { ccdCvr := some s }
        | .tsi => { tsi := some s } | .cvmResults => { cvmResults := some s } | .cvmList => { cvmList := some s }
        | .identify => { identify := some s } | _ => { tvr := some s }) masks sort) = runOp m masks sort op s := by
        rw [run_eq]
        simp only [hexOperations, List.mem_cons, List.not_mem_nil, or_false] at h
        rcases h with rfl | rfl | rfl | rfl | rfl | rfl | rfl <;> rfl
      have := run_stderr m _ masks sort _ (by rw [hst]; exact hr.stderr)
      rw [hst] at this
      exact Or.inl this
  · have hr := reports_serviceCode m masks sort s
    by_cases h : ∃ n, IsU16Text s n ∧ n ≤ 999
    · obtain ⟨n, h1, h2⟩ := h
      exact Or.inr ⟨_, hr.1 n h1 h2⟩
    · exact Or.inl ⟨_, hr.2 h⟩
  · obtain ⟨h1, h2, h3⟩ := reports_tlv m masks sort op h s
    rcases tlv_returns masks op s hm with ⟨⟨f, b⟩, hr⟩ | ⟨e, he⟩
    · rcases processBlock_total b with ⟨q, hq⟩ | ⟨e, he⟩
      · have hdep := tlv_depth masks op s hm f b hr
        obtain ⟨b', -, hs⟩ := h3 f b q hr hq (hd.elim Or.inr (fun h => Or.inl (by omega)))
        exact Or.inr ⟨_, hs⟩
      · exact Or.inl ⟨e, h2 f b e hr he⟩
    · exact Or.inl ⟨e, h1 e he⟩

theorem finish_help {α : Type} (pre : Disp) (x : Out α) (display : α → Disp) : (finish pre x display).help = false := by
  cases x <;> rfl

theorem tlvOutcome_help (m : Machine) (sort : Bool) (x : Out (Option TlvFormat × RawEmvBlock)) :
    (tlvOutcome m sort x).help = false := by
  cases x with
  | ok p =>
    obtain ⟨f, b⟩ := p
    rw [tlvOutcome]
    cases processBlock b <;> rfl
  | _ => rfl

end Pemv
