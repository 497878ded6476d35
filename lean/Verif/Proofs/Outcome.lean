import Verif.Proofs.Safety

/-!
# Lemmas about the outcomes of runs
-/

namespace Pemv

open Spec

/-- The format line. -/
def headerOf : Option TlvFormat → Disp
  | some f => autoHeader f
  | none => .nil

/-- What an operation on blocks does. -/
def tlvOutcome (m : Machine) (sort : Bool) : Out (Option TlvFormat × RawEmvBlock) → Run
  | .ok (f, b) =>
    match processBlock b with
    | .ok q => ⟨(headerOf f).seq (displayBlock m (maybeSort sort q) 0 true), none, false, false⟩
    | .err e => ⟨.nil, some (e.text ++ ['\n']), false, false⟩
    | .panic => ⟨.panic, none, false, false⟩
    | .diverge => ⟨.nil, none, false, true⟩
  | .err e => ⟨.nil, some (e.text ++ ['\n']), false, false⟩
  | .panic => ⟨.panic, none, false, false⟩
  | .diverge => ⟨.nil, none, false, true⟩

theorem runOp_tlv (m : Machine) (masks : List Char) (sort : Bool) (op : Operation)
    (hop : op ∈ [.autoTlv, .berTlv, .ingenicoTlv]) (s : Text) :
    runOp m masks sort op s = tlvOutcome m sort (tlvParse m masks op s) := by
  have key : ∀ x : Out RawEmvBlock, finish .nil ((x >>= processBlock).map (maybeSort sort))
      (fun b => displayBlock m b 0 true) = tlvOutcome m sort (x.map (fun b => ((none : Option TlvFormat), b))) := by
    intro x
    cases x with
    | ok b =>
      show finish .nil ((processBlock b).map (maybeSort sort)) _ = tlvOutcome m sort (.ok (none, b))
      rw [tlvOutcome]
      rcases processBlock_total b with ⟨q, hq⟩ | ⟨e, he⟩
      · simp only [hq]; rfl
      · simp only [he]; rfl
    | err e => rfl
    | panic => rfl
    | diverge => rfl
  simp only [List.mem_cons, List.not_mem_nil, or_false] at hop
  rcases hop with rfl | rfl | rfl
  · rw [runOp, tlvParse, runAuto]
    cases autoParse m s masks with
    | ok p =>
      obtain ⟨f, b⟩ := p
      simp only [Out.map_ok]
      rw [tlvOutcome]
      rcases processBlock_total b with ⟨q, hq⟩ | ⟨e, he⟩
      · simp only [hq]; rfl
      · simp only [he]; rfl
    | err e => rfl
    | panic => rfl
    | diverge => rfl
  · exact key _
  · exact key _

theorem operation_cases (op : Operation) :
    op ∈ hexOperations ∨ op = .serviceCode ∨ op ∈ [Operation.autoTlv, .berTlv, .ingenicoTlv] := by
  cases op <;> decide

theorem safe_hexReport (op : Operation) (bs : List Byte) (ls : List Line) (h : hexReport op bs = .ok ls) :
    SafeLines ls := by
  have ite : ∀ {p : Prop} [Decidable p] {a b : Except Text (List Line)}, (if p then a else b) = .ok ls →
      (a = .ok ls → SafeLines ls) → (b = .ok ls → SafeLines ls) → SafeLines ls := by
    intro p _ a b h ha hb
    by_cases hp : p
    · rw [if_pos hp] at h; exact ha h
    · rw [if_neg hp] at h; exact hb h
  have ok : ∀ {x : List Line}, SafeLines x → (Except.ok x : Except Text (List Line)) = .ok ls → SafeLines ls := by
    intro x h e; cases e; exact h
  cases op with
  | tvr => exact ite h (ok (safe_bitLines safe_tvrLabels _ _ _)) (fun h => by cases h)
  | ccdIad => exact ite h (ok (safe_iadLines _ _)) (fun h => by cases h)
  | ccdCvr => exact ite h (ok (safe_bitLines safe_cvrLabels _ _ _)) (fun h => by cases h)
  | tsi => exact ite h (ok (safe_bitLines safe_tsiLabels _ _ _)) (fun h => by cases h)
  | cvmResults =>
    exact ite h (fun h => by cases h) (fun h => ite h (fun h => by cases h) (ok (safe_cvmResultsLines _ _)))
  | cvmList => exact ite h (fun h => by cases h) (fun h => ite h (fun h => by cases h) (ok (safe_cvmListLines _)))
  | identify => exact ite h (fun h => by cases h) (ok (safe_identifyLines _))
  | _ => cases h

theorem fails_nil {r : Run} {msg : Text} (h : Fails r msg) : r.disp = .nil := by
  obtain ⟨⟨evs, p⟩, _, _, _⟩ := r
  obtain ⟨rfl, rfl, _⟩ := h
  rfl

theorem shows_header' (f : Option TlvFormat) :
    ∃ ls, SafeLines ls ∧ Shows (headerOf f) (showLines 0 ls) := by
  cases f with
  | none => exact ⟨[], safe_lines_nil, shows_nil⟩
  | some f => exact ⟨_, safe_formatLines f, shows_header f⟩

/-- Whatever the program is given, its output is a document or the beginning of one. -/
theorem run_shape (m : Machine) (ops : CliOps) (masks : List Char) (sort : Bool) :
    ∃ ls d, Truncates (run m ops masks sort).disp d ∧ Shows d (showLines 0 ls) ∧ SafeLines ls := by
  have empty : ∀ {d : Disp}, Truncates d .nil →
      ∃ ls d', Truncates d d' ∧ Shows d' (showLines 0 ls) ∧ SafeLines ls :=
    fun h => ⟨[], .nil, h, shows_nil, safe_lines_nil⟩
  have reports : ∀ {r : Run} {x : Except Text (List Line)}, Reports r x → (∀ ls, x = .ok ls → SafeLines ls) →
      ∃ ls d', Truncates r.disp d' ∧ Shows d' (showLines 0 ls) ∧ SafeLines ls := by
    intro r x h hs
    cases x with
    | ok ls => exact ⟨ls, _, .refl _, h.shows, hs ls rfl⟩
    | error msg => rw [fails_nil h]; exact empty (.refl _)
  have panic : Truncates .panic .nil := Or.inr ⟨rfl, List.nil_prefix⟩
  rw [run_eq]
  split
  · rename_i op s _
    rcases operation_cases op with h | rfl | h
    · exact reports (reports_hex m masks sort op h s) (safe_hexReport op _)
    · obtain ⟨h1, h2⟩ := reports_serviceCode m masks sort s
      by_cases hn : ∃ n, IsU16Text s n ∧ n ≤ 999
      · obtain ⟨n, hn, h9⟩ := hn
        exact reports (h1 n hn h9) (fun ls e => by cases e; exact safe_serviceCodeLines _ _ _)
      · exact reports (h2 hn) (fun ls e => by cases e)
    · rw [runOp_tlv m masks sort op h]
      cases tlvParse m masks op s with
      | ok p =>
        obtain ⟨f, b⟩ := p
        rw [tlvOutcome]
        rcases processBlock_total b with ⟨q, hq⟩ | ⟨e, he⟩
        · simp only [hq]
          obtain ⟨b', -, hs⟩ := shows_arranged (m := m.unchecked) hq sort (Or.inr rfl)
          obtain ⟨ls, hsafe, hh⟩ := shows_header' f
          refine ⟨ls ++ blockLines true b', _, (Truncates.refl _).seq (truncates_nodes m true _ true 0), ?_,
            hsafe.append (safe_blockLines _ _)⟩
          rw [render_append]
          exact hh.seq hs
        · simp only [he]; exact empty (.refl _)
      | err e => exact empty (.refl _)
      | panic => exact empty panic
      | diverge => exact empty (.refl _)
  · exact empty (.refl _)

theorem paint_text (s : ColorSpec) (es : List Ev) : (paint s es).map Prod.fst = evText es := by
  induction es generalizing s with
  | nil => rfl
  | cons e es ih =>
    cases e with
    | text t => rw [paint, evText, List.map_append, ih, List.map_map]; congr 1; exact List.map_id t
    | setColor c => rw [paint, evText, ih]; simp
    | reset => rw [paint, evText, ih]; simp

theorem evText_append (a b : List Ev) : evText (a ++ b) = evText a ++ evText b := by
  rw [← paint_text plainStyle, paint_append, List.map_append, paint_text, paint_text]

theorem shows_text {d : Disp} {c : Cells} (h : Shows d c) : d.text = c.map Prod.fst := by
  rw [Disp.text, ← paint_text plainStyle, h.cells]

theorem truncates_prefix {d d' : Disp} (h : Truncates d d') : d.evs <+: d'.evs := by
  rcases h with rfl | ⟨-, h⟩
  · exact List.prefix_rfl
  · exact h

theorem run_safe (m : Machine) (ops : CliOps) (masks : List Char) (sort : Bool) :
    SafeText (run m ops masks sort).disp.text := by
  obtain ⟨ls, d, ht, hs, hl⟩ := run_shape m ops masks sort
  obtain ⟨rest, he⟩ := truncates_prefix ht
  intro c hc
  have hd : c ∈ d.text := by
    rw [Disp.text, ← he, evText_append]
    exact List.mem_append_left _ hc
  rw [shows_text hs, List.mem_map] at hd
  obtain ⟨p, hp, rfl⟩ := hd
  exact safe_render hl 0 p hp

/-- A run that writes to standard error did nothing else. -/
theorem run_stderr (m : Machine) (ops : CliOps) (masks : List Char) (sort : Bool) (t : Text)
    (h : (run m ops masks sort).stderr = some t) : ∃ e, Fails (run m ops masks sort) (message e) := by
  have tlv : ∀ x, (tlvOutcome m sort x).stderr = some t → ∃ e, Fails (tlvOutcome m sort x) (message e) := by
    intro x h
    cases x with
    | ok p =>
      obtain ⟨f, b⟩ := p
      rw [tlvOutcome] at h ⊢
      rcases processBlock_total b with ⟨q, hq⟩ | ⟨e, he⟩
      · simp only [hq] at h; cases h
      · simp only [he]; rw [text_message]; exact ⟨e, rfl, rfl, rfl, rfl, rfl⟩
    | err e => rw [tlvOutcome, text_message]; exact ⟨e, rfl, rfl, rfl, rfl, rfl⟩
    | panic => cases h
    | diverge => cases h
  have fin : ∀ {α : Type} (x : Out α) (display : α → Disp), (finish .nil x display).stderr = some t →
      ∃ e, Fails (finish .nil x display) (message e) := by
    intro α x display h
    cases x with
    | ok v => cases h
    | err e => exact ⟨e, finish_err rfl _⟩
    | panic => cases h
    | diverge => cases h
  rw [run_eq] at h ⊢
  cases hsel : selected ops with
  | none => rw [hsel] at h; cases h
  | some p =>
    obtain ⟨op, s⟩ := p
    rw [hsel] at h
    simp only at h ⊢
    by_cases hop : op ∈ [Operation.autoTlv, .berTlv, .ingenicoTlv]
    · rw [runOp_tlv m masks sort op hop] at h ⊢; exact tlv _ h
    · cases op with
      | autoTlv => simp at hop
      | berTlv => simp at hop
      | ingenicoTlv => simp at hop
      | _ => exact fin _ _ h

end Pemv
