import Verif.Proofs.Depth

/-!
# C57–C59: runs of the program
-/

namespace Pemv

open Spec

/-! ### C57 -/

/-- **C57.** A run that writes to standard error writes one error message, one of those documented, and
nothing else; this holds on every target, in every build and for every input. -/
theorem c57_error_alone (m : Machine) (ops : CliOps) (masks : List Char) (sort : Bool) (t : Text)
    (h : (run m ops masks sort).stderr = some t) :
    (∃ e, t = message e ++ ['\n']) ∧ (run m ops masks sort).disp.evs = [] ∧
    (run m ops masks sort).disp.panicked = false ∧ (run m ops masks sort).help = false := by
  obtain ⟨e, he⟩ := run_stderr m ops masks sort t h
  refine ⟨⟨e, ?_⟩, he.stdout, he.returns, he.help⟩
  have := he.stderr
  rw [h] at this
  exact Option.some.inj this

example := c57_error_alone .debug64 { autoTlv := some "9501FF".toList } [] true _
  (Option.some_get (show (run .debug64 { autoTlv := some "9501FF".toList } [] true).stderr.isSome = true by decide +kernel)).symm

/-- **C57.** So a run that touches standard output, be it with one character or with the line that tells the
format found, writes nothing to standard error. -/
theorem c57_output_alone (m : Machine) (ops : CliOps) (masks : List Char) (sort : Bool)
    (h : (run m ops masks sort).disp.evs ≠ []) : (run m ops masks sort).stderr = none := by
  cases hs : (run m ops masks sort).stderr with
  | none => rfl
  | some t => exact absurd (c57_error_alone m ops masks sort t hs).2.1 h

example := c57_output_alone .debug64 { autoTlv := some "9F0100".toList } [] true (by decide +kernel)

/-- **C57.** Every run shows the help text, or fails with one message, or succeeds with a document, and these
exclude each other. It is assumed that `usize` has room for the argument, which a 64-bit target always has,
and, if overflows are checked, that the argument is too short to be nested 255 levels deep. -/
theorem c57_outcome (m : Machine) (ops : CliOps) (masks : List Char) (sort : Bool)
    (hm : ∀ p, selected ops = some p → Fits m p.2.length)
    (hd : m.overflowChecks = false ∨ ∀ p, selected ops = some p → p.2.length < 510) :
    (ShowsHelp (run m ops masks sort) ∧ selected ops = none) ∨
    (∃ e, Fails (run m ops masks sort) (message e)) ∨
    (∃ ls, Succeeds (run m ops masks sort) (showLines 0 ls)) := by
  rw [run_eq]
  cases hs : selected ops with
  | none => exact Or.inl ⟨⟨rfl, rfl, rfl, rfl, rfl⟩, rfl⟩
  | some p =>
    exact Or.inr (runOp_outcome m masks sort p.1 p.2 (hm p hs) (hd.imp id (fun h => h p hs)))

example := c57_outcome .debug64 { autoTlv := some "9F0100".toList } [] true
  (fun p hp => by cases hp; unfold Fits; decide +kernel) (Or.inr (fun p hp => by cases hp; decide +kernel))

/-- **C57.** The three outcomes exclude each other. -/
theorem c57_exclusive (r : Run) (msg : Text) (c : Cells) :
    ¬(ShowsHelp r ∧ Fails r msg) ∧ ¬(ShowsHelp r ∧ Succeeds r c) ∧ ¬(Fails r msg ∧ Succeeds r c) := by
  refine ⟨fun h => ?_, fun h => ?_, fun h => ?_⟩
  · have := h.1.stderr; rw [h.2.stderr] at this; cases this
  · have := h.1.help; rw [h.2.help] at this; cases this
  · have := h.2.stderr; rw [h.1.stderr] at this; cases this

/-- **C57.** Without the assumption on depth a run can only fail to end properly by panicking, with overflow
checks, on a block that is read and understood but nested more than 254 levels deep. -/
theorem c57_panic (m : Machine) (ops : CliOps) (masks : List Char) (sort : Bool)
    (hm : ∀ p, selected ops = some p → Fits m p.2.length) (h : (run m ops masks sort).disp.panicked = true) :
    m.overflowChecks = true ∧ ∃ s b, (selected ops = some (.autoTlv, s) ∧ (∃ f, autoParse m s masks = .ok (f, b)) ∨
      selected ops = some (.berTlv, s) ∧ berParse m (parseHexStr s) masks = .ok b ∨
      selected ops = some (.ingenicoTlv, s) ∧ ingParse m s masks = .ok b) ∧ AllAcceptable b ∧ 255 ≤ blockDepth b := by
  rw [run_eq] at h
  cases hs : selected ops with
  | none => rw [hs] at h; cases h
  | some p =>
    obtain ⟨op, s⟩ := p
    rw [hs] at h
    replace h : (runOp m masks sort op s).disp.panicked = true := h
    have contra : ∀ {x : Except Text (List Line)}, Reports (runOp m masks sort op s) x → False := by
      intro x hx
      cases x with
      | ok ls => have := hx.shows.returns; rw [h] at this; cases this
      | error e => have := hx.returns; rw [h] at this; cases this
    rcases operation_cases op with hop | rfl | hop
    · exact (contra (reports_hex m masks sort op hop s)).elim
    · by_cases hn : ∃ n, IsU16Text s n ∧ n ≤ 999
      · obtain ⟨n, h1, h2⟩ := hn
        exact (contra ((reports_serviceCode m masks sort s).1 n h1 h2)).elim
      · exact (contra ((reports_serviceCode m masks sort s).2 hn)).elim
    · obtain ⟨h1, h2, h3⟩ := reports_tlv m masks sort op hop s
      rcases tlv_returns masks op s (hm _ hs) with ⟨⟨f, b⟩, hr⟩ | ⟨e, he⟩
      · rcases processBlock_total b with ⟨q, hq⟩ | ⟨e, he⟩
        · by_cases hd : blockDepth b ≤ 254 ∨ m.overflowChecks = false
          · obtain ⟨b', -, hb⟩ := h3 f b q hr hq hd
            have := hb.shows.returns; rw [h] at this; cases this
          · simp only [not_or] at hd
            refine ⟨by simpa using hd.2, s, b, ?_, (c34_ok_iff b).1 ⟨q, hq⟩, by omega⟩
            simp only [List.mem_cons, List.not_mem_nil, or_false] at hop
            rcases hop with rfl | rfl | rfl
            · left
              refine ⟨rfl, ?_⟩
              rw [tlvParse] at hr
              cases ha : autoParse m s masks with
              | ok p =>
                rw [ha] at hr
                simp only [Out.map_ok, Out.ok.injEq, Prod.mk.injEq] at hr
                exact ⟨p.1, by rw [← hr.2]⟩
              | _ => rw [ha] at hr; cases hr
            · right; left
              refine ⟨rfl, ?_⟩
              rw [tlvParse] at hr
              cases ha : berParse m (parseHexStr s) masks with
              | ok p =>
                rw [ha] at hr
                simp only [Out.map_ok, Out.ok.injEq, Prod.mk.injEq] at hr
                rw [← hr.2]
              | _ => rw [ha] at hr; cases hr
            · right; right
              refine ⟨rfl, ?_⟩
              rw [tlvParse] at hr
              cases ha : ingParse m s masks with
              | ok p =>
                rw [ha] at hr
                simp only [Out.map_ok, Out.ok.injEq, Prod.mk.injEq] at hr
                rw [← hr.2]
              | _ => rw [ha] at hr; cases hr
        · have := (h2 f b e hr he).returns; rw [h] at this; cases this
      · have := (h1 e he).returns; rw [h] at this; cases this

/-- All three outcomes occur. The failing one is a block that is read but not understood: no format line is
printed. -/
example : (run .debug64 {} [] true).help = true ∧
    (run .debug64 { autoTlv := some "9501FF".toList } [] true).stderr.isSome ∧
    (run .debug64 { autoTlv := some "9501FF".toList } [] true).disp.evs = [] ∧
    (run .debug64 { autoTlv := some "9F0100".toList } [] true).stderr = none ∧
    (run .debug64 { autoTlv := some "9F0100".toList } [] true).disp.evs ≠ [] := by decide +kernel

/-! ### C58 -/

/-- **C58.** What a run does depends only on the first option given, in the order of `Spec.options`. -/
theorem c58_first_option (m : Machine) (ops ops' : CliOps) (masks : List Char) (sort : Bool)
    (h : selected ops = selected ops') : run m ops masks sort = run m ops' masks sort := by
  rw [run_eq, run_eq, h]

example (m : Machine) : run m { tsi := some "E800".toList, berTlv := some "00".toList } [] true =
    run m { tsi := some "E800".toList } [] true :=
  c58_first_option m _ _ [] true (by decide +kernel)

/-- **C58.** `selected` is the first option given. -/
theorem c58_selected (ops : CliOps) (op : Operation) (s : Text) :
    selected ops = some (op, s) ↔
      ∃ pre post, options ops = pre ++ (op, some s) :: post ∧ ∀ p ∈ pre, p.2 = none := by
  have key : ∀ l : List (Operation × Option Text), l.findSome? (fun p => p.2.map (fun s => (p.1, s))) = some (op, s) ↔
      ∃ pre post, l = pre ++ (op, some s) :: post ∧ ∀ p ∈ pre, p.2 = none := by
    intro l
    induction l with
    | nil => simp
    | cons p l ih =>
      obtain ⟨o, x⟩ := p
      cases x with
      | none =>
        rw [List.findSome?_cons]
        simp only [Option.map_none]
        rw [ih]
        constructor
        · rintro ⟨pre, post, rfl, h⟩
          refine ⟨(o, none) :: pre, post, rfl, ?_⟩
          intro p hp
          rcases List.mem_cons.1 hp with rfl | hp
          · rfl
          · exact h p hp
        · rintro ⟨pre, post, h, hn⟩
          cases pre with
          | nil => simp at h
          | cons q pre =>
            simp only [List.cons_append, List.cons.injEq] at h
            exact ⟨pre, post, h.2, fun p hp => hn p (by simp [hp])⟩
      | some t =>
        rw [List.findSome?_cons]
        simp only [Option.map_some]
        constructor
        · intro h
          cases h
          exact ⟨[], l, rfl, by simp⟩
        · rintro ⟨pre, post, h, hn⟩
          cases pre with
          | nil => simp only [List.nil_append, List.cons.injEq, Prod.mk.injEq, Option.some.injEq] at h; rw [h.1.1, h.1.2]
          | cons q pre =>
            simp only [List.cons_append, List.cons.injEq] at h
            have := hn q (by simp)
            rw [← h.1] at this
            cases this
  exact key _

/-- **C58.** Without any operation the help text is printed. -/
theorem c58_help (m : Machine) (masks : List Char) (sort : Bool) (ops : CliOps) :
    ShowsHelp (run m ops masks sort) ↔ ∀ p ∈ options ops, p.2 = none := by
  have hsel : selected ops = none ↔ ∀ p ∈ options ops, p.2 = none := by
    rw [selected, List.findSome?_eq_none_iff]
    refine forall_congr' fun p => forall_congr' fun _ => ?_
    simp
  rw [← hsel]
  constructor
  · intro h
    cases hs : selected ops with
    | none => rfl
    | some p =>
      have := h.help
      rw [run_eq, hs] at this
      obtain ⟨op, s⟩ := p
      have : (runOp m masks sort op s).help = false := by
        cases op with
        | autoTlv => rw [runOp_tlv _ _ _ _ (by simp)]; exact tlvOutcome_help ..
        | berTlv => exact finish_help ..
        | ingenicoTlv => exact finish_help ..
        | _ => exact finish_help ..
      simp_all
  · intro hs
    rw [run_eq, hs]
    exact ⟨rfl, rfl, rfl, rfl, rfl⟩

/-- **C58.** The operations on one value in hex: what is reported is the document of the value, or the
message for what is wrong with it. Neither the masking characters nor the order of tags matters. -/
theorem c58_hex (m : Machine) (ops : CliOps) (masks : List Char) (sort : Bool) (op : Operation) (s : Text)
    (hs : selected ops = some (op, s)) (h : op ∈ hexOperations) :
    Reports (run m ops masks sort) (hexReport op (hexBytes s)) := by
  rw [run_eq, hs]
  exact reports_hex m masks sort op h s

example (m : Machine) : Succeeds (run m { tsi := some "E8 00".toList } [] true)
    (showLines 0 (bitLines tsiItems tsiLabels [0xE8, 0x00] true)) := by
  have h := c58_hex m { tsi := some "E8 00".toList } [] true .tsi _ rfl (by decide)
  rw [show hexBytes "E8 00".toList = [0xE8, 0x00] by decide +kernel] at h
  exact h

/-- **C58.** The service code. -/
theorem c58_service_code (m : Machine) (ops : CliOps) (masks : List Char) (sort : Bool) (s : Text)
    (hs : selected ops = some (.serviceCode, s)) :
    (∀ n, IsU16Text s n → n ≤ 999 →
      Succeeds (run m ops masks sort) (showLines 0 (serviceCodeLines (n / 100) (n / 10 % 10) (n % 10)))) ∧
    ((¬ ∃ n, IsU16Text s n ∧ n ≤ 999) → Fails (run m ops masks sort) (message .invalidNumber)) := by
  rw [run_eq, hs]
  exact reports_serviceCode m masks sort s

example := (c58_service_code .debug64 { serviceCode := some "201".toList } [] true _ rfl).1 201
  ((c07_u16 _ _).1 (by decide +kernel)) (by decide)

/-- **C58.** BER-TLV: the message of the parser, or that of the first value not understood, or the document of
the block. -/
theorem c58_ber (m : Machine) (ops : CliOps) (masks : List Char) (sort : Bool) (s : Text)
    (hs : selected ops = some (.berTlv, s)) :
    (∀ e, berParse m (hexBytes s) masks = .err e → Fails (run m ops masks sort) (message e)) ∧
    (∀ b e, berParse m (hexBytes s) masks = .ok b → processBlock b = .err e →
      Fails (run m ops masks sort) (message e)) ∧
    (∀ b, berParse m (hexBytes s) masks = .ok b → AllAcceptable b → (blockDepth b ≤ 254 ∨ m.overflowChecks = false) →
      ∃ b', Arranged sort b b' ∧ Succeeds (run m ops masks sort) (showLines 0 (blockLines true b'))) := by
  rw [run_eq, hs]
  obtain ⟨h1, h2, h3⟩ := reports_tlv m masks sort .berTlv (by simp) s
  rw [← hexBytes_eq]
  refine ⟨fun e he => h1 e ?_, fun b e hb he => h2 none b e ?_ he, fun b hb ha hd => ?_⟩
  · rw [tlvParse, he]; rfl
  · rw [tlvParse, hb]; rfl
  · obtain ⟨q, hq⟩ := (c34_ok_iff b).2 ha
    exact h3 none b q (by rw [tlvParse, hb]; rfl) hq hd

/-- Two faults, one in the structure and one in a value. -/
example (m : Machine) (hm : m = .debug64) : Fails (run m { berTlv := some "5A".toList } [] true) (message .nonCompliant) ∧
    Fails (run m { berTlv := some "9501FF".toList } [] true) (message (.byteCountIncorrect .eq 5 1)) := by
  subst hm
  exact ⟨(c58_ber _ _ [] true _ rfl).1 _ (by decide +kernel),
    (c58_ber _ _ [] true _ rfl).2.1 [.mk ⟨[0x95], .contextSpecific, .primitive, .normal [0xFF]⟩ []] _ (by decide +kernel) rfl⟩

/-- **C58.** The Ingenico format. -/
theorem c58_ingenico (m : Machine) (ops : CliOps) (masks : List Char) (sort : Bool) (s : Text)
    (hs : selected ops = some (.ingenicoTlv, s)) :
    (∀ e, ingParse m s masks = .err e → Fails (run m ops masks sort) (message e)) ∧
    (∀ b e, ingParse m s masks = .ok b → processBlock b = .err e → Fails (run m ops masks sort) (message e)) ∧
    (∀ b, ingParse m s masks = .ok b → AllAcceptable b → (blockDepth b ≤ 254 ∨ m.overflowChecks = false) →
      ∃ b', Arranged sort b b' ∧ Succeeds (run m ops masks sort) (showLines 0 (blockLines true b'))) := by
  rw [run_eq, hs]
  obtain ⟨h1, h2, h3⟩ := reports_tlv m masks sort .ingenicoTlv (by simp) s
  refine ⟨fun e he => h1 e ?_, fun b e hb he => h2 none b e ?_ he, fun b hb ha hd => ?_⟩
  · rw [tlvParse, he]; rfl
  · rw [tlvParse, hb]; rfl
  · obtain ⟨q, hq⟩ := (c34_ok_iff b).2 ha
    exact h3 none b q (by rw [tlvParse, hb]; rfl) hq hd

example : Fails (run .debug64 { ingenicoTlv := some "T95:01:hFF".toList } [] true) (message (.byteCountIncorrect .eq 5 1)) :=
  (c58_ingenico _ _ [] true _ rfl).2.1 [.mk ⟨[0x95], .contextSpecific, .primitive, .normal [0xFF]⟩ []] _ (by decide +kernel) rfl

/-- **C58.** Automatic detection: additionally, the format found is told first. -/
theorem c58_auto (m : Machine) (ops : CliOps) (masks : List Char) (sort : Bool) (s : Text)
    (hs : selected ops = some (.autoTlv, s)) :
    (∀ e, autoParse m s masks = .err e → Fails (run m ops masks sort) (message e)) ∧
    (∀ f b e, autoParse m s masks = .ok (f, b) → processBlock b = .err e →
      Fails (run m ops masks sort) (message e)) ∧
    (∀ f b, autoParse m s masks = .ok (f, b) → AllAcceptable b → (blockDepth b ≤ 254 ∨ m.overflowChecks = false) →
      ∃ b', Arranged sort b b' ∧ Succeeds (run m ops masks sort) (showLines 0 (
        formatLines (match f with | .ingenico => "Ingenico" | .berTlv => "BER-TLV") ++ blockLines true b'))) := by
  rw [run_eq, hs]
  obtain ⟨h1, h2, h3⟩ := reports_tlv m masks sort .autoTlv (by simp) s
  refine ⟨fun e he => h1 e ?_, fun f b e hb he => h2 (some f) b e ?_ he, fun f b hb ha hd => ?_⟩
  · rw [tlvParse, he]; rfl
  · rw [tlvParse, hb]; rfl
  · obtain ⟨q, hq⟩ := (c34_ok_iff b).2 ha
    obtain ⟨b', hb', hs⟩ := h3 (some f) b q (by rw [tlvParse, hb]; rfl) hq hd
    refine ⟨b', hb', ?_⟩
    cases f <;> exact hs

example : Fails (run .debug64 { autoTlv := some "T95:01:hF".toList } [] true) (message .unrecognised) :=
  (c58_auto _ _ [] true _ rfl).1 _ (by decide +kernel)

/-- **C58.** From data to output: the hex text of every encodable forest whose values are understood is shown
as the document of that forest. -/
theorem c58_encoded (m : Machine) (masks : List Char) (s : Text) (os : List Obj) (h : allWF masks os)
    (hs : hexBytes s = encodeAll os) (hm : Fits m (encodeAll os).length) (ha : AllAcceptable (nodes os))
    (hd : blockDepth (nodes os) ≤ 254 ∨ m.overflowChecks = false) :
    Succeeds (run m { berTlv := some s } masks false) (showLines 0 (blockLines true (nodes os))) := by
  obtain ⟨b', rfl, hb⟩ := (c58_ber m { berTlv := some s } masks false s rfl).2.2 (nodes os)
    (by rw [hs]; exact c11_round_trip masks os h hm) ha hd
  exact hb

/-- Two options: only the first counts. -/
example : selected { tsi := some "E800".toList, berTlv := some "00".toList } = some (.tsi, "E800".toList) := by
  decide +kernel

example : hexReport .tsi (hexBytes "E8 00".toList) = .ok (bitLines tsiItems tsiLabels [0xE8, 0x00] true) ∧
    hexReport .tsi (hexBytes "E8".toList) = .error (lengthMessage "exactly" 2 1) := by
  have h1 : hexBytes "E8 00".toList = [0xE8, 0x00] := by decide +kernel
  have h2 : hexBytes "E8".toList = [0xE8] := by decide +kernel
  rw [h1, h2]
  exact ⟨rfl, rfl⟩

/-- A forest that meets the assumptions of `c58_encoded`. -/
example : allWF [] [.cons [0x70] [.prim [0x9A] [0xAA]]] ∧
    hexBytes "7003 9A01AA".toList = encodeAll [.cons [0x70] [.prim [0x9A] [0xAA]]] ∧
    AllAcceptable (nodes [.cons [0x70] [.prim [0x9A] [0xAA]]]) ∧
    blockDepth (nodes [.cons [0x70] [.prim [0x9A] [0xAA]]]) = 2 := by
  refine ⟨?_, by decide +kernel, ?_, by decide +kernel⟩
  · simp only [allWF, Obj.WF]
    refine ⟨⟨.low _ (by decide), by decide, by decide, ?_, ⟨.low _ (by decide), by decide, by decide, ?_⟩, trivial⟩, trivial⟩
    · rintro ⟨-, m, hm, -⟩; cases hm
    · rintro ⟨-, m, hm, -⟩; cases hm
  · rw [AllAcceptable]
    refine (c34_ok_iff _).1 ⟨_, rfl⟩

/-! ### C59 -/

/-- **C59.** The options that take hex depend only on the hex digits of their argument, and not on the letter
case of those. -/
theorem c59_digits (m : Machine) (ops ops' : CliOps) (masks : List Char) (sort : Bool) (op : Operation) (s s' : Text)
    (hs : selected ops = some (op, s)) (hs' : selected ops' = some (op, s'))
    (hop : op ∈ [Operation.tvr, .ccdIad, .ccdCvr, .tsi, .cvmResults, .cvmList, .identify, .berTlv])
    (h : s.filterMap hexDigit? = s'.filterMap hexDigit?) : run m ops masks sort = run m ops' masks sort := by
  have hx := c01_only_digits_matter s s' h
  rw [run_eq, run_eq, hs, hs']
  simp only [List.mem_cons, List.not_mem_nil, or_false] at hop
  rcases hop with rfl | rfl | rfl | rfl | rfl | rfl | rfl | rfl <;> (simp only [runOp]; rw [hx])

example (m : Machine) : run m { berTlv := some "9505 0000 0080 00".toList } [] true =
    run m { berTlv := some "95 05 00-00-00-80-00".toList } [] true :=
  c59_digits m _ _ [] true .berTlv _ _ rfl rfl (by decide) (by decide +kernel)

/-- **C59.** In particular a separator can be put anywhere, and a letter written in either case. -/
theorem c59_noise (m : Machine) (masks : List Char) (sort : Bool) (a b : Text) (c : Char) :
    (¬ IsHex c → run m { berTlv := some (a ++ c :: b) } masks sort = run m { berTlv := some (a ++ b) } masks sort) ∧
    (∀ c', hexDigit? c = hexDigit? c' →
      run m { berTlv := some (a ++ c :: b) } masks sort = run m { berTlv := some (a ++ c' :: b) } masks sort) := by
  constructor
  · intro h
    refine c59_digits m _ _ masks sort .berTlv _ _ rfl rfl (by simp) ?_
    have : hexDigit? c = none := by simpa [IsHex] using h
    simp [this]
  · intro c' h
    refine c59_digits m _ _ masks sort .berTlv _ _ rfl rfl (by simp) ?_
    simp [List.filterMap_append, List.filterMap_cons, h]

/-- Different spellings. -/
example : "95 05 00-00-00-80-00".toList.filterMap hexDigit? = "9505 0000 0080 00".toList.filterMap hexDigit? ∧
    "9f:1a".toList.filterMap hexDigit? = "9F1A".toList.filterMap hexDigit? := by decide +kernel

/-- The options whose text is not only hex are different. -/
example : run .debug64 { serviceCode := some "101".toList } [] true ≠
    run .debug64 { serviceCode := some "1,01".toList } [] true := by
  intro h
  have := congrArg (fun r => r.stderr.isSome) h
  revert this
  decide +kernel

end Pemv
