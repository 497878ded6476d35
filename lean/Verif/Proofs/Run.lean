import Verif.Spec.Run
import Verif.Proofs.Shown
import Verif.Props.Auto

/-!
# Lemmas about whole runs
-/

namespace Pemv

open Spec

/-! ### Sorting, without annotations -/

theorem eraseBlock_map (b : List ProcessedEmvNode) : eraseBlock b = b.map eraseNode := by
  induction b with
  | nil => rw [eraseBlock, List.map_nil]
  | cons n ns ih => rw [eraseBlock, ih, List.map_cons]

theorem tagOf_erase (n : ProcessedEmvNode) : (eraseNode n).tag.tag = tagOf n := by
  obtain ⟨t, c⟩ := n
  rw [eraseNode]; rfl

theorem erase_withTag (k : List Byte) (b : List ProcessedEmvNode) :
    (eraseBlock b).filter (fun n => decide (n.tag.tag = k)) = eraseBlock (withTag k b) := by
  rw [eraseBlock_map, eraseBlock_map, withTag, List.filter_map]
  congr 1
  apply List.filter_congr
  intro n _
  simp [tagOf_erase]

theorem stable_inTagOrder {b : List RawEmvNode} {mid q : List ProcessedEmvNode} (hc : ChildrenInOrder b (eraseBlock mid))
    (h : IsStableSort mid q) : InTagOrder b (eraseBlock q) := by
  refine .mk hc ?_ ?_ ?_
  · rw [eraseBlock_map, eraseBlock_map]; exact h.perm.map _
  · rw [eraseBlock_map, List.pairwise_map]
    refine h.ascending.imp ?_
    intro x y hxy
    rw [tagOf_erase, tagOf_erase]; exact hxy
  · intro k
    rw [erase_withTag, erase_withTag, h.stable]

mutual
theorem sortEach_inOrder : ∀ b : List ProcessedEmvNode, ChildrenInOrder (eraseBlock b) (eraseBlock (sortEach b))
  | [] => by rw [sortEach, eraseBlock]; exact .nil
  | n :: ns => by
    obtain ⟨h1⟩ := sortNode_inOrder n
    rw [sortEach, eraseBlock, eraseBlock]
    obtain ⟨t, c, c', e1, e2, h⟩ := h1
    rw [e1, e2]
    exact .cons t h (sortEach_inOrder ns)
theorem sortNode_inOrder : ∀ n : ProcessedEmvNode, Nonempty (∃ t c c', eraseNode n = .mk t c ∧
    eraseNode (sortNode n) = .mk t c' ∧ InTagOrder c c')
  | .mk t c => by
    refine ⟨rawOf t, eraseBlock c, eraseBlock (stableSort (sortEach c)), by rw [eraseNode],
      by rw [sortNode, eraseNode], ?_⟩
    exact stable_inTagOrder (sortEach_inOrder c) (stableSort_spec _)
end

theorem sortNodes_inOrder (b : List ProcessedEmvNode) : InTagOrder (eraseBlock b) (eraseBlock (sortNodes b)) :=
  stable_inTagOrder (sortEach_inOrder b) (stableSort_spec _)

theorem maybeSort_arranged (sort : Bool) (q : ProcessedEmvBlock) :
    Arranged sort (eraseBlock q) (eraseBlock (maybeSort sort q)) := by
  cases sort with
  | true => exact sortNodes_inOrder q
  | false => exact rfl

theorem blockDepth_perm {b b' : List RawEmvNode} (h : b.Perm b') : blockDepth b = blockDepth b' := by
  induction h with
  | nil => rfl
  | cons x _ ih => rw [blockDepth, blockDepth, ih]
  | swap x y l => simp only [blockDepth]; omega
  | trans _ _ ih1 ih2 => rw [ih1, ih2]

mutual
theorem sortNode_depth : ∀ n : ProcessedEmvNode, nodeDepth (eraseNode (sortNode n)) = nodeDepth (eraseNode n)
  | .mk t c => by
    rw [sortNode, eraseNode, eraseNode, nodeDepth, nodeDepth]
    have h1 : blockDepth (eraseBlock (stableSort (sortEach c))) = blockDepth (eraseBlock (sortEach c)) := by
      rw [eraseBlock_map, eraseBlock_map]; exact blockDepth_perm ((stableSort_perm _).map _)
    rw [h1, sortEach_depth c]
theorem sortEach_depth : ∀ b : List ProcessedEmvNode, blockDepth (eraseBlock (sortEach b)) = blockDepth (eraseBlock b)
  | [] => by rw [sortEach]
  | n :: ns => by
    rw [sortEach, eraseBlock, eraseBlock, blockDepth, blockDepth, sortNode_depth n, sortEach_depth ns]
end

theorem maybeSort_depth (sort : Bool) (q : ProcessedEmvBlock) :
    blockDepth (eraseBlock (maybeSort sort q)) = blockDepth (eraseBlock q) := by
  cases sort with
  | true =>
    show blockDepth (eraseBlock (sortNodes q)) = _
    rw [sortNodes, ← sortEach_depth q, eraseBlock_map, eraseBlock_map]
    exact blockDepth_perm ((stableSort_perm _).map _)
  | false => rfl

/-! ### Processed blocks are shown -/

theorem allProcessed {b : RawEmvBlock} {q : ProcessedEmvBlock} (h : processBlock b = .ok q) : AllProcessed q := by
  have h1 := processBlock_ok h
  have h2 : ∀ (l : List RawEmvTag) (l' : List ProcessedEmvTag), l.map processEmvTag = l'.map Out.ok →
      ∀ t ∈ l', ∃ r, processEmvTag r = .ok t := by
    intro l
    induction l with
    | nil => intro l' h t ht; cases l' with
      | nil => cases ht
      | cons => cases h
    | cons r l ih =>
      intro l' h t ht
      cases l' with
      | nil => cases h
      | cons x l' =>
        simp only [List.map_cons, List.cons.injEq] at h
        rcases List.mem_cons.1 ht with rfl | ht
        · exact ⟨r, h.1⟩
        · exact ih l' h.2 t ht
  intro t ht
  obtain ⟨r, hr⟩ := h2 _ _ h1 t ht
  rw [processEmvTag_raw r t hr]; exact hr

theorem allProcessed_sort {q : ProcessedEmvBlock} (sort : Bool) (h : AllProcessed q) :
    AllProcessed (maybeSort sort q) := by
  cases sort with
  | true =>
    intro t ht
    have hp : (blockProcessed (sortNodes q)).Perm (blockProcessed q) := c38_tags q
    exact h t (hp.subset ht)
  | false => exact h

/-- A processed block is shown, sorted or not. -/
theorem shows_arranged {m : Machine} {b : RawEmvBlock} {q : ProcessedEmvBlock} (h : processBlock b = .ok q)
    (sort : Bool) (hd : blockDepth b ≤ 254 ∨ m.overflowChecks = false) : ∃ b', Arranged sort b b' ∧
    Shows (displayBlock m (maybeSort sort q) 0 true) (showLines 0 (blockLines true b')) := by
  have he := processBlock_erase b q h
  refine ⟨eraseBlock (maybeSort sort q), ?_, ?_⟩
  · rw [← he]; exact maybeSort_arranged sort q
  · refine shows_nodes _ 0 (allProcessed_sort sort (allProcessed h)) ?_
    rw [maybeSort_depth, he]; exact hd.imp (by omega) id

/-! ### Messages -/

theorem message_start : ("The wrong number of bytes were provided for the value. Perhaps you provided the " ++
      "wrong value? Expected: ").toList =
    ("The wrong number of bytes were provided for the value. Perhaps you provided the wrong value? " ++
      "Expected: ").toList := congrArg String.toList (by decide +kernel)

theorem join_message {h f x x' y y' : Text} (hx : x = x') (hy : y = y') :
    ("The wrong number of bytes were provided for the value. Perhaps you provided the " ++
      "wrong value? Expected: ").toList ++ h ++ " ".toList ++ x ++ f ++ y =
    ("The wrong number of bytes were provided for the value. Perhaps you provided the wrong value? " ++
      "Expected: ").toList ++ h ++ [' '] ++ x' ++ f ++ y' := by
  have sp : " ".toList = [' '] := rfl
  rw [message_start, sp, hx, hy]

theorem text_message (e : ParseError) : e.text = message e := by
  cases e with
  | byteCountIncorrect ty n k =>
    cases ty
    · exact join_message (natToText_decimal n) (natToText_decimal k)
    · exact join_message (natToText_decimal n) (natToText_decimal k)
    · exact join_message (natToText_decimal n) (natToText_decimal k)
  | byteCountNotDivisibleIntoComponents => exact congrArg String.toList (by decide +kernel)
  | invalidBytes => exact congrArg String.toList (by decide +kernel)
  | invalidNumber => exact congrArg String.toList (by decide +kernel)
  | nonCompliant => exact congrArg String.toList (by decide +kernel)
  | nonCcdCompliant => exact congrArg String.toList (by decide +kernel)
  | unsupported => exact congrArg String.toList (by decide +kernel)
  | unrecognised => exact congrArg String.toList (by decide +kernel)

/-! ### Runs -/

theorem hexBytes_eq (s : Text) : parseHexStr s = hexBytes s := by
  rw [hexBytes, ← c01_lenient_hex, List.map_map]
  conv => lhs; rw [← List.map_id (parseHexStr s)]
  apply List.map_congr_left
  intro b _
  simp

theorem finish_ok {α : Type} {x : Out α} {v : α} (h : x = .ok v) {display : α → Disp} {c : Cells}
    (hs : Shows (display v) c) : Succeeds (finish .nil x display) c := by
  subst h
  refine ⟨?_, rfl, rfl, rfl⟩
  have := shows_nil.seq hs
  rwa [List.nil_append] at this

theorem finish_err {α : Type} {x : Out α} {e : ParseError} (h : x = .err e) (display : α → Disp) :
    Fails (finish .nil x display) (message e) := by
  subst h
  rw [← text_message]
  exact ⟨rfl, rfl, rfl, rfl, rfl⟩

/-- What an operation does, by operation. -/
def runOp (m : Machine) (masks : List Char) (sort : Bool) : Operation → Text → Run
  | .tvr, s => finish .nil (tvrLayout.tryFrom (parseHexStr s)) (fun v => displayLayout tvrLayout v 0 true)
  | .ccdIad, s => finish .nil (Iad.tryFrom (parseHexStr s)) (fun v => displayIad m v 0 true)
  | .ccdCvr, s => finish .nil (cvrLayout.tryFrom (parseHexStr s)) (fun v => displayLayout cvrLayout v 0 true)
  | .tsi, s => finish .nil (tsiLayout.tryFrom (parseHexStr s)) (fun v => displayLayout tsiLayout v 0 true)
  | .cvmResults, s => finish .nil (CvmResults.tryFrom (parseHexStr s)) (fun v => displayCvmResults v 0 true)
  | .cvmList, s => finish .nil (CvmList.tryFrom (parseHexStr s)) (fun v => displayCvmList m v 0)
  | .identify, s => finish .nil (TagBasicInfo.tryFrom (parseHexStr s)) (fun v => displayTagInfo v 0)
  | .autoTlv, s => runAuto m s masks sort
  | .berTlv, s => finish .nil ((berParse m (parseHexStr s) masks >>= processBlock).map (maybeSort sort))
      (fun b => displayBlock m b 0 true)
  | .ingenicoTlv, s => finish .nil ((ingParse m s masks >>= processBlock).map (maybeSort sort))
      (fun b => displayBlock m b 0 true)
  | .serviceCode, s => finish .nil (parseStrToU16 s >>= ServiceCode.tryFromU16) (fun v => displayServiceCode v 0)

theorem run_eq (m : Machine) (ops : CliOps) (masks : List Char) (sort : Bool) :
    run m ops masks sort = match selected ops with
      | some (op, s) => runOp m masks sort op s
      | none => ⟨.nil, none, true, false⟩ := by
  obtain ⟨o0, o1, o2, o3, o4, o5, o6, o7, o8, o9, o10⟩ := ops
  cases o0 with
  | some s => rfl
  | none =>
  cases o1 with
  | some s => rfl
  | none =>
  cases o2 with
  | some s => rfl
  | none =>
  cases o3 with
  | some s => rfl
  | none =>
  cases o4 with
  | some s => rfl
  | none =>
  cases o5 with
  | some s => rfl
  | none =>
  cases o6 with
  | some s => rfl
  | none =>
  cases o7 with
  | some s => rfl
  | none =>
  cases o8 with
  | some s => rfl
  | none =>
  cases o9 with
  | some s => rfl
  | none =>
  cases o10 with
  | some s => rfl
  | none =>
  rfl

theorem message_eq (n k : Nat) : message (.byteCountIncorrect .eq n k) = lengthMessage "exactly" n k := rfl

theorem message_gt (n k : Nat) :
    message (.byteCountIncorrect .gt n k) = lengthMessage "greater than or equal to" n k := rfl

/-- The bit-mapped values that accept every input of the right length. -/
theorem reports_bits {p : BitValue × List (String × Severity × String)} (hp : p ∈ labelled)
    (hb : p.1 ∈ bitValues) (hcci : p.1.items ≠ cciItems) (bs : List Byte) :
    Reports (finish .nil (p.1.layout.tryFrom bs) (fun v => displayLayout p.1.layout v 0 true))
      (if bs.length = p.1.numBytes then .ok (bitLines p.1.items p.2 bs true)
      else .error (lengthMessage "exactly" p.1.numBytes bs.length)) := by
  by_cases h : bs.length = p.1.numBytes
  · obtain ⟨v, hv⟩ := c40_total p.1 (List.mem_cons_of_mem _ hb) hcci bs h
    rw [if_pos h]
    exact finish_ok hv (shows_bitLines hp hv 0 true)
  · rw [if_neg h, ← message_eq]
    exact finish_err (c40_wrong_length p.1 (List.mem_cons_of_mem _ hb) bs h) _

theorem shows_tagInfo (bs : List Byte) (h : bs ≠ []) :
    ∃ v, TagBasicInfo.tryFrom bs = .ok v ∧ Shows (displayTagInfo v 0) (showLines 0 (identifyLines bs)) := by
  refine ⟨_, c37_identify bs h, ?_⟩
  have hcls : ∀ c : TagClass, c.text = (match c with
     | .universal => "Universal" | .application => "Application" | .contextSpecific => "Context-Specific"
     | .priv => "Private") := by intro c; cases c <;> rfl
  have htyp : ∀ t : DataObjectType, " ".toList ++ t.text.toList = (match t with
     | .primitive => " Primitive".toList | .constructed => " Constructed".toList) := by
    intro t; cases t
    · show " ".toList ++ "Primitive".toList = _
      rw [← String.toList_append]; exact congrArg String.toList (by decide +kernel)
    · show " ".toList ++ "Constructed".toList = _
      rw [← String.toList_append]; exact congrArg String.toList (by decide +kernel)
  have hx : printBytesSmall bs = Disp.print (bs.flatMap hexPair) := by
    rw [printBytesSmall, flatMap_hexByte]
  rw [displayTagInfo, identifyLines, dictionaryName_eq]
  simp only []
  rw [hcls, htyp, hx]
  refine lines_entry ?_
  rw [render_cons, render_line]
  have ht := lines_entry (t := "Class:") (r := "            ".toList ++ (match classOf bs with
     | .universal => "Universal" | .application => "Application" | .contextSpecific => "Context-Specific"
     | .priv => "Private").toList) (i := 0) (lines_entry (t := "Data Object Type:") (r := (match typeOf bs with
     | .primitive => " Primitive".toList | .constructed => " Constructed".toList)) (lines_nil 0))
  have h1 := (shows_print (bs.flatMap hexPair))
  have h2 := shows_coloured boldSpec (bs.flatMap hexPair) _ _ ((shows_println []).cons ht)
  simp only [List.append_assoc]
  exact (shows_indent 0).cons (shows_coloured _ _ _ _ ((shows_print _).cons h2))

/-- The operations that take one value in hex. -/
theorem reports_hex (m : Machine) (masks : List Char) (sort : Bool) (op : Operation) (h : op ∈ hexOperations)
    (s : Text) : Reports (runOp m masks sort op s) (hexReport op (hexBytes s)) := by
  rw [← hexBytes_eq]
  simp only [hexOperations, List.mem_cons, List.not_mem_nil, or_false] at h
  rcases h with rfl | rfl | rfl | rfl | rfl | rfl | rfl
  · exact reports_bits (p := (⟨tvrLayout, 5, tvrItems⟩, tvrLabels)) (by simp [labelled]) (by simp [bitValues])
      (by decide +kernel) _
  · have hx : hexReport .ccdIad (parseHexStr s) =
      if isFormatA (parseHexStr s) then .ok (iadLines (parseHexStr s) true)
      else .error (message .nonCcdCompliant) := rfl
    rw [hx]
    by_cases hc : (parseHexStr s).length = 32 ∧ (parseHexStr s)[0]? = some 0x0F ∧ (parseHexStr s)[16]? = some 0x0F ∧
      ((parseHexStr s)[1]? = some 0xA5 ∨ (parseHexStr s)[1]? = some 0xA6)
    · obtain ⟨v, hv, -⟩ := c51_accepted _ hc.1 hc.2.1 hc.2.2.1 hc.2.2.2
      obtain ⟨h1, h2⟩ := shows_iad (m := m) hv (i := 0) (Or.inl (by omega)) true
      rw [if_pos h1]
      exact finish_ok hv h2
    · have hv := c51_rejected _ hc
      rw [if_neg (by rw [iad_none hv]; simp)]
      exact finish_err hv _
  · exact reports_bits (p := (⟨cvrLayout, 5, cvrItems⟩, cvrLabels)) (by simp [labelled]) (by simp [bitValues])
      (by decide +kernel) _
  · exact reports_bits (p := (⟨tsiLayout, 2, tsiItems⟩, tsiLabels)) (by simp [labelled]) (by simp [bitValues])
      (by decide +kernel) _
  · obtain ⟨h1, h2, h3⟩ := c40_cvm_results (parseHexStr s)
    rw [hexReport]
    by_cases hl : (parseHexStr s).length = 3
    · rw [if_neg (by simp [hl])]
      by_cases hc : 2 < ((parseHexStr s).getD 2 0).toNat
      · rw [if_pos hc]
        exact finish_err (h3 hl hc) _
      · rw [if_neg hc]
        obtain ⟨v, hv⟩ := h2 hl (by omega)
        obtain ⟨a, b, c, he⟩ := eq_three hl
        refine finish_ok hv ?_
        rw [he] at hv ⊢
        exact shows_cvmResults a b c v hv 0 true
    · rw [if_pos hl, ← message_eq]
      exact finish_err (h1 hl) _
  · obtain ⟨h1, h2⟩ := c49_rejected (parseHexStr s)
    rw [hexReport]
    by_cases hl : (parseHexStr s).length < 8
    · rw [if_pos hl, ← message_gt]
      exact finish_err (h1 hl) _
    · rw [if_neg hl]
      by_cases ho : (parseHexStr s).length % 2 = 1
      · rw [if_pos ho]
        exact finish_err (h2 (by omega) ho) _
      · rw [if_neg ho]
        obtain ⟨v, hv, -⟩ := c49_accepted (parseHexStr s) (by omega) (by omega)
        exact finish_ok hv (shows_cvmList hv (Or.inl (by omega)))
  · rw [hexReport]
    by_cases hn : parseHexStr s = []
    · rw [if_pos hn, ← message_gt]
      refine finish_err ?_ _
      rw [hn]; rfl
    · rw [if_neg hn]
      obtain ⟨v, hv, hs⟩ := shows_tagInfo _ hn
      exact finish_ok hv hs

/-- Service codes. -/
theorem reports_serviceCode (m : Machine) (masks : List Char) (sort : Bool) (s : Text) :
    (∀ n, IsU16Text s n → n ≤ 999 →
      Reports (runOp m masks sort .serviceCode s) (.ok (serviceCodeLines (n / 100) (n / 10 % 10) (n % 10)))) ∧
    ((¬ ∃ n, IsU16Text s n ∧ n ≤ 999) →
      Reports (runOp m masks sort .serviceCode s) (.error (message .invalidNumber))) := by
  constructor
  · intro n hn h9
    obtain ⟨v, hv, -⟩ := (c48_digits n).1 h9
    refine finish_ok (v := v) ?_ (shows_serviceCode hv 0)
    rw [(c07_u16 s n).2 hn]; exact hv
  · intro hno
    refine finish_err ?_ _
    by_cases hu : ∃ n, IsU16Text s n
    · obtain ⟨n, hn⟩ := hu
      rw [(c07_u16 s n).2 hn]
      exact (c48_digits n).2 (Nat.lt_of_not_le (fun h => hno ⟨n, hn, h⟩))
    · rw [c07_otherwise_invalid s hu]; rfl

/-! ### Blocks -/

/-- What the parsers report: the format if it had to be found, and the block. -/
def tlvParse (m : Machine) (masks : List Char) : Operation → Text → Out (Option TlvFormat × RawEmvBlock)
  | .autoTlv, s => (autoParse m s masks).map (fun p => (some p.1, p.2))
  | .berTlv, s => (berParse m (parseHexStr s) masks).map (fun b => (none, b))
  | .ingenicoTlv, s => (ingParse m s masks).map (fun b => (none, b))
  | _, _ => .err .unsupported

theorem finish_shows {α : Type} {x : Out α} {v : α} (h : x = .ok v) {display : α → Disp} {pre : Disp} {c c' : Cells}
    (hp : Shows pre c') (hs : Shows (display v) c) : Succeeds (finish pre x display) (c' ++ c) := by
  subst h
  exact ⟨hp.seq hs, rfl, rfl, rfl⟩

theorem shows_header (f : TlvFormat) : Shows (autoHeader f) (showLines 0 (formatLines f.text)) := by
  rw [formatLines, render_cons, render_cons, render_nil, List.append_nil]
  refine shows_coloured _ _ _ _ ?_
  have := (shows_println f.text.toList).cons ((shows_println []).cons shows_all_nil)
  rwa [List.append_nil] at this

/-- The operations on blocks. -/
theorem reports_tlv (m : Machine) (masks : List Char) (sort : Bool) (op : Operation)
    (hop : op ∈ [.autoTlv, .berTlv, .ingenicoTlv]) (s : Text) :
    (∀ e, tlvParse m masks op s = .err e → Fails (runOp m masks sort op s) (message e)) ∧
    (∀ f b e, tlvParse m masks op s = .ok (f, b) → processBlock b = .err e →
      Fails (runOp m masks sort op s) (message e)) ∧
    (∀ f b q, tlvParse m masks op s = .ok (f, b) → processBlock b = .ok q → (blockDepth b ≤ 254 ∨ m.overflowChecks = false) →
      ∃ b', Arranged sort b b' ∧ Succeeds (runOp m masks sort op s)
        (showLines 0 ((match f with | some f => formatLines f.text | none => []) ++ blockLines true b'))) := by
  have mapOk : ∀ {α β : Type} {x : Out α} {f : α → β} {y : β}, x.map f = .ok y → ∃ v, x = .ok v ∧ y = f v := by
    intro α β x f y hx
    cases x with
    | ok v => simp only [Out.map_ok, Out.ok.injEq] at hx; exact ⟨v, rfl, hx.symm⟩
    | _ => cases hx
  have mapErr : ∀ {α β : Type} {x : Out α} {f : α → β} {e : ParseError}, x.map f = .err e → x = .err e := by
    intro α β x f e hx
    cases x with
    | err e' => simp only [Out.map_err, Out.err.injEq] at hx; rw [hx]
    | _ => cases hx
  simp only [List.mem_cons, List.not_mem_nil, or_false] at hop
  rcases hop with rfl | rfl | rfl
  · refine ⟨fun e h => ?_, fun f b e h hp => ?_, fun f b q h hp hd => ?_⟩
    · rw [runOp, runAuto, mapErr h]; exact finish_err rfl _
    · obtain ⟨⟨f', b'⟩, h1, h2⟩ := mapOk h
      cases h2
      rw [runOp, runAuto, h1]
      simp only [hp]
      exact finish_err rfl _
    · obtain ⟨⟨f', b'⟩, h1, h2⟩ := mapOk h
      cases h2
      obtain ⟨b', hb, hs⟩ := shows_arranged (m := m) hp sort hd
      refine ⟨b', hb, ?_⟩
      rw [runOp, runAuto, h1]
      simp only [hp]
      rw [render_append]
      exact finish_shows rfl (shows_header f') hs
  · refine ⟨fun e h => ?_, fun f b e h hp => ?_, fun f b q h hp hd => ?_⟩
    · rw [runOp, mapErr h]; exact finish_err rfl _
    · obtain ⟨b', h1, h2⟩ := mapOk h
      cases h2
      rw [runOp, h1]
      refine finish_err (e := e) ?_ _
      show (processBlock b).map _ = _
      rw [hp]; rfl
    · obtain ⟨b1, h1, h2⟩ := mapOk h
      cases h2
      obtain ⟨b', hb, hs⟩ := shows_arranged (m := m) hp sort hd
      refine ⟨b', hb, ?_⟩
      rw [runOp, h1]
      refine finish_ok (v := maybeSort sort q) ?_ hs
      show (processBlock b).map _ = _
      rw [hp]; rfl
  · refine ⟨fun e h => ?_, fun f b e h hp => ?_, fun f b q h hp hd => ?_⟩
    · rw [runOp, mapErr h]; exact finish_err rfl _
    · obtain ⟨b', h1, h2⟩ := mapOk h
      cases h2
      rw [runOp, h1]
      refine finish_err (e := e) ?_ _
      show (processBlock b).map _ = _
      rw [hp]; rfl
    · obtain ⟨b1, h1, h2⟩ := mapOk h
      cases h2
      obtain ⟨b', hb, hs⟩ := shows_arranged (m := m) hp sort hd
      refine ⟨b', hb, ?_⟩
      rw [runOp, h1]
      refine finish_ok (v := maybeSort sort q) ?_ hs
      show (processBlock b).map _ = _
      rw [hp]; rfl

end Pemv
