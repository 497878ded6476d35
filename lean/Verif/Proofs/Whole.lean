import Verif.Spec.Whole
import Verif.Proofs.Decimal
import Verif.Props.Run
import Verif.Props.Ingenico
import Verif.Props.Auto
import Verif.Props.Masking

/-!
# Lemmas about relations between whole runs
-/

namespace Pemv

open Spec

/-! ### Runs -/

theorem finish_succeeds {α : Type} {x : Out α} {display : α → Disp} {c : Cells}
    (h : Succeeds (finish .nil x display) c) : ∃ v, x = .ok v ∧ Shows (display v) c := by
  cases x with
  | ok v => exact ⟨v, rfl, h.shows⟩
  | err e => have := h.stderr; cases this
  | panic => have := h.shows.returns; cases this
  | diverge => have := h.terminates; cases this

theorem finish_fails {α : Type} {x : Out α} {display : α → Disp} {msg : Text}
    (h : Fails (finish .nil x display) msg) : ∃ e, x = .err e ∧ msg = message e := by
  cases x with
  | ok v => have := h.stderr; cases this
  | err e =>
    refine ⟨e, rfl, ?_⟩
    have h1 := (finish_err (x := .err e) rfl display).stderr
    rw [h.stderr] at h1
    exact List.append_cancel_right (Option.some.inj h1)
  | panic => have := h.stderr; cases this
  | diverge => have := h.stderr; cases this

theorem Disp.seq_assoc (a b c : Disp) : (a.seq b).seq c = a.seq (b.seq c) := by
  obtain ⟨ea, pa⟩ := a
  obtain ⟨eb, pb⟩ := b
  cases pa <;> cases pb <;> simp [Disp.seq]

theorem Disp.nil_seq (a : Disp) : Disp.nil.seq a = a := by
  simp [Disp.seq, Disp.nil]

theorem Disp.seq_nil (a : Disp) : a.seq .nil = a := by
  obtain ⟨ea, pa⟩ := a
  cases pa <;> simp [Disp.seq, Disp.nil]

theorem shows_cells_unique {d : Disp} {c c' : Cells} (h : Shows d c) (h' : Shows d c') : c = c' := by
  rw [← h.cells, ← h'.cells]

theorem bind_ok {α β : Type} {x : Out α} {f : α → Out β} {v : β} (h : (x >>= f) = .ok v) :
    ∃ a, x = .ok a ∧ f a = .ok v := by
  cases x with
  | ok a => exact ⟨a, rfl, h⟩
  | err e => cases h
  | panic => cases h
  | diverge => cases h

theorem map_ok {α β : Type} {x : Out α} {f : α → β} {v : β} (h : x.map f = .ok v) :
    ∃ a, x = .ok a ∧ f a = v := by
  cases x with
  | ok a => simp only [Out.map_ok, Out.ok.injEq] at h; exact ⟨a, rfl, h⟩
  | err e => cases h
  | panic => cases h
  | diverge => cases h

/-! ### Formats -/

theorem isTag_shape {t : List Byte} (h : IsTag t) : t ≠ [] ∧ (t.length = 1 ∨ t.head? ≠ some 0) := by
  cases h with
  | low b h => exact ⟨by simp, Or.inl rfl⟩
  | high b mid last h hmid hlast =>
    refine ⟨by simp, Or.inr ?_⟩
    simp only [List.head?_cons, ne_eq, Option.some.injEq]
    rintro rfl
    exact absurd h (by decide)

theorem hexText_not_masked (bs : List Byte) (masks : List Char) (h : ∀ c ∈ masks, ¬ IsHex c) :
    ¬ IsMasked (hexText bs) masks := by
  rintro ⟨hl, c, hc, hall⟩
  obtain ⟨hd, -, -⟩ := hexText_digits bs
  cases ht : hexText bs with
  | nil => rw [ht] at hl; simp at hl
  | cons x xs =>
    have hx : x ∈ hexText bs := by rw [ht]; simp
    exact h c hc (hall x hx ▸ hd x hx)

theorem nodes_map : ∀ os : List Obj, nodes os = os.map Obj.node
  | [] => rfl
  | o :: os => by rw [nodes, nodes_map os, List.map_cons]

theorem encode_length_mem : ∀ (os : List Obj), ∀ o ∈ os, o.encode.length ≤ (encodeAll os).length
  | [], _, h => by cases h
  | o :: os, x, hx => by
    rw [encodeAll, List.length_append]
    rcases List.mem_cons.1 hx with rfl | hx
    · omega
    · have := encode_length_mem os x hx; omega

theorem content_length (o : Obj) : o.content.length ≤ o.encode.length := by
  cases o <;> simp only [Obj.content, Obj.encode, List.length_append] <;> omega

/-- What an Ingenico record of an object is read as. -/
theorem record_node {m : Machine} (masks : List Char) (o : Obj) (h : o.WF masks) (hm : Fits m o.content.length) :
    (.mk ⟨o.tagBytes, classOf o.tagBytes, typeOf o.tagBytes, .normal o.content⟩
      (childrenOf (fun v => berParse m v masks) (typeOf o.tagBytes) (.normal o.content)) : RawEmvNode) = o.node := by
  cases o with
  | prim tag value =>
    obtain ⟨-, h2, -, -⟩ := h
    simp only [Obj.tagBytes, Obj.content, Obj.node, h2, childrenOf]
  | cons tag children =>
    obtain ⟨-, h2, -, -, h5⟩ := h
    simp only [Obj.tagBytes, Obj.content, Obj.node, h2, childrenOf]
    rw [Obj.content] at hm
    rw [c11_round_trip masks children h5 hm]

theorem content_bound (masks : List Char) (o : Obj) (h : o.WF masks) : o.content.length < 2 ^ 32 := by
  cases o with
  | prim tag value => exact h.2.2.1
  | cons tag children => exact h.2.2.1

theorem content_unmasked (masks : List Char) (o : Obj) (h : o.WF masks) : ¬ IsMasked (latin1 o.content) masks := by
  cases o with
  | prim tag value => exact h.2.2.2
  | cons tag children => exact h.2.2.2.1

theorem tag_of_wf (masks : List Char) (o : Obj) (h : o.WF masks) : IsTag o.tagBytes := by
  cases o with
  | prim tag value => exact h.1
  | cons tag children => exact h.1

theorem records_parse {m : Machine} (masks : List Char) (hmasks : ∀ c ∈ masks, ¬ IsHex c)
    (l : List (Obj × Bool × Char)) (h : allWF masks (l.map (·.1)))
    (hascii : ∀ p ∈ l, p.2.1 = true → ∀ b ∈ p.1.content, b.toNat < 128) (hsep : ∀ p ∈ l, p.2.2.toNat < 128)
    (hm : Fits m (asRecords l).length) (hm' : Fits m (encodeAll (l.map (·.1))).length) :
    ingParse m (asRecords l) masks = .ok (nodes (l.map (·.1))) := by
  have hw : ∀ p ∈ l, p.1.WF masks := fun p hp => allWF_mem h p.1 (List.mem_map_of_mem hp)
  let l' : List (List Byte × List Byte × Bool × Char) := l.map (fun p => (p.1.tagBytes, p.1.content, p.2.1, p.2.2))
  have hl' : ∀ q ∈ l', ∃ p ∈ l, q = (p.1.tagBytes, p.1.content, p.2.1, p.2.2) := by
    intro q hq
    obtain ⟨p, hp, rfl⟩ := List.mem_map.1 hq
    exact ⟨p, hp, rfl⟩
  have htext : render (l'.map (fun p => (writeRecord p.2.2.1 p.1 p.2.1, p.2.2.2))) = asRecords l := by
    rw [asRecords]
    show render ((l.map _).map _) = _
    rw [List.map_map]
    rfl
  have key := c22_round_trip (m := m) masks l' ?_ ?_ ?_ ?_ ?_ (by rw [htext]; exact hm)
  · rw [htext] at key
    rw [key, nodes_map, List.map_map, List.map_map]
    congr 1
    apply List.map_congr_left
    intro p hp
    refine record_node masks p.1 (hw p hp) ?_
    have h1 := content_length p.1
    have h2 := encode_length_mem (l.map (·.1)) p.1 (List.mem_map_of_mem hp)
    rw [Fits] at hm' ⊢
    omega
  · intro q hq
    obtain ⟨p, hp, rfl⟩ := hl' q hq
    exact isTag_shape (tag_of_wf masks p.1 (hw p hp))
  · intro q hq
    obtain ⟨p, hp, rfl⟩ := hl' q hq
    exact content_bound masks p.1 (hw p hp)
  · intro q hq
    obtain ⟨p, hp, rfl⟩ := hl' q hq
    exact hascii p hp
  · intro q hq
    obtain ⟨p, hp, rfl⟩ := hl' q hq
    exact hsep p hp
  · intro q hq
    obtain ⟨p, hp, rfl⟩ := hl' q hq
    show ¬ IsMasked (if p.2.1 then latin1 p.1.content else hexText p.1.content) masks
    cases p.2.1 with
    | true => exact content_unmasked masks p.1 (hw p hp)
    | false => exact hexText_not_masked _ masks hmasks

/-! ### Concatenation -/

theorem displayNodes_append (m : Machine) (c : Bool) (x y : ProcessedEmvBlock) (first : Bool) (i : Nat) :
    displayNodes m c (x ++ y) first i = (displayNodes m c x first i).seq (displayNodes m c y (first && x.isEmpty) i) := by
  induction x generalizing first with
  | nil =>
    rw [List.nil_append, displayNodes, Disp.nil_seq]
    simp
  | cons n x ih =>
    rw [List.cons_append, displayNodes, displayNodes, ih]
    simp only [Disp.all, Disp.seq_nil, Disp.seq_assoc, List.isEmpty_cons, Bool.and_false, Bool.false_and]

theorem displayNodes_false (m : Machine) (c : Bool) (y : ProcessedEmvBlock) (i : Nat) (h : y ≠ []) :
    displayNodes m c y false i = (Disp.println []).seq (displayNodes m c y true i) := by
  cases y with
  | nil => exact absurd rfl h
  | cons n y =>
    simp only [displayNodes, Disp.all, Disp.seq_nil, Disp.nil_seq, if_true, Bool.false_eq_true, if_false]

theorem processBlock_append {x y : RawEmvBlock} {p q : ProcessedEmvBlock} (hx : processBlock x = .ok p)
    (hy : processBlock y = .ok q) : processBlock (x ++ y) = .ok (p ++ q) := by
  induction x generalizing p with
  | nil =>
    rw [processBlock] at hx
    cases hx
    exact hy
  | cons n x ih =>
    rw [processBlock] at hx
    obtain ⟨n', hn, hx⟩ := bind_ok hx
    obtain ⟨x', hx', hx⟩ := bind_ok hx
    cases hx
    rw [List.cons_append, processBlock, hn, ih hx']
    rfl

theorem pairUp_append (a b : List Nat) (h : a.length % 2 = 0) : pairUp (a ++ b) = pairUp a ++ pairUp b := by
  match a with
  | [] => rfl
  | [x] => simp at h
  | x :: y :: a =>
    have ih := pairUp_append a b (by simp only [List.length_cons] at h; omega)
    simp only [List.cons_append, pairUp, ih]

theorem hexBytes_append (s s' : Text) (h : WholeBytes s) : hexBytes (s ++ s') = hexBytes s ++ hexBytes s' := by
  rw [hexBytes, hexDecode, List.filterMap_append, pairUp_append _ _ h, List.map_append]
  rfl

theorem processBlock_append_err {x y : RawEmvBlock} {p : ProcessedEmvBlock} {e : ParseError} (hx : processBlock x = .ok p)
    (hy : processBlock y = .err e) : processBlock (x ++ y) = .err e := by
  induction x generalizing p with
  | nil => exact hy
  | cons n x ih =>
    rw [processBlock] at hx
    obtain ⟨n', hn, hx⟩ := bind_ok hx
    obtain ⟨x', hx', hx⟩ := bind_ok hx
    rw [List.cons_append, processBlock, hn, ih hx']
    rfl

/-- A run that succeeds on a block. -/
theorem ber_succeeds {m : Machine} {masks : List Char} {s : Text} {c : Cells} {sort : Bool}
    (h : Succeeds (run m { berTlv := some s } masks sort) c) : ∃ b q, berParse m (hexBytes s) masks = .ok b ∧
      processBlock b = .ok q ∧ Shows (displayNodes m true (maybeSort sort q) true 0) c := by
  obtain ⟨v, hv, hs⟩ := finish_succeeds (x := (berParse m (parseHexStr s) masks >>= processBlock).map (maybeSort sort)) h
  obtain ⟨q, hq, rfl⟩ := map_ok hv
  obtain ⟨b, hb, hp⟩ := bind_ok hq
  rw [hexBytes_eq] at hb
  exact ⟨b, q, hb, hp, hs⟩

theorem ber_run {m : Machine} {masks : List Char} {s : Text} {c : Cells} {b : RawEmvBlock} {q : ProcessedEmvBlock} {sort : Bool}
    (hb : berParse m (hexBytes s) masks = .ok b) (hp : processBlock b = .ok q)
    (hs : Shows (displayNodes m true (maybeSort sort q) true 0) c) : Succeeds (run m { berTlv := some s } masks sort) c := by
  refine finish_ok (x := (berParse m (parseHexStr s) masks >>= processBlock).map (maybeSort sort)) (v := maybeSort sort q) ?_ hs
  rw [hexBytes_eq, hb]
  show (processBlock b).map _ = _
  rw [hp]
  rfl

/-- A run that fails on a block. -/
theorem ber_fails {m : Machine} {masks : List Char} {s : Text} {sort : Bool} {msg : Text}
    (h : Fails (run m { berTlv := some s } masks sort) msg) : ∃ e, msg = message e ∧
      (berParse m (hexBytes s) masks = .err e ∨ ∃ b, berParse m (hexBytes s) masks = .ok b ∧ processBlock b = .err e) := by
  obtain ⟨e, he, hmsg⟩ := finish_fails (x := (berParse m (parseHexStr s) masks >>= processBlock).map (maybeSort sort)) h
  refine ⟨e, hmsg, ?_⟩
  rw [hexBytes_eq] at he
  cases hb : berParse m (hexBytes s) masks with
  | ok b =>
    rw [hb] at he
    refine Or.inr ⟨b, rfl, ?_⟩
    replace he : (processBlock b).map (maybeSort sort) = .err e := he
    cases hp : processBlock b with
    | err e' => rw [hp, Out.map_err] at he; exact he
    | ok q => rw [hp] at he; cases he
    | panic => rw [hp] at he; cases he
    | diverge => rw [hp] at he; cases he
  | err e' =>
    rw [hb] at he
    replace he : (Out.err e' : Out ProcessedEmvBlock) = .err e := he
    cases he
    exact Or.inl rfl
  | panic => rw [hb] at he; cases he
  | diverge => rw [hb] at he; cases he

theorem ber_run_err {m : Machine} {masks : List Char} {s : Text} {sort : Bool} {e : ParseError}
    (h : berParse m (hexBytes s) masks = .err e ∨ ∃ b, berParse m (hexBytes s) masks = .ok b ∧ processBlock b = .err e) :
    Fails (run m { berTlv := some s } masks sort) (message e) := by
  refine finish_err (x := (berParse m (parseHexStr s) masks >>= processBlock).map (maybeSort sort)) ?_ _
  rw [hexBytes_eq]
  rcases h with h | ⟨b, hb, hp⟩
  · rw [h]; rfl
  · rw [hb]
    show (processBlock b).map _ = _
    rw [hp]
    rfl

/-! ### Hiding -/

theorem not_masked_nil (t : Text) : ¬ IsMasked t [] := by
  rintro ⟨-, c, hc, -⟩
  cases hc

theorem hideBlock_map (masks : List Char) : ∀ b : List RawEmvNode, hideBlock masks b = b.map (hideNode masks)
  | [] => by rw [hideBlock]; rfl
  | n :: ns => by rw [hideBlock, hideBlock_map masks ns]; rfl

theorem fits_le {m : Machine} {a b : Nat} (h : Fits m b) (hab : a ≤ b) : Fits m a := by
  rw [Fits] at h ⊢; omega

theorem elem_in_length {es : List Elem} {e : Elem} (he : e ∈ es) (hw : e.WF) : e.value.length + 2 ≤ (concat es).length := by
  have h1 : e.bytes.length ≤ (concat es).length := by
    clear hw
    induction es with
    | nil => cases he
    | cons x es ih =>
      rw [concat, List.flatMap_cons, List.length_append]
      rcases List.mem_cons.1 he with rfl | he
      · omega
      · have := ih he; rw [concat] at this; omega
  obtain ⟨tag, len, value⟩ := e
  obtain ⟨ht, hl⟩ := hw
  simp only at ht hl h1 ⊢
  have h2 : 1 ≤ tag.length := by cases ht <;> simp
  have h3 : 1 ≤ len.length := by
    generalize value.length = k at hl
    cases hl <;> simp
  simp only [Elem.bytes, List.length_append] at h1
  omega

theorem ber_hide {m : Machine} (masks : List Char) (n : Nat) : ∀ bytes : List Byte, bytes.length ≤ n →
    Fits m bytes.length → berParse m bytes masks = (berParse m bytes []).map (hideBlock masks) := by
  induction n with
  | zero =>
    intro bytes hl hm
    have : bytes = [] := List.length_eq_zero_iff.1 (by omega)
    subst this
    rfl
  | succ n ih =>
    intro bytes hl hm
    rcases c16_returns [] bytes hm with ⟨ns, hns⟩ | ⟨e, he⟩
    · rw [hns, Out.map_ok]
      obtain ⟨es, rfl, hes, rfl⟩ := (c10_language [] bytes hm ns).1 hns
      refine (c10_language masks _ hm _).2 ⟨es, rfl, hes, ?_⟩
      rw [hideBlock_map, List.map_map]
      apply List.map_congr_left
      intro e he
      have hlen := elem_in_length he (hes.1 e he)
      have ihe := ih e.value (by omega) (fits_le hm (by omega))
      simp only [Function.comp, nodeOf, dataOf, if_neg (not_masked_nil _), hideNode]
      by_cases hmask : IsMasked (latin1 e.value) masks
      · simp only [hmask, not_true_eq_false, and_false, if_false, if_true]
      · simp only [hmask, not_false_eq_true, and_true, not_masked_nil, if_false]
        by_cases hc : typeOf e.tag = .constructed
        · simp only [hc, if_true]
          rw [ihe]
          cases berParse m e.value [] <;> simp [hideBlock]
        · simp only [if_neg hc, hideBlock]
    · rw [he, Out.map_err]
      rcases c15_kinds [] bytes hm e he with rfl | rfl
      · rw [c15_non_compliant masks bytes hm]
        exact (c15_non_compliant [] bytes hm).1 he
      · rw [c15_unsupported masks bytes hm]
        exact (c15_unsupported [] bytes hm).1 he

theorem record_wf_mono {masks : List Char} {r : Record} (h : r.WF []) : r.WF masks :=
  ⟨h.tagHex, h.tagLen, h.lenHex, h.lenLen, h.value.imp id (fun hv => ⟨hv.1, hv.2.1, hv.2.2.imp id (fun hm =>
    absurd hm (not_masked_nil _))⟩)⟩

theorem ingenico_mono {masks : List Char} {s : Text} {rs : List Record} (h : IsIngenico [] s rs) : IsIngenico masks s rs := by
  induction h with
  | nil => exact .nil
  | last r h => exact .last r (record_wf_mono h)
  | cons r h sep rest rs _ ih => exact .cons r (record_wf_mono h) sep rest rs ih

theorem ingenico_value_length {masks : List Char} {s : Text} {rs : List Record} (h : IsIngenico masks s rs) :
    ∀ r ∈ rs, r.value.length ≤ s.length := by
  have key : ∀ r : Record, r.value.length ≤ r.text.length := by
    intro r
    simp only [Record.text, List.length_cons, List.length_append]
    omega
  induction h with
  | nil => intro r hr; cases hr
  | last r h => intro r' hr; rw [List.mem_singleton.1 hr]; exact key r
  | cons r h sep rest rs _ ih =>
    intro r' hr
    rw [List.length_append, List.length_cons]
    rcases List.mem_cons.1 hr with rfl | hr
    · have := key r'; omega
    · have := ih r' hr; omega

theorem record_data_length {r : Record} {masks : List Char} {v : List Byte} (h : r.data masks = .normal v) :
    v.length ≤ r.value.length := by
  rw [Record.data] at h
  split at h
  · cases h
  · split at h
    · cases h; have := hexBytes_length_le r.value; omega
    · cases h; rw [List.length_map]; exact Nat.le_refl _

theorem childrenOf_hide {m : Machine} (masks : List Char) (ty : DataObjectType) (v : List Byte) (hm : Fits m v.length) :
    childrenOf (fun v => berParse m v masks) ty (.normal v) =
      hideBlock masks (childrenOf (fun v => berParse m v []) ty (.normal v)) := by
  cases ty with
  | primitive => simp only [childrenOf, hideBlock]
  | constructed =>
    simp only [childrenOf]
    rw [ber_hide masks v.length v (Nat.le_refl _) hm]
    cases berParse m v [] <;> simp [hideBlock]

theorem record_hide {m : Machine} (masks : List Char) (r : Record) (hm : Fits m r.value.length) :
    r.node (fun v => berParse m v masks) masks = hideRecord masks r (r.node (fun v => berParse m v []) []) := by
  have hnil : ∃ v, r.data [] = .normal v ∧ (¬ IsMasked r.value masks → r.data masks = .normal v) := by
    simp only [Record.data, if_neg (not_masked_nil _)]
    by_cases hf : r.fmt = 'h'
    · simp only [if_pos hf]
      exact ⟨_, rfl, fun h => by rw [if_neg h]⟩
    · simp only [if_neg hf]
      exact ⟨_, rfl, fun h => by rw [if_neg h]⟩
  obtain ⟨v, hv, hv'⟩ := hnil
  have hlen := record_data_length hv
  rw [Record.node, Record.node, hideRecord]
  by_cases h : IsMasked r.value masks
  · rw [if_pos h]
    have : r.data masks = .masked := by rw [Record.data, if_pos h]
    rw [this]
    cases typeOf r.tag <;> rfl
  · rw [if_neg h, hv, hv' h, childrenOf_hide masks _ v (fits_le hm hlen)]

/-! ### Showing what is left -/

mutual
theorem hideNode_tags (masks : List Char) : ∀ n : RawEmvNode, ∀ t ∈ nodeTags (hideNode masks n), ∀ d, t.data = .normal d → t ∈ nodeTags n
  | .mk t c => by
    intro t' ht' d hd
    rw [hideNode] at ht'
    split at ht'
    · exact ht'
    · split at ht'
      · simp only [nodeTags, blockTags, List.mem_cons, List.not_mem_nil, or_false] at ht'
        subst ht'
        cases hd
      · simp only [nodeTags, List.mem_cons] at ht' ⊢
        exact ht'.imp id (fun h => hideBlock_tags masks c t' h d hd)
theorem hideBlock_tags (masks : List Char) : ∀ b : List RawEmvNode, ∀ t ∈ blockTags (hideBlock masks b), ∀ d, t.data = .normal d →
    t ∈ blockTags b
  | [] => by
    intro t ht
    rw [hideBlock] at ht
    cases ht
  | n :: ns => by
    intro t ht d hd
    rw [hideBlock, blockTags, List.mem_append] at ht
    rw [blockTags, List.mem_append]
    exact ht.imp (fun h => hideNode_tags masks n t h d hd) (fun h => hideBlock_tags masks ns t h d hd)
end

mutual
theorem hideNode_depth (masks : List Char) : ∀ n : RawEmvNode, nodeDepth (hideNode masks n) ≤ nodeDepth n
  | .mk t c => by
    rw [hideNode]
    split
    · exact Nat.le_refl _
    · split
      · simp only [nodeDepth, blockDepth]; omega
      · have := hideBlock_depth masks c
        simp only [nodeDepth]; omega
theorem hideBlock_depth (masks : List Char) : ∀ b : List RawEmvNode, blockDepth (hideBlock masks b) ≤ blockDepth b
  | [] => by rw [hideBlock]; exact Nat.le_refl _
  | n :: ns => by
    have h1 := hideNode_depth masks n
    have h2 := hideBlock_depth masks ns
    rw [hideBlock, blockDepth, blockDepth]
    omega
end

end Pemv
