import Verif.Proofs.Breaks

/-!
# Lemmas about the number of lines
-/

namespace Pemv

open Spec

/-! ### Single values -/

theorem shown_length (items : List Item) (bs : List Byte) : (shown items bs).length ≤ items.length := by
  rw [shown]; exact List.length_filter_le ..

theorem drawing_length (bytes : List Byte) (rs : List Annotation) (c : Bool) :
    (drawingLines bytes rs c).length ≤ 2 + rs.length := by
  rw [drawingLines, List.length_append, List.length_append, List.length_map, List.length_reverse]
  have : (if rs.any (fun r => decide (r.width ≠ 1)) = true then [textLine (header bytes.length rs)] else []).length ≤ 1 := by
    split <;> simp
  simp only [List.length_cons, List.length_nil]
  omega

theorem bitLines_length (items : List Item) (labels : List (String × Severity × String)) (bs : List Byte) (c : Bool) :
    (bitLines items labels bs c).length ≤ 2 + items.length := by
  have h1 := drawing_length (clearUnused items bs) (annotations labels items bs) c
  have h2 := shown_length items bs
  rw [annotations, List.length_map] at h1
  rw [bitLines, annotations]
  omega

theorem cvmResults_length (bs : List Byte) (c : Bool) : (cvmResultsLines bs c).length ≤ 6 := by
  have h1 := drawing_length (cvmResultsBits bs) (cvmResultsAnnotations bs) c
  have h2 := shown_length cvmResultsItems bs
  have h3 : cvmResultsItems.length = 4 := by decide +kernel
  have h4 : (cvmResultsAnnotations bs).length = (shown cvmResultsItems bs).length := by
    rw [cvmResultsAnnotations, annotations, List.length_map, List.length_map]
  rw [cvmResultsLines]
  omega

theorem deeper_length (ls : List Line) : (deeper ls).length = ls.length := List.length_map _

theorem rowsOf16_length (bs : List Byte) : (rowsOf16 bs).length = (bs.length + 15) / 16 := by
  rw [rowsOf16, List.length_map, List.length_range]

theorem dump_length (bs : List Byte) : (dump bs).length = (bs.length + 15) / 16 := by
  rw [dump, List.length_map, rowsOf16_length]

theorem dumpWithText_length (bs : List Byte) : (dumpWithText bs).length = (bs.length + 15) / 16 := by
  rw [dumpWithText, List.length_map, rowsOf16_length]

theorem pairs_le : ∀ bs : List Byte, 2 * (pairs bs).length ≤ bs.length
  | [] => by simp [pairs]
  | [_] => by simp [pairs]
  | a :: b :: bs => by
    have := pairs_le bs
    rw [pairs, List.length_cons, List.length_cons, List.length_cons]
    omega

theorem rules_length (l : List ((Byte × Byte) × Nat)) :
    (l.flatMap (fun p => ruleLines p.2 p.1)).length = 4 * l.length := by
  induction l with
  | nil => rfl
  | cons p l ih =>
    rw [List.flatMap_cons, List.length_append, ih, List.length_cons]
    show 4 + _ = _
    omega

theorem cvmList_length (bs : List Byte) : (cvmListLines bs).length ≤ 3 + 2 * bs.length := by
  rw [cvmListLines.eq_def]
  simp only [List.length_append, List.length_cons, List.length_nil, rules_length, List.length_zipIdx]
  have h := pairs_le (bs.drop 8)
  rw [List.length_drop] at h
  split
  · simp only [List.length_cons, List.length_nil]; omega
  · simp only [List.length_nil]; omega

theorem iad_length (bs : List Byte) (c : Bool) : (iadLines bs c).length ≤ 39 + bs.length := by
  have h1 := bitLines_length cciItems cciLabels ((bs.drop 1).take 1) c
  have h2 := bitLines_length cvrItems cvrLabels ((bs.drop 3).take 5) c
  have h3 : cciItems.length = 2 := by decide +kernel
  have h4 : cvrItems.length = 24 := by decide +kernel
  rw [iadLines.eq_def]
  simp only [List.length_append, List.length_cons, List.length_nil, deeper_length, dump_length, List.length_take,
    List.length_drop]
  omega

/-- The lines of a decoded value. -/
theorem value_length {c : Bool} {tag d : List Byte} (ha : Acceptable tag d) {ls : List Line}
    (h : valueLines c tag d = some ls) : 6 + (d.length + 15) / 16 + ls.length ≤ 8 * (2 + d.length) := by
  have code : ∀ {o : Option String} {ls : List Line}, o.map (fun t => [textLine t.toList]) = some ls →
      ls.length = 1 := by
    intro o ls h
    cases o with
    | none => cases h
    | some t => cases h; rfl
  have t1 : tvrItems.length = 26 := by decide +kernel
  have t2 : tsiItems.length = 6 := by decide +kernel
  have t3 : terminalCapabilitiesItems.length = 12 := by decide +kernel
  have t4 : additionalTerminalCapabilitiesItems.length = 27 := by decide +kernel
  have iac : ∀ k, (iacLines k d).length ≤ 29 := by
    intro k
    have := bitLines_length tvrItems tvrLabels d false
    rw [iacLines, List.length_cons]; omega
  rw [valueLines] at h
  by_cases g : tag = [0x5F, 0x30]
  · rw [if_pos g] at h; cases h
    obtain ⟨_, _, _, _, _, _, rfl⟩ := ha.h5F30 g
    show 6 + (2 + 15) / 16 + 6 ≤ 8 * (2 + 2)
    omega
  rw [if_neg g] at h; clear g
  by_cases g : tag = [0x8A]
  · rw [if_pos g] at h; rw [code h]; omega
  rw [if_neg g] at h; clear g
  by_cases g : tag = [0x8E]
  · rw [if_pos g] at h; cases h
    have := cvmList_length d
    omega
  rw [if_neg g] at h; clear g
  by_cases g : tag = [0x95]
  · rw [if_pos g] at h; cases h
    have h5 := ha.h5 (by rw [g]; simp)
    have := bitLines_length tvrItems tvrLabels d c
    omega
  rw [if_neg g] at h; clear g
  by_cases g : tag = [0x9B]
  · rw [if_pos g] at h; cases h
    have h5 := ha.h9B g
    have := bitLines_length tsiItems tsiLabels d c
    omega
  rw [if_neg g] at h; clear g
  by_cases g : tag = [0x9C]
  · rw [if_pos g] at h; rw [code h]; omega
  rw [if_neg g] at h; clear g
  by_cases g : tag = [0x9F, 0x0D]
  · rw [if_pos g] at h; cases h
    have h5 := ha.h5 (by rw [g]; simp)
    have := iac .default
    omega
  rw [if_neg g] at h; clear g
  by_cases g : tag = [0x9F, 0x0E]
  · rw [if_pos g] at h; cases h
    have h5 := ha.h5 (by rw [g]; simp)
    have := iac .denial
    omega
  rw [if_neg g] at h; clear g
  by_cases g : tag = [0x9F, 0x0F]
  · rw [if_pos g] at h; cases h
    have h5 := ha.h5 (by rw [g]; simp)
    have := iac .online
    omega
  rw [if_neg g] at h; clear g
  by_cases g : tag = [0x9F, 0x10]
  · rw [if_pos g] at h
    by_cases hf : isFormatA d = true
    · rw [if_pos hf] at h; cases h
      have := iad_length d c
      have h32 : d.length = 32 := by
        simp only [isFormatA, Bool.and_eq_true, beq_iff_eq] at hf
        exact hf.1.1.1
      omega
    · rw [if_neg hf] at h; cases h
  rw [if_neg g] at h; clear g
  by_cases g : tag = [0x9F, 0x33]
  · rw [if_pos g] at h; cases h
    have h5 := ha.h9F33 g
    have := bitLines_length terminalCapabilitiesItems terminalCapabilitiesLabels d c
    omega
  rw [if_neg g] at h; clear g
  by_cases g : tag = [0x9F, 0x34]
  · rw [if_pos g] at h; cases h
    have := cvmResults_length d c
    omega
  rw [if_neg g] at h; clear g
  by_cases g : tag = [0x9F, 0x35]
  · rw [if_pos g] at h; rw [code h]; omega
  rw [if_neg g] at h; clear g
  by_cases g : tag = [0x9F, 0x39]
  · rw [if_pos g] at h; rw [code h]; omega
  rw [if_neg g] at h; clear g
  by_cases g : tag = [0x9F, 0x40]
  · rw [if_pos g] at h; cases h
    have h5 := ha.h5 (by rw [g]; simp)
    have := bitLines_length additionalTerminalCapabilitiesItems additionalTerminalCapabilitiesLabels d c
    omega
  rw [if_neg g] at h
  cases h

/-! ### Blocks -/

/-- The bytes of a value, as far as they are shown. -/
def dataLength : EmvData → Nat
  | .masked => 0
  | .normal d => d.length

/-- The bytes an object takes up at least. -/
def nodeWeight (n : RawEmvNode) : Nat := n.tag.tag.length + 1 + dataLength n.tag.data

/-- The bytes the objects of a block take up at least. -/
def blockWeight : List RawEmvNode → Nat
  | [] => 0
  | n :: ns => nodeWeight n + blockWeight ns

mutual
/-- There is a tag, and the children fit into the value. -/
def SnugNode : RawEmvNode → Prop
  | .mk t c => 0 < t.tag.length ∧ blockWeight c ≤ dataLength t.data ∧ SnugBlock c
/-- The children of every node fit into its value. -/
def SnugBlock : List RawEmvNode → Prop
  | [] => True
  | n :: ns => SnugNode n ∧ SnugBlock ns
end

theorem snugBlock_iff : ∀ b : List RawEmvNode, SnugBlock b ↔ ∀ n ∈ b, SnugNode n
  | [] => by rw [SnugBlock]; simp
  | n :: ns => by rw [SnugBlock, snugBlock_iff ns]; simp

mutual
theorem snug_nodeDepth : ∀ n : RawEmvNode, SnugNode n → 2 * nodeDepth n ≤ nodeWeight n
  | .mk t c, h => by
    rw [SnugNode] at h
    have := snug_blockDepth c h.2.2
    rw [nodeDepth, nodeWeight, RawEmvNode.tag]
    omega
theorem snug_blockDepth : ∀ b : List RawEmvNode, SnugBlock b → 2 * blockDepth b ≤ blockWeight b
  | [], _ => by rw [blockDepth]; omega
  | n :: ns, h => by
    rw [SnugBlock] at h
    have h1 := snug_nodeDepth n h.1
    have h2 := snug_blockDepth ns h.2
    rw [blockDepth, blockWeight]
    omega
end

/-- The lines of an object without its children: with an empty line before it and the title of the children. -/
theorem own_length (c : Bool) (t : RawEmvTag) (ha : ∀ d, t.data = .normal d → Acceptable t.tag d) :
    3 + (rawLines t.data).length + (parsedLines c t).length ≤ 8 * (2 + dataLength t.data) := by
  rw [parsedLines.eq_def]
  cases h : t.data with
  | masked => simp [rawLines, dataLength]
  | normal d =>
    have hr : (rawLines (.normal d)).length ≤ 1 + (d.length + 15) / 16 := by
      cases d with
      | nil => rw [rawLines]; simp
      | cons b d =>
        rw [rawLines.eq_def]
        simp only [List.length_cons, deeper_length, dumpWithText_length]
        omega
    rw [dataLength]
    simp only
    split
    · rename_i ls hv
      have := value_length (ha d h) hv
      rw [List.length_cons, deeper_length]
      omega
    · rw [List.length_nil]; omega

mutual
theorem node_length (c : Bool) : ∀ n : RawEmvNode, SnugNode n →
    (∀ t ∈ nodeTags n, ∀ d, t.data = .normal d → Acceptable t.tag d) →
    1 + (nodeLines c n).length ≤ 8 * nodeWeight n * nodeDepth n
  | .mk t [], hs, ha => by
    rw [SnugNode] at hs
    have h := own_length c t (ha t (by rw [nodeTags]; simp))
    rw [nodeLines.eq_def, nodeDepth, blockDepth, nodeWeight, RawEmvNode.tag]
    simp only [List.length_append, List.length_cons, List.length_nil]
    omega
  | .mk t (n :: ns), hs, ha => by
    rw [SnugNode, SnugBlock, blockWeight] at hs
    have h := own_length c t (ha t (by rw [nodeTags]; simp))
    have h1 := node_length c n hs.2.2.1 (fun x hx => ha x (by rw [nodeTags, blockTags]; simp [hx]))
    have h2 := more_length c ns hs.2.2.2 (fun x hx => ha x (by rw [nodeTags, blockTags]; simp [hx]))
    rw [nodeLines.eq_def, nodeDepth, blockDepth, nodeWeight, RawEmvNode.tag]
    simp only [List.length_append, List.length_cons, List.length_nil, deeper_length]
    have e1 : 8 * nodeWeight n * nodeDepth n ≤ 8 * nodeWeight n * max (nodeDepth n) (blockDepth ns) :=
      Nat.mul_le_mul_left _ (Nat.le_max_left _ _)
    have e2 : 8 * blockWeight ns * blockDepth ns ≤ 8 * blockWeight ns * max (nodeDepth n) (blockDepth ns) :=
      Nat.mul_le_mul_left _ (Nat.le_max_right _ _)
    generalize max (nodeDepth n) (blockDepth ns) = D at e1 e2 ⊢
    have e3 : (8 * nodeWeight n + 8 * blockWeight ns) * D ≤ 8 * (t.tag.length + 1 + dataLength t.data) * D :=
      Nat.mul_le_mul_right _ (by omega)
    rw [Nat.add_mul] at e3
    rw [Nat.mul_add, Nat.mul_one]
    omega
theorem more_length (c : Bool) : ∀ b : List RawEmvNode, SnugBlock b →
    (∀ t ∈ blockTags b, ∀ d, t.data = .normal d → Acceptable t.tag d) →
    (moreLines c b).length ≤ 8 * blockWeight b * blockDepth b
  | [], _, _ => by rw [moreLines]; simp
  | n :: ns, hs, ha => by
    rw [SnugBlock] at hs
    have h1 := node_length c n hs.1 (fun x hx => ha x (by rw [blockTags]; simp [hx]))
    have h2 := more_length c ns hs.2 (fun x hx => ha x (by rw [blockTags]; simp [hx]))
    rw [moreLines, blockDepth, blockWeight]
    simp only [List.length_append, List.length_cons, List.length_nil]
    have e1 : 8 * nodeWeight n * nodeDepth n ≤ 8 * nodeWeight n * max (nodeDepth n) (blockDepth ns) :=
      Nat.mul_le_mul_left _ (Nat.le_max_left _ _)
    have e2 : 8 * blockWeight ns * blockDepth ns ≤ 8 * blockWeight ns * max (nodeDepth n) (blockDepth ns) :=
      Nat.mul_le_mul_left _ (Nat.le_max_right _ _)
    rw [Nat.mul_add, Nat.add_mul]
    omega
end

theorem block_length (c : Bool) (b : List RawEmvNode) (hs : SnugBlock b) (ha : AllAcceptable b) :
    (blockLines c b).length ≤ 8 * blockWeight b * blockDepth b := by
  have h := more_length c b hs ha
  cases b with
  | nil => exact Nat.zero_le _
  | cons n ns =>
    rw [moreLines] at h
    rw [blockLines]
    simp only [List.length_append, List.length_cons, List.length_nil] at h ⊢
    omega

/-! ### Sorting does not change the number of lines -/

theorem moreLines_length_flatMap (c : Bool) : ∀ b : List RawEmvNode,
    (moreLines c b).length = ((b.map (fun n => 1 + (nodeLines c n).length)).sum)
  | [] => by rw [moreLines]; rfl
  | n :: ns => by
    rw [moreLines, List.length_append, List.length_append, moreLines_length_flatMap c ns, List.map_cons, List.sum_cons]
    rfl

theorem node_length_children (c : Bool) (t : RawEmvTag) {x y : List RawEmvNode}
    (h : (moreLines c x).length = (moreLines c y).length) :
    (nodeLines c (.mk t x)).length = (nodeLines c (.mk t y)).length := by
  cases x with
  | nil =>
    cases y with
    | nil => rfl
    | cons n ns =>
      rw [moreLines, moreLines] at h
      simp only [List.length_append, List.length_cons, List.length_nil] at h
      omega
  | cons n ns =>
    cases y with
    | nil =>
      rw [moreLines, moreLines] at h
      simp only [List.length_append, List.length_cons, List.length_nil] at h
      omega
    | cons n' ns' =>
      rw [moreLines, moreLines] at h
      rw [nodeLines.eq_def, nodeLines.eq_def]
      simp only [List.length_append, List.length_cons, List.length_nil, deeper_length] at h ⊢
      omega

mutual
theorem children_lines (c : Bool) : ∀ {b b' : List RawEmvNode}, ChildrenInOrder b b' →
    (moreLines c b').length = (moreLines c b).length
  | _, _, .nil => rfl
  | _, _, .cons t hc hb => by
    rw [moreLines, moreLines, List.length_append, List.length_append, List.length_append, List.length_append,
      children_lines c hb, node_length_children c t (inTagOrder_lines c hc)]
theorem inTagOrder_lines (c : Bool) : ∀ {b b' : List RawEmvNode}, InTagOrder b b' →
    (moreLines c b').length = (moreLines c b).length
  | _, _, .mk hc hp _ _ => by
    rw [← children_lines c hc, moreLines_length_flatMap, moreLines_length_flatMap]
    exact (hp.map _).sum_nat
end

theorem arranged_lines (c : Bool) {sort : Bool} {b b' : List RawEmvNode} (h : Arranged sort b b') :
    (blockLines c b').length = (blockLines c b).length := by
  have hm : (moreLines c b').length = (moreLines c b).length := by
    cases sort with
    | true => exact inTagOrder_lines c h
    | false => rw [show b' = b from h]
  have e : ∀ b : List RawEmvNode, (blockLines c b).length = (moreLines c b).length - 1 := by
    intro b
    cases b with
    | nil => rw [moreLines]; rfl
    | cons n ns =>
      rw [moreLines, blockLines]
      simp only [List.length_append, List.length_cons, List.length_nil]
      omega
  rw [e, e, hm]

/-! ### The parsers -/

theorem nodeOf_snug {parse : List Byte → Out RawEmvBlock} {masks : List Char} {e : Elem} :
    dataLength (nodeOf parse masks e).tag.data ≤ e.value.length ∧
    ((nodeOf parse masks e).childBlock = [] ∨
      parse e.value = .ok (nodeOf parse masks e).childBlock ∧
        dataLength (nodeOf parse masks e).tag.data = e.value.length) := by
  rw [nodeOf, RawEmvNode.childBlock, RawEmvNode.tag]
  simp only
  rw [dataOf]
  by_cases hm : IsMasked (latin1 e.value) masks
  · rw [if_pos hm, if_neg (fun h => h.2 hm)]
    exact ⟨Nat.zero_le _, Or.inl rfl⟩
  · rw [if_neg hm]
    refine ⟨Nat.le_refl _, ?_⟩
    split
    · cases h : parse e.value with
      | ok b => exact Or.inr ⟨rfl, rfl⟩
      | _ => exact Or.inl rfl
    · exact Or.inl rfl

theorem elem_weight {e : Elem} (h : e.WF) :
    0 < e.tag.length ∧ e.tag.length + 1 + e.value.length ≤ e.bytes.length := by
  have h1 := List.length_pos_iff.2 (isTag_ne_nil h.1)
  have h2 := List.length_pos_iff.2 (isLength_ne_nil h.2)
  simp [Elem.bytes]
  omega

theorem berParse_snug {m : Machine} (masks : List Char) (n : Nat) : ∀ (bytes : List Byte)
    (ns : RawEmvBlock), bytes.length ≤ n → Fits m bytes.length → berParse m bytes masks = .ok ns →
    SnugBlock ns ∧ blockWeight ns ≤ bytes.length := by
  induction n with
  | zero =>
    intro bytes ns hb _ h
    have : bytes = [] := List.length_eq_zero_iff.1 (by omega)
    subst this
    cases h
    exact ⟨by rw [SnugBlock]; trivial, by rw [blockWeight]; omega⟩
  | succ n ih =>
    intro bytes ns hb hm h
    obtain ⟨es, h1, h2, rfl⟩ := berParse_inv hm h
    have key : ∀ es : List Elem, (∀ e ∈ es, e.WF) → (concat es).length ≤ n + 1 →
        Fits m (concat es).length →
        SnugBlock (es.map (nodeOf (fun v => berParse m v masks) masks)) ∧
        blockWeight (es.map (nodeOf (fun v => berParse m v masks) masks)) ≤ (concat es).length := by
      intro es
      induction es with
      | nil => intros; exact ⟨by rw [List.map_nil, SnugBlock]; trivial, by rw [List.map_nil, blockWeight]; omega⟩
      | cons e es ih2 =>
        intro hw hl hf
        have hel := elem_weight (hw e (by simp))
        have ht : (nodeOf (fun v => berParse m v masks) masks e).tag.tag.length = e.tag.length := rfl
        rw [concat_cons, List.length_append] at hl hf ⊢
        have h3 := ih2 (fun x hx => hw x (by simp [hx])) (by omega) (fits_mono hf (by omega))
        rw [List.map_cons, SnugBlock, blockWeight]
        obtain ⟨hd, hc⟩ := nodeOf_snug (parse := fun v => berParse m v masks) (masks := masks) (e := e)
        refine ⟨⟨?_, h3.1⟩, ?_⟩
        · cases hn : nodeOf (fun v => berParse m v masks) masks e with
          | mk t c =>
            rw [hn, RawEmvNode.childBlock, RawEmvNode.tag] at hc
            rw [hn, RawEmvNode.tag] at ht
            rw [SnugNode]
            rcases hc with rfl | ⟨h4, h5⟩
            · exact ⟨by omega, by rw [blockWeight]; omega, by rw [SnugBlock]; trivial⟩
            · obtain ⟨h6, h7⟩ := ih e.value c (by omega) (fits_mono hf (by omega)) h4
              exact ⟨by omega, by omega, h6⟩
        · rw [nodeWeight]
          omega
    rw [h1] at hb hm ⊢
    exact key es h2.1 hb hm

theorem trim_length_le : ∀ bs : List Byte, (trimLeading0Bytes bs).length ≤ bs.length
  | [] => Nat.le_refl _
  | [_] => Nat.le_refl _
  | a :: b :: bs => by
    have := trim_length_le (b :: bs)
    rw [trimLeading0Bytes]
    split
    · rw [List.length_cons]; omega
    · exact Nat.le_refl _

theorem stripZeros_length (bs : List Byte) : (stripZeros bs).length ≤ bs.length := by
  rw [← trim_eq_strip]
  exact trim_length_le bs

theorem record_tag_length {masks : List Char} {r : Record} (h : r.WF masks) :
    0 < r.tag.length ∧ r.tag.length ≤ r.tagHex.length := by
  have h1 := stripZeros_length (hexBytes r.tagHex)
  have h2 := hexBytes_length h.tagHex
  refine ⟨?_, by rw [Record.tag]; omega⟩
  rw [List.length_pos_iff, Record.tag, Ne, strip_eq_nil, hexBytes_eq_nil h.tagHex]
  have := h.tagLen
  omega

theorem ing_snug {m : Machine} (masks : List Char) (s : Text) (hm : Fits m s.length) (b : RawEmvBlock)
    (h : ingParse m s masks = .ok b) : SnugBlock b ∧ blockWeight b ≤ s.length := by
  obtain ⟨-, rs, hrs, rfl⟩ := (c21_language masks s hm b).1 h
  have hnode : ∀ r : Record, r.WF masks → r.text.length ≤ s.length →
      SnugNode (Record.node (fun v => berParse m v masks) masks r) ∧
      nodeWeight (Record.node (fun v => berParse m v masks) masks r) ≤ r.text.length := by
    intro r hw hl
    have ht : r.text.length = r.tagHex.length + r.lenHex.length + r.value.length + 4 := by
      simp only [Record.text, List.length_cons, List.length_append]; omega
    have htag := record_tag_length hw
    rw [Record.node, nodeWeight, SnugNode, RawEmvNode.tag]
    simp only
    cases hv : r.data masks with
    | masked =>
      have hc : childrenOf (fun v => berParse m v masks) (typeOf r.tag) .masked = [] := by
        cases typeOf r.tag <;> rfl
      rw [hc, dataLength, blockWeight, SnugBlock]
      exact ⟨⟨htag.1, by omega, trivial⟩, by omega⟩
    | normal v =>
      have hlen := record_value_length hv
      rw [dataLength]
      refine ⟨⟨htag.1, ?_⟩, by omega⟩
      cases typeOf r.tag with
      | primitive =>
        show blockWeight [] ≤ _ ∧ SnugBlock []
        rw [blockWeight, SnugBlock]; exact ⟨by omega, trivial⟩
      | constructed =>
        show blockWeight (match berParse m v masks with | .ok b => b | _ => []) ≤ _ ∧
          SnugBlock (match berParse m v masks with | .ok b => b | _ => [])
        cases hb : berParse m v masks with
        | ok b =>
          have := berParse_snug masks _ v b (Nat.le_refl _) (fits_mono hm (by omega)) hb
          exact ⟨this.2, this.1⟩
        | _ =>
          show blockWeight [] ≤ _ ∧ SnugBlock []
          rw [blockWeight, SnugBlock]; exact ⟨by omega, trivial⟩
  have hlen : ∀ r ∈ rs, r.WF masks ∧ r.text.length ≤ s.length := fun r hr => record_mem hrs r hr
  constructor
  · rw [snugBlock_iff]
    intro n hn
    obtain ⟨r, hr, rfl⟩ := List.mem_map.1 hn
    have := hlen r (List.mem_filter.1 hr).1
    exact (hnode r this.1 this.2).1
  · clear h hm
    have hw : ∀ r ∈ rs, nodeWeight (Record.node (fun v => berParse m v masks) masks r) ≤ r.text.length :=
      fun r hr => (hnode r (hlen r hr).1 (hlen r hr).2).2
    clear hnode hlen
    have cons : ∀ (r : Record) (rs : List Record),
        blockWeight ((emvRecords (r :: rs)).map (Record.node (fun v => berParse m v masks) masks)) ≤
        nodeWeight (Record.node (fun v => berParse m v masks) masks r) +
          blockWeight ((emvRecords rs).map (Record.node (fun v => berParse m v masks) masks)) := by
      intro r rs
      rw [emvRecords, List.filter_cons]
      split
      · rw [List.map_cons, blockWeight]; exact Nat.le_refl _
      · exact Nat.le_add_left _ _
    induction hrs with
    | nil => exact Nat.le_refl _
    | last r hr =>
      have h1 := cons r []
      have h2 := hw r (by simp)
      have h3 : blockWeight ((emvRecords []).map (Record.node (fun v => berParse m v masks) masks)) = 0 := rfl
      omega
    | cons r hr sep rest rs _ ih =>
      have h1 := cons r rs
      have h2 := hw r (by simp)
      have h3 := ih (fun x hx => hw x (by simp [hx]))
      rw [List.length_append, List.length_cons]
      omega

theorem ber_snug {m : Machine} (masks : List Char) (s : Text) (hm : Fits m s.length) (b : RawEmvBlock)
    (h : berParse m (parseHexStr s) masks = .ok b) : SnugBlock b ∧ 2 * blockWeight b ≤ s.length := by
  have hl := hexBytes_length_le s
  rw [← hexBytes_eq] at hl
  have := berParse_snug masks _ _ b (Nat.le_refl _) (fits_mono hm (by omega)) h
  exact ⟨this.1, by omega⟩

theorem tlv_snug {m : Machine} (masks : List Char) (op : Operation) (s : Text) (hm : Fits m s.length)
    (f : Option TlvFormat) (b : RawEmvBlock) (h : tlvParse m masks op s = .ok (f, b)) :
    SnugBlock b ∧ blockWeight b ≤ s.length := by
  have ber : ∀ b, berParse m (parseHexStr s) masks = .ok b → SnugBlock b ∧ blockWeight b ≤ s.length := by
    intro b hb
    have := ber_snug masks s hm b hb
    exact ⟨this.1, by omega⟩
  cases op with
  | autoTlv =>
    rw [tlvParse] at h
    cases ha : autoParse m s masks with
    | ok p =>
      obtain ⟨f', b'⟩ := p
      rw [ha] at h
      simp only [Out.map_ok, Out.ok.injEq, Prod.mk.injEq] at h
      rw [← h.2]
      cases f' with
      | ingenico => exact ing_snug masks s hm b' (((c29_agrees masks s hm).1 b').1 ha).2
      | berTlv => exact ber b' (((c29_agrees masks s hm).2.1 b').1 ha).2.2
    | _ => rw [ha] at h; cases h
  | berTlv =>
    rw [tlvParse] at h
    cases hb : berParse m (parseHexStr s) masks with
    | ok b' =>
      rw [hb] at h
      simp only [Out.map_ok, Out.ok.injEq, Prod.mk.injEq] at h
      rw [← h.2]
      exact ber b' hb
    | _ => rw [hb] at h; cases h
  | ingenicoTlv =>
    rw [tlvParse] at h
    cases hb : ingParse m s masks with
    | ok b' =>
      rw [hb] at h
      simp only [Out.map_ok, Out.ok.injEq, Prod.mk.injEq] at h
      rw [← h.2]
      exact ing_snug masks s hm b' hb
    | _ => rw [hb] at h; cases h
  | _ => cases h

theorem header_length (f : Option TlvFormat) : (headerLines f).length ≤ 2 := by
  cases f with
  | none => exact Nat.zero_le _
  | some f => exact Nat.le_refl _

theorem weight_square {w d : Nat} (h : 2 * d ≤ w) : 8 * w * d ≤ 4 * (w * w) := by
  have : w * (2 * d) ≤ w * w := Nat.mul_le_mul_left _ h
  have e : 8 * w * d = 4 * (w * (2 * d)) := by
    rw [Nat.mul_assoc, Nat.mul_left_comm w 2 d]; omega
  omega

theorem hexReport_length (op : Operation) (bs : List Byte) (ls : List Line) (h : hexReport op bs = .ok ls) :
    ls.length ≤ 3 + 6 * bs.length := by
  have t1 : tvrItems.length = 26 := by decide +kernel
  have t2 : tsiItems.length = 6 := by decide +kernel
  have t3 : cvrItems.length = 24 := by decide +kernel
  rw [hexReport.eq_def] at h
  split at h
  · split at h
    · cases h; have := bitLines_length tvrItems tvrLabels bs true; omega
    · cases h
  · split at h
    · rename_i hf
      cases h
      have := iad_length bs true
      have h32 : bs.length = 32 := by
        simp only [isFormatA, Bool.and_eq_true, beq_iff_eq] at hf
        exact hf.1.1.1
      omega
    · cases h
  · split at h
    · cases h; have := bitLines_length cvrItems cvrLabels bs true; omega
    · cases h
  · split at h
    · cases h; have := bitLines_length tsiItems tsiLabels bs true; omega
    · cases h
  · split at h
    · cases h
    · split at h
      · cases h
      · cases h; have := cvmResults_length bs true; omega
  · split at h
    · cases h
    · split at h
      · cases h
      · cases h; have := cvmList_length bs; omega
  · split at h
    · cases h
    · rename_i hne
      cases h
      have : 0 < bs.length := List.length_pos_iff.2 hne
      show 4 ≤ _
      omega
  · cases h

/-- The lines of a document of any operation. -/
theorem document_length {m : Machine} {masks : List Char} {sort : Bool} {op : Operation} {s : Text} {ls : List Line}
    (hm : Fits m s.length) (h : IsDocument m masks sort op s ls) : ls.length ≤ 4 * (s.length * s.length) + 6 := by
  cases h with
  | nothing => exact Nat.zero_le _
  | hex h =>
    have h1 := hexReport_length _ _ _ h
    have h2 := hexBytes_length_le s
    have h3 : s.length ≤ s.length * s.length := Nat.le_mul_self _
    omega
  | serviceCode => show 6 ≤ _; omega
  | block h ha hb =>
    obtain ⟨h1, h2⟩ := tlv_snug masks op s hm _ _ h
    have h3 := block_length true _ h1 ha
    have h4 := weight_square (snug_blockDepth _ h1)
    have h5 := Nat.mul_le_mul h2 h2
    have h6 := header_length ‹Option TlvFormat›
    rw [List.length_append, arranged_lines true hb]
    omega

theorem prefix_count {a b : Text} (h : a <+: b) (c : Char) : a.count c ≤ b.count c := by
  obtain ⟨r, rfl⟩ := h
  rw [List.count_append]; omega

end Pemv
