import Verif.Proofs.BerParse

/-! # Trees of data objects: encoding, depth, size -/

namespace Pemv

open Spec

/-! ### Lengths -/

theorem minBytes_spec {n : Nat} (h : n < 2 ^ 32) :
    beValue (minBytes n) = n ∧ 0 < (minBytes n).length ∧ (minBytes n).length ≤ 4 := by
  unfold minBytes
  have e1 : 256 ^ 2 = 65536 := rfl
  have e2 : 256 ^ 3 = 16777216 := rfl
  split
  · refine ⟨?_, by simp, by simp⟩
    simp [beValue, ofDigits]; omega
  · split
    · refine ⟨?_, by simp, by simp⟩
      simp [beValue, ofDigits]; omega
    · split
      · refine ⟨?_, by simp, by simp⟩
        simp [beValue, ofDigits]; omega
      · refine ⟨?_, by simp, by simp⟩
        simp [beValue, ofDigits]; omega

theorem encodeLength_spec {n : Nat} (h : n < 2 ^ 32) : IsLength (encodeLength n) n := by
  unfold encodeLength
  split
  · rename_i h1
    have := IsLength.short (UInt8.ofNat n) (by simp; omega)
    rwa [show (UInt8.ofNat n).toNat = n by simp; omega] at this
  · obtain ⟨h1, h2, h3⟩ := minBytes_spec h
    have := IsLength.long (UInt8.ofNat (128 + (minBytes n).length)) (minBytes n) (by simp; omega) h3
    rwa [h1] at this

theorem encodeLength_length {n : Nat} (h : n < 2 ^ 32) : (encodeLength n).length ≤ 5 := by
  unfold encodeLength
  split
  · simp
  · have := (minBytes_spec h).2.2
    simp; omega

/-! ### Encoding -/

/-- The tag of an object. -/
def objTag : Obj → List Byte
  | .prim tag _ => tag
  | .cons tag _ => tag

/-- The value bytes of an object. -/
def objValue : Obj → List Byte
  | .prim _ value => value
  | .cons _ children => encodeAll children

/-- The encoded object of a tree. -/
def objElem (o : Obj) : Elem := ⟨objTag o, encodeLength (objValue o).length, objValue o⟩

theorem encode_eq (o : Obj) : o.encode = (objElem o).bytes := by
  cases o <;> simp [Obj.encode, objElem, Elem.bytes, objTag, objValue]

theorem encodeAll_eq (os : List Obj) : encodeAll os = concat (os.map objElem) := by
  induction os with
  | nil => rfl
  | cons o os ih => rw [encodeAll, ih, encode_eq]; rfl

theorem objElem_wf {masks : List Char} {o : Obj} (h : o.WF masks) :
    (objElem o).WF ∧ ¬ (objElem o).LongZero := by
  have hv : (objValue o).length < 2 ^ 32 := by
    cases o with
    | prim tag value => exact h.2.2.1
    | cons tag children => exact h.2.2.1
  have ht : IsTag (objTag o) := by
    cases o with
    | prim tag value => exact h.1
    | cons tag children => exact h.1
  refine ⟨⟨ht, encodeLength_spec hv⟩, ?_⟩
  rintro ⟨h1, b, h2, h3⟩
  have h1' : objValue o = [] := h1
  have h2' : (encodeLength (objValue o).length).head? = some b := h2
  rw [h1'] at h2'
  cases h2'
  simp at h3

theorem allWF_mem {masks : List Char} {os : List Obj} (h : allWF masks os) : ∀ o ∈ os, o.WF masks := by
  induction os with
  | nil => simp
  | cons o os ih =>
    intro x hx
    rcases List.mem_cons.1 hx with rfl | hx
    · exact h.1
    · exact ih h.2 x hx

theorem encode_isBlock {masks : List Char} {os : List Obj} (h : allWF masks os) :
    IsBlock (os.map objElem) := by
  constructor
  · intro e he
    obtain ⟨o, ho, rfl⟩ := List.mem_map.1 he
    exact (objElem_wf (allWF_mem h o ho)).1
  · intro e he
    obtain ⟨o, ho, rfl⟩ := List.mem_map.1 (List.mem_of_getLast? he)
    exact (objElem_wf (allWF_mem h o ho)).2

mutual
theorem nodeOf_obj {m : Machine} {masks : List Char} : (o : Obj) → o.WF masks →
    Fits m (objValue o).length → nodeOf (fun v => berParse m v masks) masks (objElem o) = o.node
  | .prim tag value, h, _ => by
    obtain ⟨-, h2, -, h4⟩ := h
    simp [nodeOf, objElem, objTag, objValue, Obj.node, h2, dataOf, h4]
  | .cons tag children, h, hm => by
    obtain ⟨h1, h2, h3, h4, h5⟩ := h
    have := berParse_encode children h5 hm
    simp [nodeOf, objElem, objTag, objValue, Obj.node, h2, dataOf, h4, this]
theorem berParse_encode {m : Machine} {masks : List Char} : (os : List Obj) → allWF masks os →
    Fits m (encodeAll os).length → berParse m (encodeAll os) masks = .ok (nodes os)
  | os, h, hm => by
    rw [berParse_eq masks _ hm, encodeAll_eq, (readElems_iff _ _).2 ⟨rfl, encode_isBlock h⟩]
    simp only
    congr 1
    exact nodeOf_objs os h hm
theorem nodeOf_objs {m : Machine} {masks : List Char} : (os : List Obj) → allWF masks os →
    Fits m (encodeAll os).length →
    (os.map objElem).map (nodeOf (fun v => berParse m v masks) masks) = nodes os
  | [], _, _ => rfl
  | o :: os, h, hm => by
    have hl : (encodeAll (o :: os)).length = (objElem o).bytes.length + (encodeAll os).length := by
      rw [encodeAll, encode_eq]; simp
    have hv := elem_length (objElem_wf h.1).1
    have hv' : (objElem o).value.length = (objValue o).length := rfl
    rw [List.map_cons, List.map_cons, nodes, nodeOf_obj o h.1 (fits_mono hm (by omega)),
      nodeOf_objs os h.2 (fits_mono hm (by omega))]
end

/-! ### Depth and size -/

theorem depth_le_size : (ns : List RawEmvNode) → blockDepth ns ≤ blockSize ns
  | [] => by simp [blockDepth]
  | .mk t c :: ns => by
    have h1 := depth_le_size c
    have h2 := depth_le_size ns
    simp only [blockDepth, blockSize, nodeDepth, nodeSize]
    omega

theorem blockSize_append (xs ys : List RawEmvNode) :
    blockSize (xs ++ ys) = blockSize xs + blockSize ys := by
  induction xs with
  | nil => simp [blockSize]
  | cons x xs ih => simp only [List.cons_append, blockSize, ih]; omega

/-- What a reported node can have as children. -/
theorem nodeOf_children {parse : List Byte → Out RawEmvBlock} {masks : List Char} {e : Elem} :
    (nodeOf parse masks e).childBlock = [] ∨
      parse e.value = .ok (nodeOf parse masks e).childBlock := by
  rw [nodeOf, RawEmvNode.childBlock]
  split
  · cases h : parse e.value <;> simp
  · exact Or.inl rfl

theorem berParse_size {m : Machine} (masks : List Char) (n : Nat) : ∀ (bytes : List Byte)
    (ns : RawEmvBlock), bytes.length ≤ n → Fits m bytes.length → berParse m bytes masks = .ok ns →
    2 * blockSize ns ≤ bytes.length := by
  induction n with
  | zero =>
    intro bytes ns hb _ h
    have : bytes = [] := List.length_eq_zero_iff.1 (by omega)
    subst this
    cases h
    simp [blockSize]
  | succ n ih =>
    intro bytes ns hb hm h
    rw [berParse_eq masks bytes hm] at h
    cases hre : readElems bytes with
    | error e => rw [hre] at h; cases h
    | ok es =>
      rw [hre] at h
      simp only [Out.ok.injEq] at h
      obtain ⟨h1, h2, -⟩ := (readElems_iff _ _).1 hre
      subst h
      clear hre
      have key : ∀ es : List Elem, (∀ e ∈ es, e.WF) → (concat es).length ≤ n + 1 →
          Fits m (concat es).length →
          2 * blockSize (es.map (nodeOf (fun v => berParse m v masks) masks)) ≤ (concat es).length := by
        intro es
        induction es with
        | nil => intros; simp [blockSize]
        | cons e es ih2 =>
          intro hw hl hf
          have hel := elem_length (hw e (by simp))
          rw [concat_cons, List.length_append] at hl hf ⊢
          have h3 := ih2 (fun x hx => hw x (by simp [hx])) (by omega) (fits_mono hf (by omega))
          have h4 : 2 * blockSize (nodeOf (fun v => berParse m v masks) masks e).childBlock ≤
              e.value.length := by
            rcases nodeOf_children (parse := fun v => berParse m v masks) (masks := masks) (e := e) with h | h
            · rw [h]; simp [blockSize]
            · exact ih e.value _ (by omega) (fits_mono hf (by omega)) h
          rw [List.map_cons, blockSize]
          have h5 : nodeSize (nodeOf (fun v => berParse m v masks) masks e) =
              1 + blockSize (nodeOf (fun v => berParse m v masks) masks e).childBlock := by
            cases nodeOf (fun v => berParse m v masks) masks e
            rw [nodeSize, RawEmvNode.childBlock]
          rw [h5]
          omega
      rw [h1] at hb hm ⊢
      exact key es h2 hb hm

/-- Inversion: an accepted input and the nodes reported for it. -/
theorem berParse_inv {m : Machine} {masks : List Char} {bytes : List Byte} {ns : RawEmvBlock}
    (hm : Fits m bytes.length) (h : berParse m bytes masks = .ok ns) :
    ∃ es, bytes = concat es ∧ IsBlock es ∧ ns = es.map (nodeOf (fun v => berParse m v masks) masks) := by
  rw [berParse_eq masks bytes hm] at h
  cases hre : readElems bytes with
  | error e => rw [hre] at h; cases h
  | ok es =>
    rw [hre] at h
    simp only [Out.ok.injEq] at h
    obtain ⟨h1, h2⟩ := (readElems_iff _ _).1 hre
    exact ⟨es, h1, h2, h.symm⟩

theorem mem_concat_length {es : List Elem} {e : Elem} (he : e ∈ es) :
    e.bytes.length ≤ (concat es).length := by
  obtain ⟨s, t, rfl⟩ := List.append_of_mem he
  simp [concat]
  omega

/-- Every node at every depth stems from an object, with children as determined by its value. -/
theorem inBlock_nodeOf {m : Machine} {masks : List Char} {n : RawEmvNode} {ns : RawEmvBlock}
    (hin : InBlock n ns) : ∀ bytes : List Byte, Fits m bytes.length → berParse m bytes masks = .ok ns →
    ∃ e : Elem, e.WF ∧ e.value.length + 2 ≤ bytes.length ∧
      n = nodeOf (fun v => berParse m v masks) masks e := by
  induction hin with
  | here h =>
    intro bytes hm hp
    obtain ⟨es, rfl, h2, rfl⟩ := berParse_inv hm hp
    obtain ⟨e, he, rfl⟩ := List.mem_map.1 h
    have := elem_length (h2.1 e he)
    have := mem_concat_length he
    exact ⟨e, h2.1 e he, by omega, rfl⟩
  | deep hp' h ih =>
    intro bytes hm hp
    obtain ⟨es, rfl, h2, rfl⟩ := berParse_inv hm hp
    obtain ⟨e, he, rfl⟩ := List.mem_map.1 hp'
    have h3 := elem_length (h2.1 e he)
    have h4 := mem_concat_length he
    rcases nodeOf_children (parse := fun v => berParse m v masks) (masks := masks) (e := e) with hc | hc
    · rw [hc] at h
      cases h with
      | here h => cases h
      | deep h _ => cases h
    · obtain ⟨e', k1, k2, k3⟩ := ih e.value (fits_mono hm (by omega)) hc
      exact ⟨e', k1, by omega, k3⟩

/-! ### Trees are determined by their nodes -/

mutual
theorem obj_of_node : (o : Obj) → (o' : Obj) → o.node = o'.node → o = o'
  | .prim t v, .prim t' v', h => by
    simp only [Obj.node, RawEmvNode.mk.injEq, RawEmvTag.mk.injEq, EmvData.normal.injEq] at h
    rw [h.1.1, h.1.2.2.2]
  | .cons t c, .cons t' c', h => by
    simp only [Obj.node, RawEmvNode.mk.injEq, RawEmvTag.mk.injEq] at h
    obtain ⟨⟨h1, -⟩, h2⟩ := h
    rw [h1, objs_of_nodes c c' h2]
  | .prim t v, .cons t' c', h => by simp [Obj.node] at h
  | .cons t c, .prim t' v', h => by simp [Obj.node] at h
theorem objs_of_nodes : (os : List Obj) → (os' : List Obj) → nodes os = nodes os' → os = os'
  | [], [], _ => rfl
  | o :: os, o' :: os', h => by
    simp only [nodes, List.cons.injEq] at h
    rw [obj_of_node o o' h.1, objs_of_nodes os os' h.2]
  | [], _ :: _, h => by simp [nodes] at h
  | _ :: _, [], h => by simp [nodes] at h
end

/-! ### Deep nesting -/

theorem nest_encode (d : Nat) (h : 6 * d + 2 < 2 ^ 32) (masks : List Char) :
    (nest d).WF masks ∧ (nest d).encode.length ≤ 6 * d + 2 ∧ ∃ p, (nest d).encode = p ++ [0x5A, 0x00] := by
  induction d with
  | zero =>
    refine ⟨⟨.low 0x5A (by decide), by decide, by decide, fun h => absurd h.1 (by simp [latin1])⟩,
      by decide, [], by decide⟩
  | succ d ih =>
    obtain ⟨h1, h2, p, h3⟩ := ih (by omega)
    have h4 : encodeAll [nest d] = (nest d).encode := by simp [encodeAll]
    have h5 := encodeLength_length (n := (nest d).encode.length) (by omega)
    refine ⟨⟨.low 0x70 (by decide), by decide, by rw [h4]; omega, ?_, h1, trivial⟩, ?_, ?_⟩
    · rw [h4, h3]
      rintro ⟨-, c, -, hc⟩
      have k1 := hc (Char.ofNat (0x5A : Byte).toNat)
        (List.mem_map_of_mem (f := fun b : Byte => Char.ofNat b.toNat) (a := 0x5A) (by simp))
      have k2 := hc (Char.ofNat (0x00 : Byte).toNat)
        (List.mem_map_of_mem (f := fun b : Byte => Char.ofNat b.toNat) (a := 0x00) (by simp))
      rw [← k2] at k1
      revert k1
      decide
    · simp only [nest, Obj.encode, h4, List.length_append, List.length_singleton]
      omega
    · refine ⟨[0x70] ++ encodeLength (nest d).encode.length ++ p, ?_⟩
      simp only [nest, Obj.encode, h4, h3, List.append_assoc]

theorem isLength_head {len : List Byte} {n : Nat} {b : Byte} {r r' : List Byte} (h : IsLength len n)
    (he : b :: r = len ++ r') : b.toNat ≤ 132 := by
  cases h with
  | short c h => simp at he; rw [he.1]; omega
  | long c ds h h4 => simp at he; rw [he.1]; omega

end Pemv
