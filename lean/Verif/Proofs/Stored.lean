import Verif.Spec.Stored
import Verif.Props.Ber

/-!
# Lemmas for C18: how much is kept of what was read
-/

namespace Pemv

open Spec

theorem blockStored_le (masks : List Char) {m : Machine} (n : Nat) : ∀ (bytes : List Byte)
    (ns : RawEmvBlock), bytes.length ≤ n → Fits m bytes.length → berParse m bytes masks = .ok ns →
    blockStored ns ≤ blockDepth ns * bytes.length := by
  induction n with
  | zero =>
    intro bytes ns hb _ h
    have : bytes = [] := List.length_eq_zero_iff.1 (by omega)
    subst this
    cases h
    simp [blockStored]
  | succ n ih =>
    intro bytes ns hb hm h
    obtain ⟨es, rfl, h2, rfl⟩ := berParse_inv hm h
    clear h
    have key : ∀ (es : List Elem) (d : Nat), (∀ e ∈ es, e.WF) → (concat es).length ≤ n + 1 → Fits m (concat es).length →
        blockDepth (es.map (nodeOf (fun v => berParse m v masks) masks)) ≤ d →
        blockStored (es.map (nodeOf (fun v => berParse m v masks) masks)) ≤ d * (concat es).length := by
      intro es d
      induction es with
      | nil => intros; simp [blockStored]
      | cons e es ih2 =>
        intro hw hl hf hd
        have hel := elem_length (hw e (by simp))
        rw [List.map_cons, blockDepth] at hd
        rw [concat_cons, List.length_append] at hl hf ⊢
        have h3 := ih2 (fun x hx => hw x (by simp [hx])) (by omega) (fits_mono hf (by omega)) (by omega)
        have h4 : blockStored (nodeOf (fun v => berParse m v masks) masks e).childBlock ≤
            blockDepth (nodeOf (fun v => berParse m v masks) masks e).childBlock * e.value.length := by
          rcases nodeOf_children (parse := fun v => berParse m v masks) (masks := masks) (e := e) with h | h
          · rw [h]; simp [blockStored]
          · exact ih e.value _ (by omega) (fits_mono hf (by omega)) h
        have h5 : nodeStored (nodeOf (fun v => berParse m v masks) masks e) ≤
            e.tag.length + e.value.length + blockStored (nodeOf (fun v => berParse m v masks) masks e).childBlock ∧
            nodeDepth (nodeOf (fun v => berParse m v masks) masks e) =
              1 + blockDepth (nodeOf (fun v => berParse m v masks) masks e).childBlock := by
          rw [nodeOf, nodeStored, nodeDepth, RawEmvNode.childBlock]
          refine ⟨?_, rfl⟩
          rw [dataOf]
          split <;> (simp only; omega)
        obtain ⟨h5, h6⟩ := h5
        rw [h6] at hd
        rw [List.map_cons, blockStored, Nat.mul_add]
        have h7 : e.tag.length + e.value.length ≤ e.bytes.length := by
          rw [Elem.bytes]; simp only [List.length_append]; omega
        have h8 : blockDepth (nodeOf (fun v => berParse m v masks) masks e).childBlock * e.value.length ≤
            (d - 1) * e.bytes.length := Nat.mul_le_mul (by omega) (by omega)
        have h9 : d * e.bytes.length = (d - 1) * e.bytes.length + e.bytes.length := by
          obtain ⟨k, rfl⟩ : ∃ k, d = k + 1 := ⟨d - 1, by omega⟩
          rw [Nat.add_sub_cancel, Nat.add_mul, Nat.one_mul]
        omega
    exact key es _ h2.1 hb hm (Nat.le_refl _)

theorem nest_long (d : Nat) : 2 * (d + 1) ≤ (nest d).encode.length := by
  induction d with
  | zero => decide
  | succ d ih =>
    have h4 : encodeAll [nest d] = (nest d).encode := by simp [encodeAll]
    have : 1 ≤ (encodeLength (nest d).encode.length).length := by
      rw [encodeLength]; split <;> simp
    simp only [nest, Obj.encode, h4, List.length_append, List.length_singleton]
    omega

theorem nest_stored (d : Nat) : (d + 1) * (d + 1) ≤ blockStored (nodes [nest d]) := by
  induction d with
  | zero => decide
  | succ d ih =>
    have h4 : encodeAll [nest d] = (nest d).encode := by simp [encodeAll]
    have := nest_long d
    simp only [nest, nodes, Obj.node, blockStored, nodeStored, h4] at ih ⊢
    simp only [Nat.add_mul, Nat.mul_add] at ih ⊢
    simp only [List.length_singleton]
    omega

end Pemv
