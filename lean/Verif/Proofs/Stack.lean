import Verif.Proofs.BerTree

/-! # Budgets of the BER-TLV parser that are too small -/

namespace Pemv

open Spec

/-- A smaller budget is cut off or gives the same. -/
def Cut {α : Type} (x y : Out α) : Prop := x = .diverge ∨ x = y

theorem Cut.bind {α β : Type} {x y : Out α} {f g : α → Out β} (h : Cut x y) (hf : ∀ a, Cut (f a) (g a)) :
    Cut (x >>= f) (y >>= g) := by
  rcases h with rfl | rfl
  · exact Or.inl rfl
  · cases x with
    | ok a => exact hf a
    | _ => exact Or.inr rfl

theorem Cut.refl {α : Type} (x : Out α) : Cut x x := Or.inr rfl

theorem berStep_cut (m : Machine) (masks : List Char) {f g : List Byte → Out RawEmvBlock}
    (h : ∀ v, Cut (f v) (g v)) (bytes : List Byte) (i : Nat) :
    Cut (berStep m masks f bytes i) (berStep m masks g bytes i) := by
  rw [berStep, berStep]
  refine (Cut.refl _).bind fun a => (Cut.refl _).bind fun b => (Cut.refl _).bind fun c => (Cut.refl _).bind fun d => ?_
  split
  · exact .refl _
  · refine (Cut.refl _).bind fun a => (Cut.refl _).bind fun b => (Cut.refl _).bind fun c => ?_
    split
    · exact .refl _
    · refine (Cut.refl _).bind fun a => Cut.bind ?_ (fun b => .refl _)
      rw [getChildBlock.eq_def, getChildBlock.eq_def]
      split
      · exact .refl _
      · split
        · rename_i data _
          rcases h data with e | e
          · rw [e]; exact Or.inl rfl
          · rw [e]; exact .refl _
        · exact .refl _

theorem berLoop_cut (m : Machine) (masks : List Char) {f g : List Byte → Out RawEmvBlock}
    (h : ∀ v, Cut (f v) (g v)) (bytes : List Byte) (fuel : Nat) :
    ∀ i nodes, Cut (berLoop m masks f bytes fuel i nodes) (berLoop m masks g bytes fuel i nodes) := by
  induction fuel with
  | zero =>
    intro i nodes
    rw [berLoop, berLoop]
    exact .refl _
  | succ fuel ih =>
    intro i nodes
    rw [berLoop, berLoop]
    by_cases hi : i < bytes.length
    · rw [if_pos hi, if_pos hi]
      exact (berStep_cut m masks h bytes i).bind fun p => ih _ _
    · rw [if_neg hi, if_neg hi]
      exact .refl _

theorem berParseF_cut (m : Machine) (masks : List Char) (d : Nat) :
    ∀ k bytes, Cut (berParseF m masks d bytes) (berParseF m masks (d + k) bytes) := by
  induction d with
  | zero => intro k bytes; exact Or.inl rfl
  | succ d ih =>
    intro k bytes
    rw [show d + 1 + k = (d + k) + 1 by omega, berParseF, berParseF]
    exact berLoop_cut m masks (fun v => ih k v) bytes _ _ _

theorem blockDepth_append (a b : RawEmvBlock) : blockDepth (a ++ b) = max (blockDepth a) (blockDepth b) := by
  induction a with
  | nil => simp [blockDepth]
  | cons n a ih => simp only [List.cons_append, blockDepth, ih]; omega

theorem ok_of_bind {α β : Type} {x : Out α} {f : α → Out β} {b : β} (h : x >>= f = .ok b) :
    ∃ a, x = .ok a ∧ f a = .ok b := by
  cases x with
  | ok a => exact ⟨a, rfl, h⟩
  | _ => cases h

theorem berStep_depth (m : Machine) (masks : List Char) {f : List Byte → Out RawEmvBlock} {d : Nat}
    (h : ∀ v ns, f v = .ok ns → blockDepth ns ≤ d) (bytes : List Byte) (i : Nat) (p : RawEmvNode × Nat)
    (he : berStep m masks f bytes i = .ok p) : nodeDepth p.1 ≤ d + 1 := by
  rw [berStep] at he
  obtain ⟨_, -, he⟩ := ok_of_bind he
  obtain ⟨_, -, he⟩ := ok_of_bind he
  obtain ⟨_, -, he⟩ := ok_of_bind he
  obtain ⟨k, -, he⟩ := ok_of_bind he
  split at he
  · cases he
  · obtain ⟨_, -, he⟩ := ok_of_bind he
    obtain ⟨_, -, he⟩ := ok_of_bind he
    obtain ⟨_, -, he⟩ := ok_of_bind he
    split at he
    · cases he
    · obtain ⟨_, -, he⟩ := ok_of_bind he
      obtain ⟨c, hc, he⟩ := ok_of_bind he
      obtain ⟨_, -, he⟩ := ok_of_bind he
      obtain ⟨_, -, he⟩ := ok_of_bind he
      cases he
      have : blockDepth c ≤ d := by
        rw [getChildBlock.eq_def] at hc
        split at hc
        · cases hc; simp [blockDepth]
        · split at hc
          · rename_i data _
            cases hf : f data with
            | ok ns => rw [hf] at hc; cases hc; exact h _ _ hf
            | err e => rw [hf] at hc; cases hc; simp [blockDepth]
            | _ => rw [hf] at hc; cases hc
          · cases hc; simp [blockDepth]
      simp only [nodeDepth]
      omega

theorem berLoop_depth (m : Machine) (masks : List Char) {f : List Byte → Out RawEmvBlock} {d : Nat}
    (h : ∀ v ns, f v = .ok ns → blockDepth ns ≤ d) (bytes : List Byte) (fuel : Nat) :
    ∀ i nodes ns, blockDepth nodes ≤ d + 1 → berLoop m masks f bytes fuel i nodes = .ok ns → blockDepth ns ≤ d + 1 := by
  induction fuel with
  | zero =>
    intro i nodes ns hn he
    rw [berLoop] at he
    by_cases hi : i < bytes.length
    · rw [if_pos hi] at he; cases he
    · rw [if_neg hi] at he; cases he; exact hn
  | succ fuel ih =>
    intro i nodes ns hn he
    rw [berLoop] at he
    by_cases hi : i < bytes.length
    · rw [if_pos hi] at he
      obtain ⟨p, hp, he⟩ := ok_of_bind he
      refine ih _ _ _ ?_ he
      have := berStep_depth m masks h bytes i p hp
      rw [blockDepth_append]
      simp only [blockDepth]
      omega
    · rw [if_neg hi] at he; cases he; exact hn

/-- What was read with a budget is not nested deeper than the budget. -/
theorem berParseF_depth (m : Machine) (masks : List Char) (d : Nat) :
    ∀ bytes ns, berParseF m masks d bytes = .ok ns → blockDepth ns ≤ d := by
  induction d with
  | zero => intro bytes ns h; cases h
  | succ d ih =>
    intro bytes ns h
    rw [berParseF] at h
    exact berLoop_depth m masks ih bytes _ _ _ _ (by simp [blockDepth]) h

end Pemv
