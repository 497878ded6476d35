import Verif.Spec.Ends
import Verif.Proofs.World

/-!
# Facts about how the program ends
-/

namespace Pemv

open Spec

/-- The operation asked for comes from one of the uses. -/
theorem operation_from (us : List Use) (gs : List Given) (h : us.mapM understand = some gs) (op : Operation) (s : Text)
    (hs : (op, s) ∈ operationsOf gs) : ∃ u ∈ us, s ∈ u.values := by
  induction us generalizing gs with
  | nil => cases h; cases hs
  | cons u us ih =>
    rw [List.mapM_cons] at h
    cases hg : understand u with
    | none => rw [hg] at h; cases h
    | some g =>
      rw [hg] at h
      cases hgs : us.mapM understand with
      | none => rw [hgs] at h; cases h
      | some gs' =>
        rw [hgs] at h
        cases h
        have hcons : operationsOf (g :: gs') = (g.operation?).toList ++ operationsOf gs' := by
          rw [operationsOf, List.filterMap_cons]
          cases g.operation? <;> rfl
        have hs' : (op, s) ∈ operationsOf (g :: gs') := hs
        rw [hcons, List.mem_append] at hs'
        rcases hs' with hs' | hs'
        · refine ⟨u, List.mem_cons_self, ?_⟩
          obtain ⟨-, hu⟩ := lookup_of_understand hg
          cases g with
          | operation op' v =>
            rw [Given.operation?] at hs'
            cases List.mem_singleton.1 hs'
            match hvs : u.values with
            | [] => rw [hvs] at hu; cases hu
            | [w] =>
              rw [hvs] at hu
              simp only [optOf, understandOpt] at hu
              split at hu
              · cases hu
              · cases hu; exact List.mem_singleton.2 rfl
            | _ :: _ :: _ => rw [hvs] at hu; cases hu
          | _ => cases hs'
        · obtain ⟨u', h1, h2⟩ := ih gs' hgs hs'
          exact ⟨u', List.mem_cons_of_mem _ h1, h2⟩

/-- A value is no longer than the argument it is in. -/
theorem written_length (u : Use) (ts : List Text) (h : WrittenAs u ts) (v : Text) (hv : v ∈ u.values) :
    ∃ t ∈ ts, v.length ≤ t.length := by
  cases h with
  | long n vs hs => exact ⟨v, List.mem_cons_of_mem _ hv, Nat.le_refl _⟩
  | longEquals n w =>
    cases List.mem_singleton.1 hv
    exact ⟨_, List.mem_singleton.2 rfl, by simp only [List.length_append, List.length_cons]; omega⟩
  | short c vs hs => exact ⟨v, List.mem_cons_of_mem _ hv, Nat.le_refl _⟩
  | shortAttached c w h1 h2 =>
    cases List.mem_singleton.1 hv
    exact ⟨_, List.mem_singleton.2 rfl, by simp only [List.length_cons]; omega⟩
  | shortEquals c w =>
    cases List.mem_singleton.1 hv
    exact ⟨_, List.mem_singleton.2 rfl, by simp only [List.length_cons]; omega⟩

theorem allWritten_length (us : List Use) (ts : List Text) (h : AllWritten us ts) (u : Use) (hu : u ∈ us) (v : Text)
    (hv : v ∈ u.values) : ∃ t ∈ ts, v.length ≤ t.length := by
  induction h with
  | nil => cases hu
  | cons h1 h2 ih =>
    rcases List.mem_cons.1 hu with rfl | hu
    · obtain ⟨t, h3, h4⟩ := written_length _ _ h1 v hv
      exact ⟨t, List.mem_append_left _ h3, h4⟩
    · obtain ⟨t, h3, h4⟩ := ih hu
      exact ⟨t, List.mem_append_right _ h3, h4⟩

end Pemv
