import Verif.Props.Cli

/-!
# Lemmas about the order of options
-/

namespace Pemv

open Spec

theorem mapM_some {α β : Type} {f : α → Option β} : ∀ {l : List α}, (∀ a ∈ l, ∃ b, f a = some b) → ∃ bs, l.mapM f = some bs
  | [], _ => ⟨[], rfl⟩
  | a :: l, h => by
    obtain ⟨b, hb⟩ := h a (by simp)
    obtain ⟨bs, hbs⟩ := mapM_some (fun x hx => h x (List.mem_cons_of_mem _ hx))
    exact ⟨b :: bs, by rw [List.mapM_cons, hb, hbs]; rfl⟩

theorem mapM_filterMap {α β : Type} {f : α → Option β} : ∀ {l : List α} {bs : List β}, l.mapM f = some bs → bs = l.filterMap f
  | [], bs, h => by
    rw [List.mapM_nil] at h
    cases h
    rfl
  | a :: l, bs, h => by
    rw [List.mapM_cons] at h
    cases hb : f a with
    | none => rw [hb] at h; cases h
    | some b =>
      cases hl : l.mapM f with
      | none => rw [hb, hl] at h; cases h
      | some bs' =>
        rw [hb, hl] at h
        cases h
        rw [List.filterMap_cons, hb, mapM_filterMap hl]

theorem mapM_mem {α β : Type} {f : α → Option β} {l : List α} {bs : List β} (h : l.mapM f = some bs) :
    ∀ b ∈ bs, ∃ a ∈ l, f a = some b := by
  rw [mapM_filterMap h]
  intro b hb
  exact List.mem_filterMap.1 hb

theorem mapM_all {α β : Type} {f : α → Option β} : ∀ {l : List α} {bs : List β}, l.mapM f = some bs → ∀ a ∈ l, ∃ b, f a = some b
  | [], _, _, _, ha => by cases ha
  | a :: l, bs, h, x, hx => by
    rw [List.mapM_cons] at h
    cases hb : f a with
    | none => rw [hb] at h; cases h
    | some b =>
      cases hl : l.mapM f with
      | none => rw [hb, hl] at h; cases h
      | some bs' =>
        rcases List.mem_cons.1 hx with rfl | hx
        · exact ⟨b, hb⟩
        · exact mapM_all hl x hx

theorem mapM_perm {α β : Type} {f : α → Option β} {l l' : List α} {bs : List β} (hp : l.Perm l') (h : l.mapM f = some bs) :
    ∃ bs', l'.mapM f = some bs' ∧ bs.Perm bs' := by
  obtain ⟨bs', hbs'⟩ := mapM_some (f := f) (l := l') (fun a ha => mapM_all h a (hp.mem_iff.2 ha))
  refine ⟨bs', hbs', ?_⟩
  rw [mapM_filterMap h, mapM_filterMap hbs']
  exact hp.filterMap f

theorem perm_short {α : Type} {a b : List α} (h : a.Perm b) (hl : a.length ≤ 1) : a = b := by
  match a, hl with
  | [], _ => exact (List.nil_perm.1 h).symm
  | [x], _ => exact (List.perm_singleton.1 h.symm).symm

theorem operations_perm {gs gs' : List Given} (h : gs.Perm gs') : (operationsOf gs).Perm (operationsOf gs') := h.filterMap _

theorem perm_ne_nil {α : Type} {a b : List α} (h : a.Perm b) (hb : b ≠ []) : a ≠ [] := by
  rintro rfl
  exact hb (List.nil_perm.1 h)

theorem consistent_perm {gs gs' : List Given} (h : gs.Perm gs') (hc : Consistent gs) : Consistent gs' := by
  have ho := operations_perm h
  have hcol : (coloursOf gs).Perm (coloursOf gs') := h.filterMap _
  have hm : (masksOf gs).Perm (masksOf gs') := h.filterMap _
  have hs : (sortsOf gs).Perm (sortsOf gs') := h.filterMap _
  have hn : (noSortsOf gs).Perm (noSortsOf gs') := h.filterMap _
  refine ⟨ho.length_eq ▸ hc.operation, hcol.length_eq ▸ hc.colour, ?_, fun hx => ?_⟩
  · rw [← hs.length_eq, ← hn.length_eq]; exact hc.sorting
  · obtain ⟨p, hp, ht⟩ := hc.block (hx.imp (perm_ne_nil hm) (fun hx => hx.imp (perm_ne_nil hs) (perm_ne_nil hn)))
    exact ⟨p, ho.mem_iff.1 hp, ht⟩

theorem valueInForce_some (file : FigData) (env : Dict) (profile : Option String) (gs : List Given) (k : CfgKey) :
    ∃ v, valueInForce file env profile gs k = some v := by
  have key : ∀ (l : List (Option CfgVal)) (v : CfgVal), some v ∈ l → ∃ w, firstOf l = some w := by
    intro l v hv
    induction l with
    | nil => cases hv
    | cons x l ih =>
      cases x with
      | some w => exact ⟨w, rfl⟩
      | none =>
        rcases List.mem_cons.1 hv with h | h
        · cases h
        · exact ih h
  obtain ⟨v, hv⟩ : ∃ v, builtIn k = some v := by cases k <;> exact ⟨_, rfl⟩
  exact key _ v (by rw [hv]; simp)

theorem valueInForce_perm (file : FigData) (env : Dict) (profile : Option String) {gs gs' : List Given} (h : gs.Perm gs')
    (hc : Consistent gs) (k : CfgKey) (hk : k ≠ .maskingCharacters) :
    valueInForce file env profile gs k = valueInForce file env profile gs' k := by
  have hcol : (coloursOf gs).Perm (coloursOf gs') := h.filterMap _
  have hs : (sortsOf gs).Perm (sortsOf gs') := h.filterMap _
  have hn : (noSortsOf gs).Perm (noSortsOf gs') := h.filterMap _
  have h1 := hc.sorting
  have : settingsGiven gs k = settingsGiven gs' k := by
    cases k with
    | cliColour => rw [settingsGiven, settingsGiven, perm_short hcol hc.colour]
    | maskingCharacters => exact absurd rfl hk
    | sortParsedTags => rw [settingsGiven, settingsGiven, perm_short hs (by omega), perm_short hn (by omega)]
  rw [valueInForce, valueInForce, this]

theorem valueInForce_masks (file : FigData) (env : Dict) (profile : Option String) {gs gs' : List Given} (h : gs.Perm gs')
    {v : CfgVal} (hv : valueInForce file env profile gs .maskingCharacters = some v) :
    ∃ v', valueInForce file env profile gs' .maskingCharacters = some v' ∧
      (∀ ms, v = .chars ms → ∃ ms', v' = .chars ms' ∧ ∀ c, c ∈ ms ↔ c ∈ ms') ∧
      (¬ RightType .maskingCharacters v → v' = v) := by
  have hm : (masksOf gs).Perm (masksOf gs') := h.filterMap _
  by_cases hn : masksOf gs = []
  · have hn' : masksOf gs' = [] := by rw [hn] at hm; exact List.nil_perm.1 hm
    refine ⟨v, ?_, fun ms e => ⟨ms, e, fun _ => Iff.rfl⟩, fun _ => rfl⟩
    rw [← hv, valueInForce, valueInForce, settingsGiven, settingsGiven, if_pos hn, if_pos hn']
  · have hn' : masksOf gs' ≠ [] := perm_ne_nil hm.symm hn
    have e : valueInForce file env profile gs .maskingCharacters = some (.chars (masksOf gs).flatten) := by
      rw [valueInForce, settingsGiven, if_neg hn]; rfl
    have e' : valueInForce file env profile gs' .maskingCharacters = some (.chars (masksOf gs').flatten) := by
      rw [valueInForce, settingsGiven, if_neg hn']; rfl
    rw [e] at hv
    cases hv
    refine ⟨_, e', fun ms he => ?_, fun hr => absurd trivial hr⟩
    cases he
    exact ⟨_, rfl, fun c => (List.Perm.flatten hm).mem_iff⟩

theorem rightType_colour {v : CfgVal} (h : RightType .cliColour v) : ∃ c, v = .colour c := by
  cases v with
  | colour c => exact ⟨c, rfl⟩
  | _ => exact absurd h (by simp [RightType])

theorem rightType_masks {v : CfgVal} (h : RightType .maskingCharacters v) : ∃ c, v = .chars c := by
  cases v with
  | chars c => exact ⟨c, rfl⟩
  | _ => exact absurd h (by simp [RightType])

theorem rightType_sort {v : CfgVal} (h : RightType .sortParsedTags v) : ∃ c, v = .bool c := by
  cases v with
  | bool c => exact ⟨c, rfl⟩
  | _ => exact absurd h (by simp [RightType])

end Pemv
