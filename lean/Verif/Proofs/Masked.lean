import Verif.Spec.Masked
import Verif.Proofs.BerTree
import Verif.Proofs.Ingenico
import Verif.Spec.Document

/-! # Data that differ only in what is masked -/

namespace Pemv

open Spec

theorem masked_not_longZero {e : Elem} {masks : List Char} (h : IsMasked (latin1 e.value) masks) :
    ¬ e.LongZero := by
  intro hz
  have := h.1
  rw [hz.1] at this
  simp [latin1] at this

theorem nodeOf_hidden {masks : List Char} {p : Elem × Elem} (h : HiddenElem masks p)
    (parse : List Byte → Out RawEmvBlock) : nodeOf parse masks p.1 = nodeOf parse masks p.2 := by
  rcases h.2.2 with h | ⟨h1, h2, h3⟩
  · rw [h]
  · rw [nodeOf, nodeOf, dataOf, dataOf, if_pos h2, if_pos h3, h1]
    simp [h2, h3]

theorem elem_bytes_ne_nil {e : Elem} (h : e.WF) (r : List Byte) : e.bytes ++ r ≠ [] := by
  have := elem_length h
  intro h0
  have h1 := congrArg List.length h0
  simp at h1
  rw [h1.1] at this
  simp at this

/-- Reading data that differ only in what is masked, followed by the same. -/
theorem readElems_hidden {masks : List Char} (parse : List Byte → Out RawEmvBlock) (rest : List Byte) :
    (l : List (Elem × Elem)) → (∀ p ∈ l, HiddenElem masks p) →
      (match readElems (concat (l.map (·.1)) ++ rest) with
        | .error e => Out.err e
        | .ok es => .ok (es.map (nodeOf parse masks))) =
      (match readElems (concat (l.map (·.2)) ++ rest) with
        | .error e => Out.err e
        | .ok es => .ok (es.map (nodeOf parse masks)))
  | [], _ => rfl
  | p :: l, h => by
    have hp := h p (by simp)
    have ih := readElems_hidden parse rest l (fun q hq => h q (by simp [hq]))
    have hn := nodeOf_hidden hp parse
    have h0 : concat (l.map (·.1)) ++ rest = [] ↔ concat (l.map (·.2)) ++ rest = [] := by
      cases l with
      | nil => rfl
      | cons q l =>
        have hq := h q (by simp)
        constructor
        · intro h'
          simp only [List.map_cons, concat, List.flatMap_cons, List.append_assoc] at h'
          exact absurd h' (elem_bytes_ne_nil hq.1 _)
        · intro h'
          simp only [List.map_cons, concat, List.flatMap_cons, List.append_assoc] at h'
          exact absurd h' (elem_bytes_ne_nil hq.2.1 _)
    have e1 : concat ((p :: l).map (·.1)) ++ rest = p.1.bytes ++ (concat (l.map (·.1)) ++ rest) := by
      simp [concat]
    have e2 : concat ((p :: l).map (·.2)) ++ rest = p.2.bytes ++ (concat (l.map (·.2)) ++ rest) := by
      simp [concat]
    rw [e1, e2]
    by_cases hz : concat (l.map (·.1)) ++ rest = [] ∧ p.1.LongZero
    · have : p.1 = p.2 := by
        rcases hp.2.2 with h' | ⟨-, h', -⟩
        · exact h'
        · exact absurd hz.2 (masked_not_longZero h')
      rw [hz.1, h0.1 hz.1, this]
    · have hz2 : ¬ (concat (l.map (·.2)) ++ rest = [] ∧ p.2.LongZero) := by
        rintro ⟨h1, h2⟩
        rcases hp.2.2 with h' | ⟨-, -, h'⟩
        · exact hz ⟨h0.2 h1, h' ▸ h2⟩
        · exact masked_not_longZero h' h2
      have r1 := (readElem_iff _ p.1 (concat (l.map (·.1)) ++ rest)).2 ⟨rfl, hp.1, fun h1 h2 => hz ⟨h1, h2⟩⟩
      have r2 := (readElem_iff _ p.2 (concat (l.map (·.2)) ++ rest)).2 ⟨rfl, hp.2.1, fun h1 h2 => hz2 ⟨h1, h2⟩⟩
      rw [readElems_ok (elem_bytes_ne_nil hp.1 _) r1, readElems_ok (elem_bytes_ne_nil hp.2.1 _) r2]
      revert ih
      cases readElems (concat (l.map (·.1)) ++ rest) with
      | error e =>
        cases readElems (concat (l.map (·.2)) ++ rest) with
        | error e' => exact id
        | ok es' => intro ih; cases ih
      | ok es =>
        cases readElems (concat (l.map (·.2)) ++ rest) with
        | error e' => intro ih; cases ih
        | ok es' =>
          intro ih
          simp only [Out.ok.injEq] at ih
          simp only [List.map_cons, ih, hn]

theorem berParse_hidden {m : Machine} {masks : List Char} (l : List (Elem × Elem))
    (hl : ∀ p ∈ l, HiddenElem masks p) (rest : List Byte)
    (hm : Fits m (concat (l.map (·.1)) ++ rest).length) (hm' : Fits m (concat (l.map (·.2)) ++ rest).length) :
    berParse m (concat (l.map (·.1)) ++ rest) masks = berParse m (concat (l.map (·.2)) ++ rest) masks := by
  rw [berParse_eq masks _ hm, berParse_eq masks _ hm']
  exact readElems_hidden _ rest l hl

theorem record_text_ne_nil (r : Record) (t : Text) : r.text ++ t ≠ [] := by simp [Record.text]

/-- What records that differ only in what is masked, followed by the same, are reported as. -/
theorem readRecords_hidden {masks : List Char} (parse : List Byte → Out RawEmvBlock) (rest : Text)
    (l : List ((Record × Char) × (Record × Char))) (h : ∀ p ∈ l, HiddenRecord masks p)
    (ha : ∀ c ∈ render (l.map (·.1)) ++ rest, c.toNat < 128)
    (ha' : ∀ c ∈ render (l.map (·.2)) ++ rest, c.toNat < 128) :
      (match readRecords masks (render (l.map (·.1)) ++ rest) with
        | .error e => Out.err e
        | .ok rs => .ok ((emvRecords rs).map (Record.node parse masks))) =
      (match readRecords masks (render (l.map (·.2)) ++ rest) with
        | .error e => Out.err e
        | .ok rs => .ok ((emvRecords rs).map (Record.node parse masks))) := by
  induction l with
  | nil => rfl
  | cons p l ih =>
    have hp := h p (by simp)
    have e1 : render ((p :: l).map (·.1)) ++ rest =
        p.1.1.text ++ p.1.2 :: (render (l.map (·.1)) ++ rest) := by simp [render]
    have e2 : render ((p :: l).map (·.2)) ++ rest =
        p.2.1.text ++ p.2.2 :: (render (l.map (·.2)) ++ rest) := by simp [render]
    rw [e1] at ha ⊢
    rw [e2] at ha' ⊢
    have ih := ih (fun q hq => h q (by simp [hq])) (fun c hc => ha c (List.mem_append_right _ (List.mem_cons_of_mem _ hc)))
      (fun c hc => ha' c (List.mem_append_right _ (List.mem_cons_of_mem _ hc)))
    have r1 := (readRecord_iff ha p.1.1 (p.1.2 :: (render (l.map (·.1)) ++ rest))).2 ⟨rfl, hp.1⟩
    have r2 := (readRecord_iff ha' p.2.1 (p.2.2 :: (render (l.map (·.2)) ++ rest))).2 ⟨rfl, hp.2.1⟩
    rw [readRecords_cons (record_text_ne_nil _ _) r1, readRecords_cons (record_text_ne_nil _ _) r2]
    have ht : p.1.1.typ = p.2.1.typ := by
      rcases hp.2.2 with h' | ⟨h', -⟩
      · rw [h']
      · exact h'
    have hn : p.1.1.node parse masks = p.2.1.node parse masks := by
      rcases hp.2.2 with h' | ⟨-, h2, h3, h4⟩
      · rw [h']
      · rw [Record.node, Record.node, Record.data, Record.data, if_pos h3, if_pos h4, h2]
    revert ih
    cases readRecords masks (render (l.map (·.1)) ++ rest) with
    | error e =>
      cases readRecords masks (render (l.map (·.2)) ++ rest) with
      | error e' => exact id
      | ok es' => intro ih; cases ih
    | ok es =>
      cases readRecords masks (render (l.map (·.2)) ++ rest) with
      | error e' => intro ih; cases ih
      | ok es' =>
        intro ih
        simp only [Out.ok.injEq] at ih
        simp only [emvRecords, List.filter_cons, ht]
        simp only [emvRecords] at ih
        split
        · simp only [List.map_cons, ih, hn]
        · rw [ih]

theorem ingParse_hidden {m : Machine} {masks : List Char} (l : List ((Record × Char) × (Record × Char)))
    (hl : ∀ p ∈ l, HiddenRecord masks p) (rest : Text)
    (ha : ∀ c ∈ render (l.map (·.1)) ++ rest, c.toNat < 128)
    (ha' : ∀ c ∈ render (l.map (·.2)) ++ rest, c.toNat < 128)
    (hm : Fits m (render (l.map (·.1)) ++ rest).length) (hm' : Fits m (render (l.map (·.2)) ++ rest).length) :
    ingParse m (render (l.map (·.1)) ++ rest) masks = ingParse m (render (l.map (·.2)) ++ rest) masks := by
  rw [ingParse_eq masks _ hm ha, ingParse_eq masks _ hm' ha']
  exact readRecords_hidden _ rest l hl ha ha'

/-- A masked object alone. -/
theorem masked_parse {m : Machine} (masks : List Char) (e : Elem) (hw : e.WF)
    (hk : IsMasked (latin1 e.value) masks) (hm : Fits m e.bytes.length) :
    berParse m e.bytes masks = .ok [.mk ⟨e.tag, classOf e.tag, typeOf e.tag, .masked⟩ []] := by
  have he : readElems e.bytes = .ok [e] := by
    refine (readElems_iff _ _).2 ⟨by simp [concat], fun x hx => ?_, fun x hx => ?_⟩
    · rw [List.mem_singleton.1 hx]; exact hw
    · rw [List.getLast?_singleton] at hx
      cases hx; exact masked_not_longZero hk
  rw [berParse_eq masks _ hm, he]
  simp only [List.map_cons, List.map_nil]
  rw [nodeOf, dataOf, if_pos hk, if_neg (fun h => h.2 hk)]

/-! ### Levels -/

mutual
theorem nodeLevels_ge (d : Nat) : ∀ n : RawEmvNode, ∀ p ∈ nodeLevels d n, d ≤ p.1
  | .mk t c => by
    intro p hp
    rw [nodeLevels] at hp
    rcases List.mem_cons.1 hp with rfl | hp
    · exact Nat.le_refl _
    · exact Nat.le_of_succ_le (blockLevels_ge (d + 1) c p hp)
theorem blockLevels_ge (d : Nat) : ∀ b : List RawEmvNode, ∀ p ∈ blockLevels d b, d ≤ p.1
  | [] => by intro p hp; rw [blockLevels] at hp; cases hp
  | n :: ns => by
    intro p hp
    rw [blockLevels] at hp
    rcases List.mem_append.1 hp with hp | hp
    · exact nodeLevels_ge d n p hp
    · exact blockLevels_ge d ns p hp
end

end Pemv
