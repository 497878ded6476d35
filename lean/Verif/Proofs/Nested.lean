import Verif.Proofs.Whole
import Verif.Proofs.ReadBack

/-!
# Lemmas for C84: templates and their contents
-/

namespace Pemv

open Spec

theorem decoder_primitive : ∀ p ∈ decoders, typeOf p.1 = .primitive := by
  intro p hp
  have : ∀ t ∈ decoders.map Prod.fst, typeOf t = .primitive := by decide +kernel
  exact this p.1 (List.mem_map_of_mem hp)

theorem constructed_no_decoder {tag : List Byte} (h : typeOf tag = .constructed) : ∀ dec, (tag, dec) ∉ decoders := by
  intro dec hd
  have := decoder_primitive _ hd
  rw [h] at this
  cases this

theorem valueLines_constructed (c : Bool) (tag d : List Byte) (h : typeOf tag = .constructed) :
    valueLines c tag d = none := by
  have ne : ∀ t : List Byte, typeOf t = .primitive → tag ≠ t := by
    rintro t ht rfl
    rw [h] at ht; cases ht
  rw [valueLines, if_neg (ne _ rfl), if_neg (ne _ rfl), if_neg (ne _ rfl), if_neg (ne _ rfl), if_neg (ne _ rfl),
    if_neg (ne _ rfl), if_neg (ne _ rfl), if_neg (ne _ rfl), if_neg (ne _ rfl), if_neg (ne _ rfl),
    if_neg (ne _ rfl), if_neg (ne _ rfl), if_neg (ne _ rfl), if_neg (ne _ rfl), if_neg (ne _ rfl)]

/-- A template alone. -/
theorem template_parse {m : Machine} (masks : List Char) (e : Elem) (hw : e.WF) (hz : ¬ e.LongZero)
    (hc : typeOf e.tag = .constructed) (hk : ¬ IsMasked (latin1 e.value) masks) (hm : Fits m e.bytes.length) :
    berParse m e.bytes masks = .ok [.mk ⟨e.tag, classOf e.tag, .constructed, .normal e.value⟩
      (match berParse m e.value masks with
        | .ok b => b
        | _ => [])] := by
  have he : readElems e.bytes = .ok [e] := by
    refine (readElems_iff _ _).2 ⟨by simp [concat], fun x hx => ?_, fun x hx => ?_⟩
    · rw [List.mem_singleton.1 hx]; exact hw
    · rw [List.getLast?_singleton] at hx
      cases hx; exact hz
  rw [berParse_eq masks _ hm, he]
  simp only [List.map_cons, List.map_nil]
  rw [nodeOf, dataOf, if_neg hk, hc, if_pos ⟨rfl, hk⟩]
  cases berParse m e.value masks <;> rfl

theorem maybeSort_single (sort : Bool) (t : ProcessedEmvTag) (q : ProcessedEmvBlock) :
    maybeSort sort [.mk t q] = [.mk t (maybeSort sort q)] := by
  cases sort <;> rfl

theorem template_process (t : RawEmvTag) (hc : typeOf t.tag = .constructed) (b : RawEmvBlock) :
    ∃ p, processEmvTag t = .ok p ∧ rawOf p = t ∧
      (∀ q, processBlock b = .ok q → processBlock [.mk t b] = .ok [.mk p q]) ∧
      ∀ e, processBlock b = .err e → processBlock [.mk t b] = .err e := by
  have hp := processEmvTag_other (constructed_no_decoder hc)
  refine ⟨_, hp, processEmvTag_raw _ _ hp, fun q hq => ?_, fun e he => ?_⟩
  · rw [processBlock, processNode, hp, hq]; rfl
  · rw [processBlock, processNode, hp, he]; rfl

theorem blockLines_template (tag v : List Byte) (cls : TagClass) (hc : typeOf tag = .constructed) (c : List RawEmvNode) :
    blockLines true [.mk ⟨tag, cls, .constructed, .normal v⟩ c] =
      [tagLine ⟨tag, cls, .constructed, .normal v⟩] ++ rawLines (.normal v) ++
      (if c = [] then [] else title "Constructed Data Object's Child Tags:" :: deeper (blockLines true c)) := by
  have hp : parsedLines true ⟨tag, cls, .constructed, .normal v⟩ = [] := by
    rw [parsedLines]
    simp only
    rw [valueLines_constructed true _ _ hc]
  cases c with
  | nil =>
    show nodeLines true _ ++ [] = _
    rw [nodeLines, hp, List.append_nil, List.append_nil, if_pos rfl]
  | cons n ns =>
    show nodeLines true _ ++ [] = _
    rw [nodeLines, hp, List.append_nil, List.append_nil, if_neg (by simp)]
    rfl

/-- What is shown of a processed block. -/
theorem shows_maybeSort {m : Machine} {b : RawEmvBlock} {q : ProcessedEmvBlock} (h : processBlock b = .ok q)
    (sort : Bool) (hd : blockDepth b ≤ 254 ∨ m.overflowChecks = false) :
    Shows (displayNodes m true (maybeSort sort q) true 0)
      (showLines 0 (blockLines true (eraseBlock (maybeSort sort q)))) := by
  refine shows_nodes _ 0 (allProcessed_sort sort (allProcessed h)) ?_
  rw [Nat.zero_add, maybeSort_depth, processBlock_erase b q h]
  exact hd

/-- What is shown of a template depends on what is inside only through the bytes and the block read from them. -/
theorem template_run {m : Machine} (masks : List Char) (sort : Bool) {b : RawEmvBlock} {q : ProcessedEmvBlock}
    (hq : processBlock b = .ok q) (hne : b ≠ []) (hd : blockDepth b < 254 ∨ m.overflowChecks = false) (e : Elem)
    (hw : e.WF) (hc : typeOf e.tag = .constructed) (hk : ¬ IsMasked (latin1 e.value) masks) (w : Text)
    (hb : hexBytes w = e.bytes) (hm : Fits m e.bytes.length) (h : berParse m e.value masks = .ok b) :
    Succeeds (run m { berTlv := some w } masks sort) (showLines 0 (
      [tagLine ⟨e.tag, classOf e.tag, .constructed, .normal e.value⟩] ++ rawLines (.normal e.value) ++
      title "Constructed Data Object's Child Tags:" :: deeper (blockLines true (eraseBlock (maybeSort sort q))))) := by
  obtain ⟨p, -, hr, hok, -⟩ := template_process ⟨e.tag, classOf e.tag, .constructed, .normal e.value⟩ hc b
  have hv : e.value ≠ [] := by
    intro hv
    rw [hv] at h
    cases h
    exact hne rfl
  have hz : ¬ e.LongZero := fun hz => hv hz.1
  have hpar := template_parse masks e hw hz hc hk hm
  rw [h] at hpar
  have hdepth : blockDepth [RawEmvNode.mk ⟨e.tag, classOf e.tag, .constructed, .normal e.value⟩ b] ≤ 254 ∨
      m.overflowChecks = false := by
    refine hd.imp (fun h => ?_) id
    simp only [blockDepth, nodeDepth]; omega
  have h2 := shows_maybeSort (m := m) (hok q hq) sort hdepth
  have hrun := ber_run (s := w) (by rw [hb]; exact hpar) (hok q hq) h2
  rw [maybeSort_single, eraseBlock, eraseNode, hr, eraseBlock, blockLines_template _ _ _ hc] at hrun
  have hne' : eraseBlock (maybeSort sort q) ≠ [] := by
    intro h0
    have h3 := maybeSort_depth sort q
    rw [h0, processBlock_erase b q hq] at h3
    cases b with
    | nil => exact hne rfl
    | cons n ns =>
      obtain ⟨t, c⟩ := n
      simp only [blockDepth, nodeDepth] at h3
      omega
  rw [if_neg hne'] at hrun
  exact hrun

end Pemv
