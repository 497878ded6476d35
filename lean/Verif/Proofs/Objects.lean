import Verif.Spec.Objects
import Verif.Proofs.Rearranged
import Verif.Proofs.ReadBack
import Verif.Props.Whole

/-!
# Lemmas for C111: the data objects that are given
-/

namespace Pemv

open Spec

/-- The tag and the value of a node. -/
def topOf (n : RawEmvNode) : List Byte × EmvData := (n.tag.tag, n.tag.data)

/-- The node of a tag and a value. -/
def nodeFor (m : Machine) (masks : List Char) (p : List Byte × EmvData) : RawEmvNode :=
  .mk ⟨p.1, classOf p.1, typeOf p.1, p.2⟩ (childrenOf (fun v => berParse m v masks) (typeOf p.1) p.2)

theorem nodeOf_nodeFor (m : Machine) (masks : List Char) (e : Elem) :
    nodeOf (fun v => berParse m v masks) masks e = nodeFor m masks (e.tag, dataOf e.value masks) := by
  rw [nodeOf, nodeFor]
  congr 1
  show _ = childrenOf _ (typeOf e.tag) (dataOf e.value masks)
  rw [dataOf]
  by_cases hk : IsMasked (latin1 e.value) masks
  · rw [if_pos hk, if_neg (fun h => h.2 hk)]
    cases typeOf e.tag <;> rfl
  · rw [if_neg hk]
    cases typeOf e.tag with
    | primitive => rw [if_neg (fun h => nomatch h.1)]; rfl
    | constructed => rw [if_pos ⟨rfl, hk⟩]; rfl

theorem node_nodeFor (m : Machine) (masks : List Char) (r : Record) :
    Record.node (fun v => berParse m v masks) masks r = nodeFor m masks (r.tag, r.data masks) := rfl

theorem topOf_nodeFor (m : Machine) (masks : List Char) (p : List Byte × EmvData) : topOf (nodeFor m masks p) = p := rfl

theorem holds_reads {m : Machine} {masks : List Char} {ops : CliOps} {b : List RawEmvNode}
    {l : List (List Byte × EmvData)} (h : Reads m masks ops b) (hl : Holds masks ops l) : b = l.map (nodeFor m masks) := by
  cases h with
  | @ber s _ hm h =>
    cases hl with
    | @ber _ es hb hs =>
      have := (c10_language masks _ hm _).2 ⟨es, hs, hb, rfl⟩
      rw [h] at this
      cases this
      rw [List.map_map]
      exact List.map_congr_left fun e _ => nodeOf_nodeFor m masks e
  | @ingenico s _ hm h =>
    cases hl with
    | @ingenico _ rs hr =>
      have := (c21_language masks _ hm _).2 ⟨hr.1, rs, hr.2, rfl⟩
      rw [h] at this
      cases this
      rw [List.map_map]
      rfl

theorem tops_map (m : Machine) (masks : List Char) (l : List (List Byte × EmvData)) :
    (l.map (nodeFor m masks)).map topOf = l := by
  rw [List.map_map]
  conv => rhs; rw [← List.map_id l]
  exact List.map_congr_left fun p _ => topOf_nodeFor m masks p

theorem childrenInOrder_tops : ∀ {b mid : List RawEmvNode}, ChildrenInOrder b mid → mid.map topOf = b.map topOf
  | _, _, .nil => rfl
  | _, _, .cons t _ hb => by
    rw [List.map_cons, List.map_cons, childrenInOrder_tops hb]; rfl

theorem childrenInOrder_filter (k : List Byte) : ∀ {b mid : List RawEmvNode}, ChildrenInOrder b mid →
    ChildrenInOrder (b.filter (fun n => decide (n.tag.tag = k))) (mid.filter (fun n => decide (n.tag.tag = k)))
  | _, _, .nil => .nil
  | _, _, .cons (c := c) (c' := c') t hc hb => by
    have e : ∀ x, (RawEmvNode.mk t x).tag.tag = t.tag := fun _ => rfl
    by_cases h : t.tag = k
    · rw [List.filter_cons_of_pos (by rw [e]; simp [h]), List.filter_cons_of_pos (by rw [e]; simp [h])]
      exact .cons t hc (childrenInOrder_filter k hb)
    · rw [List.filter_cons_of_neg (by rw [e]; simp [h]), List.filter_cons_of_neg (by rw [e]; simp [h])]
      exact childrenInOrder_filter k hb

theorem filter_tops (k : List Byte) (b : List RawEmvNode) :
    (b.map topOf).filter (fun p => decide (p.1 = k)) = (b.filter (fun n => decide (n.tag.tag = k))).map topOf := by
  rw [List.filter_map]; rfl

theorem inTagOrder_tops {b a : List RawEmvNode} (h : InTagOrder b a) (k : List Byte) :
    (b.map topOf).filter (fun p => decide (p.1 = k)) = (a.map topOf).filter (fun p => decide (p.1 = k)) := by
  obtain ⟨hc, -, -, hs⟩ := h
  rw [← childrenInOrder_tops hc, filter_tops, filter_tops, hs]

theorem inTagOrder_same {b b' a a' : List RawEmvNode} (h : InTagOrder b a) (h' : InTagOrder b' a')
    (hf : ∀ k, b.filter (fun n => decide (n.tag.tag = k)) = b'.filter (fun n => decide (n.tag.tag = k))) : a = a' := by
  obtain ⟨hc, -, ha, hs⟩ := h
  obtain ⟨hc', -, ha', hs'⟩ := h'
  refine ascending_nodes_unique _ _ ha ha' fun k => ?_
  rw [hs, hs']
  have h1 := childrenInOrder_filter k hc
  rw [hf k] at h1
  exact childrenInOrder_unique h1 (childrenInOrder_filter k hc')

theorem same_arranged {m : Machine} {masks : List Char} {sort : Bool} {l l' : List (List Byte × EmvData)}
    {a a' : List RawEmvNode} (h : Arranged sort (l.map (nodeFor m masks)) a)
    (h' : Arranged sort (l'.map (nodeFor m masks)) a') (hs : SameObjects sort l l') : a = a' := by
  cases sort with
  | false =>
    have e : l = l' := hs
    subst e
    exact (show a = _ from h).trans (show a' = _ from h').symm
  | true =>
    refine inTagOrder_same h h' fun k => ?_
    rw [List.filter_map, List.filter_map]
    exact congrArg _ ((show ∀ tag, _ from hs) k)

theorem arranged_same {m : Machine} {masks : List Char} {sort : Bool} {l l' : List (List Byte × EmvData)}
    {a : List RawEmvNode} (h : Arranged sort (l.map (nodeFor m masks)) a)
    (h' : Arranged sort (l'.map (nodeFor m masks)) a) : SameObjects sort l l' := by
  cases sort with
  | false =>
    show l = l'
    rw [← tops_map m masks l, ← tops_map m masks l', show l.map _ = a from (show a = _ from h).symm,
      show l'.map _ = a from (show a = _ from h').symm]
  | true =>
    show ∀ k, _
    intro k
    rw [← tops_map m masks l, ← tops_map m masks l', inTagOrder_tops h, inTagOrder_tops h']

theorem announced {f : String} {r r' : Run} {c : Cells} (h : Announces f r r') (hs : Succeeds r' c) :
    ∃ x, Succeeds r x ∧ c = showLines 0 (formatLines f) ++ x := by
  have he : r.stderr = none := h.stderr.symm.trans hs.stderr
  obtain ⟨d, hd, hr⟩ := h.shown he
  have hp : r.disp.panicked = false := h.panicked.symm.trans hs.shows.returns
  have e : r'.disp.evs = d.evs ++ r.disp.evs := by rw [hr, Disp.seq, hd.returns]; rfl
  have hc := hs.shows.cells
  have hl := hs.shows.restored
  rw [e, paint_append, hd.restored, hd.cells] at hc
  rw [e, lastStyle_append, hd.restored] at hl
  exact ⟨_, ⟨⟨hp, rfl, hl⟩, he, h.help.symm.trans hs.help, h.diverged.symm.trans hs.terminates⟩, hc.symm⟩

theorem detects_announces {m : Machine} {masks : List Char} {s : Text} {f : String} {ops : CliOps} (sort : Bool)
    (hs : s ≠ []) (hm : Fits m s.length) (h : Detects masks s f ops) :
    Announces f (run m ops masks sort) (run m { autoTlv := some s } masks sort) := by
  obtain ⟨h1, h2, -⟩ := c73_auto_decides (m := m) masks sort s hs hm
  cases h with
  | ingenico h => obtain ⟨rs, ha, hr⟩ := h; exact h1 ⟨ha, rs, hr⟩
  | ber h hb => exact h2 (fun ⟨ha, rs, hr⟩ => h ⟨rs, ha, hr⟩) hb

theorem formats_inj {masks : List Char} {s s' : Text} {f f' : String} {ops ops' : CliOps} (h : Detects masks s f ops)
    (h' : Detects masks s' f' ops') {x x' : Text}
    (e : (showLines 0 (formatLines f)).map (·.1) ++ x = (showLines 0 (formatLines f')).map (·.1) ++ x') : f = f' := by
  have i : ((showLines 0 (formatLines "Ingenico")).map (·.1))[12]? = some 'I' := by decide
  have b : ((showLines 0 (formatLines "BER-TLV")).map (·.1))[12]? = some 'B' := by decide
  have key : ∀ {a : Text} {ch : Char} (y : Text), a[12]? = some ch → (a ++ y)[12]? = some ch := by
    intro a ch y ha
    rw [List.getElem?_append_left (List.getElem?_eq_some_iff.1 ha).1, ha]
  cases h <;> cases h'
  · rfl
  · have := congrArg (·[12]?) e
    simp only [key x i, key x' b] at this
    cases this
  · have := congrArg (·[12]?) e
    simp only [key x b, key x' i] at this
    cases this
  · rfl

end Pemv
