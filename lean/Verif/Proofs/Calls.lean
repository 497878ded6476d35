import Verif.Proofs.Narrow
import Verif.Proofs.Stored
import Verif.Spec.Calls
import Verif.Model.Calls
import Verif.Proofs.BerTree
import Verif.Proofs.Ingenico

/-! # How deep the calls of the parsers go -/

namespace Pemv

open Spec

/-- One step, whatever the parser for nested values does. -/
theorem berStep_any {m : Machine} (masks : List Char) (parse : List Byte → Out RawEmvBlock)
    (pre r : List Byte) (hr : r ≠ []) (hm : Fits m (pre.length + r.length)) :
    berStep m masks parse (pre ++ r) pre.length =
      match readElem r with
      | .error e => .err e
      | .ok (e, _) => getChildBlock parse (typeOf e.tag) (dataOf e.value masks) >>= fun c =>
        .ok (.mk ⟨e.tag, classOf e.tag, typeOf e.tag, dataOf e.value masks⟩ c, pre.length + e.bytes.length) := by
  have hM : pre.length + r.length + 2 ^ 34 ≤ 2 ^ m.usizeBits := hm
  generalize hP : 2 ^ m.usizeBits = P at hM
  cases r with
  | nil => exact absurd rfl hr
  | cons b r =>
    rw [berStep, index_append]
    simp only [Out.ok_bind]
    simp only [List.length_cons] at hM
    rw [berTagLoop_start pre r b (by omega), readElem]
    cases ht : readTag (b :: r) with
    | none =>
      rw [parseTagMetadata_eq b r]; simp
    | some p =>
      obtain ⟨tag, r1⟩ := p
      obtain ⟨hsplit, htne⟩ := readTag_spec ht
      have hhead : ∃ t, tag = b :: t := by
        cases tag with
        | nil => exact absurd rfl htne
        | cons x t => simp at hsplit; exact ⟨t, by rw [hsplit.1]⟩
      obtain ⟨t, rfl⟩ := hhead
      have hlenr : (b :: r).length = (b :: t).length + r1.length := by rw [hsplit]; simp; omega
      simp only [List.length_cons] at hlenr
      rw [parseTagMetadata_eq b t, hsplit]
      simp only [Out.ok_bind, List.length_cons]
      rw [show pre.length + (t.length + 1) - 1 = pre.length + t.length by omega,
        add_ok (by omega)]
      simp only [Out.ok_bind]
      cases r1 with
      | nil =>
        rw [if_pos (by simp; omega)]
        simp [readLen]
      | cons l r2 =>
        simp only [List.length_cons] at hlenr
        rw [if_neg (by simp; omega)]
        have hbl := berLength_eq (m := m) (pre ++ b :: t) (l :: r2) (by simp)
          (by rw [hP]; simp; omega)
        rw [List.append_assoc, show (pre ++ b :: t).length = pre.length + t.length + 1 by simp; omega] at hbl
        rw [hbl]
        cases hrl : readLen (l :: r2) with
        | error e => simp
        | ok q =>
          obtain ⟨len, n, r3⟩ := q
          obtain ⟨hs2, hlen, -⟩ := readLen_spec hrl
          have hn := isLength_lt hlen
          have hlpos : 0 < len.length := by cases hlen <;> simp
          have hlenr2 : (l :: r2).length = len.length + r3.length := by rw [hs2]; simp
          simp only [List.length_cons] at hlenr2
          simp only [Out.ok_bind]
          rw [add_ok (by omega)]
          simp only [Out.ok_bind]
          rw [add_ok (by simp; omega)]
          simp only [Out.ok_bind]
          by_cases hlt : r3.length < n
          · rw [if_pos hlt, if_pos (by simp; omega)]
          · rw [if_neg hlt, if_neg (by simp; omega), hs2]
            have hsl : slice (pre ++ (b :: t ++ (len ++ r3))) (pre.length + t.length + 1 + len.length)
                (pre.length + t.length + 1 + len.length + n) = .ok (r3.take n) := by
              have := slice_append (pre ++ b :: t ++ len) (r3.take n) (r3.drop n)
                (pre.length + t.length + 1 + len.length)
                (pre.length + t.length + 1 + len.length + n) (by simp; omega) (by simp; omega)
              simpa using this
            rw [hsl]
            simp only [Out.ok_bind]
            have hsl2 : slice (pre ++ (b :: t ++ (len ++ r3))) pre.length
                (pre.length + t.length + 1) = .ok (b :: t) := by
              have := slice_append pre (b :: t) (len ++ r3) pre.length (pre.length + t.length + 1)
                rfl (by simp; omega)
              simpa using this
            have hb : pre.length + t.length + 1 + len.length + n =
                pre.length + (Elem.mk (b :: t) len (r3.take n)).bytes.length := by
              simp [Elem.bytes]
              omega
            rw [fromU8_eq]
            congr 1
            funext c
            rw [hsl2]
            simp only [Out.ok_bind]
            rw [hb]



theorem failed_bind {α β : Type} (e : ParseError) (f : α → Out β) : (Out.err e : Out α) >>= f = .err e := rfl

theorem aborted_bind {α β : Type} (f : α → Out β) : (Out.diverge : Out α) >>= f = .diverge := rfl

/-! ### Parsers for nested values that run out of stack for some of them -/

/-- Among values that, with a tag and a length, take `n` bytes at most: `parse` runs out of stack for those in `D`, and
for the others it is `parse'`. -/
def Runs (n : Nat) (D : List Byte → Prop) (parse parse' : List Byte → Out RawEmvBlock) : Prop :=
  ∀ v : List Byte, v.length + 2 ≤ n → (D v → parse v = .diverge) ∧ (¬ D v → parse v = parse' v)

theorem child_diverge {n : Nat} {D : List Byte → Prop} {parse parse' : List Byte → Out RawEmvBlock}
    (h : Runs n D parse parse') {v : List Byte} (hn : v.length + 2 ≤ n) (hv : D v) : getChildBlock parse .constructed (.normal v) = .diverge := by
  rw [getChildBlock]; simp only [(h v hn).1 hv]; rfl

theorem child_same {n : Nat} {D : List Byte → Prop} {parse parse' : List Byte → Out RawEmvBlock}
    (h : Runs n D parse parse') (t : DataObjectType) (d : EmvData)
    (hn : ∀ v, d = .normal v → v.length + 2 ≤ n) (hv : ¬ ∃ v, t = .constructed ∧ d = .normal v ∧ D v) :
    getChildBlock parse t d = getChildBlock parse' t d := by
  cases t with
  | primitive => rfl
  | constructed =>
    cases d with
    | masked => rfl
    | normal v =>
      rw [getChildBlock, getChildBlock]
      simp only [(h v (hn v rfl)).2 (fun hd => hv ⟨v, rfl, rfl, hd⟩)]

/-- Among the objects that the loop comes to there is one whose value is in `D`. -/
def Comes (masks : List Char) (D : List Byte → Prop) (r : List Byte) : Prop :=
  ∃ (es : List Elem) (e : Elem) (rest : List Byte), r = concat es ++ (e.bytes ++ rest) ∧ (∀ x ∈ es, x.WF) ∧ e.WF ∧ (rest = [] → ¬ e.LongZero) ∧
    typeOf e.tag = .constructed ∧ ¬ IsMasked (latin1 e.value) masks ∧ D e.value

theorem comes_error {masks : List Char} {D : List Byte → Prop} {r : List Byte} {x : ParseError} (h : readElem r = .error x) :
    ¬ Comes masks D r := by
  rintro ⟨es, e, rest, rfl, hes, he, hz, -⟩
  cases es with
  | nil =>
    rw [show concat [] ++ (e.bytes ++ rest) = e.bytes ++ rest from rfl, (readElem_iff _ _ _).2 ⟨rfl, he, hz⟩] at h
    cases h
  | cons y es =>
    rw [concat_cons, List.append_assoc, (readElem_iff _ _ _).2 ⟨rfl, hes y (by simp), fun hn => absurd
      (List.append_eq_nil_iff.1 (List.append_eq_nil_iff.1 hn).2).1 (bytes_ne_nil he)⟩] at h
    cases h

theorem comes_ok {masks : List Char} {D : List Byte → Prop} {r : List Byte} {e : Elem} {rest : List Byte}
    (h : readElem r = .ok (e, rest)) : Comes masks D r ↔
      (typeOf e.tag = .constructed ∧ ¬ IsMasked (latin1 e.value) masks ∧ D e.value) ∨ Comes masks D rest := by
  obtain ⟨h1, h2, h3⟩ := (readElem_iff _ _ _).1 h
  constructor
  · rintro ⟨es, e', rest', h4, hes, he, hz, ht, hm, hd⟩
    cases es with
    | nil =>
      rw [show concat [] ++ (e'.bytes ++ rest') = e'.bytes ++ rest' from rfl] at h4
      rw [h4, (readElem_iff _ _ _).2 ⟨rfl, he, hz⟩] at h
      cases h
      exact Or.inl ⟨ht, hm, hd⟩
    | cons y es =>
      rw [concat_cons, List.append_assoc] at h4
      rw [h4, (readElem_iff _ _ _).2 ⟨rfl, hes y (by simp), fun hn => absurd
        (List.append_eq_nil_iff.1 (List.append_eq_nil_iff.1 hn).2).1 (bytes_ne_nil he)⟩] at h
      cases h
      exact Or.inr ⟨es, e', rest', rfl, fun x hx => hes x (by simp [hx]), he, hz, ht, hm, hd⟩
  · rintro (⟨ht, hm, hd⟩ | ⟨es, e', rest', h4, hes, hrest⟩)
    · exact ⟨[], e, rest, h1, by simp, h2, h3, ht, hm, hd⟩
    · refine ⟨e :: es, e', rest', by rw [h1, h4, concat_cons, List.append_assoc], fun x hx => ?_, hrest⟩
      rcases List.mem_cons.1 hx with rfl | hx
      · exact h2
      · exact hes x hx

theorem comes_nil {masks : List Char} {D : List Byte → Prop} : ¬ Comes masks D [] := by
  rintro ⟨es, e, rest, h, -, he, -⟩
  exact bytes_ne_nil he (List.append_eq_nil_iff.1 (List.append_eq_nil_iff.1 h.symm).2).1

theorem berLoop_runs {m : Machine} {n : Nat} (masks : List Char) {D : List Byte → Prop} {parse parse' : List Byte → Out RawEmvBlock}
    (hD : Runs n D parse parse') (fuel : Nat) (pre r : List Byte) (nodes : RawEmvBlock) (hn : r.length ≤ n) (hf : r.length ≤ fuel)
    (hm : Fits m (pre.length + r.length))
    (hp : ∀ v : List Byte, v.length + 2 ≤ r.length → (parse' v).isReturned = true) :
    (Comes masks D r → berLoop m masks parse (pre ++ r) fuel pre.length nodes = .diverge) ∧
    (¬ Comes masks D r → berLoop m masks parse (pre ++ r) fuel pre.length nodes =
      berLoop m masks parse' (pre ++ r) fuel pre.length nodes) := by
  induction fuel generalizing pre r nodes with
  | zero =>
    have : r = [] := List.length_eq_zero_iff.1 (by omega)
    subst this
    refine ⟨fun h => absurd h comes_nil, fun _ => ?_⟩
    rw [berLoop, berLoop]
  | succ fuel ih =>
    by_cases hr : r = []
    · subst hr
      refine ⟨fun h => absurd h comes_nil, fun _ => ?_⟩
      rw [berLoop, berLoop]
      simp
    · have hpos : 0 < r.length := List.length_pos_iff.2 hr
      rw [berLoop, berLoop, if_pos (by simp; omega), if_pos (by simp; omega)]
      simp only
      rw [berStep_any masks parse pre r hr hm, berStep_any masks parse' pre r hr hm]
      cases hel : readElem r with
      | error e => exact ⟨fun h => absurd h (comes_error hel), fun _ => by simp only [failed_bind]⟩
      | ok p =>
        obtain ⟨e, rest⟩ := p
        obtain ⟨h1, h2, h3⟩ := (readElem_iff _ _ _).1 hel
        have hlen := elem_length h2
        have hrl : r.length = e.bytes.length + rest.length := by rw [h1]; simp
        rw [comes_ok hel]
        simp only
        by_cases hc : typeOf e.tag = .constructed ∧ ¬ IsMasked (latin1 e.value) masks ∧ D e.value
        · refine ⟨fun _ => ?_, fun h => absurd (Or.inl hc) h⟩
          rw [show dataOf e.value masks = .normal e.value by rw [dataOf, if_neg hc.2.1], hc.1, child_diverge hD (by omega) hc.2.2]
          simp only [aborted_bind]
        · rw [child_same hD _ _ (by
            intro v hd
            rw [dataOf] at hd
            split at hd
            · cases hd
            · cases hd; omega) (by
            rintro ⟨v, ht, hd, hv⟩
            rw [dataOf] at hd
            split at hd
            · cases hd
            · rename_i hm; cases hd; exact hc ⟨ht, hm, hv⟩)]
          rw [getChildBlock_eq parse' masks e (hp _ (by omega))]
          simp only [Out.ok_bind, hc, false_or]
          have := ih (pre ++ e.bytes) rest (nodes ++ [.mk ⟨e.tag, classOf e.tag, typeOf e.tag, dataOf e.value masks⟩
              (nodeOf parse' masks e).childBlock]) (by omega) (by omega)
            (by rw [List.length_append, Nat.add_assoc, ← hrl]; exact hm) (fun v hv => hp v (by omega))
          rw [List.append_assoc, ← h1, List.length_append] at this
          exact this

theorem looksInto_zero (masks : List Char) (bytes : List Byte) : LooksInto masks bytes 0 := .top bytes

theorem looksInto_succ {masks : List Char} {bytes : List Byte} {k : Nat} :
    LooksInto masks bytes (k + 1) ↔ Comes masks (fun v => LooksInto masks v k) bytes := by
  constructor
  · rintro (_ | ⟨es, e, rest, _, h1, h2, h3, h4, h5, h6⟩)
    exact ⟨es, e, rest, rfl, h1, h2, h3, h4, h5, h6⟩
  · rintro ⟨es, e, rest, rfl, h1, h2, h3, h4, h5, h6⟩
    exact .inside es e rest k h1 h2 h3 h4 h5 h6

theorem berParseOn_eq (k : Nat) (m : Machine) (bytes : List Byte) (masks : List Char) :
    berParseOn k m bytes masks = berParseF m masks k bytes := by
  induction k generalizing bytes with
  | zero => rfl
  | succ k ih =>
    rw [berParseOn, berParseF]
    congr 1
    funext v
    exact ih v

theorem berParse_loop {m : Machine} (masks : List Char) (bytes : List Byte) (hm : Fits m bytes.length) :
    berParse m bytes masks = berLoop m masks (fun v => berParse m v masks) bytes (bytes.length + 1) 0 [] := by
  have := berLoop_eq masks (fun v => berParse m v masks) (bytes.length + 1) [] bytes []
    (by omega) (by simpa using hm) (fun v hv => berParse_returned masks v (fits_mono hm (by omega)))
  simp only [List.nil_append, List.length_nil] at this
  rw [berParse_eq masks bytes hm, this]

theorem berParseOn_runs {m : Machine} (masks : List Char) (k : Nat) : ∀ bytes : List Byte, Fits m bytes.length →
    (LooksInto masks bytes k → berParseOn k m bytes masks = .diverge) ∧
    (¬ LooksInto masks bytes k → berParseOn k m bytes masks = berParse m bytes masks) := by
  induction k with
  | zero => exact fun bytes _ => ⟨fun _ => rfl, fun h => absurd (.top bytes) h⟩
  | succ k ih =>
    intro bytes hm
    rw [looksInto_succ, berParseOn, berParse_loop masks bytes hm]
    have := berLoop_runs (m := m) (n := bytes.length) masks (D := fun v => LooksInto masks v k)
      (parse := fun v => berParseOn k m v masks) (parse' := fun v => berParse m v masks)
      (fun v hv => ih v (fits_mono hm (by omega))) (bytes.length + 1) [] bytes [] (Nat.le_refl _) (by omega)
      (by simpa using hm) (fun v hv => berParse_returned masks v (fits_mono hm (by omega)))
    simpa using this

/-! ### Records -/

/-- A node with the children that `parse` gives it. -/
def patch (parse : List Byte → Out RawEmvBlock) : Option RawEmvNode × Nat → Out (Option RawEmvNode × Nat)
  | (none, i) => .ok (none, i)
  | (some (.mk t _), i) => getChildBlock parse t.dataObjectType t.data >>= fun c => .ok (some (.mk t c), i)

theorem ite_bind {α β : Type} (c : Prop) [Decidable c] (a b : Out α) (f : α → Out β) :
    (if c then a else b) >>= f = if c then a >>= f else b >>= f := by
  split <;> rfl

theorem getChildBlock_nil (t : DataObjectType) (d : EmvData) : getChildBlock (fun _ => .ok []) t d = .ok [] := by
  cases t <;> cases d <;> rfl

theorem ingStep_patch (m : Machine) (masks : List Char) (parse : List Byte → Out RawEmvBlock) (data : Text) (i : Nat) :
    ingStep m masks parse data i = ingStep m masks (fun _ => .ok []) data i >>= patch parse := by
  simp only [ingStep, bind_bind, ite_bind, getChildBlock_nil, Out.ok_bind, patch]
  rfl

theorem ingStep_any {m : Machine} (masks : List Char) (parse : List Byte → Out RawEmvBlock)
    (pre s : Text) (hne : s ≠ []) (hm : Fits m (pre.length + s.length)) (hs : ∀ c ∈ s, c.toNat < 128) :
    ingStep m masks parse (pre ++ s) pre.length =
      match readRecord masks s with
      | .error e => .err e
      | .ok (r, _) =>
        if r.typ = 'T' then getChildBlock parse (typeOf r.tag) (r.data masks) >>= fun c =>
          .ok (some (.mk ⟨r.tag, classOf r.tag, typeOf r.tag, r.data masks⟩ c), pre.length + r.text.length + 1)
        else .ok (none, pre.length + r.text.length + 1) := by
  rw [ingStep_patch, ingStep_eq masks _ pre s hne hm hs (fun _ _ => rfl)]
  cases readRecord masks s with
  | error e => rfl
  | ok p =>
    obtain ⟨r, rest⟩ := p
    simp only [Out.ok_bind]
    split <;> rfl

theorem called_value_length (masks : List Char) (r : Record) (v : List Byte) (h : r.data masks = .normal v) :
    v.length + 2 ≤ r.text.length := by
  have ht := text_length r
  rw [Record.data] at h
  split at h
  · cases h
  · split at h
    · cases h
      have : (hexBytes r.value).length ≤ r.value.length := by
        rw [hexBytes, List.length_map, hexDecode, pairUp_length]
        have := List.length_filterMap_le hexDigit? r.value
        omega
      omega
    · cases h
      simp only [List.length_map]
      omega

/-- Among the records that the loop comes to there is one of EMV data whose value is in `D`. -/
def RComes (masks : List Char) (D : List Byte → Prop) (s : Text) : Prop :=
  ∃ (l : List (Record × Char)) (r : Record) (rest : Text), s = render l ++ (r.text ++ rest) ∧ (∀ p ∈ l, p.1.WF masks) ∧
    r.WF masks ∧ r.typ = 'T' ∧ typeOf r.tag = .constructed ∧ ∃ v, r.data masks = .normal v ∧ D v

theorem rcomes_nil {masks : List Char} {D : List Byte → Prop} : ¬ RComes masks D [] := by
  rintro ⟨l, r, rest, h, -⟩
  exact text_ne_nil r (List.append_eq_nil_iff.1 (List.append_eq_nil_iff.1 h.symm).2).1

theorem renderRecords_cons (p : Record × Char) (l : List (Record × Char)) :
    render (p :: l) = p.1.text ++ p.2 :: render l := by
  simp [render]

theorem rcomes_error {masks : List Char} {D : List Byte → Prop} {s : Text} {x : ParseError}
    (hs : ∀ c ∈ s, c.toNat < 128) (h : readRecord masks s = .error x) : ¬ RComes masks D s := by
  rintro ⟨l, r, rest, e, hl, hr, -⟩
  cases l with
  | nil =>
    rw [(readRecord_iff hs r rest).2 ⟨e, hr⟩] at h
    cases h
  | cons y l =>
    rw [renderRecords_cons, List.append_assoc] at e
    rw [(readRecord_iff hs y.1 _).2 ⟨e, hl y (by simp)⟩] at h
    cases h

theorem rcomes_ok {masks : List Char} {D : List Byte → Prop} {s : Text} {r : Record} {rest : Text}
    (hs : ∀ c ∈ s, c.toNat < 128) (h : readRecord masks s = .ok (r, rest)) : RComes masks D s ↔
      (r.typ = 'T' ∧ typeOf r.tag = .constructed ∧ ∃ v, r.data masks = .normal v ∧ D v) ∨ RComes masks D rest.tail := by
  obtain ⟨h1, h2⟩ := (readRecord_iff hs r rest).1 h
  constructor
  · rintro ⟨l, r', rest', e, hl, hr, hd⟩
    cases l with
    | nil =>
      rw [(readRecord_iff hs r' rest').2 ⟨e, hr⟩] at h
      cases h
      exact Or.inl hd
    | cons y l =>
      rw [renderRecords_cons, List.append_assoc] at e
      rw [(readRecord_iff hs y.1 _).2 ⟨e, hl y (by simp)⟩] at h
      cases h
      exact Or.inr ⟨l, r', rest', rfl, fun x hx => hl x (by simp [hx]), hr, hd⟩
  · rintro (hd | hd)
    · exact ⟨[], r, rest, h1, by simp, h2, hd⟩
    · cases rest with
      | nil => exact absurd hd rcomes_nil
      | cons sep rest =>
        obtain ⟨l, r', rest', e, hl, hr⟩ := hd
        rw [List.tail_cons] at e
        refine ⟨(r, sep) :: l, r', rest', by rw [h1, e, renderRecords_cons]; simp, fun x hx => ?_, hr⟩
        rcases List.mem_cons.1 hx with rfl | hx
        · exact h2
        · exact hl x hx

theorem ingLoop_runs {m : Machine} {n : Nat} (masks : List Char) {D : List Byte → Prop}
    {parse parse' : List Byte → Out RawEmvBlock} (hD : Runs n D parse parse') (fuel : Nat) (pre s : Text)
    (nodes : RawEmvBlock) (hn : s.length ≤ n) (hf : s.length ≤ fuel)
    (hm : Fits m (pre.length + s.length)) (hs : ∀ c ∈ s, c.toNat < 128)
    (hp : ∀ v : List Byte, v.length < s.length → (parse' v).isReturned = true) :
    (RComes masks D s → ingLoop m masks parse (pre ++ s) fuel pre.length nodes = .diverge) ∧
    (¬ RComes masks D s → ingLoop m masks parse (pre ++ s) fuel pre.length nodes =
      ingLoop m masks parse' (pre ++ s) fuel pre.length nodes) := by
  induction fuel generalizing pre s nodes with
  | zero =>
    have : s = [] := List.length_eq_zero_iff.1 (by omega)
    subst this
    refine ⟨fun h => absurd h rcomes_nil, fun _ => ?_⟩
    rw [ingLoop, ingLoop]
  | succ fuel ih =>
    by_cases hne : s = []
    · subst hne
      refine ⟨fun h => absurd h rcomes_nil, fun _ => ?_⟩
      rw [ingLoop, ingLoop]
      simp
    · have hpos : 0 < s.length := List.length_pos_iff.2 hne
      rw [ingLoop, ingLoop, if_pos (by simp; omega), if_pos (by simp; omega)]
      simp only
      rw [ingStep_any masks parse pre s hne hm hs, ingStep_any masks parse' pre s hne hm hs]
      cases hr : readRecord masks s with
      | error e => exact ⟨fun h => absurd h (rcomes_error hs hr), fun _ => by simp only [failed_bind]⟩
      | ok p =>
        obtain ⟨r, rest⟩ := p
        have h1 := (readRecord_split hr).1
        have hlen : s.length = r.text.length + rest.length := by rw [h1]; simp
        have htl := text_length r
        rw [rcomes_ok hs hr]
        simp only
        have next : ∀ nodes', (RComes masks D rest.tail → ingLoop m masks parse (pre ++ s) fuel
              (pre.length + r.text.length + 1) nodes' = .diverge) ∧
            (¬ RComes masks D rest.tail → ingLoop m masks parse (pre ++ s) fuel (pre.length + r.text.length + 1) nodes' =
              ingLoop m masks parse' (pre ++ s) fuel (pre.length + r.text.length + 1) nodes') := by
          intro nodes'
          cases rest with
          | nil =>
            have : ¬ pre.length + r.text.length + 1 < (pre ++ s).length := by
              simp [hlen]
            refine ⟨fun h => absurd h rcomes_nil, fun _ => ?_⟩
            cases fuel <;> (rw [ingLoop, if_neg this, ingLoop, if_neg this])
          | cons sep rest =>
            simp only [List.length_cons] at hlen
            have := ih (pre ++ r.text ++ [sep]) rest nodes' (by omega) (by omega)
              (by
                have : (pre ++ r.text ++ [sep]).length + rest.length = pre.length + s.length := by
                  simp; omega
                rw [this]; exact hm)
              (fun c hc => hs c (by rw [h1]; simp [hc])) (fun v hv => hp v (by omega))
            rw [show pre ++ r.text ++ [sep] ++ rest = pre ++ s by rw [h1]; simp,
              show (pre ++ r.text ++ [sep]).length = pre.length + r.text.length + 1 by simp; omega] at this
            exact this
        by_cases hT : r.typ = 'T'
        · rw [if_pos hT, if_pos hT]
          by_cases hc : typeOf r.tag = .constructed ∧ ∃ v, r.data masks = .normal v ∧ D v
          · refine ⟨fun _ => ?_, fun h => absurd (Or.inl ⟨hT, hc⟩) h⟩
            obtain ⟨ht, v, hd, hv⟩ := hc
            rw [hd, ht, child_diverge hD (by have := called_value_length masks r v hd; omega) hv]
            simp only [aborted_bind]
          · rw [child_same hD _ _ (fun v hv => by have := called_value_length masks r v hv; omega)
              (fun ⟨v, ht, hd, hv⟩ => hc ⟨ht, v, hd, hv⟩)]
            rw [getChildBlock_of_returned _ _ _ (fun v hv => hp v (by have := called_value_length masks r v hv; omega))]
            simp only [Out.ok_bind, hT, true_and, hc, false_or]
            exact next _
        · rw [if_neg hT, if_neg hT]
          simp only [Out.ok_bind, hT, false_and, false_or]
          exact next _

theorem ingParseOn_runs {m : Machine} (masks : List Char) (k : Nat) (s : Text) (hm : Fits m s.length)
    (hs : ∀ c ∈ s, c.toNat < 128) :
    (RecordsLookInto masks s k → ingParseOn k m s masks = .diverge) ∧
    (¬ RecordsLookInto masks s k → ingParseOn k m s masks = ingParse m s masks) := by
  have ha : isAscii s = true := (isAscii_iff s).2 hs
  rw [ingParseOn, ingParse, ha, show RecordsLookInto masks s k = RComes masks (fun v => LooksInto masks v k) s from rfl]
  have := ingLoop_runs (m := m) (n := s.length) masks (D := fun v => LooksInto masks v k)
    (parse := fun v => berParseOn k m v masks) (parse' := fun v => berParse m v masks)
    (fun v hv => berParseOn_runs masks k v (fits_mono hm (by omega))) (s.length + 1) [] s [] (Nat.le_refl _) (by omega)
    (by simpa using hm) hs (fun v hv => berParse_returned masks v (fits_mono hm (by omega)))
  simpa using this

/-! ### How deep -/

theorem looksInto_length {masks : List Char} {bytes : List Byte} {k : Nat} (h : LooksInto masks bytes k) :
    2 * k ≤ bytes.length := by
  induction h with
  | top => omega
  | inside es e rest k hes he hz ht hm h ih =>
    have := elem_length he
    simp only [List.length_append]
    omega

theorem looksInto_mono {masks : List Char} {bytes : List Byte} {k : Nat} (h : LooksInto masks bytes k) :
    ∀ j, j ≤ k → LooksInto masks bytes j := by
  induction h with
  | top b => intro j hj; rw [Nat.le_zero.1 hj]; exact .top b
  | inside es e rest k hes he hz ht hm h ih =>
    intro j hj
    cases j with
    | zero => exact .top _
    | succ j => exact .inside es e rest j hes he hz ht hm (ih j (by omega))

theorem nest_looksInto (d : Nat) (h : 6 * d + 2 < 2 ^ 32) (masks : List Char) :
    LooksInto masks (nest d).encode d := by
  induction d with
  | zero => exact .top _
  | succ d ih =>
    obtain ⟨hwf, hle, -⟩ := nest_encode d (by omega) masks
    obtain ⟨hwf', -, -⟩ := nest_encode (d + 1) h masks
    have h4 : encodeAll [nest d] = (nest d).encode := by simp [encodeAll]
    have hlspec := encodeLength_spec (n := (nest d).encode.length) (by omega)
    have hew : (⟨[0x70], encodeLength (nest d).encode.length, (nest d).encode⟩ : Elem).WF := ⟨.low 0x70 (by decide), hlspec⟩
    have hnm := hwf'.2.2.2.1
    rw [h4] at hnm
    have := LooksInto.inside (masks := masks) [] ⟨[0x70], encodeLength (nest d).encode.length, (nest d).encode⟩ [] d
      (by simp) hew (fun _ hz => by
        have h0 : (nest d).encode = [] := hz.1
        have h1 := nest_long d
        rw [h0] at h1
        simp at h1) (show typeOf [0x70] = .constructed by decide) hnm (ih (by omega))
    have e : (nest (d + 1)).encode = concat [] ++
        ((⟨[0x70], encodeLength (nest d).encode.length, (nest d).encode⟩ : Elem).bytes ++ []) := by
      simp [nest, Obj.encode, h4, Elem.bytes, concat]
    rw [e]
    exact this

/-- A template with so deep an object in it and then half an object: the contents are looked into, and then dropped. -/
def hiddenElem (d : Nat) : Elem :=
  ⟨[0x70], encodeLength ((nest d).encode ++ [0x5A]).length, (nest d).encode ++ [0x5A]⟩

theorem hidden_unmasked (d : Nat) (h : 6 * d + 2 < 2 ^ 32) (masks : List Char) :
    ¬ IsMasked (latin1 (hiddenElem d).value) masks := by
  obtain ⟨-, -, p, h3⟩ := nest_encode d h masks
  rintro ⟨-, c, -, hc⟩
  have hv : (hiddenElem d).value = p ++ [0x5A, 0x00] ++ [0x5A] := by rw [← h3]; rfl
  have k1 := hc (Char.ofNat (0x5A : Byte).toNat)
    (List.mem_map_of_mem (f := fun b : Byte => Char.ofNat b.toNat) (a := 0x5A) (by rw [hv]; simp))
  have k2 := hc (Char.ofNat (0x00 : Byte).toNat)
    (List.mem_map_of_mem (f := fun b : Byte => Char.ofNat b.toNat) (a := 0x00) (by rw [hv]; simp))
  rw [← k2] at k1
  revert k1
  decide

theorem looksInto_append {masks : List Char} {bytes : List Byte} {k : Nat} (more : List Byte)
    (h : LooksInto masks bytes k) : LooksInto masks (bytes ++ more) k := by
  cases h with
  | top => exact .top _
  | inside es e rest k hes he hz ht hm h =>
    rw [List.append_assoc, List.append_assoc]
    exact .inside es e (rest ++ more) k hes he (fun h0 => hz (List.append_eq_nil_iff.1 h0).1) ht hm h

end Pemv
