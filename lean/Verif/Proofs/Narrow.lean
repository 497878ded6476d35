import Verif.Proofs.BerParse
import Verif.Proofs.Ingenico
import Verif.Proofs.Builds
import Verif.Proofs.Whole
import Verif.Spec.Narrow

/-!
# Lemmas for C102: targets with 32 bits
-/

namespace Pemv

open Spec

/-- An addition that does not fit panics or wraps. -/
theorem add_far {m : Machine} (h32 : m.usizeBits = 32) {a b : Nat} (ha : a < 2 ^ 32) (hb : b < 2 ^ 32)
    (h : 2 ^ 32 ≤ a + b) : m.add a b = .panic ∨ ∃ q, q < a ∧ m.add a b = .ok q := by
  rw [Machine.add, Machine.norm, h32, if_neg (by omega)]
  cases m.overflowChecks with
  | true => exact Or.inl (if_pos rfl)
  | false => exact Or.inr ⟨(a + b) % 2 ^ 32, by omega, if_neg (by simp)⟩

theorem slice_far {α : Type} (l : List α) {a b : Nat} (h : b < a) : slice l a b = .panic := by
  rw [slice, if_neg (by omega)]

theorem bind_panic {α β : Type} (f : α → Out β) : (Out.panic >>= f) = (Out.panic : Out β) := rfl

theorem berStep_32 {m : Machine} (h32 : m.usizeBits = 32) (masks : List Char) (parse : List Byte → Out RawEmvBlock)
    (pre r : List Byte) (hr : r ≠ []) (hm : pre.length + r.length < 2 ^ 31) :
    berStep m masks parse (pre ++ r) pre.length =
      match readTag r with
      | none => .err .nonCompliant
      | some (tag, r1) =>
        match readLen r1 with
        | .error e => .err e
        | .ok (len, n, r2) =>
          if 2 ^ 32 ≤ pre.length + (tag.length + len.length) + n then .panic
          else if r2.length < n then .err .nonCompliant
          else getChildBlock parse (typeOf tag) (dataOf (r2.take n) masks) >>= fun b =>
            .ok (.mk ⟨tag, classOf tag, typeOf tag, dataOf (r2.take n) masks⟩ b,
              pre.length + (Elem.mk tag len (r2.take n)).bytes.length) := by
  have hP : 2 ^ m.usizeBits = 4294967296 := by rw [h32]
  have hM : pre.length + r.length < 2147483648 := by omega
  cases r with
  | nil => exact absurd rfl hr
  | cons b r =>
    rw [berStep, index_append]
    simp only [Out.ok_bind]
    simp only [List.length_cons] at hM
    rw [berTagLoop_start pre r b (by omega)]
    cases ht : readTag (b :: r) with
    | none =>
      rw [parseTagMetadata_eq b r]; simp
    | some p =>
      obtain ⟨tag, r1⟩ := p
      obtain ⟨hsplit, htne⟩ := readTag_spec ht
      have hhead : ∃ t, tag = b :: t := by
        cases tag with
        | nil => exact absurd rfl htne
        | cons x t => simp at hsplit; exact ⟨t, by rw [hsplit.1]⟩
      obtain ⟨t, rfl⟩ := hhead
      have hlenr : (b :: r).length = (b :: t).length + r1.length := by rw [hsplit]; simp; omega
      simp only [List.length_cons] at hlenr
      rw [parseTagMetadata_eq b t, hsplit]
      simp only [Out.ok_bind, List.length_cons]
      rw [show pre.length + (t.length + 1) - 1 = pre.length + t.length by omega,
        add_ok (by omega)]
      simp only [Out.ok_bind]
      cases r1 with
      | nil =>
        rw [if_pos (by simp; omega)]
        simp [readLen]
      | cons l r2 =>
        simp only [List.length_cons] at hlenr
        rw [if_neg (by simp; omega)]
        have hbl := berLength_eq (m := m) (pre ++ b :: t) (l :: r2) (by simp)
          (by rw [hP]; simp; omega)
        rw [List.append_assoc, show (pre ++ b :: t).length = pre.length + t.length + 1 by simp; omega] at hbl
        rw [hbl]
        cases hrl : readLen (l :: r2) with
        | error e => simp
        | ok q =>
          obtain ⟨len, n, r3⟩ := q
          obtain ⟨hs2, hlen, -⟩ := readLen_spec hrl
          have hn : n < 4294967296 := by have := isLength_lt hlen; omega
          have hlpos : 0 < len.length := by cases hlen <;> simp
          have hlenr2 : (l :: r2).length = len.length + r3.length := by rw [hs2]; simp
          simp only [List.length_cons] at hlenr2
          simp only [Out.ok_bind]
          by_cases hfar : 2 ^ 32 ≤ pre.length + (t.length + 1 + len.length) + n
          · rw [if_pos hfar]
            have hfar' : 4294967296 ≤ pre.length + (t.length + 1 + len.length) + n := by omega
            rcases add_far h32 (a := pre.length + t.length + 1 + len.length) (b := n) (by omega) (by omega) (by omega)
              with hq | ⟨q, hq', hq⟩
            · rw [hq, bind_panic]
            · rw [hq]
              simp only [Out.ok_bind]
              rw [add_ok (by simp; omega)]
              simp only [Out.ok_bind]
              rw [if_neg (by simp; omega), slice_far _ (by omega), bind_panic]
          · rw [if_neg hfar]
            have hfar' : pre.length + (t.length + 1 + len.length) + n < 4294967296 := by omega
            rw [add_ok (by omega)]
            simp only [Out.ok_bind]
            rw [add_ok (by simp; omega)]
            simp only [Out.ok_bind]
            by_cases hlt : r3.length < n
            · rw [if_pos hlt, if_pos (by simp; omega)]
            · rw [if_neg hlt, if_neg (by simp; omega), hs2]
              have hsl : slice (pre ++ (b :: t ++ (len ++ r3))) (pre.length + t.length + 1 + len.length)
                  (pre.length + t.length + 1 + len.length + n) = .ok (r3.take n) := by
                have := slice_append (pre ++ b :: t ++ len) (r3.take n) (r3.drop n)
                  (pre.length + t.length + 1 + len.length)
                  (pre.length + t.length + 1 + len.length + n) (by simp; omega) (by simp; omega)
                simpa using this
              rw [hsl]
              simp only [Out.ok_bind]
              have hsl2 : slice (pre ++ (b :: t ++ (len ++ r3))) pre.length
                  (pre.length + t.length + 1) = .ok (b :: t) := by
                have := slice_append pre (b :: t) (len ++ r3) pre.length (pre.length + t.length + 1)
                  rfl (by simp; omega)
                simpa using this
              rw [fromU8_eq]
              congr 1
              funext blk
              rw [hsl2]
              simp only [Out.ok_bind]
              have hb : pre.length + t.length + 1 + len.length + n =
                  pre.length + (Elem.mk (b :: t) len (r3.take n)).bytes.length := by
                simp [Elem.bytes]
                omega
              rw [hb]

/-! ### Far ends, from a position -/

/-- `FarEnd` for the rest of the data from position `k` on. -/
def FarFrom (masks : List Char) (k : Nat) (r : List Byte) : Prop :=
  (∃ (es : List Elem) (tag len rest : List Byte) (n : Nat), r = concat es ++ (tag ++ (len ++ rest)) ∧
    (∀ e ∈ es, e.WF) ∧ IsTag tag ∧ IsLength len n ∧ rest ≠ [] ∧ 2 ^ 32 ≤ k + (concat es ++ (tag ++ len)).length + n) ∨
  ∃ (es : List Elem) (e : Elem) (rest : List Byte), r = concat es ++ (e.bytes ++ rest) ∧ (∀ e ∈ es, e.WF) ∧ e.WF ∧
    typeOf e.tag = .constructed ∧ ¬ IsMasked (latin1 e.value) masks ∧ FarEnd masks e.value

theorem farEnd_iff {masks : List Char} {bs : List Byte} : FarEnd masks bs ↔ FarFrom masks 0 bs := by
  constructor
  · intro h
    cases h with
    | here es tag len rest n h1 h2 h3 h4 h5 => exact Or.inl ⟨es, tag, len, rest, n, rfl, h1, h2, h3, h4, by omega⟩
    | inside es e rest h1 h2 h3 h4 h5 => exact Or.inr ⟨es, e, rest, rfl, h1, h2, h3, h4, h5⟩
  · rintro (⟨es, tag, len, rest, n, rfl, h1, h2, h3, h4, h5⟩ | ⟨es, e, rest, rfl, h1, h2, h3, h4, h5⟩)
    · exact .here es tag len rest n h1 h2 h3 h4 (by omega)
    · exact .inside es e rest h1 h2 h3 h4 h5

theorem farFrom_ne {masks : List Char} {k : Nat} {r : List Byte} (h : FarFrom masks k r) : r ≠ [] := by
  rintro rfl
  rcases h with ⟨es, tag, len, rest, n, h, -, h2, -⟩ | ⟨es, e, rest, h, -, h2, -⟩
  · have h1 := (List.append_eq_nil_iff.1 (List.append_eq_nil_iff.1 h.symm).2).1
    exact isTag_ne_nil h2 h1
  · exact bytes_ne_nil h2 (List.append_eq_nil_iff.1 (List.append_eq_nil_iff.1 h.symm).2).1

/-- The first object of data with a far end. -/
theorem farFrom_ok {masks : List Char} {k : Nat} {r : List Byte} {e : Elem} {rest : List Byte}
    (hel : readElem r = .ok (e, rest)) (hk : k + r.length < 2 ^ 32) :
    FarFrom masks k r ↔ (typeOf e.tag = .constructed ∧ ¬ IsMasked (latin1 e.value) masks ∧ FarEnd masks e.value) ∨
      FarFrom masks (k + e.bytes.length) rest := by
  obtain ⟨rfl, he, hlz⟩ := (readElem_iff _ _ _).1 hel
  constructor
  · rintro (⟨es, tag, len, rest', n, h, h1, h2, h3, h4, h5⟩ | ⟨es, e', rest', h, h1, h2, h3, h4, h5⟩)
    · cases es with
      | nil =>
        exfalso
        simp only [concat, List.flatMap_nil, List.nil_append, Elem.bytes, List.append_assoc] at h h5
        obtain ⟨k1, h⟩ := readTag_prefix h he.1 h2
        obtain ⟨k2, h, k3⟩ := isLength_prefix h he.2 h3
        rw [← k1, ← k2, ← k3] at h5
        simp [Elem.bytes] at hk h5
        omega
      | cons e' es =>
        rw [concat_cons, List.append_assoc] at h
        obtain ⟨rfl, hk'⟩ := elem_prefix h he (h1 e' (by simp))
        refine Or.inr (Or.inl ⟨es, tag, len, rest', n, hk', fun x hx => h1 x (by simp [hx]), h2, h3, h4, ?_⟩)
        rw [concat_cons] at h5
        simp at h5 ⊢
        omega
    · cases es with
      | nil =>
        obtain ⟨rfl, -⟩ := elem_prefix (show e.bytes ++ rest = e'.bytes ++ rest' from h) he h2
        exact Or.inl ⟨h3, h4, h5⟩
      | cons e1 es =>
        rw [concat_cons, List.append_assoc] at h
        obtain ⟨rfl, hk'⟩ := elem_prefix h he (h1 e1 (by simp))
        exact Or.inr (Or.inr ⟨es, e', rest', hk', fun x hx => h1 x (by simp [hx]), h2, h3, h4, h5⟩)
  · rintro (⟨h3, h4, h5⟩ | ⟨es, tag, len, rest', n, rfl, h1, h2, h3, h4, h5⟩ | ⟨es, e', rest', rfl, h1, h2, h3, h4, h5⟩)
    · exact Or.inr ⟨[], e, rest, rfl, by simp, he, h3, h4, h5⟩
    · refine Or.inl ⟨e :: es, tag, len, rest', n, by rw [concat_cons, List.append_assoc], ?_, h2, h3, h4, ?_⟩
      · intro x hx
        rcases List.mem_cons.1 hx with rfl | hx
        · exact he
        · exact h1 x hx
      · rw [concat_cons]
        simp at h5 ⊢
        omega
    · refine Or.inr ⟨e :: es, e', rest', by rw [concat_cons, List.append_assoc], ?_, h2, h3, h4, h5⟩
      intro x hx
      rcases List.mem_cons.1 hx with rfl | hx
      · exact he
      · exact h1 x hx

/-- Data that do not begin with a whole object have a far end at once or not at all. -/
theorem farFrom_error {masks : List Char} {k : Nat} {r : List Byte} {x : ParseError} (hel : readElem r = .error x)
    (hk : k + r.length < 2 ^ 31) :
    FarFrom masks k r ↔ ∃ tag r1 len n r2, readTag r = some (tag, r1) ∧ readLen r1 = .ok (len, n, r2) ∧
      2 ^ 32 ≤ k + (tag.length + len.length) + n := by
  have notok : ∀ {e : Elem} {rest : List Byte}, e.WF → (rest = [] → ¬ e.LongZero) → r ≠ e.bytes ++ rest := by
    intro e rest he hl hr
    rw [(readElem_iff r e rest).2 ⟨hr, he, hl⟩] at hel
    cases hel
  constructor
  · rintro (⟨es, tag, len, rest, n, h, h1, h2, h3, h4, h5⟩ | ⟨es, e', rest, h, h1, h2, h3, h4, h5⟩)
    · cases es with
      | nil =>
        refine ⟨tag, len ++ rest, len, n, rest, (readTag_iff _ _ _).2 ⟨h, h2⟩, readLen_isLength h3 _ fun _ => h4, ?_⟩
        simpa [concat] using h5
      | cons e es =>
        rw [concat_cons, List.append_assoc] at h
        refine absurd h (notok (h1 e (by simp)) fun hnil => ?_)
        exact absurd (List.append_eq_nil_iff.1 (List.append_eq_nil_iff.1 hnil).2).1 (isTag_ne_nil h2)
    · cases es with
      | nil =>
        refine absurd h (notok h2 fun _ hz => ?_)
        exact farFrom_ne (farEnd_iff.1 h5) hz.1
      | cons e es =>
        rw [concat_cons, List.append_assoc] at h
        refine absurd h (notok (h1 e (by simp)) fun hnil => ?_)
        exact absurd (List.append_eq_nil_iff.1 (List.append_eq_nil_iff.1 hnil).2).1 (bytes_ne_nil h2)
  · rintro ⟨tag, r1, len, n, r2, ht, hl, h⟩
    obtain ⟨rfl, htag⟩ := (readTag_iff _ _ _).1 ht
    obtain ⟨rfl, hlen, hlz⟩ := readLen_spec hl
    refine Or.inl ⟨[], tag, len, r2, n, rfl, by simp, htag, hlen, ?_, by simpa [concat] using h⟩
    rintro rfl
    cases hlen with
    | short b hb => simp at hk h; omega
    | long b ds hb h4 => exact hlz b rfl (by omega) rfl

/-! ### The loop -/

theorem getChildBlock_32 {masks : List Char} {parse parse' : List Byte → Out RawEmvBlock} (e : Elem)
    (h1 : FarEnd masks e.value → parse e.value = .panic) (h2 : ¬ FarEnd masks e.value → parse e.value = parse' e.value)
    (h3 : (parse' e.value).isReturned = true) :
    (typeOf e.tag = .constructed ∧ ¬ IsMasked (latin1 e.value) masks ∧ FarEnd masks e.value →
      getChildBlock parse (typeOf e.tag) (dataOf e.value masks) = .panic) ∧
    (¬ (typeOf e.tag = .constructed ∧ ¬ IsMasked (latin1 e.value) masks ∧ FarEnd masks e.value) →
      getChildBlock parse (typeOf e.tag) (dataOf e.value masks) = .ok (nodeOf parse' masks e).childBlock) := by
  constructor
  · rintro ⟨k1, k2, k3⟩
    rw [k1, dataOf, if_neg k2]
    simp only [getChildBlock]
    rw [h1 k3]
    rfl
  · intro k
    rw [← getChildBlock_eq parse' masks e h3]
    by_cases k1 : typeOf e.tag = .constructed
    · by_cases k2 : IsMasked (latin1 e.value) masks
      · rw [k1, dataOf, if_pos k2]; rfl
      · rw [k1, dataOf, if_neg k2]
        simp only [getChildBlock]
        rw [h2 fun k3 => k ⟨k1, k2, k3⟩]
    · cases hty : typeOf e.tag with
      | constructed => exact absurd hty k1
      | primitive => rfl

theorem berLoop_32 {m : Machine} (h32 : m.usizeBits = 32) (masks : List Char) (parse parse' : List Byte → Out RawEmvBlock)
    (fuel : Nat) (pre r : List Byte) (nodes : RawEmvBlock) (hf : r.length ≤ fuel) (hm : pre.length + r.length < 2 ^ 31)
    (hp1 : ∀ v : List Byte, v.length + 2 ≤ r.length → FarEnd masks v → parse v = .panic)
    (hp2 : ∀ v : List Byte, v.length + 2 ≤ r.length → ¬ FarEnd masks v → parse v = parse' v)
    (hp3 : ∀ v : List Byte, v.length + 2 ≤ r.length → (parse' v).isReturned = true) :
    (FarFrom masks pre.length r → berLoop m masks parse (pre ++ r) fuel pre.length nodes = .panic) ∧
    (¬ FarFrom masks pre.length r → berLoop m masks parse (pre ++ r) fuel pre.length nodes =
      match readElems r with
      | .error e => .err e
      | .ok es => .ok (nodes ++ es.map (nodeOf parse' masks))) := by
  induction fuel generalizing pre r nodes with
  | zero =>
    have : r = [] := List.length_eq_zero_iff.1 (by omega)
    subst this
    refine ⟨fun h => absurd rfl (farFrom_ne h), fun _ => ?_⟩
    rw [berLoop, readElems_nil]
    simp
  | succ fuel ih =>
    by_cases hr : r = []
    · subst hr
      refine ⟨fun h => absurd rfl (farFrom_ne h), fun _ => ?_⟩
      rw [berLoop, readElems_nil]
      simp
    · have hpos : 0 < r.length := List.length_pos_iff.2 hr
      rw [berLoop, if_pos (by simp; omega)]
      simp only
      rw [berStep_32 h32 masks parse pre r hr hm]
      cases hel : readElem r with
      | error x =>
        rw [farFrom_error hel hm, readElems_error hr hel]
        have hel' := hel
        rw [readElem] at hel'
        cases ht : readTag r with
        | none =>
          rw [ht] at hel'
          cases hel'
          refine ⟨?_, fun _ => rfl⟩
          rintro ⟨tag, r1, -, -, -, h, -⟩
          cases h
        | some p =>
          obtain ⟨tag, r1⟩ := p
          rw [ht] at hel'
          simp only at hel'
          simp only
          cases hl : readLen r1 with
          | error y =>
            rw [hl] at hel'
            cases hel'
            refine ⟨?_, fun _ => rfl⟩
            rintro ⟨tag', r1', len, n, r2, h, h', -⟩
            cases h
            rw [hl] at h'
            cases h'
          | ok q =>
            obtain ⟨len, n, r2⟩ := q
            rw [hl] at hel'
            simp only at hel'
            simp only
            by_cases hfar : 2 ^ 32 ≤ pre.length + (tag.length + len.length) + n
            · rw [if_pos hfar]
              exact ⟨fun _ => rfl, fun h => absurd ⟨tag, r1, len, n, r2, rfl, hl, hfar⟩ h⟩
            · rw [if_neg hfar]
              refine ⟨?_, fun _ => ?_⟩
              · rintro ⟨tag', r1', len', n', r2', h, h', h''⟩
                cases h
                rw [hl] at h'
                cases h'
                exact absurd h'' hfar
              · split at hel'
                · rename_i hlt
                  cases hel'
                  rw [if_pos hlt]
                  rfl
                · cases hel'
      | ok p =>
        obtain ⟨e, rest⟩ := p
        obtain ⟨h1, h2, h3⟩ := (readElem_iff _ _ _).1 hel
        have hlen := elem_length h2
        have hrl : r.length = e.bytes.length + rest.length := by rw [h1]; simp
        rw [farFrom_ok hel (by omega), readElems_ok hr hel]
        have hel' := hel
        rw [readElem] at hel'
        cases ht : readTag r with
        | none => rw [ht] at hel'; cases hel'
        | some p =>
          obtain ⟨tag, r1⟩ := p
          rw [ht] at hel'
          simp only at hel'
          simp only
          cases hl : readLen r1 with
          | error y => rw [hl] at hel'; cases hel'
          | ok q =>
            obtain ⟨len, n, r2⟩ := q
            rw [hl] at hel'
            simp only at hel'
            simp only
            split at hel'
            · cases hel'
            · rename_i hlt
              cases hel'
              have hb : (Elem.mk tag len (r2.take n)).bytes.length = tag.length + len.length + n := by
                simp [Elem.bytes]; omega
              simp only [hb] at hrl ih ⊢
              rw [if_neg (by omega), if_neg hlt]
              obtain ⟨g1, g2⟩ := getChildBlock_32 (masks := masks) (parse := parse) (parse' := parse')
                ⟨tag, len, r2.take n⟩ (hp1 _ (by omega)) (hp2 _ (by omega)) (hp3 _ (by omega))
              simp only at g1 g2
              by_cases hin : typeOf tag = .constructed ∧ ¬ IsMasked (latin1 (r2.take n)) masks ∧
                  FarEnd masks (r2.take n)
              · rw [g1 hin]
                exact ⟨fun _ => rfl, fun h => absurd (Or.inl hin) h⟩
              · rw [g2 hin]
                simp only [Out.ok_bind]
                have := ih (pre ++ (Elem.mk tag len (r2.take n)).bytes) (r2.drop n)
                  (nodes ++ [nodeOf parse' masks ⟨tag, len, r2.take n⟩]) (by omega)
                  (by rw [List.length_append, hb]; omega)
                  (fun v hv => hp1 v (by omega)) (fun v hv => hp2 v (by omega)) (fun v hv => hp3 v (by omega))
                rw [List.append_assoc, ← h1, List.length_append, hb] at this
                refine ⟨fun h => this.1 (h.resolve_left hin), fun h => ?_⟩
                have t2 := this.2 fun h' => h (Or.inr h')
                refine Eq.trans t2 ?_
                cases readElems (r2.drop n) with
                | error e => rfl
                | ok es => simp

theorem fits_64 {m : Machine} (h : m.usizeBits = 64) {n : Nat} (hn : n < 2 ^ 31) : Fits m n := by
  rw [Fits, h]; omega

/-- Everything about the recursion at once. -/
theorem berParseF_32 {m m' : Machine} (h32 : m.usizeBits = 32) (h64 : m'.usizeBits = 64) (masks : List Char) (n : Nat) :
    ∀ bytes : List Byte, bytes.length ≤ n → bytes.length < 2 ^ 31 → ∀ d, bytes.length / 2 < d →
      (FarEnd masks bytes → berParseF m masks d bytes = .panic) ∧
      (¬ FarEnd masks bytes → berParseF m masks d bytes = berParse m' bytes masks) := by
  induction n with
  | zero =>
    intro bytes hb hm d hd
    have : bytes = [] := List.length_eq_zero_iff.1 (by omega)
    subst this
    refine ⟨fun h => absurd rfl (farFrom_ne (farEnd_iff.1 h)), fun _ => ?_⟩
    cases d with
    | zero => simp at hd
    | succ d => simp [berParse, berParseF, berLoop]
  | succ n ih =>
    intro bytes hb hm d hd
    cases d with
    | zero => omega
    | succ d =>
      have := berLoop_32 h32 masks (berParseF m masks d) (fun v => berParse m' v masks) (bytes.length + 1) [] bytes []
        (by omega) (by simpa using hm) (fun v hv => (ih v (by omega) (by omega) d (by omega)).1)
        (fun v hv => (ih v (by omega) (by omega) d (by omega)).2)
        (fun v hv => berParse_returned masks v (fits_64 h64 (by omega)))
      simp only [List.nil_append, List.length_nil] at this
      rw [← farEnd_iff] at this
      rw [berParseF, berParse_eq masks bytes (fits_64 h64 hm)]
      exact this

theorem berParse_32 {m m' : Machine} (h32 : m.usizeBits = 32) (h64 : m'.usizeBits = 64) (masks : List Char)
    (bytes : List Byte) (h : bytes.length < 2 ^ 31) :
    (FarEnd masks bytes → berParse m bytes masks = .panic) ∧
    (¬ FarEnd masks bytes → berParse m bytes masks = berParse m' bytes masks) :=
  berParseF_32 h32 h64 masks _ bytes (Nat.le_refl _) h _ (by omega)

/-! ### Heads of records -/

/-- A head at the start of a text; the format character is not looked at. -/
def readHead (s : Text) : Except ParseError (Head × Text) :=
  match s with
  | [] => .error .nonCompliant
  | typ :: s1 =>
    match splitColon s1 with
    | none => .error .nonCompliant
    | some (tagHex, s2) =>
      if ¬ (∀ c ∈ tagHex, IsHex c) ∨ tagHex.length < 2 then .error .nonCompliant
      else
        match splitColon s2 with
        | none => .error .nonCompliant
        | some (lenHex, s3) =>
          if ¬ (∀ c ∈ lenHex, IsHex c) then .error .nonCompliant
          else if 9 < lenHex.length then .error .unsupported
          else
            match s3 with
            | [] => .error .nonCompliant
            | fmt :: s4 => .ok (⟨typ, tagHex, lenHex, fmt⟩, s4)

/-- The record with a head and a value. -/
def withValue (h : Head) (value : Text) : Record := ⟨h.typ, h.tagHex, h.lenHex, h.fmt, value⟩

theorem withValue_text (h : Head) (value : Text) : (withValue h value).text = h.text ++ value := by
  simp [withValue, Record.text, Head.text]

theorem readRecord_head (masks : List Char) (s : Text) : readRecord masks s =
    match readHead s with
    | .error e => .error e
    | .ok (h, s4) =>
      match readValue masks h.fmt h.length s4 with
      | none => .error .nonCompliant
      | some (value, rest) => .ok (withValue h value, rest) := by
  cases s with
  | nil => rfl
  | cons typ s1 =>
    rw [readRecord, readHead]
    cases splitColon s1 with
    | none => rfl
    | some p =>
      obtain ⟨tagHex, s2⟩ := p
      simp only
      split
      · rfl
      · cases splitColon s2 with
        | none => rfl
        | some q =>
          obtain ⟨lenHex, s3⟩ := q
          simp only
          split
          · rfl
          · split
            · rfl
            · cases s3 with
              | nil => rfl
              | cons fmt s4 => rfl

theorem readHead_spec {s : Text} {h : Head} {rest : Text} (hr : readHead s = .ok (h, rest)) :
    s = h.text ++ rest ∧ (∀ c ∈ h.tagHex, IsHex c) ∧ 2 ≤ h.tagHex.length ∧ (∀ c ∈ h.lenHex, IsHex c) ∧
      h.lenHex.length ≤ 9 := by
  unfold readHead at hr
  split at hr
  · cases hr
  · split at hr
    · cases hr
    · rename_i tagHex s2 hs1
      split at hr
      · cases hr
      · rename_i htag
        split at hr
        · cases hr
        · rename_i lenHex s3 hs2
          split at hr
          · cases hr
          · rename_i hlen
            split at hr
            · cases hr
            · rename_i h9
              split at hr
              · cases hr
              · cases hr
                have e1 := (splitColon_some hs1).1
                have e2 := (splitColon_some hs2).1
                simp only [not_or, Classical.not_not] at htag hlen
                refine ⟨?_, htag.1, Nat.le_of_not_lt htag.2, hlen, Nat.le_of_not_lt h9⟩
                rw [e1, e2]
                simp [Head.text]

theorem readHead_text {h : Head} (rest : Text) (h1 : ∀ c ∈ h.tagHex, IsHex c) (h2 : 2 ≤ h.tagHex.length)
    (h3 : ∀ c ∈ h.lenHex, IsHex c) (h4 : h.lenHex.length ≤ 9) : readHead (h.text ++ rest) = .ok (h, rest) := by
  have nocolon : ∀ t : Text, (∀ c ∈ t, IsHex c) → ':' ∉ t := fun t ht h => colon_not_hex (ht _ h)
  obtain ⟨typ, tagHex, lenHex, fmt⟩ := h
  simp only at h1 h2 h3 h4
  have e : (Head.mk typ tagHex lenHex fmt).text ++ rest = typ :: (tagHex ++ ':' :: (lenHex ++ ':' :: fmt :: rest)) := by
    simp [Head.text]
  rw [e, readHead, splitColon_append (nocolon _ h1)]
  simp only
  rw [if_neg (by
    rintro (h | h)
    · exact h h1
    · omega), splitColon_append (nocolon _ h3)]
  simp only
  rw [if_neg (fun h => h h3), if_neg (by omega)]

theorem readHead_wf {h : Head} (rest : Text) (hw : h.WF) : readHead (h.text ++ rest) = .ok (h, rest) :=
  readHead_text rest hw.tagHex hw.tagLen hw.lenHex hw.lenLen

theorem head_length_lt {h : Head} (h3 : ∀ c ∈ h.lenHex, IsHex c) (h4 : h.lenHex.length ≤ 9) : h.length < 2 ^ 32 := by
  have h4' : (hexBytes h.lenHex).length ≤ 4 := by rw [hexBytes_length h3]; omega
  calc h.length < 256 ^ (hexBytes h.lenHex).length := beValue_lt _
    _ ≤ 256 ^ 4 := Nat.pow_le_pow_right (by omega) h4'
    _ = 2 ^ 32 := by decide

/-! ### One record -/

/-- The length a build without overflow checks (`c = false`) or with them takes a head to announce. -/
def lengthOn (c : Bool) (fmt : Char) (n : Nat) : Nat := if fmt = 'h' ∧ c = false then n % 2 ^ 31 else n

/-- The same in characters. -/
def spanOn (c : Bool) (fmt : Char) (n : Nat) : Nat := if fmt = 'h' then 2 * lengthOn c fmt n else lengthOn c fmt n

theorem mul_32 {m : Machine} (h32 : m.usizeBits = 32) {n : Nat} (hn : n < 2 ^ 32) :
    (m.mul n 2 = .panic ∧ m.overflowChecks = true ∧ 2 ^ 31 ≤ n) ∨
    (m.mul n 2 = .ok (spanOn m.overflowChecks 'h' n)) := by
  rw [Machine.mul, Machine.norm, h32, spanOn, if_pos rfl, lengthOn]
  cases m.overflowChecks with
  | true =>
    by_cases h : n * 2 < 2 ^ 32
    · rw [if_pos h, if_neg (by simp)]
      right
      rw [Nat.mul_comm]
    · rw [if_neg h]
      exact Or.inl ⟨if_pos rfl, rfl, by omega⟩
  | false =>
    right
    rw [if_pos (c := 'h' = 'h' ∧ false = false) ⟨rfl, rfl⟩]
    by_cases h : n * 2 < 2 ^ 32
    · rw [if_pos h]
      congr 1
      omega
    · rw [if_neg h, if_neg (by simp)]
      congr 1
      omega

theorem lengthOn_le (c : Bool) (fmt : Char) (n : Nat) : lengthOn c fmt n ≤ n := by
  rw [lengthOn]
  split
  · exact Nat.mod_le _ _
  · exact Nat.le_refl _

theorem ingValue_32 {m : Machine} (h32 : m.usizeBits = 32) (masks : List Char) (pre : Text) (fmt : Char) (s : Text)
    (n : Nat) (hn : n < 2 ^ 32) (hm : pre.length + 1 + s.length < 2 ^ 31) (hs : ∀ c ∈ s, c.toNat < 128) :
    ingValue m masks (pre ++ fmt :: s) pre.length n =
      if (fmt = 'a' ∨ fmt = 'h') ∧ 2 ^ 32 ≤ pre.length + 1 + spanOn m.overflowChecks fmt n then .panic
      else
        match readValue masks fmt (lengthOn m.overflowChecks fmt n) s with
        | none => .err .nonCompliant
        | some (value, _) =>
          .ok ((Record.mk 'T' [] [] fmt value).data masks, pre.length + 1 + value.length) := by
  have hP : 2 ^ m.usizeBits = 2 ^ 32 := by rw [h32]
  rw [ingValue, index_append, readValue]
  simp only [Out.ok_bind]
  have hsl : ∀ k, k ≤ s.length → slice (pre ++ fmt :: s) (pre.length + 1) (pre.length + 1 + k) =
      .ok (s.take k) := by
    intro k hk
    have := slice_append (pre ++ [fmt]) (s.take k) (s.drop k) (pre.length + 1) (pre.length + 1 + k)
      (by simp) (by simp; omega)
    simpa using this
  have hasc : ∀ k, ∀ c ∈ s.take k, c.toNat < 128 := fun k c hc => hs c (List.mem_of_mem_take hc)
  by_cases ha : fmt = 'a'
  · subst ha
    have hl1 : lengthOn m.overflowChecks 'a' n = n := by rw [lengthOn, if_neg (by simp)]
    have hs1 : spanOn m.overflowChecks 'a' n = n := by rw [spanOn, if_neg (by decide), hl1]
    rw [if_pos rfl, hs1, hl1, add_ok (by omega)]
    simp only [Out.ok_bind]
    by_cases hfar : 2 ^ 32 ≤ pre.length + 1 + n
    · rw [if_pos ⟨Or.inl trivial, hfar⟩]
      rcases add_far h32 (a := pre.length + 1) (b := n) (by omega) hn hfar with hq | ⟨q, hq', hq⟩
      · rw [hq, bind_panic]
      · rw [hq]
        simp only [Out.ok_bind]
        rw [if_neg (by simp; omega), slice_far _ hq', bind_panic]
    · rw [if_neg (fun h => hfar h.2), if_pos trivial, add_ok (by omega)]
      simp only [Out.ok_bind]
      by_cases hl : s.length < n
      · rw [if_pos (by simp; omega), if_pos hl]
      · rw [if_neg (by simp; omega), if_neg hl, hsl n (by omega)]
        simp only [Out.ok_bind]
        have hlen : (s.take n).length = n := by rw [List.length_take]; omega
        simp only [hlen, Record.data]
        by_cases hmask : IsMasked (s.take n) masks
        · rw [if_pos ((isMaskedStr_iff (hasc n) masks).2 hmask), if_pos hmask]
        · rw [if_neg (fun h => hmask ((isMaskedStr_iff (hasc n) masks).1 h)), if_neg hmask,
            asBytes_of_ascii (hasc n)]
          rfl
  · rw [if_neg ha, if_neg ha]
    by_cases hh : fmt = 'h'
    · subst hh
      rw [if_pos rfl]
      have hsp : spanOn m.overflowChecks 'h' n = lengthOn m.overflowChecks 'h' n * 2 := by
        rw [spanOn, if_pos rfl, Nat.mul_comm]
      rcases mul_32 h32 hn with ⟨hq, hc, hbig⟩ | hq
      · rw [hq, bind_panic, if_pos]
        refine ⟨Or.inr rfl, ?_⟩
        rw [hsp, hc, lengthOn, if_neg (by simp)]
        omega
      · rw [hq, hsp]
        simp only [Out.ok_bind]
        rw [add_ok (by omega)]
        simp only [Out.ok_bind]
        have hk2 : m.overflowChecks = false → lengthOn m.overflowChecks 'h' n < 2 ^ 31 := by
          intro hc
          rw [lengthOn, if_pos ⟨rfl, hc⟩]
          exact Nat.mod_lt _ (by decide)
        have hk3 : m.overflowChecks = true → lengthOn m.overflowChecks 'h' n < 2 ^ 31 := by
          intro hc
          rw [lengthOn, if_neg (by simp [hc])]
          rw [Machine.mul, Machine.norm, h32] at hq
          by_cases h : n * 2 < 2 ^ 32
          · omega
          · rw [if_neg h, hc, if_pos rfl] at hq
            cases hq
        have hk : lengthOn m.overflowChecks 'h' n < 2 ^ 31 := by
          cases hc : m.overflowChecks with
          | true => rw [← hc]; exact hk3 hc
          | false => rw [← hc]; exact hk2 hc
        generalize lengthOn m.overflowChecks 'h' n = k at hk
        by_cases hfar : 2 ^ 32 ≤ pre.length + 1 + k * 2
        · rw [if_pos ⟨Or.inr trivial, hfar⟩]
          rcases add_far h32 (a := pre.length + 1) (b := k * 2) (by omega) (by omega) hfar with hq | ⟨q, hq', hq⟩
          · rw [hq, bind_panic]
          · rw [hq]
            simp only [Out.ok_bind]
            rw [if_neg (by simp; omega), slice_far _ hq', bind_panic]
        · rw [if_neg (fun h => hfar h.2), if_pos trivial, add_ok (by omega)]
          simp only [Out.ok_bind]
          by_cases hl : s.length < k * 2
          · rw [if_pos (by simp; omega), if_pos hl]
          · rw [if_neg (by simp; omega), if_neg hl, hsl (k * 2) (by omega)]
            simp only [Out.ok_bind]
            have hlen : (s.take (k * 2)).length = k * 2 := by rw [List.length_take]; omega
            by_cases hmask : IsMasked (s.take (k * 2)) masks
            · have hm' := (isMaskedStr_iff (hasc (k * 2)) masks).2 hmask
              rw [if_pos hm', if_pos (Or.inl hm')]
              simp only [Record.data, hlen]
              rw [if_pos hmask]
            · have hm' := fun h => hmask ((isMaskedStr_iff (hasc (k * 2)) masks).1 h)
              rw [if_neg hm']
              by_cases hx : ∀ c ∈ s.take (k * 2), IsHex c
              · rw [if_pos (Or.inr hx), parseHexStrStrict_ok_iff _ hx]
                simp only [mapErr_ok, Out.ok_bind, Record.data, hlen]
                rw [if_neg hmask, if_pos trivial, parseHexStr_eq]
              · rw [if_neg (fun h => h.elim hm' hx), parseHexStrStrict_err _ hx]
                rfl
    · rw [if_neg hh, if_neg hh, if_neg]
      rintro ⟨h | h, -⟩
      · exact ha h
      · exact hh h

/-- One record of a 32-bit build, at position `k`: what it gives and the text after its separator. -/
noncomputable def step32 (c : Bool) (masks : List Char) (parse : List Byte → Out RawEmvBlock) (k : Nat) (s : Text) :
    Out (Option RawEmvNode × Text) :=
  match readHead s with
  | .error e => .err e
  | .ok (h, s4) =>
    if (h.fmt = 'a' ∨ h.fmt = 'h') ∧ 2 ^ 32 ≤ k + h.text.length + spanOn c h.fmt h.length then .panic
    else
      match readValue masks h.fmt (lengthOn c h.fmt h.length) s4 with
      | none => .err .nonCompliant
      | some (value, rest) =>
        if h.typ = 'T' then
          getChildBlock parse (typeOf (withValue h value).tag) ((withValue h value).data masks) >>= fun b =>
            .ok (some (.mk ⟨(withValue h value).tag, classOf (withValue h value).tag, typeOf (withValue h value).tag,
              (withValue h value).data masks⟩ b), rest.drop 1)
        else .ok (none, rest.drop 1)

theorem ingStep_32 {m : Machine} (h32 : m.usizeBits = 32) (masks : List Char) (parse : List Byte → Out RawEmvBlock)
    (pre s : Text) (hne : s ≠ []) (hm : pre.length + s.length < 2 ^ 31) (hs : ∀ c ∈ s, c.toNat < 128) :
    ingStep m masks parse (pre ++ s) pre.length =
      match readHead s with
      | .error e => .err e
      | .ok (h, s4) =>
        if (h.fmt = 'a' ∨ h.fmt = 'h') ∧ 2 ^ 32 ≤ pre.length + h.text.length + spanOn m.overflowChecks h.fmt h.length then
          .panic
        else
          match readValue masks h.fmt (lengthOn m.overflowChecks h.fmt h.length) s4 with
          | none => .err .nonCompliant
          | some (value, _) =>
            if h.typ = 'T' then
              getChildBlock parse (typeOf (withValue h value).tag) ((withValue h value).data masks) >>= fun b =>
                .ok (some (.mk ⟨(withValue h value).tag, classOf (withValue h value).tag, typeOf (withValue h value).tag,
                  (withValue h value).data masks⟩ b), pre.length + (withValue h value).text.length + 1)
            else .ok (none, pre.length + (withValue h value).text.length + 1) := by
  have hP : 2 ^ m.usizeBits = 2 ^ 32 := by rw [h32]
  cases s with
  | nil => exact absurd rfl hne
  | cons typ s1 =>
    simp only [List.length_cons] at hm
    rw [ingStep, index_append, readHead]
    simp only [Out.ok_bind]
    rw [add_ok (by omega)]
    simp only [Out.ok_bind]
    cases s1 with
    | nil => rw [if_pos (by simp)]; rfl
    | cons c0 s1' =>
      rw [if_neg (by simp)]
      generalize hs1 : c0 :: s1' = s1 at *
      have hfc := findColon_eq (m := m) (pre ++ [typ]) s1 (by rw [hP]; simp; omega)
      rw [show (pre ++ [typ]).length = pre.length + 1 by simp,
        show pre ++ [typ] ++ s1 = pre ++ typ :: s1 by simp] at hfc
      rw [hfc]
      cases hsp : splitColon s1 with
      | none => rfl
      | some p =>
        obtain ⟨tagHex, s2⟩ := p
        obtain ⟨e1, hnc1⟩ := splitColon_some hsp
        have l1 : s1.length = tagHex.length + (s2.length + 1) := by rw [e1]; simp
        simp only [Out.ok_bind]
        have hsl : slice (pre ++ typ :: s1) (pre.length + 1) (pre.length + 1 + tagHex.length) =
            .ok tagHex := by
          have := slice_append (pre ++ [typ]) tagHex (':' :: s2) (pre.length + 1)
            (pre.length + 1 + tagHex.length) (by simp) (by simp)
          rw [e1]; simpa using this
        rw [hsl]
        simp only [Out.ok_bind]
        by_cases htag : ∀ c ∈ tagHex, IsHex c
        · rw [parseHexStrStrict_ok_iff _ htag, parseHexStr_eq]
          simp only [mapErr_ok, Out.ok_bind]
          rw [add_ok (by omega)]
          simp only [Out.ok_bind]
          have hnil : stripZeros (hexBytes tagHex) = [] ↔ tagHex.length < 2 := by
            rw [strip_eq_nil, hexBytes_eq_nil htag]
          rw [trim_eq_strip]
          by_cases h2 : tagHex.length < 2
          · rw [if_pos (Or.inr (hnil.2 h2)), if_pos (Or.inr h2)]
          · rw [if_neg (c := ¬ (∀ c ∈ tagHex, IsHex c) ∨ tagHex.length < 2)
              (fun h => h.elim (fun h => h htag) h2)]
            by_cases hs2 : s2 = []
            · subst hs2
              rw [if_pos (Or.inl (by simp [l1]; omega))]
              rfl
            · have hs2pos : 0 < s2.length := List.length_pos_iff.2 hs2
              have htne : stripZeros (hexBytes tagHex) ≠ [] := fun h => h2 (hnil.1 h)
              rw [if_neg (fun h => h.elim (fun h => by simp [l1] at h; omega) htne)]
              obtain ⟨b0, t0, hbt⟩ : ∃ b t, stripZeros (hexBytes tagHex) = b :: t := by
                cases h : stripZeros (hexBytes tagHex) with
                | nil => exact absurd h htne
                | cons b t => exact ⟨b, t, rfl⟩
              rw [hbt, show index (b0 :: t0) 0 = .ok b0 from rfl]
              simp only [Out.ok_bind]
              rw [parseTagMetadata_eq b0 t0]
              simp only [Out.ok_bind]
              have hfc2 := findColon_eq (m := m) (pre ++ typ :: tagHex ++ [':']) s2
                (by rw [hP]; simp; omega)
              rw [show (pre ++ typ :: tagHex ++ [':']).length = pre.length + 1 + tagHex.length + 1 by
                  simp; omega,
                show pre ++ typ :: tagHex ++ [':'] ++ s2 = pre ++ typ :: s1 by rw [e1]; simp] at hfc2
              rw [hfc2]
              cases hsp2 : splitColon s2 with
              | none => rfl
              | some q =>
                obtain ⟨lenHex, s3⟩ := q
                obtain ⟨e2, hnc2⟩ := splitColon_some hsp2
                have l2 : s2.length = lenHex.length + (s3.length + 1) := by rw [e2]; simp
                simp only [Out.ok_bind]
                have hsl2 : slice (pre ++ typ :: s1) (pre.length + 1 + tagHex.length + 1)
                    (pre.length + 1 + tagHex.length + 1 + lenHex.length) = .ok lenHex := by
                  have := slice_append (pre ++ typ :: tagHex ++ [':']) lenHex (':' :: s3)
                    (pre.length + 1 + tagHex.length + 1)
                    (pre.length + 1 + tagHex.length + 1 + lenHex.length) (by simp; omega)
                    (by simp; omega)
                  rw [e1, e2]; simpa using this
                rw [hsl2]
                simp only [Out.ok_bind]
                by_cases hlen : ∀ c ∈ lenHex, IsHex c
                · rw [parseHexStrStrict_ok_iff _ hlen, parseHexStr_eq]
                  simp only [mapErr_ok, Out.ok_bind]
                  rw [hexBytes_length hlen, if_neg (c := ¬ (∀ c ∈ lenHex, IsHex c)) (fun h => h hlen)]
                  by_cases h9 : 9 < lenHex.length
                  · rw [if_pos (by omega), if_pos h9]
                  · have h4 : (hexBytes lenHex).length ≤ 4 := by rw [hexBytes_length hlen]; omega
                    rw [if_neg (by omega), if_neg h9, byteSliceToU32_ok h4]
                    simp only [Out.ok_bind]
                    rw [add_ok (by omega)]
                    simp only [Out.ok_bind]
                    cases s3 with
                    | nil =>
                      rw [if_pos (by simp at *; omega)]
                    | cons fmt s4 =>
                      have hn : (Head.mk typ tagHex lenHex fmt).length < 2 ^ 32 :=
                        head_length_lt (h := Head.mk typ tagHex lenHex fmt) hlen (Nat.le_of_not_lt h9)
                      simp only [List.length_cons] at l2
                      rw [if_neg (by simp at *; omega)]
                      have hiv := ingValue_32 h32 masks
                        (pre ++ typ :: tagHex ++ ':' :: lenHex ++ [':']) fmt s4 _ hn
                        (by simp; omega)
                        (fun c hc => hs c (by rw [e1, e2]; simp [hc]))
                      have hpl : (pre ++ typ :: tagHex ++ ':' :: lenHex ++ [':']).length =
                          pre.length + 1 + tagHex.length + 1 + lenHex.length + 1 := by simp; omega
                      have htl : pre.length + (Head.mk typ tagHex lenHex fmt).text.length =
                          pre.length + 1 + tagHex.length + 1 + lenHex.length + 1 + 1 := by simp [Head.text]; omega
                      rw [hpl, show pre ++ typ :: tagHex ++ ':' :: lenHex ++ [':'] ++ fmt :: s4 =
                          pre ++ typ :: s1 by rw [e1, e2]; simp] at hiv
                      simp only [htl]
                      rw [show beValue (hexBytes lenHex) = (Head.mk typ tagHex lenHex fmt).length from rfl, hiv]
                      split
                      · rfl
                      · cases hrv : readValue masks fmt
                            (lengthOn m.overflowChecks fmt (Head.mk typ tagHex lenHex fmt).length) s4 with
                        | none => rfl
                        | some w =>
                          obtain ⟨value, rest⟩ := w
                          obtain ⟨hsv, -⟩ := readValue_spec hrv
                          have l4 : s4.length = value.length + rest.length := by rw [hsv]; simp
                          simp only [Out.ok_bind]
                          rw [add_ok (by omega)]
                          simp only [Out.ok_bind]
                          have hidx : pre.length + 1 + tagHex.length + 1 + lenHex.length + 1 + 1 +
                              value.length + 1 =
                              pre.length + (withValue ⟨typ, tagHex, lenHex, fmt⟩ value).text.length + 1 := by
                            rw [withValue_text, List.length_append]; simp [Head.text]; omega
                          rw [hidx]
                          by_cases hT : typ = 'T'
                          · rw [if_neg (by simp [hT]), if_pos hT]
                            have ht : (withValue ⟨typ, tagHex, lenHex, fmt⟩ value).tag = b0 :: t0 := hbt
                            have hd : (Record.mk 'T' [] [] fmt value).data masks =
                                (withValue ⟨typ, tagHex, lenHex, fmt⟩ value).data masks := rfl
                            rw [ht, hd]
                          · rw [if_pos hT, if_neg hT]
                · rw [parseHexStrStrict_err _ hlen, if_pos hlen]
                  rfl
        · rw [parseHexStrStrict_err _ htag, if_pos (Or.inl htag)]
          rfl

/-! ### All records -/

/-- The records of a 32-bit build from position `k` on. -/
noncomputable def read32 (c : Bool) (masks : List Char) (parse : List Byte → Out RawEmvBlock) :
    Nat → Nat → Text → Out RawEmvBlock
  | _, _, [] => .ok []
  | 0, _, _ :: _ => .diverge
  | fuel + 1, k, x :: s => step32 c masks parse k (x :: s) >>= fun p =>
    read32 c masks parse fuel (k + ((x :: s).length - p.2.length)) p.2 >>= fun ns => .ok (p.1.toList ++ ns)

theorem read32_nil (c : Bool) (masks : List Char) (parse : List Byte → Out RawEmvBlock) (fuel k : Nat) :
    read32 c masks parse fuel k [] = .ok [] := by
  cases fuel <;> rw [read32]

theorem bind_bind {α β γ : Type} (x : Out α) (f : α → Out β) (g : β → Out γ) :
    (x >>= f) >>= g = x >>= fun a => f a >>= g := by
  cases x <;> rfl

theorem ingLoop_32 {m : Machine} (h32 : m.usizeBits = 32) (masks : List Char) (parse : List Byte → Out RawEmvBlock)
    (fuel : Nat) (pre s : Text) (nodes : RawEmvBlock) (hf : s.length ≤ fuel) (hm : pre.length + s.length < 2 ^ 31)
    (hs : ∀ c ∈ s, c.toNat < 128) :
    ingLoop m masks parse (pre ++ s) fuel pre.length nodes =
      (read32 m.overflowChecks masks parse fuel pre.length s >>= fun ns => .ok (nodes ++ ns)) := by
  induction fuel generalizing pre s nodes with
  | zero =>
    have : s = [] := List.length_eq_zero_iff.1 (by omega)
    subst this
    rw [ingLoop, read32_nil]
    simp
  | succ fuel ih =>
    cases s with
    | nil =>
      rw [ingLoop, read32_nil]
      simp
    | cons x xs =>
      generalize hsx : x :: xs = s at *
      have hne : s ≠ [] := by rw [← hsx]; simp
      have hpos : 0 < s.length := List.length_pos_iff.2 hne
      have hread : read32 m.overflowChecks masks parse (fuel + 1) pre.length s =
          (step32 m.overflowChecks masks parse pre.length s >>= fun p =>
            read32 m.overflowChecks masks parse fuel (pre.length + (s.length - p.2.length)) p.2 >>= fun ns =>
              .ok (p.1.toList ++ ns)) := by
        rw [← hsx, read32]
      rw [hread, ingLoop, if_pos (by simp; omega)]
      simp only
      rw [ingStep_32 h32 masks parse pre s hne hm hs, step32]
      cases hh : readHead s with
      | error e => rfl
      | ok p =>
        obtain ⟨h, s4⟩ := p
        simp only
        split
        · rfl
        · cases hv : readValue masks h.fmt (lengthOn m.overflowChecks h.fmt h.length) s4 with
          | none => rfl
          | some q =>
            obtain ⟨value, rest⟩ := q
            have e1 := (readHead_spec hh).1
            have e2 := (readValue_spec hv).1
            have e3 : s = (withValue h value).text ++ rest := by
              rw [withValue_text, List.append_assoc, ← e2]; exact e1
            have hl : s.length = (withValue h value).text.length + rest.length := by
              conv => lhs; rw [e3]
              simp
            have key : ∀ node : Option RawEmvNode,
                ingLoop m masks parse (pre ++ s) fuel (pre.length + (withValue h value).text.length + 1)
                    (nodes ++ node.toList) =
                  (read32 m.overflowChecks masks parse fuel (pre.length + (s.length - (rest.drop 1).length))
                    (rest.drop 1) >>= fun ns => .ok (nodes ++ (node.toList ++ ns))) := by
              intro node
              cases rest with
              | nil =>
                have : ¬ pre.length + (withValue h value).text.length + 1 < (pre ++ s).length := by
                  simp at hl ⊢; omega
                rw [List.drop_nil, read32_nil]
                cases fuel <;> rw [ingLoop, if_neg this] <;> simp
              | cons sep rest =>
                simp only [List.length_cons] at hl
                have := ih (pre ++ (withValue h value).text ++ [sep]) rest (nodes ++ node.toList) (by omega)
                  (by simp; omega) (fun c hc => hs c (by rw [e3]; simp [hc]))
                rw [show pre ++ (withValue h value).text ++ [sep] ++ rest = pre ++ s by
                    conv => rhs; rw [e3]
                    simp,
                  show (pre ++ (withValue h value).text ++ [sep]).length =
                    pre.length + (withValue h value).text.length + 1 by simp; omega] at this
                rw [this]
                rw [show pre.length + (s.length - (List.drop 1 (sep :: rest)).length) =
                  pre.length + (withValue h value).text.length + 1 by simp; omega]
                simp only [List.drop_succ_cons, List.drop_zero, List.append_assoc]
            simp only
            split
            · rw [bind_bind, bind_bind, bind_bind]
              congr 1
              funext b
              simp only [Out.ok_bind, bind_bind]
              exact key _
            · simp only [Out.ok_bind, bind_bind]
              exact key _

/-! ### Far records, from a position -/

/-- A record with a template in which there is a far end. -/
def FarInside (masks : List Char) (r : Record) : Prop :=
  r.typ = 'T' ∧ typeOf r.tag = .constructed ∧ ∃ v, r.data masks = .normal v ∧ FarEnd masks v

/-- `FarRecord` for the rest of the text from position `k` on. -/
def FarRecFrom (masks : List Char) (k : Nat) (s : Text) : Prop :=
  (∃ l h rest, Reaches masks s l h rest ∧ 2 ^ 32 ≤ k + (render l ++ h.text).length + h.span) ∨
  ∃ (l : List (Record × Char)) (r : Record) (rest : Text), s = render l ++ (r.text ++ rest) ∧
    (∀ p ∈ l, p.1.WF masks) ∧ r.WF masks ∧ FarInside masks r

theorem farRecord_iff {masks : List Char} {s : Text} : FarRecord masks s ↔ FarRecFrom masks 0 s := by
  constructor
  · rintro (⟨l, h, rest, h1, h2⟩ | ⟨l, r, rest, v, h1, h2, h3, h4, h5, h6, h7⟩)
    · exact Or.inl ⟨l, h, rest, h1, by omega⟩
    · exact Or.inr ⟨l, r, rest, h1, h2, h3, h4, h5, v, h6, h7⟩
  · rintro (⟨l, h, rest, h1, h2⟩ | ⟨l, r, rest, h1, h2, h3, h4, h5, v, h6, h7⟩)
    · exact Or.inl ⟨l, h, rest, h1, by omega⟩
    · exact Or.inr ⟨l, r, rest, v, h1, h2, h3, h4, h5, h6, h7⟩

theorem head_text_ne (h : Head) : h.text ≠ [] := by simp [Head.text]

theorem farRec_nil {masks : List Char} {k : Nat} : ¬ FarRecFrom masks k [] := by
  rintro (⟨l, h, rest, ⟨h1, -⟩, -⟩ | ⟨l, r, rest, h1, -⟩)
  · exact head_text_ne h (List.append_eq_nil_iff.1 (List.append_eq_nil_iff.1 h1.symm).2).1
  · exact text_ne_nil r (List.append_eq_nil_iff.1 (List.append_eq_nil_iff.1 h1.symm).2).1

theorem render_cons_append (p : Record × Char) (l : List (Record × Char)) (t : Text) :
    render (p :: l) ++ t = p.1.text ++ p.2 :: (render l ++ t) := by
  simp [render]

theorem head_split {s : Text} {h h' : Head} {t t' : Text} (hw : h.WF) (h1 : readHead s = .ok (h', t'))
    (h2 : s = h.text ++ t) : h' = h ∧ t' = t := by
  subst h2
  rw [readHead_wf t hw] at h1
  cases h1
  exact ⟨rfl, rfl⟩

theorem record_head {masks : List Char} {s : Text} {r : Record} {rest : Text}
    (hr : readRecord masks s = .ok (r, rest)) : ∃ h s4, readHead s = .ok (h, s4) ∧ r = withValue h r.value ∧
      s4 = r.value ++ rest ∧ r.value.length = h.span ∧ (h.fmt = 'a' ∨ h.fmt = 'h') := by
  rw [readRecord_head] at hr
  cases hh : readHead s with
  | error e => rw [hh] at hr; cases hr
  | ok p =>
    obtain ⟨h, s4⟩ := p
    rw [hh] at hr
    simp only at hr
    cases hv : readValue masks h.fmt h.length s4 with
    | none => rw [hv] at hr; cases hr
    | some q =>
      obtain ⟨value, rest'⟩ := q
      rw [hv] at hr
      cases hr
      obtain ⟨h1, h2⟩ := readValue_spec hv
      refine ⟨h, s4, rfl, rfl, h1, ?_, ?_⟩
      · rw [Head.span]
        rcases h2 with ⟨hf, hl⟩ | ⟨hf, hl, -⟩
        · rw [if_neg (by rw [hf]; decide)]; exact hl
        · rw [if_pos hf]; exact hl
      · exact h2.imp (·.1) (·.1)

/-- The first record of a text with a far record. -/
theorem farRec_ok {masks : List Char} {k : Nat} {s : Text} {r : Record} {rest : Text} (hs : ∀ c ∈ s, c.toNat < 128)
    (hr : readRecord masks s = .ok (r, rest)) (hk : k + s.length < 2 ^ 32) :
    FarRecFrom masks k s ↔ FarInside masks r ∨
      FarRecFrom masks (k + (s.length - (rest.drop 1).length)) (rest.drop 1) := by
  obtain ⟨e, hw⟩ := (readRecord_iff hs _ _).1 hr
  have hl : s.length = r.text.length + rest.length := by rw [e]; simp
  have split : ∀ (p : Record × Char) (t : Text), p.1.WF masks → s = p.1.text ++ p.2 :: t → r = p.1 ∧ rest = p.2 :: t := by
    intro p t hp h
    rw [(readRecord_iff hs p.1 (p.2 :: t)).2 ⟨h, hp⟩] at hr
    cases hr
    exact ⟨rfl, rfl⟩
  constructor
  · rintro (⟨l, h, rest', ⟨h1, h2, h3⟩, h4⟩ | ⟨l, r', rest', h1, h2, h3, h4⟩)
    · cases l with
      | nil =>
        exfalso
        obtain ⟨h', s4, g1, g2, g3, g4, g5⟩ := record_head hr
        obtain ⟨rfl, -⟩ := head_split h3 g1 h1
        have : r.text.length = h'.text.length + r.value.length := by rw [g2, withValue_text]; simp [withValue]
        simp [render] at h4
        omega
      | cons p l =>
        rw [render_cons_append] at h1
        obtain ⟨rfl, rfl⟩ := split p _ (h2 p (by simp)) h1
        refine Or.inr (Or.inl ⟨l, h, rest', ⟨rfl, fun q hq => h2 q (by simp [hq]), h3⟩, ?_⟩)
        rw [render_cons_append] at h4
        simp at h4 hl ⊢
        omega
    · cases l with
      | nil =>
        left
        have h1' : s = r'.text ++ rest' := h1
        rw [(readRecord_iff hs r' rest').2 ⟨h1', h3⟩] at hr
        cases hr
        exact h4
      | cons p l =>
        rw [render_cons_append] at h1
        obtain ⟨rfl, rfl⟩ := split p _ (h2 p (by simp)) h1
        exact Or.inr (Or.inr ⟨l, r', rest', rfl, fun q hq => h2 q (by simp [hq]), h3, h4⟩)
  · rintro (h | h)
    · exact Or.inr ⟨[], r, rest, e, by simp, hw, h⟩
    · cases rest with
      | nil => exact absurd h farRec_nil
      | cons sep rest =>
        simp only [List.drop_succ_cons, List.drop_zero, List.length_cons] at h hl
        have hall : ∀ l : List (Record × Char), (∀ p ∈ l, p.1.WF masks) → ∀ p ∈ (r, sep) :: l, p.1.WF masks := by
          intro l hl' p hp
          rcases List.mem_cons.1 hp with rfl | hp
          · exact hw
          · exact hl' p hp
        rcases h with ⟨l, h, rest', ⟨h1, h2, h3⟩, h4⟩ | ⟨l, r', rest', h1, h2, h3, h4⟩
        · refine Or.inl ⟨(r, sep) :: l, h, rest', ⟨?_, hall l h2, h3⟩, ?_⟩
          · rw [render_cons_append, e, h1]
          · rw [render_cons_append]
            simp at h4 ⊢
            omega
        · exact Or.inr ⟨(r, sep) :: l, r', rest', by rw [render_cons_append, e, h1], hall l h2, h3, h4⟩

/-- A text that does not begin with a record has a far record at once or not at all. -/
theorem farRec_error {masks : List Char} {k : Nat} {s : Text} {x : ParseError} (hs : ∀ c ∈ s, c.toNat < 128)
    (hr : readRecord masks s = .error x) :
    FarRecFrom masks k s ↔ ∃ h rest, readHead s = .ok (h, rest) ∧ (h.fmt = 'a' ∨ h.fmt = 'h') ∧
      2 ^ 32 ≤ k + h.text.length + h.span := by
  have notok : ∀ (r : Record) (t : Text), r.WF masks → s ≠ r.text ++ t := by
    intro r t hw h
    rw [(readRecord_iff hs r t).2 ⟨h, hw⟩] at hr
    cases hr
  constructor
  · rintro (⟨l, h, rest', ⟨h1, h2, h3⟩, h4⟩ | ⟨l, r', rest', h1, h2, h3, h4⟩)
    · cases l with
      | nil =>
        have h1' : s = h.text ++ rest' := h1
        exact ⟨h, rest', by rw [h1']; exact readHead_wf rest' h3, h3.fmt, by simpa [render] using h4⟩
      | cons p l =>
        rw [render_cons_append] at h1
        exact absurd h1 (notok _ _ (h2 p (by simp)))
    · cases l with
      | nil => exact absurd h1 (notok _ _ h3)
      | cons p l =>
        rw [render_cons_append] at h1
        exact absurd h1 (notok _ _ (h2 p (by simp)))
  · rintro ⟨h, rest, h1, h2, h3⟩
    obtain ⟨g1, g2, g3, g4, g5⟩ := readHead_spec h1
    exact Or.inl ⟨[], h, rest, ⟨g1, by simp, g2, g3, g4, g5, h2⟩, by simpa [render] using h3⟩

theorem wide_head {masks : List Char} {s : Text} {h : Head} {rest : Text} (h1 : readHead s = .ok (h, rest))
    (h2 : h.fmt = 'h') (h3 : 2 ^ 31 ≤ h.length) : WideRecord masks s := by
  obtain ⟨g1, g2, g3, g4, g5⟩ := readHead_spec h1
  exact ⟨[], h, rest, ⟨g1, by simp, g2, g3, g4, g5, Or.inr h2⟩, h2, h3⟩

theorem wide_cons {masks : List Char} {r : Record} (hw : r.WF masks) {sep : Char} {rest : Text}
    (h : WideRecord masks rest) : WideRecord masks (r.text ++ sep :: rest) := by
  obtain ⟨l, h, rest', ⟨h1, h2, h3⟩, h4, h5⟩ := h
  refine ⟨(r, sep) :: l, h, rest', ⟨by rw [render_cons_append, h1], ?_, h3⟩, h4, h5⟩
  intro p hp
  rcases List.mem_cons.1 hp with rfl | hp
  · exact hw
  · exact h2 p hp

theorem wide_nil {masks : List Char} : ¬ WideRecord masks [] := by
  rintro ⟨l, h, rest, ⟨h1, -⟩, -⟩
  exact head_text_ne h (List.append_eq_nil_iff.1 (List.append_eq_nil_iff.1 h1.symm).2).1

theorem children_32 {masks : List Char} {parse parse' : List Byte → Out RawEmvBlock} (t : DataObjectType) (d : EmvData)
    (h1 : ∀ v, d = .normal v → FarEnd masks v → parse v = .panic)
    (h2 : ∀ v, d = .normal v → ¬ FarEnd masks v → parse v = parse' v)
    (h3 : ∀ v, d = .normal v → (parse' v).isReturned = true) :
    ((t = .constructed ∧ ∃ v, d = .normal v ∧ FarEnd masks v) → getChildBlock parse t d = .panic) ∧
    (¬ (t = .constructed ∧ ∃ v, d = .normal v ∧ FarEnd masks v) →
      getChildBlock parse t d = .ok (childrenOf parse' t d)) := by
  constructor
  · rintro ⟨rfl, v, rfl, hv⟩
    rw [getChildBlock, h1 v rfl hv]
    rfl
  · intro h
    rw [← getChildBlock_of_returned parse' t d h3]
    cases t with
    | primitive => rfl
    | constructed =>
      cases d with
      | masked => rfl
      | normal v =>
        rw [getChildBlock, getChildBlock, h2 v rfl fun hv => h ⟨rfl, v, rfl, hv⟩]

theorem read32_eq (c : Bool) (masks : List Char) (parse parse' : List Byte → Out RawEmvBlock) (fuel k : Nat) (s : Text)
    (hf : s.length ≤ fuel) (hm : k + s.length < 2 ^ 31) (hs : ∀ c ∈ s, c.toNat < 128)
    (hw : c = true ∨ ¬ WideRecord masks s)
    (hp1 : ∀ v : List Byte, v.length < s.length → FarEnd masks v → parse v = .panic)
    (hp2 : ∀ v : List Byte, v.length < s.length → ¬ FarEnd masks v → parse v = parse' v)
    (hp3 : ∀ v : List Byte, v.length < s.length → (parse' v).isReturned = true) :
    (FarRecFrom masks k s → read32 c masks parse fuel k s = .panic) ∧
    (¬ FarRecFrom masks k s → read32 c masks parse fuel k s =
      match readRecords masks s with
      | .error e => .err e
      | .ok rs => .ok ((emvRecords rs).map (Record.node parse' masks))) := by
  induction fuel generalizing k s with
  | zero =>
    have : s = [] := List.length_eq_zero_iff.1 (by omega)
    subst this
    rw [read32_nil, readRecords_nil]
    exact ⟨fun h => absurd h farRec_nil, fun _ => rfl⟩
  | succ fuel ih =>
    cases s with
    | nil =>
      rw [read32_nil, readRecords_nil]
      exact ⟨fun h => absurd h farRec_nil, fun _ => rfl⟩
    | cons x xs =>
      have hread : read32 c masks parse (fuel + 1) k (x :: xs) =
          (step32 c masks parse k (x :: xs) >>= fun p =>
            read32 c masks parse fuel (k + ((x :: xs).length - p.2.length)) p.2 >>= fun ns =>
              .ok (p.1.toList ++ ns)) := by
        rw [read32]
      generalize hsx : x :: xs = s at *
      have hne : s ≠ [] := by rw [← hsx]; simp
      rw [hread, step32]
      cases hh : readHead s with
      | error e =>
        have hr : readRecord masks s = .error e := by rw [readRecord_head, hh]
        rw [farRec_error hs hr, readRecords_error hne hr]
        refine ⟨?_, fun _ => rfl⟩
        rintro ⟨h, rest, h1, -⟩
        rw [hh] at h1
        cases h1
      | ok p =>
        obtain ⟨h, s4⟩ := p
        obtain ⟨g1, g2, g3, g4, g5⟩ := readHead_spec hh
        have hlen : lengthOn c h.fmt h.length = h.length := by
          rw [lengthOn]
          split
          · rename_i hc
            have : ¬ 2 ^ 31 ≤ h.length := by
              intro hb
              rcases hw with hw | hw
              · rw [hc.2] at hw; cases hw
              · exact hw (wide_head hh hc.1 hb)
            exact Nat.mod_eq_of_lt (by omega)
          · rfl
        have hspan : spanOn c h.fmt h.length = h.span := by rw [spanOn, Head.span, hlen]
        simp only
        rw [hspan, hlen]
        cases hv : readValue masks h.fmt h.length s4 with
        | none =>
          have hr : readRecord masks s = .error .nonCompliant := by rw [readRecord_head, hh]; simp only; rw [hv]
          rw [farRec_error hs hr, readRecords_error hne hr]
          by_cases hfar : (h.fmt = 'a' ∨ h.fmt = 'h') ∧ 2 ^ 32 ≤ k + h.text.length + h.span
          · rw [if_pos hfar]
            exact ⟨fun _ => rfl, fun hn => absurd ⟨h, s4, hh, hfar.1, hfar.2⟩ hn⟩
          · rw [if_neg hfar]
            refine ⟨?_, fun _ => rfl⟩
            rintro ⟨h', rest, h1, h2, h3⟩
            rw [hh] at h1
            cases h1
            exact absurd ⟨h2, h3⟩ hfar
        | some q =>
          obtain ⟨value, rest⟩ := q
          have hr : readRecord masks s = .ok (withValue h value, rest) := by
            rw [readRecord_head, hh]; simp only; rw [hv]
          obtain ⟨e, hwf⟩ := (readRecord_iff hs _ _).1 hr
          obtain ⟨h', s4', f1, f2, f3, f4, f5⟩ := record_head hr
          rw [hh] at f1
          cases f1
          have f4' : value.length = h.span := f4
          have hl : s.length = (withValue h value).text.length + rest.length := by rw [e]; simp
          have htl : (withValue h value).text.length = h.text.length + value.length := by rw [withValue_text]; simp
          have hpos := List.length_pos_iff.2 (head_text_ne h)
          rw [if_neg (fun hh => by have := hh.2; omega), farRec_ok hs hr (by omega)]
          have hrd : (rest.drop 1).length ≤ rest.length := by rw [List.length_drop]; omega
          have hs' : ∀ c ∈ rest.drop 1, c.toNat < 128 := by
            intro c hc
            apply hs
            rw [e]
            exact List.mem_append_right _ (List.mem_of_mem_drop hc)
          have ihr := ih (k + (s.length - (rest.drop 1).length)) (rest.drop 1) (by omega) (by omega) hs'
            (hw.imp id fun hw' hwide => hw' (by
              cases rest with
              | nil => exact absurd hwide wide_nil
              | cons sep rest => rw [e]; exact wide_cons hwf hwide))
            (fun v hv => hp1 v (by omega)) (fun v hv => hp2 v (by omega)) (fun v hv => hp3 v (by omega))
          have hreads : (match readRecords masks s with
              | .error e => (.err e : Out RawEmvBlock)
              | .ok rs => .ok ((emvRecords rs).map (Record.node parse' masks))) =
              ((match readRecords masks (rest.drop 1) with
                | .error e => (.err e : Out RawEmvBlock)
                | .ok rs => .ok ((emvRecords rs).map (Record.node parse' masks))) >>= fun ns =>
                .ok ((emvRecords [withValue h value]).map (Record.node parse' masks) ++ ns)) := by
            cases rest with
            | nil =>
              rw [readRecords_last hne hr, List.drop_nil, readRecords_nil]
              simp [emvRecords]
            | cons sep rest =>
              rw [readRecords_cons hne hr, List.drop_succ_cons, List.drop_zero]
              cases readRecords masks rest with
              | error e => rfl
              | ok rs =>
                simp only [Out.ok_bind, ← List.map_append]
                congr 2
                simp [emvRecords, List.filter_cons]
                split <;> rfl
          rw [hreads]
          have hvl : ∀ v, (withValue h value).data masks = .normal v → v.length < s.length := by
            intro v hv
            have h1 := record_value_length hv
            have h2 : (withValue h value).value.length = value.length := rfl
            omega
          simp only
          by_cases hT : h.typ = 'T'
          · rw [if_pos hT]
            obtain ⟨c1, c2⟩ := children_32 (masks := masks) (parse := parse) (parse' := parse')
              (typeOf (withValue h value).tag) ((withValue h value).data masks)
              (fun v hv => hp1 v (hvl v hv)) (fun v hv => hp2 v (hvl v hv)) (fun v hv => hp3 v (hvl v hv))
            have hnode : (emvRecords [withValue h value]).map (Record.node parse' masks) =
                [(withValue h value).node parse' masks] := by
              have : (withValue h value).typ = 'T' := hT
              simp [emvRecords, this]
            by_cases hin : FarInside masks (withValue h value)
            · rw [c1 hin.2]
              exact ⟨fun _ => rfl, fun hn => absurd (Or.inl hin) hn⟩
            · rw [c2 fun h' => hin ⟨hT, h'⟩, hnode]
              simp only [Out.ok_bind]
              refine ⟨fun hfar => ?_, fun hfar => ?_⟩
              · rw [ihr.1 (hfar.resolve_left hin)]; rfl
              · rw [ihr.2 fun h' => hfar (Or.inr h')]; rfl
          · rw [if_neg hT]
            have hin : ¬ FarInside masks (withValue h value) := fun h' => hT h'.1
            have hnode : (emvRecords [withValue h value]).map (Record.node parse' masks) = [] := by
              have : (withValue h value).typ ≠ 'T' := hT
              simp [emvRecords, this]
            rw [hnode]
            simp only [Out.ok_bind]
            refine ⟨fun hfar => ?_, fun hfar => ?_⟩
            · rw [ihr.1 (hfar.resolve_left hin)]; rfl
            · rw [ihr.2 fun h' => hfar (Or.inr h')]; rfl

theorem ingParse_read {m : Machine} (h32 : m.usizeBits = 32) (masks : List Char) (s : Text) (h : s.length < 2 ^ 31)
    (hs : ∀ c ∈ s, c.toNat < 128) :
    ingParse m s masks = read32 m.overflowChecks masks (fun v => berParse m v masks) (s.length + 1) 0 s := by
  have ha : isAscii s = true := (isAscii_iff s).2 hs
  have := ingLoop_32 h32 masks (fun v => berParse m v masks) (s.length + 1) [] s [] (by omega) (by simpa using h) hs
  simp only [List.nil_append, List.length_nil] at this
  rw [ingParse, ha]
  simp only [Bool.not_true, Bool.false_eq_true, if_false]
  rw [this]
  cases read32 m.overflowChecks masks (fun v => berParse m v masks) (s.length + 1) 0 s <;> rfl

/-- The Ingenico parser of a 32-bit build, when nothing wraps. -/
theorem ingParse_32 {m m' : Machine} (h32 : m.usizeBits = 32) (h64 : m'.usizeBits = 64) (masks : List Char) (s : Text)
    (h : s.length < 2 ^ 31) (hs : ∀ c ∈ s, c.toNat < 128) (hw : m.overflowChecks = true ∨ ¬ WideRecord masks s) :
    (FarRecord masks s → ingParse m s masks = .panic) ∧
    (¬ FarRecord masks s → ingParse m s masks = ingParse m' s masks) := by
  rw [ingParse_read h32 masks s h hs, farRecord_iff, ingParse_eq masks s (fits_64 h64 h) hs]
  exact read32_eq m.overflowChecks masks _ (fun v => berParse m' v masks) (s.length + 1) 0 s (by omega) (by omega) hs hw
    (fun v hv => (berParse_32 h32 h64 masks v (by omega)).1) (fun v hv => (berParse_32 h32 h64 masks v (by omega)).2)
    (fun v hv => berParse_returned masks v (fits_64 h64 (by omega)))

/-! ### Builds without overflow checks -/

theorem recordTail {masks : List Char} {s : Text} {r : Record} {t : Text} (hs : ∀ c ∈ s, c.toNat < 128)
    (he : s = r.text ++ t) (hw : r.WF masks) (hlen : s.length < 2 ^ 31) (c : Bool) (parse : List Byte → Out RawEmvBlock)
    (k : Nat) (hk : k + s.length < 2 ^ 32) :
    step32 c masks parse k s =
      if r.typ = 'T' then
        getChildBlock parse (typeOf r.tag) (r.data masks) >>= fun b =>
          .ok (some (.mk ⟨r.tag, classOf r.tag, typeOf r.tag, r.data masks⟩ b), t.drop 1)
      else .ok (none, t.drop 1) := by
  have hr := (readRecord_iff hs r t).2 ⟨he, hw⟩
  obtain ⟨h, s4, g1, g2, g3, g4, g5⟩ := record_head hr
  have hl : s.length = r.text.length + t.length := by rw [he]; simp
  have htl : r.text.length = h.text.length + r.value.length := by rw [g2, withValue_text]; simp [withValue]
  have hlen' : lengthOn c h.fmt h.length = h.length := by
    rw [lengthOn]
    split
    · rename_i hc
      rw [Head.span, if_pos hc.1] at g4
      exact Nat.mod_eq_of_lt (by omega)
    · rfl
  have hspan : spanOn c h.fmt h.length = h.span := by rw [spanOn, Head.span, hlen']
  rw [step32, g1]
  simp only
  rw [hspan, hlen', if_neg (fun h' => by have := h'.2; omega)]
  rw [readRecord_head, g1] at hr
  simp only at hr
  cases hv : readValue masks h.fmt h.length s4 with
  | none => rw [hv] at hr; cases hr
  | some q =>
    obtain ⟨value, rest⟩ := q
    rw [hv] at hr
    cases hr
    rfl

theorem read32_congr {c : Bool} {masks : List Char} {parse : List Byte → Out RawEmvBlock} (x y : Text)
    (hlen : x.length = y.length) (hxy : ∀ fuel k, k + x.length < 2 ^ 31 → read32 c masks parse fuel k x = read32 c masks parse fuel k y)
    (l : List (Record × Char)) (hl : ∀ p ∈ l, p.1.WF masks) (hx : ∀ c ∈ render l ++ x, c.toNat < 128)
    (hy : ∀ c ∈ render l ++ y, c.toNat < 128) (fuel k : Nat) (hk : k + (render l ++ x).length < 2 ^ 31) :
    read32 c masks parse fuel k (render l ++ x) = read32 c masks parse fuel k (render l ++ y) := by
  induction l generalizing fuel k with
  | nil => exact hxy fuel k (by simpa [render] using hk)
  | cons p l ih =>
    have hle : (render (p :: l) ++ x).length = (render (p :: l) ++ y).length := by simp [hlen]
    cases fuel with
    | zero =>
      have h1 : ∀ t, ∃ a b, render (p :: l) ++ t = a :: b := by
        intro t
        rw [render_cons_append, Record.text]
        exact ⟨_, _, rfl⟩
      obtain ⟨a, b, hab⟩ := h1 x
      obtain ⟨a', b', hab'⟩ := h1 y
      rw [hab, hab', read32, read32]
    | succ fuel =>
      have hread : ∀ t, read32 c masks parse (fuel + 1) k (render (p :: l) ++ t) =
          (step32 c masks parse k (render (p :: l) ++ t) >>= fun q =>
            read32 c masks parse fuel (k + ((render (p :: l) ++ t).length - q.2.length)) q.2 >>= fun ns =>
              .ok (q.1.toList ++ ns)) := by
        intro t
        have h1 : ∃ a b, render (p :: l) ++ t = a :: b := by
          rw [render_cons_append, Record.text]
          exact ⟨_, _, rfl⟩
        obtain ⟨a, b, hab⟩ := h1
        rw [hab, read32]
      have hpw := hl p (by simp)
      rw [hread, hread,
        recordTail hx (render_cons_append p l x) hpw (by omega) c parse k (by omega),
        recordTail hy (render_cons_append p l y) hpw (by omega) c parse k (by omega)]
      have hrl : (render (p :: l) ++ x).length = p.1.text.length + 1 + (render l ++ x).length := by
        rw [render_cons_append]; simp; omega
      have key := ih (fun q hq => hl q (by simp [hq]))
        (fun c hc => hx c (by rw [render_cons_append]; exact List.mem_append_right _ (List.mem_cons_of_mem _ hc)))
        (fun c hc => hy c (by rw [render_cons_append]; exact List.mem_append_right _ (List.mem_cons_of_mem _ hc)))
        fuel (k + ((render (p :: l) ++ x).length - (render l ++ x).length)) (by omega)
      simp only [List.drop_succ_cons, List.drop_zero]
      have hl2 : (render l ++ x).length = (render l ++ y).length := by simp [hlen]
      split
      · rw [bind_bind, bind_bind]
        congr 1
        funext b
        simp only [Out.ok_bind]
        rw [key, hle, hl2]
      · simp only [Out.ok_bind]
        rw [key, hle, hl2]

theorem sameLow_text {h h' : Head} (hlow : SameLow h h') : h.text.length = h'.text.length := by
  simp [Head.text, hlow.tagHex, hlow.digits]

theorem read32_low {masks : List Char} {parse : List Byte → Out RawEmvBlock} {h h' : Head} (hw : h.WF) (hw' : h'.WF)
    (hlow : SameLow h h') (rest : Text) (fuel k : Nat) :
    read32 false masks parse fuel k (h.text ++ rest) = read32 false masks parse fuel k (h'.text ++ rest) := by
  have hlen : (h.text ++ rest).length = (h'.text ++ rest).length := by
    rw [List.length_append, List.length_append, sameLow_text hlow]
  have hcons : ∀ g : Head, ∃ a b, g.text ++ rest = a :: b := fun g => ⟨_, _, rfl⟩
  cases fuel with
  | zero =>
    obtain ⟨a, b, hab⟩ := hcons h
    obtain ⟨a', b', hab'⟩ := hcons h'
    rw [hab, hab', read32, read32]
  | succ fuel =>
    have hread : ∀ g : Head, read32 false masks parse (fuel + 1) k (g.text ++ rest) =
        (step32 false masks parse k (g.text ++ rest) >>= fun q =>
          read32 false masks parse fuel (k + ((g.text ++ rest).length - q.2.length)) q.2 >>= fun ns =>
            .ok (q.1.toList ++ ns)) := by
      intro g
      obtain ⟨a, b, hab⟩ := hcons g
      rw [hab, read32]
    have hstep : step32 false masks parse k (h.text ++ rest) = step32 false masks parse k (h'.text ++ rest) := by
      rw [step32, step32, readHead_wf rest hw, readHead_wf rest hw']
      simp only
      have hlo : lengthOn false h.fmt h.length = lengthOn false h'.fmt h'.length := by
        rw [lengthOn, lengthOn, if_pos ⟨hlow.fmt.1, rfl⟩, if_pos ⟨hlow.fmt.2, rfl⟩, hlow.length]
      have hsp : spanOn false h.fmt h.length = spanOn false h'.fmt h'.length := by
        rw [spanOn, spanOn, if_pos hlow.fmt.1, if_pos hlow.fmt.2, hlo]
      have hfm : h.fmt = h'.fmt := by rw [hlow.fmt.1, hlow.fmt.2]
      have htag : ∀ v, (withValue h v).tag = (withValue h' v).tag := by
        intro v
        simp only [Record.tag, withValue, hlow.tagHex]
      have hdata : ∀ v, (withValue h v).data masks = (withValue h' v).data masks := by
        intro v
        have : (Record.mk 'T' [] [] h.fmt v).data masks = (Record.mk 'T' [] [] h'.fmt v).data masks := by rw [hfm]
        exact this
      rw [hlo, hsp, sameLow_text hlow, hfm]
      simp only [htag, hdata, hlow.typ]
    rw [hread, hread, hstep, hlen]

theorem reach_ascii {masks : List Char} {s : Text} {l : List (Record × Char)} {h h' : Head} {rest : Text} (hw' : h'.WF)
    (hr : Reaches masks s l h rest) (hlow : SameLow h h') (hs : ∀ c ∈ s, c.toNat < 128) :
    ∀ c ∈ render l ++ (h'.text ++ rest), c.toNat < 128 := by
  rw [hr.1] at hs
  intro c hc
  rcases List.mem_append.1 hc with hc | hc
  · exact hs c (List.mem_append_left _ hc)
  · rcases List.mem_append.1 hc with hc | hc
    · have old : ∀ c ∈ h.text, c.toNat < 128 := fun c hc =>
        hs c (List.mem_append_right _ (List.mem_append_left _ hc))
      simp only [Head.text, List.mem_cons, List.mem_append, List.not_mem_nil, or_false] at hc old
      rcases hc with rfl | hc | rfl | hc | rfl | rfl
      · exact old _ (Or.inl hlow.typ.symm)
      · exact ascii_of_isHex (hw'.tagHex c hc)
      · decide
      · exact ascii_of_isHex (hw'.lenHex c hc)
      · decide
      · rw [hlow.fmt.2]; decide
    · exact hs c (List.mem_append_right _ (List.mem_append_right _ hc))

theorem sameLow_symm {h h' : Head} (hl : SameLow h h') : SameLow h' h :=
  ⟨hl.typ.symm, hl.tagHex.symm, hl.fmt.symm, hl.digits.symm, hl.length.symm⟩

/-- Without overflow checks the announced lengths of records in hex matter up to multiples of 2^31 only. -/
theorem ingParse_low {m : Machine} (h32 : m.usizeBits = 32) (hc : m.overflowChecks = false) (masks : List Char)
    {s s' : Text} {l : List (Record × Char)} {h h' : Head} {rest : Text} (h1 : Reaches masks s l h rest)
    (h2 : Reaches masks s' l h' rest) (hlow : SameLow h h') (hlen : s.length < 2 ^ 31) :
    ingParse m s masks = ingParse m s' masks := by
  have hll : (h.text ++ rest).length = (h'.text ++ rest).length := by
    rw [List.length_append, List.length_append, sameLow_text hlow]
  have hlen' : s.length = s'.length := by
    rw [h1.1, h2.1]; simp only [List.length_append] at hll ⊢; omega
  by_cases hs : ∀ c ∈ s, c.toNat < 128
  · have hs' : ∀ c ∈ s', c.toNat < 128 := by rw [h2.1]; exact reach_ascii h2.2.2 h1 hlow hs
    rw [ingParse_read h32 masks s hlen hs, ingParse_read h32 masks s' (by omega) hs', hc, ← hlen']
    have e1 := h1.1
    have e2 := h2.1
    subst e1 e2
    exact read32_congr _ _ hll (fun fuel k _ => read32_low h1.2.2 h2.2.2 hlow rest fuel k) l h1.2.1 hs hs' _ 0 (by omega)
  · have hs' : ¬ ∀ c ∈ s', c.toNat < 128 := by
      intro hs'
      apply hs
      rw [h1.1]
      exact reach_ascii h1.2.2 h2 (sameLow_symm hlow) hs'
    rw [ingParse_nonascii masks s hs, ingParse_nonascii masks s' hs']

theorem rewritten_parse {m : Machine} (h32 : m.usizeBits = 32) (hc : m.overflowChecks = false) {masks : List Char}
    {s s' : Text} (h : Rewritten masks s s') (hlen : s.length < 2 ^ 31) :
    ingParse m s masks = ingParse m s' masks ∧ s.length = s'.length ∧
      ((∀ c ∈ s, c.toNat < 128) → ∀ c ∈ s', c.toNat < 128) := by
  induction h with
  | refl s => exact ⟨rfl, rfl, id⟩
  | step s s' s'' l h h' rest h1 h2 hlow _ ih =>
    have hll : (h.text ++ rest).length = (h'.text ++ rest).length := by
      rw [List.length_append, List.length_append, sameLow_text hlow]
    have hlen' : s.length = s'.length := by
      rw [h1.1, h2.1]; simp only [List.length_append] at hll ⊢; omega
    obtain ⟨i1, i2, i3⟩ := ih (by omega)
    refine ⟨(ingParse_low h32 hc masks h1 h2 hlow hlen).trans i1, by omega, fun hs => i3 ?_⟩
    rw [h2.1]
    exact reach_ascii h2.2.2 h1 hlow hs

/-! ### Texts without wide records -/

/-- Four bytes. -/
def bytes4 (n : Nat) : List Byte :=
  [UInt8.ofNat (n / 256 ^ 3), UInt8.ofNat (n / 256 ^ 2), UInt8.ofNat (n / 256), UInt8.ofNat n]

theorem beValue_bytes4 {n : Nat} (h : n < 2 ^ 32) : beValue (bytes4 n) = n := by
  simp [beValue, bytes4, ofDigits]
  omega

theorem wholeBytes_hexText (bs : List Byte) : WholeBytes (hexText bs) := by
  have h := hexBytes_length (t := hexText bs) (hexText_digits bs).1
  have h1 := (hexText_digits bs).2.1
  rw [WholeBytes, hexDigits_length (hexText_digits bs).1]
  omega

theorem clear_head {h : Head} (hw : h.WF) (hf : h.fmt = 'h') (hb : 2 ^ 31 ≤ h.length) :
    ∃ h' : Head, h'.WF ∧ SameLow h h' ∧ h'.length < 2 ^ 31 := by
  have h8 : 8 ≤ h.lenHex.length := by
    apply Classical.byContradiction
    intro hn
    have h3 : (hexBytes h.lenHex).length ≤ 3 := by rw [hexBytes_length hw.lenHex]; omega
    have : h.length < 2 ^ 24 := calc
      h.length < 256 ^ (hexBytes h.lenHex).length := beValue_lt _
      _ ≤ 256 ^ 3 := Nat.pow_le_pow_right (by omega) h3
      _ = 2 ^ 24 := by decide
    omega
  have h9 := hw.lenLen
  have hd := hexText_digits (bytes4 (h.length % 2 ^ 31))
  have hlen : (hexText (bytes4 (h.length % 2 ^ 31))).length = 8 := hd.2.1
  have hrest : ∀ c ∈ h.lenHex.drop 8, IsHex c := fun c hc => hw.lenHex c (List.mem_of_mem_drop hc)
  have hval : beValue (hexBytes (hexText (bytes4 (h.length % 2 ^ 31)) ++ h.lenHex.drop 8)) = h.length % 2 ^ 31 := by
    rw [hexBytes_append _ _ (wholeBytes_hexText _), hexBytes_hexText,
      (hexBytes_eq_nil hrest).2 (by rw [List.length_drop]; omega), List.append_nil, beValue_bytes4]
    have := Nat.mod_lt h.length (show 0 < 2 ^ 31 by decide)
    omega
  have hmod := Nat.mod_lt h.length (show 0 < 2 ^ 31 by decide)
  refine ⟨⟨h.typ, h.tagHex, hexText (bytes4 (h.length % 2 ^ 31)) ++ h.lenHex.drop 8, 'h'⟩,
    ⟨hw.tagHex, hw.tagLen, ?_, ?_, Or.inr rfl⟩, ⟨rfl, rfl, ⟨hf, rfl⟩, ?_, ?_⟩, ?_⟩
  · intro c hc
    rcases List.mem_append.1 hc with hc | hc
    · exact hd.1 c hc
    · exact hrest c hc
  · simp only [List.length_append, hlen, List.length_drop]; omega
  · simp only [List.length_append, hlen, List.length_drop]; omega
  · rw [show (Head.mk h.typ h.tagHex (hexText (bytes4 (h.length % 2 ^ 31)) ++ h.lenHex.drop 8) 'h').length =
      h.length % 2 ^ 31 from hval, Nat.mod_mod]
  · rw [show (Head.mk h.typ h.tagHex (hexText (bytes4 (h.length % 2 ^ 31)) ++ h.lenHex.drop 8) 'h').length =
      h.length % 2 ^ 31 from hval]
    exact hmod

theorem wide_first {masks : List Char} {s : Text} {h : Head} {s4 : Text} (hs : ∀ c ∈ s, c.toNat < 128)
    (hh : readHead s = .ok (h, s4)) (hn : h.fmt = 'h' → h.length < 2 ^ 31) (hw : WideRecord masks s) :
    ∃ r sep rest, readRecord masks s = .ok (r, sep :: rest) ∧ WideRecord masks rest := by
  obtain ⟨l, g, rest, ⟨h1, h2, h3⟩, h4, h5⟩ := hw
  cases l with
  | nil =>
    exfalso
    obtain ⟨rfl, -⟩ := head_split h3 hh h1
    have := hn h4
    omega
  | cons p l =>
    rw [render_cons_append] at h1
    exact ⟨p.1, p.2, _, (readRecord_iff hs _ _).2 ⟨h1, h2 p (by simp)⟩, l, g, rest,
      ⟨rfl, fun q hq => h2 q (by simp [hq]), h3⟩, h4, h5⟩

theorem rewritten_cons {masks : List Char} {r : Record} (hw : r.WF masks) (sep : Char) {s s' : Text}
    (h : Rewritten masks s s') : Rewritten masks (r.text ++ sep :: s) (r.text ++ sep :: s') := by
  induction h with
  | refl s => exact .refl _
  | step s s' s'' l h h' rest h1 h2 hlow _ ih =>
    have hall : ∀ p ∈ (r, sep) :: l, p.1.WF masks := by
      intro p hp
      rcases List.mem_cons.1 hp with rfl | hp
      · exact hw
      · exact h1.2.1 p hp
    refine .step _ _ _ ((r, sep) :: l) h h' rest ⟨?_, hall, h1.2.2⟩ ⟨?_, hall, h2.2.2⟩ hlow ih
    · rw [render_cons_append, h1.1]
    · rw [render_cons_append, h2.1]

theorem rewritten_ascii {masks : List Char} {s s' : Text} (h : Rewritten masks s s') :
    s.length = s'.length ∧ ((∀ c ∈ s, c.toNat < 128) → ∀ c ∈ s', c.toNat < 128) := by
  induction h with
  | refl s => exact ⟨rfl, id⟩
  | step s s' s'' l h h' rest h1 h2 hlow _ ih =>
    have hll : (h.text ++ rest).length = (h'.text ++ rest).length := by
      rw [List.length_append, List.length_append, sameLow_text hlow]
    have hlen' : s.length = s'.length := by
      rw [h1.1, h2.1]; simp only [List.length_append] at hll ⊢; omega
    refine ⟨by omega, fun hs => ih.2 ?_⟩
    rw [h2.1]
    exact reach_ascii h2.2.2 h1 hlow hs

/-- Every text can be rewritten so that no record in hex announces 2^31 bytes or more. -/
theorem rewritten_exists (masks : List Char) (n : Nat) : ∀ s : Text, s.length ≤ n → (∀ c ∈ s, c.toNat < 128) →
    ∃ s', Rewritten masks s s' ∧ ¬ WideRecord masks s' := by
  induction n with
  | zero =>
    intro s hl _
    have : s = [] := List.length_eq_zero_iff.1 (by omega)
    subst this
    exact ⟨[], .refl _, wide_nil⟩
  | succ n ih =>
    intro s hl hs
    cases hh : readHead s with
    | error e =>
      refine ⟨s, .refl _, ?_⟩
      rintro ⟨l, g, rest, ⟨h1, h2, h3⟩, -⟩
      cases l with
      | nil =>
        rw [show s = g.text ++ rest from h1, readHead_wf rest h3] at hh
        cases hh
      | cons p l =>
        rw [render_cons_append] at h1
        have hr := (readRecord_iff hs _ _).2 ⟨h1, h2 p (by simp)⟩
        rw [readRecord_head, hh] at hr
        cases hr
    | ok q =>
      obtain ⟨h, s4⟩ := q
      obtain ⟨g1, g2, g3, g4, g5⟩ := readHead_spec hh
      -- the head with a small length
      obtain ⟨h', e1, e2, e3⟩ : ∃ h' : Head, Rewritten masks s (h'.text ++ s4) ∧
          (∀ t, readHead (h'.text ++ t) = .ok (h', t)) ∧ (h'.fmt = 'h' → h'.length < 2 ^ 31) := by
        by_cases hb : h.fmt = 'h' ∧ 2 ^ 31 ≤ h.length
        · have hw : h.WF := ⟨g2, g3, g4, g5, Or.inr hb.1⟩
          obtain ⟨h', k1, k2, k3⟩ := clear_head hw hb.1 hb.2
          exact ⟨h', .step _ _ _ [] h h' s4 ⟨g1, by simp, hw⟩ ⟨rfl, by simp, k1⟩ k2 (.refl _),
            fun t => readHead_wf t k1, fun _ => k3⟩
        · refine ⟨h, g1 ▸ .refl _, fun t => readHead_text t g2 g3 g4 g5, fun hf => ?_⟩
          apply Classical.byContradiction
          intro hn
          exact hb ⟨hf, by omega⟩
      have hs1 := (rewritten_ascii e1).2 hs
      have hl1 := (rewritten_ascii e1).1
      by_cases hwide : WideRecord masks (h'.text ++ s4)
      · obtain ⟨r, sep, rest, hr, -⟩ := wide_first hs1 (e2 s4) e3 hwide
        obtain ⟨k1, k2⟩ := (readRecord_iff hs1 _ _).1 hr
        have hll : s.length = r.text.length + (rest.length + 1) := by rw [hl1, k1]; simp
        obtain ⟨rest', i1, i2⟩ := ih rest (by omega) (fun c hc => hs1 c (by rw [k1]; simp [hc]))
        have htrans : ∀ {a b c : Text}, Rewritten masks a b → Rewritten masks b c → Rewritten masks a c := by
          intro a b c hab hbc
          induction hab with
          | refl _ => exact hbc
          | step s s' s'' l h h' rest h1 h2 hlow _ ih => exact .step _ _ _ l h h' rest h1 h2 hlow (ih hbc)
        have hrw := htrans e1 (k1 ▸ rewritten_cons k2 sep i1)
        refine ⟨r.text ++ sep :: rest', hrw, fun hwide' => ?_⟩
        have hs2 := (rewritten_ascii hrw).2 hs
        obtain ⟨h'', s4', f1, f2, f3, -⟩ := record_head hr
        rw [e2 s4] at f1
        cases f1
        have hhead : readHead (r.text ++ sep :: rest') = .ok (h', r.value ++ sep :: rest') := by
          have : r.text = h'.text ++ r.value := by
            conv => lhs; rw [f2, withValue_text]
          rw [this, List.append_assoc]
          exact e2 _
        obtain ⟨r2, sep2, rest2, hr2, hw2⟩ := wide_first hs2 hhead e3 hwide'
        rw [(readRecord_iff hs2 r (sep :: rest')).2 ⟨rfl, k2⟩] at hr2
        cases hr2
        exact i2 hw2
      · exact ⟨_, e1, hwide⟩

/-! ### The whole program -/

theorem tlvParse_32 {m m' : Machine} (h32 : m.usizeBits = 32) (h64 : m'.usizeBits = 64) (masks : List Char)
    (op : Operation) (s : Text) (h : s.length < 2 ^ 31)
    (hw : op = .berTlv ∨ m.overflowChecks = true ∨ ¬ WideRecord masks s) :
    (FarInput masks op s → tlvParse m masks op s = .panic) ∧
    (¬ FarInput masks op s → tlvParse m masks op s = tlvParse m' masks op s) := by
  have hb : (hexBytes s).length < 2 ^ 31 := by have := hexBytes_length_le s; omega
  obtain ⟨b1, b2⟩ := berParse_32 h32 h64 masks (hexBytes s) hb
  have hing : (m.overflowChecks = true ∨ ¬ WideRecord masks s) →
      ((∀ c ∈ s, c.toNat < 128) ∧ FarRecord masks s → ingParse m s masks = .panic) ∧
      (¬ ((∀ c ∈ s, c.toNat < 128) ∧ FarRecord masks s) → ingParse m s masks = ingParse m' s masks) := by
    intro hw
    by_cases hs : ∀ c ∈ s, c.toNat < 128
    · obtain ⟨i1, i2⟩ := ingParse_32 h32 h64 masks s h hs hw
      exact ⟨fun hf => i1 hf.2, fun hf => i2 fun hf' => hf ⟨hs, hf'⟩⟩
    · refine ⟨fun hf => absurd hf.1 hs, fun _ => ?_⟩
      rw [ingParse_nonascii masks s hs, ingParse_nonascii masks s hs]
  cases op with
  | berTlv =>
    simp only [FarInput, tlvParse, hexBytes_eq]
    exact ⟨fun hf => by rw [b1 hf]; rfl, fun hf => by rw [b2 hf]⟩
  | ingenicoTlv =>
    obtain ⟨i1, i2⟩ := hing (hw.resolve_left (by decide))
    simp only [FarInput, tlvParse]
    exact ⟨fun hf => by rw [i1 hf]; rfl, fun hf => by rw [i2 hf]⟩
  | autoTlv =>
    obtain ⟨i1, i2⟩ := hing (hw.resolve_left (by decide))
    simp only [FarInput, tlvParse]
    by_cases hne : s = []
    · subst hne
      have hnb : ¬ FarEnd masks (hexBytes []) := by
        intro hf
        exact farFrom_ne (farEnd_iff.1 hf) rfl
      constructor
      · rintro (⟨-, hf⟩ | ⟨-, hf⟩)
        · exact absurd (farRecord_iff.1 hf) farRec_nil
        · exact absurd hf hnb
      · intro _
        rw [autoParse, autoParse, if_pos rfl, if_pos rfl]
    · rw [autoParse, autoParse, if_neg hne, if_neg hne]
      by_cases hf : (∀ c ∈ s, c.toNat < 128) ∧ FarRecord masks s
      · rw [i1 hf]
        exact ⟨fun _ => rfl, fun hn => absurd (Or.inl hf) hn⟩
      · rw [i2 hf]
        have hbad : ((∃ c ∈ s, ¬ c.toNat < 128) ∨ ¬ FarRecord masks s ∧ ¬ ∃ rs, IsIngenico masks s rs) ↔
            ∃ e, ingParse m' s masks = .err e := by
          by_cases hs : ∀ c ∈ s, c.toNat < 128
          · rw [ingParse_eq masks s (fits_64 h64 h) hs]
            constructor
            · rintro (⟨c, hc, hc'⟩ | ⟨-, hn⟩)
              · exact absurd (hs c hc) hc'
              · cases hr : readRecords masks s with
                | error e => exact ⟨e, rfl⟩
                | ok rs => exact absurd ⟨rs, (readRecords_iff hs rs).1 hr⟩ hn
            · rintro ⟨e, he⟩
              refine Or.inr ⟨fun h' => hf ⟨hs, h'⟩, ?_⟩
              rintro ⟨rs, hrs⟩
              rw [(readRecords_iff hs rs).2 hrs] at he
              cases he
          · refine ⟨fun _ => ⟨_, ingParse_nonascii masks s hs⟩, fun _ => Or.inl ?_⟩
            simpa using hs
        rw [hbad]
        have hret : (∃ ns, ingParse m' s masks = .ok ns) ∨ ∃ e, ingParse m' s masks = .err e := by
          have := ingParse_returned masks s (fits_64 h64 h)
          cases hi : ingParse m' s masks with
          | ok ns => exact Or.inl ⟨ns, rfl⟩
          | err e => exact Or.inr ⟨e, rfl⟩
          | panic => rw [hi] at this; cases this
          | diverge => rw [hi] at this; cases this
        rcases hret with ⟨ns, hi⟩ | ⟨e, hi⟩
        · rw [hi]
          refine ⟨?_, fun _ => rfl⟩
          rintro (hf' | ⟨⟨e, he⟩, -⟩)
          · exact absurd hf' hf
          · cases he
        · rw [hi]
          simp only
          rw [hexBytes_eq]
          refine ⟨?_, fun hn => ?_⟩
          · rintro (hf' | ⟨-, hfe⟩)
            · exact absurd hf' hf
            · rw [b1 hfe]; rfl
          · rw [b2 fun hfe => hn (Or.inr ⟨⟨e, rfl⟩, hfe⟩)]
  | _ => exact ⟨fun hf => absurd hf id, fun _ => rfl⟩

end Pemv
