import Verif.Proofs.Util
import Verif.Spec.Ber
import Verif.Model.Ber

/-! # Refinement of the BER-TLV parser: from indices to suffixes to the grammar -/

namespace Pemv

open Spec

/-! ### Machine arithmetic and slices -/

theorem norm_ok {m : Machine} {n : Nat} (h : n < 2 ^ m.usizeBits) : m.norm n = .ok n := by
  simp [Machine.norm, h]

theorem add_ok {m : Machine} {a b : Nat} (h : a + b < 2 ^ m.usizeBits) : m.add a b = .ok (a + b) :=
  norm_ok h

theorem mul_ok {m : Machine} {a b : Nat} (h : a * b < 2 ^ m.usizeBits) : m.mul a b = .ok (a * b) :=
  norm_ok h

theorem index_append {α : Type} (pre : List α) (x : α) (rest : List α) :
    index (pre ++ x :: rest) pre.length = .ok x := by
  simp [index]

theorem slice_append {α : Type} (pre mid rest : List α) (a b : Nat) (ha : a = pre.length)
    (hb : b = pre.length + mid.length) : slice (pre ++ mid ++ rest) a b = .ok mid := by
  subst ha hb
  rw [slice, if_pos]
  · simp [List.append_assoc]
  · constructor
    · omega
    · simp

/-! ### Suffix functions -/

/-- The continuation bytes of a tag. -/
def readCont : List Byte → Option (List Byte × List Byte)
  | [] => none
  | c :: r =>
    if 128 ≤ c.toNat then (readCont r).map (fun p => (c :: p.1, p.2)) else some ([c], r)

/-- A tag at the start of a byte sequence. -/
def readTag : List Byte → Option (List Byte × List Byte)
  | [] => none
  | b :: r => if b.toNat % 32 = 31 then (readCont r).map (fun p => (b :: p.1, p.2)) else some ([b], r)

/-- A length field at the start of a byte sequence: the field, the length, the rest. -/
def readLen : List Byte → Except ParseError (List Byte × Nat × List Byte)
  | [] => .error .nonCompliant
  | b :: r =>
    if b.toNat < 128 then .ok ([b], b.toNat, r)
    else if b.toNat - 128 > 4 then .error .unsupported
    else if r.length ≤ b.toNat - 128 then .error .nonCompliant
    else .ok (b :: r.take (b.toNat - 128), beValue (r.take (b.toNat - 128)), r.drop (b.toNat - 128))

/-- A data object at the start of a byte sequence. -/
def readElem (bs : List Byte) : Except ParseError (Elem × List Byte) :=
  match readTag bs with
  | none => .error .nonCompliant
  | some (tag, r) =>
    match readLen r with
    | .error e => .error e
    | .ok (len, n, r) =>
      if r.length < n then .error .nonCompliant else .ok (⟨tag, len, r.take n⟩, r.drop n)

/-! ### Bytes -/

theorem bit_1f (b : Byte) : (0x1F &&& b = 0x1F) ↔ b.toNat % 32 = 31 :=
  forall_byte (P := fun b => (0x1F &&& b = 0x1F) ↔ b.toNat % 32 = 31) (by decide +kernel) b

theorem bit_80 (b : Byte) : (0x80 &&& b > 0) ↔ 128 ≤ b.toNat :=
  forall_byte (P := fun b => (0x80 &&& b > 0) ↔ 128 ≤ b.toNat) (by decide +kernel) b

theorem bits_7f (b : Byte) : 128 ≤ b.toNat → (0x7F &&& b).toNat = b.toNat - 128 :=
  forall_byte (P := fun b => 128 ≤ b.toNat → (0x7F &&& b).toNat = b.toNat - 128) (by decide +kernel) b

theorem parseTagMetadata_eq (b : Byte) (r : List Byte) :
    parseTagMetadata b = .ok (classOf (b :: r), typeOf (b :: r)) :=
  forall_byte (P := fun b => parseTagMetadata b = .ok (classOf (b :: r), typeOf (b :: r)))
    (by
      have key : ∀ n, n < 256 →
          parseTagMetadata (UInt8.ofNat n) = .ok (classOf [UInt8.ofNat n], typeOf [UInt8.ofNat n]) := by
        decide +kernel
      exact key) b

/-! ### Masking -/

theorem isMaskedU8_iff (data : List Byte) (masks : List Char) :
    isMaskedU8 data masks = true ↔ IsMasked (latin1 data) masks := by
  rw [isMaskedU8, IsMasked, latin1, List.length_map]
  split
  · rename_i h
    simp only [Bool.false_eq_true, false_iff]
    omega
  · rename_i h
    simp only [List.any_eq_true, List.all_eq_true, byteAsChar, beq_iff_eq, List.mem_map,
      forall_exists_index, and_imp, forall_apply_eq_imp_iff₂]
    constructor
    · exact fun h' => ⟨by omega, h'⟩
    · exact fun h' => h'.2

theorem fromU8_eq (data : List Byte) (masks : List Char) :
    EmvData.fromU8CheckForMasked data masks = dataOf data masks := by
  rw [EmvData.fromU8CheckForMasked, dataOf]
  by_cases h : IsMasked (latin1 data) masks
  · rw [if_pos h, if_pos ((isMaskedU8_iff data masks).2 h)]
  · rw [if_neg h, if_neg (fun h' => h ((isMaskedU8_iff data masks).1 h'))]

/-! ### The tag loop -/

theorem readCont_spec {r tag rest : List Byte} (h : readCont r = some (tag, rest)) :
    r = tag ++ rest ∧ tag ≠ [] := by
  induction r generalizing tag with
  | nil => cases h
  | cons c r ih =>
    rw [readCont] at h
    split at h
    · cases hr : readCont r with
      | none => rw [hr] at h; cases h
      | some p =>
        obtain ⟨t, r'⟩ := p
        rw [hr] at h
        cases h
        exact ⟨by rw [(ih hr).1]; rfl, by simp⟩
    · cases h; exact ⟨rfl, by simp⟩

theorem berTagLoop_cont {m : Machine} (pre : List Byte) (r : List Byte) (x : Byte) (fuel : Nat)
    (hf : r.length < fuel) (hm : pre.length + r.length + 2 < 2 ^ m.usizeBits) :
    berTagLoop m (pre ++ x :: r) fuel pre.length true =
      match readCont r with
      | none => .err .nonCompliant
      | some (t, _) => .ok (pre.length + t.length) := by
  induction r generalizing pre x fuel with
  | nil =>
    cases fuel with
    | zero => simp at hf
    | succ fuel =>
      rw [berTagLoop, add_ok (by simp at hm; omega)]
      simp [readCont]
  | cons c r ih =>
    cases fuel with
    | zero => simp at hf
    | succ fuel =>
      simp only [List.length_cons] at hm hf
      rw [berTagLoop, add_ok (by omega)]
      have hlen : ¬ pre.length + 1 ≥ (pre ++ x :: c :: r).length := by simp
      have hidx : index (pre ++ x :: c :: r) (pre.length + 1) = .ok c := by
        have := index_append (pre ++ [x]) c r
        simpa using this
      simp only [Out.ok_bind, if_neg hlen, hidx, readCont]
      by_cases hc : 128 ≤ c.toNat
      · rw [decide_eq_true ((bit_80 c).2 hc), if_pos hc]
        have := ih (pre ++ [x]) c fuel (by omega) (by simp; omega)
        simp only [List.append_assoc, List.singleton_append, List.length_append, List.length_cons,
          List.length_nil, Nat.zero_add] at this
        rw [this]
        cases readCont r with
        | none => rfl
        | some p => simp; omega
      · rw [decide_eq_false (fun h => hc ((bit_80 c).1 h)), if_neg hc]
        simp [berTagLoop]

theorem berTagLoop_start {m : Machine} (pre : List Byte) (r : List Byte) (b : Byte)
    (hm : pre.length + r.length + 2 < 2 ^ m.usizeBits) :
    berTagLoop m (pre ++ b :: r) ((pre ++ b :: r).length + 1) pre.length (decide (0x1F &&& b = 0x1F)) =
      match readTag (b :: r) with
      | none => .err .nonCompliant
      | some (t, _) => .ok (pre.length + t.length - 1) := by
  rw [readTag]
  by_cases hb : b.toNat % 32 = 31
  · rw [decide_eq_true ((bit_1f b).2 hb), if_pos hb,
      berTagLoop_cont pre r b _ (by simp; omega) hm]
    cases readCont r with
    | none => rfl
    | some p => simp
  · rw [decide_eq_false (fun h => hb ((bit_1f b).1 h)), if_neg hb]
    simp [berTagLoop]

theorem readTag_spec {bs tag rest : List Byte} (h : readTag bs = some (tag, rest)) :
    bs = tag ++ rest ∧ tag ≠ [] := by
  cases bs with
  | nil => cases h
  | cons b r =>
    rw [readTag] at h
    split at h
    · cases hr : readCont r with
      | none => rw [hr] at h; cases h
      | some p =>
        obtain ⟨t, r'⟩ := p
        rw [hr] at h
        cases h
        exact ⟨by rw [(readCont_spec hr).1]; rfl, by simp⟩
    · cases h; exact ⟨rfl, by simp⟩

/-! ### The length field -/

theorem berLength_eq {m : Machine} (pre r : List Byte) (hr : r ≠ [])
    (hm : pre.length + r.length + 8 < 2 ^ m.usizeBits) :
    berLength m (pre ++ r) pre.length =
      match readLen r with
      | .error e => .err e
      | .ok (len, n, _) => .ok (pre.length + len.length, n) := by
  cases r with
  | nil => exact absurd rfl hr
  | cons b r =>
    simp only [List.length_cons] at hm
    rw [berLength, index_append, readLen]
    simp only [Out.ok_bind]
    by_cases hb : b.toNat < 128
    · rw [if_neg (fun h => absurd ((bit_80 b).1 h) (by omega)), add_ok (by omega), if_pos hb]
      simp
    · have hb' : 128 ≤ b.toNat := by omega
      rw [if_pos ((bit_80 b).2 hb'), if_neg hb, bits_7f b hb']
      generalize hk : b.toNat - 128 = k
      by_cases h4 : k > 4
      · rw [if_pos h4, if_pos h4]
      · rw [if_neg h4, if_neg h4, add_ok (by omega)]
        simp only [Out.ok_bind]
        rw [add_ok (by omega)]
        simp only [Out.ok_bind]
        by_cases hl : r.length ≤ k
        · rw [if_pos hl, if_pos]
          simp; omega
        · rw [if_neg hl, if_neg (by simp; omega), add_ok (by omega)]
          simp only [Out.ok_bind]
          rw [add_ok (by omega)]
          simp only [Out.ok_bind]
          have hs : slice (pre ++ b :: r) (pre.length + 1) (pre.length + k + 1) = .ok (r.take k) := by
            have := slice_append (pre ++ [b]) (r.take k) (r.drop k) (pre.length + 1)
              (pre.length + k + 1) (by simp) (by simp; omega)
            simpa using this
          rw [hs]
          simp only [Out.ok_bind]
          rw [byteSliceToU32_ok (by simp; omega)]
          have : (b :: r.take k).length = 1 + k := by simp; omega
          rw [this]
          rfl

theorem readLen_spec {r len rest : List Byte} {n : Nat} (h : readLen r = .ok (len, n, rest)) :
    r = len ++ rest ∧ IsLength len n ∧
      (∀ b, len.head? = some b → 128 ≤ b.toNat → rest ≠ []) := by
  cases r with
  | nil => cases h
  | cons b r =>
    rw [readLen] at h
    split at h
    · rename_i hb
      cases h
      exact ⟨rfl, .short b hb, by simp; omega⟩
    · split at h
      · cases h
      · split at h
        · cases h
        · rename_i hb h4 hl
          simp only [Except.ok.injEq, Prod.mk.injEq] at h
          obtain ⟨rfl, rfl, rfl⟩ := h
          have hlen : (r.take (b.toNat - 128)).length = b.toNat - 128 := by
            rw [List.length_take]; omega
          refine ⟨by simp, .long b _ ?_ ?_, ?_⟩
          · rw [hlen]; omega
          · rw [hlen]; omega
          · intro _ _ _ hd
            simp at hd
            omega

theorem isLength_lt {len : List Byte} {n : Nat} (h : IsLength len n) : n < 2 ^ 32 := by
  cases h with
  | short b h => omega
  | long b ds h h4 =>
    calc beValue ds < 256 ^ ds.length := beValue_lt ds
      _ ≤ 256 ^ 4 := Nat.pow_le_pow_right (by omega) h4
      _ = 2 ^ 32 := by decide

/-! ### One step -/

/-- The children of an object, as the code computes them from a parser for nested values. -/
theorem getChildBlock_eq (parse : List Byte → Out RawEmvBlock) (masks : List Char) (e : Elem)
    (h : (parse e.value).isReturned = true) :
    getChildBlock parse (typeOf e.tag) (dataOf e.value masks) =
      .ok (nodeOf parse masks e).childBlock := by
  rw [nodeOf, dataOf, RawEmvNode.childBlock]
  by_cases hm : IsMasked (latin1 e.value) masks
  · simp only [hm, if_true, not_true, and_false, if_false]
    cases typeOf e.tag <;> rfl
  · simp only [hm, if_false, not_false_iff, and_true]
    cases typeOf e.tag with
    | primitive => simp [getChildBlock]
    | constructed =>
      simp only [getChildBlock, if_true]
      cases hp : parse e.value <;> rw [hp] at h <;> first | rfl | cases h

theorem berStep_eq {m : Machine} (masks : List Char) (parse : List Byte → Out RawEmvBlock)
    (pre r : List Byte) (hr : r ≠ []) (hm : Fits m (pre.length + r.length))
    (hp : ∀ v : List Byte, v.length + 2 ≤ r.length → (parse v).isReturned = true) :
    berStep m masks parse (pre ++ r) pre.length =
      match readElem r with
      | .error e => .err e
      | .ok (e, _) => .ok (nodeOf parse masks e, pre.length + e.bytes.length) := by
  have hM : pre.length + r.length + 2 ^ 34 ≤ 2 ^ m.usizeBits := hm
  generalize hP : 2 ^ m.usizeBits = P at hM
  cases r with
  | nil => exact absurd rfl hr
  | cons b r =>
    rw [berStep, index_append]
    simp only [Out.ok_bind]
    simp only [List.length_cons] at hM
    rw [berTagLoop_start pre r b (by omega), readElem]
    cases ht : readTag (b :: r) with
    | none =>
      rw [parseTagMetadata_eq b r]; simp
    | some p =>
      obtain ⟨tag, r1⟩ := p
      obtain ⟨hsplit, htne⟩ := readTag_spec ht
      have hhead : ∃ t, tag = b :: t := by
        cases tag with
        | nil => exact absurd rfl htne
        | cons x t => simp at hsplit; exact ⟨t, by rw [hsplit.1]⟩
      obtain ⟨t, rfl⟩ := hhead
      have hlenr : (b :: r).length = (b :: t).length + r1.length := by rw [hsplit]; simp; omega
      simp only [List.length_cons] at hlenr
      rw [parseTagMetadata_eq b t, hsplit]
      simp only [Out.ok_bind, List.length_cons]
      rw [show pre.length + (t.length + 1) - 1 = pre.length + t.length by omega,
        add_ok (by omega)]
      simp only [Out.ok_bind]
      cases r1 with
      | nil =>
        rw [if_pos (by simp; omega)]
        simp [readLen]
      | cons l r2 =>
        simp only [List.length_cons] at hlenr
        rw [if_neg (by simp; omega)]
        have hbl := berLength_eq (m := m) (pre ++ b :: t) (l :: r2) (by simp)
          (by rw [hP]; simp; omega)
        rw [List.append_assoc, show (pre ++ b :: t).length = pre.length + t.length + 1 by simp; omega] at hbl
        rw [hbl]
        cases hrl : readLen (l :: r2) with
        | error e => simp
        | ok q =>
          obtain ⟨len, n, r3⟩ := q
          obtain ⟨hs2, hlen, -⟩ := readLen_spec hrl
          have hn := isLength_lt hlen
          have hlpos : 0 < len.length := by cases hlen <;> simp
          have hlenr2 : (l :: r2).length = len.length + r3.length := by rw [hs2]; simp
          simp only [List.length_cons] at hlenr2
          simp only [Out.ok_bind]
          rw [add_ok (by omega)]
          simp only [Out.ok_bind]
          rw [add_ok (by simp; omega)]
          simp only [Out.ok_bind]
          by_cases hlt : r3.length < n
          · rw [if_pos hlt, if_pos (by simp; omega)]
          · rw [if_neg hlt, if_neg (by simp; omega), hs2]
            have hsl : slice (pre ++ (b :: t ++ (len ++ r3))) (pre.length + t.length + 1 + len.length)
                (pre.length + t.length + 1 + len.length + n) = .ok (r3.take n) := by
              have := slice_append (pre ++ b :: t ++ len) (r3.take n) (r3.drop n)
                (pre.length + t.length + 1 + len.length)
                (pre.length + t.length + 1 + len.length + n) (by simp; omega) (by simp; omega)
              simpa using this
            rw [hsl]
            simp only [Out.ok_bind]
            have hsl2 : slice (pre ++ (b :: t ++ (len ++ r3))) pre.length
                (pre.length + t.length + 1) = .ok (b :: t) := by
              have := slice_append pre (b :: t) (len ++ r3) pre.length (pre.length + t.length + 1)
                rfl (by simp; omega)
              simpa using this
            have hgc := getChildBlock_eq parse masks ⟨b :: t, len, r3.take n⟩ (hp _ (by simp; omega))
            rw [fromU8_eq, hgc]
            simp only [Out.ok_bind]
            rw [hsl2]
            simp only [Out.ok_bind]
            have hb : pre.length + t.length + 1 + len.length + n =
                pre.length + (Elem.mk (b :: t) len (r3.take n)).bytes.length := by
              simp [Elem.bytes]
              omega
            rw [hb]
            rfl

/-! ### The grammar of one object -/

theorem readCont_mid (mid : List Byte) (last : Byte) (rest : List Byte)
    (hmid : ∀ c ∈ mid, 128 ≤ c.toNat) (hlast : last.toNat < 128) :
    readCont (mid ++ last :: rest) = some (mid ++ [last], rest) := by
  induction mid with
  | nil => simp [readCont]; omega
  | cons c mid ih =>
    have hc : 128 ≤ c.toNat := hmid c (by simp)
    rw [List.cons_append, readCont, if_pos hc, ih (fun c hc => hmid c (by simp [hc]))]
    rfl

theorem readCont_isCont {r tag rest : List Byte} (h : readCont r = some (tag, rest)) :
    ∃ mid last, tag = mid ++ [last] ∧ (∀ c ∈ mid, 128 ≤ c.toNat) ∧ last.toNat < 128 := by
  induction r generalizing tag with
  | nil => cases h
  | cons c r ih =>
    rw [readCont] at h
    split at h
    · rename_i hc
      cases hr : readCont r with
      | none => rw [hr] at h; cases h
      | some p =>
        obtain ⟨t, r'⟩ := p
        rw [hr] at h
        cases h
        obtain ⟨mid, last, h1, h2, h3⟩ := ih hr
        refine ⟨c :: mid, last, by rw [h1]; rfl, ?_, h3⟩
        intro x hx
        rcases List.mem_cons.1 hx with rfl | hx
        · exact hc
        · exact h2 x hx
    · rename_i hc
      cases h
      exact ⟨[], c, rfl, by simp, by omega⟩

/-- Reading a tag recognises exactly the well-formed tags. -/
theorem readTag_iff (bs tag rest : List Byte) :
    readTag bs = some (tag, rest) ↔ bs = tag ++ rest ∧ IsTag tag := by
  constructor
  · intro h
    refine ⟨(readTag_spec h).1, ?_⟩
    cases bs with
    | nil => cases h
    | cons b r =>
      rw [readTag] at h
      split at h
      · rename_i hb
        cases hr : readCont r with
        | none => rw [hr] at h; cases h
        | some p =>
          obtain ⟨t, r'⟩ := p
          rw [hr] at h
          cases h
          obtain ⟨mid, last, h1, h2, h3⟩ := readCont_isCont hr
          rw [h1]
          exact .high b mid last hb h2 h3
      · rename_i hb
        cases h
        exact .low b hb
  · rintro ⟨rfl, h⟩
    cases h with
    | low b h => simp [readTag, h]
    | high b mid last h h2 h3 =>
      have := readCont_mid mid last rest h2 h3
      simp [readTag, h, this]

theorem readLen_isLength {len : List Byte} {n : Nat} (h : IsLength len n) (rest : List Byte)
    (hr : (∃ b, len.head? = some b ∧ 128 ≤ b.toNat) → rest ≠ []) :
    readLen (len ++ rest) = .ok (len, n, rest) := by
  cases h with
  | short b h => simp [readLen, h]
  | long b ds h h4 =>
    have hne : rest ≠ [] := hr ⟨b, rfl, by omega⟩
    have hpos : 0 < rest.length := List.length_pos_iff.2 hne
    have hk : b.toNat - 128 = ds.length := by omega
    rw [List.cons_append, readLen, if_neg (by omega), if_neg (by omega), hk,
      if_neg (by simp; omega)]
    simp

/-- Reading an object recognises exactly the well-formed objects, except a long-form zero length at
the very end. -/
theorem readElem_iff (bs : List Byte) (e : Elem) (rest : List Byte) :
    readElem bs = .ok (e, rest) ↔ bs = e.bytes ++ rest ∧ e.WF ∧ (rest = [] → ¬ e.LongZero) := by
  constructor
  · intro h
    rw [readElem] at h
    split at h
    · cases h
    · rename_i tag r ht
      obtain ⟨rfl, htag⟩ := (readTag_iff _ _ _).1 ht
      split at h
      · cases h
      · rename_i len n r' hl
        obtain ⟨rfl, hlen, hlz⟩ := readLen_spec hl
        split at h
        · cases h
        · rename_i hn
          simp only [Except.ok.injEq, Prod.mk.injEq] at h
          obtain ⟨rfl, rfl⟩ := h
          refine ⟨by simp [Elem.bytes], ⟨htag, ?_⟩, ?_⟩
          · rw [show (r'.take n).length = n by rw [List.length_take]; omega]; exact hlen
          · rintro hd ⟨hv, b, hb, hb'⟩
            apply hlz b hb hb'
            simp only at hv
            rw [← List.take_append_drop n r', hv, hd]; rfl
  · rintro ⟨rfl, ⟨htag, hlen⟩, hlz⟩
    have ht : readTag (e.bytes ++ rest) = some (e.tag, e.len ++ e.value ++ rest) :=
      (readTag_iff _ _ _).2 ⟨by simp [Elem.bytes], htag⟩
    have hl : readLen (e.len ++ (e.value ++ rest)) = .ok (e.len, e.value.length, e.value ++ rest) := by
      apply readLen_isLength hlen
      rintro hb hnil
      have h1 : e.value = [] := (List.append_eq_nil_iff.1 hnil).1
      have h2 : rest = [] := (List.append_eq_nil_iff.1 hnil).2
      exact hlz h2 ⟨h1, hb⟩
    rw [readElem, ht]
    simp only [List.append_assoc]
    rw [hl]
    simp

theorem isTag_ne_nil {tag : List Byte} (h : IsTag tag) : tag ≠ [] := by
  cases h <;> simp

theorem isLength_ne_nil {len : List Byte} {n : Nat} (h : IsLength len n) : len ≠ [] := by
  cases h <;> simp

theorem elem_length {e : Elem} (h : e.WF) : e.value.length + 2 ≤ e.bytes.length := by
  have h1 := List.length_pos_iff.2 (isTag_ne_nil h.1)
  have h2 := List.length_pos_iff.2 (isLength_ne_nil h.2)
  simp [Elem.bytes]
  omega

/-! ### Sequences of objects -/

/-- All objects of a byte sequence. -/
def readElems (bs : List Byte) : Except ParseError (List Elem) :=
  if bs = [] then .ok []
  else
    match _h : readElem bs with
    | .error e => .error e
    | .ok (e, rest) =>
      match readElems rest with
      | .error e => .error e
      | .ok es => .ok (e :: es)
termination_by bs.length
decreasing_by
  have := (readElem_iff bs e rest).1 _h
  have h2 := elem_length this.2.1
  rw [this.1]
  simp
  omega

theorem readElems_nil : readElems [] = .ok [] := by rw [readElems]; simp

theorem readElems_error {bs : List Byte} {x : ParseError} (hne : bs ≠ []) (h : readElem bs = .error x) :
    readElems bs = .error x := by
  rw [readElems, if_neg hne]
  split
  · rename_i e h'; rw [h] at h'; cases h'; rfl
  · rename_i h'; rw [h] at h'; cases h'

theorem readElems_ok {bs : List Byte} {e : Elem} {rest : List Byte} (hne : bs ≠ [])
    (h : readElem bs = .ok (e, rest)) :
    readElems bs = match readElems rest with
      | .error e => .error e
      | .ok es => .ok (e :: es) := by
  rw [readElems, if_neg hne]
  split
  · rename_i h'; rw [h] at h'; cases h'
  · rename_i h'; rw [h] at h'; cases h'; rfl

theorem concat_cons (e : Elem) (es : List Elem) : concat (e :: es) = e.bytes ++ concat es := rfl

theorem concat_append (es es' : List Elem) : concat (es ++ es') = concat es ++ concat es' := by
  simp [concat]

theorem bytes_ne_nil {e : Elem} (h : e.WF) : e.bytes ≠ [] := by
  intro h'
  have := elem_length h
  rw [h'] at this
  simp at this

theorem concat_eq_nil {es : List Elem} (hw : ∀ e ∈ es, e.WF) (h : concat es = []) : es = [] := by
  cases es with
  | nil => rfl
  | cons e es =>
    rw [concat_cons] at h
    exact absurd (List.append_eq_nil_iff.1 h).1 (bytes_ne_nil (hw e (by simp)))

theorem isBlock_cons {e : Elem} {es : List Elem} :
    IsBlock (e :: es) ↔ e.WF ∧ IsBlock es ∧ (es = [] → ¬ e.LongZero) := by
  cases es with
  | nil => simp [IsBlock]
  | cons e' es => simp [IsBlock, and_assoc]

/-- Reading all objects, when an accepted prefix has been split off. -/
theorem readElems_append (es : List Elem) (rest : List Byte) (hw : ∀ e ∈ es, e.WF)
    (hl : rest = [] → IsBlock es) :
    readElems (concat es ++ rest) = match readElems rest with
      | .error e => .error e
      | .ok es' => .ok (es ++ es') := by
  induction es with
  | nil => simp [concat]; cases readElems rest <;> rfl
  | cons e es ih =>
    have he := hw e (by simp)
    have hes : ∀ e ∈ es, e.WF := fun x hx => hw x (by simp [hx])
    have hel : readElem (e.bytes ++ (concat es ++ rest)) = .ok (e, concat es ++ rest) := by
      rw [readElem_iff]
      refine ⟨rfl, he, fun hnil => ?_⟩
      obtain ⟨h1, h2⟩ := List.append_eq_nil_iff.1 hnil
      exact ((isBlock_cons.1 (hl h2)).2.2) (concat_eq_nil hes h1)
    have hne : e.bytes ++ (concat es ++ rest) ≠ [] := by
      intro h; exact bytes_ne_nil he (List.append_eq_nil_iff.1 h).1
    rw [concat_cons, List.append_assoc, readElems_ok hne hel,
      ih hes (fun h => (isBlock_cons.1 (hl h)).2.1)]
    cases readElems rest <;> rfl

theorem readElems_iff (bs : List Byte) (es : List Elem) :
    readElems bs = .ok es ↔ bs = concat es ∧ IsBlock es := by
  constructor
  · intro h
    fun_induction readElems bs generalizing es with
    | case1 => cases h; exact ⟨rfl, by simp [IsBlock]⟩
    | case2 => cases h
    | case3 => cases h
    | case4 bs hne e rest hel es' hrest ih =>
      cases h
      obtain ⟨h1, h2, h3⟩ := (readElem_iff _ _ _).1 hel
      obtain ⟨k1, k2⟩ := ih _ hrest
      refine ⟨by rw [concat_cons, ← k1, h1], isBlock_cons.2 ⟨h2, k2, ?_⟩⟩
      rintro rfl
      exact h3 k1
  · rintro ⟨rfl, h⟩
    have := readElems_append es [] h.1 (fun _ => h)
    rw [readElems_nil] at this
    simpa using this

end Pemv
