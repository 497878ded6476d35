import Verif.Model.Work
import Verif.Proofs.BerParse
import Verif.Proofs.Ingenico

/-! # Lemmas about the amount of work -/

namespace Pemv

open Spec Counted

/-! ### The counter does not change results -/

@[simp] theorem bind_out {α β : Type} (x : Counted α) (f : α → Counted β) :
    (x >>= f).out = x.out >>= fun a => (f a).out := by
  show (Counted.bind x f).out = _
  rw [Counted.bind]
  cases x.out <;> rfl

@[simp] theorem free_out {α : Type} (x : Out α) : (free x).out = x := rfl
@[simp] theorem tick_out (n : Nat) : (tick n).out = .ok () := rfl
@[simp] theorem mapErr_out {α : Type} (x : Counted α) (f) : (x.mapErr f).out = x.out.mapErr f := rfl

theorem ite_out {α : Type} (c : Prop) [Decidable c] (x y : Counted α) :
    (if c then x else y).out = if c then x.out else y.out := by
  split <;> rfl

theorem getChildBlockW_out (parse : List Byte → Counted RawEmvBlock) (t : DataObjectType) (d : EmvData) :
    (getChildBlockW parse t d).out = getChildBlock (fun v => (parse v).out) t d := by
  cases t <;> cases d <;> rfl

theorem berTagLoopW_out (m : Machine) (bytes : List Byte) (fuel i : Nat) (b : Bool) :
    (berTagLoopW m bytes fuel i b).out = berTagLoop m bytes fuel i b := by
  induction fuel generalizing i b with
  | zero => cases b <;> rfl
  | succ fuel ih =>
    cases b with
    | false => rfl
    | true =>
      simp only [berTagLoopW, berTagLoop, bind_out, tick_out, free_out, Out.ok_bind, ite_out, ih]

theorem berLengthW_out (m : Machine) (bytes : List Byte) (i : Nat) :
    (berLengthW m bytes i).out = berLength m bytes i := by
  simp only [berLengthW, berLength, bind_out, tick_out, free_out, Out.ok_bind, ite_out]

theorem berStepW_out (m : Machine) (masks : List Char) (parse : List Byte → Counted RawEmvBlock)
    (bytes : List Byte) (i : Nat) : (berStepW m masks parse bytes i).out =
      berStep m masks (fun v => (parse v).out) bytes i := by
  simp only [berStepW, berStep, bind_out, tick_out, free_out, Out.ok_bind, ite_out, berLengthW_out,
    berTagLoopW_out, getChildBlockW_out]

theorem berLoopW_out (m : Machine) (masks : List Char) (parse : List Byte → Counted RawEmvBlock)
    (bytes : List Byte) (fuel i : Nat) (nodes : RawEmvBlock) : (berLoopW m masks parse bytes fuel i nodes).out =
      berLoop m masks (fun v => (parse v).out) bytes fuel i nodes := by
  induction fuel generalizing i nodes with
  | zero =>
    rw [berLoopW, berLoop, ite_out]; rfl
  | succ fuel ih =>
    rw [berLoopW, berLoop, ite_out]
    simp only [bind_out, berStepW_out, ih, free_out]

theorem berParseFW_out (m : Machine) (masks : List Char) (d : Nat) :
    (fun v => (berParseFW m masks d v).out) = berParseF m masks d := by
  induction d with
  | zero => rfl
  | succ d ih =>
    funext v
    rw [berParseFW, berParseF, berLoopW_out, ih]

theorem berParseW_out (m : Machine) (bytes : List Byte) (masks : List Char) :
    (berParseW m bytes masks).out = berParse m bytes masks :=
  congrFun (berParseFW_out m masks (bytes.length + 1)) bytes

theorem parseHexStrStrictW_out (s : Text) : (parseHexStrStrictW s).out = parseHexStrStrict s := by
  simp only [parseHexStrStrictW, parseHexStrStrict, parseHexStrW, bind_out, tick_out, free_out, Out.ok_bind, ite_out]

theorem trimLeading0BytesW_out (bs : List Byte) : (trimLeading0BytesW bs).out = .ok (trimLeading0Bytes bs) := by
  induction bs with
  | nil => rfl
  | cons a bs ih =>
    cases bs with
    | nil => rfl
    | cons b rest =>
      simp only [trimLeading0BytesW, trimLeading0Bytes, bind_out, tick_out, Out.ok_bind, ite_out, ih, free_out]
      split <;> rfl

theorem findColonW_out (m : Machine) (data : Text) (i : Nat) : (findColonW m data i).out = findColon m data i := by
  simp only [findColonW, findColon, bind_out, free_out]
  cases slice data i data.length with
  | ok rest => simp only [Out.ok_bind]; cases rest.findIdx? (· == ':') <;> simp
  | err _ => rfl
  | panic => rfl
  | diverge => rfl

theorem ingValueW_out (m : Machine) (masks : List Char) (data : Text) (i n : Nat) :
    (ingValueW m masks data i n).out = ingValue m masks data i n := by
  simp only [ingValueW, ingValue, bind_out, tick_out, free_out, Out.ok_bind, ite_out, mapErr_out,
    parseHexStrStrictW_out]

theorem ingStepW_out (m : Machine) (masks : List Char) (parse : List Byte → Counted RawEmvBlock) (data : Text)
    (i : Nat) : (ingStepW m masks parse data i).out = ingStep m masks (fun v => (parse v).out) data i := by
  simp only [ingStepW, ingStep, bind_out, tick_out, free_out, Out.ok_bind, ite_out, mapErr_out,
    parseHexStrStrictW_out, trimLeading0BytesW_out, findColonW_out, ingValueW_out, getChildBlockW_out]

theorem ingLoopW_out (m : Machine) (masks : List Char) (parse : List Byte → Counted RawEmvBlock)
    (data : Text) (fuel i : Nat) (nodes : RawEmvBlock) : (ingLoopW m masks parse data fuel i nodes).out =
      ingLoop m masks (fun v => (parse v).out) data fuel i nodes := by
  induction fuel generalizing i nodes with
  | zero =>
    rw [ingLoopW, ingLoop, ite_out]; rfl
  | succ fuel ih =>
    rw [ingLoopW, ingLoop, ite_out]
    simp only [bind_out, ingStepW_out, ih, free_out]

theorem ingParseW_out (m : Machine) (data : Text) (masks : List Char) :
    (ingParseW m data masks).out = ingParse m data masks := by
  simp only [ingParseW, ingParse, bind_out, tick_out, free_out, Out.ok_bind, ite_out, ingLoopW_out, berParseW_out]

theorem autoParseW_out (m : Machine) (data : Text) (masks : List Char) :
    (autoParseW m data masks).out = autoParse m data masks := by
  have hb : (do let bytes ← parseHexStrW data; berParseW m bytes masks : Counted RawEmvBlock).out =
      berParse m (parseHexStr data) masks := by
    simp only [parseHexStrW, bind_out, tick_out, free_out, Out.ok_bind, berParseW_out]
  rw [autoParseW, autoParse, ite_out]
  simp only [hb, ingParseW_out]
  split
  · rfl
  · cases ingParse m data masks with
    | ok b => rfl
    | panic => rfl
    | diverge => rfl
    | err e => cases berParse m (parseHexStr data) masks <;> rfl

/-! ### Adding up -/

theorem bind_work_ok {α β : Type} {x : Counted α} {a : α} (h : x.out = .ok a) (f : α → Counted β) :
    (x >>= f).work = x.work + (f a).work := by
  show (Counted.bind x f).work = _
  rw [Counted.bind, h]

theorem bind_work_err {α β : Type} {x : Counted α} {e : ParseError} (h : x.out = .err e) (f : α → Counted β) :
    (x >>= f).work = x.work := by
  show (Counted.bind x f).work = _
  rw [Counted.bind, h]

@[simp] theorem tick_work {β : Type} (n : Nat) (f : Unit → Counted β) : (tick n >>= f).work = n + (f ()).work := rfl
@[simp] theorem free_ok_work {α β : Type} (a : α) (f : α → Counted β) :
    (free (.ok a) >>= f).work = (f a).work := Nat.zero_add _
@[simp] theorem free_work {α : Type} (x : Out α) : (free x).work = 0 := rfl
@[simp] theorem mapErr_work {α : Type} (x : Counted α) (f) : (x.mapErr f).work = x.work := rfl

/-! ### BER-TLV -/

theorem berTagLoopW_cont {m : Machine} (pre : List Byte) (r : List Byte) (x : Byte) (fuel : Nat)
    (hf : r.length < fuel) (hm : pre.length + r.length + 2 < 2 ^ m.usizeBits) :
    (berTagLoopW m (pre ++ x :: r) fuel pre.length true).work =
      match readCont r with
      | none => r.length + 1
      | some (t, _) => t.length := by
  induction r generalizing pre x fuel with
  | nil =>
    cases fuel with
    | zero => simp at hf
    | succ fuel =>
      rw [berTagLoopW, add_ok (by simp at hm; omega)]
      simp [readCont]
  | cons c r ih =>
    cases fuel with
    | zero => simp at hf
    | succ fuel =>
      simp only [List.length_cons] at hm hf
      rw [berTagLoopW, add_ok (by omega)]
      have hlen : ¬ pre.length + 1 ≥ (pre ++ x :: c :: r).length := by simp
      have hidx : index (pre ++ x :: c :: r) (pre.length + 1) = .ok c := by
        have := index_append (pre ++ [x]) c r
        simpa using this
      simp only [tick_work, free_ok_work, if_neg hlen, hidx, readCont]
      by_cases hc : 128 ≤ c.toNat
      · rw [decide_eq_true ((bit_80 c).2 hc), if_pos hc]
        have := ih (pre ++ [x]) c fuel (by omega) (by simp; omega)
        simp only [List.append_assoc, List.singleton_append, List.length_append, List.length_cons,
          List.length_nil, Nat.zero_add] at this
        rw [this]
        cases readCont r with
        | none => exact Nat.add_comm 1 (r.length + 1)
        | some p => exact Nat.add_comm 1 p.1.length
      · rw [decide_eq_false (fun h => hc ((bit_80 c).1 h)), if_neg hc]
        cases fuel <;> simp [berTagLoopW]

theorem berTagLoopW_start {m : Machine} (pre : List Byte) (r : List Byte) (b : Byte)
    (hm : pre.length + r.length + 2 < 2 ^ m.usizeBits) :
    (berTagLoopW m (pre ++ b :: r) ((pre ++ b :: r).length + 1) pre.length (decide (0x1F &&& b = 0x1F))).work =
      match readTag (b :: r) with
      | none => r.length + 1
      | some (t, _) => t.length - 1 := by
  rw [readTag]
  by_cases hb : b.toNat % 32 = 31
  · rw [decide_eq_true ((bit_1f b).2 hb), if_pos hb,
      berTagLoopW_cont pre r b _ (by simp; omega) hm]
    cases readCont r with
    | none => rfl
    | some p => simp
  · rw [decide_eq_false (fun h => hb ((bit_1f b).1 h)), if_neg hb]
    simp [berTagLoopW]

theorem berLengthW_work {m : Machine} (pre r : List Byte) (hr : r ≠ [])
    (hm : pre.length + r.length + 2 ^ 33 < 2 ^ m.usizeBits) :
    (berLengthW m (pre ++ r) pre.length).work =
      match readLen r with
      | .error _ => 0
      | .ok (len, _, _) => len.length - 1 := by
  cases r with
  | nil => exact absurd rfl hr
  | cons b r =>
    simp only [List.length_cons] at hm
    rw [berLengthW, index_append, readLen]
    simp only [free_ok_work]
    by_cases hb : b.toNat < 128
    · rw [if_neg (fun h => absurd ((bit_80 b).1 h) (by omega)), add_ok (by omega), if_pos hb]
      simp
    · have hb' : 128 ≤ b.toNat := by omega
      rw [if_pos ((bit_80 b).2 hb'), if_neg hb, bits_7f b hb']
      generalize hk : b.toNat - 128 = k
      by_cases h4 : k > 4
      · rw [if_pos h4, if_pos h4]; rfl
      · rw [if_neg h4, if_neg h4, add_ok (by omega)]
        simp only [free_ok_work]
        rw [add_ok (by omega)]
        simp only [free_ok_work]
        by_cases hl : r.length ≤ k
        · rw [if_pos hl, if_pos]
          · rfl
          · simp; omega
        · rw [if_neg hl, if_neg (by simp; omega), add_ok (by omega)]
          simp only [free_ok_work]
          rw [add_ok (by omega)]
          simp only [free_ok_work]
          have hs : slice (pre ++ b :: r) (pre.length + 1) (pre.length + k + 1) = .ok (r.take k) := by
            have := slice_append (pre ++ [b]) (r.take k) (r.drop k) (pre.length + 1)
              (pre.length + k + 1) (by simp) (by simp; omega)
            simpa using this
          rw [hs]
          simp only [free_ok_work, tick_work]
          rw [byteSliceToU32_ok (by simp; omega)]
          simp

/-- The work on the children of an object. -/
theorem getChildBlockW_work (parse : List Byte → Counted RawEmvBlock) (masks : List Char) (t : DataObjectType)
    (v : List Byte) : (getChildBlockW parse t (dataOf v masks)).work ≤ (parse v).work := by
  rw [dataOf]
  cases t with
  | primitive => exact Nat.zero_le _
  | constructed =>
    split
    · exact Nat.zero_le _
    · exact Nat.le_refl _

theorem berStepW_exact {m : Machine} (masks : List Char) (parse : List Byte → Counted RawEmvBlock)
    (pre r : List Byte) (hr : r ≠ []) (hm : Fits m (pre.length + r.length))
    (hp : ∀ v : List Byte, v.length < r.length → (parse v).out.isReturned = true) :
    match readElem r with
    | .error _ => (berStepW m masks parse (pre ++ r) pre.length).work ≤ 2 * r.length
    | .ok (e, _) => (berStepW m masks parse (pre ++ r) pre.length).work =
        2 * e.tag.length + (e.len.length - 1) + (masks.length + 1) * e.value.length +
          (getChildBlockW parse (typeOf e.tag) (dataOf e.value masks)).work := by
  have hM : pre.length + r.length + 2 ^ 34 ≤ 2 ^ m.usizeBits := hm
  generalize hP : 2 ^ m.usizeBits = P at hM
  cases r with
  | nil => exact absurd rfl hr
  | cons b r =>
    rw [berStepW, index_append]
    simp only [tick_work, free_ok_work]
    simp only [List.length_cons] at hM
    have hto := berTagLoop_start (m := m) pre r b (by omega)
    rw [← berTagLoopW_out] at hto
    have htw := berTagLoopW_start (m := m) pre r b (by omega)
    rw [readElem]
    cases ht : readTag (b :: r) with
    | none =>
      rw [ht] at hto htw
      rw [parseTagMetadata_eq b r]
      simp only [free_ok_work]
      rw [bind_work_err hto, htw]
      simp; omega
    | some p =>
      obtain ⟨tag, r1⟩ := p
      rw [ht] at hto htw
      obtain ⟨hsplit, htne⟩ := readTag_spec ht
      have hhead : ∃ t, tag = b :: t := by
        cases tag with
        | nil => exact absurd rfl htne
        | cons x t => simp at hsplit; exact ⟨t, by rw [hsplit.1]⟩
      obtain ⟨t, rfl⟩ := hhead
      have hlenr : (b :: r).length = (b :: t).length + r1.length := by rw [hsplit]; simp; omega
      simp only [List.length_cons] at hlenr
      rw [parseTagMetadata_eq b t]
      simp only [free_ok_work]
      rw [bind_work_ok hto, htw]
      simp only [List.length_cons]
      rw [show pre.length + (t.length + 1) - 1 = pre.length + t.length by omega,
        add_ok (by omega)]
      simp only [free_ok_work]
      cases r1 with
      | nil =>
        simp only [List.length_nil] at hlenr
        rw [if_pos (by simp; omega)]
        show 1 + (t.length + 1 - 1 + 0) ≤ 2 * (r.length + 1)
        omega
      | cons l r2 =>
        simp only [List.length_cons] at hlenr
        rw [if_neg (by simp; omega)]
        have hbl := berLength_eq (m := m) (pre ++ b :: t) (l :: r2) (by simp)
          (by rw [hP]; simp; omega)
        have hbw := berLengthW_work (m := m) (pre ++ b :: t) (l :: r2) (by simp)
          (by rw [hP]; simp; omega)
        rw [← berLengthW_out] at hbl
        rw [List.append_assoc, show (pre ++ b :: t).length = pre.length + t.length + 1 by simp; omega] at hbl hbw
        rw [hsplit]
        cases hrl : readLen (l :: r2) with
        | error e =>
          rw [hrl] at hbl hbw
          rw [bind_work_err hbl, hbw]
          simp; omega
        | ok q =>
          obtain ⟨len, n, r3⟩ := q
          rw [hrl] at hbl hbw
          rw [bind_work_ok hbl, hbw]
          obtain ⟨hs2, hlen, -⟩ := readLen_spec hrl
          have hn := isLength_lt hlen
          have hlenr2 : (l :: r2).length = len.length + r3.length := by rw [hs2]; simp
          have hlpos : 1 ≤ len.length := by cases hlen <;> simp
          simp only [List.length_cons] at hlenr2
          simp only
          rw [add_ok (by omega)]
          simp only [free_ok_work]
          rw [add_ok (by simp; omega)]
          simp only [free_ok_work]
          by_cases hlt : r3.length < n
          · rw [if_pos hlt, if_pos (by simp; omega)]
            simp; omega
          · rw [if_neg hlt, if_neg (by simp; omega), hs2]
            have hsl : slice (pre ++ (b :: t ++ (len ++ r3))) (pre.length + t.length + 1 + len.length)
                (pre.length + t.length + 1 + len.length + n) = .ok (r3.take n) := by
              have := slice_append (pre ++ b :: t ++ len) (r3.take n) (r3.drop n)
                (pre.length + t.length + 1 + len.length)
                (pre.length + t.length + 1 + len.length + n) (by simp; omega) (by simp; omega)
              simpa using this
            rw [hsl]
            simp only [free_ok_work, tick_work]
            have hsl2 : slice (pre ++ (b :: t ++ (len ++ r3))) pre.length
                (pre.length + t.length + 1) = .ok (b :: t) := by
              have := slice_append pre (b :: t) (len ++ r3) pre.length (pre.length + t.length + 1)
                rfl (by simp; omega)
              simpa using this
            have hgc := getChildBlock_eq (fun v => (parse v).out) masks ⟨b :: t, len, r3.take n⟩
              (hp _ (by simp; omega))
            rw [← getChildBlockW_out] at hgc
            rw [fromU8_eq, bind_work_ok hgc]
            rw [hsl2]
            simp only [free_ok_work, tick_work]
            simp only [free_work, List.length_cons]
            have htake : (r3.take n).length = n := by rw [List.length_take]; omega
            rw [htake]
            generalize (getChildBlockW parse (typeOf (b :: t)) (dataOf (r3.take n) masks)).work = G at *
            rw [Nat.add_mul, Nat.one_mul]
            omega

theorem berStepW_work {m : Machine} (masks : List Char) (parse : List Byte → Counted RawEmvBlock)
    (pre r : List Byte) (hr : r ≠ []) (hm : Fits m (pre.length + r.length))
    (hp : ∀ v : List Byte, v.length < r.length → (parse v).out.isReturned = true) :
    (berStepW m masks parse (pre ++ r) pre.length).work ≤
      match readElem r with
      | .error _ => 2 * r.length
      | .ok (e, _) => (masks.length + 2) * e.bytes.length + (parse e.value).work := by
  have h := berStepW_exact masks parse pre r hr hm hp
  cases hel : readElem r with
  | error e => rw [hel] at h; exact h
  | ok p =>
    obtain ⟨e, rest⟩ := p
    rw [hel] at h
    simp only at h
    have hgw := getChildBlockW_work parse masks (typeOf e.tag) e.value
    simp only [h, Elem.bytes, List.length_append]
    have h1 : masks.length * e.value.length ≤ masks.length * (e.tag.length + e.len.length + e.value.length) :=
      Nat.mul_le_mul_left _ (by omega)
    rw [Nat.add_mul, Nat.add_mul, Nat.one_mul]
    omega

/-- A square and another square fit into the square of the sum. -/
theorem square_step (A c s q r W R : Nat) (hc : c + 2 ≤ s) (hr : r = s + q) (hW : 2 * W ≤ A * (c * (c + 2)))
    (hR : 2 * R ≤ A * (q * (q + 2))) : 2 * (A * s + W + R) ≤ A * (r * (r + 2)) := by
  subst hr
  obtain ⟨k, rfl⟩ : ∃ k, s = k + 2 := ⟨s - 2, by omega⟩
  have h1 : c * (c + 2) ≤ k * (k + 2) := Nat.mul_le_mul (by omega) (by omega)
  have h2 : 2 * (k + 2) + c * (c + 2) + q * (q + 2) ≤ (k + 2 + q) * (k + 2 + q + 2) := by
    have h3 : (k + 2 + q) * (k + 2 + q + 2) = k * (k + 2) + 2 * (k * q) + q * (q + 2) + 4 * k + 4 * q + 8 := by
      simp only [Nat.mul_add, Nat.add_mul, Nat.mul_comm q k]
      omega
    omega
  have h4 := Nat.mul_le_mul_left A h2
  rw [Nat.mul_add, Nat.mul_add, Nat.mul_left_comm] at h4
  omega

theorem berLoopW_work {m : Machine} (masks : List Char) (parse : List Byte → Counted RawEmvBlock)
    (fuel : Nat) (pre r : List Byte) (nodes : RawEmvBlock) (hf : r.length ≤ fuel)
    (hm : Fits m (pre.length + r.length))
    (hp : ∀ v : List Byte, v.length < r.length → (parse v).out.isReturned = true)
    (hw : ∀ v : List Byte, v.length < r.length →
      2 * (parse v).work ≤ (masks.length + 2) * (v.length * (v.length + 2))) :
    2 * (berLoopW m masks parse (pre ++ r) fuel pre.length nodes).work ≤
      (masks.length + 2) * (r.length * (r.length + 2)) := by
  induction fuel generalizing pre r nodes with
  | zero =>
    have : r = [] := List.length_eq_zero_iff.1 (by omega)
    subst this
    rw [berLoopW, if_neg (by simp)]
    exact Nat.zero_le _
  | succ fuel ih =>
    by_cases hr : r = []
    · subst hr
      rw [berLoopW, if_neg (by simp)]
      exact Nat.zero_le _
    · have hpos : 0 < r.length := List.length_pos_iff.2 hr
      rw [berLoopW, if_pos (by simp; omega)]
      simp only
      have hso := berStep_eq masks (fun v => (parse v).out) pre r hr hm (fun v hv => hp v (by omega))
      rw [← berStepW_out] at hso
      have hsw := berStepW_work masks parse pre r hr hm hp
      cases hel : readElem r with
      | error e =>
        rw [hel] at hso hsw
        rw [bind_work_err hso]
        simp only at hsw
        have h1 : 4 * r.length ≤ 2 * (r.length * (r.length + 2)) := by
          rw [Nat.mul_add]
          omega
        have h2 : 2 * (r.length * (r.length + 2)) ≤ (masks.length + 2) * (r.length * (r.length + 2)) :=
          Nat.mul_le_mul_right _ (by omega)
        omega
      | ok p =>
        obtain ⟨e, rest⟩ := p
        rw [hel] at hso hsw
        simp only at hso hsw
        obtain ⟨h1, h2, h3⟩ := (readElem_iff _ _ _).1 hel
        have hlen := elem_length h2
        have hrl : r.length = e.bytes.length + rest.length := by rw [h1]; simp
        rw [bind_work_ok hso]
        simp only
        have := ih (pre ++ e.bytes) rest (nodes ++ [nodeOf (fun v => (parse v).out) masks e]) (by omega)
          (by rw [List.length_append, Nat.add_assoc, ← hrl]; exact hm)
          (fun v hv => hp v (by omega)) (fun v hv => hw v (by omega))
        rw [List.append_assoc, ← h1, List.length_append] at this
        have := square_step (masks.length + 2) e.value.length e.bytes.length rest.length r.length
          (parse e.value).work _ hlen hrl (hw _ (by omega)) this
        omega

theorem berParseFW_work {m : Machine} (masks : List Char) (d : Nat) :
    ∀ bytes : List Byte, bytes.length < d → Fits m bytes.length →
      2 * (berParseFW m masks d bytes).work ≤ (masks.length + 2) * (bytes.length * (bytes.length + 2)) := by
  induction d with
  | zero => intro bytes h; omega
  | succ d ih =>
    intro bytes h hm
    rw [berParseFW]
    have := berLoopW_work (m := m) masks (berParseFW m masks d) (bytes.length + 1) [] bytes [] (by omega)
      (by simpa using hm)
      (fun v hv => by
        rw [congrFun (berParseFW_out m masks d) v]
        have hv' := berParseF_eq masks v.length v (Nat.le_refl _) (fits_mono hm (by omega))
        rw [hv'.2 d (by omega)]
        exact hv'.1)
      (fun v hv => ih v (by omega) (fits_mono hm (by omega)))
    exact this

theorem berParseW_work {m : Machine} (masks : List Char) (bytes : List Byte) (hm : Fits m bytes.length) :
    2 * (berParseW m bytes masks).work ≤ (masks.length + 2) * (bytes.length * (bytes.length + 2)) :=
  berParseFW_work masks _ bytes (by omega) hm

end Pemv
