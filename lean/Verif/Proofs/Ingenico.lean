import Verif.Proofs.BerTree
import Verif.Spec.Ingenico
import Verif.Model.Ingenico

/-! # Refinement of the Ingenico parser -/

namespace Pemv

open Spec

/-! ### Auxiliary facts -/

theorem parseHexStr_eq (t : Text) : parseHexStr t = hexBytes t := by
  rw [hexBytes, ← parseHexStr_toNat, List.map_map]
  conv => lhs; rw [← List.map_id (parseHexStr t)]
  apply List.map_congr_left
  intro b _
  simp

theorem trim_eq_strip (bs : List Byte) : trimLeading0Bytes bs = stripZeros bs := by
  fun_induction trimLeading0Bytes bs with
  | case1 b rest ih =>
    rw [ih, stripZeros, stripZeros]
    have : (0 :: b :: rest : List Byte).dropWhile (fun b => b == 0) = (b :: rest).dropWhile (fun b => b == 0) := by
      simp [List.dropWhile_cons]
    rw [this]
    split
    · simp
    · rfl
  | case2 a b rest ha => simp [stripZeros, ha]
  | case3 l hl =>
    match l, hl with
    | [], _ => rfl
    | [a], _ =>
      by_cases ha : a = 0
      · subst ha; rfl
      · simp [stripZeros, ha]
    | a :: b :: rest, hl => exact absurd rfl (hl a b rest)

theorem strip_eq_nil {bs : List Byte} : stripZeros bs = [] ↔ bs = [] := by
  rw [← trim_eq_strip]
  obtain ⟨n, -, h, -⟩ := trim_spec bs
  exact h

theorem hexDigits_length {t : Text} (h : ∀ c ∈ t, IsHex c) : (t.filterMap hexDigit?).length = t.length := by
  induction t with
  | nil => rfl
  | cons c t ih =>
    have hc := h c (by simp)
    obtain ⟨d, hd⟩ := Option.isSome_iff_exists.1 hc
    simp [hd, ih (fun c hc => h c (by simp [hc]))]

theorem hexBytes_length {t : Text} (h : ∀ c ∈ t, IsHex c) : (hexBytes t).length = t.length / 2 := by
  rw [hexBytes, List.length_map, hexDecode, pairUp_length, hexDigits_length h]

theorem hexBytes_eq_nil {t : Text} (h : ∀ c ∈ t, IsHex c) : hexBytes t = [] ↔ t.length < 2 := by
  rw [← List.length_eq_zero_iff, hexBytes_length h]
  omega

theorem isMaskedStr_iff {t : Text} (h : ∀ c ∈ t, c.toNat < 128) (masks : List Char) :
    isMaskedStr t masks = true ↔ IsMasked t masks := by
  rw [isMaskedStr, IsMasked, asBytes_length_of_ascii h]
  split
  · rename_i h
    simp only [Bool.false_eq_true, false_iff]
    omega
  · rename_i h
    simp only [List.any_eq_true, List.all_eq_true, beq_iff_eq]
    constructor
    · exact fun h' => ⟨by omega, h'⟩
    · exact fun h' => h'.2

theorem getChildBlock_of_returned (parse : List Byte → Out RawEmvBlock) (type : DataObjectType)
    (data : EmvData) (h : ∀ v, data = .normal v → (parse v).isReturned = true) :
    getChildBlock parse type data = .ok (childrenOf parse type data) := by
  cases type with
  | primitive => cases data <;> rfl
  | constructed =>
    cases data with
    | masked => rfl
    | normal v =>
      have := h v rfl
      simp only [getChildBlock, childrenOf]
      cases hp : parse v <;> rw [hp] at this <;> first | rfl | cases this

theorem mapErr_ok {α : Type} (a : α) (f : ParseError → ParseError) : (Out.ok a).mapErr f = .ok a := rfl

theorem colon_not_hex : ¬ IsHex ':' := by decide

/-! ### Suffix functions -/

/-- Split at the first colon. -/
def splitColon : Text → Option (Text × Text)
  | [] => none
  | c :: s => if c = ':' then some ([], s) else (splitColon s).map (fun p => (c :: p.1, p.2))

theorem splitColon_some {s a b : Text} (h : splitColon s = some (a, b)) :
    s = a ++ ':' :: b ∧ ':' ∉ a := by
  induction s generalizing a with
  | nil => cases h
  | cons c s ih =>
    rw [splitColon] at h
    split at h
    · rename_i hc
      cases h
      exact ⟨by rw [hc]; rfl, by simp⟩
    · rename_i hc
      cases hs : splitColon s with
      | none => rw [hs] at h; cases h
      | some p =>
        rw [hs] at h
        cases h
        obtain ⟨h1, h2⟩ := ih hs
        refine ⟨by rw [h1]; rfl, ?_⟩
        simp only [List.mem_cons, not_or]
        exact ⟨fun h => hc h.symm, h2⟩

theorem splitColon_append {a b : Text} (h : ':' ∉ a) : splitColon (a ++ ':' :: b) = some (a, b) := by
  induction a with
  | nil => simp [splitColon]
  | cons c a ih =>
    simp only [List.mem_cons, not_or] at h
    rw [List.cons_append, splitColon, if_neg (fun h' => h.1 h'.symm), ih h.2]
    rfl

theorem findIdx_splitColon (s : Text) :
    s.findIdx? (fun c => c == ':') = (splitColon s).map (fun p => p.1.length) := by
  induction s with
  | nil => rfl
  | cons c s ih =>
    rw [List.findIdx?_cons, splitColon]
    by_cases hc : c = ':'
    · simp [hc]
    · simp only [beq_iff_eq, hc, if_false, ih, Option.map_map]
      cases splitColon s <;> simp

theorem findColon_eq {m : Machine} (pre s : Text) (hm : pre.length + s.length < 2 ^ m.usizeBits) :
    findColon m (pre ++ s) pre.length =
      match splitColon s with
      | none => .err .nonCompliant
      | some (a, _) => .ok (pre.length + a.length) := by
  have hs : slice (pre ++ s) pre.length (pre ++ s).length = .ok s := by
    have := slice_append pre s [] pre.length (pre ++ s).length rfl (by simp)
    simpa using this
  rw [findColon, hs]
  simp only [Out.ok_bind]
  rw [findIdx_splitColon]
  cases h : splitColon s with
  | none => rfl
  | some p =>
    obtain ⟨a, b⟩ := p
    have := (splitColon_some h).1
    simp only [Option.map_some]
    rw [add_ok]
    have h2 : s.length = a.length + (b.length + 1) := by rw [this]; simp
    omega

/-- The value part: the value text and the rest. -/
def readValue (masks : List Char) (fmt : Char) (n : Nat) (s : Text) : Option (Text × Text) :=
  if fmt = 'a' then
    if s.length < n then none else some (s.take n, s.drop n)
  else if fmt = 'h' then
    if s.length < n * 2 then none
    else if isMaskedStr (s.take (n * 2)) masks = true ∨ (∀ c ∈ s.take (n * 2), IsHex c) then
      some (s.take (n * 2), s.drop (n * 2))
    else none
  else none

/-- A record at the start of a text. -/
def readRecord (masks : List Char) (s : Text) : Except ParseError (Record × Text) :=
  match s with
  | [] => .error .nonCompliant
  | typ :: s1 =>
    match splitColon s1 with
    | none => .error .nonCompliant
    | some (tagHex, s2) =>
      if ¬ (∀ c ∈ tagHex, IsHex c) ∨ tagHex.length < 2 then .error .nonCompliant
      else
        match splitColon s2 with
        | none => .error .nonCompliant
        | some (lenHex, s3) =>
          if ¬ (∀ c ∈ lenHex, IsHex c) then .error .nonCompliant
          else if 9 < lenHex.length then .error .unsupported
          else
            match s3 with
            | [] => .error .nonCompliant
            | fmt :: s4 =>
              match readValue masks fmt (beValue (hexBytes lenHex)) s4 with
              | none => .error .nonCompliant
              | some (value, rest) => .ok (⟨typ, tagHex, lenHex, fmt, value⟩, rest)

theorem readValue_spec {masks : List Char} {fmt : Char} {n : Nat} {s value rest : Text}
    (h : readValue masks fmt n s = some (value, rest)) : s = value ++ rest ∧
      (fmt = 'a' ∧ value.length = n ∨ fmt = 'h' ∧ value.length = 2 * n ∧
        (isMaskedStr value masks = true ∨ ∀ c ∈ value, IsHex c)) := by
  rw [readValue] at h
  split at h
  · rename_i hf
    split at h
    · cases h
    · cases h
      exact ⟨by simp, Or.inl ⟨hf, by rw [List.length_take]; omega⟩⟩
  · split at h
    · rename_i hf
      split at h
      · cases h
      · split at h
        · rename_i hm
          simp only [Option.some.injEq, Prod.mk.injEq] at h
          obtain ⟨rfl, rfl⟩ := h
          exact ⟨by simp, Or.inr ⟨hf, by rw [List.length_take]; omega, hm⟩⟩
        · cases h
    · cases h

theorem ingValue_eq {m : Machine} (masks : List Char) (pre : Text) (fmt : Char) (s : Text) (n : Nat)
    (hn : n < 2 ^ 32) (hm : pre.length + 1 + s.length + 2 ^ 34 ≤ 2 ^ m.usizeBits)
    (hs : ∀ c ∈ s, c.toNat < 128) :
    ingValue m masks (pre ++ fmt :: s) pre.length n =
      match readValue masks fmt n s with
      | none => .err .nonCompliant
      | some (value, _) =>
        .ok ((Record.mk 'T' [] [] fmt value).data masks, pre.length + 1 + value.length) := by
  generalize hP : 2 ^ m.usizeBits = P at hm
  rw [ingValue, index_append, readValue]
  simp only [Out.ok_bind]
  have hsl : ∀ k, k ≤ s.length → slice (pre ++ fmt :: s) (pre.length + 1) (pre.length + 1 + k) =
      .ok (s.take k) := by
    intro k hk
    have := slice_append (pre ++ [fmt]) (s.take k) (s.drop k) (pre.length + 1) (pre.length + 1 + k)
      (by simp) (by simp; omega)
    simpa using this
  have hasc : ∀ k, ∀ c ∈ s.take k, c.toNat < 128 := fun k c hc => hs c (List.mem_of_mem_take hc)
  by_cases ha : fmt = 'a'
  · subst ha
    rw [if_pos rfl, if_pos rfl, add_ok (by omega)]
    simp only [Out.ok_bind]
    rw [add_ok (by omega)]
    simp only [Out.ok_bind]
    by_cases hl : s.length < n
    · rw [if_pos (by simp; omega), if_pos hl]
    · rw [if_neg (by simp; omega), if_neg hl, hsl n (by omega)]
      simp only [Out.ok_bind]
      have hlen : (s.take n).length = n := by rw [List.length_take]; omega
      simp only [hlen, Record.data]
      by_cases hmask : IsMasked (s.take n) masks
      · rw [if_pos ((isMaskedStr_iff (hasc n) masks).2 hmask), if_pos hmask]
      · rw [if_neg (fun h => hmask ((isMaskedStr_iff (hasc n) masks).1 h)), if_neg hmask,
          asBytes_of_ascii (hasc n)]
        rfl
  · rw [if_neg ha, if_neg ha]
    by_cases hh : fmt = 'h'
    · subst hh
      rw [if_pos rfl, if_pos rfl, mul_ok (by omega)]
      simp only [Out.ok_bind]
      rw [add_ok (by omega)]
      simp only [Out.ok_bind]
      rw [add_ok (by omega)]
      simp only [Out.ok_bind]
      by_cases hl : s.length < n * 2
      · rw [if_pos (by simp; omega), if_pos hl]
      · rw [if_neg (by simp; omega), if_neg hl, hsl (n * 2) (by omega)]
        simp only [Out.ok_bind]
        have hlen : (s.take (n * 2)).length = n * 2 := by rw [List.length_take]; omega
        by_cases hmask : IsMasked (s.take (n * 2)) masks
        · have hm' := (isMaskedStr_iff (hasc (n * 2)) masks).2 hmask
          rw [if_pos hm', if_pos (Or.inl hm')]
          simp only [Record.data, hlen]
          rw [if_pos hmask]
        · have hm' := fun h => hmask ((isMaskedStr_iff (hasc (n * 2)) masks).1 h)
          rw [if_neg hm']
          by_cases hx : ∀ c ∈ s.take (n * 2), IsHex c
          · rw [if_pos (Or.inr hx), parseHexStrStrict_ok_iff _ hx]
            simp only [mapErr_ok, Out.ok_bind, Record.data, hlen]
            rw [if_neg hmask, if_pos trivial, parseHexStr_eq]
          · rw [if_neg (fun h => h.elim hm' hx), parseHexStrStrict_err _ hx]
            rfl
    · rw [if_neg hh, if_neg hh]

theorem Record.data_congr (masks : List Char) (r : Record) :
    (Record.mk 'T' [] [] r.fmt r.value).data masks = r.data masks := rfl

theorem readRecord_split {masks : List Char} {s : Text} {r : Record} {rest : Text}
    (h : readRecord masks s = .ok (r, rest)) :
    s = r.text ++ rest ∧ (∀ c ∈ r.tagHex, IsHex c) ∧ 2 ≤ r.tagHex.length ∧
      (∀ c ∈ r.lenHex, IsHex c) ∧ r.lenHex.length ≤ 9 ∧
      (r.fmt = 'a' ∧ r.value.length = r.length ∨ r.fmt = 'h' ∧ r.value.length = 2 * r.length ∧
        (isMaskedStr r.value masks = true ∨ ∀ c ∈ r.value, IsHex c)) := by
  unfold readRecord at h
  split at h
  · cases h
  · rename_i typ s1
    split at h
    · cases h
    · rename_i tagHex s2 hs1
      split at h
      · cases h
      · rename_i htag
        split at h
        · cases h
        · rename_i lenHex s3 hs2
          split at h
          · cases h
          · rename_i hlen
            split at h
            · cases h
            · rename_i h9
              split at h
              · cases h
              · rename_i fmt s4
                split at h
                · cases h
                · rename_i value rest' hv
                  simp only [Except.ok.injEq, Prod.mk.injEq] at h
                  obtain ⟨rfl, rfl⟩ := h
                  obtain ⟨h1, h2⟩ := readValue_spec hv
                  have e1 := (splitColon_some hs1).1
                  have e2 := (splitColon_some hs2).1
                  simp only [not_or, Classical.not_not] at htag hlen
                  refine ⟨?_, htag.1, Nat.le_of_not_lt htag.2, hlen, Nat.le_of_not_lt h9, h2⟩
                  simp only [Record.text]
                  rw [e1, e2, h1]
                  simp

/-- Reading a record recognises exactly the well-formed records. -/
theorem readRecord_iff {masks : List Char} {s : Text} (hs : ∀ c ∈ s, c.toNat < 128) (r : Record)
    (rest : Text) : readRecord masks s = .ok (r, rest) ↔ s = r.text ++ rest ∧ r.WF masks := by
  constructor
  · intro h
    obtain ⟨h1, h2, h3, h4, h5, h6⟩ := readRecord_split h
    refine ⟨h1, h2, h3, h4, h5, ?_⟩
    rcases h6 with h6 | ⟨h6, h7, h8⟩
    · exact Or.inl h6
    · refine Or.inr ⟨h6, h7, ?_⟩
      rcases h8 with h8 | h8
      · right
        rw [← isMaskedStr_iff]
        · exact h8
        · intro c hc
          apply hs
          rw [h1]
          simp [Record.text, hc]
      · exact Or.inl h8
  · rintro ⟨rfl, h⟩
    have nocolon : ∀ t : Text, (∀ c ∈ t, IsHex c) → ':' ∉ t := fun t ht h => colon_not_hex (ht _ h)
    obtain ⟨typ, tagHex, lenHex, fmt, value⟩ := r
    have e1 : splitColon (tagHex ++ ':' :: (lenHex ++ ':' :: fmt :: (value ++ rest))) = _ :=
      splitColon_append (nocolon _ h.tagHex)
    have e2 : splitColon (lenHex ++ ':' :: fmt :: (value ++ rest)) = _ :=
      splitColon_append (nocolon _ h.lenHex)
    have htl : 2 ≤ tagHex.length := h.tagLen
    have hll : lenHex.length ≤ 9 := h.lenLen
    have hv : readValue masks fmt (beValue (hexBytes lenHex)) (value ++ rest) = some (value, rest) := by
      rcases h.value with ⟨rfl, h2⟩ | ⟨rfl, h2, h3⟩
      · simp only [Record.length] at h2
        simp [readValue, ← h2]
      · simp only [Record.length] at h2 h3
        have : beValue (hexBytes lenHex) * 2 = value.length := by omega
        have hcond : isMaskedStr value masks = true ∨ ∀ c ∈ value, IsHex c := by
          rcases h3 with h3 | h3
          · exact Or.inr h3
          · refine Or.inl ((isMaskedStr_iff ?_ masks).2 h3)
            intro c hc
            apply hs
            simp [Record.text, hc]
        rw [readValue, if_neg (by decide), if_pos rfl, this, if_neg (by simp)]
        simp only [List.take_left', List.drop_left']
        rw [if_pos hcond]
    simp only [Record.text, List.cons_append, List.append_assoc, readRecord]
    rw [e1]
    simp only
    rw [if_neg (by
      rintro (h' | h')
      · exact h' h.tagHex
      · omega), e2]
    simp only
    rw [if_neg (by intro h'; exact h' h.lenHex), if_neg (by omega), hv]

/-! ### One step -/

theorem ingStep_eq {m : Machine} (masks : List Char) (parse : List Byte → Out RawEmvBlock)
    (pre s : Text) (hne : s ≠ []) (hm : Fits m (pre.length + s.length))
    (hs : ∀ c ∈ s, c.toNat < 128)
    (hp : ∀ v : List Byte, v.length < s.length → (parse v).isReturned = true) :
    ingStep m masks parse (pre ++ s) pre.length =
      match readRecord masks s with
      | .error e => .err e
      | .ok (r, _) =>
        .ok (if r.typ = 'T' then some (r.node parse masks) else none, pre.length + r.text.length + 1) := by
  have hM : pre.length + s.length + 2 ^ 34 ≤ 2 ^ m.usizeBits := hm
  generalize hP : 2 ^ m.usizeBits = P at hM
  cases s with
  | nil => exact absurd rfl hne
  | cons typ s1 =>
    simp only [List.length_cons] at hM
    rw [ingStep, index_append, readRecord]
    simp only [Out.ok_bind]
    rw [add_ok (by omega)]
    simp only [Out.ok_bind]
    cases s1 with
    | nil => rw [if_pos (by simp)]; rfl
    | cons c0 s1' =>
      rw [if_neg (by simp)]
      generalize hs1 : c0 :: s1' = s1 at *
      have hfc := findColon_eq (m := m) (pre ++ [typ]) s1 (by rw [hP]; simp; omega)
      rw [show (pre ++ [typ]).length = pre.length + 1 by simp,
        show pre ++ [typ] ++ s1 = pre ++ typ :: s1 by simp] at hfc
      rw [hfc]
      cases hsp : splitColon s1 with
      | none => rfl
      | some p =>
        obtain ⟨tagHex, s2⟩ := p
        obtain ⟨e1, hnc1⟩ := splitColon_some hsp
        have l1 : s1.length = tagHex.length + (s2.length + 1) := by rw [e1]; simp
        simp only [Out.ok_bind]
        have hsl : slice (pre ++ typ :: s1) (pre.length + 1) (pre.length + 1 + tagHex.length) =
            .ok tagHex := by
          have := slice_append (pre ++ [typ]) tagHex (':' :: s2) (pre.length + 1)
            (pre.length + 1 + tagHex.length) (by simp) (by simp)
          rw [e1]; simpa using this
        rw [hsl]
        simp only [Out.ok_bind]
        by_cases htag : ∀ c ∈ tagHex, IsHex c
        · rw [parseHexStrStrict_ok_iff _ htag, parseHexStr_eq]
          simp only [mapErr_ok, Out.ok_bind]
          rw [add_ok (by omega)]
          simp only [Out.ok_bind]
          have hnil : stripZeros (hexBytes tagHex) = [] ↔ tagHex.length < 2 := by
            rw [strip_eq_nil, hexBytes_eq_nil htag]
          rw [trim_eq_strip]
          by_cases h2 : tagHex.length < 2
          · rw [if_pos (Or.inr (hnil.2 h2)), if_pos (Or.inr h2)]
          · rw [if_neg (c := ¬ (∀ c ∈ tagHex, IsHex c) ∨ tagHex.length < 2)
              (fun h => h.elim (fun h => h htag) h2)]
            by_cases hs2 : s2 = []
            · subst hs2
              rw [if_pos (Or.inl (by simp [l1]; omega))]
              rfl
            · have hs2pos : 0 < s2.length := List.length_pos_iff.2 hs2
              have htne : stripZeros (hexBytes tagHex) ≠ [] := fun h => h2 (hnil.1 h)
              rw [if_neg (fun h => h.elim (fun h => by simp [l1] at h; omega) htne)]
              obtain ⟨b0, t0, hbt⟩ : ∃ b t, stripZeros (hexBytes tagHex) = b :: t := by
                cases h : stripZeros (hexBytes tagHex) with
                | nil => exact absurd h htne
                | cons b t => exact ⟨b, t, rfl⟩
              rw [hbt, show index (b0 :: t0) 0 = .ok b0 from rfl]
              simp only [Out.ok_bind]
              rw [parseTagMetadata_eq b0 t0]
              simp only [Out.ok_bind]
              have hfc2 := findColon_eq (m := m) (pre ++ typ :: tagHex ++ [':']) s2
                (by rw [hP]; simp; omega)
              rw [show (pre ++ typ :: tagHex ++ [':']).length = pre.length + 1 + tagHex.length + 1 by
                  simp; omega,
                show pre ++ typ :: tagHex ++ [':'] ++ s2 = pre ++ typ :: s1 by rw [e1]; simp] at hfc2
              rw [hfc2]
              cases hsp2 : splitColon s2 with
              | none => rfl
              | some q =>
                obtain ⟨lenHex, s3⟩ := q
                obtain ⟨e2, hnc2⟩ := splitColon_some hsp2
                have l2 : s2.length = lenHex.length + (s3.length + 1) := by rw [e2]; simp
                simp only [Out.ok_bind]
                have hsl2 : slice (pre ++ typ :: s1) (pre.length + 1 + tagHex.length + 1)
                    (pre.length + 1 + tagHex.length + 1 + lenHex.length) = .ok lenHex := by
                  have := slice_append (pre ++ typ :: tagHex ++ [':']) lenHex (':' :: s3)
                    (pre.length + 1 + tagHex.length + 1)
                    (pre.length + 1 + tagHex.length + 1 + lenHex.length) (by simp; omega)
                    (by simp; omega)
                  rw [e1, e2]; simpa using this
                rw [hsl2]
                simp only [Out.ok_bind]
                by_cases hlen : ∀ c ∈ lenHex, IsHex c
                · rw [parseHexStrStrict_ok_iff _ hlen, parseHexStr_eq]
                  simp only [mapErr_ok, Out.ok_bind]
                  rw [hexBytes_length hlen, if_neg (c := ¬ (∀ c ∈ lenHex, IsHex c)) (fun h => h hlen)]
                  by_cases h9 : 9 < lenHex.length
                  · rw [if_pos (by omega), if_pos h9]
                  · have h4 : (hexBytes lenHex).length ≤ 4 := by rw [hexBytes_length hlen]; omega
                    have hn : beValue (hexBytes lenHex) < 2 ^ 32 :=
                      calc beValue (hexBytes lenHex) < 256 ^ (hexBytes lenHex).length := beValue_lt _
                        _ ≤ 256 ^ 4 := Nat.pow_le_pow_right (by omega) h4
                        _ = 2 ^ 32 := by decide
                    rw [if_neg (by omega), if_neg h9, byteSliceToU32_ok h4]
                    simp only [Out.ok_bind]
                    rw [add_ok (by omega)]
                    simp only [Out.ok_bind]
                    cases s3 with
                    | nil =>
                      rw [if_pos (by simp at *; omega)]
                    | cons fmt s4 =>
                      simp only [List.length_cons] at l2
                      rw [if_neg (by simp at *; omega)]
                      have hiv := ingValue_eq (m := m) masks
                        (pre ++ typ :: tagHex ++ ':' :: lenHex ++ [':']) fmt s4 _ hn
                        (by rw [hP]; simp; omega)
                        (fun c hc => hs c (by rw [e1, e2]; simp [hc]))
                      rw [show (pre ++ typ :: tagHex ++ ':' :: lenHex ++ [':']).length =
                          pre.length + 1 + tagHex.length + 1 + lenHex.length + 1 by simp; omega,
                        show pre ++ typ :: tagHex ++ ':' :: lenHex ++ [':'] ++ fmt :: s4 =
                          pre ++ typ :: s1 by rw [e1, e2]; simp] at hiv
                      rw [hiv]
                      simp only
                      cases hrv : readValue masks fmt (beValue (hexBytes lenHex)) s4 with
                      | none => rfl
                      | some w =>
                        obtain ⟨value, rest⟩ := w
                        obtain ⟨hsv, -⟩ := readValue_spec hrv
                        have l4 : s4.length = value.length + rest.length := by rw [hsv]; simp
                        simp only [Out.ok_bind]
                        rw [add_ok (by omega)]
                        simp only [Out.ok_bind]
                        have hidx : pre.length + 1 + tagHex.length + 1 + lenHex.length + 1 + 1 +
                            value.length + 1 =
                            pre.length + (Record.mk typ tagHex lenHex fmt value).text.length + 1 := by
                          simp [Record.text]; omega
                        rw [hidx]
                        by_cases hT : typ = 'T'
                        · rw [if_neg (by simp [hT]), if_pos hT, getChildBlock_of_returned]
                          · simp only [Out.ok_bind, Record.node, Record.tag, hbt]
                            rfl
                          · intro v hv
                            apply hp
                            rw [Record.data_congr masks ⟨typ, tagHex, lenHex, fmt, value⟩, Record.data] at hv
                            split at hv
                            · cases hv
                            · split at hv
                              · cases hv
                                have : (hexBytes value).length ≤ value.length := by
                                  rw [hexBytes, List.length_map, hexDecode, pairUp_length]
                                  have := List.length_filterMap_le hexDigit? value
                                  omega
                                simp only [List.length_cons]
                                omega
                              · cases hv
                                simp only [List.length_map, List.length_cons]
                                omega
                        · rw [if_pos hT, if_neg hT]
                · rw [parseHexStrStrict_err _ hlen, if_pos hlen]
                  rfl
        · rw [parseHexStrStrict_err _ htag, if_pos (Or.inl htag)]
          rfl

/-! ### Sequences of records -/

theorem text_ne_nil (r : Record) : r.text ≠ [] := by simp [Record.text]

theorem text_length (r : Record) : r.value.length + 4 ≤ r.text.length := by
  simp [Record.text]; omega

/-- All records of a text. -/
def readRecords (masks : List Char) (s : Text) : Except ParseError (List Record) :=
  if s = [] then .ok []
  else
    match _h : readRecord masks s with
    | .error e => .error e
    | .ok (r, []) => .ok [r]
    | .ok (r, _ :: rest) =>
      match readRecords masks rest with
      | .error e => .error e
      | .ok rs => .ok (r :: rs)
termination_by s.length
decreasing_by
  have := (readRecord_split _h).1
  rw [this]
  simp
  omega

theorem readRecords_nil (masks : List Char) : readRecords masks [] = .ok [] := by
  rw [readRecords]; simp

theorem readRecords_error {masks : List Char} {s : Text} {x : ParseError} (hne : s ≠ [])
    (h : readRecord masks s = .error x) : readRecords masks s = .error x := by
  rw [readRecords, if_neg hne]
  split
  · rename_i h'; rw [h] at h'; cases h'; rfl
  · rename_i h'; rw [h] at h'; cases h'
  · rename_i h'; rw [h] at h'; cases h'

theorem readRecords_last {masks : List Char} {s : Text} {r : Record} (hne : s ≠ [])
    (h : readRecord masks s = .ok (r, [])) : readRecords masks s = .ok [r] := by
  rw [readRecords, if_neg hne]
  split
  · rename_i h'; rw [h] at h'; cases h'
  · rename_i h'; rw [h] at h'; cases h'; rfl
  · rename_i h'; rw [h] at h'; cases h'

theorem readRecords_cons {masks : List Char} {s : Text} {r : Record} {sep : Char} {rest : Text}
    (hne : s ≠ []) (h : readRecord masks s = .ok (r, sep :: rest)) :
    readRecords masks s = match readRecords masks rest with
      | .error e => .error e
      | .ok rs => .ok (r :: rs) := by
  rw [readRecords, if_neg hne]
  split
  · rename_i h'; rw [h] at h'; cases h'
  · rename_i h'; rw [h] at h'; cases h'
  · rename_i h'; rw [h] at h'; cases h'; rfl

theorem readRecords_iff {masks : List Char} {s : Text} (hs : ∀ c ∈ s, c.toNat < 128)
    (rs : List Record) : readRecords masks s = .ok rs ↔ IsIngenico masks s rs := by
  constructor
  · intro h
    fun_induction readRecords masks s generalizing rs with
    | case1 => cases h; exact .nil
    | case2 => cases h
    | case3 s hne r hr =>
      cases h
      obtain ⟨h1, h2⟩ := (readRecord_iff hs _ _).1 hr
      rw [h1, List.append_nil]
      exact .last r h2
    | case4 => cases h
    | case5 s hne r sep rest hr rs' hrest ih =>
      cases h
      obtain ⟨h1, h2⟩ := (readRecord_iff hs _ _).1 hr
      have h3 := ih (fun c hc => hs c (by rw [h1]; simp [hc])) _ hrest
      rw [h1]
      exact .cons r h2 sep rest _ h3
  · intro h
    induction h with
    | nil => exact readRecords_nil masks
    | last r h => exact readRecords_last (text_ne_nil r) ((readRecord_iff hs r []).2 ⟨by simp, h⟩)
    | cons r h sep rest rs hrest ih =>
      rw [readRecords_cons (by simp [Record.text]) ((readRecord_iff hs r (sep :: rest)).2 ⟨rfl, h⟩),
        ih (fun c hc => hs c (by simp [hc]))]

theorem ingLoop_eq {m : Machine} (masks : List Char) (parse : List Byte → Out RawEmvBlock)
    (fuel : Nat) (pre s : Text) (nodes : RawEmvBlock) (hf : s.length ≤ fuel)
    (hm : Fits m (pre.length + s.length)) (hs : ∀ c ∈ s, c.toNat < 128)
    (hp : ∀ v : List Byte, v.length < s.length → (parse v).isReturned = true) :
    ingLoop m masks parse (pre ++ s) fuel pre.length nodes =
      match readRecords masks s with
      | .error e => .err e
      | .ok rs => .ok (nodes ++ (emvRecords rs).map (Record.node parse masks)) := by
  induction fuel generalizing pre s nodes with
  | zero =>
    have : s = [] := List.length_eq_zero_iff.1 (by omega)
    subst this
    rw [ingLoop, readRecords_nil]
    simp [emvRecords]
  | succ fuel ih =>
    by_cases hne : s = []
    · subst hne
      rw [ingLoop, readRecords_nil]
      simp [emvRecords]
    · have hpos : 0 < s.length := List.length_pos_iff.2 hne
      rw [ingLoop, if_pos (by simp; omega)]
      simp only
      rw [ingStep_eq masks parse pre s hne hm hs hp]
      cases hr : readRecord masks s with
      | error e => rw [readRecords_error hne hr]; rfl
      | ok p =>
        obtain ⟨r, rest⟩ := p
        have h1 := (readRecord_split hr).1
        have hlen : s.length = r.text.length + rest.length := by rw [h1]; simp
        have htl := text_length r
        simp only [Out.ok_bind]
        have hnode : (if r.typ = 'T' then some (r.node parse masks) else none).toList =
            (emvRecords [r]).map (Record.node parse masks) := by
          by_cases hT : r.typ = 'T' <;> simp [emvRecords, hT]
        rw [hnode]
        cases rest with
        | nil =>
          rw [readRecords_last hne hr]
          have : ¬ pre.length + r.text.length + 1 < (pre ++ s).length := by
            simp [hlen]
          cases fuel <;> rw [ingLoop, if_neg this]
        | cons sep rest =>
          simp only [List.length_cons] at hlen
          rw [readRecords_cons hne hr]
          have := ih (pre ++ r.text ++ [sep]) rest
            (nodes ++ (emvRecords [r]).map (Record.node parse masks)) (by omega)
            (by
              have : (pre ++ r.text ++ [sep]).length + rest.length = pre.length + s.length := by
                simp; omega
              rw [this]; exact hm)
            (fun c hc => hs c (by rw [h1]; simp [hc])) (fun v hv => hp v (by omega))
          rw [show pre ++ r.text ++ [sep] ++ rest = pre ++ s by rw [h1]; simp,
            show (pre ++ r.text ++ [sep]).length = pre.length + r.text.length + 1 by simp; omega] at this
          rw [this]
          cases readRecords masks rest with
          | error e => rfl
          | ok rs =>
            simp only [List.append_assoc, ← List.map_append]
            congr 3
            simp [emvRecords, List.filter_cons]
            split <;> rfl

/-- The Ingenico parser, one level unfolded. -/
theorem ingParse_eq {m : Machine} (masks : List Char) (s : Text) (hm : Fits m s.length)
    (hs : ∀ c ∈ s, c.toNat < 128) :
    ingParse m s masks =
      match readRecords masks s with
      | .error e => .err e
      | .ok rs => .ok ((emvRecords rs).map (Record.node (fun v => berParse m v masks) masks)) := by
  have ha : isAscii s = true := (isAscii_iff s).2 hs
  have := ingLoop_eq masks (fun v => berParse m v masks) (s.length + 1) [] s [] (by omega)
    (by simpa using hm) hs (fun v hv => berParse_returned masks v (fits_mono hm (by omega)))
  simp only [List.nil_append, List.length_nil] at this
  rw [ingParse, ha]
  simp only [Bool.not_true, Bool.false_eq_true, if_false]
  exact this

theorem ingParse_nonascii {m : Machine} (masks : List Char) (s : Text)
    (hs : ¬ ∀ c ∈ s, c.toNat < 128) : ingParse m s masks = .err .nonCompliant := by
  have : isAscii s = false := by
    cases h : isAscii s with
    | false => rfl
    | true => exact absurd ((isAscii_iff s).1 h) hs
  rw [ingParse, this]
  rfl

theorem ingParse_returned {m : Machine} (masks : List Char) (s : Text) (hm : Fits m s.length) :
    (ingParse m s masks).isReturned = true := by
  by_cases hs : ∀ c ∈ s, c.toNat < 128
  · rw [ingParse_eq masks s hm hs]
    cases readRecords masks s <;> rfl
  · rw [ingParse_nonascii masks s hs]; rfl

/-- The failures of a record. -/
theorem readRecord_error {masks : List Char} {s : Text} {x : ParseError}
    (h : readRecord masks s = .error x) : x = .nonCompliant ∨ x = .unsupported ∧
      ∃ typ tagHex lenHex rest, s = typ :: (tagHex ++ ':' :: (lenHex ++ ':' :: rest)) ∧
        (∀ c ∈ tagHex, IsHex c) ∧ 2 ≤ tagHex.length ∧ (∀ c ∈ lenHex, IsHex c) ∧ 10 ≤ lenHex.length := by
  unfold readRecord at h
  split at h
  · cases h; exact Or.inl rfl
  · rename_i typ s1
    split at h
    · cases h; exact Or.inl rfl
    · rename_i tagHex s2 hs1
      split at h
      · cases h; exact Or.inl rfl
      · rename_i htag
        split at h
        · cases h; exact Or.inl rfl
        · rename_i lenHex s3 hs2
          split at h
          · cases h; exact Or.inl rfl
          · rename_i hlen
            simp only [not_or, Classical.not_not] at htag hlen
            split at h
            · rename_i h9
              cases h
              have e1 := (splitColon_some hs1).1
              have e2 := (splitColon_some hs2).1
              exact Or.inr ⟨rfl, typ, tagHex, lenHex, s3, by rw [e1, e2], htag.1,
                Nat.le_of_not_lt htag.2, hlen, h9⟩
            · split at h
              · cases h; exact Or.inl rfl
              · split at h
                · cases h; exact Or.inl rfl
                · cases h

theorem readRecord_unsupported {masks : List Char} {typ : Char} {tagHex lenHex rest : Text}
    (h1 : ∀ c ∈ tagHex, IsHex c) (h2 : 2 ≤ tagHex.length) (h3 : ∀ c ∈ lenHex, IsHex c)
    (h4 : 10 ≤ lenHex.length) :
    readRecord masks (typ :: (tagHex ++ ':' :: (lenHex ++ ':' :: rest))) = .error .unsupported := by
  have nocolon : ∀ t : Text, (∀ c ∈ t, IsHex c) → ':' ∉ t := fun t ht h => colon_not_hex (ht _ h)
  rw [readRecord, splitColon_append (nocolon _ h1)]
  simp only
  rw [if_neg (by
    rintro (h | h)
    · exact h h1
    · omega), splitColon_append (nocolon _ h3)]
  simp only
  rw [if_neg (fun h => h h3), if_pos (by omega)]

theorem readRecords_unsupported_iff {masks : List Char} {s : Text} (hs : ∀ c ∈ s, c.toNat < 128) :
    readRecords masks s = .error .unsupported ↔
      ∃ l typ tagHex lenHex rest, s = render l ++ typ :: (tagHex ++ ':' :: (lenHex ++ ':' :: rest)) ∧
        (∀ p ∈ l, p.1.WF masks) ∧ (∀ c ∈ tagHex, IsHex c) ∧ 2 ≤ tagHex.length ∧
        (∀ c ∈ lenHex, IsHex c) ∧ 10 ≤ lenHex.length := by
  constructor
  · intro h
    fun_induction readRecords masks s with
    | case1 => cases h
    | case2 s hne x hr =>
      cases h
      rcases readRecord_error hr with h | ⟨-, typ, tagHex, lenHex, rest, h⟩
      · cases h
      · exact ⟨[], typ, tagHex, lenHex, rest, by simpa [render] using h.1, by simp, h.2⟩
    | case3 => cases h
    | case4 s hne r sep rest hr x hrest ih =>
      cases h
      obtain ⟨h1, h2⟩ := (readRecord_iff hs _ _).1 hr
      obtain ⟨l, typ, tagHex, lenHex, rest', h3, h4, h5⟩ := ih (fun c hc => hs c (by rw [h1]; simp [hc])) hrest
      refine ⟨(r, sep) :: l, typ, tagHex, lenHex, rest', ?_, ?_, h5⟩
      · rw [h1, h3]; simp [render]
      · intro p hp
        rcases List.mem_cons.1 hp with rfl | hp
        · exact h2
        · exact h4 p hp
    | case5 => cases h
  · rintro ⟨l, typ, tagHex, lenHex, rest, rfl, h1, h2, h3, h4, h5⟩
    induction l with
    | nil =>
      exact readRecords_error (by simp [render]) (readRecord_unsupported h2 h3 h4 h5)
    | cons p l ih =>
      have e : render (p :: l) ++ typ :: (tagHex ++ ':' :: (lenHex ++ ':' :: rest)) =
          p.1.text ++ p.2 :: (render l ++ typ :: (tagHex ++ ':' :: (lenHex ++ ':' :: rest))) := by
        simp [render]
      rw [e] at hs ⊢
      rw [readRecords_cons (by simp [Record.text])
        ((readRecord_iff hs p.1 (p.2 :: _)).2 ⟨rfl, h1 p (by simp)⟩),
        ih (fun c hc => hs c (by rw [List.mem_append, List.mem_cons]; exact Or.inr (Or.inr hc)))
          (fun q hq => h1 q (by simp [hq]))]

theorem readRecords_error_kinds {masks : List Char} {s : Text} {x : ParseError}
    (h : readRecords masks s = .error x) : x = .nonCompliant ∨ x = .unsupported := by
  fun_induction readRecords masks s generalizing x with
  | case1 => cases h
  | case2 s hne y hr =>
    cases h
    rcases readRecord_error hr with h | h
    · exact Or.inl h
    · exact Or.inr h.1
  | case3 => cases h
  | case4 s hne r sep rest hr y hrest ih => cases h; exact ih hrest
  | case5 => cases h

/-! ### Texts built from records -/

theorem isIngenico_render (masks : List Char) (l : List (Record × Char)) (h : ∀ p ∈ l, p.1.WF masks) :
    IsIngenico masks (render l) (l.map (·.1)) := by
  induction l with
  | nil => exact .nil
  | cons p l ih =>
    have := ih (fun q hq => h q (by simp [hq]))
    have e : render (p :: l) = p.1.text ++ p.2 :: render l := by simp [render]
    rw [e]
    exact .cons p.1 (h p (by simp)) p.2 _ _ this

theorem isIngenico_render_last (masks : List Char) (l : List (Record × Char)) (r : Record)
    (h : ∀ p ∈ l, p.1.WF masks) (hr : r.WF masks) :
    IsIngenico masks (render l ++ r.text) (l.map (·.1) ++ [r]) := by
  induction l with
  | nil => exact .last r hr
  | cons p l ih =>
    have := ih (fun q hq => h q (by simp [hq]))
    have e : render (p :: l) ++ r.text = p.1.text ++ p.2 :: (render l ++ r.text) := by simp [render]
    rw [e]
    exact .cons p.1 (h p (by simp)) p.2 _ _ this

theorem ingParse_of_isIngenico {m : Machine} {masks : List Char} {s : Text} (hm : Fits m s.length)
    (hs : ∀ c ∈ s, c.toNat < 128) {rs : List Record} (h : IsIngenico masks s rs) :
    ingParse m s masks =
      .ok ((emvRecords rs).map (Record.node (fun v => berParse m v masks) masks)) := by
  rw [ingParse_eq masks s hm hs, (readRecords_iff hs rs).2 h]

/-! ### Letter case -/

theorem sameHex_digits {t t' : Text} (h : SameHex t t') :
    t.filterMap hexDigit? = t'.filterMap hexDigit? ∧ t.length = t'.length ∧
      ((∀ c ∈ t, IsHex c) ↔ ∀ c ∈ t', IsHex c) := by
  induction t generalizing t' with
  | nil => cases t' with
    | nil => simp
    | cons => exact h.elim
  | cons c t ih =>
    cases t' with
    | nil => exact h.elim
    | cons c' t' =>
      obtain ⟨h1, h2⟩ := h
      obtain ⟨i1, i2, i3⟩ := ih h2
      have hd : hexDigit? c = hexDigit? c' := by
        rcases h1 with rfl | ⟨d, h, h'⟩
        · rfl
        · rw [h, h']
      refine ⟨by simp only [List.filterMap_cons, hd, i1], by simp [i2], ?_⟩
      have hx : IsHex c ↔ IsHex c' := by rw [IsHex, IsHex, hd]
      rw [List.forall_mem_cons, List.forall_mem_cons, i3, hx]

theorem hexDigit_mem {c : Char} {d : Nat} (h : hexDigit? c = some d) : (c, d) ∈ hexDigits := by
  unfold hexDigit? at h
  generalize hexDigits = l at h
  induction l with
  | nil => cases h
  | cons p l ih =>
    obtain ⟨a, b⟩ := p
    rw [List.lookup_cons] at h
    by_cases hc : c = a
    · subst hc; simp at h; subst h; simp
    · rw [beq_false_of_ne hc] at h
      exact List.mem_cons_of_mem _ (ih h)

theorem hexDigit_unique {a c : Char} {d : Nat} (ha : hexDigit? a = some d) (hc : hexDigit? c = some d)
    (h : a ∉ "abcdefABCDEF".toList) : c = a := by
  have key : ∀ p ∈ hexDigits, ∀ q ∈ hexDigits, p.2 = q.2 → p.1 ∉ "abcdefABCDEF".toList → q.1 = p.1 := by
    decide
  exact key (a, d) (hexDigit_mem ha) (c, d) (hexDigit_mem hc) rfl h

theorem sameHex_masked {t t' : Text} {masks : List Char} (h : SameHex t t')
    (hm : ∀ m ∈ masks, m ∉ "abcdefABCDEF".toList) (hmask : IsMasked t masks) : t = t' := by
  obtain ⟨-, m, hmm, hall⟩ := hmask
  induction t generalizing t' with
  | nil => cases t' with
    | nil => rfl
    | cons => exact h.elim
  | cons c t ih =>
    cases t' with
    | nil => exact h.elim
    | cons c' t' =>
      obtain ⟨h1, h2⟩ := h
      have hc := hall c (by simp)
      subst hc
      rw [ih h2 (fun x hx => hall x (by simp [hx]))]
      congr 1
      rcases h1 with h1 | ⟨d, h1, h1'⟩
      · exact h1
      · exact (hexDigit_unique h1 h1' (hm c hmm)).symm

theorem sameHex_symm {t t' : Text} (h : SameHex t t') : SameHex t' t := by
  induction t generalizing t' with
  | nil => cases t' with
    | nil => trivial
    | cons => exact h.elim
  | cons c t ih =>
    cases t' with
    | nil => exact h.elim
    | cons c' t' =>
      refine ⟨?_, ih h.2⟩
      rcases h.1 with h1 | ⟨d, h1, h1'⟩
      · exact Or.inl h1.symm
      · exact Or.inr ⟨d, h1', h1⟩

theorem pairUp_zeros (n : Nat) (ds : List Nat) :
    pairUp (List.replicate (2 * n) 0 ++ ds) = List.replicate n 0 ++ pairUp ds := by
  induction n with
  | zero => simp
  | succ n ih =>
    rw [show 2 * (n + 1) = 2 * n + 1 + 1 by omega, List.replicate_succ, List.replicate_succ,
      List.replicate_succ]
    simp [pairUp, ih]

theorem stripZeros_zeros (n : Nat) (bs : List Byte) (h : bs ≠ []) :
    stripZeros (List.replicate n 0 ++ bs) = stripZeros bs := by
  rw [← trim_eq_strip, ← trim_eq_strip, trim_zeros n bs h]

theorem stripZeros_padded (n : Nat) (t : Text) (ht : ∀ c ∈ t, IsHex c) (h2 : 2 ≤ t.length) :
    stripZeros (hexBytes (List.replicate (2 * n) '0' ++ t)) = stripZeros (hexBytes t) := by
  have h0 : hexDigit? '0' = some 0 := by decide
  have e : (List.replicate (2 * n) '0').filterMap hexDigit? = List.replicate (2 * n) 0 := by
    generalize 2 * n = k
    induction k with
    | zero => rfl
    | succ k ih => rw [List.replicate_succ, List.filterMap_cons, h0, ih, List.replicate_succ]
  rw [hexBytes, hexDecode, List.filterMap_append, e, pairUp_zeros, List.map_append, List.map_replicate]
  apply stripZeros_zeros
  intro h
  have : (hexBytes t).length = 0 := by
    rw [hexBytes, hexDecode, h]; rfl
  rw [hexBytes_length ht] at this
  omega

/-- Such records are read alike. -/
theorem sameRecord_spec {masks : List Char} {r r' : Record} (h : SameRecord r r')
    (hm : ∀ m ∈ masks, m ∉ "abcdefABCDEF".toList) (hw : r.WF masks) :
    r'.WF masks ∧ r'.typ = r.typ ∧ r'.tag = r.tag ∧ r'.data masks = r.data masks := by
  obtain ⟨n, n', t, t', e1, e2, e3, e4⟩ := h.tag
  obtain ⟨d1, d2, d3⟩ := sameHex_digits e3
  obtain ⟨l1, l2, l3⟩ := sameHex_digits h.len
  have ht : ∀ c ∈ t, IsHex c := fun c hc => hw.tagHex c (by rw [e1]; simp [hc])
  have ht' : ∀ c ∈ t', IsHex c := d3.1 ht
  have hz : IsHex '0' := by decide
  have hlen : r'.length = r.length := by rw [Record.length, Record.length, hexBytes, hexBytes, hexDecode, hexDecode, l1]
  refine ⟨⟨?_, ?_, l3.1 hw.lenHex, l2 ▸ hw.lenLen, ?_⟩, h.typ.symm, ?_, ?_⟩
  · intro c hc
    rw [e2] at hc
    rcases List.mem_append.1 hc with hc | hc
    · rw [(List.mem_replicate.1 hc).2]; exact hz
    · exact ht' c hc
  · rw [e2]; simp; omega
  · rw [hlen, ← h.fmt]
    have hv := h.value
    rcases hw.value with ⟨hf, hl⟩ | ⟨hf, hl, hx⟩
    · rw [hf] at hv
      rw [if_neg (by decide)] at hv
      exact Or.inl ⟨hf, hv ▸ hl⟩
    · rw [if_pos hf] at hv
      obtain ⟨v1, v2, v3⟩ := sameHex_digits hv
      refine Or.inr ⟨hf, v2 ▸ hl, ?_⟩
      rcases hx with hx | hx
      · exact Or.inl (v3.1 hx)
      · exact Or.inr (sameHex_masked hv hm hx ▸ hx)
  · rw [Record.tag, Record.tag, e1, e2, stripZeros_padded n t ht e4, stripZeros_padded n' t' ht' (d2 ▸ e4),
      hexBytes, hexBytes, hexDecode, hexDecode, d1]
  · have hv := h.value
    by_cases hf : r.fmt = 'h'
    · rw [if_pos hf] at hv
      have hf' : r'.fmt = 'h' := h.fmt ▸ hf
      have hmask : IsMasked r.value masks ↔ IsMasked r'.value masks :=
        ⟨fun k => sameHex_masked hv hm k ▸ k, fun k => sameHex_masked (sameHex_symm hv) hm k ▸ k⟩
      by_cases k : IsMasked r.value masks
      · rw [Record.data, Record.data, if_pos k, if_pos (hmask.1 k)]
      · rw [Record.data, Record.data, if_neg k, if_neg (mt hmask.2 k), if_pos hf, if_pos hf', hexBytes,
          hexBytes, hexDecode, hexDecode, (sameHex_digits hv).1]
    · rw [if_neg hf] at hv
      rw [Record.data, Record.data, hv, h.fmt]

/-! ### Written records -/

theorem hexText_digits (bs : List Byte) : (∀ c ∈ hexText bs, IsHex c) ∧ (hexText bs).length = 2 * bs.length ∧
    (hexText bs).filterMap hexDigit? = bs.flatMap (fun b => [b.toNat / 16, b.toNat % 16]) := by
  have key : ∀ n, n < 16 → hexDigit? ("0123456789ABCDEF".toList[n]!) = some n := by decide
  induction bs with
  | nil => exact ⟨by simp [hexText], rfl, rfl⟩
  | cons b bs ih =>
    obtain ⟨i1, i2, i3⟩ := ih
    have e : hexText (b :: bs) = "0123456789ABCDEF".toList[b.toNat / 16]! ::
        "0123456789ABCDEF".toList[b.toNat % 16]! :: hexText bs := rfl
    have k1 := key (b.toNat / 16) (by have := b.toNat_lt; omega)
    have k2 := key (b.toNat % 16) (by omega)
    rw [e]
    refine ⟨?_, by simp [i2]; omega, ?_⟩
    · intro c hc
      rcases List.mem_cons.1 hc with rfl | hc
      · rw [IsHex, k1]; rfl
      · rcases List.mem_cons.1 hc with rfl | hc
        · rw [IsHex, k2]; rfl
        · exact i1 c hc
    · rw [List.filterMap_cons, k1, List.filterMap_cons, k2, i3]; rfl

theorem hexBytes_hexText (bs : List Byte) : hexBytes (hexText bs) = bs := by
  have := congrArg (List.map UInt8.ofNat) (pairUp_nibbles bs)
  rw [hexBytes, hexDecode, (hexText_digits bs).2.2, this, List.map_map]
  conv => rhs; rw [← List.map_id bs]
  apply List.map_congr_left
  intro b _
  simp

theorem writeRecord_spec {masks : List Char} (ascii : Bool) {tag value : List Byte} (ht : tag ≠ [])
    (ht0 : tag.length = 1 ∨ tag.head? ≠ some 0) (hv : value.length < 2 ^ 32)
    (ha : ascii = true → ∀ b ∈ value, b.toNat < 128)
    (hmask : ¬ IsMasked (writeRecord ascii tag value).value masks) :
    (writeRecord ascii tag value).WF masks ∧ (writeRecord ascii tag value).tag = tag ∧
      (writeRecord ascii tag value).data masks = .normal value ∧
      ∀ c ∈ (writeRecord ascii tag value).text, c.toNat < 128 := by
  obtain ⟨m1, m2, m3⟩ := minBytes_spec hv
  obtain ⟨t1, t2, -⟩ := hexText_digits tag
  obtain ⟨l1, l2, -⟩ := hexText_digits (minBytes value.length)
  obtain ⟨v1, v2, -⟩ := hexText_digits value
  have hlen : (writeRecord ascii tag value).length = value.length := by
    rw [Record.length, writeRecord, hexBytes_hexText, m1]
  have htpos : 0 < tag.length := List.length_pos_iff.2 ht
  refine ⟨⟨t1, ?_, l1, ?_, ?_⟩, ?_, ?_, ?_⟩
  · show 2 ≤ (hexText tag).length; omega
  · show (hexText (minBytes value.length)).length ≤ 9; omega
  · rw [hlen]
    cases ascii with
    | true => exact Or.inl ⟨rfl, by simp [writeRecord, latin1]⟩
    | false => exact Or.inr ⟨rfl, v2, Or.inl v1⟩
  · show stripZeros (hexBytes (hexText tag)) = tag
    rw [hexBytes_hexText]
    cases tag with
    | nil => exact absurd rfl ht
    | cons b bs =>
      by_cases hb : b = 0
      · rcases ht0 with h | h
        · have : bs = [] := List.length_eq_zero_iff.1 (by simpa using h)
          subst this; subst hb; rfl
        · simp [hb] at h
      · simp [stripZeros, hb]
  · rw [Record.data, if_neg hmask]
    cases ascii with
    | false =>
      rw [if_pos (by rfl)]
      show EmvData.normal (hexBytes (hexText value)) = _
      rw [hexBytes_hexText]
    | true =>
      rw [if_neg (by simp [writeRecord])]
      show EmvData.normal ((latin1 value).map (fun c => UInt8.ofNat c.toNat)) = _
      congr 1
      rw [latin1, List.map_map]
      conv => rhs; rw [← List.map_id value]
      apply List.map_congr_left
      intro b _
      have := b.toNat_lt
      simp only [Function.comp_apply, id]
      rw [toNat_ofNat_of_lt (by omega)]
      simp
  · have hx : ∀ t : Text, (∀ c ∈ t, IsHex c) → ∀ c ∈ t, c.toNat < 128 := fun t h c hc => ascii_of_isHex (h c hc)
    have hT : 'T'.toNat < 128 := by decide
    have hc : ':'.toNat < 128 := by decide
    have hfa : 'a'.toNat < 128 := by decide
    have hfh : 'h'.toNat < 128 := by decide
    rw [Record.text]
    simp only [List.forall_mem_cons, List.forall_mem_append]
    refine ⟨hT, hx _ t1, hc, hx _ l1, hc, ?_, ?_⟩
    · cases ascii
      · exact hfh
      · exact hfa
    · cases ascii with
      | false => exact hx _ v1
      | true =>
        intro c hc
        obtain ⟨b, hb, rfl⟩ := List.mem_map.1 (show c ∈ latin1 value from hc)
        have := ha rfl b hb
        rw [toNat_ofNat_of_lt (by omega)]
        exact this

/-! ### Length fields -/

theorem ofDigits_pairs (ds : List Nat) (h : ∀ d ∈ ds, d < 16) : ofDigits 256 (pairUp ds) =
    if ds.length % 2 = 0 then ofDigits 16 ds else ofDigits 16 ds / 16 := by
  have hpow : ∀ k, 256 ^ k = 16 ^ (2 * k) := fun k => by rw [Nat.pow_mul]
  fun_induction pairUp ds with
  | case1 a b rest ih =>
    have ih := ih (fun d hd => h d (by simp [hd]))
    rw [ofDigits, ih, pairUp_length, ofDigits, ofDigits, List.length_cons, List.length_cons]
    by_cases hp : rest.length % 2 = 0
    · rw [if_pos hp, if_pos (by omega), hpow, show 2 * (rest.length / 2) = rest.length by omega,
        Nat.pow_succ]
      generalize 16 ^ rest.length = q
      generalize ofDigits 16 rest = x
      rw [Nat.add_mul, ← Nat.add_assoc, show 16 * a * q = a * (q * 16) by
        rw [Nat.mul_comm 16 a, Nat.mul_assoc, Nat.mul_comm 16 q]]
    · rw [if_neg hp, if_neg (by omega), hpow]
      obtain ⟨k, hk⟩ : ∃ k, rest.length = 2 * k + 1 := ⟨rest.length / 2, by omega⟩
      rw [hk, show 2 * ((2 * k + 1) / 2) = 2 * k by omega, Nat.pow_succ, Nat.pow_succ]
      generalize 16 ^ (2 * k) = q
      generalize ofDigits 16 rest = x
      have : a * (q * 16 * 16) + (b * (q * 16) + x) = x + 16 * ((16 * a + b) * q) := by
        have e1 : a * (q * 16 * 16) = 16 * (16 * a * q) := by
          rw [show q * 16 * 16 = 256 * q by omega, show 16 * a * q = 16 * (a * q) by rw [Nat.mul_assoc],
            Nat.mul_left_comm a 256 q]
          omega
        have e2 : b * (q * 16) = 16 * (b * q) := by
          rw [Nat.mul_comm q 16, Nat.mul_left_comm]
        rw [Nat.add_mul, e1, e2]
        omega
      rw [this, Nat.add_mul_div_left _ _ (by omega)]
      omega
  | case2 l hl =>
    match l, hl with
    | [], _ => rfl
    | [a], _ =>
      have := h a (by simp)
      simp [ofDigits]
      omega
    | a :: b :: rest, hl => exact absurd rfl (hl a b rest)

/-- What the code reads a length field as. -/
theorem record_length (r : Record) (h : ∀ c ∈ r.lenHex, IsHex c) : r.length =
    if r.lenHex.length % 2 = 0 then r.lengthValue else r.lengthValue / 16 := by
  have e : beValue (hexBytes r.lenHex) = ofDigits 256 (hexDecode r.lenHex) := by
    rw [beValue, ← parseHexStr_eq, parseHexStr_toNat]
  rw [Record.length, e, hexDecode, ofDigits_pairs _ (filterMap_hexDigit_lt _), hexDigits_length h]
  rfl

/-! ### Masking characters as a set -/

/-- The masks of two lists agree on all values. -/
theorem masked_congr {masks masks' : List Char} (h : ∀ c, c ∈ masks ↔ c ∈ masks') :
    (fun d => isMaskedU8 d masks) = (fun d => isMaskedU8 d masks') ∧
    (fun d => isMaskedStr d masks) = (fun d => isMaskedStr d masks') := by
  have key : ∀ p : Char → Bool, masks.any p = masks'.any p := by
    intro p
    rw [Bool.eq_iff_iff, List.any_eq_true, List.any_eq_true]
    simp only [h]
  constructor
  · funext d; simp only [isMaskedU8, key]
  · funext d; simp only [isMaskedStr, key]

end Pemv
