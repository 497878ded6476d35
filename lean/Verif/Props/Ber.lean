import Verif.Proofs.BerTree
import Verif.Proofs.Stack

/-!
# C10 – C20: the BER-TLV parser

`Fits m n` says that `usize` of the target `m` has room for an input of length `n` (see
`Spec/Ber.lean`); `c16_fits_64` shows that it holds for everything a 64-bit target can hold.
-/

namespace Pemv

open Spec

/-! ### C10 -/

/-- **C10.** The parser accepts exactly the concatenations of well-formed objects not ending in a
long-form zero length, and reports these objects in order. -/
theorem c10_language {m : Machine} (masks : List Char) (bytes : List Byte) (hm : Fits m bytes.length)
    (ns : RawEmvBlock) :
    berParse m bytes masks = .ok ns ↔
      ∃ es, bytes = concat es ∧ IsBlock es ∧ ns = es.map (nodeOf (fun v => berParse m v masks) masks) := by
  constructor
  · exact berParse_inv hm
  · rintro ⟨es, rfl, h, rfl⟩
    rw [berParse_eq masks _ hm, (readElems_iff _ _).2 ⟨rfl, h⟩]

/-- A template of two objects: they are what its bytes are made of. -/
example : ∃ es, [0x70, 0x03, 0x5A, 0x01, 0x12, 0x95, 0x00] = concat es ∧ IsBlock es :=
  let ⟨es, h, h', _⟩ := (c10_language (m := .debug64) [] _ (by unfold Fits; decide) _).1 rfl
  ⟨es, h, h'⟩

/-- **C10.** Acceptance does not depend on the masking characters. -/
theorem c10_acceptance {m : Machine} (masks : List Char) (bytes : List Byte)
    (hm : Fits m bytes.length) :
    (∃ ns, berParse m bytes masks = .ok ns) ↔ ∃ es, bytes = concat es ∧ IsBlock es := by
  constructor
  · rintro ⟨ns, h⟩
    obtain ⟨es, h1, h2, -⟩ := (c10_language masks bytes hm ns).1 h
    exact ⟨es, h1, h2⟩
  · rintro ⟨es, h1, h2⟩
    exact ⟨_, (c10_language masks bytes hm _).2 ⟨es, h1, h2, rfl⟩⟩

example : ¬ ∃ es, [0x70, 0x03, 0x5A, 0x01] = concat es ∧ IsBlock es := fun h => by
  obtain ⟨ns, h⟩ := (c10_acceptance (m := .debug64) [] _ (by unfold Fits; decide)).2 h
  exact nomatch h

/-- **C10.** The decomposition into objects is unique. -/
theorem c10_unique (es es' : List Elem) (h : concat es = concat es') (hw : ∀ e ∈ es, e.WF)
    (hw' : ∀ e ∈ es', e.WF) : es = es' := by
  obtain ⟨l, h1, h2⟩ := concat_prefix (r := []) (by rw [List.append_nil]; exact h) hw hw'
  subst h1
  have : l = [] := concat_eq_nil (fun e he => hw' e (by simp [he])) h2.symm
  rw [this, List.append_nil]

/-- Two objects; with the other order of the same bytes there would be one. -/
example (es : List Elem) (h : concat es = [0x5A, 0x01, 0x12, 0x95, 0x00]) (hw : ∀ e ∈ es, e.WF) :
    es = [⟨[0x5A], [0x01], [0x12]⟩, ⟨[0x95], [0x00], []⟩] := by
  refine c10_unique es _ (h.trans rfl) hw fun e he => ?_
  simp only [List.mem_cons, List.not_mem_nil, or_false] at he
  rcases he with rfl | rfl
  · exact ⟨.low 0x5A (by decide), .short 0x01 (by decide)⟩
  · exact ⟨.low 0x95 (by decide), .short 0x00 (by decide)⟩

/-- **C10.** What is reported for one object: exact tag bytes and, unless masked, exact value bytes. -/
theorem c10_reported (parse : List Byte → Out RawEmvBlock) (masks : List Char) (e : Elem) :
    (nodeOf parse masks e).tag.tag = e.tag ∧
    (IsMasked (latin1 e.value) masks → (nodeOf parse masks e).tag.data = .masked) ∧
    (¬ IsMasked (latin1 e.value) masks → (nodeOf parse masks e).tag.data = .normal e.value) := by
  refine ⟨rfl, fun h => ?_, fun h => ?_⟩ <;> simp [nodeOf, RawEmvNode.tag, dataOf, h]

example : berParse .debug64 [0x70, 0x06, 0x5A, 0x01, 0x12, 0x9F, 0x02, 0x00] [] =
    .ok [.mk ⟨[0x70], .application, .constructed, .normal [0x5A, 0x01, 0x12, 0x9F, 0x02, 0x00]⟩
      [.mk ⟨[0x5A], .application, .primitive, .normal [0x12]⟩ [],
       .mk ⟨[0x9F, 0x02], .contextSpecific, .primitive, .normal []⟩ []]] := rfl
example : IsBlock [⟨[0x9F, 0x82, 0x02], [0x81, 0x01], [0x33]⟩, ⟨[0x5A], [0x00], []⟩] := by
  refine ⟨?_, ?_⟩
  · intro e he
    simp only [List.mem_cons, List.not_mem_nil, or_false] at he
    rcases he with rfl | rfl
    · exact ⟨.high 0x9F [0x82] 0x02 (by decide) (by decide) (by decide),
        .long 0x81 [0x01] (by decide) (by decide)⟩
    · exact ⟨.low 0x5A (by decide), .short 0x00 (by decide)⟩
  · rintro e he ⟨h1, b, h2, h3⟩
    cases he
    cases h2
    simp at h3

/-! ### C11 -/

/-- **C11.** Encoding a forest of objects and parsing it gives the forest back. -/
theorem c11_round_trip {m : Machine} (masks : List Char) (os : List Obj) (h : allWF masks os)
    (hm : Fits m (encodeAll os).length) : berParse m (encodeAll os) masks = .ok (nodes os) :=
  berParse_encode os h hm

example : berParse .debug64 (encodeAll [.prim [0x9F, 0x02] [0x12], .cons [0x70] [.prim [0x95] []]]) [] =
    .ok (nodes [.prim [0x9F, 0x02] [0x12], .cons [0x70] [.prim [0x95] []]]) := by
  have hn : ∀ v : List Byte, ¬ IsMasked (latin1 v) [] := fun v h => by
    obtain ⟨-, c, hc, -⟩ := h
    cases hc
  refine c11_round_trip [] _ ?_ (by unfold Fits; decide +kernel)
  simp only [allWF, Obj.WF]
  exact ⟨⟨.high 0x9F [] 0x02 (by decide) (by decide) (by decide), by decide, by decide, hn _⟩,
    ⟨.low 0x70 (by decide), by decide, by decide, hn _, ⟨.low 0x95 (by decide), by decide, by decide, hn _⟩, trivial⟩,
    trivial⟩

/-- **C11.** Nothing is lost: different forests have different encodings. -/
theorem c11_injective (os os' : List Obj) (h : allWF [] os) (h' : allWF [] os')
    (heq : encodeAll os = encodeAll os') : os = os' := by
  have hm : ∃ m : Machine, Fits m (encodeAll os).length := by
    refine ⟨⟨(encodeAll os).length + 2 ^ 34, true⟩, ?_⟩
    exact Nat.le_of_lt Nat.lt_two_pow_self
  obtain ⟨m, hm⟩ := hm
  have h1 := c11_round_trip [] os h hm
  have h2 := c11_round_trip [] os' h' (heq ▸ hm)
  rw [heq, h2] at h1
  exact (objs_of_nodes _ _ (Out.ok.inj h1)).symm

/-- Two forests with the same contents in other templates, which have different encodings. -/
example : allWF [] [.cons [0x70] [.prim [0x5A] [0x12]], .prim [0x95] [0]] ∧ allWF [] [.cons [0x70] [.prim [0x5A] [0x12], .prim [0x95] [0]]] ∧
    encodeAll [.cons [0x70] [.prim [0x5A] [0x12]], .prim [0x95] [0]] ≠ encodeAll [.cons [0x70] [.prim [0x5A] [0x12], .prim [0x95] [0]]] := by
  have hn : ∀ v : List Byte, ¬ IsMasked (latin1 v) [] := fun v h => by
    obtain ⟨-, c, hc, -⟩ := h
    cases hc
  have h5A : IsTag [0x5A] := .low 0x5A (by decide)
  have h95 : IsTag [0x95] := .low 0x95 (by decide)
  have h70 : IsTag [0x70] := .low 0x70 (by decide)
  exact ⟨⟨⟨h70, by decide, by decide, hn _, ⟨h5A, by decide, by decide, hn _⟩, trivial⟩, ⟨h95, by decide, by decide, hn _⟩, trivial⟩,
    ⟨⟨h70, by decide, by decide, hn _, ⟨h5A, by decide, by decide, hn _⟩, ⟨h95, by decide, by decide, hn _⟩, trivial⟩, trivial⟩,
    by decide +kernel⟩

/-- The hypotheses of `c11_round_trip` are met, for instance, by a template in a template. -/
example : allWF ['*'] [.cons [0x70] [.cons [0xBF, 0x0C] [.prim [0x5A] [0x12, 0x34]], .prim [0x9F, 0x02] []],
    .prim [0x95] [0, 0, 0, 0, 0]] := by
  have hm : ∀ v : List Byte, (∃ b ∈ v, b.toNat ≠ 42) → ¬ IsMasked (latin1 v) ['*'] := by
    rintro v ⟨b, hb, hne⟩ ⟨-, c, hc, hall⟩
    simp only [List.mem_singleton] at hc
    subst hc
    have := hall (Char.ofNat b.toNat) (List.mem_map_of_mem (f := fun b : Byte => Char.ofNat b.toNat) hb)
    have h2 := congrArg Char.toNat this
    rw [toNat_ofNat_of_lt (by have := b.toNat_lt; omega)] at h2
    exact hne h2
  have hm0 : ¬ IsMasked (latin1 []) ['*'] := fun h => absurd h.1 (by simp [latin1])
  refine ⟨⟨.low 0x70 (by decide), by decide, by decide, hm _ ⟨0x70 - 0x16, by decide, by decide⟩, ?_⟩, ?_, ?_⟩
  · refine ⟨⟨.high 0xBF [] 0x0C (by decide) (by decide) (by decide), by decide, by decide,
      hm _ ⟨0x5A, by decide, by decide⟩, ?_⟩, ?_, trivial⟩
    · exact ⟨⟨.low 0x5A (by decide), by decide, by decide, hm _ ⟨0x12, by decide, by decide⟩⟩, trivial⟩
    · exact ⟨.high 0x9F [] 0x02 (by decide) (by decide) (by decide), by decide, by decide, hm0⟩
  · exact ⟨.low 0x95 (by decide), by decide, by decide, hm _ ⟨0, by decide, by decide⟩⟩
  · trivial

/-! ### C12 -/

/-- **C12.** No byte is skipped or read twice: an accepted input is exactly the concatenation of tag,
length field and value of the reported objects, where the length field denotes the length of the
value. -/
theorem c12_exact_cover {m : Machine} (masks : List Char) (bytes : List Byte) (hm : Fits m bytes.length)
    (ns : RawEmvBlock) (h : berParse m bytes masks = .ok ns) :
    ∃ parts : List (RawEmvNode × List Byte × List Byte),
      ns = parts.map (·.1) ∧ bytes = parts.flatMap (fun p => p.1.tag.tag ++ p.2.1 ++ p.2.2) ∧
      ∀ p ∈ parts, IsLength p.2.1 p.2.2.length ∧ (p.1.tag.data = .masked ∨ p.1.tag.data = .normal p.2.2) := by
  obtain ⟨es, h1, h2, h3⟩ := (c10_language masks bytes hm ns).1 h
  refine ⟨es.map (fun e => (nodeOf (fun v => berParse m v masks) masks e, e.len, e.value)), ?_, ?_, ?_⟩
  · rw [h3, List.map_map]; rfl
  · rw [h1, concat, List.flatMap_map]; rfl
  · intro p hp
    obtain ⟨e, he, rfl⟩ := List.mem_map.1 hp
    refine ⟨(h2.1 e he).2, ?_⟩
    by_cases hmask : IsMasked (latin1 e.value) masks
    · exact Or.inl ((c10_reported _ masks e).2.1 hmask)
    · exact Or.inr ((c10_reported _ masks e).2.2 hmask)

example : ∃ ns, berParse .release64 [0x5A, 0x82, 0x00, 0x01, 0x99, 0x95, 0x01, 0x00] [] = .ok ns ∧
    ns.length = 2 := ⟨_, rfl, rfl⟩

/-! ### C13 -/

/-- **C13.** After an accepted sequence, the rest is treated as if it stood alone. -/
theorem c13_compositional {m : Machine} (masks : List Char) (a b : List Byte)
    (hm : Fits m (a ++ b).length) (x : RawEmvBlock) (ha : berParse m a masks = .ok x) :
    berParse m (a ++ b) masks = (berParse m b masks).map (x ++ ·) := by
  have hl : (a ++ b).length = a.length + b.length := List.length_append
  obtain ⟨es, h1, h2, h3⟩ := (c10_language masks a (fits_mono hm (by omega)) x).1 ha
  subst h1
  rw [berParse_eq masks _ hm, berParse_eq masks b (fits_mono hm (by omega)),
    readElems_append es b h2.1 (fun _ => h2)]
  cases readElems b with
  | error e => rfl
  | ok es' => simp [h3]

example : berParse .debug64 ([0x5A, 0x01, 0x12] ++ [0x95]) [] = .err .nonCompliant :=
  c13_compositional [] [0x5A, 0x01, 0x12] [0x95] (by unfold Fits; decide) _ rfl

/-- **C13.** Results of concatenations are concatenations of results. -/
theorem c13_append {m : Machine} (masks : List Char) (a b : List Byte) (hm : Fits m (a ++ b).length)
    (x y : RawEmvBlock) (ha : berParse m a masks = .ok x) (hb : berParse m b masks = .ok y) :
    berParse m (a ++ b) masks = .ok (x ++ y) := by
  rw [c13_compositional masks a b hm x ha, hb]; rfl

example := c13_append (m := .release64) ['*'] [0x5A, 0x01, 0x12] [0x70, 0x02, 0x95, 0x00] (by unfold Fits; decide) _ _ rfl rfl

/-- **C13.** After an accepted sequence, the whole is accepted if and only if the rest is. -/
theorem c13_iff {m : Machine} (masks : List Char) (a b : List Byte) (hm : Fits m (a ++ b).length)
    (x : RawEmvBlock) (ha : berParse m a masks = .ok x) :
    (∃ z, berParse m (a ++ b) masks = .ok z) ↔ ∃ y, berParse m b masks = .ok y := by
  rw [c13_compositional masks a b hm x ha]
  cases berParse m b masks <;> simp

example : ∃ x y, berParse .debug64 [0x5A, 0x01, 0x12] ['*'] = .ok x ∧
    berParse .debug64 [0x70, 0x02, 0x95, 0x00] ['*'] = .ok y ∧
    berParse .debug64 [0x5A, 0x01, 0x12, 0x70, 0x02, 0x95, 0x00] ['*'] = .ok (x ++ y) :=
  ⟨_, _, rfl, rfl, rfl⟩

/-! ### C14 -/

/-- **C14.** Cutting strictly inside an object is always detected. -/
theorem c14_truncation {m : Machine} (masks : List Char) (es : List Elem) (e : Elem)
    (p q : List Byte) (hes : ∀ x ∈ es, x.WF) (he : e.WF) (hcut : e.bytes = p ++ q) (hp : p ≠ [])
    (hq : q ≠ []) (hm : Fits m (concat es ++ p).length) :
    berParse m (concat es ++ p) masks = .err .nonCompliant := by
  have hw : ∀ x ∈ es ++ [e], x.WF := by
    intro x hx
    rcases List.mem_append.1 hx with hx | hx
    · exact hes x hx
    · rw [List.mem_singleton.1 hx]; exact he
  have hfull : concat es ++ p ++ q = concat (es ++ [e]) := by
    rw [concat_append, List.append_assoc, ← hcut]; simp [concat]
  have key : readElems (concat es ++ p) = .error .nonCompliant := by
    cases hre : readElems (concat es ++ p) with
    | ok es' =>
      exfalso
      obtain ⟨h1, h2⟩ := (readElems_iff _ _).1 hre
      rw [h1] at hfull
      obtain ⟨l, h3, h4⟩ := concat_prefix hfull h2.1 hw
      have hl : l ≠ [] := by rintro rfl; exact hq h4
      obtain ⟨l', x, rfl⟩ : ∃ l' x, l = l' ++ [x] :=
        ⟨l.dropLast, l.getLast hl, (List.dropLast_concat_getLast hl).symm⟩
      rw [← List.append_assoc] at h3
      obtain ⟨h5, -⟩ := List.append_inj' h3 rfl
      rw [h5, concat_append] at h1
      have h6 : (concat es' ++ concat l' ++ p).length = (concat es').length := by rw [h1]
      simp at h6
      exact hp h6.2
    | error x =>
      rcases readElems_error_kinds hre with rfl | rfl
      · rfl
      · exfalso
        obtain ⟨es1, tag, b, rest, h1, h2, h3, h4⟩ := (readElems_unsupported_iff _).1 hre
        rw [h1, List.append_assoc] at hfull
        obtain ⟨l, h5, h6⟩ := concat_prefix hfull h2 hw
        cases l with
        | nil => simp [concat] at h6
        | cons f l =>
          have hf : f.WF := hw f (by rw [h5]; simp)
          rw [concat_cons, Elem.bytes, List.append_assoc, List.append_assoc, List.append_assoc] at h6
          obtain ⟨-, h7⟩ := readTag_prefix h6 h3 hf.1
          have h8 := hf.2
          have h9 := isLength_head h8 h7
          omega
  rw [berParse_eq masks _ hm, key]

/-- All five proper cuts of an object after another one. -/
example : ∀ k : Fin 5, berParse .debug64 ([0x5A, 0x00] ++ [0x9F, 0x02, 0x02, 0x12, 0x34, 0x56].take (k.val + 1))
    [] = .err .nonCompliant ∨ k.val = 4 := by
  intro k; match k with
  | 0 => exact Or.inl rfl
  | 1 => exact Or.inl rfl
  | 2 => exact Or.inl rfl
  | 3 => exact Or.inl rfl
  | 4 => exact Or.inr rfl

/-! ### C15 -/

/-- **C15.** The only errors are `NonCompliant` and `Unsupported`. -/
theorem c15_kinds {m : Machine} (masks : List Char) (bytes : List Byte) (hm : Fits m bytes.length)
    (x : ParseError) (h : berParse m bytes masks = .err x) : x = .nonCompliant ∨ x = .unsupported := by
  rw [berParse_eq masks bytes hm] at h
  cases hre : readElems bytes with
  | ok es => rw [hre] at h; cases h
  | error y => rw [hre] at h; cases h; exact readElems_error_kinds hre

example := c15_kinds (m := .debug64) [] [0x5A, 0x03, 0x00] (by unfold Fits; decide) .nonCompliant rfl

/-- **C15.** `Unsupported` means: some objects, then a complete tag and a length byte announcing more
than four length bytes. -/
theorem c15_unsupported {m : Machine} (masks : List Char) (bytes : List Byte)
    (hm : Fits m bytes.length) :
    berParse m bytes masks = .err .unsupported ↔
      ∃ es tag b rest, bytes = concat es ++ (tag ++ b :: rest) ∧ (∀ e ∈ es, e.WF) ∧ IsTag tag ∧
        132 < b.toNat := by
  rw [← readElems_unsupported_iff, berParse_eq masks bytes hm]
  cases readElems bytes <;> simp

example : ∃ es tag b rest, [0x5A, 0x00, 0x9F, 0x02, 0x85, 0, 0] = concat es ++ (tag ++ b :: rest) ∧
    (∀ e ∈ es, e.WF) ∧ IsTag tag ∧ 132 < b.toNat :=
  (c15_unsupported (m := .debug64) [] _ (by unfold Fits; decide)).1 rfl

/-- **C15.** Hence `NonCompliant` is everything else that is not accepted. -/
theorem c15_non_compliant {m : Machine} (masks : List Char) (bytes : List Byte)
    (hm : Fits m bytes.length) :
    berParse m bytes masks = .err .nonCompliant ↔
      (¬ ∃ es, bytes = concat es ∧ IsBlock es) ∧
      ¬ ∃ es tag b rest, bytes = concat es ++ (tag ++ b :: rest) ∧ (∀ e ∈ es, e.WF) ∧ IsTag tag ∧
        132 < b.toNat := by
  rw [← c15_unsupported masks bytes hm, ← c10_acceptance masks bytes hm]
  have h1 := berParse_returned masks bytes hm
  have h2 := c15_kinds masks bytes hm
  cases hp : berParse m bytes masks with
  | ok ns => simp
  | err x => rcases h2 x hp with rfl | rfl <;> simp
  | panic => rw [hp] at h1; cases h1
  | diverge => rw [hp] at h1; cases h1

example : berParse .debug64 [0x5A, 0x00, 0x9F, 0x02, 0x85, 0, 0, 0, 0, 0] [] = .err .unsupported := rfl
example : berParse .debug64 [0x5A, 0x03, 0x00] [] = .err .nonCompliant := rfl

/-! ### C16 -/

/-- **C16.** Parsing returns a block or an error: it neither panics nor fails to terminate, with or
without overflow checks, if `usize` has room for the input. -/
theorem c16_returns {m : Machine} (masks : List Char) (bytes : List Byte) (hm : Fits m bytes.length) :
    (∃ ns, berParse m bytes masks = .ok ns) ∨ ∃ e, berParse m bytes masks = .err e := by
  have := berParse_returned masks bytes hm
  cases h : berParse m bytes masks with
  | ok ns => exact Or.inl ⟨ns, rfl⟩
  | err e => exact Or.inr ⟨e, rfl⟩
  | panic => rw [h] at this; cases this
  | diverge => rw [h] at this; cases this

example := c16_returns (m := .debug64) ['*'] [0x5A, 0x84, 0xFF, 0xFF] (by unfold Fits; decide)

/-- **C16.** On 64-bit targets every slice Rust can hold (at most `isize::MAX` bytes) has room. -/
theorem c16_fits_64 {m : Machine} (h64 : m.usizeBits = 64) (n : Nat) (h : n < 2 ^ 63) : Fits m n := by
  rw [Fits, h64]
  omega

/-- **C16.** The 64-bit statement. -/
theorem c16_returns_64 {m : Machine} (h64 : m.usizeBits = 64) (masks : List Char) (bytes : List Byte)
    (h : bytes.length < 2 ^ 63) :
    (∃ ns, berParse m bytes masks = .ok ns) ∨ ∃ e, berParse m bytes masks = .err e :=
  c16_returns masks bytes (c16_fits_64 h64 _ h)

example := c16_returns_64 (m := .release64) rfl ['*'] [0x5A, 0x84, 0xFF, 0xFF] (by decide)

/-- **C16.** Overflow checks make no difference there. -/
theorem c16_build_modes_agree (masks : List Char) (bytes : List Byte) (h : bytes.length < 2 ^ 63) :
    berParse .debug64 bytes masks = berParse .release64 bytes masks := by
  have key : ∀ n, ∀ bytes : List Byte, bytes.length ≤ n → bytes.length < 2 ^ 63 →
      berParse .debug64 bytes masks = berParse .release64 bytes masks := by
    intro n
    induction n with
    | zero =>
      intro bytes h _
      have : bytes = [] := List.length_eq_zero_iff.1 (by omega)
      subst this; rfl
    | succ n ih =>
      intro bytes h h'
      rw [berParse_eq masks bytes (c16_fits_64 rfl _ h'), berParse_eq masks bytes (c16_fits_64 rfl _ h')]
      cases hre : readElems bytes with
      | error e => rfl
      | ok es =>
        simp only
        congr 1
        apply List.map_congr_left
        intro e he
        obtain ⟨h1, h2⟩ := (readElems_iff _ _).1 hre
        have h3 := elem_length (h2.1 e he)
        have h4 := mem_concat_length he
        rw [← h1] at h4
        rw [nodeOf, nodeOf, ih e.value (by omega) (by omega)]
  exact key _ bytes (Nat.le_refl _) h

example := c16_build_modes_agree ['*'] [0x5A, 0x84, 0xFF, 0xFF, 0xFF, 0xFF, 0x12] (by decide)

/-- **C16.** On 32-bit targets the claim is false: a four-byte length close to 2^32 panics in both
build modes. -/
theorem c16_panics_on_32_bit {m : Machine} (h : m.usizeBits = 32) :
    berParse m [0x5A, 0x84, 0xFF, 0xFF, 0xFF, 0xFF, 0x00] [] = .panic := by
  obtain ⟨b, c⟩ := m
  simp only at h
  subst h
  cases c <;> rfl

example : Machine.debug32.usizeBits = 32 ∧ Machine.release32.usizeBits = 32 := ⟨rfl, rfl⟩

example : berParse .debug64 [0x5A, 0x84, 0xFF, 0xFF, 0xFF, 0xFF, 0x00] [] = .err .nonCompliant := rfl

/-! ### C17 -/

/-- **C17.** At every depth, the children of a constructed, unmasked object are what parsing its value
on its own gives, or none if that fails; other objects have no children. -/
theorem c17_children {m : Machine} (masks : List Char) (bytes : List Byte) (hm : Fits m bytes.length)
    (ns : RawEmvBlock) (h : berParse m bytes masks = .ok ns) (n : RawEmvNode) (hn : InBlock n ns) :
    n.tag.dataObjectType = typeOf n.tag.tag ∧ n.tag.cls = classOf n.tag.tag ∧
    (n.tag.dataObjectType = .primitive → n.childBlock = []) ∧
    (n.tag.data = .masked → n.childBlock = []) ∧
    ∀ v, n.tag.dataObjectType = .constructed → n.tag.data = .normal v →
      (berParse m v masks = .ok n.childBlock ∨
        (∃ e, berParse m v masks = .err e) ∧ n.childBlock = []) := by
  obtain ⟨e, hw, hl, rfl⟩ := inBlock_nodeOf hn bytes hm h
  by_cases hmask : IsMasked (latin1 e.value) masks
  · simp [nodeOf, RawEmvNode.tag, RawEmvNode.childBlock, dataOf, hmask]
  · simp only [nodeOf, RawEmvNode.tag, RawEmvNode.childBlock, dataOf, hmask]
    cases ht : typeOf e.tag with
    | primitive => simp
    | constructed =>
      simp only [not_false_eq_true, and_self, if_true, if_false, reduceCtorEq, false_implies, true_and,
        EmvData.normal.injEq, forall_const]
      rintro v rfl
      rcases c16_returns masks e.value (fits_mono hm (by omega)) with ⟨b, hb⟩ | ⟨x, hx⟩
      · rw [hb]; exact Or.inl rfl
      · rw [hx]; exact Or.inr ⟨⟨x, rfl⟩, rfl⟩

/-- The object in a template in a template. -/
example := c17_children (m := .debug64) [] [0x70, 0x05, 0x70, 0x03, 0x5A, 0x01, 0x12] (by unfold Fits; decide) _ rfl
  (.mk ⟨[0x5A], .application, .primitive, .normal [0x12]⟩ [])
  (.deep List.mem_cons_self (.deep List.mem_cons_self (.here List.mem_cons_self)))

/-- **C17.** A nested value, malformed or not, influences neither acceptance nor the siblings: replacing
an object by another well-formed one changes only the node in its place. -/
theorem c17_isolated {m : Machine} (masks : List Char) (pre post : List Elem) (e e' : Elem)
    (h : IsBlock (pre ++ e :: post)) (h' : IsBlock (pre ++ e' :: post))
    (hm : Fits m (concat (pre ++ e :: post)).length) (hm' : Fits m (concat (pre ++ e' :: post)).length) :
    ∃ xs n n' ys, xs.length = pre.length ∧ ys.length = post.length ∧
      berParse m (concat (pre ++ e :: post)) masks = .ok (xs ++ n :: ys) ∧
      berParse m (concat (pre ++ e' :: post)) masks = .ok (xs ++ n' :: ys) := by
  refine ⟨pre.map (nodeOf (fun v => berParse m v masks) masks), nodeOf (fun v => berParse m v masks) masks e,
    nodeOf (fun v => berParse m v masks) masks e',
    post.map (nodeOf (fun v => berParse m v masks) masks), List.length_map _, List.length_map _, ?_, ?_⟩
  · exact (c10_language masks _ hm _).2 ⟨_, rfl, h, by simp⟩
  · exact (c10_language masks _ hm' _).2 ⟨_, rfl, h', by simp⟩

/-- A well-formed and a malformed template in the same place, and the first of its objects. -/
example : IsBlock [⟨[0x70], [0x02], [0x95, 0x00]⟩, ⟨[0x5A], [0x00], []⟩] ∧ IsBlock [⟨[0x70], [0x02], [0x95, 0x01]⟩, ⟨[0x5A], [0x00], []⟩] ∧
    ∃ t p, berParse .debug64 [0x70, 0x02, 0x95, 0x00, 0x5A, 0x00] [] = .ok t ∧ p ∈ t ∧ ∃ n, n ∈ p.childBlock ∧ InBlock n t := by
  have hl : ∀ v : List Byte, v.length = 2 → IsBlock [⟨[0x70], [0x02], v⟩, ⟨[0x5A], [0x00], []⟩] := by
    intro v hv
    refine ⟨?_, ?_⟩
    · intro e he
      simp only [List.mem_cons, List.not_mem_nil, or_false] at he
      rcases he with rfl | rfl
      · exact ⟨.low 0x70 (by decide), by rw [hv]; exact .short 0x02 (by decide)⟩
      · exact ⟨.low 0x5A (by decide), .short 0x00 (by decide)⟩
    · rintro e he ⟨h1, b, h2, h3⟩
      cases he
      cases h2
      simp at h3
  refine ⟨hl _ rfl, hl _ rfl, _, _, rfl, List.mem_cons_self, _, List.mem_cons_self, ?_⟩
  exact .deep List.mem_cons_self (.here List.mem_cons_self)

/-- A malformed nested value (here `5A 09 11` inside `70`) and its siblings. -/
example : berParse .debug64 [0x95, 0x00, 0x70, 0x03, 0x5A, 0x09, 0x11, 0x9B, 0x01, 0x77] [] =
    .ok [.mk ⟨[0x95], .contextSpecific, .primitive, .normal []⟩ [],
      .mk ⟨[0x70], .application, .constructed, .normal [0x5A, 0x09, 0x11]⟩ [],
      .mk ⟨[0x9B], .contextSpecific, .primitive, .normal [0x77]⟩ []] := rfl

/-! ### C18 -/

/-- **C18.** Depth and total number of objects are at most half the input length. -/
theorem c18_bounds {m : Machine} (masks : List Char) (bytes : List Byte) (hm : Fits m bytes.length)
    (ns : RawEmvBlock) (h : berParse m bytes masks = .ok ns) :
    blockDepth ns ≤ blockSize ns ∧ 2 * blockSize ns ≤ bytes.length :=
  ⟨depth_le_size ns, berParse_size masks _ bytes ns (Nat.le_refl _) hm h⟩

example := c18_bounds (m := .debug64) [] [0x70, 0x05, 0x70, 0x03, 0x5A, 0x01, 0x12] (by unfold Fits; decide) _ rfl

/-- **C18.** Every value at every depth is at least two bytes shorter than the input it comes from, so
every nested level is strictly smaller. -/
theorem c18_shrinks {m : Machine} (masks : List Char) (bytes : List Byte) (hm : Fits m bytes.length)
    (ns : RawEmvBlock) (h : berParse m bytes masks = .ok ns) (n : RawEmvNode) (hn : InBlock n ns)
    (v : List Byte) (hv : n.tag.data = .normal v) :
    v.length + 2 ≤ bytes.length ∧
    ∀ c ∈ n.childBlock, ∀ w, c.tag.data = .normal w → w.length + 2 ≤ v.length := by
  have key : ∀ (n : RawEmvNode) (ns : RawEmvBlock) (bytes : List Byte), Fits m bytes.length →
      berParse m bytes masks = .ok ns → InBlock n ns → ∀ v, n.tag.data = .normal v →
      v.length + 2 ≤ bytes.length := by
    intro n ns bytes hm h hn v hv
    obtain ⟨e, hw, hl, rfl⟩ := inBlock_nodeOf hn bytes hm h
    by_cases hmask : IsMasked (latin1 e.value) masks
    · rw [(c10_reported _ masks e).2.1 hmask] at hv; cases hv
    · rw [(c10_reported _ masks e).2.2 hmask] at hv; cases hv; exact hl
  have h1 := key n ns bytes hm h hn v hv
  refine ⟨h1, fun c hc w hw => ?_⟩
  obtain ⟨-, -, h2, h3, h4⟩ := c17_children masks bytes hm ns h n hn
  have hne : n.childBlock ≠ [] := by intro h; rw [h] at hc; cases hc
  have ht : n.tag.dataObjectType = .constructed := by
    cases hd : n.tag.dataObjectType with
    | primitive => exact absurd (h2 hd) hne
    | constructed => rfl
  rcases h4 v ht hv with h5 | ⟨-, h5⟩
  · exact key c _ v (fits_mono hm (by omega)) h5 (.here hc) w hw
  · exact absurd h5 hne

/-- An object two levels down, and its value. -/
example : ∃ ns n, berParse .debug64 [0x70, 0x05, 0x70, 0x03, 0x5A, 0x01, 0x12] [] = .ok ns ∧ InBlock n ns ∧
    n.tag.tag = [0x5A] ∧ n.tag.data = .normal [0x12] :=
  ⟨_, .mk ⟨[0x5A], .application, .primitive, .normal [0x12]⟩ [], rfl,
    .deep List.mem_cons_self (.deep List.mem_cons_self (.here List.mem_cons_self)), rfl, rfl⟩

/-- **C18.** The call stack: the parser, calling itself for the contents of templates, never has more than `n / 2 + 1`
calls open on `n` bytes, accepted or not (a larger budget of nested calls makes no difference); and it does need one call
per level of what it reads (a smaller budget runs out). -/
theorem c18_stack {m : Machine} (masks : List Char) (bytes : List Byte) (hm : Fits m bytes.length) :
    (∀ d, bytes.length / 2 + 1 ≤ d → berParseF m masks d bytes = berParse m bytes masks) ∧
    (∀ ns d, berParse m bytes masks = .ok ns → d < blockDepth ns → berParseF m masks d bytes = .diverge) := by
  refine ⟨fun d hd => (berParseF_eq masks _ bytes (Nat.le_refl _) hm).2 d (by omega), fun ns d h hd => ?_⟩
  have hle : d ≤ bytes.length + 1 := by
    have := berParse_size masks _ bytes ns (Nat.le_refl _) hm h
    have := depth_le_size ns
    omega
  rcases berParseF_cut m masks d (bytes.length + 1 - d) bytes with h' | h'
  · exact h'
  · rw [show d + (bytes.length + 1 - d) = bytes.length + 1 by omega] at h'
    have := berParseF_depth m masks d bytes ns (h'.trans h)
    omega

/-- Three levels: with stack for two more bytes than that the result is the same, with stack for two levels it is not. -/
example : berParseF .debug64 [] 2 [0x70, 0x05, 0x70, 0x03, 0x5A, 0x01, 0x12] = .diverge :=
  (c18_stack (m := .debug64) [] _ (by unfold Fits; decide)).2 _ _ rfl (by decide)

/-- **C18.** Conversely every depth below 2^29 does occur, with at most six bytes per level: recursion
depth is not bounded by a small constant. -/
theorem c18_deep (d : Nat) (h : d < 2 ^ 29) (masks : List Char) : ∃ bytes ns,
    bytes.length ≤ 6 * d + 2 ∧ berParse .debug64 bytes masks = .ok ns ∧ blockDepth ns = d + 1 := by
  obtain ⟨h1, h2, -⟩ := nest_encode d (by omega) masks
  have h4 : encodeAll [nest d] = (nest d).encode := by simp [encodeAll]
  refine ⟨encodeAll [nest d], nodes [nest d], by rw [h4]; exact h2,
    c11_round_trip masks _ ⟨h1, trivial⟩ (c16_fits_64 rfl _ (by rw [h4]; omega)), ?_⟩
  clear h h1 h2 h4
  induction d with
  | zero => rfl
  | succ d ih =>
    simp only [nest, nodes, Obj.node, blockDepth, nodeDepth, Nat.max_zero] at ih ⊢
    omega

example : blockDepth (nodes [nest 3]) = 4 ∧ (encodeAll [nest 3]).length = 8 := by decide

/-! ### C19 -/

/-- **C19.** Class and type are determined by the first tag byte as specified; the conversion never
panics. -/
theorem c19_metadata (b : Byte) :
    parseTagMetadata b = .ok (
      if b.toNat < 64 then .universal else if b.toNat < 128 then .application
      else if b.toNat < 192 then .contextSpecific else .priv,
      if b.toNat.testBit 5 then .constructed else .primitive) :=
  forall_byte (P := fun b => parseTagMetadata b = .ok (
      if b.toNat < 64 then .universal else if b.toNat < 128 then .application
      else if b.toNat < 192 then .contextSpecific else .priv,
      if b.toNat.testBit 5 then .constructed else .primitive)) (by decide +kernel) b

/-- **C19.** Every node of a parsed block, at every depth, carries the class and type of its first tag
byte. -/
theorem c19_nodes {m : Machine} (masks : List Char) (bytes : List Byte) (hm : Fits m bytes.length)
    (ns : RawEmvBlock) (h : berParse m bytes masks = .ok ns) (n : RawEmvNode) (hn : InBlock n ns) :
    ∃ b rest, n.tag.tag = b :: rest ∧ parseTagMetadata b = .ok (n.tag.cls, n.tag.dataObjectType) := by
  obtain ⟨e, hw, hl, rfl⟩ := inBlock_nodeOf hn bytes hm h
  obtain ⟨b, rest, ht⟩ : ∃ b rest, e.tag = b :: rest := by
    cases h : e.tag with
    | nil => exact absurd h (isTag_ne_nil hw.1)
    | cons b rest => exact ⟨b, rest, rfl⟩
  refine ⟨b, rest, ht, ?_⟩
  rw [parseTagMetadata_eq b rest, ← ht]
  rfl

example : parseTagMetadata 0x9F = .ok (.contextSpecific, .primitive) ∧
    parseTagMetadata 0xE1 = .ok (.priv, .constructed) := by decide

/-! ### C20 -/

/-- **C20 is false of the code.** An object with a zero length is accepted in short form but rejected in
long form at the end of a block, although the same object is accepted when something follows. -/
theorem c20_false : ∃ (x y : RawEmvBlock), berParse .debug64 [0x5A, 0x00] [] = .ok x ∧
    berParse .debug64 [0x5A, 0x81, 0x00] [] = .err .nonCompliant ∧
    berParse .debug64 [0x5A, 0x81, 0x00, 0x5A, 0x00] [] = .ok y := ⟨_, _, rfl, rfl, rfl⟩

/-- **C20**, what is true: the form of the length fields is immaterial as long as no block ends in a
long-form zero length. Missing from the full claim: exactly that last case (`c20_rejects`). -/
theorem c20_length_form_partial {m : Machine} (masks : List Char) (es es' : List Elem)
    (hsame : es.map (fun e => (e.tag, e.value)) = es'.map (fun e => (e.tag, e.value)))
    (h : IsBlock es) (h' : IsBlock es') (hm : Fits m (concat es).length)
    (hm' : Fits m (concat es').length) :
    berParse m (concat es) masks = berParse m (concat es') masks := by
  rw [(c10_language masks _ hm _).2 ⟨es, rfl, h, rfl⟩, (c10_language masks _ hm' _).2 ⟨es', rfl, h', rfl⟩]
  congr 1
  clear h h' hm hm'
  induction es generalizing es' with
  | nil => cases es' with
    | nil => rfl
    | cons => simp at hsame
  | cons e es ih =>
    cases es' with
    | nil => simp at hsame
    | cons e' es' =>
      simp only [List.map_cons, List.cons.injEq, Prod.mk.injEq] at hsame ⊢
      refine ⟨?_, ih es' hsame.2⟩
      rw [nodeOf, nodeOf, hsame.1.1, hsame.1.2]

/-- Two ways to write the length of the same objects. -/
example : berParse .debug64 [0x9F, 0x02, 0x01, 0x12, 0x5A, 0x00] [] = berParse .debug64 [0x9F, 0x02, 0x82, 0x00, 0x01, 0x12, 0x5A, 0x00] [] := by
  have hb : ∀ len : List Byte, IsLength len 1 → IsBlock [⟨[0x9F, 0x02], len, [0x12]⟩, ⟨[0x5A], [0x00], []⟩] := by
    intro len hlen
    refine ⟨?_, ?_⟩
    · intro e he
      simp only [List.mem_cons, List.not_mem_nil, or_false] at he
      rcases he with rfl | rfl
      · exact ⟨.high 0x9F [] 0x02 (by decide) (by decide) (by decide), hlen⟩
      · exact ⟨.low 0x5A (by decide), .short 0x00 (by decide)⟩
    · rintro e he ⟨h1, b, h2, h3⟩
      cases he
      cases h2
      simp at h3
  exact c20_length_form_partial [] [⟨[0x9F, 0x02], [0x01], [0x12]⟩, ⟨[0x5A], [0x00], []⟩]
    [⟨[0x9F, 0x02], [0x82, 0x00, 0x01], [0x12]⟩, ⟨[0x5A], [0x00], []⟩] rfl (hb _ (.short 0x01 (by decide)))
    (hb _ (.long 0x82 [0x00, 0x01] (by decide) (by decide))) (c16_fits_64 rfl _ (by decide)) (c16_fits_64 rfl _ (by decide))

/-- **C20.** The exact exception: a block whose last object has a long-form zero length is always
rejected. -/
theorem c20_rejects {m : Machine} (masks : List Char) (es : List Elem) (e : Elem)
    (hes : ∀ x ∈ es, x.WF) (he : e.WF) (hz : e.LongZero) (hm : Fits m (concat (es ++ [e])).length) :
    berParse m (concat (es ++ [e])) masks = .err .nonCompliant := by
  have hw : ∀ x ∈ es ++ [e], x.WF := by
    intro x hx
    rcases List.mem_append.1 hx with hx | hx
    · exact hes x hx
    · rw [List.mem_singleton.1 hx]; exact he
  rw [c15_non_compliant masks _ hm]
  constructor
  · rintro ⟨es', h1, h2⟩
    have := c10_unique _ _ h1 hw h2.1
    rw [← this] at h2
    exact h2.2 e (by simp) hz
  · rintro ⟨es1, tag, b, rest, h1, h2, h3, h4⟩
    obtain ⟨l, h5, h6⟩ := concat_prefix h1.symm h2 hw
    cases l with
    | nil => simp [concat] at h6
    | cons f l =>
      have hf : f.WF := hw f (by rw [h5]; simp)
      rw [concat_cons, Elem.bytes, List.append_assoc, List.append_assoc] at h6
      obtain ⟨-, h7⟩ := readTag_prefix h6 h3 hf.1
      have h8 := hf.2
      have h9 := isLength_head h8 h7
      omega

/-- An object with a long-form zero length after another one. -/
example : berParse .debug64 [0x5A, 0x00, 0x95, 0x81, 0x00] [] = .err .nonCompliant :=
  c20_rejects [] [⟨[0x5A], [0x00], []⟩] ⟨[0x95], [0x81, 0x00], []⟩
    (fun x hx => by
      rcases List.mem_singleton.1 hx with rfl
      exact ⟨.low 0x5A (by decide), .short 0x00 (by decide)⟩)
    ⟨.low 0x95 (by decide), .long 0x81 [0x00] (by decide) (by decide)⟩ ⟨rfl, 0x81, rfl, by decide⟩ (c16_fits_64 rfl _ (by decide))

end Pemv
