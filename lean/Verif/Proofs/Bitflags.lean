import Verif.Proofs.Util
import Verif.Spec.Emv

/-! # Bit-mapped values: a row-wise check, lifted to layouts -/

namespace Pemv

open Spec

/-- Two lists related element by element. -/
def All2 {α β : Type} (R : α → β → Prop) : List α → List β → Prop
  | [], [] => True
  | a :: as, b :: bs => R a b ∧ All2 R as bs
  | _, _ => False

def all2 {α β : Type} (R : α → β → Bool) : List α → List β → Bool
  | [], [] => true
  | a :: as, b :: bs => R a b && all2 R as bs
  | _, _ => false

theorem all2_iff {α β : Type} {R : α → β → Bool} (as : List α) (bs : List β) :
    all2 R as bs = true ↔ All2 (fun a b => R a b = true) as bs := by
  induction as generalizing bs with
  | nil => cases bs <;> simp [all2, All2]
  | cons a as ih => cases bs <;> simp [all2, All2, ih]

theorem All2.append {α β : Type} {R : α → β → Prop} {as as' : List α} {bs bs' : List β}
    (h : All2 R as bs) (h' : All2 R as' bs') : All2 R (as ++ as') (bs ++ bs') := by
  induction as generalizing bs with
  | nil => cases bs with
    | nil => exact h'
    | cons _ _ => exact h.elim
  | cons a as ih => cases bs with
    | nil => exact h.elim
    | cons b bs => exact ⟨h.1, ih h.2⟩

theorem All2.imp {α β : Type} {R S : α → β → Prop} {as : List α} {bs : List β}
    (h : All2 R as bs) (hRS : ∀ a ∈ as, ∀ b, R a b → S a b) : All2 S as bs := by
  induction as generalizing bs with
  | nil => cases bs with
    | nil => trivial
    | cons _ _ => exact h.elim
  | cons a as ih => cases bs with
    | nil => exact h.elim
    | cons b bs => exact ⟨hRS a (by simp) b h.1, ih h.2 (fun a ha => hRS a (by simp [ha]))⟩

/-- The items of one byte. -/
def rowItems (items : List Item) (i : Nat) : List Item := items.filter (fun t => t.byte == i + 1)

/-- The used-bits mask of a row. -/
def rowMask (fs : List Field) : Byte := fs.foldr (fun f acc => f.mask ||| acc) 0

/-- The names and values of a row. -/
def rowPairs (fs : List Field) (vs : List FieldVal) : List (String × FieldVal) :=
  List.zipWith (fun f x => (f.name, x)) fs vs

def rowRepr (fs : List Field) (vs : List FieldVal) : Byte :=
  (List.zipWith Field.binaryRepr fs vs).foldr (· ||| ·) 0

def rowRanges (N i : Nat) (fs : List Field) (vs : List FieldVal) : List EnabledBitRange :=
  (List.zipWith (fun f x => f.displayRange N i x) fs vs).flatten

def itemBits (t : Item) (b : Byte) : Nat := bits b t.hi t.lo

/-- Everything that is claimed of one row at one byte. -/
def rowOkAt (N i : Nat) (fs : List Field) (ts : List Item) (b : Byte) : Bool :=
  (b &&& rowMask fs).toNat == (ts.map (fun t => itemBits t b * 2 ^ (t.lo - 1))).sum &&
  (b &&& rowMask fs) == clearByte ts (i + 1) b &&
  match parseFields fs (b &&& rowMask fs) with
  | .ok vs =>
    ts.all (fun t => t.kind.accepts (itemBits t b)) &&
    all2 (fun t x => t.kind.means (itemBits t b) x) ts vs &&
    (!(ts.all (fun t => t.kind.listed (itemBits t b))) || rowRepr fs vs == (b &&& rowMask fs)) &&
    (rowRanges N i fs vs).map (fun r => (r.offset, r.len)) ==
      (ts.filter (fun t => !(t.kind == .flag && itemBits t b == 0))).map (fun t => t.range N)
  | .err e => e == .nonCcdCompliant && !(ts.all (fun t => t.kind.accepts (itemBits t b)))
  | _ => false

/-- The whole check of a layout. -/
def layoutOk (l : Layout) (N : Nat) (items : List Item) : Bool :=
  l.numBytes == N &&
  l.rows.map (·.1) == List.range N &&
  (List.range N).flatMap (rowItems items) == items &&
  decide ((items.map Item.name).Nodup) &&
  l.rows.all (fun r => r.2.map Field.name == (rowItems items r.1).map Item.name) &&
  l.rows.all (fun r => (List.range 256).all (fun n => rowOkAt N r.1 r.2 (rowItems items r.1) (UInt8.ofNat n)))

theorem layoutOk_row {l : Layout} {N : Nat} {items : List Item} (h : layoutOk l N items = true) :
    ∀ r ∈ l.rows, ∀ b, rowOkAt N r.1 r.2 (rowItems items r.1) b = true := by
  intro r hr b
  simp only [layoutOk, Bool.and_eq_true, List.all_eq_true] at h
  exact forall_byte (P := fun b => rowOkAt N r.1 r.2 (rowItems items r.1) b = true)
    (fun n hn => h.2 r hr n (by simpa using hn)) b

theorem layoutOk_rows {l : Layout} {N : Nat} {items : List Item} (h : layoutOk l N items = true) :
    l.rows.map (·.1) = List.range N := by
  simp only [layoutOk, Bool.and_eq_true, beq_iff_eq] at h
  exact h.1.1.1.1.2

theorem layoutOk_items {l : Layout} {N : Nat} {items : List Item} (h : layoutOk l N items = true) :
    (List.range N).flatMap (rowItems items) = items := by
  simp only [layoutOk, Bool.and_eq_true, beq_iff_eq] at h
  exact h.1.1.1.2

theorem layoutOk_numBytes {l : Layout} {N : Nat} {items : List Item} (h : layoutOk l N items = true) :
    l.numBytes = N := by
  simp only [layoutOk, Bool.and_eq_true, beq_iff_eq] at h
  exact h.1.1.1.1.1

theorem layoutOk_nodup {l : Layout} {N : Nat} {items : List Item} (h : layoutOk l N items = true) :
    (items.map Item.name).Nodup := by
  simp only [layoutOk, Bool.and_eq_true, decide_eq_true_eq] at h
  exact h.1.1.2

theorem layoutOk_names {l : Layout} {N : Nat} {items : List Item} (h : layoutOk l N items = true) :
    ∀ r ∈ l.rows, r.2.map Field.name = (rowItems items r.1).map Item.name := by
  simp only [layoutOk, Bool.and_eq_true, List.all_eq_true, beq_iff_eq] at h
  exact h.1.2

theorem layoutOk_length {l : Layout} {N : Nat} {items : List Item} (h : layoutOk l N items = true) :
    l.rows.length = N := by
  have := congrArg List.length (layoutOk_rows h)
  simpa using this

theorem maskBytes_eq (bs ms : List Byte) (h : bs.length = ms.length) :
    maskBytes bs ms = .ok (List.zipWith (· &&& ·) bs ms) := by
  induction bs generalizing ms with
  | nil => simp [maskBytes]
  | cons b bs ih => cases ms with
    | nil => simp at h
    | cons m ms =>
      have h1 := ih ms (by simpa using h)
      simp [maskBytes, h1]

/-- The rows were parsed into the value. -/
def GoodRows : List (Nat × List Field) → List Byte → Value → Prop
  | [], [], [] => True
  | (_, fs) :: rows, b :: bs, vs :: v =>
    parseFields fs (b &&& rowMask fs) = .ok vs ∧ GoodRows rows bs v
  | _, _, _ => False

/-- Some row was rejected. -/
def BadRows : List (Nat × List Field) → List Byte → Prop
  | (_, fs) :: rows, b :: bs =>
    (∃ e, parseFields fs (b &&& rowMask fs) = .err e) ∨ BadRows rows bs
  | _, _ => False

theorem rowOkAt_out {N i : Nat} {fs : List Field} {ts : List Item} {b : Byte}
    (h : rowOkAt N i fs ts b = true) :
    (∃ vs, parseFields fs (b &&& rowMask fs) = .ok vs) ∨
      parseFields fs (b &&& rowMask fs) = .err .nonCcdCompliant := by
  rw [rowOkAt] at h
  cases hp : parseFields fs (b &&& rowMask fs) with
  | ok vs => exact Or.inl ⟨vs, rfl⟩
  | err e =>
    rw [hp] at h
    simp only [Bool.and_eq_true, beq_iff_eq] at h
    rw [h.2.1]; exact Or.inr rfl
  | panic => rw [hp] at h; simp at h
  | diverge => rw [hp] at h; simp at h

theorem parseRows_spec (N : Nat) (items : List Item) (rows : List (Nat × List Field))
    (pre bs : List Byte) (hidx : rows.map (·.1) = List.range' pre.length rows.length)
    (hlen : bs.length = rows.length)
    (hok : ∀ r ∈ rows, ∀ b, rowOkAt N r.1 r.2 (rowItems items r.1) b = true) :
    (∃ v, parseRows rows (pre ++ List.zipWith (· &&& ·) bs (rows.map (fun r => rowMask r.2))) = .ok v ∧
      GoodRows rows bs v) ∨
    (parseRows rows (pre ++ List.zipWith (· &&& ·) bs (rows.map (fun r => rowMask r.2))) =
      .err .nonCcdCompliant ∧ BadRows rows bs) := by
  induction rows generalizing pre bs with
  | nil =>
    cases bs with
    | nil => exact Or.inl ⟨[], rfl, trivial⟩
    | cons _ _ => simp at hlen
  | cons r rows ih =>
    cases bs with
    | nil => simp at hlen
    | cons b bs =>
      obtain ⟨i, fs⟩ := r
      simp only [List.map_cons, List.length_cons, List.range'_succ, List.cons.injEq] at hidx
      obtain ⟨hi, hrest⟩ := hidx
      have key : index (pre ++ List.zipWith (· &&& ·) (b :: bs)
          (((i, fs) :: rows).map (fun r => rowMask r.2))) i = .ok (b &&& rowMask fs) := by
        subst hi
        simp [index]
      have hsplit : pre ++ List.zipWith (· &&& ·) (b :: bs)
          (((i, fs) :: rows).map (fun r => rowMask r.2)) = (pre ++ [b &&& rowMask fs]) ++
            List.zipWith (· &&& ·) bs (rows.map (fun r => rowMask r.2)) := by simp
      have h2 := ih (pre ++ [b &&& rowMask fs]) bs (by simpa using hrest) (by simpa using hlen)
        (fun r hr => hok r (by simp [hr]))
      rw [← hsplit] at h2
      rcases rowOkAt_out (hok (i, fs) (by simp) b) with ⟨vs, hvs⟩ | herr
      · rcases h2 with ⟨v, hv, hg⟩ | ⟨hv, hb⟩
        · left
          exact ⟨vs :: v, by rw [parseRows, key]; simp only [Out.ok_bind]; rw [hvs]; simp only [Out.ok_bind]; rw [hv]; rfl, hvs, hg⟩
        · right
          refine ⟨by rw [parseRows, key]; simp only [Out.ok_bind]; rw [hvs]; simp only [Out.ok_bind]; rw [hv]; rfl, Or.inr hb⟩
      · right
        refine ⟨by rw [parseRows, key]; simp only [Out.ok_bind]; rw [herr]; rfl, Or.inl ⟨_, herr⟩⟩

/-- Parsing an input of the right length. -/
theorem tryFrom_spec {l : Layout} {N : Nat} {items : List Item} (h : layoutOk l N items = true)
    (bs : List Byte) (hlen : bs.length = N) :
    (∃ v, l.tryFrom bs = .ok v ∧ GoodRows l.rows bs v) ∨
    (l.tryFrom bs = .err .nonCcdCompliant ∧ BadRows l.rows bs) := by
  have h1 := parseRows_spec N items l.rows [] bs
    (by rw [layoutOk_rows h, layoutOk_length h, List.range_eq_range']; rfl)
    (by rw [layoutOk_length h, hlen]) (layoutOk_row h)
  have h2 : l.tryFrom bs =
      parseRows l.rows ([] ++ List.zipWith (· &&& ·) bs (l.rows.map (fun r => rowMask r.2))) := by
    rw [Layout.tryFrom, if_neg (by rw [layoutOk_numBytes h]; simpa using hlen)]
    rw [maskBytes_eq _ _ (by simp [Layout.usedBitsMask, layoutOk_length h, hlen])]
    rfl
  rw [h2]; exact h1

theorem tryFrom_wrong {l : Layout} {N : Nat} {items : List Item} (h : layoutOk l N items = true)
    (bs : List Byte) (hlen : bs.length ≠ N) :
    l.tryFrom bs = .err (.byteCountIncorrect .eq N bs.length) := by
  rw [Layout.tryFrom, layoutOk_numBytes h, if_pos hlen]

theorem tryFrom_ok {l : Layout} {N : Nat} {items : List Item} (h : layoutOk l N items = true)
    {bs : List Byte} {v : Value} (hv : l.tryFrom bs = .ok v) : bs.length = N ∧ GoodRows l.rows bs v := by
  by_cases hlen : bs.length = N
  · rcases tryFrom_spec h bs hlen with ⟨v', hv', hg⟩ | ⟨he, -⟩
    · rw [hv] at hv'; cases hv'; exact ⟨hlen, hg⟩
    · rw [hv] at he; cases he
  · rw [tryFrom_wrong h bs hlen] at hv; cases hv

/-! ### Consequences, row by row -/

theorem rowOkAt_ok {N i : Nat} {fs : List Field} {ts : List Item} {b : Byte} {vs : List FieldVal}
    (h : rowOkAt N i fs ts b = true) (hp : parseFields fs (b &&& rowMask fs) = .ok vs) :
    (∀ t ∈ ts, t.kind.accepts (itemBits t b) = true) ∧
    All2 (fun t x => t.kind.means (itemBits t b) x = true) ts vs ∧
    ((∀ t ∈ ts, t.kind.listed (itemBits t b) = true) → rowRepr fs vs = (b &&& rowMask fs)) ∧
    (rowRanges N i fs vs).map (fun r => (r.offset, r.len)) =
      (ts.filter (fun t => !(t.kind == .flag && itemBits t b == 0))).map (fun t => t.range N) := by
  rw [rowOkAt, hp] at h
  simp only [Bool.and_eq_true, beq_iff_eq, List.all_eq_true, all2_iff, Bool.or_eq_true,
    Bool.not_eq_true'] at h
  obtain ⟨-, ⟨⟨h1, h2⟩, h3⟩, h4⟩ := h
  refine ⟨h1, h2, ?_, h4⟩
  intro hl
  rcases h3 with h3 | h3
  · exfalso
    have : (ts.all fun t => t.kind.listed (itemBits t b)) = true := by simpa using hl
    rw [this] at h3; cases h3
  · exact h3

theorem pairs_of_names {R : Item → FieldVal → Prop} {fs : List Field} {ts : List Item}
    {vs : List FieldVal} (hn : fs.map Field.name = ts.map Item.name) (h : All2 R ts vs) :
    All2 (fun t p => p.1 = t.name ∧ R t p.2) ts (rowPairs fs vs) := by
  induction fs generalizing ts vs with
  | nil =>
    cases ts with
    | nil => cases vs with
      | nil => trivial
      | cons _ _ => exact h.elim
    | cons _ _ => simp at hn
  | cons f fs ih =>
    cases ts with
    | nil => simp at hn
    | cons t ts => cases vs with
      | nil => exact h.elim
      | cons v vs =>
        simp only [List.map_cons, List.cons.injEq] at hn
        exact ⟨⟨hn.1, h.1⟩, ih hn.2 h.2⟩

theorem rowOkAt_mask {N i : Nat} {fs : List Field} {ts : List Item} {b : Byte}
    (h : rowOkAt N i fs ts b = true) :
    (b &&& rowMask fs).toNat = (ts.map (fun t => itemBits t b * 2 ^ (t.lo - 1))).sum ∧
    (b &&& rowMask fs) = clearByte ts (i + 1) b := by
  rw [rowOkAt] at h
  simp only [Bool.and_eq_true, beq_iff_eq] at h
  exact ⟨h.1.1, h.1.2⟩

theorem rowOkAt_err {N i : Nat} {fs : List Field} {ts : List Item} {b : Byte} {e : ParseError}
    (h : rowOkAt N i fs ts b = true) (hp : parseFields fs (b &&& rowMask fs) = .err e) :
    ∃ t ∈ ts, t.kind.accepts (itemBits t b) = false := by
  rw [rowOkAt, hp] at h
  simp only [Bool.and_eq_true, Bool.not_eq_true', List.all_eq_false] at h
  obtain ⟨-, -, t, ht, hb⟩ := h
  exact ⟨t, ht, by simpa using hb⟩

/-- Row `j` of the rows and of the input, when the row numbers start at `k`. -/
structure At (rows : List (Nat × List Field)) (bs all : List Byte) (k : Nat) : Prop where
  idx : rows.map (·.1) = List.range' k rows.length
  drop : all.drop k = bs

theorem At.tail {r : Nat × List Field} {rows : List (Nat × List Field)} {b : Byte} {bs all : List Byte}
    {k : Nat} (h : At (r :: rows) (b :: bs) all k) :
    r.1 = k ∧ all[k]? = some b ∧ At rows bs all (k + 1) := by
  have h1 := h.idx
  simp only [List.map_cons, List.length_cons, List.range'_succ, List.cons.injEq] at h1
  refine ⟨h1.1, ?_, h1.2, ?_⟩
  · have := congrArg List.head? h.drop
    simpa using this
  · have := congrArg List.tail h.drop
    simpa using this

theorem itemBits_eq {items : List Item} {k : Nat} {all : List Byte} {b : Byte} (h : all[k]? = some b)
    {t : Item} (ht : t ∈ rowItems items k) : itemBits t b = t.bitsOf all := by
  simp only [rowItems, List.mem_filter, beq_iff_eq] at ht
  simp [Item.bitsOf, itemBits, ht.2, h]

/-- The items of rows `k`, `k+1`, …. -/
def itemsFrom (items : List Item) (rows : List (Nat × List Field)) : List Item :=
  (rows.map (·.1)).flatMap (rowItems items)

@[simp] theorem itemsFrom_cons (items : List Item) (r : Nat × List Field) (rows) :
    itemsFrom items (r :: rows) = rowItems items r.1 ++ itemsFrom items rows := by simp [itemsFrom]

def valuePairs (rows : List (Nat × List Field)) (v : Value) : List (String × FieldVal) :=
  (List.zipWith (fun (r : Nat × List Field) (vs : List FieldVal) => rowPairs r.2 vs) rows v).flatten

theorem good_means {N : Nat} {items : List Item} {rows : List (Nat × List Field)} {bs all : List Byte}
    {v : Value} {k : Nat} (hat : At rows bs all k) (hg : GoodRows rows bs v)
    (hok : ∀ r ∈ rows, ∀ b, rowOkAt N r.1 r.2 (rowItems items r.1) b = true)
    (hn : ∀ r ∈ rows, r.2.map Field.name = (rowItems items r.1).map Item.name) :
    (∀ t ∈ itemsFrom items rows, t.kind.accepts (t.bitsOf all) = true) ∧
    All2 (fun t p => p.1 = t.name ∧ t.kind.means (t.bitsOf all) p.2 = true) (itemsFrom items rows)
      (valuePairs rows v) ∧
    ((List.zipWith (fun (r : Nat × List Field) (vs : List FieldVal) => rowRanges N r.1 r.2 vs)
      rows v).flatten).map (fun r => (r.offset, r.len)) =
      ((itemsFrom items rows).filter (fun t => !(t.kind == .flag && t.bitsOf all == 0))).map
        (fun t => t.range N) := by
  induction rows generalizing bs v k with
  | nil =>
    cases bs <;> cases v <;> first | exact hg.elim | skip
    simp [itemsFrom, valuePairs, All2]
  | cons r rows ih =>
    obtain ⟨i, fs⟩ := r
    cases bs <;> cases v <;> first | exact hg.elim | skip
    obtain ⟨hi, hb, hat'⟩ := hat.tail
    obtain ⟨hp, hg'⟩ := hg
    have h1 := rowOkAt_ok (hok (i, fs) (by simp) _) hp
    obtain ⟨i1, i2, i3⟩ := ih hat' hg' (fun r hr => hok r (by simp [hr])) (fun r hr => hn r (by simp [hr]))
    have hbits : ∀ t ∈ rowItems items i, itemBits t _ = t.bitsOf all :=
      fun t ht => itemBits_eq (by rw [← hi] at hb; exact hb) ht
    refine ⟨?_, ?_, ?_⟩
    · intro t ht
      rw [itemsFrom_cons, List.mem_append] at ht
      rcases ht with ht | ht
      · rw [← hbits t ht]; exact h1.1 t ht
      · exact i1 t ht
    · rw [itemsFrom_cons]
      refine All2.append ((pairs_of_names (hn (i, fs) (by simp)) h1.2.1).imp ?_) i2
      intro t ht p hp
      rw [← hbits t ht]; exact hp
    · rw [itemsFrom_cons, List.zipWith_cons_cons, List.flatten_cons, List.map_append, i3,
        List.filter_append, List.map_append, h1.2.2.2]
      congr 2
      apply List.filter_congr
      intro t ht
      rw [hbits t ht]

theorem good_repr {N : Nat} {items : List Item} {rows : List (Nat × List Field)} {bs all : List Byte}
    {v : Value} {k : Nat} (hat : At rows bs all k) (hg : GoodRows rows bs v)
    (hok : ∀ r ∈ rows, ∀ b, rowOkAt N r.1 r.2 (rowItems items r.1) b = true)
    (hl : ∀ t ∈ itemsFrom items rows, t.kind.listed (t.bitsOf all) = true) :
    List.zipWith (fun (r : Nat × List Field) (vs : List FieldVal) => rowRepr r.2 vs) rows v =
      List.zipWith (· &&& ·) bs (rows.map (fun r => rowMask r.2)) := by
  induction rows generalizing bs v k with
  | nil =>
    cases bs <;> cases v <;> first | exact hg.elim | skip
    rfl
  | cons r rows ih =>
    obtain ⟨i, fs⟩ := r
    cases bs <;> cases v <;> first | exact hg.elim | skip
    obtain ⟨hi, hb, hat'⟩ := hat.tail
    obtain ⟨hp, hg'⟩ := hg
    have h1 := rowOkAt_ok (hok (i, fs) (by simp) _) hp
    have i1 := ih hat' hg' (fun r hr => hok r (by simp [hr])) (fun t ht => hl t (by simp [ht]))
    rw [List.zipWith_cons_cons, List.map_cons, List.zipWith_cons_cons, i1]
    congr 1
    refine h1.2.2.1 ?_
    intro t ht
    rw [itemBits_eq (by rw [← hi] at hb; exact hb) ht]
    exact hl t (by simp [ht])

theorem bad_rows {N : Nat} {items : List Item} {rows : List (Nat × List Field)} {bs all : List Byte}
    {k : Nat} (hat : At rows bs all k) (hg : BadRows rows bs)
    (hok : ∀ r ∈ rows, ∀ b, rowOkAt N r.1 r.2 (rowItems items r.1) b = true) :
    ∃ t ∈ itemsFrom items rows, t.kind.accepts (t.bitsOf all) = false := by
  induction rows generalizing bs k with
  | nil => cases bs <;> exact hg.elim
  | cons r rows ih =>
    obtain ⟨i, fs⟩ := r
    cases bs with
    | nil => exact hg.elim
    | cons b bs =>
      obtain ⟨hi, hb, hat'⟩ := hat.tail
      rcases hg with ⟨e, he⟩ | hg
      · obtain ⟨t, ht, h⟩ := rowOkAt_err (hok (i, fs) (by simp) _) he
        refine ⟨t, by simp [ht], ?_⟩
        rw [← itemBits_eq (by rw [← hi] at hb; exact hb) ht]; exact h
      · obtain ⟨t, ht, h⟩ := ih hat' hg (fun r hr => hok r (by simp [hr]))
        exact ⟨t, by simp [ht], h⟩

theorem mask_eq_of_agree {N : Nat} {items : List Item} {rows : List (Nat × List Field)}
    {bs bs' all all' : List Byte} {k : Nat} (hat : At rows bs all k) (hat' : At rows bs' all' k)
    (hlen : bs.length = bs'.length)
    (hok : ∀ r ∈ rows, ∀ b, rowOkAt N r.1 r.2 (rowItems items r.1) b = true)
    (h : ∀ t ∈ itemsFrom items rows, t.bitsOf all = t.bitsOf all') :
    List.zipWith (· &&& ·) bs (rows.map (fun r => rowMask r.2)) =
      List.zipWith (· &&& ·) bs' (rows.map (fun r => rowMask r.2)) := by
  induction rows generalizing bs bs' k with
  | nil => simp
  | cons r rows ih =>
    obtain ⟨i, fs⟩ := r
    cases bs <;> cases bs' <;> first | (simp at hlen; done) | skip
    · rfl
    · obtain ⟨hi, hb, h1⟩ := hat.tail
      obtain ⟨-, hb', h1'⟩ := hat'.tail
      have i1 := ih h1 h1' (by simpa using hlen) (fun r hr => hok r (by simp [hr]))
        (fun t ht => h t (by simp [ht]))
      rw [List.map_cons, List.zipWith_cons_cons, List.zipWith_cons_cons, i1]
      congr 1
      rw [← UInt8.toNat_inj, (rowOkAt_mask (hok (i, fs) (by simp) _)).1, (rowOkAt_mask (hok (i, fs) (by simp) _)).1]
      congr 1
      apply List.map_congr_left
      intro t ht
      rw [itemBits_eq (by rw [← hi] at hb; exact hb) ht, itemBits_eq (by rw [← hi] at hb'; exact hb') ht,
        h t (by simp [ht])]

theorem clearByte_rowItems (items : List Item) (i : Nat) (b : Byte) :
    clearByte (rowItems items i) (i + 1) b = clearByte items (i + 1) b := by
  have : ∀ j, usedBit (rowItems items i) (i + 1) j = usedBit items (i + 1) j := by
    intro j
    rw [usedBit, usedBit, Bool.eq_iff_iff]
    simp only [List.any_eq_true, rowItems, List.mem_filter, Bool.and_eq_true, beq_iff_eq,
      decide_eq_true_eq]
    constructor
    · rintro ⟨t, ⟨h1, h2⟩, h3⟩; exact ⟨t, h1, h3⟩
    · rintro ⟨t, h1, h3⟩; exact ⟨t, ⟨h1, h3.1.1⟩, h3⟩
  simp only [clearByte, this]

theorem mask_eq_clear {N : Nat} {items : List Item} {rows : List (Nat × List Field)}
    {bs all : List Byte} {k : Nat} (hat : At rows bs all k) (hlen : bs.length = rows.length)
    (hok : ∀ r ∈ rows, ∀ b, rowOkAt N r.1 r.2 (rowItems items r.1) b = true) :
    List.zipWith (· &&& ·) bs (rows.map (fun r => rowMask r.2)) =
      bs.mapIdx (fun i b => clearByte items (k + i + 1) b) := by
  induction rows generalizing bs k with
  | nil => cases bs with
    | nil => rfl
    | cons _ _ => simp at hlen
  | cons r rows ih =>
    obtain ⟨i, fs⟩ := r
    cases bs with
    | nil => simp at hlen
    | cons b bs =>
      obtain ⟨hi, hb, h1⟩ := hat.tail
      have i1 := ih h1 (by simpa using hlen) (fun r hr => hok r (by simp [hr]))
      rw [List.map_cons, List.zipWith_cons_cons, i1, List.mapIdx_cons]
      congr 1
      · rw [(rowOkAt_mask (hok (i, fs) (by simp) _)).2, clearByte_rowItems]
        simp at hi
        rw [hi]
      · congr 1
        funext j c
        congr 1
        omega

theorem at_zero {l : Layout} {N : Nat} {items : List Item} (h : layoutOk l N items = true)
    (bs : List Byte) : At l.rows bs bs 0 :=
  ⟨by rw [layoutOk_rows h, layoutOk_length h, List.range_eq_range'], rfl⟩

theorem itemsFrom_all {l : Layout} {N : Nat} {items : List Item} (h : layoutOk l N items = true) :
    itemsFrom items l.rows = items := by rw [itemsFrom, layoutOk_rows h, layoutOk_items h]

end Pemv
