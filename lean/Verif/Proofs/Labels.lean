import Verif.Proofs.BitflagLift
import Verif.Proofs.Drawing
import Verif.Spec.Labels

/-!
# Explanations of bit-mapped values
-/

namespace Pemv

open Spec

theorem digitChar_eq (n : Nat) (h : n < 10) : n.digitChar = Char.ofNat (48 + n) := by
  have : ∀ n < 10, n.digitChar = Char.ofNat (48 + n) := by decide
  exact this n h

theorem natToTextF_eq (fuel n : Nat) (h : n < fuel) : natToTextF fuel n = Nat.toDigits 10 n := by
  induction fuel generalizing n with
  | zero => omega
  | succ fuel ih =>
    rw [natToTextF]
    split
    · rename_i h10
      rw [Nat.toDigits_of_lt_base h10, digitChar_eq n h10]
    · rename_i h10
      rw [Nat.toDigits_of_base_le (by omega) (by omega), ih _ (by omega), digitChar_eq _ (by omega)]

theorem natToText_decimal (n : Nat) : natToText n = decimal n := by
  rw [natToText, natToTextF_eq _ _ (Nat.lt_succ_self n), decimal]
  exact Nat.toList_repr.symm

theorem formatDisplay_append (p a : Text) (h : '{' ∉ p) : formatDisplay (p ++ ['{', '}']) a = p ++ a := by
  induction p with
  | nil => simp [formatDisplay]
  | cons c p ih =>
    have hc : c ≠ '{' := fun hc => h (by simp [hc])
    have hp : '{' ∉ p := fun hp => h (by simp [hp])
    rw [List.cons_append, List.cons_append, ← ih hp]
    rw [formatDisplay.eq_2 _ _ _ (fun rest h1 _ => hc h1)]

/-- The static agreement of a field of the code with an item and its label. -/
def labelOk (N i : Nat) (labels : List (String × Severity × String)) (f : Field) (t : Item) : Bool :=
  (f.offset N i, f.bitLen) == t.range N &&
  match labels.lookup t.name with
  | none => false
  | some (severity, label) =>
    f.severity == severity &&
    match f.ty, t.kind with
    | .bool, .flag => f.display == label && t.hi == t.lo
    | .u8, .number => !label.toList.contains '{' && f.display.toList == label.toList ++ ": {}".toList
    | .enum table _, .code _ => !label.toList.contains '{' &&
        f.display.toList == label.toList ++ ": {}".toList &&
        table.all (fun v => codeTexts.lookup v.name == some v.text)
    | .optEnum table unknown, .openCode _ => !label.toList.contains '{' &&
        f.display.toList == label.toList ++ ": {}".toList &&
        table.all (fun v => codeTexts.lookup v.name == some v.text) &&
        unlistedTexts.lookup t.name == some unknown
    | _, _ => false

/-- The static agreement of a layout with its items and labels. -/
def labelsOk (l : Layout) (N : Nat) (items : List Item) (labels : List (String × Severity × String)) : Bool :=
  l.rows.all (fun r => all2 (fun f t => labelOk N r.1 labels f t) r.2 (rowItems items r.1))

theorem labelled_ok : ∀ p ∈ (cvRule, cvRuleLabels) :: labelled,
    labelsOk p.1.layout p.1.numBytes p.1.items p.2 = true := by decide +kernel

theorem enumMatch_mem {α : Type} [BEq α] {table : List (Variant α)} {x : α} {v : Variant α}
    (h : enumMatch table x = some v) : v ∈ table := List.mem_of_find?_eq_some h

theorem template {d label : String} {a : Text} (h1 : (!label.toList.contains '{') = true)
    (h2 : (d.toList == label.toList ++ ": {}".toList) = true) :
    formatDisplay d.toList a = label.toList ++ ": ".toList ++ a := by
  have h2 := eq_of_beq h2
  have e : label.toList ++ ": {}".toList = (label.toList ++ ": ".toList) ++ ['{', '}'] := by
    rw [List.append_assoc]; rfl
  rw [h2, e]
  apply formatDisplay_append
  simp only [Bool.not_eq_true', List.contains_eq_mem, decide_eq_false_iff_not] at h1
  intro h
  rcases List.mem_append.1 h with h | h
  · exact h1 h
  · exact absurd h (by decide)

theorem keep {labels : List (String × Severity × String)} {N : Nat} {bs : List Byte} {t : Item}
    (h : (!(t.kind == Kind.flag && t.bitsOf bs == 0)) = true) :
    ([t].filter (fun t => !(t.kind == .flag && t.bitsOf bs == 0))).map (Item.annotation labels N bs) =
      [Item.annotation labels N bs t] := by
  rw [List.filter_cons, h]; rfl

/-- One field. -/
theorem field_annotation {N i : Nat} {labels : List (String × Severity × String)} {f : Field} {t : Item}
    {b : Byte} {bs : List Byte} {x : FieldVal} (hl : labelOk N i labels f t = true)
    (hp : f.parse b = .ok x) (hm : t.kind.means (t.bitsOf bs) x = true) :
    (f.displayRange N i x).map EnabledBitRange.annotation =
      ([t].filter (fun t => !(t.kind == .flag && t.bitsOf bs == 0))).map (Item.annotation labels N bs) := by
  rw [labelOk, Bool.and_eq_true] at hl
  obtain ⟨hr, hl⟩ := hl
  have hr := eq_of_beq hr
  have hr1 : (t.range N).1 = f.offset N i := by rw [← hr]
  have hr2 : (t.range N).2 = f.bitLen := by rw [← hr]
  cases hlk : labels.lookup t.name with
  | none => rw [hlk] at hl; exact absurd hl (by simp)
  | some p =>
    obtain ⟨severity, label⟩ := p
    rw [hlk] at hl
    simp only [Bool.and_eq_true] at hl
    obtain ⟨hs, hl⟩ := hl
    have hs := eq_of_beq hs
    have hann : Item.annotation labels N bs t =
        ⟨f.offset N i, f.bitLen, t.explanation label (t.bitsOf bs), f.severity⟩ := by
      rw [Item.annotation, hlk]
      simp only [hr1, hr2, hs]
    rw [Field.parse] at hp
    cases hty : f.ty with
    | bool =>
      cases hk : t.kind with
      | flag =>
        rw [hty, hk] at hl
        simp only [Bool.and_eq_true, beq_iff_eq] at hl
        obtain ⟨hl, hw⟩ := hl
        rw [hty] at hp
        simp only [Out.ok.injEq] at hp
        subst hp
        rw [hk] at hm
        simp only [Kind.means, beq_iff_eq] at hm
        have hlt : t.bitsOf bs < 2 := by
          rw [Item.bitsOf, bits, hw]
          have : t.lo + 1 - t.lo = 1 := by omega
          rw [this]
          exact Nat.mod_lt _ (by decide)
        generalize decide (f.mask &&& b > 0) = x at hm ⊢
        cases x with
        | true =>
          have h1 : t.bitsOf bs = 1 := by
            have := hm.symm
            simpa using this
          have hf : (!(t.kind == Kind.flag && t.bitsOf bs == 0)) = true := by rw [hk, h1]; decide
          rw [keep hf, hann]
          simp only [Field.displayRange, hty, if_true, List.map_cons, List.map_nil, EnabledBitRange.annotation,
            Item.explanation, hk, hl]
        | false =>
          have h1 : t.bitsOf bs = 0 := by
            have h2 := hm.symm
            have : t.bitsOf bs ≠ 1 := by simpa using h2
            omega
          have hf : (!(t.kind == Kind.flag && t.bitsOf bs == 0)) = false := by rw [hk, h1]; decide
          rw [List.filter_cons, hf]
          simp [Field.displayRange, hty]
      | _ => rw [hty, hk] at hl; exact absurd hl (by simp)
    | u8 =>
      cases hk : t.kind with
      | number =>
        rw [hty, hk] at hl
        simp only [Bool.and_eq_true] at hl
        rw [hty] at hp
        simp only [Out.ok.injEq] at hp
        subst hp
        rw [hk] at hm
        simp only [Kind.means, beq_iff_eq] at hm
        have hf : (!(t.kind == Kind.flag && t.bitsOf bs == 0)) = true := by rw [hk]; rfl
        rw [keep hf, hann]
        simp only [Field.displayRange, hty, List.map_cons, List.map_nil, EnabledBitRange.annotation,
          Item.explanation, Item.valueText, hk]
        rw [template hl.1 hl.2, Field.valueText, hm, natToText_decimal]
      | _ => rw [hty, hk] at hl; exact absurd hl (by simp)
    | enum table e =>
      cases hk : t.kind with
      | code codes =>
        rw [hty, hk] at hl
        simp only [Bool.and_eq_true, List.all_eq_true, beq_iff_eq] at hl
        rw [hty] at hp
        simp only [enumTryFrom] at hp
        cases hx : enumMatch table ((f.mask &&& b) >>> f.shiftAmount) with
        | none => rw [hx] at hp; exact absurd hp (by simp)
        | some v =>
          rw [hx] at hp
          have hp : x = .enum v := by simpa using hp.symm
          subst hp
          rw [hk] at hm
          simp only [Kind.means, beq_iff_eq] at hm
          have hv := hl.2 v (enumMatch_mem hx)
          have hf : (!(t.kind == Kind.flag && t.bitsOf bs == 0)) = true := by rw [hk]; rfl
          rw [keep hf, hann]
          simp only [Field.displayRange, hty, List.map_cons, List.map_nil, EnabledBitRange.annotation,
            Item.explanation, Item.valueText, hk]
          rw [template hl.1.1 (beq_iff_eq.2 hl.1.2), Field.valueText]
          simp only [hm, Option.bind_some, hv, Option.getD_some]
      | _ => rw [hty, hk] at hl; exact absurd hl (by simp)
    | optEnum table unknown =>
      cases hk : t.kind with
      | openCode codes =>
        rw [hty, hk] at hl
        simp only [Bool.and_eq_true, List.all_eq_true, beq_iff_eq] at hl
        rw [hty] at hp
        simp only [Out.ok.injEq] at hp
        subst hp
        rw [hk] at hm
        simp only [Kind.means, beq_iff_eq] at hm
        have hf : (!(t.kind == Kind.flag && t.bitsOf bs == 0)) = true := by rw [hk]; rfl
        rw [keep hf, hann]
        simp only [Field.displayRange, hty, List.map_cons, List.map_nil, EnabledBitRange.annotation,
          Item.explanation, Item.valueText, hk]
        rw [template hl.1.1.1 (beq_iff_eq.2 hl.1.1.2)]
        cases hx : enumMatch table ((f.mask &&& b) >>> f.shiftAmount) with
        | none =>
          rw [hx] at hm
          simp only [hm, Option.map_none, Field.valueText, hty, hl.2, Option.getD_some]
        | some v =>
          rw [hx] at hm
          have hv := hl.1.2 v (enumMatch_mem hx)
          simp only [hm, Option.map_some, Field.valueText, hv, Option.getD_some]
      | _ => rw [hty, hk] at hl; exact absurd hl (by simp)

theorem parseFields_ok {fs : List Field} {b : Byte} {vs : List FieldVal} (h : parseFields fs b = .ok vs) :
    All2 (fun f x => f.parse b = .ok x) fs vs := by
  induction fs generalizing vs with
  | nil =>
    simp only [parseFields, Out.ok.injEq] at h
    subst h; trivial
  | cons f fs ih =>
    rw [parseFields] at h
    cases hf : f.parse b with
    | ok v =>
      rw [hf] at h
      cases hr : parseFields fs b with
      | ok rest =>
        have h : vs = v :: rest := by simpa [hr] using h.symm
        subst h
        exact ⟨hf, ih hr⟩
      | _ => simp [hr] at h
    | _ => simp [hf] at h

theorem row_annotation {N i : Nat} {labels : List (String × Severity × String)} {fs : List Field}
    {ts : List Item} {b : Byte} {bs : List Byte} {vs : List FieldVal}
    (hl : All2 (fun f t => labelOk N i labels f t = true) fs ts)
    (hp : All2 (fun f x => f.parse b = .ok x) fs vs)
    (hm : All2 (fun t x => t.kind.means (t.bitsOf bs) x = true) ts vs) :
    (rowRanges N i fs vs).map EnabledBitRange.annotation =
      (ts.filter (fun t => !(t.kind == .flag && t.bitsOf bs == 0))).map (Item.annotation labels N bs) := by
  induction fs generalizing ts vs with
  | nil =>
    cases ts <;> cases vs <;> first | exact hl.elim | exact hp.elim | rfl
  | cons f fs ih =>
    cases ts with
    | nil => exact hl.elim
    | cons t ts =>
      cases vs with
      | nil => exact hp.elim
      | cons x vs =>
        have h1 := field_annotation (bs := bs) hl.1 hp.1 hm.1
        have h2 := ih hl.2 hp.2 hm.2
        rw [rowRanges, List.zipWith_cons_cons, List.flatten_cons, List.map_append, h1]
        rw [rowRanges] at h2
        rw [h2, ← List.map_append, ← List.filter_append]
        rfl

theorem rows_annotation {N : Nat} {labels : List (String × Severity × String)} {items : List Item}
    {rows : List (Nat × List Field)} {bs all : List Byte} {v : Value} {k : Nat} (hat : At rows bs all k)
    (hg : GoodRows rows bs v)
    (hok : ∀ r ∈ rows, ∀ b, rowOkAt N r.1 r.2 (rowItems items r.1) b = true)
    (hl : ∀ r ∈ rows, All2 (fun f t => labelOk N r.1 labels f t = true) r.2 (rowItems items r.1)) :
    ((List.zipWith (fun (r : Nat × List Field) (vs : List FieldVal) => rowRanges N r.1 r.2 vs)
      rows v).flatten).map EnabledBitRange.annotation =
      ((itemsFrom items rows).filter (fun t => !(t.kind == .flag && t.bitsOf all == 0))).map
        (Item.annotation labels N all) := by
  induction rows generalizing bs v k with
  | nil =>
    cases bs <;> cases v <;> first | exact hg.elim | skip
    simp [itemsFrom]
  | cons r rows ih =>
    obtain ⟨i, fs⟩ := r
    cases bs <;> cases v <;> first | exact hg.elim | skip
    obtain ⟨hi, hb, hat'⟩ := hat.tail
    obtain ⟨hp, hg'⟩ := hg
    have h1 := rowOkAt_ok (hok (i, fs) (by simp) _) hp
    have i1 := ih hat' hg' (fun r hr => hok r (by simp [hr])) (fun r hr => hl r (by simp [hr]))
    have hbits : ∀ t ∈ rowItems items i, itemBits t _ = t.bitsOf all :=
      fun t ht => itemBits_eq (by rw [← hi] at hb; exact hb) ht
    rw [itemsFrom_cons, List.zipWith_cons_cons, List.flatten_cons, List.map_append, i1,
        List.filter_append, List.map_append]
    congr 1
    refine row_annotation (hl (i, fs) (by simp)) (parseFields_ok hp) (h1.2.1.imp ?_)
    intro t ht x hx
    rw [← hbits t ht]; exact hx

theorem annotations_eq {p : BitValue × List (String × Severity × String)}
    (hp : p ∈ (cvRule, cvRuleLabels) :: labelled) {bs : List Byte} {v : Value}
    (hv : p.1.layout.tryFrom bs = .ok v) :
    (p.1.layout.bitDisplayInformation v).map EnabledBitRange.annotation = annotations p.2 p.1.items bs := by
  have hmem : p.1 ∈ cvRule :: bitValues := by
    have h1 : ((cvRule, cvRuleLabels) :: labelled).map Prod.fst = cvRule :: bitValues := rfl
    rw [← h1]; exact List.mem_map_of_mem hp
  have hl := bitValues_ok p.1 hmem
  have hlen := (tryFrom_ok hl hv).1
  have hlab := labelled_ok p hp
  rw [labelsOk, List.all_eq_true] at hlab
  have := rows_annotation (labels := p.2) (at_zero hl bs) (tryFrom_ok hl hv).2 (layoutOk_row hl)
    (fun r hr => (all2_iff _ _).1 (hlab r hr))
  rw [itemsFrom_all hl] at this
  rw [Layout.bitDisplayInformation, layoutOk_numBytes hl, annotations, hlen]
  exact this

/-! ### The ranges of the items -/

/-- Ranges of bits within single bytes, from left to right. -/
def rangesGood (n : Nat) (rs : List (Nat × Nat)) : Prop :=
  (∀ r ∈ rs, 1 ≤ r.2 ∧ r.2 ≤ r.1 % 8 + 1 ∧ r.1 < 8 * n) ∧ rs.Pairwise (fun a b => b.1 < a.1 + 1 - a.2)

instance (n : Nat) (rs : List (Nat × Nat)) : Decidable (rangesGood n rs) := inferInstanceAs (Decidable (_ ∧ _))

theorem itemsGood : ∀ bv ∈ cvRule :: bitValues, rangesGood bv.numBytes (bv.items.map (fun t => t.range bv.numBytes)) := by
  decide +kernel

theorem annotation_range (labels : List (String × Severity × String)) (n : Nat) (bs : List Byte) (t : Item) :
    (t.annotation labels n bs).left = (t.range n).1 ∧ (t.annotation labels n bs).width = (t.range n).2 := by
  rw [Item.annotation]
  split <;> exact ⟨rfl, rfl⟩

theorem goodRanges_annotations {labels : List (String × Severity × String)} {n : Nat} {items : List Item}
    {bs : List Byte} (h : rangesGood n (items.map (fun t => t.range n))) :
    GoodRanges n ((shown items bs).map (Item.annotation labels n bs)) := by
  have hsub : List.Sublist ((shown items bs).map (fun t => t.range n)) (items.map (fun t => t.range n)) :=
    List.filter_sublist.map _
  constructor
  · intro r hr
    obtain ⟨t, ht, rfl⟩ := List.mem_map.1 hr
    obtain ⟨h1, h2⟩ := annotation_range labels n bs t
    rw [h1, h2]
    exact h.1 _ (hsub.subset (List.mem_map.2 ⟨t, ht, rfl⟩))
  · have hp := h.2.sublist hsub
    rw [List.pairwise_map] at hp ⊢
    refine hp.imp ?_
    intro a b hab
    rw [Annotation.right, (annotation_range labels n bs a).1, (annotation_range labels n bs a).2,
      (annotation_range labels n bs b).1]
    exact hab

/-! ### CVM Results -/

theorem goodRanges_cvmResults (bs : List Byte) (hlen : bs.length = 3) :
    GoodRanges 3 (cvmResultsAnnotations bs) := by
  have h0 : rangesGood 3 (cvmResultsItems.map (fun t => t.range 3)) := by decide +kernel
  have h1 := goodRanges_annotations (labels := cvmResultsLabels) (bs := bs) h0
  rw [cvmResultsAnnotations, annotations, hlen]
  have hf : ∀ r : Annotation, (if r.left = 7 ∧ bs.getD 2 0 = 1 then { r with severity := .error } else r).left = r.left ∧
      (if r.left = 7 ∧ bs.getD 2 0 = 1 then { r with severity := .error } else r).width = r.width := by
    intro r; split <;> exact ⟨rfl, rfl⟩
  constructor
  · intro r hr
    obtain ⟨r', hr', rfl⟩ := List.mem_map.1 hr
    rw [(hf r').1, (hf r').2]
    exact h1.1 r' hr'
  · have hp := h1.2
    rw [List.pairwise_map]
    refine hp.imp ?_
    intro a b hab
    rw [Annotation.right, (hf a).1, (hf a).2, (hf b).1]
    exact hab

theorem cvmResults_parts (a b c : Byte) (v : CvmResults) (h : CvmResults.tryFrom [a, b, c] = .ok v) :
    cvRuleTryFrom [a, b] = .ok v.cvRule ∧
    ((c = 0 ∧ v.result = ⟨"Unknown", some [0x00], "Unknown"⟩) ∨
      (c = 1 ∧ v.result = ⟨"Failed", some [0x01], "Failed"⟩) ∨
      (c = 2 ∧ v.result = ⟨"Successful", some [0x02], "Successful"⟩)) := by
  obtain ⟨r, hr⟩ := cvRule_total a b
  rw [cvmResults_eq, hr] at h
  rcases cvmResult_code c with ⟨x, hx, hx1, -, -, hx2⟩ | ⟨hx, -⟩
  · rw [hx] at h; cases h
    refine ⟨hr, ?_⟩
    simp only [cvmResultTable, List.mem_cons, List.not_mem_nil, or_false] at hx2
    rcases hx2 with rfl | rfl | rfl
    · exact Or.inl ⟨hx1.symm, rfl⟩
    · exact Or.inr (Or.inl ⟨hx1.symm, rfl⟩)
    · exact Or.inr (Or.inr ⟨hx1.symm, rfl⟩)
  · rw [hx] at h; cases h

theorem goodRows_length {rows : List (Nat × List Field)} {bs : List Byte} {v : Value} (h : GoodRows rows bs v) :
    v.length = rows.length := by
  induction rows generalizing bs v with
  | nil =>
    cases bs <;> cases v <;> first | exact h.elim | rfl
  | cons r rows ih =>
    obtain ⟨i, fs⟩ := r
    cases bs <;> cases v <;> first | exact h.elim | skip
    simp [ih h.2]

theorem cvmResults_repr_length (a b c : Byte) (v : CvmResults) (h : CvmResults.tryFrom [a, b, c] = .ok v) :
    v.binaryRepresentation.length = 3 := by
  have h1 := (cvmResults_parts a b c v h).1
  have h2 := goodRows_length (tryFrom_ok cvRule_ok h1).2
  have h3 : cvRuleLayout.rows.length = 2 := rfl
  rw [CvmResults.binaryRepresentation, Layout.binaryRepresentation]
  simp [h2, h3]

theorem cvmResults_annotations (a b c : Byte) (v : CvmResults) (h : CvmResults.tryFrom [a, b, c] = .ok v) :
    v.bitDisplayInformation.map EnabledBitRange.annotation = cvmResultsAnnotations [a, b, c] := by
  obtain ⟨hr, hres⟩ := cvmResults_parts a b c v h
  have h1 := annotations_eq (p := (cvRule, cvRuleLabels)) (by simp) hr
  have h2 : ((cvRuleLayout.bitDisplayInformation v.cvRule).map
        (fun r => { r with offset := r.offset + 8 })).map EnabledBitRange.annotation =
        ((cvRuleLayout.bitDisplayInformation v.cvRule).map EnabledBitRange.annotation).map
          (fun r => { r with left := r.left + 8 }) := by
    rw [List.map_map, List.map_map]; rfl
  rw [CvmResults.bitDisplayInformation, List.map_append, h2]
  rw [show cvRuleLayout = cvRule.layout from rfl, h1, cvmResultsAnnotations, annotations, annotations]
  have h4 : shown cvmResultsItems [a, b, c] = shown cvRuleItems [a, b] ++
      [⟨"result", 3, 8, 1, .code [(0, "Unknown"), (1, "Failed"), (2, "Successful")]⟩] := by
    rw [shown, cvmResultsItems, List.filter_append]
    congr 1
  rw [h4, List.map_append, List.map_append]
  congr 1
  · rw [List.map_map, List.map_map]
    apply List.map_congr_left
    intro t ht
    have ht := (List.mem_filter.1 ht).1
    simp only [cvRule, cvRuleItems, List.mem_cons, List.not_mem_nil, or_false] at ht
    rcases ht with rfl | rfl | rfl <;> rfl
  · have hann : Item.annotation cvmResultsLabels [a, b, c].length [a, b, c]
        ⟨"result", 3, 8, 1, .code [(0, "Unknown"), (1, "Failed"), (2, "Successful")]⟩ =
        Item.annotation cvmResultsLabels 3 [0, 0, c]
        ⟨"result", 3, 8, 1, .code [(0, "Unknown"), (1, "Failed"), (2, "Successful")]⟩ := rfl
    have hget : [a, b, c].getD 2 0 = [0, 0, c].getD 2 0 := rfl
    rw [List.map_cons, List.map_nil, List.map_cons, List.map_nil, List.map_cons, List.map_nil, hann, hget]
    rcases hres with ⟨rfl, hv⟩ | ⟨rfl, hv⟩ | ⟨rfl, hv⟩ <;> rw [hv] <;> decide +kernel

end Pemv
