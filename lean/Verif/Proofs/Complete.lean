import Verif.Spec.Complete
import Verif.Proofs.Complaints
import Verif.Proofs.Rearranged
import Verif.Proofs.Deep
import Verif.Props.Auto
import Verif.Props.Display

/-!
# The program and the specification of answers
-/

namespace Pemv

open Spec

/-! ### Data objects -/

theorem nodeOf_eq (parse : List Byte → Out RawEmvBlock) (masks : List Char) (e : Elem) :
    nodeOf parse masks e = .mk ⟨e.tag, classOf e.tag, typeOf e.tag, dataOf e.value masks⟩
      (childrenOf parse (typeOf e.tag) (dataOf e.value masks)) := by
  rw [nodeOf, dataOf, childrenOf.eq_def]
  by_cases hm : IsMasked (latin1 e.value) masks
  · rw [if_pos hm, if_neg (fun h => h.2 hm)]
    cases typeOf e.tag <;> rfl
  · rw [if_neg hm]
    cases ht : typeOf e.tag with
    | primitive => rw [if_neg (fun h => by cases h.1)]
    | constructed => rw [if_pos ⟨rfl, hm⟩]; rfl

theorem contents_iff {m : Machine} {masks : List Char} {tag : List Byte} {d : EmvData}
    (hd : ∀ v, d = .normal v → Fits m v.length ∧ ∀ es, IsBlock es → v = concat es → ∀ ns, ObjectsOf masks es ns ↔
      ns = es.map (nodeOf (fun v => berParse m v masks) masks)) (cs : List RawEmvNode) :
    ContentsOf masks tag d cs ↔ cs = childrenOf (fun v => berParse m v masks) (typeOf tag) d := by
  cases d with
  | masked =>
    have e : childrenOf (fun v => berParse m v masks) (typeOf tag) .masked = [] := by
      rw [childrenOf.eq_def]; cases typeOf tag <;> rfl
    rw [e]
    constructor
    · intro h; cases h; rfl
    · rintro rfl; exact .masked tag
  | normal v =>
    obtain ⟨hm, ih⟩ := hd v rfl
    cases ht : typeOf tag with
    | primitive =>
      constructor
      · intro h
        generalize hx : EmvData.normal v = x at h
        cases h with
        | masked => cases hx
        | primitive => rfl
        | unreadable => rfl
        | template _ h _ _ => rw [ht] at h; cases h
      · intro h
        subst h
        exact .primitive tag v ht
    | constructed =>
      have e : childrenOf (fun v => berParse m v masks) .constructed (.normal v) =
        match berParse m v masks with | .ok b => b | _ => [] := rfl
      rw [e]
      constructor
      · intro h
        generalize hx : EmvData.normal v = x at h
        cases h with
        | masked => cases hx
        | primitive _ _ h => rw [ht] at h; cases h
        | unreadable _ w _ hn =>
          cases hx
          rcases c16_returns masks v hm with ⟨ns, hns⟩ | ⟨err, herr⟩
          · obtain ⟨es, h1, h2, -⟩ := (c10_language masks v hm ns).1 hns
            exact absurd ⟨es, h1, h2⟩ hn
          · rw [herr]
        | template _ _ hb hobj =>
          cases hx
          have h1 := (ih _ hb rfl cs).1 hobj
          rw [(c10_language masks _ hm cs).2 ⟨_, rfl, hb, h1⟩]
      · intro h
        rcases c16_returns masks v hm with ⟨ns, hns⟩ | ⟨err, herr⟩
        · rw [hns] at h
          simp only at h
          subst h
          obtain ⟨es, h1, h2, h3⟩ := (c10_language masks v hm cs).1 hns
          have := (ih es h2 h1 cs).2 h3
          subst h1
          exact .template tag ht h2 this
        · rw [herr] at h
          simp only at h
          subst h
          refine .unreadable tag v ht ?_
          rintro ⟨es, h1, h2⟩
          have := (c10_language masks v hm _).2 ⟨es, h1, h2, rfl⟩
          rw [herr] at this
          cases this

theorem tag_nonempty {t : List Byte} (h : IsTag t) : 1 ≤ t.length := by
  cases h <;> simp

theorem objects_iff {m : Machine} (masks : List Char) (n : Nat) : ∀ es : List Elem, (∀ e ∈ es, e.WF) →
    (concat es).length ≤ n → Fits m (concat es).length → ∀ ns, ObjectsOf masks es ns ↔
      ns = es.map (nodeOf (fun v => berParse m v masks) masks) := by
  induction n with
  | zero =>
    intro es hw hl hm ns
    cases es with
    | nil =>
      constructor
      · intro h; cases h; rfl
      · rintro rfl; exact .nil
    | cons e es =>
      have := tag_nonempty (hw e List.mem_cons_self).1
      rw [concat, List.flatMap_cons, List.length_append, Elem.bytes, List.length_append, List.length_append] at hl
      omega
  | succ n ih =>
    intro es
    induction es with
    | nil =>
      intro hw hl hm ns
      constructor
      · intro h; cases h; rfl
      · rintro rfl; exact .nil
    | cons e es ihes =>
      intro hw hl hm ns
      have ht := tag_nonempty (hw e List.mem_cons_self).1
      have hlen : (concat (e :: es)).length = e.tag.length + e.len.length + e.value.length + (concat es).length := by
        rw [concat, List.flatMap_cons, List.length_append, Elem.bytes, List.length_append, List.length_append]
        rfl
      rw [hlen] at hl hm
      have hrest := ihes (fun x hx => hw x (List.mem_cons_of_mem _ hx)) (by omega) (fits_mono hm (by omega))
      have hcont := contents_iff (m := m) (masks := masks) (tag := e.tag) (d := dataOf e.value masks) (by
        intro v hv
        have hve : v = e.value := by
          rw [dataOf] at hv
          split at hv
          · cases hv
          · cases hv; rfl
        subst hve
        refine ⟨fits_mono hm (by omega), fun es' hb he' => ?_⟩
        refine ih es' hb.1 ?_ ?_
        · rw [← he']; omega
        · rw [← he']; exact fits_mono hm (by omega))
      rw [List.map_cons, nodeOf_eq]
      constructor
      · intro h
        cases h with
        | cons _ hc rest => rw [(hcont _).1 hc, (hrest _).1 rest]
      · rintro rfl
        exact .cons e ((hcont _).2 rfl) ((hrest _).2 rfl)

theorem record_node_eq (parse : List Byte → Out RawEmvBlock) (masks : List Char) (r : Record) :
    r.node parse masks = .mk ⟨r.tag, classOf r.tag, typeOf r.tag, r.data masks⟩
      (childrenOf parse (typeOf r.tag) (r.data masks)) := rfl

theorem records_iff {m : Machine} (masks : List Char) : ∀ rs : List Record,
    (∀ r ∈ rs, ∀ v, r.data masks = .normal v → Fits m v.length) → ∀ ns, RecordsOf masks rs ns ↔
      ns = rs.map (Record.node (fun v => berParse m v masks) masks)
  | [], _, ns => by
    constructor
    · intro h; cases h; rfl
    · rintro rfl; exact .nil
  | r :: rs, h, ns => by
    have hrest := records_iff masks rs (fun x hx => h x (List.mem_cons_of_mem _ hx))
    have hcont := contents_iff (m := m) (masks := masks) (tag := r.tag) (d := r.data masks) (by
      intro v hv
      have hf := h r List.mem_cons_self v hv
      refine ⟨hf, fun es hb he => ?_⟩
      subst he
      exact objects_iff masks _ es hb.1 (Nat.le_refl _) hf)
    rw [List.map_cons, record_node_eq]
    constructor
    · intro h
      cases h with
      | cons _ hc rest => rw [(hcont _).1 hc, (hrest _).1 rest]
    · rintro rfl
      exact .cons r ((hcont _).2 rfl) ((hrest _).2 rfl)

/-! ### Reading -/

/-- A result of the specification as one of the program. -/
def outOf {α : Type} : Except ParseError α → Out α
  | .ok a => .ok a
  | .error e => .err e

theorem ber_iff {m : Machine} (masks : List Char) (bytes : List Byte) (hm : Fits m bytes.length)
    (x : Except ParseError (List RawEmvNode)) : BerReads masks bytes x ↔ berParse m bytes masks = outOf x := by
  constructor
  · intro h
    cases h with
    | block hb h =>
      exact (c10_language masks _ hm _).2 ⟨_, rfl, hb, (objects_iff masks _ _ hb.1 (Nat.le_refl _) hm _).1 h⟩
    | tooLong h => exact (c15_unsupported masks bytes hm).2 h
    | malformed hb hl => exact (c15_non_compliant masks bytes hm).2 ⟨hb, hl⟩
  · intro h
    cases x with
    | ok ns =>
      obtain ⟨es, h1, h2, h3⟩ := (c10_language masks bytes hm ns).1 h
      subst h1
      exact .block h2 ((objects_iff masks _ es h2.1 (Nat.le_refl _) hm ns).2 h3)
    | error e =>
      rcases c15_kinds masks bytes hm e h with rfl | rfl
      · have := (c15_non_compliant masks bytes hm).1 h
        exact .malformed this.1 this.2
      · exact .tooLong ((c15_unsupported masks bytes hm).1 h)

theorem recordsOf_fits {m : Machine} {masks : List Char} {s : Text} {rs : List Record} (hr : IsIngenico masks s rs)
    (hm : Fits m s.length) : ∀ r ∈ emvRecords rs, ∀ v, r.data masks = .normal v → Fits m v.length := by
  intro r hr' v hv
  have h1 : r ∈ rs := (List.mem_filter.1 hr').1
  exact fits_mono hm (Nat.le_trans (record_data_le hv) (Nat.le_trans (by rw [Record.text]; simp only [List.length_append, List.length_cons]; omega) (record_in_text hr r h1)))

theorem ing_ok_iff {m : Machine} (masks : List Char) (s : Text) (hm : Fits m s.length) (ns : List RawEmvNode) :
    (∃ rs, Recorded masks s rs ∧ RecordsOf masks (emvRecords rs) ns) ↔ ingParse m s masks = .ok ns := by
  rw [c21_language masks s hm ns]
  constructor
  · rintro ⟨rs, ⟨ha, hi⟩, h⟩
    exact ⟨ha, rs, hi, (records_iff masks _ (recordsOf_fits hi hm) ns).1 h⟩
  · rintro ⟨ha, rs, hi, h⟩
    exact ⟨rs, ⟨ha, hi⟩, (records_iff masks _ (recordsOf_fits hi hm) ns).2 h⟩

theorem recorded_iff {m : Machine} (masks : List Char) (s : Text) (hm : Fits m s.length) :
    (∃ rs, Recorded masks s rs) ↔ ∃ ns, ingParse m s masks = .ok ns := by
  constructor
  · rintro ⟨rs, h⟩
    exact ⟨_, (c21_language masks s hm _).2 ⟨h.1, rs, h.2, rfl⟩⟩
  · rintro ⟨ns, h⟩
    obtain ⟨rs, h1, -⟩ := (ing_ok_iff masks s hm ns).2 h
    exact ⟨rs, h1⟩

theorem ing_iff {m : Machine} (masks : List Char) (s : Text) (hm : Fits m s.length)
    (x : Except ParseError (List RawEmvNode)) : IngReads masks s x ↔ ingParse m s masks = outOf x := by
  constructor
  · intro h
    cases h with
    | records hr h => exact (ing_ok_iff masks s hm _).1 ⟨_, hr, h⟩
    | tooLong h => exact (c28_unsupported masks s hm).2 h
    | malformed hr hl =>
      rcases c26_returns masks s hm with h | ⟨e, he⟩
      · exact absurd ((recorded_iff masks s hm).2 h) hr
      · rcases c28_kinds masks s hm e he with rfl | rfl
        · exact he
        · exact absurd ((c28_unsupported masks s hm).1 he) hl
  · intro h
    cases x with
    | ok ns =>
      obtain ⟨rs, h1, h2⟩ := (ing_ok_iff masks s hm ns).2 h
      exact .records h1 h2
    | error e =>
      rcases c28_kinds masks s hm e h with rfl | rfl
      · refine .malformed (fun hr => ?_) (fun hl => ?_)
        · obtain ⟨ns, hns⟩ := (recorded_iff masks s hm).1 hr
          rw [h] at hns; cases hns
        · have := (c28_unsupported masks s hm).2 hl
          rw [h] at this; cases this
      · exact .tooLong ((c28_unsupported masks s hm).1 h)

/-- What is told of a format. -/
def told (x : Except ParseError (Option TlvFormat × List RawEmvNode)) : Except ParseError (Option String × List RawEmvNode) :=
  x.map (fun p => (p.1.map TlvFormat.text, p.2))

theorem hexBytes_fits {m : Machine} {s : Text} (hm : Fits m s.length) : Fits m (hexBytes s).length :=
  fits_mono hm (by have := hexBytes_length_le s; omega)

/-- What is read is what the specification says. -/
theorem blockReads_parse {m : Machine} {masks : List Char} {op : Operation} {s : Text} (hm : Fits m s.length)
    {x : Except ParseError (Option String × List RawEmvNode)} (h : BlockReads masks op s x) :
    op ∈ [Operation.autoTlv, .berTlv, .ingenicoTlv] ∧ ∃ y, x = told y ∧ tlvParse m masks op s = outOf y := by
  have hb := hexBytes_fits hm
  obtain ⟨a1, a2, a3⟩ := c29_agrees masks s hm
  cases h with
  | ber h =>
    refine ⟨by simp, .ok (none, _), rfl, ?_⟩
    rw [tlvParse, hexBytes_eq, (ber_iff masks _ hb _).1 h]
    rfl
  | berError h =>
    refine ⟨by simp, .error _, rfl, ?_⟩
    rw [tlvParse, hexBytes_eq, (ber_iff masks _ hb _).1 h]
    rfl
  | ingenico h =>
    refine ⟨by simp, .ok (none, _), rfl, ?_⟩
    rw [tlvParse, (ing_iff masks s hm _).1 h]
    rfl
  | ingenicoError h =>
    refine ⟨by simp, .error _, rfl, ?_⟩
    rw [tlvParse, (ing_iff masks s hm _).1 h]
    rfl
  | autoIngenico hs h =>
    refine ⟨by simp, .ok (some .ingenico, _), rfl, ?_⟩
    rw [tlvParse, (a1 _).2 ⟨hs, (ing_iff masks s hm _).1 h⟩]
    rfl
  | autoBer hs hi h =>
    refine ⟨by simp, .ok (some .berTlv, _), rfl, ?_⟩
    rw [tlvParse, (a2 _).2 ⟨hs, fun h' => hi ((recorded_iff masks s hm).2 h'), ?_⟩]
    · rfl
    · rw [hexBytes_eq]
      exact (ber_iff masks _ hb _).1 h
  | autoError h =>
    refine ⟨by simp, .error _, rfl, ?_⟩
    rw [tlvParse, (c31_rejected_iff masks s hm).2]
    · rfl
    · rcases h with h | ⟨h1, h2⟩
      · exact Or.inl h
      · refine Or.inr ⟨?_, ?_⟩
        · rintro ⟨ha, rs, hr⟩
          exact h1 ⟨rs, ha, hr⟩
        · rw [hexBytes_eq]
          exact h2

theorem out_exists {α : Type} {x : Out α} (h : (∃ a, x = .ok a) ∨ ∃ e, x = .err e) : ∃ y, x = outOf y := by
  rcases h with ⟨a, h⟩ | ⟨e, h⟩
  · exact ⟨.ok a, h⟩
  · exact ⟨.error e, h⟩

/-- Something is read, be it an error. -/
theorem blockReads_exists (masks : List Char) {op : Operation} (s : Text)
    (h : op ∈ [Operation.autoTlv, .berTlv, .ingenicoTlv]) : ∃ x, BlockReads masks op s x := by
  obtain ⟨m, hm⟩ : ∃ m : Machine, Fits m s.length := by
    refine ⟨⟨s.length + 2 ^ 34, false⟩, ?_⟩
    unfold Fits
    exact Nat.le_of_lt Nat.lt_two_pow_self
  have hb := hexBytes_fits hm
  obtain ⟨x, hx⟩ := out_exists (c16_returns masks _ hb)
  obtain ⟨y, hy⟩ := out_exists (c26_returns masks s hm)
  have hx' := (ber_iff masks _ hb _).2 hx
  have hy' := (ing_iff masks s hm _).2 hy
  simp only [List.mem_cons, List.not_mem_nil, or_false] at h
  rcases h with rfl | rfl | rfl
  · by_cases hs : s = []
    · exact ⟨_, .autoError (Or.inl hs)⟩
    · cases y with
      | ok ns => exact ⟨_, .autoIngenico hs hy'⟩
      | error e =>
        have hno : ¬ ∃ rs, Recorded masks s rs := by
          intro h
          obtain ⟨ns, hns⟩ := (recorded_iff masks s hm).1 h
          rw [hy] at hns; cases hns
        cases x with
        | ok ns => exact ⟨_, .autoBer hs hno hx'⟩
        | error e' =>
          refine ⟨_, .autoError (Or.inr ⟨hno, ?_⟩)⟩
          rintro ⟨es, h1, h2⟩
          have := (c10_acceptance masks _ hb).2 ⟨es, h1, h2⟩
          obtain ⟨ns, hns⟩ := this
          rw [hx] at hns; cases hns
  · cases x with
    | ok ns => exact ⟨_, .ber hx'⟩
    | error e => exact ⟨_, .berError hx'⟩
  · cases y with
    | ok ns => exact ⟨_, .ingenico hy'⟩
    | error e => exact ⟨_, .ingenicoError hy'⟩

theorem outOf_inj {α : Type} {x y : Except ParseError α} (h : outOf x = outOf y) : x = y := by
  cases x <;> cases y <;> cases h <;> rfl

theorem blockReads_unique {masks : List Char} {op : Operation} {s : Text} {x y : Except ParseError (Option String × List RawEmvNode)}
    (h : BlockReads masks op s x) (h' : BlockReads masks op s y) : x = y := by
  obtain ⟨m, hm⟩ : ∃ m : Machine, Fits m s.length := by
    refine ⟨⟨s.length + 2 ^ 34, false⟩, ?_⟩
    unfold Fits
    exact Nat.le_of_lt Nat.lt_two_pow_self
  obtain ⟨-, x', rfl, hx⟩ := blockReads_parse hm h
  obtain ⟨-, y', rfl, hy⟩ := blockReads_parse hm h'
  rw [outOf_inj (hx.symm.trans hy)]

/-! ### Faults of values -/

theorem fault_of_decoder {tag d : List Byte} {dec : List Byte → Out ParsedValue} {e : ParseError}
    (hd : (tag, dec) ∈ decoders) (ha : ¬ Acceptable tag d) (h : dec d = .err e) : e = faultOf tag d := by
  have sized : ∀ (bv : BitValue), bv ∈ bitValues → (fixedSizes.lookup tag).getD 0 = bv.numBytes → tag ≠ [0x8E] →
      d.length ≠ bv.numBytes → bv.layout.tryFrom d = .err e → e = faultOf tag d := by
    intro bv hbv hk ht hn he
    rw [c40_wrong_length bv (List.mem_cons_of_mem _ hbv) d hn] at he
    cases he
    rw [faultOf, if_neg ht, hk, if_pos hn]
  have size : ∀ k, (fixedSizes.lookup tag).getD 0 = k → tag ≠ [0x8E] → d.length ≠ k →
      .byteCountIncorrect .eq k d.length = faultOf tag d := by
    intro k hk ht hn
    rw [faultOf, if_neg ht, hk, if_pos hn]
  have number : ∀ k, (fixedSizes.lookup tag).getD 0 = k → tag ∉ [[0x8E], [0x9F, 0x34], [0x9F, 0x35], [0x9F, 0x39]] →
      d.length = k → .invalidNumber = faultOf tag d := by
    intro k hk ht hn
    simp only [List.mem_cons, List.not_mem_nil, or_false, not_or] at ht
    rw [faultOf, if_neg ht.1, hk, if_neg (by simp [hn]), if_neg ht.2.1, if_neg (by simp [ht.2.2.1, ht.2.2.2])]
  have five : tag ∈ [[0x95], [0x9F, 0x0D], [0x9F, 0x0E], [0x9F, 0x0F], [0x9F, 0x40]] → d.length ≠ 5 := by
    intro ht h5
    apply ha
    simp only [List.mem_cons, List.not_mem_nil, or_false] at ht
    rcases ht with rfl | rfl | rfl | rfl | rfl <;> constructor <;> intro h' <;> first | exact h5 | simp at h'
  simp only [decoders, List.mem_cons, Prod.mk.injEq, List.not_mem_nil, or_false] at hd
  rcases hd with ⟨rfl, rfl⟩ | ⟨rfl, rfl⟩ | ⟨rfl, rfl⟩ | ⟨rfl, rfl⟩ | ⟨rfl, rfl⟩ | ⟨rfl, rfl⟩ | ⟨rfl, rfl⟩ | ⟨rfl, rfl⟩ |
    ⟨rfl, rfl⟩ | ⟨rfl, rfl⟩ | ⟨rfl, rfl⟩ | ⟨rfl, rfl⟩ | ⟨rfl, rfl⟩ | ⟨rfl, rfl⟩ | ⟨rfl, rfl⟩ <;>
    replace h := out_map_err h
  · by_cases hl : d.length = 2
    · have hnum := number 2 (by decide) (by decide) hl
      match d, hl with
      | [a, b], _ =>
        rw [serviceCode_bytes] at h
        split at h
        · rw [ServiceCode.tryFromU16.eq_def] at h
          split at h
          · cases h; exact hnum
          · rename_i hn
            obtain ⟨v, hv, -⟩ := serviceCode_number _ (Nat.le_of_not_lt hn)
            rw [ServiceCode.tryFromU16, if_neg hn] at hv
            rw [hv] at h; cases h
        · cases h; exact hnum
    · rw [c48_length d hl] at h; cases h; exact size 2 (by decide) (by decide) hl
  · by_cases hl : d.length = 2
    · by_cases hu : IsUtf8 d
      · exact absurd ⟨fun h' => by simp at h', fun _ => ⟨hl, hu⟩, fun h' => by simp at h', fun h' => by simp at h',
          fun h' => by simp at h', fun h' => by simp at h', fun h' => by simp at h', fun h' => by simp at h',
          fun h' => by simp at h', fun h' => by simp at h'⟩ ha
      · rw [(c63_response_code_errors d).2.1 hl hu] at h; cases h; exact number 2 (by decide) (by decide) hl
    · rw [(c63_response_code_errors d).1 hl] at h; cases h; exact size 2 (by decide) (by decide) hl
  · rw [CvmList.tryFrom] at h
    rw [faultOf, if_pos rfl]
    split at h
    · cases h; rw [if_pos ‹_›]
    · rw [if_neg ‹_›]
      split at h
      · cases h; rfl
      · exfalso
        apply ha
        refine ⟨fun h' => by simp at h', fun h' => by simp at h', fun _ => ⟨(d.length - 8) / 2, by omega⟩,
          fun h' => by simp at h',
          fun h' => by simp at h', fun h' => by simp at h', fun h' => by simp at h', fun h' => by simp at h',
          fun h' => by simp at h', fun h' => by simp at h'⟩
  · exact sized ⟨tvrLayout, 5, tvrItems⟩ (by simp [bitValues]) (by decide) (by decide) (five (by simp)) h
  · refine sized ⟨tsiLayout, 2, tsiItems⟩ (by simp [bitValues]) (by decide) (by decide) (fun hl => ha ?_) h
    constructor <;> intro h' <;> first | exact hl | simp at h'
  · by_cases hl : d.length = 1
    · exfalso; apply ha
      constructor <;> intro h' <;> first | exact hl | simp at h'
    · rw [((c63_errors d).1 hl).1] at h; cases h; exact size 1 (by decide) (by decide) hl
  · exact sized ⟨tvrLayout, 5, tvrItems⟩ (by simp [bitValues]) (by decide) (by decide) (five (by simp)) h
  · exact sized ⟨tvrLayout, 5, tvrItems⟩ (by simp [bitValues]) (by decide) (by decide) (five (by simp)) h
  · exact sized ⟨tvrLayout, 5, tvrItems⟩ (by simp [bitValues]) (by decide) (by decide) (five (by simp)) h
  · exact absurd (c35_others _ _ (by decide)) ha
  · refine sized ⟨terminalCapabilitiesLayout, 3, terminalCapabilitiesItems⟩ (by simp [bitValues]) (by decide) (by decide)
      (fun hl => ha ?_) h
    constructor <;> intro h' <;> first | exact hl | simp at h'
  · obtain ⟨h1, h2, h3⟩ := c40_cvm_results d
    by_cases hl : d.length = 3
    · by_cases hc : (d.getD 2 0).toNat ≤ 2
      · obtain ⟨v, hv⟩ := h2 hl hc; rw [hv] at h; cases h
      · rw [h3 hl (by omega)] at h; cases h
        rw [faultOf, if_neg (by decide), if_neg (by rw [hl]; decide), if_pos rfl]
    · rw [h1 hl] at h; cases h; exact size 3 (by decide) (by decide) hl
  · by_cases hl : d.length = 1
    · have hun : ParseError.unrecognised = faultOf [0x9F, 0x35] d := by
        rw [faultOf, if_neg (by decide), if_neg (by rw [hl]; decide), if_neg (by decide), if_pos (by decide)]
      match d, hl with
      | [b], _ =>
        rw [terminalTypeTryFrom, byteEnumTryFrom, if_neg (by simp)] at h
        change enumTryFrom _ _ b = _ at h
        rw [enumTryFrom] at h
        split at h
        · cases h
        · cases h; exact hun
    · rw [((c63_errors d).1 hl).2.1] at h; cases h; exact size 1 (by decide) (by decide) hl
  · by_cases hl : d.length = 1
    · have hun : ParseError.unrecognised = faultOf [0x9F, 0x39] d := by
        rw [faultOf, if_neg (by decide), if_neg (by rw [hl]; decide), if_neg (by decide), if_pos (by decide)]
      match d, hl with
      | [b], _ =>
        rw [posEntryModeTryFrom, byteEnumTryFrom, if_neg (by simp)] at h
        change enumTryFrom _ _ b = _ at h
        rw [enumTryFrom] at h
        split at h
        · cases h
        · cases h; exact hun
    · rw [((c63_errors d).1 hl).2.2] at h; cases h; exact size 1 (by decide) (by decide) hl
  · exact sized ⟨additionalTerminalCapabilitiesLayout, 5, additionalTerminalCapabilitiesItems⟩ (by simp [bitValues])
      (by decide) (by decide) (five (by simp)) h

theorem firstFault_iff (b : List RawEmvNode) (e : ParseError) : processBlock b = .err e ↔ FirstFault b e := by
  constructor
  · intro h
    obtain ⟨pre, t, post, dec, d, h1, h2, h3, h4, h5, h6⟩ := (c34_first_error b e).1 h
    exact ⟨pre, t, post, d, h1, h2, h3, h4, fault_of_decoder h5 h4 h6⟩
  · rintro ⟨pre, t, post, d, h1, h2, h3, h4, rfl⟩
    have hno : ¬ ∃ p, processBlock [.mk t []] = .ok p := by
      rw [c34_ok_iff]
      intro h
      exact h4 (h t (by simp [blockTags, nodeTags]) d h3)
    rcases c34_returns [.mk t []] with h | ⟨e, h⟩
    · exact absurd h hno
    · obtain ⟨pre', t', post', dec, d', g1, -, g3, g4, g5, g6⟩ := (c34_first_error _ e).1 h
      have : t' = t := by
        have hm : t' ∈ blockTags [.mk t []] := by rw [g1]; simp
        simpa [blockTags, nodeTags] using hm
      subst this
      rw [h3] at g3
      cases g3
      rw [← fault_of_decoder g5 h4 g6]
      exact (c34_first_error b e).2 ⟨pre, t', post, dec, d, h1, h2, h3, h4, g5, g6⟩

/-! ### Answers -/

theorem arranged_unique {sort : Bool} {b x y : List RawEmvNode} (h : Arranged sort b x) (h' : Arranged sort b y) : x = y := by
  cases sort with
  | true => exact inTagOrder_unique h h'
  | false => exact Eq.trans h (Eq.symm h')

theorem arranged_exists (sort : Bool) (b : List RawEmvNode) : ∃ x, Arranged sort b x := by
  cases sort with
  | true => exact inTagOrder_exists b
  | false => exact ⟨b, rfl⟩

theorem indentable_iff (ls : List Line) : Indentable (.ok ls) ↔ ¬ TooDeep 0 ls := by
  constructor
  · rintro h ⟨l, hl, k, hk, h'⟩
    have := h l hl k hk
    omega
  · intro h l hl k hk
    refine Nat.le_of_lt_succ (Nat.lt_of_not_le (fun h' => h ⟨l, hl, k, hk, by omega⟩))

theorem ruleLines_shallow (n : Nat) (p : Byte × Byte) : ¬ TooDeep 0 (ruleLines n p) := by
  rw [ruleLines, tooDeep_line (by omega)]
  simp only [tooDeep_cons, tooDeep_nil, ruleAspect, Option.some.injEq, or_false]
  rintro (⟨k, rfl, h⟩ | ⟨k, rfl, h⟩ | ⟨k, rfl, h⟩) <;> omega

theorem cvmListLines_shallow (bs : List Byte) : ¬ TooDeep 0 (cvmListLines bs) := by
  rw [cvmListLines]
  simp only [tooDeep_append, tooDeep_title (show 0 < 256 by omega), tooDeep_nil]
  rintro ((h | h) | ⟨l, hl, k, hk, h⟩)
  · refine flat_not_tooDeep (by omega) ?_ h
    split
    · exact flat_cons (flat_cons flat_nil)
    · exact flat_nil
  · exact h
  · obtain ⟨p, -, hp⟩ := List.mem_flatMap.1 hl
    exact ruleLines_shallow p.2 p.1 ⟨l, hp, k, hk, h⟩

theorem iadLines_shallow (bs : List Byte) : ¬ TooDeep 0 (iadLines bs true) := by
  have hd : ∀ bs, FlatLines (dump bs) := fun bs => flat_map _ _
  have hx := fun its labels bs => flat_not_tooDeep (show 0 + 1 < 256 by omega) (flat_bits its labels bs true)
  have hy := fun bs => flat_not_tooDeep (show 0 + 1 < 256 by omega) (hd bs)
  rw [iadLines]
  simp only [tooDeep_append, tooDeep_title (show 0 < 256 by omega), tooDeep_deeper, tooDeep_nil, hx, hy, Spec.entry,
    tooDeep_line (show 0 < 256 by omega), or_self, not_false_eq_true]

theorem hexReport_shallow {op : Operation} (hop : op ∈ hexOperations) (bs : List Byte) : Indentable (hexReport op bs) := by
  have flat : ∀ {ls : List Line}, FlatLines ls → Indentable (.ok ls) := fun h =>
    (indentable_iff _).2 (flat_not_tooDeep (by omega) h)
  simp only [hexOperations, List.mem_cons, List.not_mem_nil, or_false] at hop
  rcases hop with rfl | rfl | rfl | rfl | rfl | rfl | rfl <;> rw [hexReport]
  · split
    · exact flat (flat_bits _ _ _ _)
    · trivial
  · split
    · exact (indentable_iff _).2 (iadLines_shallow _)
    · trivial
  · split
    · exact flat (flat_bits _ _ _ _)
    · trivial
  · split
    · exact flat (flat_bits _ _ _ _)
    · trivial
  · split
    · trivial
    · split
      · trivial
      · exact flat (flat_drawing _ _ _)
  · split
    · trivial
    · split
      · trivial
      · exact (indentable_iff _).2 (cvmListLines_shallow _)
  · split
    · trivial
    · exact flat (flat_cons (flat_cons (flat_cons (flat_cons flat_nil))))

theorem formatTold_shallow (f : Option String) : ¬ TooDeep 0 (formatTold f) := by
  cases f with
  | none => exact fun h => (tooDeep_nil 0).1 h
  | some f =>
    rw [formatTold, formatLines]
    simp only [tooDeep_cons, tooDeep_nil, or_false]
    rintro (⟨k, h, -⟩ | ⟨k, h, -⟩) <;> cases h

/-- The answer is reported unless a line is too deep; then a build with overflow checks panics. -/
theorem answer_outcome {m : Machine} {masks : List Char} {sort : Bool} {op : Operation} {s : Text}
    {rep : Except Text (List Line)} (h : Answer masks sort op s rep) (hm : Fits m s.length) :
    (m.overflowChecks = false ∨ Indentable rep → Reports (runOp m masks sort op s) rep) ∧
    (m.overflowChecks = true → ¬ Indentable rep → (runOp m masks sort op s).disp.panicked = true) := by
  cases h with
  | hex _ hop => exact ⟨fun _ => reports_hex m masks sort op hop s, fun _ h => absurd (hexReport_shallow hop _) h⟩
  | serviceCode h hn =>
    refine ⟨fun _ => (reports_serviceCode m masks sort s).1 _ h hn, fun _ h => absurd ((indentable_iff _).2 ?_) h⟩
    exact flat_not_tooDeep (by omega) (flat_cons (flat_cons (flat_cons (flat_cons (flat_cons (flat_cons flat_nil))))))
  | noServiceCode h => exact ⟨fun _ => (reports_serviceCode m masks sort s).2 h, fun _ h => absurd trivial h⟩
  | @block op s f b b' h ha ho =>
    obtain ⟨hop, y, hy, hp⟩ := blockReads_parse hm h
    cases y with
    | error e => cases hy
    | ok p =>
      obtain ⟨f', c⟩ := p
      cases hy
      obtain ⟨q, hq⟩ := (c34_ok_iff c).2 ha
      have hrun : runOp m masks sort op s =
          ⟨(headerOf f').seq (displayBlock m (maybeSort sort q) 0 true), none, false, false⟩ := by
        rw [runOp_tlv m masks sort op hop s, hp, outOf, tlvOutcome]
        simp only [hq]
      have hsplit : Indentable (.ok (formatTold (f'.map TlvFormat.text) ++ blockLines true b')) ↔
          ¬ TooDeep 0 (blockLines true b') := by
        rw [indentable_iff, tooDeep_append]
        exact not_congr ⟨fun h => h.resolve_left (formatTold_shallow _), Or.inr⟩
      have hshow : Shows (displayBlock m (maybeSort sort q) 0 true) (showLines 0 (blockLines true b')) →
          Reports (runOp m masks sort op s) (.ok (formatTold (f'.map TlvFormat.text) ++ blockLines true b')) := by
        intro hs
        have hh : Shows (headerOf f') (showLines 0 (formatTold (f'.map TlvFormat.text))) := by
          cases f' with
          | none => exact shows_nil
          | some f' => exact shows_header f'
        rw [hrun, Reports, render_append]
        exact ⟨hh.seq hs, rfl, rfl, rfl⟩
      refine ⟨fun hd => hshow ?_, fun hc hd => ?_⟩
      · cases hc : m.overflowChecks with
        | false =>
          obtain ⟨b'', hb'', hs⟩ := shows_arranged (m := m) hq sort (Or.inr hc)
          rw [arranged_unique ho hb'']
          exact hs
        | true =>
          obtain ⟨b'', hb'', hs, -⟩ := c55_exact m hc c q sort hq
          cases arranged_unique ho hb''
          refine hs ((fun h => ?_) : Indentable (.ok (blockLines true b')))
          exact (indentable_iff _).2 (hsplit.1 (hd.resolve_left (by rw [hc]; decide))) h
      · obtain ⟨b'', hb'', -, hs⟩ := c55_exact m hc c q sort hq
        cases arranged_unique ho hb''
        rw [hrun]
        refine seq_panicked_right (hs ?_)
        obtain ⟨l, hl, k, hk, h'⟩ := Classical.not_not.1 (mt hsplit.2 hd)
        exact ⟨l, hl, k, hk, by omega⟩
  | @fault op s f b e h hf =>
    obtain ⟨hop, y, hy, hp⟩ := blockReads_parse hm h
    cases y with
    | error e => cases hy
    | ok p =>
      obtain ⟨f', c⟩ := p
      cases hy
      exact ⟨fun _ => (reports_tlv m masks sort op hop s).2.1 f' c e hp ((firstFault_iff c e).2 hf),
        fun _ h => absurd trivial h⟩
  | unreadable h =>
    obtain ⟨hop, y, hy, hp⟩ := blockReads_parse hm h
    cases y with
    | ok p => cases hy
    | error e =>
      cases hy
      exact ⟨fun _ => (reports_tlv m masks sort op hop s).1 _ hp, fun _ h => absurd trivial h⟩

theorem answer_exists (masks : List Char) (sort : Bool) (op : Operation) (s : Text) : ∃ rep, Answer masks sort op s rep := by
  have hb : op ∈ [Operation.autoTlv, .berTlv, .ingenicoTlv] → ∃ rep, Answer masks sort op s rep := by
    intro hop
    obtain ⟨x, hx⟩ := blockReads_exists masks s hop
    cases x with
    | error e => exact ⟨_, .unreadable hx⟩
    | ok p =>
      obtain ⟨f, b⟩ := p
      rcases c34_returns b with hp | ⟨e, he⟩
      · obtain ⟨b', ho⟩ := arranged_exists sort b
        exact ⟨_, .block hx ((c34_ok_iff b).1 hp) ho⟩
      · exact ⟨_, .fault hx ((firstFault_iff b e).1 he)⟩
  have hx : op ∈ hexOperations → ∃ rep, Answer masks sort op s rep := fun h => ⟨_, .hex s h⟩
  cases op with
  | autoTlv => exact hb (by simp)
  | berTlv => exact hb (by simp)
  | ingenicoTlv => exact hb (by simp)
  | serviceCode =>
    by_cases h : ∃ n, IsU16Text s n ∧ n ≤ 999
    · obtain ⟨n, h1, h2⟩ := h
      exact ⟨_, .serviceCode h1 h2⟩
    · exact ⟨_, .noServiceCode h⟩
  | _ => exact hx (by simp [hexOperations])

theorem u16_unique {s : Text} {n n' : Nat} (h : IsU16Text s n) (h' : IsU16Text s n') : n = n' := by
  have e := (c07_u16 s n).2 h
  rw [(c07_u16 s n').2 h'] at e
  cases e
  rfl

theorem fault_unacceptable {b : List RawEmvNode} {e : ParseError} (h : FirstFault b e) (ha : AllAcceptable b) : False := by
  obtain ⟨pre, t, post, d, h1, -, h3, h4, -⟩ := h
  exact h4 (ha t (by rw [h1]; simp) d h3)

theorem answer_unique {masks : List Char} {sort : Bool} {op : Operation} {s : Text} {x y : Except Text (List Line)}
    (h : Answer masks sort op s x) (h' : Answer masks sort op s y) : x = y := by
  have kinds : ∀ {op : Operation} {s : Text} {z : Except ParseError (Option String × List RawEmvNode)},
      BlockReads masks op s z → op ∉ hexOperations ∧ op ≠ .serviceCode := by
    intro op s z h
    cases h <;> exact ⟨by simp [hexOperations], by simp⟩
  cases h with
  | hex _ hop =>
    cases h' with
    | hex => rfl
    | serviceCode => simp [hexOperations] at hop
    | noServiceCode => simp [hexOperations] at hop
    | block h => exact absurd hop (kinds h).1
    | fault h => exact absurd hop (kinds h).1
    | unreadable h => exact absurd hop (kinds h).1
  | serviceCode h1 h2 =>
    cases h' with
    | hex _ hop => simp [hexOperations] at hop
    | serviceCode h1' _ => rw [u16_unique h1 h1']
    | noServiceCode h => exact absurd ⟨_, h1, h2⟩ h
    | block h => exact absurd rfl (kinds h).2
    | fault h => exact absurd rfl (kinds h).2
    | unreadable h => exact absurd rfl (kinds h).2
  | noServiceCode h1 =>
    cases h' with
    | hex _ hop => simp [hexOperations] at hop
    | serviceCode h1' h2' => exact absurd ⟨_, h1', h2'⟩ h1
    | noServiceCode h => rfl
    | block h => exact absurd rfl (kinds h).2
    | fault h => exact absurd rfl (kinds h).2
    | unreadable h => exact absurd rfl (kinds h).2
  | block h1 ha ho =>
    cases h' with
    | hex _ hop => exact absurd hop (kinds h1).1
    | serviceCode => exact absurd rfl (kinds h1).2
    | noServiceCode => exact absurd rfl (kinds h1).2
    | block h1' ha' ho' =>
      cases blockReads_unique h1 h1'
      rw [arranged_unique ho ho']
    | fault h1' hf =>
      cases blockReads_unique h1 h1'
      exact (fault_unacceptable hf ha).elim
    | unreadable h1' => cases blockReads_unique h1 h1'
  | fault h1 hf =>
    cases h' with
    | hex _ hop => exact absurd hop (kinds h1).1
    | serviceCode => exact absurd rfl (kinds h1).2
    | noServiceCode => exact absurd rfl (kinds h1).2
    | block h1' ha' ho' =>
      cases blockReads_unique h1 h1'
      exact (fault_unacceptable hf ha').elim
    | fault h1' hf' =>
      cases blockReads_unique h1 h1'
      have e := (firstFault_iff _ _).2 hf
      rw [(firstFault_iff _ _).2 hf'] at e
      cases e
      rfl
    | unreadable h1' => cases blockReads_unique h1 h1'
  | unreadable h1 =>
    cases h' with
    | hex _ hop => exact absurd hop (kinds h1).1
    | serviceCode => exact absurd rfl (kinds h1).2
    | noServiceCode => exact absurd rfl (kinds h1).2
    | block h1' => cases blockReads_unique h1 h1'
    | fault h1' => cases blockReads_unique h1 h1'
    | unreadable h1' => cases blockReads_unique h1 h1'; rfl

end Pemv
