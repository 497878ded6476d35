import Verif.Spec.Alarms
import Verif.Props.Complete
import Verif.Proofs.Width

/-!
# Proofs about what is shown in red and in yellow
-/

namespace Pemv

open Spec

/-- Some line has something in a colour. -/
def ColouredLines (col : Colour) (ls : List Line) : Prop := ∃ l ∈ ls, InColour col l.cells

theorem inColour_append {col : Colour} {a b : Cells} : InColour col (a ++ b) ↔ InColour col a ∨ InColour col b := by
  simp only [InColour, List.mem_append, or_and_right, exists_or]

theorem inColour_styled {col : Colour} {s : ColorSpec} {t : Text} : InColour col (styled s t) ↔ s.fg = some col ∧ t ≠ [] := by
  constructor
  · rintro ⟨x, hx, h⟩
    obtain ⟨c, hc, rfl⟩ := List.mem_map.1 hx
    exact ⟨h, fun e => by rw [e] at hc; cases hc⟩
  · rintro ⟨h, hne⟩
    cases t with
    | nil => exact absurd rfl hne
    | cons c t => exact ⟨(c, s), List.mem_cons_self, h⟩

theorem inColour_plain {col : Colour} {t : Text} : ¬ InColour col (plain t) := by
  rw [plain, inColour_styled]; exact fun h => nomatch h.1

theorem inColour_bold {col : Colour} {t : Text} : ¬ InColour col (bold t) := by
  rw [bold, inColour_styled]; exact fun h => nomatch h.1

theorem inColour_heading {col : Colour} (hc : col ≠ .cyan) {t : String} : ¬ InColour col (heading t) := by
  rw [heading, inColour_styled]
  exact fun h => hc (Option.some.inj h.1).symm

theorem coloured_nil {col : Colour} : ¬ ColouredLines col [] := fun ⟨_, h, _⟩ => nomatch h

theorem coloured_append {col : Colour} {a b : List Line} :
    ColouredLines col (a ++ b) ↔ ColouredLines col a ∨ ColouredLines col b := by
  simp only [ColouredLines, List.mem_append, or_and_right, exists_or]

theorem coloured_cons {col : Colour} {l : Line} {b : List Line} :
    ColouredLines col (l :: b) ↔ InColour col l.cells ∨ ColouredLines col b := by
  simp only [ColouredLines, List.mem_cons, or_and_right, exists_or, exists_eq_left]

theorem coloured_deeper {col : Colour} {ls : List Line} : ColouredLines col (deeper ls) ↔ ColouredLines col ls := by
  simp only [ColouredLines, deeper, List.mem_map]
  constructor
  · rintro ⟨_, ⟨l, hl, rfl⟩, h⟩; exact ⟨l, hl, h⟩
  · rintro ⟨l, hl, h⟩; exact ⟨_, ⟨l, hl, rfl⟩, h⟩

theorem coloured_show {col : Colour} (base : Nat) (ls : List Line) :
    InColour col (showLines base ls) ↔ ColouredLines col ls := by
  induction ls with
  | nil => exact ⟨(fun ⟨_, h, _⟩ => nomatch h), fun h => absurd h coloured_nil⟩
  | cons l ls ih =>
    rw [showLines, List.flatMap_cons, inColour_append, coloured_cons, ← showLines, ih]
    refine or_congr_left ?_
    rw [Line.render]
    split
    · rw [inColour_append]
      exact ⟨fun h => h.resolve_left inColour_plain, Or.inr⟩
    · exact Iff.rfl

theorem coloured_title {col : Colour} (hc : col ≠ .cyan) {t : String} {ls : List Line} :
    ColouredLines col (title t :: ls) ↔ ColouredLines col ls := by
  rw [coloured_cons]
  exact ⟨fun h => h.resolve_left (inColour_heading hc), Or.inr⟩

theorem coloured_entry {col : Colour} (hc : col ≠ .cyan) {t : String} {r : Text} {ls : List Line} :
    ColouredLines col (Spec.entry t r :: ls) ↔ ColouredLines col ls := by
  rw [coloured_cons]
  refine ⟨fun h => h.resolve_left ?_, Or.inr⟩
  show ¬ InColour col (_ ++ _)
  rw [inColour_append]
  exact fun h => h.elim (inColour_heading hc) inColour_plain

theorem coloured_textLine {col : Colour} {t : Text} {ls : List Line} :
    ColouredLines col (textLine t :: ls) ↔ ColouredLines col ls := by
  rw [coloured_cons]
  exact ⟨fun h => h.resolve_left inColour_plain, Or.inr⟩

theorem coloured_boldLine {col : Colour} {t : Text} {ls : List Line} :
    ColouredLines col (line (bold t) :: ls) ↔ ColouredLines col ls := by
  rw [coloured_cons]
  exact ⟨fun h => h.resolve_left inColour_bold, Or.inr⟩

theorem coloured_map_text {col : Colour} {α : Type} (f : α → Text) (xs : List α) :
    ¬ ColouredLines col (xs.map (fun x => textLine (f x))) := by
  rintro ⟨l, hl, h⟩
  obtain ⟨x, -, rfl⟩ := List.mem_map.1 hl
  exact inColour_plain h

/-! ### Drawings -/

/-- The colours of errors and warnings. -/
def ColourOf (sev : Severity) (col : Colour) : Prop := (sev = .error ∧ col = .red) ∨ (sev = .warning ∧ col = .yellow)

theorem ColourOf.notCyan {sev : Severity} {col : Colour} (h : ColourOf sev col) : col ≠ .cyan := by
  rcases h with ⟨-, rfl⟩ | ⟨-, rfl⟩ <;> exact Colour.noConfusion

theorem ColourOf.notNormal {sev : Severity} {col : Colour} (h : ColourOf sev col) : sev ≠ .normal := by
  rcases h with ⟨rfl, -⟩ | ⟨rfl, -⟩ <;> exact Severity.noConfusion

theorem ColourOf.style {sev : Severity} {col : Colour} (h : ColourOf sev col) (s : Severity) :
    (severityStyle s).fg = some col ↔ s = sev := by
  rcases h with ⟨rfl, rfl⟩ | ⟨rfl, rfl⟩ <;> cases s <;> simp [severityStyle]

theorem coloured_drawing {sev : Severity} {col : Colour} (h : ColourOf sev col) (bytes : List Byte) (rs : List Annotation)
    (colours : Bool) :
    ColouredLines col (drawingLines bytes rs colours) ↔ colours = true ∧ ∃ r ∈ rs, r.severity = sev := by
  rw [drawingLines, List.append_assoc, List.singleton_append, coloured_boldLine, coloured_append]
  have h1 : ¬ ColouredLines col (if rs.any (fun r => r.width ≠ 1) then [textLine (header bytes.length rs)] else []) := by
    split
    · rw [coloured_textLine]; exact coloured_nil
    · exact coloured_nil
  constructor
  · intro hh
    obtain ⟨l, hl, hx⟩ := hh.resolve_left h1
    obtain ⟨r, hr, rfl⟩ := List.mem_map.1 hl
    replace hx : InColour col (_ ++ _) := hx
    rw [inColour_append] at hx
    have hx := (inColour_styled.1 (hx.resolve_left inColour_plain)).1
    cases colours with
    | false => cases hx
    | true => exact ⟨rfl, r, List.mem_reverse.1 hr, (h.style _).1 hx⟩
  · rintro ⟨rfl, r, hr, hs⟩
    refine Or.inr ⟨_, List.mem_map.2 ⟨r, List.mem_reverse.2 hr, rfl⟩, ?_⟩
    show InColour col (_ ++ _)
    rw [inColour_append]
    exact Or.inr (inColour_styled.2 ⟨(h.style _).2 hs, by simp⟩)

/-- The severity in a table of labels. -/
def severityIn (labels : List (String × Severity × String)) (t : Item) : Severity :=
  match labels.lookup t.name with
  | some (s, _) => s
  | none => .normal

theorem annotation_severity (labels : List (String × Severity × String)) (n : Nat) (bs : List Byte) (t : Item) :
    (t.annotation labels n bs).severity = severityIn labels t := by
  rw [Item.annotation, severityIn]
  cases labels.lookup t.name with
  | none => rfl
  | some x => rfl

/-- The alarming items of a table are flags at these places. -/
def AlarmTable (labels : List (String × Severity × String)) (items : List Item) (sev : Severity) (ps : List (Nat × Nat)) :
    Prop :=
  (items.filter (fun t => decide (severityIn labels t = sev))).map (fun t => (t.kind, t.byte, t.hi, t.lo)) =
    ps.map (fun p => (Kind.flag, p.1, p.2, p.2))

theorem bits_single (b : Byte) (j : Nat) : bits b j j = 1 ↔ bits b j j ≠ 0 := by
  unfold bits
  rw [show j + 1 - j = 1 by omega]
  omega

theorem annotations_alarm {labels : List (String × Severity × String)} {items : List Item} {sev : Severity}
    {ps : List (Nat × Nat)} (ht : AlarmTable labels items sev ps) (bs : List Byte) :
    (∃ r ∈ annotations labels items bs, r.severity = sev) ↔ ∃ p ∈ ps, BitSet bs p := by
  have key : ∀ (is : List Item) (ps : List (Nat × Nat)),
      is.map (fun t => (t.kind, t.byte, t.hi, t.lo)) = ps.map (fun p => (Kind.flag, p.1, p.2, p.2)) →
      ((∃ t ∈ is, ¬ (t.kind = .flag ∧ t.bitsOf bs = 0)) ↔ ∃ p ∈ ps, BitSet bs p) := by
    intro is
    induction is with
    | nil =>
      intro ps h
      cases ps with
      | nil => simp
      | cons p ps => cases h
    | cons t is ih =>
      intro ps h
      cases ps with
      | nil => cases h
      | cons p ps =>
        rw [List.map_cons, List.map_cons] at h
        injection h with h1 h2
        simp only [List.mem_cons, or_and_right, exists_or, exists_eq_left, ih ps h2]
        refine or_congr_left ?_
        injection h1 with k1 h1
        injection h1 with k2 h1
        injection h1 with k3 k4
        rw [BitSet, bits_single, Item.bitsOf, k1, k2, k3, k4]
        simp
  rw [← key _ _ ht]
  constructor
  · rintro ⟨r, hr, hs⟩
    obtain ⟨t, ht, rfl⟩ := List.mem_map.1 hr
    rw [annotation_severity] at hs
    obtain ⟨h1, h2⟩ := List.mem_filter.1 ht
    refine ⟨t, List.mem_filter.2 ⟨h1, by simpa using hs⟩, ?_⟩
    rintro ⟨h3, h4⟩
    simp [h3, h4] at h2
  · rintro ⟨t, ht, hn⟩
    obtain ⟨h1, h2⟩ := List.mem_filter.1 ht
    refine ⟨_, List.mem_map.2 ⟨t, List.mem_filter.2 ⟨h1, ?_⟩, rfl⟩, ?_⟩
    · simp only [Bool.not_eq_true', Bool.and_eq_false_iff, beq_eq_false_iff_ne]
      by_cases hk : t.kind = .flag
      · exact Or.inr (fun h0 => hn ⟨hk, h0⟩)
      · exact Or.inl hk
    · rw [annotation_severity]; simpa using h2

theorem tvr_alarms {sev : Severity} {col : Colour} (h : ColourOf sev col) :
    AlarmTable tvrLabels tvrItems sev (tvrAlarms sev) := by
  rcases h with ⟨rfl, -⟩ | ⟨rfl, -⟩ <;> (unfold AlarmTable; decide +kernel)

theorem cvr_alarms {sev : Severity} {col : Colour} (h : ColourOf sev col) :
    AlarmTable cvrLabels cvrItems sev (cvrAlarms sev) := by
  rcases h with ⟨rfl, -⟩ | ⟨rfl, -⟩ <;> (unfold AlarmTable; decide +kernel)

theorem calm_tables {sev : Severity} {col : Colour} (h : ColourOf sev col) :
    AlarmTable tsiLabels tsiItems sev [] ∧ AlarmTable cciLabels cciItems sev [] ∧
    AlarmTable terminalCapabilitiesLabels terminalCapabilitiesItems sev [] ∧
    AlarmTable additionalTerminalCapabilitiesLabels additionalTerminalCapabilitiesItems sev [] ∧
    AlarmTable cvmResultsLabels cvmResultsItems sev [] := by
  rcases h with ⟨rfl, -⟩ | ⟨rfl, -⟩ <;> refine ⟨?_, ?_, ?_, ?_, ?_⟩ <;> (unfold AlarmTable; decide +kernel)

theorem coloured_bits {sev : Severity} {col : Colour} (h : ColourOf sev col)
    {labels : List (String × Severity × String)} {items : List Item} {ps : List (Nat × Nat)}
    (ht : AlarmTable labels items sev ps) (bs : List Byte) (colours : Bool) :
    ColouredLines col (bitLines items labels bs colours) ↔ colours = true ∧ ∃ p ∈ ps, BitSet bs p := by
  rw [bitLines, coloured_drawing h, annotations_alarm ht]

theorem coloured_calm {sev : Severity} {col : Colour} (h : ColourOf sev col)
    {labels : List (String × Severity × String)} {items : List Item}
    (ht : AlarmTable labels items sev []) (bs : List Byte) (colours : Bool) :
    ¬ ColouredLines col (bitLines items labels bs colours) := by
  rw [coloured_bits h ht]
  rintro ⟨-, p, hp, -⟩
  cases hp

theorem coloured_cvmResults {sev : Severity} {col : Colour} (h : ColourOf sev col) (a b c : Byte) :
    ColouredLines col (cvmResultsLines [a, b, c] true) ↔ sev = .error ∧ c = 1 := by
  rw [cvmResultsLines, coloured_drawing h, cvmResultsAnnotations]
  have calm := (annotations_alarm (calm_tables h).2.2.2.2 [a, b, c])
  have hno : ¬ ∃ r ∈ annotations cvmResultsLabels cvmResultsItems [a, b, c], r.severity = sev := by
    rw [calm]; rintro ⟨p, hp, -⟩; cases hp
  constructor
  · rintro ⟨-, r, hr, hs⟩
    obtain ⟨x, hx, rfl⟩ := List.mem_map.1 hr
    by_cases hc : x.left = 7 ∧ ([a, b, c] : List Byte).getD 2 0 = 1
    · rw [if_pos hc] at hs
      exact ⟨hs.symm, hc.2⟩
    · rw [if_neg hc] at hs
      exact absurd ⟨x, hx, hs⟩ hno
  · rintro ⟨rfl, rfl⟩
    refine ⟨rfl, _, List.mem_map.2 ⟨Item.annotation cvmResultsLabels 3 [a, b, 1]
      ⟨"result", 3, 8, 1, .code [(0, "Unknown"), (1, "Failed"), (2, "Successful")]⟩, ?_, rfl⟩, ?_⟩
    · refine List.mem_map.2 ⟨_, List.mem_filter.2 ⟨?_, rfl⟩, rfl⟩
      decide +kernel
    · rw [if_pos ⟨rfl, rfl⟩]

theorem coloured_rows {col : Colour} (bs : List Byte) : ¬ ColouredLines col (dump bs) := coloured_map_text _ _

theorem coloured_textRows {col : Colour} (bs : List Byte) : ¬ ColouredLines col (dumpWithText bs) := coloured_map_text _ _

theorem coloured_iad {sev : Severity} {col : Colour} (h : ColourOf sev col) (bs : List Byte) :
    ColouredLines col (iadLines bs true) ↔ ∃ p ∈ cvrAlarms sev, BitSet (cvrOf bs) p := by
  have hn := h.notCyan
  have e : iadLines bs true = title "Common Core Identifier:" ::
      (deeper (bitLines cciItems cciLabels ((bs.drop 1).take 1) true) ++
      (Spec.entry "Derivation Key Index:" (" 0x".toList ++ hexPair (bs.getD 2 0)) :: title "Card Verification Results:" ::
      (deeper (bitLines cvrItems cvrLabels ((bs.drop 3).take 5) true) ++
      (title "Counters: (Payment System-Specific)" :: (deeper (dump ((bs.drop 8).take 8)) ++
      (title "Issuer-Discretionary Data" :: deeper (dump (bs.drop 17)))))))) := by
    simp only [iadLines, List.append_assoc, List.cons_append, List.nil_append]
  rw [e, coloured_title hn, coloured_append, coloured_entry hn, coloured_title hn, coloured_append, coloured_title hn,
    coloured_append, coloured_title hn, coloured_deeper, coloured_deeper, coloured_deeper, coloured_deeper,
    coloured_bits h (cvr_alarms h)]
  constructor
  · rintro (h1 | h1 | h1 | h1)
    · exact absurd h1 (coloured_calm h (calm_tables h).2.1 _ _)
    · exact h1.2
    · exact absurd h1 (coloured_rows _)
    · exact absurd h1 (coloured_rows _)
  · exact fun h1 => Or.inr (Or.inl ⟨rfl, h1⟩)

theorem coloured_aspect {col : Colour} {a b c : String} {ls : List Line} :
    ColouredLines col (aspect a b c :: ls) ↔ ColouredLines col ls := by
  rw [coloured_cons]
  refine ⟨fun h => h.resolve_left ?_, Or.inr⟩
  show ¬ InColour col (_ ++ _ ++ _)
  rw [inColour_append, inColour_append]
  rintro ((h | h) | h)
  · exact inColour_plain h
  · exact inColour_bold h
  · exact inColour_plain h

theorem coloured_ruleAspect {col : Colour} {a b : String} {ls : List Line} :
    ColouredLines col (ruleAspect a b :: ls) ↔ ColouredLines col ls := by
  rw [coloured_cons]
  refine ⟨fun h => h.resolve_left ?_, Or.inr⟩
  show ¬ InColour col (_ ++ _)
  rw [inColour_append]
  rintro (h | h)
  · exact inColour_bold h
  · exact inColour_plain h

theorem coloured_serviceCode {col : Colour} (a b c : Nat) : ¬ ColouredLines col (serviceCodeLines a b c) := by
  rw [serviceCodeLines, coloured_boldLine, coloured_aspect, coloured_aspect, coloured_aspect, coloured_aspect,
    coloured_aspect]
  exact coloured_nil

theorem coloured_cvmList {col : Colour} (hn : col ≠ .cyan) (bs : List Byte) : ¬ ColouredLines col (cvmListLines bs) := by
  rw [cvmListLines, List.append_assoc, List.singleton_append]
  show ¬ ColouredLines col (_ ++ _)
  rw [coloured_append, coloured_title hn]
  rintro (h | ⟨l, hl, h⟩)
  · split at h
    · rw [coloured_entry hn, coloured_entry hn] at h
      exact coloured_nil h
    · exact coloured_nil h
  · obtain ⟨p, -, hp⟩ := List.mem_flatMap.1 hl
    have h' : ColouredLines col (ruleLines p.2 p.1) := ⟨l, hp, h⟩
    rw [ruleLines, coloured_boldLine, coloured_ruleAspect, coloured_ruleAspect, coloured_ruleAspect] at h'
    exact coloured_nil h'

theorem coloured_tagName {col : Colour} (hn : col ≠ .cyan) {a : String} {b c d : Text} {ls : List Line} :
    ColouredLines col (line (heading a ++ plain b ++ bold c ++ plain d) :: ls) ↔ ColouredLines col ls := by
  rw [coloured_cons]
  refine ⟨fun h => h.resolve_left ?_, Or.inr⟩
  show ¬ InColour col (_ ++ _ ++ _ ++ _)
  rw [inColour_append, inColour_append, inColour_append]
  rintro (((h | h) | h) | h)
  · exact inColour_heading hn h
  · exact inColour_plain h
  · exact inColour_bold h
  · exact inColour_plain h

theorem coloured_identify {col : Colour} (hn : col ≠ .cyan) (tag : List Byte) : ¬ ColouredLines col (identifyLines tag) := by
  rw [identifyLines, coloured_entry hn, coloured_tagName hn, coloured_entry hn, coloured_entry hn]
  exact coloured_nil

/-! ### Blocks -/

theorem coloured_optionText {col : Colour} {α : Type} (o : Option α) (f : α → Text) {ls : List Line}
    (h : o.map (fun t => [textLine (f t)]) = some ls) : ¬ ColouredLines col ls := by
  cases o with
  | none => cases h
  | some x =>
    cases h
    rw [coloured_textLine]
    exact coloured_nil

theorem coloured_value {sev : Severity} {col : Colour} (h : ColourOf sev col) (tag d : List Byte) (ha : Acceptable tag d) :
    (∃ ls, valueLines true tag d = some ls ∧ ColouredLines col ls) ↔ Alarms sev tag d := by
  have hn := h.notCyan
  have hiac : ∀ kind, ¬ ColouredLines col (iacLines kind d) := by
    intro kind
    rw [iacLines, coloured_title hn, coloured_bits h (tvr_alarms h)]
    exact fun h => nomatch h.1
  have none : ∀ (o : Option (List Line)), tag ≠ [0x95] → tag ≠ [0x9F, 0x10] → tag ≠ [0x9F, 0x34] →
      (∀ ls, o = some ls → ¬ ColouredLines col ls) → ((∃ ls, o = some ls ∧ ColouredLines col ls) ↔ Alarms sev tag d) := by
    intro o h1 h2 h3 h4
    constructor
    · rintro ⟨ls, h5, h6⟩
      exact absurd h6 (h4 _ h5)
    · rintro (⟨h5, -⟩ | ⟨h5, -⟩ | ⟨h5, -⟩)
      · exact absurd h5 h1
      · exact absurd h5 h2
      · exact absurd h5 h3
  have one : ∀ {ls : List Line}, ¬ ColouredLines col ls → ∀ ls', some ls = some ls' → ¬ ColouredLines col ls' := by
    intro ls h1 ls' h2
    cases h2
    exact h1
  unfold valueLines
  by_cases c : tag = [0x5F, 0x30]
  · rw [if_pos c]
    subst c
    exact none _ (by decide) (by decide) (by decide) (one (coloured_serviceCode _ _ _))
  rw [if_neg c]
  clear c
  by_cases c : tag = [0x8A]
  · rw [if_pos c]
    subst c
    exact none _ (by decide) (by decide) (by decide) (fun ls => coloured_optionText _ String.toList)
  rw [if_neg c]
  clear c
  by_cases c : tag = [0x8E]
  · rw [if_pos c]
    subst c
    exact none _ (by decide) (by decide) (by decide) (one (coloured_cvmList hn _))
  rw [if_neg c]
  clear c
  by_cases c95 : tag = [0x95]
  · rw [if_pos c95]
    subst c95
    constructor
    · rintro ⟨ls, h1, h2⟩
      cases h1
      rw [coloured_bits h (tvr_alarms h)] at h2
      exact Or.inl ⟨rfl, h2.2⟩
    · rintro (⟨-, h1⟩ | ⟨h1, -⟩ | ⟨h1, -⟩)
      · exact ⟨_, rfl, (coloured_bits h (tvr_alarms h) _ _).2 ⟨rfl, h1⟩⟩
      · cases h1
      · cases h1
  rw [if_neg c95]
  by_cases c : tag = [0x9B]
  · rw [if_pos c]
    subst c
    exact none _ (by decide) (by decide) (by decide) (one (coloured_calm h (calm_tables h).1 _ _))
  rw [if_neg c]
  clear c
  by_cases c : tag = [0x9C]
  · rw [if_pos c]
    subst c
    exact none _ (by decide) (by decide) (by decide) (fun ls => coloured_optionText _ String.toList)
  rw [if_neg c]
  clear c
  by_cases c : tag = [0x9F, 0x0D]
  · rw [if_pos c]
    subst c
    exact none _ (by decide) (by decide) (by decide) (one (hiac _))
  rw [if_neg c]
  clear c
  by_cases c : tag = [0x9F, 0x0E]
  · rw [if_pos c]
    subst c
    exact none _ (by decide) (by decide) (by decide) (one (hiac _))
  rw [if_neg c]
  clear c
  by_cases c : tag = [0x9F, 0x0F]
  · rw [if_pos c]
    subst c
    exact none _ (by decide) (by decide) (by decide) (one (hiac _))
  rw [if_neg c]
  clear c
  by_cases c9F10 : tag = [0x9F, 0x10]
  · rw [if_pos c9F10]
    subst c9F10
    constructor
    · rintro ⟨ls, h1, h2⟩
      split at h1
      · rename_i hf
        cases h1
        rw [coloured_iad h] at h2
        exact Or.inr (Or.inl ⟨rfl, hf, h2⟩)
      · cases h1
    · rintro (⟨h1, -⟩ | ⟨-, h1, h2⟩ | ⟨h1, -⟩)
      · cases h1
      · exact ⟨_, if_pos h1, (coloured_iad h _).2 h2⟩
      · cases h1
  rw [if_neg c9F10]
  by_cases c : tag = [0x9F, 0x33]
  · rw [if_pos c]
    subst c
    exact none _ (by decide) (by decide) (by decide) (one (coloured_calm h (calm_tables h).2.2.1 _ _))
  rw [if_neg c]
  clear c
  by_cases c9F34 : tag = [0x9F, 0x34]
  · rw [if_pos c9F34]
    obtain ⟨a, b, c, rfl, -⟩ := ha.h9F34 c9F34
    subst c9F34
    constructor
    · rintro ⟨ls, h1, h2⟩
      cases h1
      rw [coloured_cvmResults h] at h2
      exact Or.inr (Or.inr ⟨rfl, h2.1, h2.2⟩)
    · rintro (⟨h1, -⟩ | ⟨h1, -⟩ | ⟨-, h1, h2⟩)
      · cases h1
      · cases h1
      · exact ⟨_, rfl, (coloured_cvmResults h _ _ _).2 ⟨h1, h2⟩⟩
  rw [if_neg c9F34]
  by_cases c : tag = [0x9F, 0x35]
  · rw [if_pos c]
    subst c
    exact none _ (by decide) (by decide) (by decide) (fun ls => coloured_optionText _ String.toList)
  rw [if_neg c]
  clear c
  by_cases c : tag = [0x9F, 0x39]
  · rw [if_pos c]
    subst c
    exact none _ (by decide) (by decide) (by decide) (fun ls => coloured_optionText _ String.toList)
  rw [if_neg c]
  clear c
  by_cases c : tag = [0x9F, 0x40]
  · rw [if_pos c]
    subst c
    exact none _ (by decide) (by decide) (by decide) (one (coloured_calm h (calm_tables h).2.2.2.1 _ _))
  rw [if_neg c]
  clear c
  exact none _ c95 c9F10 c9F34 (fun _ h => nomatch h)

/-- The value of a tag reports this. -/
def TagAlarms (sev : Severity) (t : RawEmvTag) : Prop := ∃ d, t.data = .normal d ∧ Alarms sev t.tag d

theorem coloured_tag {sev : Severity} {col : Colour} (h : ColourOf sev col) (t : RawEmvTag)
    (ha : ∀ d, t.data = .normal d → Acceptable t.tag d) :
    ColouredLines col ([tagLine t] ++ rawLines t.data ++ parsedLines true t) ↔ TagAlarms sev t := by
  have hn := h.notCyan
  rw [List.append_assoc, List.singleton_append, tagLine, coloured_tagName hn, coloured_append]
  have hraw : ¬ ColouredLines col (rawLines t.data) := by
    unfold rawLines
    split
    · rw [coloured_title hn]; exact coloured_nil
    · exact coloured_nil
    · rw [coloured_title hn, coloured_deeper]; exact coloured_textRows _
  rw [TagAlarms, parsedLines]
  cases hd : t.data with
  | masked =>
    constructor
    · rintro (h1 | h1)
      · exact absurd (hd ▸ h1) hraw
      · exact absurd h1 coloured_nil
    · rintro ⟨d, h1, -⟩
      cases h1
  | normal d =>
    rw [← hd]
    have := coloured_value h t.tag d (ha d hd)
    constructor
    · rintro (h1 | h1)
      · exact absurd h1 hraw
      · rw [hd] at h1
        refine ⟨d, hd, this.1 ?_⟩
        cases hv : valueLines true t.tag d with
        | none => simp only [hv] at h1; exact absurd h1 coloured_nil
        | some ls =>
          simp only [hv] at h1
          rw [coloured_title hn, coloured_deeper] at h1
          exact ⟨ls, rfl, h1⟩
    · rintro ⟨d', h1, h2⟩
      rw [hd] at h1
      cases h1
      obtain ⟨ls, h3, h4⟩ := this.2 h2
      refine Or.inr ?_
      rw [hd]
      simp only [h3]
      rw [coloured_title hn, coloured_deeper]
      exact h4

mutual
theorem coloured_node {sev : Severity} {col : Colour} (h : ColourOf sev col) : ∀ n : RawEmvNode,
    (∀ t ∈ nodeTags n, ∀ d, t.data = .normal d → Acceptable t.tag d) →
    (ColouredLines col (nodeLines true n) ↔ ∃ t ∈ nodeTags n, TagAlarms sev t)
  | .mk t [] => by
    intro ha
    rw [nodeLines, nodeTags, blockTags]
    show ColouredLines col (_ ++ []) ↔ _
    rw [List.append_nil, coloured_tag h t (ha t (by rw [nodeTags]; exact List.mem_cons_self))]
    simp
  | .mk t (c :: cs) => by
    intro ha
    rw [nodeTags] at ha
    have ht := ha t List.mem_cons_self
    have hc := coloured_node h c (fun x hx => ha x (List.mem_cons_of_mem _ (by rw [blockTags]; exact List.mem_append_left _ hx)))
    have hm := coloured_more h cs
      (fun x hx => ha x (List.mem_cons_of_mem _ (by rw [blockTags]; exact List.mem_append_right _ hx)))
    rw [nodeLines, nodeTags, blockTags]
    show ColouredLines col (_ ++ title _ :: deeper (_ ++ _)) ↔ _
    rw [coloured_append, coloured_tag h t ht, coloured_title h.notCyan, coloured_deeper, coloured_append, hc, hm]
    simp only [List.mem_cons, List.mem_append, or_and_right, exists_or, exists_eq_left]
theorem coloured_more {sev : Severity} {col : Colour} (h : ColourOf sev col) : ∀ b : List RawEmvNode,
    (∀ t ∈ blockTags b, ∀ d, t.data = .normal d → Acceptable t.tag d) →
    (ColouredLines col (moreLines true b) ↔ ∃ t ∈ blockTags b, TagAlarms sev t)
  | [] => by
    intro _
    rw [moreLines, blockTags]
    exact ⟨fun h => absurd h coloured_nil, (fun ⟨_, h, _⟩ => nomatch h)⟩
  | n :: ns => by
    intro ha
    rw [blockTags] at ha
    have hn := coloured_node h n (fun x hx => ha x (List.mem_append_left _ hx))
    have hm := coloured_more h ns (fun x hx => ha x (List.mem_append_right _ hx))
    rw [moreLines, blockTags, List.append_assoc, List.singleton_append, coloured_cons, coloured_append, hn, hm]
    simp only [List.mem_append, or_and_right, exists_or]
    exact ⟨fun h => h.resolve_left inColour_plain, Or.inr⟩
end

theorem coloured_block {sev : Severity} {col : Colour} (h : ColourOf sev col) (b : List RawEmvNode) (ha : AllAcceptable b) :
    ColouredLines col (blockLines true b) ↔ ∃ t ∈ blockTags b, TagAlarms sev t := by
  cases b with
  | nil =>
    rw [blockLines, blockTags]
    exact ⟨fun h => absurd h coloured_nil, (fun ⟨_, h, _⟩ => nomatch h)⟩
  | cons n ns =>
    rw [AllAcceptable, blockTags] at ha
    rw [blockLines, blockTags, coloured_append, coloured_node h n (fun x hx => ha x (List.mem_append_left _ hx)),
      coloured_more h ns (fun x hx => ha x (List.mem_append_right _ hx))]
    simp only [List.mem_append, or_and_right, exists_or]

/-! ### Answers -/

theorem coloured_hexReport {sev : Severity} {col : Colour} (h : ColourOf sev col) (masks : List Char) {op : Operation}
    (hop : op ∈ hexOperations) (s : Text) {ls : List Line} (hr : hexReport op (hexBytes s) = .ok ls) :
    ColouredLines col ls ↔ Alarming masks sev op s := by
  have hn := h.notCyan
  have five : ∀ {items : List Item} {labels : List (String × Severity × String)} {ps : List (Nat × Nat)} {k : Nat} {msg : Text},
      AlarmTable labels items sev ps →
      (if (hexBytes s).length = k then Except.ok (bitLines items labels (hexBytes s) true) else .error msg) =
        (.ok ls : Except Text (List Line)) →
      (ColouredLines col ls ↔ ∃ p ∈ ps, BitSet (hexBytes s) p) := by
    intro items labels ps k msg ht he
    split at he
    · cases he
      rw [coloured_bits h ht]
      simp
    · cases he
  simp only [hexOperations, List.mem_cons, List.not_mem_nil, or_false] at hop
  rcases hop with rfl | rfl | rfl | rfl | rfl | rfl | rfl
  · exact five (tvr_alarms h) hr
  · simp only [hexReport] at hr
    split at hr
    · cases hr
      exact coloured_iad h _
    · cases hr
  · exact five (cvr_alarms h) hr
  · refine (five (calm_tables h).1 hr).trans ⟨?_, False.elim⟩
    rintro ⟨p, hp, -⟩
    cases hp
  · simp only [hexReport] at hr
    split at hr
    · cases hr
    · rename_i hl
      split at hr
      · cases hr
      · cases hr
        replace hl := Decidable.of_not_not hl
        rw [Alarming]
        match hexBytes s, hl with
        | [a, b, c], _ => exact coloured_cvmResults h a b c
  · simp only [hexReport] at hr
    split at hr
    · cases hr
    · split at hr
      · cases hr
      · cases hr
        exact ⟨fun h => absurd h (coloured_cvmList hn _), False.elim⟩
  · simp only [hexReport] at hr
    split at hr
    · cases hr
    · cases hr
      exact ⟨fun h => absurd h (coloured_identify hn _), False.elim⟩

theorem coloured_told {col : Colour} (hn : col ≠ .cyan) (f : Option String) : ¬ ColouredLines col (formatTold f) := by
  cases f with
  | none => exact coloured_nil
  | some f =>
    rw [formatTold, formatLines, coloured_cons, coloured_cons]
    rintro (h | h | h)
    · replace h : InColour col (_ ++ _) := h
      rw [inColour_append] at h
      exact h.elim (inColour_heading hn) inColour_plain
    · exact inColour_plain h
    · exact coloured_nil h

theorem alarming_block {masks : List Char} {sev : Severity} {op : Operation} {s : Text} {f : Option String}
    {b : List RawEmvNode} (hb : BlockReads masks op s (.ok (f, b))) :
    Alarming masks sev op s ↔ ∃ t ∈ blockTags b, TagAlarms sev t := by
  have key : (∃ f b, BlockReads masks op s (.ok (f, b)) ∧ ∃ t ∈ blockTags b, TagAlarms sev t) ↔
      ∃ t ∈ blockTags b, TagAlarms sev t := by
    constructor
    · rintro ⟨f', b', hb', h⟩
      have := blockReads_unique hb' hb
      cases this
      exact h
    · exact fun h => ⟨f, b, hb, h⟩
  cases hb <;> exact key

theorem coloured_answer {sev : Severity} {col : Colour} (h : ColourOf sev col) {masks : List Char} {sort : Bool}
    {op : Operation} {s : Text} {ls : List Line} (ha : Answer masks sort op s (.ok ls)) :
    ColouredLines col ls ↔ Alarming masks sev op s := by
  generalize hr : (Except.ok ls : Except Text (List Line)) = rep at ha
  cases ha with
  | hex _ hop => exact coloured_hexReport h masks hop s hr.symm
  | serviceCode _ _ =>
    cases hr
    exact ⟨fun h => absurd h (coloured_serviceCode _ _ _), False.elim⟩
  | noServiceCode _ => cases hr
  | @block _ _ f b b' hb hacc ho =>
    cases hr
    have hp := arranged_tags ho
    rw [coloured_append, coloured_block h b' (fun t ht => hacc t (hp.mem_iff.1 ht)), alarming_block hb]
    simp only [hp.mem_iff]
    exact ⟨fun h' => h'.resolve_left (coloured_told h.notCyan f), Or.inr⟩
  | fault _ _ => cases hr
  | unreadable _ => cases hr

end Pemv
