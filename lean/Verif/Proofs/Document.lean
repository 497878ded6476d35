import Verif.Spec.Document
import Verif.Proofs.Labels
import Verif.Proofs.Process
import Verif.Proofs.Sort
import Verif.Props.Drawing

/-!
# What is shown
-/

namespace Pemv

open Spec

/-! ### Documents -/

theorem render_nil (i : Nat) : showLines i [] = [] := rfl

theorem render_cons (i : Nat) (l : Line) (ls : List Line) : showLines i (l :: ls) = l.render i ++ showLines i ls := by
  simp [showLines]

theorem render_append (i : Nat) (a b : List Line) : showLines i (a ++ b) = showLines i a ++ showLines i b := by
  simp [showLines]

/-- Indentations that fit into a byte. -/
class Small (i : Nat) : Prop where
  lt : i < 256

instance : Small 0 := ⟨by omega⟩
instance (i : Nat) : Small (i % 256) := ⟨by omega⟩

/-- One level deeper is possible: the indentation still fits, or arithmetic wraps around. -/
def Steps (m : Machine) (i : Nat) : Prop := i < 255 ∨ m.overflowChecks = false

theorem render_deeper (i : Nat) (ls : List Line) :
    showLines i (deeper ls) = showLines ((i + 1) % 256) ls := by
  induction ls with
  | nil => rfl
  | cons l ls ih =>
    have h : showLines i (deeper (l :: ls)) = ({ l with indent := l.indent.map (· + 1) } : Line).render i ++
        showLines i (deeper ls) := render_cons _ _ _
    rw [h, ih, render_cons]
    congr 1
    obtain ⟨k, c⟩ := l
    cases k with
    | none => rfl
    | some k => simp only [Line.render, Option.map_some]; rw [show (i + (k + 1)) % 256 = ((i + 1) % 256 + k) % 256 by omega]

theorem render_line (i : Nat) [h : Small i] (c : Cells) : (line c).render i = plain (tabs i) ++ c := by
  show plain (tabs ((i + 0) % 256)) ++ c = _
  rw [Nat.add_zero, Nat.mod_eq_of_lt h.lt]

/-- One routine after the other. -/
theorem lines_seq {d : Disp} {ds : List Disp} {i : Nat} {a b : List Line} (h : Shows d (showLines i a))
    (hs : Shows (.all ds) (showLines i b)) : Shows (.all (d :: ds)) (showLines i (a ++ b)) := by
  rw [render_append]; exact h.cons hs

theorem lines_last {d : Disp} {i : Nat} {a : List Line} (h : Shows d (showLines i a)) :
    Shows (.all [d]) (showLines i a) := by
  have := h.cons shows_all_nil
  rwa [List.append_nil] at this

theorem lines_nil (i : Nat) : Shows (.all []) (showLines i []) := shows_all_nil

theorem lines_skip {ds : List Disp} {c : Cells} (hs : Shows (.all ds) c) : Shows (.all (.nil :: ds)) c :=
  shows_nil.cons hs

/-- A heading on its own line. -/
theorem lines_title {t : String} {ds : List Disp} {i : Nat} [Small i] {ls : List Line}
    (h : Shows (.all ds) (showLines i ls)) :
    Shows (.all (printIndentation i :: .color headerSpec :: .println t.toList :: .reset :: ds))
      (showLines i (title t :: ls)) := by
  rw [render_cons]
  have e : (title t).render i = plain (tabs i) ++ styled headerSpec (t.toList ++ ['\n']) := by
    rw [title, render_line, heading, String.toList_append]; rfl
  rw [e, List.append_assoc]
  exact (shows_indent i).cons (shows_coloured_ln _ _ _ _ h)

/-- A heading followed by text. -/
theorem lines_entry {t : String} {r : Text} {ds : List Disp} {i : Nat} [Small i] {ls : List Line}
    (h : Shows (.all ds) (showLines i ls)) :
    Shows (.all (printIndentation i :: .color headerSpec :: .print t.toList :: .reset :: .println r :: ds))
      (showLines i (entry t r :: ls)) := by
  rw [render_cons]
  have e : (entry t r).render i = plain (tabs i) ++ (styled headerSpec t.toList ++ plain (r ++ ['\n'])) := by
    rw [entry, render_line, heading]; rfl
  rw [e, List.append_assoc, List.append_assoc]
  exact (shows_indent i).cons (shows_coloured _ _ _ _ ((shows_println _).cons h))

/-- A bold line. -/
theorem lines_bold {t : Text} {ds : List Disp} {i : Nat} [Small i] {ls : List Line}
    (h : Shows (.all ds) (showLines i ls)) :
    Shows (.all (printIndentation i :: .color boldSpec :: .println t :: .reset :: ds))
      (showLines i (line (bold (t ++ ['\n'])) :: ls)) := by
  rw [render_cons, render_line, List.append_assoc]
  exact (shows_indent i).cons (shows_coloured_ln _ _ _ _ h)

/-- Bold text followed by text. -/
theorem lines_bold_text {t r : Text} {ds : List Disp} {i k : Nat} {ls : List Line}
    (h : Shows (.all ds) (showLines i ls)) :
    Shows (.all (printIndentation ((i + k) % 256) :: .color boldSpec :: .print t :: .reset :: .println r :: ds))
      (showLines i (⟨some k, bold t ++ plain (r ++ ['\n'])⟩ :: ls)) := by
  rw [render_cons]
  have e : (⟨some k, bold t ++ plain (r ++ ['\n'])⟩ : Line).render i =
      plain (tabs ((i + k) % 256)) ++ (styled boldSpec t ++ plain (r ++ ['\n'])) := rfl
  rw [e, List.append_assoc, List.append_assoc]
  exact (shows_indent _).cons (shows_coloured _ _ _ _ ((shows_println _).cons h))

/-- A line of text. -/
theorem lines_text {t : Text} {ds : List Disp} {i : Nat} [Small i] {ls : List Line} (h : Shows (.all ds) (showLines i ls)) :
    Shows (.all (printIndentation i :: .println t :: ds)) (showLines i (textLine t :: ls)) := by
  rw [render_cons, textLine, render_line, List.append_assoc]
  exact (shows_indent i).cons ((shows_println _).cons h)

theorem indentSucc {m : Machine} {i : Nat} [hs : Small i] {k : Nat → Disp} (h : Steps m i) :
    withIndentSucc m i k = k ((i + 1) % 256) := by
  have := hs.lt
  rw [withIndentSucc]
  by_cases hi : i + 1 < 256
  · rw [if_pos hi, Nat.mod_eq_of_lt hi]
  · rcases h with h | h
    · omega
    · rw [if_neg hi, h]; rfl

/-- A routine one level deeper. -/
theorem lines_deeper {m : Machine} {i : Nat} [Small i] {k : Nat → Disp} {ls : List Line} (h : Steps m i)
    (hk : Shows (k ((i + 1) % 256)) (showLines ((i + 1) % 256) ls)) :
    Shows (withIndentSucc m i k) (showLines i (deeper ls)) := by
  rw [indentSucc h, render_deeper]; exact hk

/-! ### Hex -/

theorem hexByte_eq (b : Byte) : hexByte b = hexPair b := by
  revert b; apply forall_byte; decide +kernel

theorem hexLine_eq (bs : List Byte) : hexLine bs = hexRow bs := by
  induction bs with
  | nil => rfl
  | cons b bs ih =>
    cases bs with
    | nil => simp [hexLine, hexRow, hexByte_eq, List.intercalate]
    | cons c cs =>
      rw [hexLine, ih, hexByte_eq]
      simp [hexRow, List.intercalate]
      simp

theorem chunksF_rows {α : Type} (fuel : Nat) (l : List α) (h : l.length ≤ fuel) :
    chunksF 16 fuel l = (List.range ((l.length + 15) / 16)).map (fun i => (l.drop (16 * i)).take 16) := by
  induction fuel generalizing l with
  | zero =>
    have : l = [] := List.length_eq_zero_iff.1 (by omega)
    subst this; simp [chunksF]
  | succ fuel ih =>
    cases l with
    | nil => simp [chunksF]
    | cons x xs =>
      rw [chunksF, ih _ (by simp only [List.length_drop, List.length_cons] at h ⊢; omega)]
      have e : ((x :: xs).length + 15) / 16 = (((x :: xs).drop 16).length + 15) / 16 + 1 := by
        simp only [List.length_drop, List.length_cons]; omega
      rw [e, List.range_succ_eq_map, List.map_cons, List.map_map, Nat.mul_zero, List.drop_zero]
      congr 1
      apply List.map_congr_left
      intro i _
      simp only [Function.comp, List.drop_drop]
      rw [show 16 + 16 * i = 16 * (i + 1) by omega]

theorem chunks_rows (bs : List Byte) : chunks 16 bs = rowsOf16 bs := chunksF_rows _ _ (Nat.le_refl _)

theorem printableChar_eq (b : Byte) : printableChar b = readable b := by
  revert b; apply forall_byte; decide +kernel

theorem hexRow_length (bs : List Byte) : (hexRow bs).length = 3 * bs.length - 1 := by
  rw [← hexLine_eq]
  have h2 : ∀ b, (hexByte b).length = 2 := fun b => by rw [hexByte_eq]; rfl
  induction bs with
  | nil => rfl
  | cons b bs ih =>
    cases bs with
    | nil => simp [hexLine, h2]
    | cons c cs =>
      rw [hexLine, List.length_append, List.length_cons, ih, h2]
      · simp only [List.length_cons]; omega
      · simp

theorem replicate_flatten3 (n : Nat) :
    (List.replicate n [' ', ' ', ' ']).flatten = List.replicate (3 * n) ' ' := by
  induction n with
  | zero => rfl
  | succ n ih =>
    rw [List.replicate_succ, List.flatten_cons, ih, show 3 * (n + 1) = 3 + 3 * n by omega,
      ← List.replicate_append_replicate]
    rfl

theorem prettyLine_eq (r : List Byte) (h : r ≠ []) (h16 : r.length ≤ 16) :
    prettyLine 16 r = padTo 49 (hexRow r) ++ r.map readable := by
  have hpos := List.length_pos_iff.2 h
  have hm : r.map printableChar = r.map readable := List.map_congr_left (fun b _ => printableChar_eq b)
  rw [prettyLine, hexLine_eq, hm, padTo, hexRow_length, replicate_flatten3]
  congr 1
  rw [List.append_assoc]
  congr 1
  rw [show 49 - (3 * r.length - 1) = 3 * (16 - r.length) + 2 by omega, ← List.replicate_append_replicate]
  rfl

theorem rowsOf16_mem {bs r : List Byte} (h : r ∈ rowsOf16 bs) : r ≠ [] ∧ r.length ≤ 16 := by
  obtain ⟨i, hi, rfl⟩ := List.mem_map.1 h
  rw [List.mem_range] at hi
  constructor
  · intro hn
    have := congrArg List.length hn
    simp at this
    omega
  · simp; omega

theorem lines_map {α : Type} {f : α → Disp} {g : α → Line} {i : Nat} (l : List α)
    (h : ∀ a ∈ l, Shows (f a) ((g a).render i)) : Shows (.all (l.map f)) (showLines i (l.map g)) := by
  have := flatMap_all f (fun a => (g a).render i) l h
  rw [showLines, List.flatMap_map]
  exact this

theorem shows_textLine (i : Nat) [Small i] (t : Text) :
    Shows (.all [printIndentation i, .print t, .println []]) ((textLine t).render i) := by
  rw [textLine, render_line, plain_append]
  have h := (shows_print t).cons ((shows_println []).cons shows_all_nil)
  rw [List.nil_append, List.append_nil] at h
  exact (shows_indent i).cons h

theorem shows_dump (bs : List Byte) (i : Nat) [Small i] : Shows (printBytes bs 16 i) (showLines i (dump bs)) := by
  rw [printBytes, chunks_rows, dump]
  refine lines_map _ (fun r _ => ?_)
  rw [printBytesLine, hexLine_eq]
  exact shows_textLine i _

theorem shows_dumpWithText (bs : List Byte) (i : Nat) [Small i] :
    Shows (printBytesPretty bs 16 i) (showLines i (dumpWithText bs)) := by
  rw [printBytesPretty, chunks_rows, dumpWithText]
  refine lines_map _ (fun r hr => ?_)
  rw [printBytesPrettyLine, prettyLine_eq r (rowsOf16_mem hr).1 (rowsOf16_mem hr).2]
  exact shows_textLine i _

theorem flatMap_hexByte (bs : List Byte) : bs.flatMap hexByte = bs.flatMap hexPair := by
  rw [show hexByte = hexPair from funext hexByte_eq]

/-! ### Bit-mapped values -/

theorem drawing_render (bytes : List Byte) (rs : List Annotation) (i : Nat) [Small i] (colours : Bool) :
    drawing bytes rs i colours = showLines i (drawingLines bytes rs colours) := by
  rw [drawing, drawingLines, render_append, render_append]
  congr 1
  · congr 1
    · rw [render_cons, render_nil, List.append_nil, render_line]; rfl
    · split
      · rw [render_cons, render_nil, List.append_nil, textLine, render_line, List.append_assoc, plain_append]
      · rfl
  · rw [showLines, List.flatMap_map]
    congr 1
    funext r
    rw [render_line, List.append_assoc, plain_append, List.append_assoc]

theorem shows_bitLines {p : BitValue × List (String × Severity × String)} (hp : p ∈ labelled)
    {bs : List Byte} {v : Value} (h : p.1.layout.tryFrom bs = .ok v) (i : Nat) [Small i] (colours : Bool) :
    Shows (displayLayout p.1.layout v i colours) (showLines i (bitLines p.1.items p.2 bs colours)) := by
  rw [bitLines, ← drawing_render]
  exact c46_drawing p hp bs v h i colours

theorem shows_iacLines (kind : IacKind) {bs : List Byte} {v : Value} (h : iacTryFrom kind bs = .ok v) (i : Nat) [Small i] :
    Shows (displayIac kind v i) (showLines i (iacLines kind bs)) := by
  have hh : iacHeader kind = iacHeading kind := by cases kind <;> rfl
  rw [displayIac, hh]
  exact lines_title (lines_last (shows_bitLines (p := (⟨tvrLayout, 5, tvrItems⟩, tvrLabels))
    (by simp [labelled]) h i false))

/-! ### CV rules -/

/-- A parsed rule. -/
def ruleOf (a b : Byte) : Value :=
  [[.bool (decide (0b01000000 &&& (a &&& (0b01000000 ||| (0b00111111 ||| 0))) > 0)),
      .optEnum (enumMatch cvMethodTable ((0b00111111 &&& (a &&& (0b01000000 ||| (0b00111111 ||| 0)))) >>> 0))],
    [.optEnum (enumMatch cvmConditionTable ((0b11111111 &&& (b &&& (0b11111111 ||| 0))) >>> 0))]]

theorem cvRule_eq (a b : Byte) : cvRuleTryFrom [a, b] = .ok (ruleOf a b) := rfl

theorem method_text (a : Byte) :
    ((enumMatch cvMethodTable ((0b00111111 &&& (a &&& (0b01000000 ||| (0b00111111 ||| 0)))) >>> 0)).map
      Variant.text).getD "Unknown (likely issuer or payment system-specific)" =
    codeText "method" cvmCodes (bits a 6 1) := by
  revert a; apply forall_byte; decide +kernel

theorem condition_text (b : Byte) :
    ((enumMatch cvmConditionTable ((0b11111111 &&& (b &&& (0b11111111 ||| 0))) >>> 0)).map
      Variant.text).getD "Unknown (likely payment system-specific)" =
    codeText "condition" conditionCodes b.toNat := by
  revert b; apply forall_byte; decide +kernel

theorem ruleOf_method (a b : Byte) :
    ruleFieldText (ruleOf a b) "method" = (codeText "method" cvmCodes (bits a 6 1)).toList := by
  have h : ∀ (c : Bool) (m k : Option (Variant Byte)),
      ruleFieldText [[.bool c, .optEnum m], [.optEnum k]] "method" =
        ((m.map Variant.text).getD "Unknown (likely issuer or payment system-specific)").toList := by
    intro c m k; cases m <;> rfl
  rw [← method_text]
  exact h _ _ _

theorem ruleOf_condition (a b : Byte) :
    ruleFieldText (ruleOf a b) "condition" = (codeText "condition" conditionCodes b.toNat).toList := by
  have h : ∀ (c : Bool) (m k : Option (Variant Byte)),
      ruleFieldText [[.bool c, .optEnum m], [.optEnum k]] "condition" =
        ((k.map Variant.text).getD "Unknown (likely payment system-specific)").toList := by
    intro c m k; cases k <;> rfl
  rw [← condition_text]
  exact h _ _ _

theorem ruleOf_continues (a b : Byte) : ruleContinues (ruleOf a b) = decide (bits a 7 7 = 1) := by
  have h : ∀ (c : Bool) (m k : Option (Variant Byte)),
      ruleContinues [[.bool c, .optEnum m], [.optEnum k]] = c := fun _ _ _ => rfl
  rw [ruleOf, h]
  revert a; apply forall_byte; decide +kernel

theorem ruleOf_references (a b : Byte) :
    ruleReferencesXOrY (ruleOf a b) = (decide (6 ≤ b.toNat) && decide (b.toNat ≤ 9)) := by
  have h : ∀ (c : Bool) (m k : Option (Variant Byte)),
      ruleReferencesXOrY [[.bool c, .optEnum m], [.optEnum k]] = (k.map referencesXOrY).getD false := by
    intro c m k; cases k <;> rfl
  rw [ruleOf, h]
  revert b; apply forall_byte; decide +kernel

theorem repr_first (a : Byte) :
    (if decide (0b01000000 &&& (a &&& (0b01000000 ||| (0b00111111 ||| 0))) > 0) then (0b01000000 : Byte) else 0) |||
      (((FieldVal.optEnum (enumMatch cvMethodTable
        ((0b00111111 &&& (a &&& (0b01000000 ||| (0b00111111 ||| 0)))) >>> 0))).toByte <<< 0) ||| 0) =
    UInt8.ofNat (64 * bits a 7 7 + listedOrZero cvmCodes (bits a 6 1)) := by
  revert a; apply forall_byte; decide +kernel

theorem repr_second (b : Byte) :
    ((FieldVal.optEnum (enumMatch cvmConditionTable
      ((0b11111111 &&& (b &&& (0b11111111 ||| 0))) >>> 0))).toByte <<< 0) ||| 0 =
    UInt8.ofNat (listedOrZero conditionCodes (bits b 8 1)) := by
  revert b; apply forall_byte; decide +kernel

theorem ruleOf_repr (a b : Byte) : cvRuleLayout.binaryRepresentation (ruleOf a b) =
    [UInt8.ofNat (64 * bits a 7 7 + listedOrZero cvmCodes (bits a 6 1)),
     UInt8.ofNat (listedOrZero conditionCodes (bits b 8 1))] := by
  have h : ∀ (c : Bool) (m k : Option (Variant Byte)),
      cvRuleLayout.binaryRepresentation [[.bool c, .optEnum m], [.optEnum k]] =
        [(if c then (0b01000000 : Byte) else 0) ||| (((FieldVal.optEnum m).toByte <<< 0) ||| 0),
          ((FieldVal.optEnum k).toByte <<< 0) ||| 0] := by
    intro c m k; rfl
  rw [← repr_first, ← repr_second]
  exact h _ _ _

/-! ### CVM Results -/

theorem cvmResults_bits (a b c : Byte) (v : CvmResults) (h : CvmResults.tryFrom [a, b, c] = .ok v) :
    v.binaryRepresentation = cvmResultsBits [a, b, c] := by
  obtain ⟨h1, h2⟩ := cvmResults_parts a b c v h
  rw [cvRule_eq, Out.ok.injEq] at h1
  rw [CvmResults.binaryRepresentation, ← h1, ruleOf_repr, cvmResultsBits]
  rcases h2 with ⟨rfl, hr⟩ | ⟨rfl, hr⟩ | ⟨rfl, hr⟩ <;> rw [hr] <;> rfl

theorem shows_cvmResults (a b c : Byte) (v : CvmResults) (h : CvmResults.tryFrom [a, b, c] = .ok v) (i : Nat) [Small i]
    (colours : Bool) :
    Shows (displayCvmResults v i colours) (showLines i (cvmResultsLines [a, b, c] colours)) := by
  rw [cvmResultsLines, ← drawing_render, ← cvmResults_bits a b c v h]
  exact c46_cvm_results a b c v h i colours

/-! ### CVM List -/

theorem pairs_length (bs : List Byte) : (pairs bs).length = bs.length / 2 := by
  match bs with
  | [] => rfl
  | [_] => simp [pairs]
  | a :: b :: rest =>
    rw [pairs, List.length_cons, pairs_length rest]
    simp only [List.length_cons]; omega

theorem pairs_getElem? (bs : List Byte) (i : Nat) (a b : Byte) (ha : bs[2 * i]? = some a)
    (hb : bs[2 * i + 1]? = some b) : (pairs bs)[i]? = some (a, b) := by
  match bs, i with
  | [], _ => simp at ha
  | [_], i => simp at hb
  | x :: y :: rest, 0 => simp_all [pairs]
  | x :: y :: rest, i + 1 =>
    rw [pairs, List.getElem?_cons_succ]
    refine pairs_getElem? rest i a b ?_ ?_
    · rw [show 2 * (i + 1) = 2 * i + 1 + 1 by omega, List.getElem?_cons_succ, List.getElem?_cons_succ] at ha
      exact ha
    · rw [show 2 * (i + 1) + 1 = 2 * i + 1 + 1 + 1 by omega, List.getElem?_cons_succ,
        List.getElem?_cons_succ] at hb
      exact hb

theorem cvmList_eq {bs : List Byte} {v : CvmList} (h : CvmList.tryFrom bs = .ok v) :
    v = ⟨amountX bs, amountY bs, (pairs (bs.drop 8)).map (fun p => ruleOf p.1 p.2)⟩ := by
  have h8 : 8 ≤ bs.length := by
    refine Nat.le_of_not_lt (fun hlt => ?_)
    rw [(c49_rejected bs).1 hlt] at h; cases h
  have heven : bs.length % 2 = 0 := by
    refine Classical.byContradiction (fun hne => ?_)
    rw [(c49_rejected bs).2 h8 (by omega)] at h; cases h
  obtain ⟨v1, e1, x1, y1, l1, r1⟩ := c49_accepted bs h8 heven
  rw [h] at e1; cases e1
  obtain ⟨x, y, rules⟩ := v
  simp only at x1 y1 l1 r1
  have hr : rules = (pairs (bs.drop 8)).map (fun p => ruleOf p.1 p.2) := by
    apply List.ext_getElem?
    intro i
    by_cases hi : i < rules.length
    · have g1 : 8 + 2 * i < bs.length := by omega
      have g2 : 8 + 2 * i + 1 < bs.length := by omega
      have e1 : bs[8 + 2 * i]? = some bs[8 + 2 * i] := List.getElem?_eq_getElem g1
      have e2 : bs[8 + 2 * i + 1]? = some bs[8 + 2 * i + 1] := List.getElem?_eq_getElem g2
      obtain ⟨q, hq, hq'⟩ := r1 i _ _ e1 e2
      rw [cvRule_eq] at hq'
      cases hq'
      rw [hq, List.getElem?_map, pairs_getElem? (bs.drop 8) i bs[8 + 2 * i] bs[8 + 2 * i + 1]
        (by rw [List.getElem?_drop]; exact e1) (by rw [List.getElem?_drop]; exact e2)]
      rfl
    · rw [List.getElem?_eq_none (by omega), List.getElem?_eq_none]
      rw [List.length_map, pairs_length, List.length_drop]; omega
  subst x1 y1 hr
  rfl

theorem shows_rule {m : Machine} {i : Nat} [Small i] (hi : Steps m i) (number : Nat) (p : Byte × Byte) :
    Shows (displayCvmRule m i number (ruleOf p.1 p.2)) (showLines i (ruleLines number p)) := by
  rw [displayCvmRule, ruleLines, indentSucc hi, ruleOf_method, ruleOf_condition, ruleOf_continues,
    natToText_decimal]
  have e : "CVM ".toList ++ decimal number ++ ":\n".toList =
      ("CVM ".toList ++ decimal number ++ ":".toList) ++ ['\n'] := by
    rw [List.append_assoc _ ":".toList]; rfl
  rw [e]
  have hd : (if decide (bits p.1 7 7 = 1) = true then "Next CVM" else "Fail") =
      (if bits p.1 7 7 = 1 then "Next CVM" else "Fail") := by
    simp only [decide_eq_true_eq]
  rw [hd]
  exact lines_bold (lines_bold_text (lines_bold_text (lines_bold_text (lines_nil i))))

theorem shows_rules {m : Machine} {i : Nat} [Small i] (hi : Steps m i) (ps : List (Byte × Byte)) (number : Nat) :
    Shows (displayCvmRules m i number (ps.map (fun p => ruleOf p.1 p.2)))
      (showLines i ((ps.zipIdx number).flatMap (fun p => ruleLines p.2 p.1))) := by
  induction ps generalizing number with
  | nil => exact shows_nil
  | cons p ps ih =>
    rw [List.map_cons, displayCvmRules, List.zipIdx_cons, List.flatMap_cons, render_append]
    exact (shows_rule hi number p).seq (ih (number + 1))

theorem xyWidth_eq (v : CvmList) : xyWidth v =
    max 3 (max (decimal v.xValue).length (decimal v.yValue).length) := by
  rw [xyWidth, numDecDigits_eq, numDecDigits_eq, natToText_decimal, natToText_decimal, Nat.max_comm]

theorem shows_cvmList {m : Machine} {bs : List Byte} {v : CvmList} (h : CvmList.tryFrom bs = .ok v) {i : Nat} [Small i]
    (hi : Steps m i) : Shows (displayCvmList m v i) (showLines i (cvmListLines bs)) := by
  have hv := cvmList_eq h
  have hx : v.xValue = amountX bs := by rw [hv]
  have hy : v.yValue = amountY bs := by rw [hv]
  have hr : v.cvRules = (pairs (bs.drop 8)).map (fun p => ruleOf p.1 p.2) := by rw [hv]
  have hs : showXY v = amountsMatter bs := by
    rw [showXY, amountsMatter, hx, hy, hr, List.any_map]
    congr 1
    · simp only [ne_eq, decide_not]; rfl
    · congr 1
      funext p
      exact ruleOf_references p.1 p.2
  rw [displayCvmList, cvmListLines, hs, hr, List.append_assoc]
  refine lines_seq ?_ (lines_title (lines_last (shows_rules hi _ 1)))
  cases amountsMatter bs with
  | false => exact shows_nil
  | true =>
    simp only [if_true]
    rw [displayXY, xyWidth_eq, hx, hy, natToText_decimal, natToText_decimal]
    have e : ∀ w n, padLeft0 w (decimal n) = digitsAtLeast w n := fun _ _ => rfl
    rw [e, e]
    exact lines_entry (lines_entry (lines_nil i))

/-! ### Service code -/

theorem lines_aspect {branch label text pad : String} {ds : List Disp} {i : Nat} [Small i] {ls : List Line}
    (hp : pad.toList = List.replicate (26 - label.toList.length) ' ')
    (h : Shows (.all ds) (showLines i ls)) :
    Shows (.all (printIndentation i :: .print branch.toList :: .color boldSpec :: .print label.toList ::
      .reset :: .println (pad.toList ++ text.toList) :: ds)) (showLines i (aspect branch label text :: ls)) := by
  rw [render_cons, aspect, render_line, ← hp]
  rw [List.append_assoc, List.append_assoc, List.append_assoc]
  exact (shows_indent i).cons ((shows_print _).cons (shows_coloured _ _ _ _ ((shows_println _).cons h)))

theorem shows_serviceCode {n : Nat} {v : ServiceCode} (h : ServiceCode.tryFromU16 n = .ok v) (i : Nat) [Small i] :
    Shows (displayServiceCode v i) (showLines i (serviceCodeLines (n / 100) (n / 10 % 10) (n % 10))) := by
  have hn : n ≤ 999 := by
    refine Nat.le_of_not_lt (fun hlt => ?_)
    rw [(c48_digits n).2 hlt] at h; cases h
  obtain ⟨v', hv', h0, h1, h2, h3, h4, h5⟩ := (c48_digits n).1 hn
  rw [h] at hv'; cases hv'
  have hd : ∀ n < 1000, padLeft0 3 (natToText n) =
      decimal (n / 100) ++ decimal (n / 10 % 10) ++ decimal (n % 10) := by decide +kernel
  rw [displayServiceCode, serviceCodeLines, h0, h1, h2, h3, h4, h5, hd n (by omega)]
  exact lines_bold (lines_aspect (by rfl) (lines_aspect (by rfl) (lines_aspect (by rfl)
    (lines_aspect (by rfl) (lines_aspect (by rfl) (lines_nil i))))))

/-! ### Issuer Application Data -/

theorem shows_iad {m : Machine} {bs : List Byte} {v : Iad} (h : Iad.tryFrom bs = .ok v) {i : Nat} [Small i]
    (hi : Steps m i) (colours : Bool) :
    isFormatA bs = true ∧ Shows (displayIad m v i colours) (showLines i (iadLines bs colours)) := by
  have hc : bs.length = 32 ∧ bs[0]? = some 0x0F ∧ bs[16]? = some 0x0F ∧
      (bs[1]? = some 0xA5 ∨ bs[1]? = some 0xA6) := by
    refine Classical.byContradiction (fun hc => ?_)
    rw [c51_rejected bs hc] at h; cases h
  constructor
  · obtain ⟨h1, h2, h3, h4⟩ := hc
    simp only [isFormatA, h1, h2, h3]
    rcases h4 with h4 | h4 <;> rw [h4] <;> rfl
  · obtain ⟨h1, h2, h3, h4⟩ := hc
    obtain ⟨v', hv', a1, a2, a3, a4, a5⟩ := c51_accepted bs h1 h2 h3 h4
    rw [h] at hv'; cases hv'
    have hdki : bs.getD 2 0 = v.dki := by rw [List.getD_eq_getElem?_getD, a2]; rfl
    have e : " 0x".toList ++ hexPair (bs.getD 2 0) = " ".toList ++ hexHash04 v.dki := by
      rw [hdki, ← hexByte_eq, hexHash04, hexByte]; rfl
    rw [displayIad, iadLines, e, a4, a5]
    simp only [List.append_assoc, List.cons_append, List.nil_append]
    refine lines_title (lines_seq (lines_deeper hi ?_) (lines_entry (lines_title (lines_seq (lines_deeper hi ?_)
      (lines_title (lines_seq (lines_deeper hi (shows_dump _ _)) (lines_title
        (lines_last (lines_deeper hi (shows_dump _ _))))))))))
    · exact shows_bitLines (p := (⟨cciLayout, 1, cciItems⟩, cciLabels)) (by simp [labelled]) a1 _ _
    · exact shows_bitLines (p := (⟨cvrLayout, 5, cvrItems⟩, cvrLabels)) (by simp [labelled]) a3 _ _

theorem iad_none {bs : List Byte} {e : ParseError} (h : Iad.tryFrom bs = .err e) : isFormatA bs = false := by
  refine Bool.eq_false_iff.2 (fun hc => ?_)
  simp only [isFormatA, Bool.and_eq_true, Bool.or_eq_true, beq_iff_eq] at hc
  obtain ⟨⟨⟨h1, h2⟩, h3⟩, h4⟩ := hc
  obtain ⟨v, hv, -⟩ := c51_accepted bs h1 h2 h3 h4
  rw [h] at hv; cases hv

/-! ### Codes -/

theorem shows_code (t : String) (i : Nat) [Small i] : Shows (displayCode t i) (showLines i [textLine t.toList]) :=
  lines_text (lines_nil i)

theorem responseText_some {bs : List Byte} {v : Variant Text} (h : arcTryFrom bs = .ok v) :
    responseText bs = some v.text := by
  obtain ⟨d1, d2, h1, h2, rfl, h3⟩ := c63_response_code bs v h
  have e1 : (UInt8.ofNat (48 + d1)).toNat = 48 + d1 := by
    rw [UInt8.toNat_ofNat']; omega
  have e2 : (UInt8.ofNat (48 + d2)).toNat = 48 + d2 := by
    rw [UInt8.toNat_ofNat']; omega
  rw [responseText, e1, e2, if_pos ⟨by omega, by omega, by omega, by omega⟩,
    show 48 + d1 - 48 = d1 by omega, show 48 + d2 - 48 = d2 by omega]
  exact h3

theorem responseText_none {bs : List Byte} {e : ParseError} (h : arcTryFrom bs = .err e) :
    responseText bs = none := by
  match bs with
  | [] => rfl
  | [_] => rfl
  | _ :: _ :: _ :: _ => rfl
  | [a, b] =>
    rw [responseText]
    split
    · rename_i hd
      cases hl : responseCodes.lookup (10 * (a.toNat - 48) + (b.toNat - 48)) with
      | none => rfl
      | some t =>
        obtain ⟨v, hv⟩ := c63_response_code_listed (a.toNat - 48) (b.toNat - 48) (by omega) (by omega)
          (by rw [hl]; rfl)
        have ea : UInt8.ofNat (48 + (a.toNat - 48)) = a := by
          rw [show 48 + (a.toNat - 48) = a.toNat by omega, UInt8.ofNat_toNat]
        have eb : UInt8.ofNat (48 + (b.toNat - 48)) = b := by
          rw [show 48 + (b.toNat - 48) = b.toNat by omega, UInt8.ofNat_toNat]
        rw [ea, eb, h] at hv; cases hv
    · rfl

theorem posEntryMode_text (bs : List Byte) (v : Variant Byte) (h : posEntryModeTryFrom bs = .ok v) :
    ∃ b, bs = [b] ∧ posEntryModeTexts.lookup b.toNat = some v.text := by
  obtain ⟨b, rfl, hb⟩ := byteEnum_ok h
  have key : ∀ n, n < 256 → (match enumMatch posEntryModeTable (UInt8.ofNat n) with
      | some v => posEntryModeTexts.lookup n == some v.text
      | none => true) = true := by decide +kernel
  have := key b.toNat b.toNat_lt
  rw [UInt8.ofNat_toNat, hb] at this
  exact ⟨b, rfl, by simpa using this⟩

end Pemv
