import Verif.Props.Bitflags
import Verif.Proofs.Labels
import Verif.Model.Display

/-!
# C46, C66, C67: the drawn breakdown of bit-mapped values
-/

namespace Pemv

open Spec

/-! ### C46 -/

/-- **C46.** The breakdown of every bit-mapped value, drawn at any indentation, ends normally and shows exactly
the specified drawing: the digits of the value with unused bits cleared, a header if some item has several bits,
and one explanation per shown item, each bar, bracket and elbow in the column of its bit. -/
theorem c46_drawing (p : BitValue × List (String × Severity × String)) (hp : p ∈ labelled) (bs : List Byte)
    (v : Value) (h : p.1.layout.tryFrom bs = .ok v) (indent : Nat) (colours : Bool) :
    Shows (displayLayout p.1.layout v indent colours)
      (drawing (clearUnused p.1.items bs) (annotations p.2 p.1.items bs) indent colours) := by
  have hmem : p.1 ∈ bitValues := by
    have h1 : labelled.map Prod.fst = bitValues := rfl
    rw [← h1]; exact List.mem_map_of_mem hp
  have hmem' : p.1 ∈ cvRule :: bitValues := List.mem_cons_of_mem _ hmem
  have hl := bitValues_ok p.1 hmem'
  have hlen := (tryFrom_ok hl h).1
  have hN : 0 < p.1.numBytes ∧ p.1.numBytes ≤ 8 := by
    have : ∀ bv ∈ bitValues, 0 < bv.numBytes ∧ bv.numBytes ≤ 8 := by decide
    exact this _ hmem
  rw [displayLayout, ← annotations_eq (List.mem_cons_of_mem _ hp) h, c42_representation p.1 hmem bs v h,
    layoutOk_numBytes hl]
  refine shows_breakdown _ _ _ _ _ hN.1 hN.2 (by simp [clearUnused, hlen]) ?_
  rw [annotations_eq (List.mem_cons_of_mem _ hp) h, annotations, hlen]
  exact goodRanges_annotations (itemsGood p.1 hmem')

example := c46_drawing (⟨tvrLayout, 5, tvrItems⟩, tvrLabels) (by simp [labelled]) [0, 0x48, 0, 0, 3] _ rfl 1 true

/-- **C46.** The same for CVM Results. -/
theorem c46_cvm_results (a b c : Byte) (v : CvmResults) (h : CvmResults.tryFrom [a, b, c] = .ok v)
    (indent : Nat) (colours : Bool) :
    Shows (displayCvmResults v indent colours)
      (drawing v.binaryRepresentation (cvmResultsAnnotations [a, b, c]) indent colours) := by
  have hann := cvmResults_annotations a b c v h
  rw [displayCvmResults, ← hann]
  refine shows_breakdown _ _ _ _ _ (by decide) (by decide) (cvmResults_repr_length a b c v h) ?_
  rw [hann]
  exact goodRanges_cvmResults [a, b, c] rfl

example := c46_cvm_results 0x42 0x03 0x02 _ rfl 1 true

/-- **C46.** Columns and bits correspond: every bit has exactly one column. -/
theorem c46_columns (n b : Nat) (h : b < 8 * n) :
    bitAt n (column n b) = some b ∧ ∀ k, k < 9 * n → bitAt n k = some b → k = column n b := by
  constructor
  · have e : column n b = (8 * n - 1 - b) + (8 * n - 1 - b) / 8 := rfl
    rw [e, bitAt_col]; congr 1; omega
  · intro k hk hb
    obtain ⟨h9, hb⟩ := bitAt_eq hb
    rw [column]; omega

/-- A Common Core Identifier, drawn. -/
example : ∃ v, cciLayout.tryFrom [0xA5] = .ok v ∧ (displayLayout cciLayout v 1 true).text =
    ("\t10100101\n" ++
     "\t├──┘├──┘\n" ++
     "\t│   └ Cryptogram Version: Triple DES (3DES)\n" ++
     "\t└ IAD Format Code: Format A\n").toList := by
  refine ⟨_, by rfl, ?_⟩
  decide +kernel

/-- Two flags in different bytes. -/
example : ∃ v, tsiLayout.tryFrom [0x84, 0xFF] = .ok v ∧ (displayLayout tsiLayout v 0 true).text =
    ("10000100 00000000\n" ++
     "│    └ Script processing was performed\n" ++
     "└ Offline data authentication was performed\n").toList := by
  refine ⟨_, by rfl, ?_⟩
  decide +kernel

/-! ### C66 -/

/-- **C66.** Without colours requested (and inside the issuer action codes) no explanation is coloured. -/
theorem c66_issuer_action_codes (kind : IacKind) (bs : List Byte) (v : Value) (h : iacTryFrom kind bs = .ok v)
    (indent : Nat) :
    Shows (displayIac kind v indent)
      (plain (tabs indent) ++ styled ⟨true, some .cyan⟩ ((iacHeading kind).toList ++ ['\n']) ++
        drawing (clearUnused tvrItems bs) (annotations tvrLabels tvrItems bs) indent false) := by
  have hd := c46_drawing (⟨tvrLayout, 5, tvrItems⟩, tvrLabels) (by simp [labelled]) bs v h indent false
  have hh : iacHeader kind = iacHeading kind := by cases kind <;> rfl
  rw [displayIac, hh, List.append_assoc]
  have := hd.cons shows_all_nil
  rw [List.append_nil] at this
  exact (shows_indent _).cons (shows_coloured_ln _ _ _ _ this)

example := c66_issuer_action_codes .default [0, 0x48, 0, 0, 3] _ rfl 1

/-- **C66.** In a drawing, a cell is yellow or red only in the explanation of a warning or an error, and only
when colours are requested. -/
theorem c66_colours (bytes : List Byte) (rs : List Annotation) (indent : Nat) (colours : Bool) (ch : Char)
    (style : ColorSpec) (h : (ch, style) ∈ drawing bytes rs indent colours) :
    style.fg = none ∨ (colours = true ∧ ∃ r ∈ rs, ch ∈ r.text ++ ['\n'] ∧
      ((r.severity = .warning ∧ style.fg = some .yellow) ∨ (r.severity = .error ∧ style.fg = some .red))) := by
  have hst : ∀ (s : ColorSpec) (t : Text), (ch, style) ∈ styled s t → style = s ∧ ch ∈ t := by
    intro s t hm
    obtain ⟨c, hc, he⟩ := List.mem_map.1 hm
    cases he; exact ⟨rfl, hc⟩
  simp only [drawing, List.mem_append, List.mem_flatMap] at h
  rcases h with ((h | h) | h) | ⟨r, hr, h⟩
  · rw [(hst _ _ h).1]; exact Or.inl rfl
  · rw [(hst _ _ h).1]; exact Or.inl rfl
  · split at h
    · rw [(hst _ _ h).1]; exact Or.inl rfl
    · exact absurd h (by simp)
  · rcases h with h | h
    · rw [(hst _ _ h).1]; exact Or.inl rfl
    · obtain ⟨h1, h2⟩ := hst _ _ h
      cases colours with
      | false => rw [h1]; exact Or.inl rfl
      | true =>
        simp only [if_true] at h1
        cases hs : r.severity with
        | normal => rw [h1, hs]; exact Or.inl rfl
        | warning =>
          rw [h1, hs]
          exact Or.inr ⟨rfl, r, by simpa using hr, h2, Or.inl ⟨hs, rfl⟩⟩
        | error =>
          rw [h1, hs]
          exact Or.inr ⟨rfl, r, by simpa using hr, h2, Or.inr ⟨hs, rfl⟩⟩

example := c66_colours [0x80] [⟨7, 1, ['x'], .error⟩] 0 true 'x' ⟨false, some .red⟩ (by decide +kernel)

/-- **C66.** The other way round: if colours are requested, the explanation of every item of a bit-mapped value is
shown, the text as a whole in the colour of its severity and in no other style. -/
theorem c66_shown (p : BitValue × List (String × Severity × String)) (hp : p ∈ labelled) (bs : List Byte)
    (v : Value) (h : p.1.layout.tryFrom bs = .ok v) (indent : Nat) (r : Annotation)
    (hr : r ∈ annotations p.2 p.1.items bs) :
    ∃ before after, Shows (displayLayout p.1.layout v indent true) (before ++ styled ⟨false,
      match r.severity with | .normal => none | .warning => some .yellow | .error => some .red⟩ r.text ++ after) := by
  obtain ⟨before, after, he⟩ := drawing_explanation (clearUnused p.1.items bs) _ indent r hr
  exact ⟨before, after, he ▸ c46_drawing p hp bs v h indent true⟩

/-- The expired application. -/
example : ∃ v, tvrLayout.tryFrom [0, 0x40, 0, 0, 0] = .ok v ∧ ∀ r ∈ annotations tvrLabels tvrItems [0, 0x40, 0, 0, 0],
    ∃ before after, Shows (displayLayout tvrLayout v 0 true) (before ++ styled ⟨false,
      match r.severity with | .normal => none | .warning => some .yellow | .error => some .red⟩ r.text ++ after) :=
  ⟨_, rfl, fun r hr => c66_shown (⟨tvrLayout, 5, tvrItems⟩, tvrLabels) (by simp [labelled]) _ _ rfl 0 r hr⟩

/-- **C66.** The same for CVM Results. -/
theorem c66_cvm_results (a b c : Byte) (v : CvmResults) (h : CvmResults.tryFrom [a, b, c] = .ok v) (indent : Nat)
    (r : Annotation) (hr : r ∈ cvmResultsAnnotations [a, b, c]) :
    ∃ before after, Shows (displayCvmResults v indent true) (before ++ styled ⟨false,
      match r.severity with | .normal => none | .warning => some .yellow | .error => some .red⟩ r.text ++ after) := by
  obtain ⟨before, after, he⟩ := drawing_explanation v.binaryRepresentation _ indent r hr
  exact ⟨before, after, he ▸ c46_cvm_results a b c v h indent true⟩

/-- An error is shown in red, a warning in yellow. -/
example : ∃ v, tvrLayout.tryFrom [0, 0x48, 0, 0, 0] = .ok v ∧
    (('E', (⟨false, some .red⟩ : ColorSpec)) ∈ paint plainStyle (displayLayout tvrLayout v 0 true).evs) ∧
    (('N', (⟨false, some .yellow⟩ : ColorSpec)) ∈ paint plainStyle (displayLayout tvrLayout v 0 true).evs) := by
  refine ⟨_, by rfl, ?_, ?_⟩ <;> decide +kernel

/-! ### C67 -/

/-- **C67.** The explanation and severity of every shown item are those of the label table, with numbers in
decimal and codes by their published meaning. -/
theorem c67_explanations (p : BitValue × List (String × Severity × String))
    (hp : p ∈ (cvRule, cvRuleLabels) :: labelled) (bs : List Byte) (v : Value)
    (h : p.1.layout.tryFrom bs = .ok v) :
    (p.1.layout.bitDisplayInformation v).map
        (fun r => (⟨r.offset, r.len, r.explanation, r.severity⟩ : Annotation)) =
      annotations p.2 p.1.items bs := annotations_eq hp h

example := c67_explanations (⟨tvrLayout, 5, tvrItems⟩, tvrLabels) (by simp [labelled]) [0, 0x48, 0, 0, 3] _ rfl

/-- **C67.** CVM Results; a failed result is an error. -/
theorem c67_cvm_results (a b c : Byte) (v : CvmResults) (h : CvmResults.tryFrom [a, b, c] = .ok v) :
    v.bitDisplayInformation.map (fun r => (⟨r.offset, r.len, r.explanation, r.severity⟩ : Annotation)) =
      cvmResultsAnnotations [a, b, c] := cvmResults_annotations a b c v h

example := c67_cvm_results 0x42 0x03 0x02 _ rfl

/-- **C67.** Every item of every value has a label. -/
theorem c67_labelled : ∀ p ∈ (cvRule, cvRuleLabels) :: (⟨cvRuleLayout, 3, cvmResultsItems⟩, cvmResultsLabels) ::
    labelled, ∀ t ∈ p.1.items, (p.2.lookup t.name).isSome = true := by decide +kernel

/-- A PIN try count of 3. -/
example : ∃ v, cvrLayout.tryFrom [0, 0x30, 0, 0, 0] = .ok v ∧
    "PIN try count: 3".toList ∈ (cvrLayout.bitDisplayInformation v).map EnabledBitRange.explanation := by
  refine ⟨_, by rfl, ?_⟩
  decide +kernel

end Pemv
