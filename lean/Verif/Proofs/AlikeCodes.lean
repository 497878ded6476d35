import Verif.Proofs.Alike

/-!
# When two values look alike: codes, lists and composite values
-/

namespace Pemv

open Spec

/-! ### The texts of codes -/

/-- The method named by a text. -/
def methodOf (t : String) : Option String := (cvmCodes.find? (fun p => (codeTexts.lookup p.2).getD "" == t)).map Prod.snd

/-- The condition named by a text. -/
def conditionOf (t : String) : Option String :=
  (conditionCodes.find? (fun p => (codeTexts.lookup p.2).getD "" == t)).map Prod.snd

theorem methodOf_text (n : Nat) : methodOf (codeText "method" cvmCodes n) = cvmCodes.lookup n := by
  rw [codeText]
  cases h : cvmCodes.lookup n with
  | none => exact (by decide +kernel : methodOf ((unlistedTexts.lookup "method").getD "") = none)
  | some c =>
    have key : ∀ p ∈ cvmCodes, methodOf ((codeTexts.lookup p.2).getD "") = some p.2 := by decide +kernel
    exact key _ (lookup_mem h)

theorem conditionOf_text (n : Nat) : conditionOf (codeText "condition" conditionCodes n) = conditionCodes.lookup n := by
  rw [codeText]
  cases h : conditionCodes.lookup n with
  | none => exact (by decide +kernel : conditionOf ((unlistedTexts.lookup "condition").getD "") = none)
  | some c =>
    have key : ∀ p ∈ conditionCodes, conditionOf ((codeTexts.lookup p.2).getD "") = some p.2 := by decide +kernel
    exact key _ (lookup_mem h)

theorem method_inj {n k : Nat} (h : (codeText "method" cvmCodes n).toList = (codeText "method" cvmCodes k).toList) :
    cvmCodes.lookup n = cvmCodes.lookup k := by
  rw [← methodOf_text, ← methodOf_text, String.toList_inj.1 h]

theorem condition_inj {n k : Nat}
    (h : (codeText "condition" conditionCodes n).toList = (codeText "condition" conditionCodes k).toList) :
    conditionCodes.lookup n = conditionCodes.lookup k := by
  rw [← conditionOf_text, ← conditionOf_text, String.toList_inj.1 h]

theorem codeTexts_lines : codeTexts.all (fun p => p.2.toByteArray.data.toList.all (fun b => !Nat.beq b.toNat 10)) = true := by
  decide +kernel

theorem unlisted_lines : unlistedTexts.all (fun p => p.2.toByteArray.data.toList.all (fun b => !Nat.beq b.toNat 10)) = true := by
  decide +kernel

theorem getD_line {l : List (String × String)}
    (hl : l.all (fun p => p.2.toByteArray.data.toList.all (fun b => !Nat.beq b.toNat 10)) = true) (k : String) :
    '\n' ∉ ((l.lookup k).getD "").toList := by
  cases h : l.lookup k with
  | none => exact no_newline (by decide +kernel)
  | some t => exact no_newline (List.all_eq_true.1 hl _ (lookup_mem h))

theorem codeText_line (item : String) (codes : List (Nat × String)) (n : Nat) : '\n' ∉ (codeText item codes n).toList := by
  rw [codeText]
  split
  · exact getD_line codeTexts_lines _
  · exact getD_line unlisted_lines _

theorem codeText_congr {item : String} {codes : List (Nat × String)} {n k : Nat} (h : codes.lookup n = codes.lookup k) :
    codeText item codes n = codeText item codes k := by
  rw [codeText, codeText, h]

/-! ### Explanations -/

theorem expl_inj {i n : Nat} (hi : i < 256) {full full' : List Annotation} (hf : full.map (·.left) = full'.map (·.left)) {c : Bool} :
    ∀ {rs rs' : List Annotation} {x y : Text}, rs.map (·.left) = rs'.map (·.left) →
      (∀ r ∈ rs, '\n' ∉ r.text) → (∀ r ∈ rs', '\n' ∉ r.text) →
      docText i (rs.map (fun r => line (plain (lead n full r ++ ['└', ' ']) ++
        styled (if c then severityStyle r.severity else plainStyle) (r.text ++ ['\n'])))) ++ x =
      docText i (rs'.map (fun r => line (plain (lead n full' r ++ ['└', ' ']) ++
        styled (if c then severityStyle r.severity else plainStyle) (r.text ++ ['\n'])))) ++ y →
      rs.map (·.text) = rs'.map (·.text) ∧ x = y
  | [], [], _, _, _, _, _, h => ⟨rfl, h⟩
  | [], _ :: _, _, _, hl, _, _, _ => by cases hl
  | _ :: _, [], _, _, hl, _, _, _ => by cases hl
  | r :: rs, r' :: rs', x, y, hl, hn, hn', h => by
    simp only [List.map_cons, List.cons.injEq] at hl
    have hlead : lead n full r = lead n full' r' := by
      have key : ∀ (full : List Annotation) (b : Nat), full.any (fun r => r.left == b) = (full.map (·.left)).any (· == b) := by
        intro full b; rw [List.any_map]; rfl
      simp only [lead, key, hf, hl.1]
    simp only [List.map_cons] at h
    rw [docText_line i hi, docText_line i hi, hlead] at h
    simp only [cellText_append, cellText_plain, cellText_styled, List.append_assoc] at h
    have h := List.append_cancel_left (List.append_cancel_left (List.append_cancel_left h))
    obtain ⟨h1, h⟩ := split_at_first (hn r (by simp)) (hn' r' (by simp)) h
    obtain ⟨h2, h3⟩ := expl_inj hi hf hl.2 (fun r hr => hn r (by simp [hr])) (fun r hr => hn' r (by simp [hr])) h
    exact ⟨by simp [h1, h2], h3⟩

theorem glyph_congr : ∀ {rs rs' : List Annotation}, rs.map (fun r => (r.left, r.width)) = rs'.map (fun r => (r.left, r.width)) →
    ∀ b, headerGlyphAt rs b = headerGlyphAt rs' b
  | [], [], _, _ => rfl
  | [], _ :: _, h, _ => by cases h
  | _ :: _, [], h, _ => by cases h
  | r :: rs, r' :: rs', h, b => by
    simp only [List.map_cons, List.cons.injEq, Prod.mk.injEq] at h
    have ih := glyph_congr h.2 b
    rw [headerGlyphAt, headerGlyphAt] at ih ⊢
    have hh : r.has b = r'.has b := by rw [Annotation.has, Annotation.has, Annotation.right, Annotation.right, h.1.1, h.1.2]
    rw [List.find?_cons, List.find?_cons, hh]
    cases r'.has b with
    | true =>
      simp only [Annotation.right, h.1.1, h.1.2]
      split <;> rfl
    | false => exact ih

theorem header_congr {n : Nat} {rs rs' : List Annotation}
    (h : rs.map (fun r => (r.left, r.width)) = rs'.map (fun r => (r.left, r.width))) : header n rs = header n rs' := by
  have hlast : rs.getLast?.map (fun r => column n r.right + 1) = rs'.getLast?.map (fun r => column n r.right + 1) := by
    have := congrArg List.getLast? h
    rw [List.getLast?_map, List.getLast?_map] at this
    have := congrArg (Option.map (fun p : Nat × Nat => column n (p.1 + 1 - p.2) + 1)) this
    rw [Option.map_map, Option.map_map] at this
    exact this
  rw [header, header, hlast]
  apply List.map_congr_left
  intro k _
  split
  · exact glyph_congr h _
  · rfl

/-- Drawings that look alike have the same bits and explanations. -/
theorem drawing_texts {i : Nat} (hi : i < 256) {a : List Byte} {rs rs' : List Annotation} {c : Bool} {x y : Text}
    (hp : rs.map (fun r => (r.left, r.width)) = rs'.map (fun r => (r.left, r.width)))
    (hn : ∀ r ∈ rs, '\n' ∉ r.text) (hn' : ∀ r ∈ rs', '\n' ∉ r.text)
    (h : docText i (drawingLines a rs c) ++ x = docText i (drawingLines a rs' c) ++ y) :
    rs.map (·.text) = rs'.map (·.text) ∧ x = y := by
  have hw : rs.any (fun r => r.width ≠ 1) = rs'.any (fun r => r.width ≠ 1) := by
    have key : ∀ rs : List Annotation, rs.any (fun r => r.width ≠ 1) = (rs.map (fun r => (r.left, r.width))).any (fun p => p.2 ≠ 1) := by
      intro rs; rw [List.any_map]; rfl
    rw [key, key, hp]
  have hf : rs.map (·.left) = rs'.map (·.left) := by
    have := congrArg (List.map Prod.fst) hp
    rw [List.map_map, List.map_map] at this
    exact this
  rw [drawingLines, drawingLines, docText_append, docText_append, docText_append, docText_append, hw, header_congr hp] at h
  simp only [List.append_assoc] at h
  have h := List.append_cancel_left (List.append_cancel_left h)
  obtain ⟨h1, h2⟩ := expl_inj hi hf (rs := rs.reverse) (rs' := rs'.reverse) (by rw [List.map_reverse, List.map_reverse, hf])
    (fun r hr => hn r (List.mem_reverse.1 hr)) (fun r hr => hn' r (List.mem_reverse.1 hr)) h
  rw [List.map_reverse, List.map_reverse] at h1
  exact ⟨List.reverse_inj.1 h1, h2⟩

/-! ### CVM Results -/

/-- The annotation of an item of CVM Results. -/
def cvmAnnotation (bs : List Byte) (t : Item) : Annotation :=
  if (Item.annotation cvmResultsLabels bs.length bs t).left = 7 ∧ bs.getD 2 0 = 1 then
    { Item.annotation cvmResultsLabels bs.length bs t with severity := .error }
  else Item.annotation cvmResultsLabels bs.length bs t

theorem cvmAnnotation_text (bs : List Byte) (t : Item) :
    (cvmAnnotation bs t).text = (Item.annotation cvmResultsLabels bs.length bs t).text := by
  rw [cvmAnnotation]; split <;> rfl

theorem cvmAnnotation_range (bs : List Byte) (t : Item) :
    ((cvmAnnotation bs t).left, (cvmAnnotation bs t).width) = t.range bs.length := by
  have := annotation_range cvmResultsLabels bs.length bs t
  rw [cvmAnnotation]; split <;> exact Prod.ext this.1 this.2

theorem cvmResultsAnnotations_eq (bs : List Byte) : cvmResultsAnnotations bs = (shown cvmResultsItems bs).map (cvmAnnotation bs) := by
  rw [cvmResultsAnnotations, annotations, List.map_map]; rfl

/-- The items of CVM Results. -/
def flagItem : Item := ⟨"continue_if_unsuccessful", 1, 7, 7, .flag⟩
/-- The method. -/
def methodItem : Item := ⟨"method", 1, 6, 1, .openCode cvmCodes⟩
/-- The condition. -/
def conditionItem : Item := ⟨"condition", 2, 8, 1, .openCode conditionCodes⟩
/-- The result. -/
def resultItem : Item := ⟨"result", 3, 8, 1, .code [(0, "Unknown"), (1, "Failed"), (2, "Successful")]⟩

theorem flag_labelled : cvmResultsLabels.lookup flagItem.name =
    some (.normal, "Apply succeeding CV Rule if this CVM is unsuccessful") := by decide +kernel
theorem method_labelled : cvmResultsLabels.lookup methodItem.name = some (.normal, "Method") := by decide +kernel
theorem condition_labelled : cvmResultsLabels.lookup conditionItem.name = some (.normal, "Condition") := by decide +kernel
theorem result_labelled : cvmResultsLabels.lookup resultItem.name = some (.normal, "Result") := by decide +kernel

theorem method_value (n : Nat) : methodItem.valueText n = (codeText "method" cvmCodes n).toList := by
  show (match cvmCodes.lookup n with
    | some c => ((codeTexts.lookup c).getD "").toList
    | none => ((unlistedTexts.lookup "method").getD "").toList) = _
  rw [codeText]
  cases cvmCodes.lookup n <;> rfl

theorem condition_value (n : Nat) : conditionItem.valueText n = (codeText "condition" conditionCodes n).toList := by
  show (match conditionCodes.lookup n with
    | some c => ((codeTexts.lookup c).getD "").toList
    | none => ((unlistedTexts.lookup "condition").getD "").toList) = _
  rw [codeText]
  cases conditionCodes.lookup n <;> rfl

theorem flag_explained (n : Nat) (bs : List Byte) : (Item.annotation cvmResultsLabels n bs flagItem).text =
    "Apply succeeding CV Rule if this CVM is unsuccessful".toList := by
  rw [Item.annotation, flag_labelled]; rfl

theorem method_explained (n : Nat) (bs : List Byte) : (Item.annotation cvmResultsLabels n bs methodItem).text =
    "Method".toList ++ ": ".toList ++ (codeText "method" cvmCodes (methodItem.bitsOf bs)).toList := by
  rw [Item.annotation, method_labelled, ← method_value]; rfl

theorem condition_explained (n : Nat) (bs : List Byte) : (Item.annotation cvmResultsLabels n bs conditionItem).text =
    "Condition".toList ++ ": ".toList ++ (codeText "condition" conditionCodes (conditionItem.bitsOf bs)).toList := by
  rw [Item.annotation, condition_labelled, ← condition_value]; rfl

theorem result_explained (n : Nat) (bs : List Byte) : ∃ c, (Item.annotation cvmResultsLabels n bs resultItem).text =
    "Result".toList ++ ": ".toList ++ ((codeTexts.lookup c).getD "").toList := by
  rw [Item.annotation, result_labelled]
  show ∃ c, "Result".toList ++ ": ".toList ++ resultItem.valueText (resultItem.bitsOf bs) = _
  have : ∀ n, ∃ c, resultItem.valueText n = ((codeTexts.lookup c).getD "").toList := by
    intro n
    show ∃ c, ((([(0, "Unknown"), (1, "Failed"), (2, "Successful")].lookup n).bind (fun c => codeTexts.lookup c)).getD "").toList = _
    cases [(0, "Unknown"), (1, "Failed"), (2, "Successful")].lookup n with
    | none => exact ⟨"", by decide +kernel⟩
    | some c => exact ⟨c, rfl⟩
  obtain ⟨c, hc⟩ := this (resultItem.bitsOf bs)
  exact ⟨c, by rw [hc]⟩

theorem cvmResultsItems_eq : cvmResultsItems = [flagItem, methodItem, conditionItem, resultItem] := rfl

theorem cvmResults_lines (bs : List Byte) : ∀ r ∈ cvmResultsAnnotations bs, '\n' ∉ r.text := by
  rw [cvmResultsAnnotations_eq]
  intro r hr
  obtain ⟨t, ht, rfl⟩ := List.mem_map.1 hr
  have ht := (List.mem_filter.1 ht).1
  rw [cvmAnnotation_text]
  rw [cvmResultsItems_eq] at ht
  simp only [List.mem_cons, List.not_mem_nil, or_false] at ht
  have hs : ∀ {a b c : Text}, '\n' ∉ a → '\n' ∉ b → '\n' ∉ c → '\n' ∉ a ++ b ++ c := by
    intro a b c h1 h2 h3 h
    rcases List.mem_append.1 h with h | h
    · rcases List.mem_append.1 h with h | h
      · exact h1 h
      · exact h2 h
    · exact h3 h
  rcases ht with rfl | rfl | rfl | rfl
  · rw [flag_explained]; exact no_newline (by decide +kernel)
  · rw [method_explained]; exact hs (no_newline (by decide +kernel)) (no_newline (by decide +kernel)) (codeText_line _ _ _)
  · rw [condition_explained]; exact hs (no_newline (by decide +kernel)) (no_newline (by decide +kernel)) (codeText_line _ _ _)
  · obtain ⟨c, hc⟩ := result_explained bs.length bs
    rw [hc]; exact hs (no_newline (by decide +kernel)) (no_newline (by decide +kernel)) (getD_line codeTexts_lines _)

theorem shown_cvm (bs : List Byte) : shown cvmResultsItems bs =
    (if bits (bs.getD 0 0) 7 7 = 0 then [] else [flagItem]) ++ [methodItem, conditionItem, resultItem] := by
  rw [shown, cvmResultsItems_eq, List.filter_cons]
  have h1 : (!(flagItem.kind == .flag && flagItem.bitsOf bs == 0)) = !(bits (bs.getD 0 0) 7 7 == 0) := by
    show (!(true && flagItem.bitsOf bs == 0)) = _
    rw [Bool.true_and]; rfl
  have h2 : [methodItem, conditionItem, resultItem].filter (fun t => !(t.kind == .flag && t.bitsOf bs == 0)) =
      [methodItem, conditionItem, resultItem] := by
    rw [List.filter_eq_self]
    intro t ht
    simp only [List.mem_cons, List.not_mem_nil, or_false] at ht
    rcases ht with rfl | rfl | rfl <;> rfl
  rw [h1, h2]
  generalize bits (bs.getD 0 0) 7 7 = n
  by_cases h : n = 0
  · simp [h]
  · simp [h]

theorem cvm_first : ∀ n k : Nat, n < 2 → k < 64 → (UInt8.ofNat (64 * n + k)).toNat / 64 = n := by
  intro n k h1 h2
  rw [UInt8.toNat_ofNat']
  omega

theorem listed_lt {codes : List (Nat × String)} {n b : Nat} (hb : 0 < b) (h : n < b) : listedOrZero codes n < b := by
  rw [listedOrZero]; split <;> assumption

theorem cvmResults_alike {i : Nat} (hi : i < 256) {a b : List Byte} (ha : a.length = 3) (hb : b.length = 3) {c : Bool} {x y : Text}
    (h : docText i (cvmResultsLines a c) ++ x = docText i (cvmResultsLines b c) ++ y) : cvmParts a = cvmParts b ∧ x = y := by
  rw [cvmResultsLines, cvmResultsLines] at h
  have hbits : cvmResultsBits a = cvmResultsBits b := drawing_inj hi (by rw [cvmResultsBits, cvmResultsBits]; rfl) h
  rw [hbits] at h
  simp only [cvmResultsBits, List.cons.injEq, and_true] at hbits
  have h7 : bits (a.getD 0 0) 7 7 = bits (b.getD 0 0) 7 7 := by
    have l1 : ∀ b : Byte, bits b 7 7 < 2 := by intro b; rw [bits]; exact Nat.mod_lt _ (by decide)
    have l2 : ∀ b : Byte, bits b 6 1 < 64 := by intro b; rw [bits]; exact Nat.mod_lt _ (by decide)
    rw [← cvm_first _ _ (l1 (a.getD 0 0)) (listed_lt (codes := cvmCodes) (by decide) (l2 (a.getD 0 0))), hbits.1,
      cvm_first _ _ (l1 (b.getD 0 0)) (listed_lt (codes := cvmCodes) (by decide) (l2 (b.getD 0 0)))]
  have hS : shown cvmResultsItems a = shown cvmResultsItems b := by rw [shown_cvm, shown_cvm, h7]
  obtain ⟨ht, hxy⟩ := drawing_texts hi (by
      rw [cvmResultsAnnotations_eq, cvmResultsAnnotations_eq, hS, List.map_map, List.map_map]
      apply List.map_congr_left
      intro t _
      show ((cvmAnnotation a t).left, (cvmAnnotation a t).width) = ((cvmAnnotation b t).left, (cvmAnnotation b t).width)
      rw [cvmAnnotation_range, cvmAnnotation_range, ha, hb]) (cvmResults_lines a) (cvmResults_lines b) h
  rw [cvmResultsAnnotations_eq, cvmResultsAnnotations_eq, hS, List.map_map, List.map_map, List.map_inj_left] at ht
  have hm := ht methodItem (by rw [shown_cvm]; simp)
  have hc := ht conditionItem (by rw [shown_cvm]; simp)
  simp only [Function.comp_apply, cvmAnnotation_text, method_explained, condition_explained] at hm hc
  have hm := method_inj (List.append_cancel_left hm)
  have hc := condition_inj (List.append_cancel_left hc)
  refine ⟨?_, hxy⟩
  simp only [cvmParts, Prod.mk.injEq]
  exact ⟨h7, hm, hc, hbits.2.2⟩

theorem cvmResults_same {a b : List Byte} (ha : a.length = 3) (hb : b.length = 3) (h : cvmParts a = cvmParts b) (c : Bool) :
    cvmResultsLines a c = cvmResultsLines b c := by
  simp only [cvmParts, Prod.mk.injEq] at h
  obtain ⟨h7, hm, hc, hr⟩ := h
  have key : ∀ {codes : List (Nat × String)} {n k : Nat}, (∀ p ∈ codes, ∀ q ∈ codes, p.2 = q.2 → p.1 = q.1) →
      codes.lookup n = codes.lookup k → listedOrZero codes n = listedOrZero codes k := by
    intro codes n k hinj h
    rw [listedOrZero, listedOrZero, h]
    cases h2 : codes.lookup k with
    | none => rfl
    | some c =>
      rw [h2] at h
      simp only [Option.isSome_some, if_true]
      exact hinj _ (lookup_mem h) _ (lookup_mem h2) rfl
  have hbits : cvmResultsBits a = cvmResultsBits b := by
    rw [cvmResultsBits, cvmResultsBits, h7, hr, key (by decide +kernel) hm, key (by decide +kernel) hc]
  have hann : cvmResultsAnnotations a = cvmResultsAnnotations b := by
    rw [cvmResultsAnnotations_eq, cvmResultsAnnotations_eq, shown_cvm, shown_cvm, h7]
    apply List.map_congr_left
    intro t ht
    have : Item.annotation cvmResultsLabels a.length a t = Item.annotation cvmResultsLabels b.length b t := by
      have ht : t ∈ [flagItem, methodItem, conditionItem, resultItem] := by
        split at ht
        · exact List.mem_cons_of_mem _ ht
        · exact ht
      have hl : a.length = b.length := by rw [ha, hb]
      have hr' : ∀ n bs t, ((Item.annotation cvmResultsLabels n bs t).left, (Item.annotation cvmResultsLabels n bs t).width) =
          t.range n := fun n bs t => Prod.ext (annotation_range cvmResultsLabels n bs t).1 (annotation_range cvmResultsLabels n bs t).2
      have ext : ∀ u v : Annotation, (u.left, u.width) = (v.left, v.width) → u.text = v.text → u.severity = v.severity → u = v := by
        intro u v h1 h2 h3; cases u; cases v; simp_all
      simp only [List.mem_cons, List.not_mem_nil, or_false] at ht
      rcases ht with rfl | rfl | rfl | rfl
      · apply ext
        · rw [hr', hr', hl]
        · rw [flag_explained, flag_explained]
        · rw [Item.annotation, Item.annotation, flag_labelled]
      · apply ext
        · rw [hr', hr', hl]
        · rw [method_explained, method_explained, codeText_congr (show cvmCodes.lookup (methodItem.bitsOf a) = _ from hm)]; rfl
        · rw [Item.annotation, Item.annotation, method_labelled]
      · apply ext
        · rw [hr', hr', hl]
        · rw [condition_explained, condition_explained, codeText_congr (show conditionCodes.lookup (conditionItem.bitsOf a) = _ from hc)]; rfl
        · rw [Item.annotation, Item.annotation, condition_labelled]
      · rw [Item.annotation, Item.annotation, hl, show resultItem.bitsOf a = resultItem.bitsOf b from congrArg (fun b => bits b 8 1) hr]
    rw [cvmAnnotation, cvmAnnotation, this, hr]
  rw [cvmResultsLines, cvmResultsLines, hbits, hann]

/-! ### CVM Lists -/

theorem digits_spec (w n : Nat) : ∃ ds, IsDecimal (digitsAtLeast w n) ds ∧ ofDigits 10 ds = n := by
  obtain ⟨ds, h1, h2, -⟩ := padLeft0_spec w n
  rw [natToText_decimal] at h1
  exact ⟨ds, h1, h2⟩

theorem digitsAtLeast_inj {w w' n n' : Nat} (h : digitsAtLeast w n = digitsAtLeast w' n') : n = n' := by
  obtain ⟨ds, h1, rfl⟩ := digits_spec w n
  obtain ⟨ds', h1', rfl⟩ := digits_spec w' n'
  rw [h] at h1
  rw [isDecimal_unique h1 h1']

theorem digitsAtLeast_chars (w n : Nat) : ' ' ∉ digitsAtLeast w n ∧ '\n' ∉ digitsAtLeast w n := by
  constructor
  · intro h
    rcases List.mem_append.1 h with h | h
    · exact absurd (List.eq_of_mem_replicate h) (by decide)
    · exact absurd (decimal_digits _ _ h).1 (by decide)
  · intro h
    rcases List.mem_append.1 h with h | h
    · exact absurd (List.eq_of_mem_replicate h) (by decide)
    · exact absurd (decimal_digits _ _ h).1 (by decide)

theorem docText_aspect {i : Nat} (hi : i + 1 < 256) (label meaning : String) (ls : List Line) :
    docText i (ruleAspect label meaning :: ls) =
      tabs (i + 1) ++ (label.toList ++ ' ' :: (meaning.toList ++ '\n' :: docText i ls)) := by
  rw [ruleAspect, docText, render_cons, cellText_append]
  show cellText (plain (tabs ((i + 1) % 256)) ++ (bold label.toList ++ plain (' ' :: meaning.toList ++ ['\n']))) ++ _ = _
  rw [Nat.mod_eq_of_lt hi]
  simp only [cellText_append, bold, cellText_plain, cellText_styled, List.append_assoc, List.cons_append, List.nil_append]
  rfl

/-- What happens if a method does not succeed. -/
def unsuccessful (n : Nat) : String := if n = 1 then "Next CVM" else "Fail"

theorem unsuccessful_line (n : Nat) : '\n' ∉ (unsuccessful n).toList := by
  rw [unsuccessful]; split <;> exact no_newline (by decide +kernel)

theorem unsuccessful_inj {n k : Nat} (hn : n < 2) (hk : k < 2) (h : (unsuccessful n).toList = (unsuccessful k).toList) : n = k := by
  have key : ∀ n, n < 2 → ∀ k, k < 2 → unsuccessful n = unsuccessful k → n = k := by decide +kernel
  exact key n hn k hk (String.toList_inj.1 h)

theorem rule_text {i : Nat} (hi : i + 1 < 256) (k : Nat) (p : Byte × Byte) (ls : List Line) :
    docText i (ruleLines k p ++ ls) = tabs i ++ ("CVM ".toList ++ (decimal k ++ (":\n".toList ++
      (tabs (i + 1) ++ ("Method:         ".toList ++ ' ' :: ((codeText "method" cvmCodes (bits p.1 6 1)).toList ++ '\n' ::
      (tabs (i + 1) ++ ("Condition:      ".toList ++ ' ' :: ((codeText "condition" conditionCodes p.2.toNat).toList ++ '\n' ::
      (tabs (i + 1) ++ ("If Unsuccessful:".toList ++ ' ' :: ((unsuccessful (bits p.1 7 7)).toList ++ '\n' :: docText i ls)))))))))))) := by
  rw [ruleLines, List.cons_append, docText_line i (by omega), List.cons_append, docText_aspect hi, List.cons_append, docText_aspect hi,
    List.cons_append, docText_aspect hi, List.nil_append, bold, cellText_styled]
  simp only [List.append_assoc]
  rfl

theorem rules_inj {i : Nat} (hi : i + 1 < 256) : ∀ {ps qs : List (Byte × Byte)} {k : Nat},
    docText i ((ps.zipIdx k).flatMap (fun p => ruleLines p.2 p.1)) = docText i ((qs.zipIdx k).flatMap (fun p => ruleLines p.2 p.1)) →
    ps.map rulePart = qs.map rulePart
  | [], [], _, _ => rfl
  | [], q :: qs, k, h => by
    rw [List.zipIdx_cons, List.flatMap_cons, rule_text hi] at h
    have := congrArg List.length h
    simp [docText_nil] at this
  | p :: ps, [], k, h => by
    rw [List.zipIdx_cons, List.flatMap_cons, rule_text hi] at h
    have := congrArg List.length h
    simp [docText_nil] at this
  | p :: ps, q :: qs, k, h => by
    rw [List.zipIdx_cons, List.flatMap_cons, rule_text hi, List.zipIdx_cons, List.flatMap_cons, rule_text hi] at h
    have h := List.append_cancel_left (List.append_cancel_left (List.append_cancel_left (List.append_cancel_left h)))
    have h := (List.cons.inj (List.append_cancel_left (List.append_cancel_left h))).2
    obtain ⟨h1, h⟩ := split_at_first (codeText_line _ _ _) (codeText_line _ _ _) h
    have h := (List.cons.inj (List.append_cancel_left (List.append_cancel_left h))).2
    obtain ⟨h2, h⟩ := split_at_first (codeText_line _ _ _) (codeText_line _ _ _) h
    have h := (List.cons.inj (List.append_cancel_left (List.append_cancel_left h))).2
    obtain ⟨h3, h⟩ := split_at_first (unsuccessful_line _) (unsuccessful_line _) h
    have l1 : ∀ b : Byte, bits b 7 7 < 2 := by intro b; rw [bits]; exact Nat.mod_lt _ (by decide)
    rw [List.map_cons, List.map_cons, rules_inj hi h, rulePart, rulePart, method_inj h1, condition_inj h2,
      unsuccessful_inj (l1 _) (l1 _) h3]

theorem rules_same : ∀ {ps qs : List (Byte × Byte)} {k : Nat}, ps.map rulePart = qs.map rulePart →
    (ps.zipIdx k).flatMap (fun p => ruleLines p.2 p.1) = (qs.zipIdx k).flatMap (fun p => ruleLines p.2 p.1)
  | [], [], _, _ => rfl
  | [], _ :: _, _, h => by cases h
  | _ :: _, [], _, h => by cases h
  | p :: ps, q :: qs, k, h => by
    rw [List.map_cons, List.map_cons] at h
    obtain ⟨h1, h2⟩ := List.cons.inj h
    simp only [rulePart, Prod.mk.injEq] at h1
    rw [List.zipIdx_cons, List.flatMap_cons, List.zipIdx_cons, List.flatMap_cons, rules_same h2, ruleLines, ruleLines,
      codeText_congr h1.1, codeText_congr h1.2.1, h1.2.2]

/-- The amounts, if they are shown. -/
def amountLines (bs : List Byte) : List Line :=
  if amountsMatter bs then
    [entry "X Value:" (' ' :: digitsAtLeast (max 3 (max (decimal (amountX bs)).length (decimal (amountY bs)).length)) (amountX bs) ++
      " (implicit decimal point based on application currency)".toList),
     entry "Y Value:" (' ' :: digitsAtLeast (max 3 (max (decimal (amountX bs)).length (decimal (amountY bs)).length)) (amountY bs))]
  else []

theorem amounts_unimportant {bs : List Byte} (h : amountsMatter bs = false) : amountX bs = 0 ∧ amountY bs = 0 := by
  simp only [amountsMatter, Bool.or_eq_false_iff, decide_eq_false_iff_not, Decidable.not_not] at h
  exact h.1

theorem cvmList_split (bs : List Byte) : cvmListLines bs = amountLines bs ++ ([title "Cardholder Verification Rules:"] ++
    ((pairs (bs.drop 8)).zipIdx 1).flatMap (fun p => ruleLines p.2 p.1)) := by
  rw [cvmListLines, amountLines, List.append_assoc]

theorem title_texts : "X Value:".toList = 'X' :: " Value:".toList ∧
    ("Cardholder Verification Rules:" ++ "\n").toList = 'C' :: "ardholder Verification Rules:\n".toList ∧
    " (implicit decimal point based on application currency)".toList =
      ' ' :: "(implicit decimal point based on application currency)".toList := by decide +kernel

theorem amountLines_text {i : Nat} (hi : i < 256) (bs : List Byte) (x : Text) : amountsMatter bs = true → ∃ w,
    docText i (amountLines bs) ++ x = tabs i ++ 'X' :: (" Value:".toList ++ ' ' :: (digitsAtLeast w (amountX bs) ++ ' ' ::
      ("(implicit decimal point based on application currency)".toList ++ '\n' :: (tabs i ++ ("Y Value:".toList ++
        ' ' :: (digitsAtLeast w (amountY bs) ++ '\n' :: x)))))) := by
  intro h
  rw [amountLines, if_pos h, entry, entry, docText_line i hi, docText_line i hi, docText_nil, title_texts.2.2]
  simp only [cellText_append, heading, cellText_plain, cellText_styled]
  rw [title_texts.1]
  generalize " Value:".toList = a
  generalize "(implicit decimal point based on application currency)".toList = b
  generalize "Y Value:".toList = c
  simp only [List.append_assoc, List.cons_append, List.nil_append]
  exact ⟨_, rfl⟩

theorem rules_text {i : Nat} (hi : i < 256) (ls : List Line) :
    docText i ([title "Cardholder Verification Rules:"] ++ ls) =
      tabs i ++ 'C' :: ("ardholder Verification Rules:\n".toList ++ docText i ls) := by
  rw [List.singleton_append, title, docText_line i hi, heading, cellText_styled, title_texts.2.1, List.cons_append]

theorem cvmList_alike {i : Nat} (hi : i + 1 < 256) {a b : List Byte}
    (h : docText i (cvmListLines a) = docText i (cvmListLines b)) : listParts a = listParts b := by
  rw [cvmList_split, cvmList_split, docText_append i (amountLines a), docText_append i (amountLines b)] at h
  have main : amountX a = amountX b ∧ amountY a = amountY b ∧
      docText i ([title "Cardholder Verification Rules:"] ++ ((pairs (a.drop 8)).zipIdx 1).flatMap (fun p => ruleLines p.2 p.1)) =
      docText i ([title "Cardholder Verification Rules:"] ++ ((pairs (b.drop 8)).zipIdx 1).flatMap (fun p => ruleLines p.2 p.1)) := by
    cases ha : amountsMatter a with
    | true =>
      obtain ⟨w, hw⟩ := amountLines_text (i := i) (by omega) a _ ha
      rw [hw] at h
      cases hb : amountsMatter b with
      | true =>
        obtain ⟨w', hw'⟩ := amountLines_text (i := i) (by omega) b _ hb
        rw [hw'] at h
        have h := (List.cons.inj (List.append_cancel_left h)).2
        have h := (List.cons.inj (List.append_cancel_left h)).2
        obtain ⟨h1, h⟩ := split_at_first (digitsAtLeast_chars _ _).1 (digitsAtLeast_chars _ _).1 h
        have h := (List.cons.inj (List.append_cancel_left h)).2
        have h := (List.cons.inj (List.append_cancel_left (List.append_cancel_left h))).2
        obtain ⟨h2, h⟩ := split_at_first (digitsAtLeast_chars _ _).2 (digitsAtLeast_chars _ _).2 h
        exact ⟨digitsAtLeast_inj h1, digitsAtLeast_inj h2, h⟩
      | false =>
        rw [amountLines, if_neg (by rw [hb]; simp), docText_nil, List.nil_append,
          rules_text (i := i) (by omega) (((pairs (b.drop 8)).zipIdx 1).flatMap (fun p => ruleLines p.2 p.1))] at h
        exact absurd (List.cons.inj (List.append_cancel_left h)).1 (by decide)
    | false =>
      rw [amountLines, if_neg (by rw [ha]; simp), docText_nil, List.nil_append] at h
      cases hb : amountsMatter b with
      | true =>
        obtain ⟨w', hw'⟩ := amountLines_text (i := i) (by omega) b _ hb
        rw [hw', rules_text (i := i) (by omega) (((pairs (a.drop 8)).zipIdx 1).flatMap (fun p => ruleLines p.2 p.1))] at h
        exact absurd (List.cons.inj (List.append_cancel_left h)).1 (by decide)
      | false =>
        rw [amountLines, if_neg (by rw [hb]; simp), docText_nil, List.nil_append] at h
        have h1 := amounts_unimportant ha
        have h2 := amounts_unimportant hb
        exact ⟨h1.1.trans h2.1.symm, h1.2.trans h2.2.symm, h⟩
  obtain ⟨h1, h2, h3⟩ := main
  rw [rules_text (by omega), rules_text (by omega)] at h3
  have h3 := List.append_cancel_left (List.cons.inj (List.append_cancel_left h3)).2
  rw [listParts, listParts, h1, h2, rules_inj hi h3]

theorem condition_listed : ∀ n, n < 256 → (decide (6 ≤ n) && decide (n ≤ 9)) =
    ((conditionCodes.lookup n).map (fun c => ["InApplicationCurrencyUnderX", "InApplicationCurrencyOverX",
      "InApplicationCurrencyUnderY", "InApplicationCurrencyOverY"].contains c)).getD false := by decide +kernel

theorem cvmList_same {a b : List Byte} (h : listParts a = listParts b) : cvmListLines a = cvmListLines b := by
  simp only [listParts, Prod.mk.injEq] at h
  obtain ⟨h1, h2, h3⟩ := h
  have key : ∀ ps : List (Byte × Byte), ps.any (fun p => decide (6 ≤ p.2.toNat) && decide (p.2.toNat ≤ 9)) =
      (ps.map rulePart).any (fun q => (q.2.1.map (fun c => ["InApplicationCurrencyUnderX", "InApplicationCurrencyOverX",
        "InApplicationCurrencyUnderY", "InApplicationCurrencyOverY"].contains c)).getD false) := by
    intro ps
    rw [List.any_map]
    apply List.any_congr rfl
    intro p
    exact condition_listed _ p.2.toNat_lt
  have hm : amountsMatter a = amountsMatter b := by
    rw [amountsMatter, amountsMatter, h1, h2, key, key, h3]
  rw [cvmList_split, cvmList_split, amountLines, amountLines, hm, h1, h2, rules_same h3]

/-! ### Issuer Application Data -/

/-- A row of a dump without text. -/
def bareRow (i : Nat) (r : List Byte) : Text := tabs i ++ (hexRow r ++ ['\n'])

theorem bareDump_text (i : Nat) (hi : i < 256) (d : List Byte) : docText i (dump d) = (rowsOf16 d).flatMap (bareRow i) := by
  rw [dump]
  induction rowsOf16 d with
  | nil => rfl
  | cons r rows ih =>
    rw [List.map_cons, textLine, docText_line i hi, cellText_plain, ih, List.flatMap_cons, bareRow, List.append_assoc (tabs i)]

theorem bareRows_inj {i : Nat} : ∀ {a b : List (List Byte)} {x y : Text}, a.map List.length = b.map List.length →
    a.flatMap (bareRow i) ++ x = b.flatMap (bareRow i) ++ y → a = b ∧ x = y
  | [], [], _, _, _, h => ⟨rfl, h⟩
  | [], _ :: _, _, _, hl, _ => by cases hl
  | _ :: _, [], _, _, hl, _ => by cases hl
  | r :: a, r' :: b, x, y, hl, h => by
    simp only [List.map_cons, List.cons.injEq] at hl
    rw [List.flatMap_cons, List.flatMap_cons, List.append_assoc, List.append_assoc, bareRow, bareRow] at h
    simp only [List.append_assoc] at h
    have h := List.append_cancel_left h
    obtain ⟨e1, e2⟩ := List.append_inj h (by rw [hexRow_length, hexRow_length, hl.1])
    obtain ⟨rfl, rfl⟩ := bareRows_inj hl.2 (List.append_cancel_left e2)
    rw [hexRow_inj e1]
    exact ⟨rfl, rfl⟩

theorem bareDump_inj {i : Nat} (hi : i < 256) {a b : List Byte} {x y : Text} (hl : a.length = b.length)
    (h : docText i (dump a) ++ x = docText i (dump b) ++ y) : a = b ∧ x = y := by
  rw [bareDump_text i hi, bareDump_text i hi] at h
  obtain ⟨e, h1⟩ := bareRows_inj (rowsOf16_lengths hl) h
  have e := congrArg List.flatten e
  rw [rowsOf16_flatten, rowsOf16_flatten] at e
  exact ⟨e, h1⟩

theorem iad_text {i : Nat} (hi : i + 1 < 256) (bs : List Byte) (c : Bool) : docText i (iadLines bs c) =
    docText i [title "Common Core Identifier:"] ++ (docText (i + 1) (bitLines cciItems cciLabels ((bs.drop 1).take 1) c) ++
    (tabs i ++ ("Derivation Key Index:".toList ++ (" 0x".toList ++ (hexPair (bs.getD 2 0) ++ ('\n' :: (docText i [title "Card Verification Results:"] ++
    (docText (i + 1) (bitLines cvrItems cvrLabels ((bs.drop 3).take 5) c) ++
    (docText i [title "Counters: (Payment System-Specific)"] ++ (docText (i + 1) (dump ((bs.drop 8).take 8)) ++
    (docText i [title "Issuer-Discretionary Data"] ++ docText (i + 1) (dump (bs.drop 17))))))))))))) := by
  rw [iadLines]
  simp only [docText_append, docText_deeper i hi, List.append_assoc]
  rw [entry, docText_line i (by omega), cellText_append, heading, cellText_styled, cellText_plain]
  simp only [List.append_assoc, List.cons_append, List.nil_append]

theorem formatA_cci {bs : List Byte} (h : isFormatA bs = true) :
    clearUnused cciItems ((bs.drop 1).take 1) = (bs.drop 1).take 1 := by
  simp only [isFormatA, Bool.and_eq_true, Bool.or_eq_true, beq_iff_eq] at h
  have hd : (bs.drop 1).take 1 = [bs.getD 1 0] := by
    obtain ⟨-, h⟩ := h
    match bs, h with
    | [], h => simp at h
    | [_], h => simp at h
    | _ :: _ :: _, _ => simp
  have h1 : bs.getD 1 0 = 0xA5 ∨ bs.getD 1 0 = 0xA6 := by
    rcases h.2 with h | h
    · left; rw [List.getD_eq_getElem?_getD, h]; rfl
    · right; rw [List.getD_eq_getElem?_getD, h]; rfl
  rw [hd]
  rcases h1 with h1 | h1 <;> rw [h1] <;> decide +kernel

theorem formatA_length {bs : List Byte} (h : isFormatA bs = true) : bs.length = 32 ∧ bs.getD 0 0 = 0x0F ∧ bs.getD 16 0 = 0x0F := by
  simp only [isFormatA, Bool.and_eq_true, beq_iff_eq] at h
  refine ⟨h.1.1.1, ?_, ?_⟩
  · rw [List.getD_eq_getElem?_getD, h.1.1.2]; rfl
  · rw [List.getD_eq_getElem?_getD, h.1.2]; rfl

theorem iad_alike {i : Nat} (hi : i + 1 < 256) {a b : List Byte} (ha : isFormatA a = true) (hb : isFormatA b = true) {c : Bool}
    (h : docText i (iadLines a c) = docText i (iadLines b c)) : SameIad a b := by
  obtain ⟨la, za, sa⟩ := formatA_length ha
  obtain ⟨lb, zb, sb⟩ := formatA_length hb
  rw [iad_text hi, iad_text hi] at h
  have h := List.append_cancel_left h
  have h1 := drawing_inj hi (by simp [clearUnused_length, la, lb]) h
  rw [formatA_cci ha, formatA_cci hb] at h1
  rw [h1] at h
  have h := List.append_cancel_left (List.append_cancel_left (List.append_cancel_left (List.append_cancel_left h)))
  obtain ⟨h2, h⟩ := List.append_inj h rfl
  have h2 := hexPair_inj h2
  have h := List.append_cancel_left (List.cons.inj h).2
  obtain ⟨h3, h⟩ := bitLines_alike (bv := ⟨cvrLayout, 5, cvrItems⟩) hi (by simp [bitValues]) (by decide +kernel)
    (by simp [la]) (by simp [lb]) h
  obtain ⟨h4, h⟩ := bareDump_inj hi (by simp [la, lb]) (List.append_cancel_left h)
  have h5 := (bareDump_inj (a := a.drop 17) (b := b.drop 17) (x := []) (y := []) hi (by simp [la, lb])
    (by rw [List.append_nil, List.append_nil]; exact List.append_cancel_left h)).1
  refine ⟨?_, h3, ?_⟩
  · have key : ∀ bs : List Byte, bs.length = 32 → bs.take 3 = bs.getD 0 0 :: ((bs.drop 1).take 1 ++ [bs.getD 2 0]) := by
      intro bs hl
      match bs, hl with
      | _ :: _ :: _ :: _, _ => simp
    rw [key a la, key b lb, za, zb, h1, h2]
  · have key : ∀ bs : List Byte, bs.length = 32 → bs.drop 8 = (bs.drop 8).take 8 ++ bs.getD 16 0 :: bs.drop 17 := by
      intro bs hl
      have h16 : 16 < bs.length := by omega
      have e1 : (bs.drop 8).drop 8 = bs.getD 16 0 :: bs.drop 17 := by
        rw [List.drop_drop, List.drop_eq_getElem_cons h16, List.getD_eq_getElem?_getD, List.getElem?_eq_getElem h16]
        rfl
      rw [← e1, List.take_append_drop]
    rw [key a la, key b lb, sa, sb, h4, h5]

theorem iad_same {a b : List Byte} (ha : isFormatA a = true) (hb : isFormatA b = true) (h : SameIad a b) (c : Bool) :
    iadLines a c = iadLines b c := by
  obtain ⟨la, za, sa⟩ := formatA_length ha
  obtain ⟨lb, zb, sb⟩ := formatA_length hb
  obtain ⟨h1, h2, h3⟩ := h
  have e1 : (a.drop 1).take 1 = (b.drop 1).take 1 := by
    have := congrArg (fun l => (l.drop 1).take 1) h1
    simpa [List.drop_take, List.take_take] using this
  have e2 : a.getD 2 0 = b.getD 2 0 := by
    have := congrArg (fun l : List Byte => l[2]?) h1
    simp only [List.getElem?_take_of_lt (show 2 < 3 by decide)] at this
    rw [List.getD_eq_getElem?_getD, List.getD_eq_getElem?_getD, this]
  have e3 : a.drop 17 = b.drop 17 := by
    have := congrArg (List.drop 9) h3
    rwa [List.drop_drop, List.drop_drop] at this
  rw [iadLines, iadLines, e1, e2, h3, e3,
    bitLines_agree (bv := ⟨cvrLayout, 5, cvrItems⟩) (by simp [bitValues]) h2 (by simp [la])]

/-! ### Reports -/

theorem report_alike {op : Operation} (hop : op ∈ hexOperations) {a b : List Byte} {ls ls' : List Line}
    (ha : hexReport op a = .ok ls) (hb : hexReport op b = .ok ls') (h : docText 0 ls = docText 0 ls') : SameMeaning op a b := by
  have tail : docText 0 ls ++ [] = docText 0 ls' ++ [] := by rw [h]
  simp only [hexOperations, List.mem_cons, List.not_mem_nil, or_false] at hop
  rcases hop with rfl | rfl | rfl | rfl | rfl | rfl | rfl <;> simp only [hexReport] at ha hb
  · split at ha
    · split at hb
      · rename_i la lb
        cases ha; cases hb
        exact (bitLines_alike (bv := ⟨tvrLayout, 5, tvrItems⟩) (by omega) (by simp [bitValues]) (by decide +kernel) la lb tail).1
      · cases hb
    · cases ha
  · split at ha
    · split at hb
      · rename_i la lb
        cases ha; cases hb
        exact iad_alike (by omega) la lb h
      · cases hb
    · cases ha
  · split at ha
    · split at hb
      · rename_i la lb
        cases ha; cases hb
        exact (bitLines_alike (bv := ⟨cvrLayout, 5, cvrItems⟩) (by omega) (by simp [bitValues]) (by decide +kernel) la lb tail).1
      · cases hb
    · cases ha
  · split at ha
    · split at hb
      · rename_i la lb
        cases ha; cases hb
        exact (bitLines_alike (bv := ⟨tsiLayout, 2, tsiItems⟩) (by omega) (by simp [bitValues]) (by decide +kernel) la lb tail).1
      · cases hb
    · cases ha
  · split at ha
    · cases ha
    · rename_i la
      split at ha
      · cases ha
      · split at hb
        · cases hb
        · rename_i lb
          split at hb
          · cases hb
          · cases ha; cases hb
            exact (cvmResults_alike (by omega) (Decidable.not_not.1 la) (Decidable.not_not.1 lb) tail).1
  · split at ha
    · cases ha
    · split at ha
      · cases ha
      · split at hb
        · cases hb
        · split at hb
          · cases hb
          · cases ha; cases hb
            exact cvmList_alike (by omega) h
  · split at ha
    · cases ha
    · split at hb
      · cases hb
      · cases ha; cases hb
        exact identify_alike h

theorem report_same {op : Operation} (hop : op ∈ hexOperations) {a b : List Byte} {ls ls' : List Line}
    (ha : hexReport op a = .ok ls) (hb : hexReport op b = .ok ls') (h : SameMeaning op a b) : ls = ls' := by
  simp only [hexOperations, List.mem_cons, List.not_mem_nil, or_false] at hop
  rcases hop with rfl | rfl | rfl | rfl | rfl | rfl | rfl <;> simp only [hexReport] at ha hb
  · split at ha
    · split at hb
      · rename_i la lb
        cases ha; cases hb
        exact bitLines_agree (bv := ⟨tvrLayout, 5, tvrItems⟩) (by simp [bitValues]) h la _ _
      · cases hb
    · cases ha
  · split at ha
    · split at hb
      · rename_i la lb
        cases ha; cases hb
        exact iad_same la lb h _
      · cases hb
    · cases ha
  · split at ha
    · split at hb
      · rename_i la lb
        cases ha; cases hb
        exact bitLines_agree (bv := ⟨cvrLayout, 5, cvrItems⟩) (by simp [bitValues]) h la _ _
      · cases hb
    · cases ha
  · split at ha
    · split at hb
      · rename_i la lb
        cases ha; cases hb
        exact bitLines_agree (bv := ⟨tsiLayout, 2, tsiItems⟩) (by simp [bitValues]) h la _ _
      · cases hb
    · cases ha
  · split at ha
    · cases ha
    · rename_i la
      split at ha
      · cases ha
      · split at hb
        · cases hb
        · rename_i lb
          split at hb
          · cases hb
          · cases ha; cases hb
            exact cvmResults_same (Decidable.not_not.1 la) (Decidable.not_not.1 lb) h _
  · split at ha
    · cases ha
    · split at ha
      · cases ha
      · split at hb
        · cases hb
        · split at hb
          · cases hb
          · cases ha; cases hb
            exact cvmList_same h
  · have h : a = b := h
    subst h
    rw [ha] at hb
    cases hb; rfl

theorem succeeds_ok {r : Run} {x : Except Text (List Line)} {c : Cells} (h : Reports r x) (hs : Succeeds r c) :
    ∃ ls, x = .ok ls ∧ c = showLines 0 ls := by
  cases x with
  | ok ls => exact ⟨ls, rfl, shows_cells_unique hs.shows (show Succeeds r _ from h).shows⟩
  | error msg =>
    have h : Fails r msg := h
    have := h.stderr
    rw [hs.stderr] at this
    cases this

end Pemv
