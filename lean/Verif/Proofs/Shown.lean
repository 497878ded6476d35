import Verif.Proofs.Document
import Verif.Props.Process
import Verif.Props.Sort

/-!
# What is shown for tags and blocks
-/

namespace Pemv

open Spec

/-! ### Values by tag -/

theorem lookup_eq_none {tag : List Byte} (h : ∀ dec, (tag, dec) ∉ decoders) (colours : Bool) (d : List Byte) :
    valueLines colours tag d = none := by
  have hn : ∀ t, t ∈ decoders.map Prod.fst → tag ≠ t := by
    intro t ht he
    obtain ⟨p, hp, hpt⟩ := List.mem_map.1 ht
    exact h p.2 (by rw [he, ← hpt]; exact hp)
  have hl : decoders.map Prod.fst = [[0x5F, 0x30], [0x8A], [0x8E], [0x95], [0x9B], [0x9C], [0x9F, 0x0D],
    [0x9F, 0x0E], [0x9F, 0x0F], [0x9F, 0x10], [0x9F, 0x33], [0x9F, 0x34], [0x9F, 0x35], [0x9F, 0x39],
    [0x9F, 0x40]] := rfl
  rw [hl] at hn
  rw [valueLines]
  repeat rw [if_neg (hn _ (by decide))]

/-- A decoded value is shown as specified. -/
theorem shows_value {tag d : List Byte} {dec : List Byte → Out ParsedValue} {p : ParsedValue}
    (hmem : (tag, dec) ∈ decoders) (h : dec d = .ok p) (m : Machine) {i : Nat} [Small i]
    (hi : Steps m i) (colours : Bool) :
    ∃ ls, valueLines colours tag d = some ls ∧ Shows (p.display m i colours) (showLines i ls) := by
  have mapOk : ∀ {α : Type} {x : Out α} {f : α → ParsedValue}, x.map f = .ok p → ∃ v, x = .ok v ∧ p = f v := by
    intro α x f hx
    cases x with
    | ok v => simp only [Out.map_ok, Out.ok.injEq] at hx; exact ⟨v, rfl, hx.symm⟩
    | _ => cases hx
  simp only [decoders, List.mem_cons, List.not_mem_nil, or_false, Prod.mk.injEq] at hmem
  rcases hmem with ⟨rfl, rfl⟩ | ⟨rfl, rfl⟩ | ⟨rfl, rfl⟩ | ⟨rfl, rfl⟩ | ⟨rfl, rfl⟩ | ⟨rfl, rfl⟩ | ⟨rfl, rfl⟩ |
    ⟨rfl, rfl⟩ | ⟨rfl, rfl⟩ | ⟨rfl, rfl⟩ | ⟨rfl, rfl⟩ | ⟨rfl, rfl⟩ | ⟨rfl, rfl⟩ | ⟨rfl, rfl⟩ | ⟨rfl, rfl⟩ <;>
    obtain ⟨v, hv, rfl⟩ := mapOk h
  · refine ⟨_, rfl, ?_⟩
    by_cases hlen : d.length = 2
    · obtain ⟨a, b, rfl⟩ := eq_two hlen
      obtain ⟨k1, k2⟩ := c48_bytes a b
      have hd : a.toNat / 16 = 0 ∧ a.toNat % 16 ≤ 9 ∧ b.toNat / 16 ≤ 9 ∧ b.toNat % 16 ≤ 9 := by
        refine Classical.byContradiction (fun hd => ?_)
        rw [k2 hd] at hv; cases hv
      rw [(k1 hd).1] at hv
      have := shows_serviceCode hv i
      have e1 : (100 * (a.toNat % 16) + 10 * (b.toNat / 16) + b.toNat % 16) / 100 = a.toNat % 16 := by omega
      have e2 : (100 * (a.toNat % 16) + 10 * (b.toNat / 16) + b.toNat % 16) / 10 % 10 = b.toNat / 16 := by omega
      have e3 : (100 * (a.toNat % 16) + 10 * (b.toNat / 16) + b.toNat % 16) % 10 = b.toNat % 16 := by omega
      rw [e1, e2, e3] at this
      exact this
    · rw [c48_length d hlen] at hv; cases hv
  · refine ⟨[textLine v.text.toList], ?_, shows_code _ _⟩
    have : valueLines colours [0x8A] d = (responseText d).map (fun t => [textLine t.toList]) := rfl
    rw [this, responseText_some hv]; rfl
  · exact ⟨_, rfl, shows_cvmList hv hi⟩
  · exact ⟨_, rfl, shows_bitLines (p := (⟨tvrLayout, 5, tvrItems⟩, tvrLabels)) (by simp [labelled]) hv i colours⟩
  · exact ⟨_, rfl, shows_bitLines (p := (⟨tsiLayout, 2, tsiItems⟩, tsiLabels)) (by simp [labelled]) hv i colours⟩
  · obtain ⟨b, rfl, hb⟩ := c63_transaction_type d v hv
    refine ⟨[textLine v.text.toList], ?_, shows_code _ _⟩
    have : valueLines colours [0x9C] [b] =
      (transactionTypes.lookup b.toNat).map (fun t => [textLine t.toList]) := rfl
    rw [this, hb]; rfl
  · exact ⟨_, rfl, shows_iacLines .default hv i⟩
  · exact ⟨_, rfl, shows_iacLines .denial hv i⟩
  · exact ⟨_, rfl, shows_iacLines .online hv i⟩
  · obtain ⟨h1, h2⟩ := shows_iad (m := m) hv hi colours
    refine ⟨_, ?_, h2⟩
    have : valueLines colours [0x9F, 0x10] d = if isFormatA d then some (iadLines d colours) else none := rfl
    rw [this, h1]; rfl
  · exact ⟨_, rfl, shows_bitLines (p := (⟨terminalCapabilitiesLayout, 3, terminalCapabilitiesItems⟩,
      terminalCapabilitiesLabels)) (by simp [labelled]) hv i colours⟩
  · obtain ⟨a, b, c, rfl, -⟩ := (c50_accepted d v).1 hv
    exact ⟨_, rfl, shows_cvmResults a b c v hv i colours⟩
  · obtain ⟨b, rfl, hb⟩ := c63_terminal_type d v hv
    refine ⟨[textLine v.text.toList], ?_, shows_code _ _⟩
    have : valueLines colours [0x9F, 0x35] [b] =
      (terminalType b.toNat).map (fun t => [textLine t.toList]) := rfl
    rw [this, hb]; rfl
  · obtain ⟨b, rfl, hb⟩ := posEntryMode_text d v hv
    refine ⟨[textLine v.text.toList], ?_, shows_code _ _⟩
    have : valueLines colours [0x9F, 0x39] [b] =
      (posEntryModeTexts.lookup b.toNat).map (fun t => [textLine t.toList]) := rfl
    rw [this, hb]; rfl
  · exact ⟨_, rfl, shows_bitLines (p := (⟨additionalTerminalCapabilitiesLayout, 5,
      additionalTerminalCapabilitiesItems⟩, additionalTerminalCapabilitiesLabels)) (by simp [labelled]) hv i colours⟩

/-- A value that is not understood is not shown decoded. -/
theorem value_none {tag d : List Byte} {dec : List Byte → Out ParsedValue} {e : ParseError} {n : String}
    (hmem : (tag, dec) ∈ decoders) (h : dec d = .err e) (htol : tolerated.lookup tag = some (e, n))
    (colours : Bool) : valueLines colours tag d = none := by
  have mapErr : ∀ {α : Type} {x : Out α} {f : α → ParsedValue}, x.map f = .err e → x = .err e := by
    intro α x f hx
    cases x with
    | err e' => simp only [Out.map_err, Out.err.injEq] at hx; rw [hx]
    | _ => cases hx
  simp only [decoders, List.mem_cons, List.not_mem_nil, or_false, Prod.mk.injEq] at hmem
  rcases hmem with ⟨rfl, rfl⟩ | ⟨rfl, rfl⟩ | ⟨rfl, rfl⟩ | ⟨rfl, rfl⟩ | ⟨rfl, rfl⟩ | ⟨rfl, rfl⟩ | ⟨rfl, rfl⟩ |
    ⟨rfl, rfl⟩ | ⟨rfl, rfl⟩ | ⟨rfl, rfl⟩ | ⟨rfl, rfl⟩ | ⟨rfl, rfl⟩ | ⟨rfl, rfl⟩ | ⟨rfl, rfl⟩ | ⟨rfl, rfl⟩ <;>
    first
    | (exfalso; revert htol; simp [tolerated, List.lookup]; done)
    | skip
  · have : valueLines colours [0x8A] d = (responseText d).map (fun t => [textLine t.toList]) := rfl
    rw [this, responseText_none (mapErr h)]; rfl
  · have he : e = .unrecognised := by simp [tolerated, List.lookup] at htol; exact htol.1.symm
    subst he
    have hx := mapErr h
    by_cases hlen : d.length = 1
    · obtain ⟨b, rfl⟩ := eq_one hlen
      have : valueLines colours [0x9C] [b] =
        (transactionTypes.lookup b.toNat).map (fun t => [textLine t.toList]) := rfl
      rw [this, (((c63_errors [b]).2 b rfl).1).2 hx]; rfl
    · rw [((c63_errors d).1 hlen).1] at hx; cases hx
  · have : valueLines colours [0x9F, 0x10] d = if isFormatA d then some (iadLines d colours) else none := rfl
    rw [this, iad_none (mapErr h)]; rfl

/-! ### Tags -/

theorem dictionaryName_eq (tag : List Byte) : dictionaryName tag = identifyTag tag := by
  rw [dictionaryName]
  cases hf : dictionary.find? (fun p => tagBytes p.2 == tag) with
  | none =>
    cases hi : identifyTag tag with
    | none => rfl
    | some name =>
      obtain ⟨n, hn, rfl⟩ := (c65_dictionary tag name).1 hi
      have := List.find?_eq_none.1 hf _ hn
      simp at this
  | some q =>
    have hq := List.mem_of_find?_eq_some hf
    have ht := List.find?_some hf
    simp only [beq_iff_eq] at ht
    exact ((c65_dictionary tag q.1).2 ⟨q.2, hq, ht.symm⟩).symm

theorem size_unknown : ("?? bytes").toList ++ " - ".toList = "?? bytes - ".toList := by
  rw [← String.toList_append]; exact congrArg String.toList (by decide +kernel)

theorem size_unknown' : " - ".toList ++ "?? bytes - ".toList = " - ?? bytes - ".toList := by
  rw [← String.toList_append]; exact congrArg String.toList (by decide +kernel)

theorem size_one : decimal 1 ++ " byte".toList = "1 byte".toList := by
  have : decimal 1 = "1".toList := by decide +kernel
  rw [this, ← String.toList_append]; exact congrArg String.toList (by decide +kernel)

theorem size_many : " byte".toList ++ "s".toList = " bytes".toList := by
  rw [← String.toList_append]; exact congrArg String.toList (by decide +kernel)

theorem join_unknown {a b c d e x : Text} (h1 : b ++ c = d) (h2 : a ++ d = e) :
    e ++ x = a ++ b ++ c ++ x := by
  rw [← h2, ← h1]; simp only [List.append_assoc]

theorem join_size {a b c d e f x : Text} (h1 : b ++ (c ++ d) = e) :
    a ++ b ++ c ++ d ++ f ++ x = a ++ e ++ f ++ x := by
  rw [← h1]; simp only [List.append_assoc]

theorem sizeText_masked (x : Text) :
    " - ?? bytes - ".toList ++ x = " - ".toList ++ sizeText .masked ++ " - ".toList ++ x :=
  join_unknown size_unknown size_unknown'

theorem join_if {p : Prop} [Decidable p] {a b c d f : Text} {s t : String} (h1 : p → a ++ (b ++ s.toList) = c)
    (h2 : ¬ p → a ++ (b ++ t.toList) = d) (hf : f = if p then c else d) :
    a ++ (b ++ (if p then s else t).toList) = f := by
  by_cases h : p
  · rw [hf, if_pos h, if_pos h]; exact h1 h
  · rw [hf, if_neg h, if_neg h]; exact h2 h

theorem sizeText_normal (d : List Byte) (x : Text) :
    " - ".toList ++ natToText d.length ++ " byte".toList ++ (if d.length = 1 then "" else "s").toList ++
      " - ".toList ++ x = " - ".toList ++ sizeText (.normal d) ++ " - ".toList ++ x := by
  apply join_size
  refine join_if (c := "1 byte".toList) (d := decimal d.length ++ " bytes".toList) (fun h => ?_) (fun h => ?_) ?_
  · refine Eq.trans ?_ size_one
    have hn : natToText d.length = decimal 1 := by rw [natToText_decimal, h]
    exact congr (congrArg _ hn) ((congrArg _ String.toList_empty).trans (List.append_nil _))
  · exact congr (congrArg _ (natToText_decimal _)) size_many
  · exact sizeText.eq_def (.normal d)

theorem lines_tagLine {t : RawEmvTag} {name : Option String} (hname : shownName t = name) (i : Nat) [Small i] :
    Shows (printTagName i t.tag t.data.len name) (showLines i [tagLine t]) := by
  rw [render_cons, render_nil, List.append_nil, tagLine, render_line, hname, printTagName.eq_def]
  have h1 : Shows (match t.data.len with
      | some len =>
        Disp.println (" - ".toList ++ natToText len ++ " byte".toList ++ (if len = 1 then "" else "s").toList ++
          " - ".toList ++ (name.getD "<Unknown>").toList)
      | none => Disp.println (" - ?? bytes - ".toList ++ (name.getD "<Unknown>").toList))
      (plain (" - ".toList ++ sizeText t.data ++ " - ".toList ++ (name.getD "<Unknown>").toList ++ ['\n'])) := by
    cases t.data with
    | masked =>
      rw [← sizeText_masked]
      exact shows_println _
    | normal d =>
      rw [← sizeText_normal]
      exact shows_println _
  simp only [List.append_assoc] at h1 ⊢
  have hx : printBytesSmall t.tag = Disp.print (t.tag.flatMap hexPair) := by
    rw [printBytesSmall, flatMap_hexByte]
  rw [hx]
  have h2 := h1.cons shows_all_nil
  rw [List.append_nil] at h2
  exact (shows_indent i).cons (shows_coloured _ _ _ _ ((shows_print _).cons (shows_coloured _ _ _ _ h2)))

theorem shows_rawTag {m : Machine} {t : RawEmvTag} {i : Nat} [Small i] (hi : Steps m i) :
    Shows (displayRawTag m t i) (showLines i (rawLines t.data)) := by
  obtain ⟨tag, cls, typ, data⟩ := t
  cases data with
  | masked => exact lines_title (lines_nil i)
  | normal d =>
    cases d with
    | nil => exact shows_nil
    | cons b bs => exact lines_title (lines_last (lines_deeper hi (shows_dumpWithText _ _)))

/-- A processed tag is shown as specified. -/
theorem shows_tag {m : Machine} {t : RawEmvTag} {p : ProcessedEmvTag} (h : processEmvTag t = .ok p) {i : Nat}
    [Small i] (hi : i < 254 ∨ m.overflowChecks = false) (colours : Bool) :
    Shows (displayTag m p i colours)
      (showLines i ([tagLine t] ++ rawLines t.data ++ parsedLines colours t)) := by
  have hi1 : Steps m i := hi.imp (by omega) id
  have hi2 : Steps m ((i + 1) % 256) := hi.imp (by omega) id
  have hraw : ∀ (x : ProcessedEmvTag) (name : Option String), shownName t = name → parsedLines colours t = [] →
      displayTag m x i colours = .all [printTagName i t.tag t.data.len name, displayRawTag m t i] →
      Shows (displayTag m x i colours)
        (showLines i ([tagLine t] ++ rawLines t.data ++ parsedLines colours t)) := by
    intro x name h1 h2 h3
    rw [h2, h3, List.append_nil]
    exact lines_seq (lines_tagLine h1 i) (lines_last (shows_rawTag hi1))
  rcases processEmvTag_cases t with ⟨dec, d, hdec, hd, hc⟩ | ⟨dec, name, hdec, hd, hn, hc⟩ | ⟨hn, hc⟩
  · rcases hc with ⟨name, q, hname, hq, hc, -⟩ | ⟨e, n, he, htol, hc, -⟩ | ⟨e, -, hc, -⟩
    · rw [hc] at h; cases h
      obtain ⟨ls, hl, hs⟩ := shows_value hdec hq m (i := (i + 1) % 256) hi2 colours
      obtain ⟨ls', hl', -⟩ := shows_value hdec hq m (i := (i + 1) % 256) hi2 false
      have h1 : shownName t = some name := by
        simp only [shownName, hd, hl', dictionaryName_eq, hname]
        split <;> first | rfl | (rename_i hx; cases hx)
      have h2 : parsedLines colours t = title "Parsed:" :: deeper ls := by
        simp only [parsedLines, hd, hl]
      rw [h2, List.append_assoc]
      exact lines_seq (lines_tagLine h1 i) (lines_seq (shows_rawTag hi1)
        (lines_title (lines_last (lines_deeper hi1 hs))))
    · rw [hc] at h; cases h
      refine hraw _ (some n) ?_ ?_ rfl
      · simp only [shownName, hd, htol, value_none hdec he htol]
      · simp only [parsedLines, hd, value_none hdec he htol]
    · rw [hc] at h; cases h
  · rw [hc] at h; cases h
    refine hraw _ (some name) ?_ ?_ rfl
    · simp only [shownName, hd, dictionaryName_eq, hn]
    · simp only [parsedLines, hd]
  · have h1 : shownName t = identifyTag t.tag := by
      rw [← dictionaryName_eq, shownName]
      cases t.data with
      | masked => rfl
      | normal d =>
        have htol : tolerated.lookup t.tag = none := by
          cases hl : tolerated.lookup t.tag with
          | none => rfl
          | some x =>
            have hm := lookup_mem hl
            simp only [tolerated, List.mem_cons, List.not_mem_nil, or_false, Prod.mk.injEq] at hm
            rcases hm with ⟨ht, -⟩ | ⟨ht, -⟩ | ⟨ht, -⟩
            · exact absurd (by rw [ht]; simp [decoders]) (hn (fun d => (arcTryFrom d).map .authorisationResponseCode))
            · exact absurd (by rw [ht]; simp [decoders]) (hn (fun d => (transactionTypeTryFrom d).map .transactionType))
            · exact absurd (by rw [ht]; simp [decoders]) (hn (fun d => (Iad.tryFrom d).map .iad))
        simp only [htol]
    have h2 : parsedLines colours t = [] := by
      rw [parsedLines]
      split
      · rfl
      · rw [lookup_eq_none hn]
    rcases hc with ⟨name, hi', hc⟩ | ⟨hi', hc⟩
    · rw [hc] at h; cases h
      exact hraw _ (some name) (by rw [h1, hi']) h2 rfl
    · rw [hc] at h; cases h
      exact hraw _ none (by rw [h1, hi']) h2 rfl

/-! ### Blocks -/

/-- Every tag was processed from its raw tag. -/
def AllProcessed (b : List ProcessedEmvNode) : Prop := ∀ t ∈ blockProcessed b, processEmvTag (rawOf t) = .ok t

mutual
theorem shows_node {m : Machine} {colours : Bool} : ∀ (n : ProcessedEmvNode) (i : Nat) [Small i],
    (∀ t ∈ nodeProcessed n, processEmvTag (rawOf t) = .ok t) → (i + nodeDepth (eraseNode n) ≤ 254 ∨ m.overflowChecks = false) →
    Shows (displayNode m colours n i) (showLines i (nodeLines colours (eraseNode n)))
  | .mk t c, i, _, hp, hd => by
    rw [eraseNode, nodeDepth] at hd
    have ht := shows_tag (m := m) (hp t (by simp [nodeProcessed])) (i := i) (hd.imp (by omega) id) colours
    cases c with
    | nil =>
      rw [displayNode, eraseNode, eraseBlock, nodeLines]
      have := lines_seq ht (lines_skip (lines_nil i))
      exact this
    | cons n ns =>
      have hc := shows_nodes (m := m) (colours := colours) (n :: ns) ((i + 1) % 256) (fun t ht => hp t (by simp [nodeProcessed]; exact Or.inr ht))
        (hd.imp (by omega) id)
      rw [eraseBlock] at hc
      rw [blockLines] at hc
      rw [displayNode, eraseNode, eraseBlock, nodeLines]
      exact lines_seq ht (lines_last (lines_title (lines_last (lines_deeper (hd.imp (by omega) id) hc))))
theorem shows_nodes {m : Machine} {colours : Bool} : ∀ (b : List ProcessedEmvNode) (i : Nat) [Small i],
    AllProcessed b → (i + blockDepth (eraseBlock b) ≤ 254 ∨ m.overflowChecks = false) →
    Shows (displayNodes m colours b true i) (showLines i (blockLines colours (eraseBlock b)))
  | [], i, _, _, _ => by rw [displayNodes]; exact shows_nil
  | n :: ns, i, _, hp, hd => by
    rw [eraseBlock, blockDepth] at hd
    have hn := shows_node (m := m) (colours := colours) n i
      (fun t ht => hp t (by rw [blockProcessed]; exact List.mem_append_left _ ht)) (hd.imp (by omega) id)
    have hs := shows_more (m := m) (colours := colours) ns i
      (fun t ht => hp t (by rw [blockProcessed]; exact List.mem_append_right _ ht)) (hd.imp (by omega) id)
    rw [displayNodes, eraseBlock, blockLines]
    exact lines_skip (lines_seq hn (lines_last hs))
theorem shows_more {m : Machine} {colours : Bool} : ∀ (b : List ProcessedEmvNode) (i : Nat) [Small i],
    AllProcessed b → (i + blockDepth (eraseBlock b) ≤ 254 ∨ m.overflowChecks = false) →
    Shows (displayNodes m colours b false i) (showLines i (moreLines colours (eraseBlock b)))
  | [], i, _, _, _ => by rw [displayNodes]; exact shows_nil
  | n :: ns, i, _, hp, hd => by
    rw [eraseBlock, blockDepth] at hd
    have hn := shows_node (m := m) (colours := colours) n i
      (fun t ht => hp t (by rw [blockProcessed]; exact List.mem_append_left _ ht)) (hd.imp (by omega) id)
    have hs := shows_more (m := m) (colours := colours) ns i
      (fun t ht => hp t (by rw [blockProcessed]; exact List.mem_append_right _ ht)) (hd.imp (by omega) id)
    rw [displayNodes, eraseBlock, moreLines, List.append_assoc]
    refine lines_seq (a := [⟨none, plain ['\n']⟩]) ?_ (lines_seq hn (lines_last hs))
    exact shows_println []
end

end Pemv
