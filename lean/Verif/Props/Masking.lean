import Verif.Props.Auto
import Verif.Props.Process
import Verif.Model.Display

/-!
# C08, C09: masked values
-/

namespace Pemv

open Spec

/-! ### C08 -/

/-- **C08.** A BER-TLV value is masked if and only if it is at least two bytes, all equal to one masking
character; otherwise it is kept as it is. -/
theorem c08_bytes (data : List Byte) (masks : List Char) :
    (IsMasked (latin1 data) masks → EmvData.fromU8CheckForMasked data masks = .masked) ∧
    (¬ IsMasked (latin1 data) masks → EmvData.fromU8CheckForMasked data masks = .normal data) := by
  have := isMaskedU8_iff data masks
  constructor <;> intro h
  · rw [EmvData.fromU8CheckForMasked, if_pos (this.2 h)]
  · rw [EmvData.fromU8CheckForMasked, if_neg (mt this.1 h)]

/-- **C08.** An Ingenico value (always ASCII) is masked if and only if it has at least two characters,
all equal to one masking character. -/
theorem c08_text (t : Text) (h : ∀ c ∈ t, c.toNat < 128) (masks : List Char) :
    isMaskedStr t masks = true ↔ IsMasked t masks := isMaskedStr_iff h masks

example : isMaskedStr "****".toList ['#', '*'] = true := (c08_text _ (by decide) _).2 ⟨by decide, '*', by decide, by decide⟩

/-- **C08.** The reported objects: BER-TLV. -/
theorem c08_ber_nodes {m : Machine} (masks : List Char) (bytes : List Byte) (hm : Fits m bytes.length)
    (ns : RawEmvBlock) (h : berParse m bytes masks = .ok ns) :
    ∃ es, bytes = concat es ∧ IsBlock es ∧
      ns.map (fun n => n.tag.data) = es.map (fun e => dataOf e.value masks) := by
  obtain ⟨es, h1, h2, h3⟩ := (c10_language masks bytes hm ns).1 h
  refine ⟨es, h1, h2, ?_⟩
  rw [h3, List.map_map]
  rfl

example := c08_ber_nodes (m := .debug64) ['*'] [0x5A, 0x02, 0x2A, 0x2A, 0x95, 0x01, 0x2A] (by unfold Fits; decide) _ rfl

/-- **C08.** The reported objects: Ingenico. -/
theorem c08_ingenico_nodes {m : Machine} (masks : List Char) (s : Text) (hm : Fits m s.length)
    (ns : RawEmvBlock) (h : ingParse m s masks = .ok ns) :
    ∃ rs, IsIngenico masks s rs ∧ ns.length = (emvRecords rs).length ∧
      ∀ (i : Nat) (n : RawEmvNode) (r : Record), ns[i]? = some n → (emvRecords rs)[i]? = some r →
        (n.tag.data = .masked ↔ IsMasked r.value masks) := by
  obtain ⟨-, rs, h1, h2⟩ := (c21_language masks s hm ns).1 h
  refine ⟨rs, h1, by rw [h2, List.length_map], ?_⟩
  intro i n r hn hr
  rw [h2, List.getElem?_map, hr] at hn
  cases hn
  show r.data masks = .masked ↔ _
  rw [Record.data]
  by_cases hm : IsMasked r.value masks
  · simp [hm]
  · simp only [hm, if_false, iff_false]
    split <;> simp

example := c08_ingenico_nodes (m := .debug64) ['*'] "T5A:02:h****,C01:00:a".toList (by unfold Fits; decide +kernel)
  [.mk ⟨[0x5A], .application, .primitive, .masked⟩ []] (by decide +kernel)

/-- **C08.** Order and repetition of the masking characters are irrelevant to all three parsers. -/
theorem c08_masks_are_a_set (m : Machine) (masks masks' : List Char) (h : ∀ c, c ∈ masks ↔ c ∈ masks') :
    (∀ bytes, berParse m bytes masks = berParse m bytes masks') ∧
    (∀ s, ingParse m s masks = ingParse m s masks') ∧
    (∀ s, autoParse m s masks = autoParse m s masks') := by
  obtain ⟨h1, h2⟩ := masked_congr h
  have e1 : ∀ d, EmvData.fromU8CheckForMasked d masks = EmvData.fromU8CheckForMasked d masks' := by
    intro d
    have := congrFun h1 d
    rw [EmvData.fromU8CheckForMasked, EmvData.fromU8CheckForMasked, this]
  have e2 : ∀ parse, berStep m masks parse = berStep m masks' parse := by
    intro parse; funext bytes i; simp only [berStep, e1]
  have e3 : ∀ parse bytes fuel i ns, berLoop m masks parse bytes fuel i ns =
      berLoop m masks' parse bytes fuel i ns := by
    intro parse bytes fuel
    induction fuel with
    | zero => intro i ns; rw [berLoop, berLoop]
    | succ fuel ih => intro i ns; rw [berLoop, berLoop]; simp only [e2, ih]
  have e4 : ∀ depth, berParseF m masks depth = berParseF m masks' depth := by
    intro depth
    induction depth with
    | zero => rfl
    | succ depth ih => funext bytes; rw [berParseF, berParseF, ih, e3]
  have hber : ∀ bytes, berParse m bytes masks = berParse m bytes masks' := by
    intro bytes; rw [berParse, berParse, e4]
  have e5 : ∀ d, isMaskedStr d masks = isMaskedStr d masks' := fun d => congrFun h2 d
  have e6 : ingValue m masks = ingValue m masks' := by
    funext data i n; simp only [ingValue, e5]
  have e7 : ∀ parse, ingStep m masks parse = ingStep m masks' parse := by
    intro parse; funext data i; simp only [ingStep, e6]
  have e8 : ∀ parse data fuel i ns, ingLoop m masks parse data fuel i ns =
      ingLoop m masks' parse data fuel i ns := by
    intro parse data fuel
    induction fuel with
    | zero => intro i ns; rw [ingLoop, ingLoop]
    | succ fuel ih => intro i ns; rw [ingLoop, ingLoop]; simp only [e7, ih]
  have hing : ∀ s, ingParse m s masks = ingParse m s masks' := by
    intro s; simp only [ingParse, hber, e8]
  refine ⟨hber, hing, fun s => ?_⟩
  simp only [autoParse, hber, hing]

example := c08_masks_are_a_set .debug64 ['*', '#'] ['#', '*', '*'] (fun c => by simp only [List.mem_cons, List.not_mem_nil, or_false]; exact ⟨fun h => h.elim (fun h => Or.inr (Or.inl h)) Or.inl, fun h => h.elim Or.inr (fun h => h.elim Or.inl Or.inl)⟩)

/-- **C08.** Without masking characters nothing is masked, at any depth and in any format. -/
theorem c08_no_masks {m : Machine} :
    (∀ bytes ns, Fits m bytes.length → berParse m bytes [] = .ok ns →
      ∀ n, InBlock n ns → n.tag.data ≠ .masked) ∧
    (∀ s ns, Fits m s.length → ingParse m s [] = .ok ns → ∀ n, InBlock n ns → n.tag.data ≠ .masked) ∧
    (∀ s f ns, Fits m s.length → autoParse m s [] = .ok (f, ns) →
      ∀ n, InBlock n ns → n.tag.data ≠ .masked) := by
  have none_masked : ∀ t, ¬ IsMasked t [] := by rintro t ⟨-, c, hc, -⟩; cases hc
  have hber : ∀ bytes ns, Fits m bytes.length → berParse m bytes [] = .ok ns →
      ∀ n, InBlock n ns → n.tag.data ≠ .masked := by
    intro bytes ns hm h n hn
    obtain ⟨e, -, -, rfl⟩ := inBlock_nodeOf hn bytes hm h
    rw [(c10_reported _ [] e).2.2 (none_masked _)]
    simp
  have hing : ∀ s ns, Fits m s.length → ingParse m s [] = .ok ns →
      ∀ n, InBlock n ns → n.tag.data ≠ .masked := by
    intro s ns hm h n hn
    rcases ing_inBlock hm h hn with ⟨r, -, rfl⟩ | ⟨bytes, b, hb, hp, hin⟩
    · show r.data [] ≠ .masked
      rw [Record.data, if_neg (none_masked _)]
      split <;> simp
    · exact hber bytes b hb hp n hin
  refine ⟨hber, hing, fun s f ns hm h n hn => ?_⟩
  cases f with
  | ingenico => exact hing s ns hm (((c29_agrees [] s hm).1 ns).1 h).2 n hn
  | berTlv =>
    refine hber _ ns (fits_mono hm ?_) (((c29_agrees [] s hm).2.1 ns).1 h).2.2 n hn
    rw [c01_length]
    have := List.length_filter_le (fun c => decide (IsHex c)) s
    omega

example : IsMasked "****".toList ['#', '*'] ∧ ¬ IsMasked "*".toList ['*'] ∧ ¬ IsMasked "#*".toList ['#', '*'] := by
  refine ⟨⟨by decide, '*', by decide, by decide⟩, fun h => absurd h.1 (by decide), ?_⟩
  rintro ⟨-, c, hc, h⟩
  have h1 := h '#' (by decide)
  have h2 := h '*' (by decide)
  rw [← h2] at h1
  exact absurd h1 (by decide)
example : EmvData.fromU8CheckForMasked [0x2A, 0x2A, 0x2A] ['#', '*'] = .masked ∧
    EmvData.fromU8CheckForMasked [0xCC, 0xCC] ['Ì'] = .masked ∧
    EmvData.fromU8CheckForMasked [0x2A] ['*'] = .normal [0x2A] := by decide

/-! ### C09 -/

/-- **C09.** A masked object has no children, at every depth and in both formats. -/
theorem c09_no_children {m : Machine} (masks : List Char) :
    (∀ bytes ns, Fits m bytes.length → berParse m bytes masks = .ok ns →
      ∀ n, InBlock n ns → n.tag.data = .masked → n.childBlock = []) ∧
    (∀ s ns, Fits m s.length → ingParse m s masks = .ok ns →
      ∀ n, InBlock n ns → n.tag.data = .masked → n.childBlock = []) := by
  have hber : ∀ bytes ns, Fits m bytes.length → berParse m bytes masks = .ok ns →
      ∀ n, InBlock n ns → n.tag.data = .masked → n.childBlock = [] :=
    fun bytes ns hm h n hn hd => (c17_children masks bytes hm ns h n hn).2.2.2.1 hd
  refine ⟨hber, ?_⟩
  intro s ns hm h n hn hd
  obtain ⟨-, rs, h1, h2⟩ := (c21_language masks s hm ns).1 h
  subst h2
  cases hn with
  | here hmem =>
    obtain ⟨r, -, rfl⟩ := List.mem_map.1 hmem
    have hd' : r.data masks = .masked := hd
    show childrenOf _ _ (r.data masks) = []
    rw [hd']
    unfold childrenOf
    split <;> simp_all
  | deep hp hn =>
    obtain ⟨r, hr, rfl⟩ := List.mem_map.1 hp
    have hc : (Record.node (fun v => berParse m v masks) masks r).childBlock =
      childrenOf (fun v => berParse m v masks) (typeOf r.tag) (r.data masks) := rfl
    rw [hc] at hn
    unfold childrenOf at hn
    split at hn
    · rename_i v _ hv
      split at hn
      · rename_i b hb
        have hle : v.length ≤ s.length := by
          have hw : r.WF masks ∧ r.value.length ≤ s.length := by
            have hr' : r ∈ rs := (List.mem_filter.1 hr).1
            clear h hm hr hp hn hc
            induction h1 with
            | nil => cases hr'
            | last x hx => rw [List.mem_singleton.1 hr']; exact ⟨hx, by have := text_length x; omega⟩
            | cons x hx sep rest xs hrest ih =>
              rcases List.mem_cons.1 hr' with rfl | hr'
              · refine ⟨hx, ?_⟩
                have := text_length r
                simp
                omega
              · have := ih hr'
                refine ⟨this.1, ?_⟩
                simp
                omega
          rw [Record.data] at hv
          split at hv
          · cases hv
          · rename_i hnm
            split at hv
            · rename_i hf
              cases hv
              rcases hw.1.value with ⟨hf', -⟩ | ⟨-, -, hx | hx⟩
              · rw [hf] at hf'; cases hf'
              · rw [hexBytes_length hx]; omega
              · exact absurd hx hnm
            · cases hv
              rw [List.length_map]
              exact hw.2
        exact hber v b (fits_mono hm hle) hb n hn hd
      · cases hn with
        | here h => cases h
        | deep h => cases h
    · cases hn with
      | here h => cases h
      | deep h => cases h

/-- **C09.** A masked tag is never interpreted: processing it succeeds without a parsed value. -/
theorem c09_never_interpreted (t : RawEmvTag) (h : t.data = .masked) :
    processEmvTag t = .ok (.raw t) ∨ ∃ name, processEmvTag t = .ok (.annotated name t) := by
  have key : ∀ P : Out ProcessedEmvTag → Prop, P (.ok (.raw t)) → (∀ name, P (.ok (.annotated name t))) →
      P (processEmvTag t) := by
    intro P h1 h2
    unfold processEmvTag
    simp only [parseRaw, parseRawUnrecognised, h]
    split
    · exact h1
    · iterate 15 refine ite_elim P (fun _ => h2 _) (fun _ => ?_)
      exact h2 _
  exact key (fun x => x = .ok (.raw t) ∨ ∃ name, x = .ok (.annotated name t)) (Or.inl rfl)
    (fun name => Or.inr ⟨name, rfl⟩)

example := c09_never_interpreted ⟨[0x95], .contextSpecific, .primitive, .masked⟩ rfl

/-- **C09.** Its name is the identified one. -/
theorem c09_name (t : RawEmvTag) (h : t.data = .masked) :
    (identifyTag t.tag = none ∧ processEmvTag t = .ok (.raw t)) ∨
    ∃ name, identifyTag t.tag = some name ∧ processEmvTag t = .ok (.annotated name t) := by
  rcases processEmvTag_cases t with ⟨dec, d, hdec, hd, hc⟩ | ⟨dec, name, -, hd, hi, hc⟩ | ⟨hn, ⟨name, hi, hc⟩ | ⟨hi, hc⟩⟩
  · rw [h] at hd; cases hd
  · exact Or.inr ⟨name, hi, hc⟩
  · exact Or.inr ⟨name, hi, hc⟩
  · exact Or.inl ⟨hi, hc⟩

example := c09_name ⟨[0x95], .contextSpecific, .primitive, .masked⟩ rfl

/-- The two lines shown for a masked tag. -/
def Spec.maskedLines (indentation : Nat) (tag : List Byte) (name : Text) : Text :=
  List.replicate indentation '\t' ++ "Tag: 0x".toList ++ hexText tag ++ " - ?? bytes - ".toList ++ name ++
  "\n".toList ++ List.replicate indentation '\t' ++ "* Masked *\n".toList

/-- **C09.** What is shown for a masked tag: its tag bytes, its name in the EMV data element
dictionary or `<Unknown>` if it is not there, and the marker. -/
theorem c09_shown (m : Machine) (t : RawEmvTag) (h : t.data = .masked) (indentation : Nat) (show_ : Bool) :
    ∃ p, processEmvTag t = .ok p ∧ (displayTag m p indentation show_).panicked = false ∧
      ∃ name : String, (displayTag m p indentation show_).text = maskedLines indentation t.tag name.toList ∧
        ((∃ n, (name, n) ∈ dictionary ∧ t.tag = tagBytes n) ∨
          (name = "<Unknown>" ∧ ∀ q ∈ dictionary, t.tag ≠ tagBytes q.2)) := by
  have hx : ∀ tag : List Byte, tag.flatMap hexByte = hexText tag := by
    intro tag
    have : hexByte = fun b => ["0123456789ABCDEF".toList[b.toNat / 16]!, "0123456789ABCDEF".toList[b.toNat % 16]!] :=
      funext (forall_byte (by decide +kernel))
    rw [this, hexText]
  rcases c09_name t h with ⟨hi, hp⟩ | ⟨name, hi, hp⟩
  · refine ⟨_, hp, ?_, "<Unknown>", ?_, Or.inr ⟨rfl, ?_⟩⟩
    · simp [displayTag, displayRawTag, printTagName, h, EmvData.len, Disp.all, Disp.seq, printIndentation,
        Disp.print, Disp.println, Disp.color, Disp.reset, Disp.nil, printBytesSmall]
    · simp [displayTag, displayRawTag, printTagName, h, EmvData.len, Disp.all, Disp.seq, printIndentation,
        Disp.print, Disp.println, Disp.color, Disp.reset, Disp.nil, printBytesSmall, Disp.text, evText,
        maskedLines, hx]
    · intro q hq ht
      have := (c65_dictionary t.tag q.1).2 ⟨q.2, hq, ht⟩
      rw [hi] at this
      cases this
  · refine ⟨_, hp, ?_, name, ?_, Or.inl ((c65_dictionary t.tag name).1 hi)⟩
    · simp [displayTag, displayRawTag, printTagName, h, EmvData.len, Disp.all, Disp.seq, printIndentation,
        Disp.print, Disp.println, Disp.color, Disp.reset, Disp.nil, printBytesSmall]
    · simp [displayTag, displayRawTag, printTagName, h, EmvData.len, Disp.all, Disp.seq, printIndentation,
        Disp.print, Disp.println, Disp.color, Disp.reset, Disp.nil, printBytesSmall, Disp.text, evText,
        maskedLines, hx]

example := c09_shown .debug64 ⟨[0x95], .contextSpecific, .primitive, .masked⟩ rfl 1 true

/-- **C09.** What is shown for a masked tag depends on its tag bytes only. -/
theorem c09_depends_on_tag_only (m : Machine) (t t' : RawEmvTag) (h : t.data = .masked)
    (h' : t'.data = .masked) (htag : t.tag = t'.tag) (indentation : Nat) (show_ : Bool) :
    ((processEmvTag t).map (fun p => displayTag m p indentation show_)) =
      (processEmvTag t').map (fun p => displayTag m p indentation show_) := by
  obtain ⟨tag, cls, ty, d⟩ := t
  obtain ⟨tag', cls', ty', d'⟩ := t'
  simp only at h h' htag
  subst h h' htag
  unfold processEmvTag
  simp only [parseRaw, parseRawUnrecognised]
  split
  · rfl
  · iterate 15 refine ite_elim₂ (fun _ => rfl) (fun _ => ?_)
    rfl

example : (displayTag .debug64 (.annotated "Track 2 Equivalent Data" ⟨[0x57], .application, .primitive, .masked⟩) 1
    true).text = "\tTag: 0x57 - ?? bytes - Track 2 Equivalent Data\n\t* Masked *\n".toList := by decide +kernel

end Pemv
