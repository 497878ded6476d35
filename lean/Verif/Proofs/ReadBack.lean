import Verif.Proofs.Reading
import Verif.Proofs.Safety
import Verif.Proofs.Display
import Verif.Proofs.Whole

/-!
# Reading a document back
-/

namespace Pemv

open Spec

/-! ### Texts of documents -/

/-- The text of cells. -/
def cellText (c : Cells) : Text := c.map Prod.fst

theorem cellText_append (a b : Cells) : cellText (a ++ b) = cellText a ++ cellText b := List.map_append

theorem cellText_styled (s : ColorSpec) (t : Text) : cellText (styled s t) = t := by
  simp [cellText, styled, List.map_map, Function.comp_def]

theorem cellText_plain (t : Text) : cellText (plain t) = t := cellText_styled _ t

/-- The text of a document. -/
def docText (i : Nat) (ls : List Line) : Text := cellText (showLines i ls)

theorem docText_nil (i : Nat) : docText i [] = [] := rfl

theorem docText_append (i : Nat) (a b : List Line) : docText i (a ++ b) = docText i a ++ docText i b := by
  rw [docText, render_append, cellText_append]; rfl

theorem docText_line (i : Nat) (hi : i < 256) (c : Cells) (ls : List Line) :
    docText i (line c :: ls) = tabs i ++ (cellText c ++ docText i ls) := by
  haveI : Small i := ⟨hi⟩
  rw [docText, render_cons, render_line, cellText_append, cellText_append, cellText_plain, List.append_assoc]
  rfl

theorem docText_blank (i : Nat) (ls : List Line) : docText i (⟨none, plain ['\n']⟩ :: ls) = '\n' :: docText i ls := by
  rw [docText, render_cons, cellText_append]
  rfl

theorem docText_deeper (i : Nat) (hi : i + 1 < 256) (ls : List Line) : docText i (deeper ls) = docText (i + 1) ls := by
  rw [docText, render_deeper, Nat.mod_eq_of_lt hi]; rfl

/-! ### Indentation -/

theorem tabs_inj {i j : Nat} {x y : Char} {r r' : Text} (hx : x ≠ '\t') (hy : y ≠ '\t')
    (h : tabs i ++ x :: r = tabs j ++ y :: r') : i = j ∧ x = y ∧ r = r' := by
  induction i generalizing j with
  | zero =>
    cases j with
    | zero =>
      have : x :: r = y :: r' := h
      cases this
      exact ⟨rfl, rfl, rfl⟩
    | succ j =>
      have : x :: r = '\t' :: (tabs j ++ y :: r') := h
      cases this
      exact absurd rfl hx
  | succ i ih =>
    cases j with
    | zero =>
      have : '\t' :: (tabs i ++ x :: r) = y :: r' := h
      cases this
      exact absurd rfl hy
    | succ j =>
      have : '\t' :: (tabs i ++ x :: r) = '\t' :: (tabs j ++ y :: r') := h
      obtain ⟨rfl, h1, h2⟩ := ih (List.cons.inj this).2
      exact ⟨rfl, h1, h2⟩

/-! ### The line that introduces a tag -/

theorem no_newline {s : String} (h : s.toByteArray.data.toList.all (fun b => !Nat.beq b.toNat 10) = true) :
    '\n' ∉ s.toList := by
  have e : s.toByteArray.data.toList = s.toList.flatMap String.utf8EncodeChar := by
    rw [← String.utf8Encode_toList, List.utf8Encode]
    simp
  rw [e, List.all_eq_true] at h
  intro hc
  have := h 10 (List.mem_flatMap.2 ⟨'\n', hc, by decide⟩)
  exact absurd this (by decide)

theorem dictionary_lines : dictionary.all (fun p => p.1.toByteArray.data.toList.all (fun b => !Nat.beq b.toNat 10)) = true := by
  decide +kernel

theorem tolerated_lines :
    tolerated.all (fun p => p.2.2.toByteArray.data.toList.all (fun b => !Nat.beq b.toNat 10)) = true := by
  decide +kernel

theorem dictionaryName_line (tag : List Byte) : '\n' ∉ ((dictionaryName tag).getD "<Unknown>").toList := by
  rw [dictionaryName]
  cases h : dictionary.find? (fun p => tagBytes p.2 == tag) with
  | none => exact no_newline (by decide +kernel)
  | some p => exact no_newline (List.all_eq_true.1 dictionary_lines p (List.mem_of_find?_eq_some h))

theorem shownName_line (t : RawEmvTag) : '\n' ∉ ((shownName t).getD "<Unknown>").toList := by
  rw [shownName]
  split
  · exact dictionaryName_line _
  · split
    · rename_i h _
      exact no_newline (List.all_eq_true.1 tolerated_lines _ (lookup_mem h))
    · exact dictionaryName_line _

theorem hexPair_inj {a b : Byte} (h : hexPair a = hexPair b) : a = b := by
  have := congrArg (List.filterMap hexDigit?) h
  rw [hexPair_digits, hexPair_digits] at this
  simp only [List.cons.injEq, and_true] at this
  apply UInt8.toNat_inj.1
  omega

theorem hexPair_length (b : Byte) : (hexPair b).length = 2 := rfl

theorem hexPair_chars (b : Byte) : ' ' ∉ hexPair b := by
  revert b; apply forall_byte; decide +kernel

theorem hexPairs_inj : ∀ {a b : List Byte}, a.flatMap hexPair = b.flatMap hexPair → a = b
  | [], [], _ => rfl
  | [], y :: b, h => by
    have := congrArg List.length h
    rw [List.flatMap_cons, List.length_append, hexPair_length] at this
    simp only [List.flatMap_nil, List.length_nil] at this
    omega
  | x :: a, [], h => by
    have := congrArg List.length h
    simp [List.flatMap_cons, hexPair_length] at this
  | x :: a, y :: b, h => by
    rw [List.flatMap_cons, List.flatMap_cons] at h
    obtain ⟨h1, h2⟩ := List.append_inj h rfl
    rw [hexPair_inj h1, hexPairs_inj h2]

theorem hexPairs_chars (a : List Byte) : ' ' ∉ a.flatMap hexPair := by
  intro h
  obtain ⟨b, -, hb⟩ := List.mem_flatMap.1 h
  exact hexPair_chars b hb

/-- The first word of the size. -/
def sizeWord : EmvData → Text
  | .masked => ['?', '?']
  | .normal d => decimal d.length

/-- The second word of the size. -/
def sizeUnit : EmvData → Text
  | .masked => "bytes".toList
  | .normal d => if d.length = 1 then "byte".toList else "bytes".toList

theorem size_texts : "?? bytes".toList = ['?', '?'] ++ ' ' :: "bytes".toList ∧
    "1 byte".toList = decimal 1 ++ ' ' :: "byte".toList ∧ " bytes".toList = ' ' :: "bytes".toList := by decide +kernel

theorem sizeText_words (d : EmvData) : sizeText d = sizeWord d ++ ' ' :: sizeUnit d := by
  obtain ⟨h0, h1, h2⟩ := size_texts
  unfold sizeText sizeWord sizeUnit
  generalize "?? bytes".toList = a at *
  generalize "1 byte".toList = b at *
  generalize " bytes".toList = c at *
  generalize "bytes".toList = e at *
  generalize "byte".toList = f at *
  cases d with
  | masked => exact h0
  | normal d =>
    by_cases h : d.length = 1
    · simp only [if_pos h]; rw [h, h1]
    · simp only [if_neg h]; rw [h2]

theorem sizeWord_chars (d : EmvData) : ' ' ∉ sizeWord d := by
  cases d with
  | masked => decide
  | normal d => exact fun h => absurd (decimal_digits _ _ h).1 (by decide)

theorem sizeWord_inj {d d' : EmvData} (h : sizeWord d = sizeWord d') :
    sizeUnit d = sizeUnit d' ∧ (d = .masked ∧ d' = .masked ∨ ∃ v v', d = .normal v ∧ d' = .normal v' ∧ v.length = v'.length) := by
  have key : ∀ n, decimal n ≠ ['?', '?'] := by
    intro n h
    exact absurd (decimal_digits n '?' (by rw [h]; simp)).2 (by decide)
  cases d with
  | masked =>
    cases d' with
    | masked => exact ⟨rfl, Or.inl ⟨rfl, rfl⟩⟩
    | normal v => exact absurd h.symm (key _)
  | normal v =>
    cases d' with
    | masked => exact absurd h (key _)
    | normal v' =>
      have := decimal_inj h
      refine ⟨?_, Or.inr ⟨v, v', rfl, rfl, this⟩⟩
      rw [sizeUnit, sizeUnit, this]

/-- The line that introduces a tag, in parts. -/
theorem tagLine_text (t : RawEmvTag) (r : Text) : cellText (tagLine t).cells ++ r =
    'T' :: ("ag: 0x".toList ++ (t.tag.flatMap hexPair ++ ' ' :: ("- ".toList ++ (sizeWord t.data ++ ' ' :: (sizeUnit t.data ++
      (" - ".toList ++ (((shownName t).getD "<Unknown>").toList ++ '\n' :: r))))))) := by
  have h1 : "Tag:".toList = 'T' :: "ag:".toList := by decide +kernel
  have h2 : "ag:".toList ++ " 0x".toList = "ag: 0x".toList := by decide +kernel
  have h3 : " - ".toList = ' ' :: "- ".toList := by decide +kernel
  show cellText (heading "Tag:" ++ plain " 0x".toList ++ bold (t.tag.flatMap hexPair) ++
    plain (" - ".toList ++ sizeText t.data ++ " - ".toList ++ ((shownName t).getD "<Unknown>").toList ++ ['\n'])) ++ r = _
  rw [cellText_append, cellText_append, cellText_append, heading, bold, cellText_styled, cellText_styled, cellText_plain,
    cellText_plain, sizeText_words, h1, List.cons_append, h2]
  generalize ((shownName t).getD "<Unknown>").toList = name
  generalize "ag: 0x".toList = ag
  generalize hsep : " - ".toList = sep at *
  rw [h3]
  simp only [List.append_assoc, List.cons_append, List.nil_append]

theorem tagLine_inj {t t' : RawEmvTag} {r r' : Text} (h : cellText (tagLine t).cells ++ r = cellText (tagLine t').cells ++ r') :
    t.tag = t'.tag ∧ r = r' ∧
      (t.data = .masked ∧ t'.data = .masked ∨ ∃ v v', t.data = .normal v ∧ t'.data = .normal v' ∧ v.length = v'.length) := by
  rw [tagLine_text, tagLine_text] at h
  have h := List.append_cancel_left (List.cons.inj h).2
  obtain ⟨h1, h⟩ := split_at_first (hexPairs_chars _) (hexPairs_chars _) h
  have h := List.append_cancel_left h
  obtain ⟨h2, h⟩ := split_at_first (sizeWord_chars _) (sizeWord_chars _) h
  obtain ⟨h3, h4⟩ := sizeWord_inj h2
  rw [h3] at h
  have h := List.append_cancel_left (List.append_cancel_left h)
  obtain ⟨-, h⟩ := split_at_first (shownName_line t) (shownName_line t') h
  exact ⟨hexPairs_inj h1, h, h4⟩

/-! ### The bytes of a value -/

/-- A row of a dump. -/
def rowText (i : Nat) (r : List Byte) : Text := tabs i ++ (padTo 49 (hexRow r) ++ r.map readable ++ ['\n'])

theorem dump_text (i : Nat) (hi : i < 256) (d : List Byte) : docText i (dumpWithText d) = (rowsOf16 d).flatMap (rowText i) := by
  rw [dumpWithText]
  induction rowsOf16 d with
  | nil => rfl
  | cons r rows ih =>
    rw [List.map_cons, textLine, docText_line i hi, cellText_plain, ih, List.flatMap_cons, rowText, List.append_assoc (tabs i)]

theorem hexRow_inj {a b : List Byte} (h : hexRow a = hexRow b) : a = b := by
  have := congrArg (List.filterMap hexDigit?) h
  rw [hexRow_digits, hexRow_digits] at this
  clear h
  induction a generalizing b with
  | nil =>
    cases b with
    | nil => rfl
    | cons y b => simp at this
  | cons x a ih =>
    cases b with
    | nil => simp at this
    | cons y b =>
      simp only [List.flatMap_cons, List.cons_append, List.nil_append, List.cons.injEq] at this
      have hxy : x = y := UInt8.toNat_inj.1 (by omega)
      rw [hxy, ih this.2.2]

theorem rowText_length (i : Nat) (r : List Byte) (h : r.length ≤ 16) : (rowText i r).length = i + (49 + r.length + 1) := by
  have := hexRow_length r
  simp only [rowText, padTo, tabs, List.length_append, List.length_replicate, List.length_map, List.length_singleton]
  omega

theorem rowText_inj {i : Nat} {r r' : List Byte} (hl : r.length = r'.length) (h : rowText i r = rowText i r') : r = r' := by
  rw [rowText, rowText, List.append_assoc, List.append_assoc] at h
  have h := List.append_cancel_left h
  rw [padTo, padTo, List.append_assoc, List.append_assoc] at h
  obtain ⟨h1, -⟩ := List.append_inj h (by rw [hexRow_length, hexRow_length, hl])
  exact hexRow_inj h1

theorem rows_inj {i : Nat} : ∀ {a b : List (List Byte)} {x y : Text}, a.map List.length = b.map List.length →
    (∀ r ∈ a, r.length ≤ 16) → a.flatMap (rowText i) ++ x = b.flatMap (rowText i) ++ y → a = b ∧ x = y
  | [], [], _, _, _, _, h => ⟨rfl, h⟩
  | [], _ :: _, _, _, hl, _, _ => by cases hl
  | _ :: _, [], _, _, hl, _, _ => by cases hl
  | r :: a, r' :: b, x, y, hl, h16, h => by
    simp only [List.map_cons, List.cons.injEq] at hl
    rw [List.flatMap_cons, List.flatMap_cons, List.append_assoc, List.append_assoc] at h
    have h1 := h16 r (by simp)
    obtain ⟨e1, e2⟩ := List.append_inj h (by rw [rowText_length i r h1, rowText_length i r' (hl.1 ▸ h1), hl.1])
    obtain ⟨rfl, rfl⟩ := rows_inj hl.2 (fun r hr => h16 r (List.mem_cons_of_mem _ hr)) e2
    rw [rowText_inj hl.1 e1]
    exact ⟨rfl, rfl⟩

theorem rowsOf16_lengths {d d' : List Byte} (h : d.length = d'.length) :
    (rowsOf16 d).map List.length = (rowsOf16 d').map List.length := by
  rw [rowsOf16, rowsOf16, List.map_map, List.map_map, h]
  apply List.map_congr_left
  intro k _
  simp [h]

theorem raw_inj {i : Nat} (hi : i + 1 < 256) {v v' : List Byte} {x y : Text} (hl : v.length = v'.length)
    (h : docText i (rawLines (.normal v)) ++ x = docText i (rawLines (.normal v')) ++ y) : v = v' ∧ x = y := by
  cases v with
  | nil =>
    have : v' = [] := List.length_eq_zero_iff.1 hl.symm
    subst this
    exact ⟨rfl, h⟩
  | cons b v =>
    cases v' with
    | nil => cases hl
    | cons b' v' =>
      simp only [rawLines, title] at h
      rw [docText_line i (by omega), docText_line i (by omega), docText_deeper i hi, docText_deeper i hi,
        dump_text _ hi, dump_text _ hi] at h
      simp only [List.append_assoc] at h
      have h := List.append_cancel_left (List.append_cancel_left h)
      obtain ⟨e, rfl⟩ := rows_inj (rowsOf16_lengths hl) (fun r hr => (rowsOf16_mem hr).2) h
      have := congrArg List.flatten e
      rw [rowsOf16_flatten, rowsOf16_flatten] at this
      exact ⟨this, rfl⟩

/-! ### Data objects -/

mutual
/-- The class and type of all tags are those their first bytes tell. -/
def NodeTyped : RawEmvNode → Prop
  | .mk t c => t.cls = classOf t.tag ∧ t.dataObjectType = typeOf t.tag ∧ BlockTyped c
/-- The same for a block. -/
def BlockTyped : List RawEmvNode → Prop
  | [] => True
  | n :: ns => NodeTyped n ∧ BlockTyped ns
end

/-- The heading of the children. -/
def childTitle : Text := ("Constructed Data Object's Child Tags:" ++ "\n").toList

theorem childTitle_start : childTitle = 'C' :: childTitle.tail := by decide +kernel

/-- The text of the children. -/
def childText (i : Nat) : List RawEmvNode → Text
  | [] => []
  | n :: ns => tabs i ++ (childTitle ++ (docText (i + 1) (nodeLines true n) ++ docText (i + 1) (moreLines true ns)))

theorem node_text (i : Nat) (hi : i + 1 < 256) (t : RawEmvTag) (c : List RawEmvNode) (x : Text) :
    docText i (nodeLines true (.mk t c)) ++ x = tabs i ++ (cellText (tagLine t).cells ++ (docText i (rawLines t.data) ++
      (docText i (parsedLines true t) ++ (childText i c ++ x)))) := by
  have h : docText i (tagLine t :: rawLines t.data) = tabs i ++ (cellText (tagLine t).cells ++ docText i (rawLines t.data)) := by
    rw [tagLine, docText_line i (by omega)]; rfl
  cases c with
  | nil =>
    rw [nodeLines, docText_append, docText_append, List.singleton_append, h]
    simp only [docText_nil, List.append_assoc, List.nil_append, childText]
  | cons n ns =>
    rw [nodeLines, docText_append, docText_append, List.singleton_append, h]
    simp only [title]
    rw [docText_line i (by omega), docText_deeper i hi, docText_append, heading, cellText_styled]
    show _ ++ (tabs i ++ (childTitle ++ _)) ++ x = _
    simp only [List.append_assoc, childText]

theorem node_start (i : Nat) (hi : i + 1 < 256) (n : RawEmvNode) : ∃ r, docText i (nodeLines true n) = tabs i ++ 'T' :: r := by
  obtain ⟨t, c⟩ := n
  have := node_text i hi t c []
  rw [List.append_nil, tagLine_text] at this
  exact ⟨_, this⟩

/-- What may follow the objects at a level. -/
def Follows (i : Nat) (x : Text) : Prop := x = [] ∨ ∃ j r, j < i ∧ x = '\n' :: (tabs j ++ 'T' :: r)

theorem follows_mono {i : Nat} {x : Text} (h : Follows i x) : Follows (i + 1) x :=
  h.imp id (fun ⟨j, r, hj, e⟩ => ⟨j, r, by omega, e⟩)

theorem more_start (i : Nat) (hi : i + 1 < 256) (n : RawEmvNode) (ns : List RawEmvNode) (x : Text) : ∃ r,
    docText i (moreLines true (n :: ns)) ++ x = '\n' :: (tabs i ++ 'T' :: r) := by
  obtain ⟨r, hr⟩ := node_start i hi n
  refine ⟨r ++ (docText i (moreLines true ns) ++ x), ?_⟩
  rw [moreLines, List.append_assoc, List.singleton_append, docText_blank, docText_append, hr]
  simp only [List.append_assoc, List.cons_append]

theorem more_follows {i : Nat} (hi : i + 1 < 256) (ns : List RawEmvNode) {x : Text} (h : Follows i x) :
    Follows (i + 1) (docText i (moreLines true ns) ++ x) := by
  cases ns with
  | nil => exact follows_mono h
  | cons n ns =>
    obtain ⟨r, hr⟩ := more_start i hi n ns x
    exact Or.inr ⟨i, r, by omega, hr⟩

/-- No children cannot be taken for children. -/
theorem no_children {i j : Nat} {x r : Text} (h : Follows j x) (e : x = tabs i ++ (childTitle ++ r)) : False := by
  rw [childTitle_start] at e
  rcases h with rfl | ⟨k, s, -, rfl⟩
  · cases i <;> cases e
  · cases i with
    | zero => exact absurd (List.cons.inj e).1 (by decide)
    | succ i => exact absurd (List.cons.inj e).1 (by decide)

/-- No further objects cannot be taken for further objects. -/
theorem no_more {i : Nat} {x r : Text} (h : Follows i x) (e : x = '\n' :: (tabs i ++ 'T' :: r)) : False := by
  rcases h with rfl | ⟨k, s, hk, rfl⟩
  · cases e
  · have := (tabs_inj (by decide) (by decide) (List.cons.inj e).2).1
    omega

theorem data_inj {i : Nat} (hi : i + 1 < 256) {d d' : EmvData} {x y : Text}
    (hd : d = .masked ∧ d' = .masked ∨ ∃ v v', d = .normal v ∧ d' = .normal v' ∧ v.length = v'.length)
    (h : docText i (rawLines d) ++ x = docText i (rawLines d') ++ y) : d = d' ∧ x = y := by
  rcases hd with ⟨rfl, rfl⟩ | ⟨v, v', rfl, rfl, hl⟩
  · exact ⟨rfl, List.append_cancel_left h⟩
  · obtain ⟨h1, h2⟩ := raw_inj hi hl h
    exact ⟨by rw [h1], h2⟩

theorem tag_ext : ∀ {t t' : RawEmvTag}, t.tag = t'.tag → t.cls = t'.cls → t.dataObjectType = t'.dataObjectType →
    t.data = t'.data → t = t'
  | ⟨_, _, _, _⟩, ⟨_, _, _, _⟩, rfl, rfl, rfl, rfl => rfl

mutual
theorem node_inj (i : Nat) : ∀ (n n' : RawEmvNode) (x y : Text), i + nodeDepth n ≤ 255 → i + nodeDepth n' ≤ 255 →
    NodeTyped n → NodeTyped n' → Follows (i + 1) x → Follows (i + 1) y →
    docText i (nodeLines true n) ++ x = docText i (nodeLines true n') ++ y → n = n' ∧ x = y
  | .mk t c, .mk t' c', x, y, hd, hd', hn, hn', hx, hy, h => by
    rw [nodeDepth] at hd hd'
    rw [NodeTyped] at hn hn'
    rw [node_text i (by omega), node_text i (by omega)] at h
    obtain ⟨htag, h, hdata⟩ := tagLine_inj (List.append_cancel_left h)
    obtain ⟨hdata', h⟩ := data_inj (by omega) hdata h
    have ht : t = t' := tag_ext htag (by rw [hn.1, hn'.1, htag]) (by rw [hn.2.1, hn'.2.1, htag]) hdata'
    subst ht
    have h := List.append_cancel_left h
    match c, c', h with
    | [], [], h => exact ⟨rfl, h⟩
    | [], k :: ks, h =>
      simp only [childText, List.nil_append, List.append_assoc] at h
      exact (no_children hx h).elim
    | k :: ks, [], h =>
      simp only [childText, List.nil_append, List.append_assoc] at h
      exact (no_children hy h.symm).elim
    | k :: ks, k' :: ks', h =>
      rw [blockDepth] at hd hd'
      rw [BlockTyped] at hn hn'
      simp only [childText, List.append_assoc] at h
      have h := List.append_cancel_left (List.append_cancel_left h)
      have : 1 ≤ nodeDepth k := by cases k; rw [nodeDepth]; omega
      obtain ⟨h1, h2⟩ := node_inj (i + 1) k k' _ _ (by omega) (by omega) hn.2.2.1 hn'.2.2.1
        (more_follows (by omega) ks hx) (more_follows (by omega) ks' hy) h
      obtain ⟨h3, h4⟩ := more_inj (i + 1) ks ks' _ _ (by omega) (by omega) hn.2.2.2 hn'.2.2.2 hx hy h2
      exact ⟨by rw [h1, h3], h4⟩
theorem more_inj (i : Nat) : ∀ (ns ns' : List RawEmvNode) (x y : Text), i + blockDepth ns ≤ 255 → i + blockDepth ns' ≤ 255 →
    BlockTyped ns → BlockTyped ns' → Follows i x → Follows i y →
    docText i (moreLines true ns) ++ x = docText i (moreLines true ns') ++ y → ns = ns' ∧ x = y
  | [], [], _, _, _, _, _, _, _, _, h => ⟨rfl, h⟩
  | [], n :: ns, x, y, _, hd, _, _, hx, _, h => by
    have : 1 ≤ nodeDepth n := by cases n; rw [nodeDepth]; omega
    rw [blockDepth] at hd
    obtain ⟨r, hr⟩ := more_start i (by omega) n ns y
    exact (no_more hx (h.trans hr)).elim
  | n :: ns, [], x, y, hd, _, _, _, _, hy, h => by
    have : 1 ≤ nodeDepth n := by cases n; rw [nodeDepth]; omega
    rw [blockDepth] at hd
    obtain ⟨r, hr⟩ := more_start i (by omega) n ns x
    exact (no_more hy (h.symm.trans hr)).elim
  | n :: ns, n' :: ns', x, y, hd, hd', hn, hn', hx, hy, h => by
    have : 1 ≤ nodeDepth n := by cases n; rw [nodeDepth]; omega
    rw [blockDepth] at hd hd'
    rw [BlockTyped] at hn hn'
    rw [moreLines, moreLines, List.append_assoc, List.append_assoc, List.singleton_append, List.singleton_append,
      docText_blank, docText_blank, docText_append, docText_append] at h
    rw [List.cons_append, List.cons_append, List.append_assoc, List.append_assoc] at h
    obtain ⟨h1, h2⟩ := node_inj i n n' _ _ (by omega) (by omega) hn.1 hn'.1
      (more_follows (by omega) ns hx) (more_follows (by omega) ns' hy) (List.cons.inj h).2
    obtain ⟨h3, h4⟩ := more_inj i ns ns' _ _ (by omega) (by omega) hn.2 hn'.2 hx hy h2
    exact ⟨by rw [h1, h3], h4⟩
end

theorem block_inj (b b' : List RawEmvNode) (hd : blockDepth b ≤ 255) (hd' : blockDepth b' ≤ 255) (ht : BlockTyped b)
    (ht' : BlockTyped b') (h : docText 0 (blockLines true b) = docText 0 (blockLines true b')) : b = b' := by
  have key : ∀ n ns, 1 ≤ blockDepth (n :: ns) := by
    intro n ns; cases n; rw [blockDepth, nodeDepth]; omega
  match b, b', h with
  | [], [], _ => rfl
  | [], n :: ns, h =>
    obtain ⟨r, hr⟩ := node_start 0 (by omega) n
    rw [blockLines, blockLines, docText_append, hr] at h
    cases h
  | n :: ns, [], h =>
    obtain ⟨r, hr⟩ := node_start 0 (by omega) n
    rw [blockLines, blockLines, docText_append, hr] at h
    cases h
  | n :: ns, n' :: ns', h =>
    refine (more_inj 0 _ _ [] [] (by omega) (by omega) ht ht' (Or.inl rfl) (Or.inl rfl) ?_).1
    have h2 : ∀ k ks, docText 0 (moreLines true (k :: ks)) = '\n' :: docText 0 (blockLines true (k :: ks)) := by
      intro k ks
      rw [moreLines, List.append_assoc, List.singleton_append, docText_blank, blockLines]
    rw [List.append_nil, List.append_nil, h2, h2, h]

mutual
theorem nodeTyped : ∀ n : RawEmvNode, (n.tag.cls = classOf n.tag.tag ∧ n.tag.dataObjectType = typeOf n.tag.tag) →
    (∀ k, InBlock k n.childBlock → k.tag.cls = classOf k.tag.tag ∧ k.tag.dataObjectType = typeOf k.tag.tag) → NodeTyped n
  | .mk t c, h1, h2 => by
    rw [NodeTyped]
    exact ⟨h1.1, h1.2, blockTyped c h2⟩
theorem blockTyped : ∀ b : List RawEmvNode,
    (∀ k, InBlock k b → k.tag.cls = classOf k.tag.tag ∧ k.tag.dataObjectType = typeOf k.tag.tag) → BlockTyped b
  | [], _ => by rw [BlockTyped]; trivial
  | n :: ns, h => by
    rw [BlockTyped]
    refine ⟨nodeTyped n (h n (.here (by simp))) (fun k hk => h k (.deep (p := n) (by simp) hk)), blockTyped ns (fun k hk => ?_)⟩
    cases hk with
    | here hm => exact h k (.here (List.mem_cons_of_mem _ hm))
    | deep hp hq => exact h k (.deep (List.mem_cons_of_mem _ hp) hq)
end

theorem blockTyped_iff : ∀ b : List RawEmvNode, BlockTyped b ↔ ∀ n ∈ b, NodeTyped n
  | [] => by simp [BlockTyped]
  | n :: ns => by simp [BlockTyped, blockTyped_iff ns]

mutual
theorem children_typed : ∀ {b b' : List RawEmvNode}, ChildrenInOrder b b' → BlockTyped b → BlockTyped b'
  | _, _, .nil, h => h
  | _, _, .cons t hc hb, h => by
    rw [BlockTyped, NodeTyped] at h ⊢
    exact ⟨⟨h.1.1, h.1.2.1, inTagOrder_typed hc h.1.2.2⟩, children_typed hb h.2⟩
theorem inTagOrder_typed : ∀ {b b' : List RawEmvNode}, InTagOrder b b' → BlockTyped b → BlockTyped b'
  | _, _, .mk hc hp _ _, h => by
    have := children_typed hc h
    rw [blockTyped_iff] at this ⊢
    exact fun n hn => this n (hp.mem_iff.1 hn)
end

theorem arranged_typed {sort : Bool} {b b' : List RawEmvNode} (h : Arranged sort b b') (ht : BlockTyped b) : BlockTyped b' := by
  cases sort with
  | true => exact inTagOrder_typed h ht
  | false => rw [show b' = b from h]; exact ht

/-! ### Runs -/

theorem reads_typed {m : Machine} {masks : List Char} {ops : CliOps} {b : List RawEmvNode} (h : Reads m masks ops b) :
    BlockTyped b := by
  apply blockTyped
  intro n hn
  cases h with
  | ber hm h =>
    obtain ⟨h1, h2, -⟩ := c17_children masks _ hm b h n hn
    exact ⟨h2, h1⟩
  | ingenico hm h =>
    rcases ing_inBlock hm h hn with ⟨r, -, rfl⟩ | ⟨bytes, b', hm', h', hn'⟩
    · exact ⟨rfl, rfl⟩
    · obtain ⟨h1, h2, -⟩ := c17_children masks _ hm' b' h' n hn'
      exact ⟨h2, h1⟩

theorem reads_shown {m : Machine} {masks : List Char} {ops : CliOps} {b : List RawEmvNode} (h : Reads m masks ops b)
    (hd : blockDepth b ≤ 254) {sort : Bool} {c : Cells} (hs : Succeeds (run m ops masks sort) c) :
    ∃ a, Arranged sort b a ∧ c = showLines 0 (blockLines true a) := by
  have contra : ∀ {msg}, ¬ Fails (run m ops masks sort) msg := fun hf => (c57_exclusive _ _ c).2.2 ⟨hf, hs⟩
  have same : ∀ {c'}, Succeeds (run m ops masks sort) c' → c = c' := fun hs' => shows_cells_unique hs.shows hs'.shows
  rcases processBlock_total b with ⟨q, hq⟩ | ⟨e, he⟩
  · have ha := (c34_ok_iff b).1 ⟨q, hq⟩
    cases h with
    | @ber s _ hm h =>
      obtain ⟨a, h1, h2⟩ := (c58_ber m { berTlv := some s } masks sort _ rfl).2.2 b h ha (Or.inl hd)
      exact ⟨a, h1, same h2⟩
    | @ingenico s _ hm h =>
      obtain ⟨a, h1, h2⟩ := (c58_ingenico m { ingenicoTlv := some s } masks sort _ rfl).2.2 b h ha (Or.inl hd)
      exact ⟨a, h1, same h2⟩
  · cases h with
    | @ber s _ hm h => exact (contra ((c58_ber m { berTlv := some s } masks sort _ rfl).2.1 b e h he)).elim
    | @ingenico s _ hm h => exact (contra ((c58_ingenico m { ingenicoTlv := some s } masks sort _ rfl).2.1 b e h he)).elim

end Pemv
