import Verif.Proofs.Outcome

/-!
# Lemmas about dumps, indentation and amounts
-/

namespace Pemv

open Spec

/-! ### Dumps -/

theorem text_seq {a b : Disp} (h : a.panicked = false) : (a.seq b).text = a.text ++ b.text := by
  rw [Disp.seq, h]; exact evText_append _ _

theorem text_all {α : Type} (f : α → Disp) (g : α → Text) (l : List α)
    (h : ∀ a ∈ l, (f a).panicked = false ∧ (f a).text = g a) :
    (Disp.all (l.map f)).panicked = false ∧ (Disp.all (l.map f)).text = l.flatMap g := by
  induction l with
  | nil => exact ⟨rfl, rfl⟩
  | cons a l ih =>
    obtain ⟨h1, h2⟩ := h a (List.mem_cons_self ..)
    obtain ⟨h3, h4⟩ := ih (fun x hx => h x (List.mem_cons_of_mem _ hx))
    rw [List.map_cons, Disp.all, text_seq h1, h2, h4, List.flatMap_cons]
    refine ⟨?_, rfl⟩
    rw [Disp.seq, h1]; exact h3

theorem text_line (i : Nat) (t : Text) : (Disp.all [printIndentation i, .print t, .println []]).panicked = false ∧
    (Disp.all [printIndentation i, .print t, .println []]).text = tabs i ++ t ++ ['\n'] := by
  refine ⟨rfl, ?_⟩
  show evText [.text (List.replicate i '\t'), .text t, .text ([] ++ ['\n'])] = _
  simp [evText, tabs]

theorem printBytes_text (bs : List Byte) (i : Nat) : (printBytes bs 16 i).panicked = false ∧
    (printBytes bs 16 i).text = (rowsOf16 bs).flatMap (fun r => tabs i ++ hexRow r ++ ['\n']) := by
  rw [printBytes, chunks_rows]
  refine text_all _ _ _ (fun r _ => ?_)
  rw [printBytesLine, hexLine_eq]
  exact text_line i _

theorem printBytesPretty_text (bs : List Byte) (i : Nat) : (printBytesPretty bs 16 i).panicked = false ∧
    (printBytesPretty bs 16 i).text =
      (rowsOf16 bs).flatMap (fun r => tabs i ++ (padTo 49 (hexRow r) ++ r.map readable) ++ ['\n']) := by
  rw [printBytesPretty, chunks_rows]
  refine text_all _ _ _ (fun r hr => ?_)
  rw [printBytesPrettyLine, prettyLine_eq r (rowsOf16_mem hr).1 (rowsOf16_mem hr).2]
  exact text_line i _

theorem rowsOf16_flatten (bs : List Byte) : (rowsOf16 bs).flatten = bs := by
  rw [← chunks_rows, chunks]
  have : ∀ (fuel : Nat) (l : List Byte), l.length ≤ fuel → (chunksF 16 fuel l).flatten = l := by
    intro fuel
    induction fuel with
    | zero => intro l h; rw [List.length_eq_zero_iff.1 (Nat.le_zero.1 h)]; rfl
    | succ fuel ih =>
      intro l h
      cases l with
      | nil => rfl
      | cons x xs =>
        rw [chunksF, List.flatten_cons, ih _ (by simp only [List.length_drop, List.length_cons] at h ⊢; omega),
          List.take_append_drop]
  exact this _ _ (Nat.le_refl _)

theorem rowsOf16_full (bs : List Byte) : ∀ r ∈ (rowsOf16 bs).dropLast, r.length = 16 := by
  intro r hr
  rw [rowsOf16, ← List.map_dropLast] at hr
  obtain ⟨i, hi, rfl⟩ := List.mem_map.1 hr
  have hlt : i < (bs.length + 15) / 16 - 1 := by
    cases hn : (bs.length + 15) / 16 with
    | zero => rw [hn] at hi; simp at hi
    | succ n =>
      rw [hn, List.range_succ, List.dropLast_concat, List.mem_range] at hi
      omega
  simp
  omega

theorem hexPair_digits (b : Byte) : (hexPair b).filterMap hexDigit? = [b.toNat / 16, b.toNat % 16] := by
  revert b; apply forall_byte; decide +kernel

theorem tabs_digits (n : Nat) : (tabs n).filterMap hexDigit? = [] := by
  rw [List.filterMap_eq_nil_iff]
  intro c hc
  rw [List.eq_of_mem_replicate hc]; rfl

theorem hexRow_digits (bs : List Byte) :
    (hexRow bs).filterMap hexDigit? = bs.flatMap (fun b => [b.toNat / 16, b.toNat % 16]) := by
  rw [← hexLine_eq]
  induction bs with
  | nil => rfl
  | cons b bs ih =>
    cases bs with
    | nil => rw [hexLine, hexByte_eq, hexPair_digits]; rfl
    | cons c cs =>
      rw [hexLine, hexByte_eq, List.filterMap_append, hexPair_digits, List.filterMap_cons_none (by rfl), ih,
        List.flatMap_cons]
      all_goals simp

theorem decode_rows {rows : List (List Byte)} {f : List Byte → Text}
    (h : ∀ r ∈ rows, (f r).filterMap hexDigit? = r.flatMap (fun b => [b.toNat / 16, b.toNat % 16])) :
    hexDecode (rows.flatMap f) = rows.flatten.map UInt8.toNat := by
  rw [← pairUp_nibbles, hexDecode]
  congr 1
  induction rows with
  | nil => rfl
  | cons r rows ih =>
    rw [List.flatMap_cons, List.filterMap_append, h r (List.mem_cons_self ..), List.flatten_cons,
      List.flatMap_append, ih (fun x hx => h x (List.mem_cons_of_mem _ hx))]

/-! ### Indentation -/

/-- The line that introduces a tag at a depth. -/
def tagLineAt (p : Nat × RawEmvTag) : Line := ⟨some p.1, (tagLine p.2).cells⟩

theorem deeper_sublist {a b : List Line} (h : a.Sublist b) : (deeper a).Sublist (deeper b) := h.map _

mutual
theorem nodeLevels_succ (d : Nat) : ∀ n : RawEmvNode,
    (nodeLevels (d + 1) n).map tagLineAt = deeper ((nodeLevels d n).map tagLineAt)
  | .mk t c => by
    rw [nodeLevels, nodeLevels, List.map_cons, List.map_cons, blockLevels_succ (d + 1) c]; rfl
theorem blockLevels_succ (d : Nat) : ∀ b : List RawEmvNode,
    (blockLevels (d + 1) b).map tagLineAt = deeper ((blockLevels d b).map tagLineAt)
  | [] => by rw [blockLevels, blockLevels]; rfl
  | n :: ns => by
    rw [blockLevels, blockLevels, List.map_append, List.map_append, nodeLevels_succ d n, blockLevels_succ d ns,
      deeper, deeper, deeper, List.map_append]
end

mutual
theorem levels_node (c : Bool) : ∀ n : RawEmvNode, ((nodeLevels 0 n).map tagLineAt).Sublist (nodeLines c n)
  | .mk t [] => by
    rw [nodeLines.eq_def, nodeLevels, blockLevels]
    simp only [List.map_cons, List.map_nil, List.append_assoc, List.cons_append, List.nil_append]
    exact List.Sublist.cons_cons _ (List.nil_sublist _)
  | .mk t (n :: ns) => by
    rw [nodeLines.eq_def, nodeLevels, List.map_cons, blockLevels_succ 0 (n :: ns)]
    simp only [List.append_assoc, List.cons_append, List.nil_append]
    refine List.Sublist.cons_cons _ ?_
    refine List.Sublist.trans ?_ (List.sublist_append_right _ _)
    refine List.Sublist.trans ?_ (List.sublist_append_right _ _)
    refine List.Sublist.cons _ (deeper_sublist ?_)
    rw [blockLevels, List.map_append]
    exact (levels_node c n).append (levels_more c ns)
theorem levels_more (c : Bool) : ∀ b : List RawEmvNode, ((blockLevels 0 b).map tagLineAt).Sublist (moreLines c b)
  | [] => by rw [blockLevels]; exact List.nil_sublist _
  | n :: ns => by
    rw [blockLevels, moreLines, List.map_append]
    exact (List.Sublist.cons _ (levels_node c n)).append (levels_more c ns)
end

theorem levels_block (c : Bool) (b : List RawEmvNode) : ((blockLevels 0 b).map tagLineAt).Sublist (blockLines c b) := by
  cases b with
  | nil => exact levels_more c []
  | cons n ns =>
    rw [blockLevels, blockLines, List.map_append]
    exact (levels_node c n).append (levels_more c ns)

mutual
theorem nodeLevels_bound (d : Nat) : ∀ n : RawEmvNode, ∀ p ∈ nodeLevels d n, p.1 < d + nodeDepth n
  | .mk t c => by
    intro p hp
    rw [nodeLevels] at hp
    rw [nodeDepth]
    rcases List.mem_cons.1 hp with rfl | hp
    · simp only; omega
    · have := blockLevels_bound (d + 1) c p hp; omega
theorem blockLevels_bound (d : Nat) : ∀ b : List RawEmvNode, ∀ p ∈ blockLevels d b, p.1 < d + blockDepth b
  | [] => by intro p hp; rw [blockLevels] at hp; cases hp
  | n :: ns => by
    intro p hp
    rw [blockLevels] at hp
    rw [blockDepth]
    rcases List.mem_append.1 hp with hp | hp
    · have := nodeLevels_bound d n p hp; omega
    · have := blockLevels_bound d ns p hp; omega
end

mutual
theorem children_depth : ∀ {b b' : List RawEmvNode}, ChildrenInOrder b b' → blockDepth b' = blockDepth b
  | _, _, .nil => rfl
  | _, _, .cons t hc hb => by
    rw [blockDepth, blockDepth, nodeDepth, nodeDepth, inTagOrder_depth hc, children_depth hb]
theorem inTagOrder_depth : ∀ {b b' : List RawEmvNode}, InTagOrder b b' → blockDepth b' = blockDepth b
  | _, _, .mk hc hp _ _ => by rw [blockDepth_perm hp, children_depth hc]
end

theorem arranged_depth {sort : Bool} {b b' : List RawEmvNode} (h : Arranged sort b b') :
    blockDepth b' = blockDepth b := by
  cases sort with
  | true => exact inTagOrder_depth h
  | false => rw [show b' = b from h]

mutual
theorem deepest_node (d : Nat) : ∀ n : RawEmvNode, ∃ p ∈ nodeLevels d n, p.1 + 1 = d + nodeDepth n
  | .mk t c => by
    rw [nodeLevels, nodeDepth]
    by_cases h : blockDepth c = 0
    · exact ⟨_, List.mem_cons_self .., by rw [h]⟩
    · obtain ⟨p, hp, he⟩ := deepest (d + 1) c (by omega)
      exact ⟨p, List.mem_cons_of_mem _ hp, by omega⟩
/-- Some tag is as deep as the block. -/
theorem deepest (d : Nat) : ∀ b : List RawEmvNode, 1 ≤ blockDepth b → ∃ p ∈ blockLevels d b, p.1 + 1 = d + blockDepth b
  | [] => by intro h; rw [blockDepth] at h; omega
  | n :: ns => by
    intro h
    rw [blockDepth] at h ⊢
    rw [blockLevels]
    by_cases hn : blockDepth ns ≤ nodeDepth n
    · obtain ⟨p, hp, he⟩ := deepest_node d n
      exact ⟨p, List.mem_append_left _ hp, by omega⟩
    · obtain ⟨p, hp, he⟩ := deepest d ns (by omega)
      exact ⟨p, List.mem_append_right _ hp, by omega⟩
end

/-! ### A deep input -/

theorem nest_acceptable (d : Nat) : AllAcceptable (nodes [nest d]) := by
  have key : ∀ d, ∀ t ∈ nodeTags (nest d).node, t.tag = [0x70] ∨ t.tag = [0x5A] := by
    intro d
    induction d with
    | zero => intro t ht; simp [nest, Obj.node, nodeTags, blockTags] at ht; subst ht; exact Or.inr rfl
    | succ d ih =>
      intro t ht
      simp only [nest, Obj.node, nodeTags, nodes, blockTags, List.append_nil, List.mem_cons] at ht
      rcases ht with rfl | ht
      · exact Or.inl rfl
      · exact ih t ht
  intro t ht v _
  have ht : t ∈ nodeTags (nest d).node := by simpa [nodes, blockTags] using ht
  rcases key d t ht with h | h <;> rw [h] <;> constructor <;> simp

theorem nest_text (d : Nat) (h : d < 2 ^ 29) (masks : List Char) : ∃ s b, s.length ≤ 12 * d + 4 ∧
    (∀ m : Machine, Fits m (6 * d + 2) → berParse m (parseHexStr s) masks = .ok b) ∧ blockDepth b = d + 1 ∧
    AllAcceptable b := by
  obtain ⟨h1, h2, -⟩ := nest_encode d (by omega) masks
  have h4 : encodeAll [nest d] = (nest d).encode := by simp [encodeAll]
  obtain ⟨s, -, hl, -, hs, -⟩ := c03_round_trip (encodeAll [nest d])
  refine ⟨s, nodes [nest d], by rw [hl, h4]; omega, fun m hm => ?_, ?_, nest_acceptable d⟩
  · rw [hs]
    exact c11_round_trip masks _ ⟨h1, trivial⟩ (fits_mono hm (by rw [h4]; omega))
  · clear h h1 h2 h4 hs hl
    induction d with
    | zero => rfl
    | succ d ih =>
      simp only [nest, nodes, Obj.node, blockDepth, nodeDepth, Nat.max_zero] at ih ⊢
      omega

/-! ### Comparing texts in examples -/

/-- A text as a number, the characters being the digits. -/
def textNumber (t : Text) : Nat := t.foldr (fun c n => 2097152 * n + c.toNat) 1

theorem textNumber_pos (t : Text) : 1 ≤ textNumber t := by
  induction t with
  | nil => exact Nat.le_refl 1
  | cons c t ih =>
    have : textNumber (c :: t) = 2097152 * textNumber t + c.toNat := rfl
    omega

theorem textNumber_injective : ∀ {s t : Text}, textNumber s = textNumber t → s = t
  | [], [], _ => rfl
  | [], d :: t, h => by
    have h1 := textNumber_pos t
    have : textNumber (d :: t) = 2097152 * textNumber t + d.toNat := rfl
    have : textNumber [] = 1 := rfl
    omega
  | c :: s, [], h => by
    have h1 := textNumber_pos s
    have : textNumber (c :: s) = 2097152 * textNumber s + c.toNat := rfl
    have : textNumber [] = 1 := rfl
    omega
  | c :: s, d :: t, h => by
    have e1 : textNumber (c :: s) = 2097152 * textNumber s + c.toNat := rfl
    have e2 : textNumber (d :: t) = 2097152 * textNumber t + d.toNat := rfl
    have hc : c.toNat < 2097152 := by
      have := c.valid; rw [UInt32.isValidChar, Nat.isValidChar] at this; show c.val.toNat < _; omega
    have hd : d.toNat < 2097152 := by
      have := d.valid; rw [UInt32.isValidChar, Nat.isValidChar] at this; show d.val.toNat < _; omega
    have : textNumber s = textNumber t := by omega
    have h2 : c.toNat = d.toNat := by omega
    rw [textNumber_injective this, Char.ext (UInt32.toNat_inj.1 h2)]

/-- Texts are compared as numbers, which is quick. -/
theorem same_text {s t : Text} (h : Nat.beq (textNumber s) (textNumber t) = true) : s = t :=
  textNumber_injective (Nat.eq_of_beq_eq_true h)

end Pemv
