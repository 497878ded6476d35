import Verif.Proofs.Width
import Verif.Props.Run

/-!
# C81: the output is bounded by the input
-/

namespace Pemv

open Spec

/-- **C81.** No run, whether it ends normally or panics, writes more line breaks to standard output than four
times the square of the number of characters of its argument, plus six. -/
theorem c81_run (m : Machine) (ops : CliOps) (masks : List Char) (sort : Bool) (op : Operation) (s : Text)
    (hs : selected ops = some (op, s)) (hm : Fits m s.length) :
    (run m ops masks sort).disp.text.count '\n' ≤ 4 * (s.length * s.length) + 6 := by
  rw [run_eq, hs]
  show (runOp m masks sort op s).disp.text.count '\n' ≤ _
  obtain ⟨ls, d, ht, hd, hl⟩ := run_document m masks sort op s
  have h1 := prefix_count (truncates_text ht) '\n'
  rw [shows_text hd] at h1
  have h2 : (docText 0 ls).count '\n' = ls.length := count_doc 0 (whole_document hl)
  have h3 := document_length hm hl
  have h4 : (docText 0 ls).count '\n' = ((showLines 0 ls).map Prod.fst).count '\n' := rfl
  omega

example := c81_run .debug64 { berTlv := some "7006 9A01AA 9F0100".toList } [] true .berTlv _ rfl (by unfold Fits; decide +kernel)

/-- **C81.** The options for a single value write at most three line breaks per character of the argument, plus
six. -/
theorem c81_single (m : Machine) (ops : CliOps) (masks : List Char) (sort : Bool) (op : Operation) (s : Text)
    (hs : selected ops = some (op, s)) (hop : op ∈ hexOperations ∨ op = .serviceCode) :
    (run m ops masks sort).disp.text.count '\n' ≤ 3 * s.length + 6 := by
  rw [run_eq, hs]
  show (runOp m masks sort op s).disp.text.count '\n' ≤ _
  obtain ⟨ls, d, ht, hd, hl⟩ := run_document m masks sort op s
  have h1 := prefix_count (truncates_text ht) '\n'
  rw [shows_text hd] at h1
  have h2 : (docText 0 ls).count '\n' = ls.length := count_doc 0 (whole_document hl)
  have h4 : (docText 0 ls).count '\n' = ((showLines 0 ls).map Prod.fst).count '\n' := rfl
  have h3 : ls.length ≤ 3 * s.length + 6 := by
    cases hl with
    | nothing => exact Nat.zero_le _
    | hex h =>
      have h1 := hexReport_length _ _ _ h
      have h2 := hexBytes_length_le s
      omega
    | serviceCode => show 6 ≤ _; omega
    | block h =>
      rcases hop with hop | rfl
      · simp only [hexOperations, List.mem_cons, List.not_mem_nil, or_false] at hop
        rcases hop with rfl | rfl | rfl | rfl | rfl | rfl | rfl <;> cases h
      · cases h
  omega

example := c81_single .debug64 { tvr := some "FF FF FF FF FF".toList } [] true .tvr _ rfl (Or.inl (by decide))

/-- **C81.** A block read by any of the three options is shown on at most eight lines per character of the
argument and level of nesting, plus the two lines that tell the format. So for data of bounded depth, as all
practical data is, the output is linear. -/
theorem c81_blocks (m : Machine) (ops : CliOps) (masks : List Char) (sort : Bool) (op : Operation) (s : Text)
    (b : RawEmvBlock) (hs : selected ops = some (op, s)) (hm : Fits m s.length)
    (hb : op = .autoTlv ∧ (∃ f, autoParse m s masks = .ok (f, b)) ∨
      op = .berTlv ∧ berParse m (hexBytes s) masks = .ok b ∨ op = .ingenicoTlv ∧ ingParse m s masks = .ok b) :
    (run m ops masks sort).disp.text.count '\n' ≤ 8 * s.length * blockDepth b + 2 := by
  obtain ⟨hop, f, hp⟩ := tlvParse_cases hb
  rw [run_eq, hs]
  show (runOp m masks sort op s).disp.text.count '\n' ≤ _
  obtain ⟨ls, d, ht, hd, hl⟩ := run_document m masks sort op s
  have h1 := prefix_count (truncates_text ht) '\n'
  rw [shows_text hd] at h1
  have h2 : (docText 0 ls).count '\n' = ls.length := count_doc 0 (whole_document hl)
  have h4 : (docText 0 ls).count '\n' = ((showLines 0 ls).map Prod.fst).count '\n' := rfl
  have h3 : ls.length ≤ 8 * s.length * blockDepth b + 2 := by
    cases hl with
    | nothing => exact Nat.zero_le _
    | hex h => 
      simp only [List.mem_cons, List.not_mem_nil, or_false] at hop
      rcases hop with rfl | rfl | rfl <;> cases h
    | serviceCode =>
      simp only [List.mem_cons, List.not_mem_nil, or_false] at hop
      rcases hop with h | h | h <;> cases h
    | block h ha hb' =>
      rw [hp] at h
      cases h
      obtain ⟨h1, h2⟩ := tlv_snug masks op s hm _ _ hp
      have h3 := block_length true _ h1 ha
      have h5 : 8 * blockWeight b * blockDepth b ≤ 8 * s.length * blockDepth b :=
        Nat.mul_le_mul_right _ (Nat.mul_le_mul_left _ h2)
      have h6 := header_length f
      rw [List.length_append, arranged_lines true hb']
      omega
  omega

example : ∃ b, berParse .debug64 (hexBytes "7003 9A01AA".toList) [] = .ok b ∧
    (run .debug64 { berTlv := some "7003 9A01AA".toList } [] true).disp.text.count '\n' ≤
      8 * "7003 9A01AA".toList.length * blockDepth b + 2 := by
  have h : berParse .debug64 (hexBytes "7003 9A01AA".toList) [] =
      .ok [.mk ⟨[0x70], .application, .constructed, .normal [0x9A, 1, 0xAA]⟩
        [.mk ⟨[0x9A], .contextSpecific, .primitive, .normal [0xAA]⟩ []]] := by decide +kernel
  exact ⟨_, h, c81_blocks .debug64 { berTlv := some "7003 9A01AA".toList } [] true .berTlv _ _ rfl
    (by unfold Fits; decide +kernel) (Or.inr (Or.inl ⟨rfl, h⟩))⟩

/-- **C81.** The number of characters written is bounded in the same way: no run writes more than 2021 times the
square of the number of characters of its argument, plus 3030. (The argument is one that fits into a 64-bit memory.) -/
theorem c81_characters (m : Machine) (ops : CliOps) (masks : List Char) (sort : Bool) (op : Operation) (s : Text)
    (hs : selected ops = some (op, s)) (hm : Fits m s.length) (h64 : s.length < 2 ^ 64) :
    (run m ops masks sort).disp.text.length ≤ 2021 * (s.length * s.length) + 3030 := by
  rw [run_eq, hs]
  show (runOp m masks sort op s).disp.text.length ≤ _
  obtain ⟨ls, d, ht, hd, hl⟩ := run_document m masks sort op s
  have h1 := (truncates_text ht).length_le
  rw [shows_text hd, List.length_map] at h1
  have h2 := show_length 0 ls
  have h3 := document_length hm hl
  have h4 := document_excess hm h64 hl
  omega

example := c81_characters .debug64 { berTlv := some "7006 9A01AA 9F0100".toList } [] true .berTlv _ rfl
  (by unfold Fits; decide +kernel) (by decide +kernel)

/-- **C81.** For the options for blocks it is at most 4042 characters per character of the argument and level of
nesting, plus 1010. -/
theorem c81_block_characters (m : Machine) (ops : CliOps) (masks : List Char) (sort : Bool) (op : Operation) (s : Text)
    (b : RawEmvBlock) (hs : selected ops = some (op, s)) (hm : Fits m s.length) (h64 : s.length < 2 ^ 64)
    (hb : op = .autoTlv ∧ (∃ f, autoParse m s masks = .ok (f, b)) ∨
      op = .berTlv ∧ berParse m (hexBytes s) masks = .ok b ∨ op = .ingenicoTlv ∧ ingParse m s masks = .ok b) :
    (run m ops masks sort).disp.text.length ≤ 4042 * (s.length * blockDepth b) + 1010 := by
  obtain ⟨hop, f, hp⟩ := tlvParse_cases hb
  rw [run_eq, hs]
  show (runOp m masks sort op s).disp.text.length ≤ _
  obtain ⟨ls, d, ht, hd, hl⟩ := run_document m masks sort op s
  have h1 := (truncates_text ht).length_le
  rw [shows_text hd, List.length_map] at h1
  have h2 := show_length 0 ls
  have h3 : 505 * ls.length + excess ls ≤ 4042 * (s.length * blockDepth b) + 1010 := by
    cases hl with
    | nothing => exact Nat.zero_le _
    | hex h =>
      simp only [List.mem_cons, List.not_mem_nil, or_false] at hop
      rcases hop with rfl | rfl | rfl <;> cases h
    | serviceCode =>
      simp only [List.mem_cons, List.not_mem_nil, or_false] at hop
      rcases hop with h | h | h <;> cases h
    | block h ha hb' =>
      have h9 := block_document_excess hm h64 h ha hb'
      rw [hp] at h
      cases h
      obtain ⟨h1, h2⟩ := tlv_snug masks op s hm _ _ hp
      have h3 := block_length true _ h1 ha
      have h5 : blockWeight b * blockDepth b ≤ s.length * blockDepth b := Nat.mul_le_mul_right _ h2
      have h6 := header_length f
      rw [Nat.mul_assoc] at h3
      rw [List.length_append, arranged_lines true hb']
      omega
  omega

example : ∃ b, berParse .debug64 (hexBytes "7003 9A01AA".toList) [] = .ok b ∧
    (run .debug64 { berTlv := some "7003 9A01AA".toList } [] true).disp.text.length ≤
      4042 * ("7003 9A01AA".toList.length * blockDepth b) + 1010 := by
  have h : berParse .debug64 (hexBytes "7003 9A01AA".toList) [] =
      .ok [.mk ⟨[0x70], .application, .constructed, .normal [0x9A, 1, 0xAA]⟩
        [.mk ⟨[0x9A], .contextSpecific, .primitive, .normal [0xAA]⟩ []]] := by decide +kernel
  exact ⟨_, h, c81_block_characters .debug64 { berTlv := some "7003 9A01AA".toList } [] true .berTlv _ _ rfl
    (by unfold Fits; decide +kernel) (by decide +kernel) (Or.inr (Or.inl ⟨rfl, h⟩))⟩

/-- **C81.** No line of the output is longer than 505 characters (at most 255 of them tabs) plus twice the number
of characters of the argument; only tags can make lines long. -/
theorem c81_width (m : Machine) (ops : CliOps) (masks : List Char) (sort : Bool) (op : Operation) (s : Text)
    (hs : selected ops = some (op, s)) (hm : Fits m s.length) (h64 : s.length < 2 ^ 64) :
    ∀ l ∈ cutLines (run m ops masks sort).disp.text, l.length ≤ 505 + 2 * s.length := by
  rw [run_eq, hs]
  intro l hl
  obtain ⟨ls, d, ht, hd, hdoc⟩ := run_document m masks sort op s
  obtain ⟨i, hi⟩ := List.getElem?_of_mem hl
  obtain ⟨l', hl', hp⟩ := cutLines_prefix (truncates_text ht) i l hi
  have e : d.text = docText 0 ls := shows_text hd
  rw [e, cut_doc 0 (whole_document hdoc)] at hl'
  obtain ⟨x, hx, rfl⟩ := List.mem_map.1 (List.mem_of_getElem? hl')
  have h1 := hp.length_le
  have h2 := render_length 0 x
  have h3 := document_within hm h64 hdoc x hx
  rw [cellText, List.length_map] at h1
  omega

example := c81_width .debug64 { berTlv := some "7006 9A01AA 9F0100".toList } [] true .berTlv _ rfl
  (by unfold Fits; decide +kernel) (by decide +kernel)

/-- **C81.** The square is reached: for every `d` below 2^29 there is an argument of at most `12 · d + 4` characters
for which at least `d² / 16` lines are written. -/
theorem c81_reached (d : Nat) (h : d < 2 ^ 29) (masks : List Char) : ∃ s : Text, s.length ≤ 12 * d + 4 ∧
    d * d ≤ 16 * (run .release64 { berTlv := some s } masks false).disp.text.count '\n' := by
  obtain ⟨h1, h2, -⟩ := nest_encode d (by omega) masks
  have h4 : encodeAll [nest d] = (nest d).encode := by simp [encodeAll]
  obtain ⟨s, -, hl, -, hs, -⟩ := c03_round_trip (encodeAll [nest d])
  refine ⟨s, by rw [hl, h4]; omega, ?_⟩
  have h5 := c58_encoded .release64 masks s [nest d] ⟨h1, trivial⟩ (by rw [← hexBytes_eq]; exact hs)
    (c16_fits_64 rfl _ (by rw [h4]; omega)) (nest_acceptable d) (Or.inr rfl)
  have h6 : (docText 0 (blockLines true (nodes [nest d]))).count '\n' = _ := count_doc 0 (whole_blockLines true _)
  rw [shows_text h5.shows]
  show _ ≤ 16 * (docText 0 (blockLines true (nodes [nest d]))).count '\n'
  rw [h6]
  have h7 := nest_lines true d
  rw [nodes, nodes, blockLines, List.length_append]
  omega

/-- A template with two objects: two levels, eight bytes, nine lines, 304 characters. -/
example : (run .debug64 { berTlv := some "7006 9A01AA 9F0100".toList } [] true).disp.text.count '\n' = 9 ∧
    (run .debug64 { berTlv := some "7006 9A01AA 9F0100".toList } [] true).disp.text.length = 304 ∧
    (cutLines (run .debug64 { berTlv := some "7006 9A01AA 9F0100".toList } [] true).disp.text).map List.length =
      [60, 5, 57, 38, 39, 6, 53, 1, 45] ∧
    (berParse .debug64 (hexBytes "7006 9A01AA 9F0100".toList) []).map blockDepth = .ok 2 := by decide +kernel

end Pemv
