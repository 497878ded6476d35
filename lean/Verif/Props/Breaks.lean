import Verif.Proofs.Breaks
import Verif.Proofs.Depth

/-!
# C80: no value can break or forge a line
-/

namespace Pemv

open Spec

/-- **C80.** What a run that does not panic writes to standard output is a sequence of complete lines: each is a
number of tabs, text without a tab, and a line break. Whatever the options, the mask characters, the build and
the target, nothing in the input can put a tab or a line break anywhere else. -/
theorem c80_lines (m : Machine) (ops : CliOps) (masks : List Char) (sort : Bool)
    (h : (run m ops masks sort).disp.panicked = false) :
    ∀ l ∈ cutLines (run m ops masks sort).disp.text, ∃ k t, l = tabs k ++ t ++ ['\n'] ∧ k < 256 ∧ Inline t := by
  rw [run_eq] at h ⊢
  cases hs : selected ops with
  | none => intro l hl; cases hl
  | some p =>
    obtain ⟨op, s⟩ := p
    rw [hs] at h
    show ∀ l ∈ cutLines (runOp m masks sort op s).disp.text, _
    replace h : (runOp m masks sort op s).disp.panicked = false := h
    obtain ⟨ls, d, ht, hd, hl⟩ := run_document m masks sort op s
    rcases ht with ht | ⟨hp, -⟩
    · intro l hm
      rw [ht, shows_text hd] at hm
      have hw := whole_document hl
      replace hm : l ∈ cutLines (docText 0 ls) := hm
      rw [cut_doc 0 hw] at hm
      obtain ⟨x, hx, rfl⟩ := List.mem_map.1 hm
      obtain ⟨t, e, hi⟩ := hw x hx
      replace e : cellText x.cells = t ++ ['\n'] := e
      rw [render_text, e]
      cases x.indent with
      | none => exact ⟨0, t, rfl, by omega, hi⟩
      | some k => exact ⟨(0 + k) % 256, t, (List.append_assoc ..).symm, by omega, hi⟩
    · rw [h] at hp; cases hp

example := c80_lines .debug64 { berTlv := some "77 03 50 01 41".toList } [] true (by decide +kernel)

/-- **C80.** Even a run that panics writes complete lines and then the beginning of one. -/
theorem c80_panicking (m : Machine) (ops : CliOps) (masks : List Char) (sort : Bool) :
    ∃ rest, ∀ l ∈ cutLines ((run m ops masks sort).disp.text ++ rest),
      ∃ k t, l = tabs k ++ t ++ ['\n'] ∧ k < 256 ∧ Inline t := by
  rw [run_eq]
  cases hs : selected ops with
  | none => exact ⟨[], fun l hl => by cases hl⟩
  | some p =>
    obtain ⟨op, s⟩ := p
    show ∃ rest, ∀ l ∈ cutLines ((runOp m masks sort op s).disp.text ++ rest), _
    obtain ⟨ls, d, ht, hd, hl⟩ := run_document m masks sort op s
    obtain ⟨rest, hr⟩ := truncates_text ht
    refine ⟨rest, fun l hm => ?_⟩
    rw [hr, shows_text hd] at hm
    have hw := whole_document hl
    replace hm : l ∈ cutLines (docText 0 ls) := hm
    rw [cut_doc 0 hw] at hm
    obtain ⟨x, hx, rfl⟩ := List.mem_map.1 hm
    obtain ⟨t, e, hi⟩ := hw x hx
    replace e : cellText x.cells = t ++ ['\n'] := e
    rw [render_text, e]
    cases x.indent with
    | none => exact ⟨0, t, rfl, by omega, hi⟩
    | some k => exact ⟨(0 + k) % 256, t, (List.append_assoc ..).symm, by omega, hi⟩

/-- **C80.** The lines that look as if they introduced a tag are exactly those of the tags of the block, in their
order and at their levels: no value, however chosen, makes a tag appear that is not there. -/
theorem c80_tags (m : Machine) (ops : CliOps) (masks : List Char) (sort : Bool) (op : Operation) (s : Text)
    (b : RawEmvBlock) (hs : selected ops = some (op, s))
    (hb : op = .autoTlv ∧ (∃ f, autoParse m s masks = .ok (f, b)) ∨
      op = .berTlv ∧ berParse m (hexBytes s) masks = .ok b ∨ op = .ingenicoTlv ∧ ingParse m s masks = .ok b)
    (ha : AllAcceptable b) (hd : blockDepth b ≤ 254 ∨ m.overflowChecks = false) :
    ∃ tags : List (Nat × RawEmvTag), tags.Perm (blockLevels 0 b) ∧ (sort = false → tags = blockLevels 0 b) ∧
      (cutLines (run m ops masks sort).disp.text).filter introducesTag =
        tags.map (fun p => tabs (p.1 % 256) ++ (tagLine p.2).cells.map Prod.fst) := by
  obtain ⟨hop, f, hp⟩ := tlvParse_cases hb
  obtain ⟨q, hq⟩ := (c34_ok_iff b).2 ha
  obtain ⟨b', hb', hr⟩ := (reports_tlv m masks sort op hop s).2.2 f b q hp hq hd
  refine ⟨blockLevels 0 b', arranged_levels 0 hb', fun h => ?_, ?_⟩
  · subst h; rw [show b' = b from hb']
  · rw [run_eq, hs]
    show (cutLines (runOp m masks sort op s).disp.text).filter introducesTag = _
    have he : (runOp m masks sort op s).disp.text = docText 0 (headerLines f ++ blockLines true b') := by
      rw [shows_text hr.shows]; cases f <;> rfl
    rw [he, loud_doc 0 ((whole_headerLines f).append (whole_blockLines _ _)), List.filter_append,
      loud_silent (silent_headerLines f), List.nil_append, loud_block, List.map_map]
    apply List.map_congr_left
    intro p _
    show cellText ((tagLineAt p).render 0) = _
    rw [render_text]
    simp only [tagLineAt, Nat.zero_add]
    rfl

/-- A value that consists of a line break and of the text of a tag line is shown in the dump, with a dot for the
line break. One tag is introduced, not two. -/
example : ((cutLines (run .debug64 { berTlv := some "9F7C 0A 0A 5461673A20307839 46".toList } [] true).disp.text).filter
    introducesTag).length = 1 := by decide +kernel

/-- An object inside a template: one of its two lines is indented. -/
example : ∃ tags : List (Nat × RawEmvTag), tags.Perm [(0, ⟨[0x77], .application, .constructed, .normal [0x50, 0x01, 0x41]⟩),
      (1, ⟨[0x50], .application, .primitive, .normal [0x41]⟩)] ∧
    (cutLines (run .debug64 { berTlv := some "77 03 50 01 41".toList } [] true).disp.text).filter introducesTag =
      tags.map (fun p => tabs (p.1 % 256) ++ (tagLine p.2).cells.map Prod.fst) := by
  obtain ⟨tags, h1, -, h2⟩ := c80_tags .debug64 { berTlv := some "77 03 50 01 41".toList } [] true .berTlv _
    [.mk ⟨[0x77], .application, .constructed, .normal [0x50, 0x01, 0x41]⟩
      [.mk ⟨[0x50], .application, .primitive, .normal [0x41]⟩ []]] rfl (Or.inr (Or.inl ⟨rfl, by decide +kernel⟩))
    ((c34_ok_iff _).1 ⟨_, rfl⟩) (Or.inl (by decide))
  exact ⟨tags, h1, h2⟩

end Pemv
