import Verif.Spec.Drawing

/-!
# The drawing of bit breakdowns
-/

namespace Pemv

open Spec

/-! ### Output routines -/

theorem paint_append (s : ColorSpec) (a b : List Ev) :
    paint s (a ++ b) = paint s a ++ paint (lastStyle s a) b := by
  induction a generalizing s with
  | nil => rfl
  | cons e a ih => cases e <;> simp [paint, lastStyle, ih]

theorem lastStyle_append (s : ColorSpec) (a b : List Ev) :
    lastStyle s (a ++ b) = lastStyle (lastStyle s a) b := by
  induction a generalizing s with
  | nil => rfl
  | cons e a ih => cases e <;> simp [lastStyle, ih]

theorem Spec.Shows.seq {a b : Disp} {x y : List (Char × ColorSpec)} (ha : Shows a x) (hb : Shows b y) :
    Shows (a.seq b) (x ++ y) := by
  obtain ⟨ha1, ha2, ha3⟩ := ha
  obtain ⟨hb1, hb2, hb3⟩ := hb
  constructor
  · simp [Disp.seq, ha1, hb1]
  · simp [Disp.seq, ha1, paint_append, ha2, ha3, hb2]
  · simp [Disp.seq, ha1, lastStyle_append, ha3, hb3]

theorem shows_nil : Shows .nil [] := ⟨rfl, rfl, rfl⟩

theorem shows_all_nil : Shows (.all []) [] := ⟨rfl, rfl, rfl⟩

theorem Spec.Shows.cons {d : Disp} {ds : List Disp} {x y : List (Char × ColorSpec)} (h : Shows d x)
    (hs : Shows (.all ds) y) : Shows (.all (d :: ds)) (x ++ y) := h.seq hs

theorem shows_print (t : Text) : Shows (.print t) (plain t) :=
  ⟨rfl, by simp [Disp.print, paint, plain, styled], rfl⟩

theorem shows_println (t : Text) : Shows (.println t) (plain (t ++ ['\n'])) :=
  ⟨rfl, by simp [Disp.println, paint, plain, styled], rfl⟩

theorem shows_indent (n : Nat) : Shows (printIndentation n) (plain (tabs n)) := shows_print _

theorem all_append (a b : List Disp) : Disp.all (a ++ b) = (Disp.all a).seq (Disp.all b) := by
  induction a with
  | nil => simp [Disp.all, Disp.nil, Disp.seq]
  | cons d a ih =>
    simp only [List.cons_append, Disp.all, ih]
    obtain ⟨e, p⟩ := d
    cases p with
    | true => simp [Disp.seq]
    | false =>
      cases hp : (Disp.all a).panicked <;> simp [Disp.seq, hp]

/-- A coloured part: a colour, some text, reset. -/
theorem shows_coloured (c : ColorSpec) (t : Text) (ds : List Disp) (y : List (Char × ColorSpec))
    (h : Shows (.all ds) y) : Shows (.all (.color c :: .print t :: .reset :: ds)) (styled c t ++ y) := by
  have h1 : Shows (.all [.color c, .print t, .reset]) (styled c t) :=
    ⟨rfl, by simp [Disp.all, Disp.seq, Disp.color, Disp.print, Disp.reset, Disp.nil, paint, styled], rfl⟩
  have := h1.seq h
  rwa [← all_append] at this

theorem shows_coloured_ln (c : ColorSpec) (t : Text) (ds : List Disp) (y : List (Char × ColorSpec))
    (h : Shows (.all ds) y) :
    Shows (.all (.color c :: .println t :: .reset :: ds)) (styled c (t ++ ['\n']) ++ y) := by
  have h1 : Shows (.all [.color c, .println t, .reset]) (styled c (t ++ ['\n'])) :=
    ⟨rfl, by simp [Disp.all, Disp.seq, Disp.color, Disp.println, Disp.reset, Disp.nil, paint, styled], rfl⟩
  have := h1.seq h
  rwa [← all_append] at this

theorem styled_append (c : ColorSpec) (a b : Text) : styled c (a ++ b) = styled c a ++ styled c b := by
  simp [styled]

theorem plain_append (a b : Text) : plain (a ++ b) = plain a ++ plain b := styled_append _ _ _

/-! ### Columns -/

theorem column_def (n d : Nat) (h : d < 8 * n) : column n (8 * n - 1 - d) = d + d / 8 := by
  have : 8 * n - 1 - (8 * n - 1 - d) = d := by omega
  rw [column, this]

theorem bitAt_col (n d : Nat) : bitAt n (d + d / 8) = some (8 * n - 1 - d) := by
  have h1 : (d + d / 8) % 9 ≠ 8 := by omega
  have h2 : d + d / 8 - (d + d / 8) / 9 = d := by omega
  rw [bitAt, if_neg h1, h2]

theorem bitAt_gap (n d : Nat) (h : d % 8 = 7) : bitAt n (d + d / 8 + 1) = none := by
  have h1 : (d + d / 8 + 1) % 9 = 8 := by omega
  rw [bitAt, if_pos h1]

/-! ### The digits -/

theorem byteBits_eq (b : Byte) : byteBits b =
    (List.range 8).map (fun k => if b.toNat.testBit (7 - k) then '1' else '0') := by
  simp [byteBits, List.range, List.range.loop]

theorem digitLine_cons (b : Byte) (bs : List Byte) (h : bs ≠ []) :
    digitLine (b :: bs) = byteBits b ++ ' ' :: digitLine bs := by
  have hpos : 0 < bs.length := List.length_pos_iff.2 h
  have hr : 9 * (b :: bs).length - 1 = 9 + (9 * bs.length - 1) := by simp only [List.length_cons]; omega
  rw [digitLine, hr, List.range_add, List.map_append]
  have h1 : byteBits b ++ ' ' :: digitLine bs = (byteBits b ++ [' ']) ++ digitLine bs := by simp
  rw [h1]
  congr 1
  · have hb : ∀ k, k < 8 → bitOf (b :: bs) (8 * (bs.length + 1) - 1 - k) = b.toNat.testBit (7 - k) := by
      intro k hk
      have e1 : (8 * (bs.length + 1) - 1 - k) / 8 = bs.length := by omega
      have e2 : (8 * (bs.length + 1) - 1 - k) % 8 = 7 - k := by omega
      rw [bitOf, e1, e2]
      simp
    have ha : ∀ k, k < 8 → bitAt (bs.length + 1) k = some (8 * (bs.length + 1) - 1 - k) := by
      intro k hk
      have e1 : k % 9 ≠ 8 := by omega
      have e2 : k - k / 9 = k := by omega
      rw [bitAt, if_neg e1, e2]
    have h9 : (List.range 9) = List.range 8 ++ [8] := rfl
    rw [h9, List.map_append, byteBits_eq]
    congr 1
    · apply List.map_congr_left
      intro k hk
      have hk := List.mem_range.1 hk
      simp only [List.length_cons, ha k hk, hb k hk]
  · rw [List.map_map, digitLine]
    apply List.map_congr_left
    intro k hk
    have hk := List.mem_range.1 hk
    have ha : bitAt (b :: bs).length (9 + k) = bitAt bs.length k := by
      simp only [bitAt, List.length_cons]
      have e1 : (9 + k) % 9 = k % 9 := by omega
      have e2 : 8 * (bs.length + 1) - 1 - (9 + k - (9 + k) / 9) = 8 * bs.length - 1 - (k - k / 9) := by omega
      rw [e1, e2]
    simp only [Function.comp_apply, ha]
    cases hb : bitAt bs.length k with
    | none => rfl
    | some i =>
      have hi : i < 8 * bs.length := by
        simp only [bitAt] at hb
        split at hb
        · exact absurd hb (by simp)
        · simp only [Option.some.injEq] at hb; omega
      have : bitOf (b :: bs) i = bitOf bs i := by
        have e : (b :: bs).length - 1 - i / 8 = (bs.length - 1 - i / 8) + 1 := by
          simp only [List.length_cons]; omega
        rw [bitOf, bitOf, e]
        simp
      simp only [this]

theorem binaryText_eq (bs : List Byte) : binaryText bs = digitLine bs := by
  induction bs with
  | nil => rfl
  | cons b bs ih =>
    cases bs with
    | nil =>
      rw [binaryText, byteBits_eq, digitLine]
      apply List.map_congr_left
      intro k hk
      have hk := List.mem_range.1 hk
      have e1 : k % 9 ≠ 8 := by omega
      have e2 : k - k / 9 = k := by omega
      have e3 : (8 * 1 - 1 - k) / 8 = 0 := by omega
      have e4 : (8 * 1 - 1 - k) % 8 = 7 - k := by omega
      simp only [bitAt, List.length_cons, List.length_nil, Nat.zero_add, if_neg e1, e2, bitOf, e3, e4]
      simp
    | cons c cs =>
      rw [digitLine_cons _ _ (by simp), ← ih, binaryText]
      simp

/-! ### The drawing on natural numbers -/

/-- `arm_bits`, computed on natural numbers. -/
def idealArmBits (ranges : List EnabledBitRange) : Nat :=
  ranges.reverse.foldl (fun acc r => acc ||| (1 <<< r.offset)) 0

/-- The padding before one header glyph, computed on natural numbers. -/
def idealHeaderPad (numBits offset currentOffset : Nat) : Text :=
  ((List.range' offset (currentOffset + 1 - offset)).map (fun i =>
    (if (i + 1) % 8 = 0 ∧ i + 1 < numBits then [' '] else []) ++
    (if i ≠ offset then [' '] else []))).flatten

/-- One header glyph, computed on natural numbers. -/
def idealHeaderGlyph (len : Nat) : Text :=
  if len > 1 then '├' :: (List.replicate (len - 2) '─' ++ ['┘']) else ['│']

/-- The header line, computed on natural numbers. -/
def idealHeaderLine (numBits : Nat) : List EnabledBitRange → (currentOffset : Nat) → Text
  | [], _ => []
  | r :: rs, currentOffset =>
    idealHeaderPad numBits r.offset currentOffset ++ idealHeaderGlyph r.len ++
      idealHeaderLine numBits rs (if r.offset > r.len then r.offset - r.len else 0)

/-- The leading part of an explanation line, computed on natural numbers. -/
def idealArmLead (numBits arms offset : Nat) : Text :=
  ((List.range' 1 (numBits - offset - 1)).map (fun i =>
    (if arms &&& (1 <<< (numBits - i)) > 0 then ['│'] else [' ']) ++
    (if (numBits - i) % 8 = 0 then [' '] else []))).flatten

/-- One explanation line, computed on natural numbers. -/
def idealArmLine (numBits arms indentation : Nat) (showSeverityColours : Bool) (r : EnabledBitRange) :
    Disp :=
  .all [printIndentation indentation, .print (idealArmLead numBits arms r.offset), .print ['└', ' '],
    .color (severitySpec showSeverityColours r.severity), .println r.explanation, .reset]

/-! ### No operation of the drawing is out of range -/

theorem printLoop_ok {f : Nat → Out Text} {g : Nat → Text} (is : List Nat) (h : ∀ i ∈ is, f i = .ok (g i)) :
    printLoop f is = .ok (is.map g).flatten := by
  induction is with
  | nil => rfl
  | cons i is ih =>
    rw [printLoop, h i (by simp), ih (fun j hj => h j (List.mem_cons_of_mem _ hj))]
    rfl

theorem armBits_foldl (l : List EnabledBitRange) (h : ∀ r ∈ l, r.offset < 64) (acc : Nat) :
    armBits l acc = .ok (l.foldl (fun acc r => acc ||| (1 <<< r.offset)) acc) := by
  induction l generalizing acc with
  | nil => rfl
  | cons r l ih =>
    rw [armBits, u64Bit, if_pos (h r (by simp)), Out.ok_bind, ih (fun s hs => h s (List.mem_cons_of_mem _ hs))]
    rfl

theorem armBits_ideal (ranges : List EnabledBitRange) (h : ∀ r ∈ ranges, r.offset < 64) :
    armBits ranges.reverse 0 = .ok (idealArmBits ranges) :=
  armBits_foldl _ (fun r hr => h r (by simpa using hr)) 0

theorem headerPad_ideal (numBits o c : Nat) (hc : c < 255) :
    headerPad numBits o c = .ok (idealHeaderPad numBits o c) := by
  rw [headerPad, idealHeaderPad]
  refine printLoop_ok _ (fun i hi => ?_)
  have hi := List.mem_range'_1.1 hi
  rw [headerCell, u8Add, if_pos (by omega)]
  rfl

theorem headerGlyph_ideal (len : Nat) : headerGlyph len = .ok (idealHeaderGlyph len) := by
  rw [headerGlyph, idealHeaderGlyph]
  split
  · rw [u8Sub, if_pos (by omega)]; rfl
  · rfl

theorem nextOffset_ideal (o len : Nat) : nextOffset o len = .ok (if o > len then o - len else 0) := by
  rw [nextOffset]
  split
  · rw [u8Sub, if_pos (by omega)]
  · rfl

theorem headerLine_ideal (numBits : Nat) (ranges : List EnabledBitRange) (h : ∀ r ∈ ranges, r.offset < 255)
    (c : Nat) (hc : c < 255) : headerLine numBits ranges c = .ok (idealHeaderLine numBits ranges c) := by
  induction ranges generalizing c with
  | nil => rfl
  | cons r rs ih =>
    have hr := h r (by simp)
    rw [headerLine, headerPad_ideal _ _ _ hc, headerGlyph_ideal, nextOffset_ideal, Out.ok_bind, Out.ok_bind,
      Out.ok_bind, ih (fun s hs => h s (List.mem_cons_of_mem _ hs)) _ (by split <;> omega)]
    rfl

theorem armLead_ideal (numBits arms o : Nat) (h : o < numBits) (hn : numBits ≤ 64) :
    armLead numBits arms o = .ok (idealArmLead numBits arms o) := by
  rw [armLead, u8Sub, if_pos (by omega), Out.ok_bind, idealArmLead]
  refine printLoop_ok _ (fun i hi => ?_)
  have hi := List.mem_range'_1.1 hi
  rw [armCell, u8Sub, if_pos (by omega), Out.ok_bind, u64Bit, if_pos (by omega)]
  rfl

theorem armLine_ideal (numBits arms ind : Nat) (colours : Bool) (r : EnabledBitRange) (h : r.offset < numBits)
    (hn : numBits ≤ 64) : armLine numBits arms ind colours r = idealArmLine numBits arms ind colours r := by
  rw [armLine, armLead_ideal _ _ _ h hn]
  rfl

theorem displayBreakdown_ideal (n : Nat) (bytes : List Byte) (ranges : List EnabledBitRange) (ind : Nat)
    (colours : Bool) (hn : 0 < n) (hn' : n ≤ 8) (h : ∀ r ∈ ranges, r.offset < 8 * n) :
    displayBreakdown n bytes ranges ind colours =
      .all [printIndentation ind, .color boldSpec, .print (binaryText bytes), .println [], .reset,
        .all [if multiBitValue ranges then
            .all [printIndentation ind, .print (idealHeaderLine (8 * n) ranges (8 * n - 1)), .println []]
          else .nil,
          .all (ranges.reverse.map (idealArmLine (8 * n) (idealArmBits ranges) ind colours))]] := by
  have e : n % 256 * 8 = 8 * n := by omega
  have e1 : u8Mul (n % 256) 8 = .ok (8 * n) := by rw [u8Mul, e, if_pos (by omega)]
  have e2 : u8Sub (8 * n) 1 = .ok (8 * n - 1) := by rw [u8Sub, if_pos (by omega)]
  have e3 : ranges.reverse.map (armLine (8 * n) (idealArmBits ranges) ind colours) =
      ranges.reverse.map (idealArmLine (8 * n) (idealArmBits ranges) ind colours) :=
    List.map_congr_left (fun r hr => armLine_ideal _ _ _ _ _ (h r (by simpa using hr)) (by omega))
  have e4 : headerLine (8 * n) ranges (8 * n - 1) = .ok (idealHeaderLine (8 * n) ranges (8 * n - 1)) :=
    headerLine_ideal _ _ (fun r hr => by have := h r hr; omega) _ (by omega)
  rw [displayBreakdown, e1, armBits_ideal _ (fun r hr => by have := h r hr; omega)]
  simp only [Disp.after, e2, e3, e4]

/-! ### The arms -/

theorem armBits_testBit (ranges : List EnabledBitRange) (b : Nat) :
    (idealArmBits ranges).testBit b = ranges.any (fun r => r.offset == b) := by
  have key : ∀ (l : List EnabledBitRange) (acc : Nat),
      (l.foldl (fun acc r => acc ||| (1 <<< r.offset)) acc).testBit b =
        (acc.testBit b || l.any (fun r => r.offset == b)) := by
    intro l
    induction l with
    | nil => simp
    | cons r l ih =>
      intro acc
      have h1 : (1 <<< r.offset).testBit b = (r.offset == b) := by
        rw [Nat.one_shiftLeft, Nat.testBit_two_pow]
        rw [Bool.eq_iff_iff]; simp
      rw [List.foldl_cons, ih, Nat.testBit_or, h1, List.any_cons, Bool.or_assoc]
  rw [idealArmBits, key, List.any_reverse]
  simp

theorem and_pow_pos (a b : Nat) : (a &&& (1 <<< b) > 0) ↔ a.testBit b = true := by
  have h := Nat.testBit_and a (2 ^ b)
  rw [Nat.one_shiftLeft]
  constructor
  · intro hp
    cases hb : a.testBit b with
    | true => rfl
    | false =>
      have : a &&& 2 ^ b = 0 := by
        apply Nat.eq_of_testBit_eq
        intro i
        rw [h, Nat.testBit_two_pow, Nat.zero_testBit]
        by_cases hi : b = i
        · subst hi; simp [hb]
        · simp [hi]
      omega
  · intro hb
    have := h b
    rw [hb, Nat.testBit_two_pow_self, Bool.and_self] at this
    rcases Nat.eq_zero_or_pos (a &&& 2 ^ b) with h0 | h0
    · rw [h0, Nat.zero_testBit] at this; exact absurd this (by simp)
    · exact h0

/-- Bits written one by one from the left, with a space after each byte. -/
theorem bits_row (n : Nat) (g : Nat → Char) (d : Nat) (h : d < 8 * n) :
    ((List.range' 1 d).map (fun i => [g (8 * n - i)] ++
      (if (8 * n - i) % 8 = 0 then [' '] else []))).flatten =
    (List.range (d + d / 8)).map (fun k => match bitAt n k with | some b => g b | none => ' ') := by
  induction d with
  | zero => rfl
  | succ d ih =>
    have hb : bitAt n (d + d / 8) = some (8 * n - (1 + d)) := by
      rw [bitAt_col]; congr 1; omega
    rw [List.range'_1_concat, List.map_append, List.flatten_append, ih (by omega)]
    by_cases hg : (8 * n - (1 + d)) % 8 = 0
    · have e : d + 1 + (d + 1) / 8 = d + d / 8 + 1 + 1 := by omega
      rw [e, List.range_succ, List.range_succ, List.map_append, List.map_append, List.append_assoc]
      congr 1
      simp only [List.map_cons, List.map_nil, List.flatten_cons, List.flatten_nil, hb, if_pos hg,
        bitAt_gap n d (by omega)]
      rfl
    · have e : d + 1 + (d + 1) / 8 = d + d / 8 + 1 := by omega
      rw [e, List.range_succ, List.map_append]
      congr 1
      simp only [List.map_cons, List.map_nil, List.flatten_cons, List.flatten_nil, hb, if_neg hg]
      rfl

/-- The annotation of a range. -/
def EnabledBitRange.annotation (r : EnabledBitRange) : Annotation :=
  ⟨r.offset, r.len, r.explanation, r.severity⟩

theorem armLead_eq (n : Nat) (ranges : List EnabledBitRange) (r : EnabledBitRange) (h : r.offset < 8 * n) :
    idealArmLead (8 * n) (idealArmBits ranges) r.offset =
      lead n (ranges.map EnabledBitRange.annotation) r.annotation := by
  have hcol : column n r.offset = (8 * n - r.offset - 1) + (8 * n - r.offset - 1) / 8 := by
    have e : 8 * n - 1 - r.offset = 8 * n - r.offset - 1 := by omega
    rw [column, e]
  rw [lead]
  show _ = (List.range (column n r.offset)).map _
  rw [hcol, idealArmLead]
  refine Eq.trans ?_ (bits_row n (fun b => if (ranges.map EnabledBitRange.annotation).any
    (fun r' => r'.left == b) then '│' else ' ') _ (by omega))
  congr 1
  apply List.map_congr_left
  intro i _
  congr 1
  have : (List.map EnabledBitRange.annotation ranges).any (fun r' => r'.left == 8 * n - i) =
      (idealArmBits ranges).testBit (8 * n - i) := by
    rw [armBits_testBit, List.any_map]; rfl
  rw [this]
  by_cases ht : (idealArmBits ranges).testBit (8 * n - i) = true
  · rw [if_pos ((and_pow_pos _ _).2 ht), if_pos ht]
  · rw [if_neg (fun hh => ht ((and_pow_pos _ _).1 hh)), if_neg ht]

/-! ### The header -/

/-- The first free column after `d` bits. -/
def startCol (d : Nat) : Nat := if d = 0 then 0 else d - 1 + (d - 1) / 8 + 1

theorem headerPad_eq (n o c : Nat) (hoc : o ≤ c) (hc : c < 8 * n) :
    idealHeaderPad (8 * n) o c = List.replicate (column n o - startCol (8 * n - 1 - c)) ' ' := by
  have key : ∀ k, o + k < 8 * n → idealHeaderPad (8 * n) o (o + k) =
      List.replicate (column n o - startCol (8 * n - 1 - (o + k))) ' ' := by
    intro k
    induction k with
    | zero =>
      intro hk
      have e : o + 0 + 1 - o = 1 := by omega
      rw [idealHeaderPad, e]
      simp only [List.range'_one, List.map_cons, List.map_nil, List.flatten_cons, List.flatten_nil,
        ne_eq, not_true_eq_false, if_false, List.append_nil, Nat.add_zero]
      simp only [column, startCol]
      split
      · rename_i h
        have e : (8 * n - 1 - o + (8 * n - 1 - o) / 8) -
          (if 8 * n - 1 - o = 0 then 0 else 8 * n - 1 - o - 1 + (8 * n - 1 - o - 1) / 8 + 1) = 1 := by
          split <;> omega
        rw [e]; rfl
      · rename_i h
        have e : (8 * n - 1 - o + (8 * n - 1 - o) / 8) -
          (if 8 * n - 1 - o = 0 then 0 else 8 * n - 1 - o - 1 + (8 * n - 1 - o - 1) / 8 + 1) = 0 := by
          split <;> omega
        rw [e]; rfl
    | succ k ih =>
      intro hk
      have e : o + (k + 1) + 1 - o = (o + k + 1 - o) + 1 := by omega
      have e2 : o + (o + k + 1 - o) = o + k + 1 := by omega
      have hpad : idealHeaderPad (8 * n) o (o + (k + 1)) = idealHeaderPad (8 * n) o (o + k) ++
          ((if (o + k + 1 + 1) % 8 = 0 ∧ o + k + 1 + 1 < 8 * n then [' '] else []) ++
            [' ']) := by
        rw [idealHeaderPad, e, List.range'_1_concat, List.map_append, List.flatten_append, idealHeaderPad]
        congr 1
        simp only [List.map_cons, List.map_nil, List.flatten_cons, List.flatten_nil, List.append_nil, e2]
        congr 1
        rw [if_pos (by omega)]
      rw [hpad, ih (by omega)]
      split
      · have e3 : column n o - startCol (8 * n - 1 - (o + (k + 1))) =
            (column n o - startCol (8 * n - 1 - (o + k))) + 2 := by
          simp only [column, startCol]
          split <;> split <;> omega
        rw [e3, ← List.replicate_append_replicate]; rfl
      · have e3 : column n o - startCol (8 * n - 1 - (o + (k + 1))) =
            (column n o - startCol (8 * n - 1 - (o + k))) + 1 := by
          simp only [column, startCol]
          split <;> split <;> omega
        rw [e3, ← List.replicate_append_replicate]; rfl
  have := key (c - o) (by omega)
  have e : o + (c - o) = c := by omega
  rwa [e] at this

/-- The glyph in a column. -/
def glyphCol (n : Nat) (rs : List Annotation) (k : Nat) : Char :=
  match bitAt n k with
  | some b => headerGlyphAt rs b
  | none => ' '

theorem header_eq (n : Nat) (rs : List Annotation) : header n rs =
    (List.range ((rs.getLast?.map (fun r => column n r.right + 1)).getD 0)).map (glyphCol n rs) := rfl

/-- The end of the header. -/
def headerEnd (n : Nat) (rs : List Annotation) (start : Nat) : Nat :=
  (rs.getLast?.map (fun r => column n r.right + 1)).getD start

theorem bitAt_lt {n k b : Nat} (h : bitAt n k = some b) (hn : k < 9 * n) : b < 8 * n := by
  simp only [bitAt] at h
  split at h
  · exact absurd h (by simp)
  · simp only [Option.some.injEq] at h; omega

theorem bitAt_eq {n k b : Nat} (h : bitAt n k = some b) : k % 9 ≠ 8 ∧ b = 8 * n - 1 - (k - k / 9) := by
  simp only [bitAt] at h
  split at h
  · exact absurd h (by simp)
  · rename_i h9
    simp only [Option.some.injEq] at h
    exact ⟨h9, h.symm⟩

theorem has_iff (r : Annotation) (b : Nat) : r.has b = true ↔ r.right ≤ b ∧ b ≤ r.left := by
  simp [Annotation.has]

theorem glyph_none {rs : List Annotation} {b : Nat} (h : ∀ r ∈ rs, ¬ (r.right ≤ b ∧ b ≤ r.left)) :
    headerGlyphAt rs b = ' ' := by
  have : rs.find? (fun r => r.has b) = none := by
    rw [List.find?_eq_none]
    intro r hr
    rw [has_iff]; exact h r hr
  rw [headerGlyphAt, this]

theorem glyph_cons_not {r : Annotation} {rs : List Annotation} {b : Nat}
    (h : ¬ (r.right ≤ b ∧ b ≤ r.left)) : headerGlyphAt (r :: rs) b = headerGlyphAt rs b := by
  have : r.has b = false := by
    rw [← Bool.not_eq_true, has_iff]; exact h
  rw [headerGlyphAt, List.find?_cons, this]; rfl

theorem glyph_cons {r : Annotation} {rs : List Annotation} {b : Nat}
    (h : r.right ≤ b ∧ b ≤ r.left) : headerGlyphAt (r :: rs) b =
      if r.width = 1 then '│' else if b = r.left then '├' else if b = r.right then '┘' else '─' := by
  have : r.has b = true := by rw [has_iff]; exact h
  rw [headerGlyphAt, List.find?_cons, this]

theorem headerGlyph_eq (len : Nat) (h : 1 ≤ len) : idealHeaderGlyph len =
    (List.range len).map (fun j => if len = 1 then '│' else if j = 0 then '├'
      else if j = len - 1 then '┘' else '─') := by
  rw [idealHeaderGlyph]
  split
  · rename_i h1
    have e : len = 1 + ((len - 2) + 1) := by omega
    have e2 : List.range len = [0] ++ ((List.range (len - 2)).map (1 + ·) ++ [1 + (len - 2)]) := by
      have h1 : List.range len = List.range (1 + ((len - 2) + 1)) := congrArg List.range e
      rw [h1, List.range_add, List.range_succ (n := len - 2), List.map_append]
      rfl
    rw [e2, List.map_append, List.map_append, List.map_map]
    have a1 : len ≠ 1 := by omega
    simp only [List.map_cons, List.map_nil, if_neg a1, if_true, List.cons_append, List.nil_append]
    congr 1
    congr 1
    · symm
      have : ∀ j ∈ List.range (len - 2), ((fun j => if j = 0 then '├' else if j = len - 1 then '┘' else '─') ∘
          (1 + ·)) j = (fun _ => '─') j := by
        intro j hj
        have hj := List.mem_range.1 hj
        simp only [Function.comp_apply]
        rw [if_neg (by omega), if_neg (by omega)]
      rw [List.map_congr_left this, List.map_const', List.length_range]
    · rw [if_neg (by omega), if_pos (by omega)]
  · have : len = 1 := by omega
    subst this; rfl

theorem headerLine_eq (n : Nat) (ranges : List EnabledBitRange) (c : Nat) (hc : c < 8 * n)
    (h : GoodRanges n (ranges.map EnabledBitRange.annotation)) (hle : ∀ r ∈ ranges, r.offset ≤ c) :
    idealHeaderLine (8 * n) ranges c =
      (List.range' (startCol (8 * n - 1 - c)) (headerEnd n (ranges.map EnabledBitRange.annotation)
        (startCol (8 * n - 1 - c)) - startCol (8 * n - 1 - c))).map
        (glyphCol n (ranges.map EnabledBitRange.annotation)) ∧
    (ranges ≠ [] → startCol (8 * n - 1 - c) < headerEnd n (ranges.map EnabledBitRange.annotation)
        (startCol (8 * n - 1 - c))) := by
  induction ranges generalizing c with
  | nil =>
    constructor
    · simp [idealHeaderLine, headerEnd]
    · intro h; exact absurd rfl h
  | cons r rs ih =>
    obtain ⟨hg, hp⟩ := h
    rw [List.map_cons] at hg hp
    obtain ⟨hp1, hp2⟩ := List.pairwise_cons.1 hp
    obtain ⟨hw1, hw2, hw3⟩ := hg r.annotation (by simp)
    have hw1 : 1 ≤ r.len := hw1
    have hw2 : r.len ≤ r.offset % 8 + 1 := hw2
    have hw3 : r.offset < 8 * n := hw3
    have hrc : r.offset ≤ c := hle r (by simp)
    have hR : r.annotation.right = r.offset + 1 - r.len := rfl
    have hL : r.annotation.left = r.offset := rfl
    have hcR : column n r.annotation.right = column n r.offset + (r.len - 1) := by
      simp only [column, hR]; omega
    have hs0 : startCol (8 * n - 1 - c) ≤ column n r.offset := by
      simp only [startCol, column]; split <;> omega
    rw [idealHeaderLine, headerPad_eq n _ _ hrc hc, List.map_cons]
    -- the padding
    have hpad : List.replicate (column n r.offset - startCol (8 * n - 1 - c)) ' ' =
        (List.range' (startCol (8 * n - 1 - c)) (column n r.offset - startCol (8 * n - 1 - c))).map
          (glyphCol n (r.annotation :: rs.map EnabledBitRange.annotation)) := by
      symm
      rw [List.eq_replicate_iff]
      refine ⟨by simp, ?_⟩
      intro ch hch
      obtain ⟨k, hk, rfl⟩ := List.mem_map.1 hch
      obtain ⟨i, hi, rfl⟩ := List.mem_range'.1 hk
      rw [glyphCol]
      split
      · rename_i b hb
        obtain ⟨h9, hb⟩ := bitAt_eq hb
        apply glyph_none
        intro r' hr'
        rcases List.mem_cons.1 hr' with rfl | hr'
        · rw [hR, hL]
          have : r.offset < b := by
            simp only [column] at hi
            omega
          omega
        · have h1 := hp1 r' hr'
          rw [hR] at h1
          have : r.offset < b := by
            simp only [column] at hi
            omega
          omega
      · rfl
    -- the glyph
    have hglyph : idealHeaderGlyph r.len = (List.range' (column n r.offset) r.len).map
          (glyphCol n (r.annotation :: rs.map EnabledBitRange.annotation)) := by
      rw [headerGlyph_eq _ hw1, List.range'_eq_map_range, List.map_map]
      apply List.map_congr_left
      intro j hj
      have hj := List.mem_range.1 hj
      have e : column n r.offset + j = (8 * n - 1 - r.offset + j) + (8 * n - 1 - r.offset + j) / 8 := by
        simp only [column]; omega
      have hb : bitAt n (column n r.offset + j) = some (r.offset - j) := by
        rw [e, bitAt_col]; congr 1; omega
      simp only [Function.comp_apply, glyphCol, hb]
      rw [glyph_cons (by rw [hR, hL]; omega), hR, hL]
      have hW : r.annotation.width = r.len := rfl
      rw [hW]
      by_cases h1 : r.len = 1
      · rw [if_pos h1, if_pos h1]
      · rw [if_neg h1, if_neg h1]
        have a1 : (r.offset - j = r.offset) = (j = 0) := by apply propext; omega
        have a2 : (r.offset - j = r.offset + 1 - r.len) = (j = r.len - 1) := by apply propext; omega
        simp only [a1, a2]
    rw [hpad, hglyph]
    cases rs with
    | nil =>
      have hend : headerEnd n [r.annotation] (startCol (8 * n - 1 - c)) = column n r.offset + r.len := by
        show column n r.annotation.right + 1 = _
        rw [hcR]; omega
      simp only [List.map_nil, idealHeaderLine, List.append_nil, hend, ne_eq, List.cons_ne_nil, not_false_eq_true,
        forall_const]
      constructor
      · rw [← List.map_append]
        congr 1
        have e : column n r.offset + r.len - startCol (8 * n - 1 - c) =
          (column n r.offset - startCol (8 * n - 1 - c)) + r.len := by omega
        rw [e, ← List.range'_append_1]
        congr 2; omega
      · omega
    | cons r' rs' =>
      have hr' := hp1 r'.annotation (by simp)
      rw [hR] at hr'
      have hL' : r'.annotation.left = r'.offset := rfl
      rw [hL'] at hr'
      have hnext : (if r.offset > r.len then r.offset - r.len else 0) = r.offset - r.len := by
        split <;> omega
      rw [hnext]
      obtain ⟨ih1, ih2⟩ := ih (r.offset - r.len) (by omega)
        ⟨fun x hx => hg x (List.mem_cons_of_mem _ hx), hp2⟩ (by
          intro x hx
          have := hp1 x.annotation (List.mem_map.2 ⟨x, hx, rfl⟩)
          rw [hR] at this
          have hLx : x.annotation.left = x.offset := rfl
          omega)
      have hstart : startCol (8 * n - 1 - (r.offset - r.len)) = column n r.offset + r.len := by
        have hne : 8 * n - 1 - (r.offset - r.len) ≠ 0 := by omega
        rw [startCol, if_neg hne, column]
        omega
      have ih2 := ih2 (by simp)
      rw [hstart] at ih1 ih2
      have hend : ∀ s s', headerEnd n (r.annotation :: (r' :: rs').map EnabledBitRange.annotation) s =
          headerEnd n ((r' :: rs').map EnabledBitRange.annotation) s' := by
        intro s s'
        simp only [headerEnd, List.map_cons, List.getLast?_cons_cons]
        have : ∃ x, (r'.annotation :: List.map EnabledBitRange.annotation rs').getLast? = some x :=
          Option.isSome_iff_exists.1 (by simp)
        obtain ⟨x, hx⟩ := this
        rw [hx]; rfl
      rw [hend _ (column n r.offset + r.len)]
      refine ⟨?_, fun _ => by omega⟩
      rw [ih1]
      have hrest : (List.range' (column n r.offset + r.len)
          (headerEnd n ((r' :: rs').map EnabledBitRange.annotation) (column n r.offset + r.len) -
            (column n r.offset + r.len))).map
            (glyphCol n ((r' :: rs').map EnabledBitRange.annotation)) =
          (List.range' (column n r.offset + r.len)
          (headerEnd n ((r' :: rs').map EnabledBitRange.annotation) (column n r.offset + r.len) -
            (column n r.offset + r.len))).map
            (glyphCol n (r.annotation :: (r' :: rs').map EnabledBitRange.annotation)) := by
        apply List.map_congr_left
        intro k hk
        obtain ⟨i, hi, rfl⟩ := List.mem_range'.1 hk
        rw [glyphCol, glyphCol]
        split
        · rename_i b hb
          obtain ⟨h9, hb⟩ := bitAt_eq hb
          rw [glyph_cons_not]
          rw [hR, hL]
          simp only [column] at hb h9
          omega
        · rfl
      rw [hrest, ← List.map_append, ← List.map_append]
      congr 1
      have e : headerEnd n ((r' :: rs').map EnabledBitRange.annotation) (column n r.offset + r.len) -
          startCol (8 * n - 1 - c) = ((column n r.offset - startCol (8 * n - 1 - c)) + r.len) +
          (headerEnd n ((r' :: rs').map EnabledBitRange.annotation) (column n r.offset + r.len) -
            (column n r.offset + r.len)) := by omega
      have e1 : startCol (8 * n - 1 - c) + (column n r.offset - startCol (8 * n - 1 - c)) =
          column n r.offset := by omega
      have e2 : startCol (8 * n - 1 - c) + (column n r.offset - startCol (8 * n - 1 - c) + r.len) =
          column n r.offset + r.len := by omega
      rw [e, ← List.range'_append_1, ← List.range'_append_1, e1, e2]

theorem headerLine_header (n : Nat) (hn : 0 < n) (ranges : List EnabledBitRange)
    (h : GoodRanges n (ranges.map EnabledBitRange.annotation)) :
    idealHeaderLine (8 * n) ranges (8 * n - 1) = header n (ranges.map EnabledBitRange.annotation) := by
  obtain ⟨h1, _⟩ := headerLine_eq n ranges (8 * n - 1) (by omega) h (by
    intro r hr
    have := (h.1 r.annotation (List.mem_map.2 ⟨r, hr, rfl⟩)).2.2
    have hL : r.annotation.left = r.offset := rfl
    omega)
  have hs : startCol (8 * n - 1 - (8 * n - 1)) = 0 := by simp [startCol]
  rw [h1, hs, header_eq, List.range_eq_range']
  rfl

/-! ### The whole drawing -/

theorem flatMap_all {α : Type} (f : α → Disp) (g : α → List (Char × ColorSpec)) (l : List α)
    (h : ∀ a ∈ l, Shows (f a) (g a)) : Shows (.all (l.map f)) (l.flatMap g) := by
  induction l with
  | nil => exact shows_all_nil
  | cons a l ih =>
    rw [List.map_cons, List.flatMap_cons]
    exact (h a (by simp)).cons (ih (fun b hb => h b (List.mem_cons_of_mem _ hb)))

theorem severitySpec_eq (colours : Bool) (s : Severity) :
    severitySpec colours s = if colours then severityStyle s else plainStyle := by
  cases colours <;> cases s <;> rfl

theorem shows_armLine (n : Nat) (ranges : List EnabledBitRange) (ind : Nat) (colours : Bool)
    (r : EnabledBitRange) (h : r.offset < 8 * n) :
    Shows (idealArmLine (8 * n) (idealArmBits ranges) ind colours r)
      (plain (tabs ind ++ lead n (ranges.map EnabledBitRange.annotation) r.annotation ++ ['└', ' ']) ++
        styled (if colours then severityStyle r.severity else plainStyle) (r.explanation ++ ['\n'])) := by
  rw [idealArmLine, armLead_eq n ranges r h, severitySpec_eq, plain_append, plain_append, List.append_assoc,
    List.append_assoc]
  refine (shows_indent _).cons ((shows_print _).cons ((shows_print _).cons ?_))
  have := shows_coloured_ln (if colours then severityStyle r.severity else plainStyle) r.explanation []
    [] shows_all_nil
  rwa [List.append_nil] at this

theorem shows_breakdown (n : Nat) (bytes : List Byte) (ranges : List EnabledBitRange) (ind : Nat)
    (colours : Bool) (hn : 0 < n) (hn' : n ≤ 8) (hlen : bytes.length = n)
    (h : GoodRanges n (ranges.map EnabledBitRange.annotation)) :
    Shows (displayBreakdown n bytes ranges ind colours)
      (drawing bytes (ranges.map EnabledBitRange.annotation) ind colours) := by
  have hoff : ∀ r ∈ ranges, r.offset < 8 * n := fun r hr =>
    (h.1 r.annotation (List.mem_map.2 ⟨r, hr, rfl⟩)).2.2
  have hlen1 : ∀ r ∈ ranges, 1 ≤ r.len := fun r hr =>
    (h.1 r.annotation (List.mem_map.2 ⟨r, hr, rfl⟩)).1
  rw [displayBreakdown_ideal n bytes ranges ind colours hn hn' hoff]
  have hbin : binaryText bytes = digitLine bytes := binaryText_eq bytes
  rw [drawing, hbin]
  have hmulti : multiBitValue ranges =
      (ranges.map EnabledBitRange.annotation).any (fun r => decide (r.width ≠ 1)) := by
    rw [multiBitValue, List.any_map]
    rw [Bool.eq_iff_iff, List.any_eq_true, List.any_eq_true]
    have hw : ∀ r : EnabledBitRange, r.annotation.width = r.len := fun _ => rfl
    constructor
    · rintro ⟨r, hr, h1⟩
      have h1 := of_decide_eq_true h1
      exact ⟨r, hr, decide_eq_true (by rw [hw]; omega)⟩
    · rintro ⟨r, hr, h1⟩
      have h1 := of_decide_eq_true h1
      have := hlen1 r hr
      rw [hw] at h1
      exact ⟨r, hr, decide_eq_true (by omega)⟩
  rw [hmulti]
  have hA : ∀ (t : Text) (ds : List Disp) (y : List (Char × ColorSpec)), Shows (.all ds) y →
      Shows (.all (.color boldSpec :: .print t :: .println [] :: .reset :: ds))
        (styled ⟨true, none⟩ (t ++ ['\n']) ++ y) := by
    intro t ds y hy
    have h1 : Shows (.all [.color boldSpec, .print t, .println [], .reset])
        (styled ⟨true, none⟩ (t ++ ['\n'])) :=
      ⟨rfl, by simp [Disp.all, Disp.seq, Disp.color, Disp.print, Disp.println, Disp.reset, Disp.nil, paint,
        styled, boldSpec], rfl⟩
    have := h1.seq hy
    rwa [← all_append] at this
  rw [List.append_assoc, List.append_assoc]
  refine (shows_indent _).cons (hA _ _ _ ?_)
  rw [← List.append_nil (List.flatMap _ _), ← List.append_assoc]
  refine Shows.cons ?_ shows_all_nil
  refine Shows.cons ?_ ?_
  · split
    · rw [headerLine_header n hn ranges h, plain_append, plain_append, hlen]
      have := (shows_indent ind).cons ((shows_print (header n (ranges.map EnabledBitRange.annotation))).cons
        ((shows_println []).cons shows_all_nil))
      rwa [List.append_nil, ← List.append_assoc] at this
    · exact shows_nil
  · have := flatMap_all (idealArmLine (8 * n) (idealArmBits ranges) ind colours) (fun r =>
      (plain (tabs ind ++ lead n (ranges.map EnabledBitRange.annotation) r.annotation ++ ['└', ' ']) ++
        styled (if colours then severityStyle r.severity else plainStyle) (r.explanation ++ ['\n'])))
      ranges.reverse (fun r hr => shows_armLine n ranges ind colours r (hoff r (by simpa using hr)))
    have h2 := this.cons shows_all_nil
    rw [List.append_nil] at h2
    rw [← List.map_reverse, List.flatMap_map, hlen]
    exact h2

/-- Every explanation is part of the drawing. -/
theorem drawing_explanation (bytes : List Byte) (rs : List Annotation) (indent : Nat) (r : Annotation) (hr : r ∈ rs) :
    ∃ before after, drawing bytes rs indent true = before ++ styled ⟨false,
      match r.severity with | .normal => none | .warning => some .yellow | .error => some .red⟩ r.text ++ after := by
  obtain ⟨s, t, hst⟩ := List.append_of_mem (List.mem_reverse.2 hr)
  have hsev : severityStyle r.severity = ⟨false,
      match r.severity with | .normal => none | .warning => some .yellow | .error => some .red⟩ := by
    cases r.severity <;> rfl
  rw [drawing, hst, List.flatMap_append, List.flatMap_cons, if_pos rfl, hsev, styled_append _ r.text]
  simp only [← List.append_assoc]
  rw [List.append_assoc _ (styled _ ['\n'])]
  exact ⟨_, _, rfl⟩

end Pemv
