import Verif.Model.Values

/-!
# Terminal output: primitives and the drawing of bit breakdowns

Everything the program writes goes through `print!`/`println!` and the colour changes of `termcolor`,
both on standard output. The model records the sequence of these actions.
-/

namespace Pemv

/-- The colours used, src/output_colours.rs:19 and src/emv/bitflag_values.rs:168-169. -/
inductive Colour where
  | cyan | yellow | red
  deriving DecidableEq, Repr

/-- `termcolor::ColorSpec`, restricted to the two attributes the program sets. -/
structure ColorSpec where
  bold : Bool
  fg : Option Colour
  deriving DecidableEq, Repr

/-- `bold_colour_spec`, src/output_colours.rs:9-13. -/
def boldSpec : ColorSpec := ⟨true, none⟩

/-- `header_colour_spec`, src/output_colours.rs:17-21. -/
def headerSpec : ColorSpec := ⟨true, some .cyan⟩

/-- One action on standard output. -/
inductive Ev where
  | text (t : Text)
  | setColor (c : ColorSpec)
  | reset
  deriving DecidableEq, Repr

/-- What an output routine did: its actions, and whether it then panicked. -/
structure Disp where
  evs : List Ev
  panicked : Bool
  deriving DecidableEq, Repr

namespace Disp

/-- Doing nothing. -/
def nil : Disp := ⟨[], false⟩

/-- A panic. -/
def panic : Disp := ⟨[], true⟩

/-- Sequencing; nothing happens after a panic. -/
def seq (a b : Disp) : Disp := if a.panicked then a else ⟨a.evs ++ b.evs, b.panicked⟩

/-- Several routines in sequence. -/
def all : List Disp → Disp
  | [] => nil
  | d :: ds => d.seq (all ds)

/-- `print!`. -/
def print (t : Text) : Disp := ⟨[.text t], false⟩

/-- `println!`. -/
def println (t : Text) : Disp := ⟨[.text (t ++ ['\n'])], false⟩

/-- `stdout.set_color(..).ok()`. -/
def color (c : ColorSpec) : Disp := ⟨[.setColor c], false⟩

/-- `stdout.reset().ok()`. -/
def reset : Disp := ⟨[.reset], false⟩

end Disp

/-- The text of a sequence of actions (what is seen without colours). -/
def evText : List Ev → Text
  | [] => []
  | .text t :: es => t ++ evText es
  | _ :: es => evText es

/-- The text written by a routine. -/
def Disp.text (d : Disp) : Text := evText d.evs

/-- `indentation + 1` on `u8`: panics or wraps at 255 depending on the build. -/
def withIndentSucc (m : Machine) (indentation : Nat) (k : Nat → Disp) : Disp :=
  if indentation + 1 < 256 then k (indentation + 1)
  else if m.overflowChecks then Disp.panic
  else k ((indentation + 1) % 256)

/-- `print_indentation`, src/util.rs:122-126. -/
def printIndentation (indentation : Nat) : Disp := .print (List.replicate indentation '\t')

/-! ### Hex dumps, src/util.rs:128-197 -/

/-- Upper-case hex digit of a number below 16. -/
def hexDigitUpper (n : Nat) : Char := if n < 10 then Char.ofNat (48 + n) else Char.ofNat (55 + n)

/-- `{:X}` of a `u8`: no leading zero. -/
def hexUpper (b : Byte) : Text :=
  if b.toNat < 16 then [hexDigitUpper b.toNat]
  else [hexDigitUpper (b.toNat / 16), hexDigitUpper (b.toNat % 16)]

/-- `{:0>w}`: padding on the left with `0` up to width `w`. -/
def padLeft0 (w : Nat) (t : Text) : Text := List.replicate (w - t.length) '0' ++ t

/-- `{byte:0>2X}`, src/util.rs:141, 163, 195. -/
def hexByte (b : Byte) : Text := padLeft0 2 (hexUpper b)

/-- The hex part of a line, src/util.rs:134-142, 156-164: bytes separated by single spaces. -/
def hexLine : List Byte → Text
  | [] => []
  | [b] => hexByte b
  | b :: bs => hexByte b ++ ' ' :: hexLine bs

/-- One line of `print_bytes`, src/util.rs:131-146. -/
def printBytesLine (indentation : Nat) (line : List Byte) : Disp :=
  .all [printIndentation indentation, .print (hexLine line), .println []]

/-- `print_bytes`, src/util.rs:130-147. -/
def printBytes (bytes : List Byte) (bytesPerLine indentation : Nat) : Disp :=
  .all ((chunks bytesPerLine bytes).map (printBytesLine indentation))

/-- The readout character of a byte, src/util.rs:176-179. -/
def printableChar (b : Byte) : Char := if 0x20 ≤ b ∧ b ≤ 0x7E then byteAsChar' b else '.'
where
  /-- `byte as char`. -/
  byteAsChar' (b : Byte) : Char := Char.ofNat b.toNat

/-- One line of `print_bytes_pretty`, src/util.rs:153-185 (without indentation). -/
def prettyLine (bytesPerLine : Nat) (line : List Byte) : Text :=
  hexLine line ++ (List.replicate (bytesPerLine - line.length) [' ', ' ', ' ']).flatten ++
    [' ', ' '] ++ line.map printableChar

/-- One line of `print_bytes_pretty`, src/util.rs:153-185. -/
def printBytesPrettyLine (bytesPerLine indentation : Nat) (line : List Byte) : Disp :=
  .all [printIndentation indentation, .print (prettyLine bytesPerLine line), .println []]

/-- `print_bytes_pretty`, src/util.rs:152-186. -/
def printBytesPretty (bytes : List Byte) (bytesPerLine indentation : Nat) : Disp :=
  .all ((chunks bytesPerLine bytes).map (printBytesPrettyLine bytesPerLine indentation))

/-- `print_bytes_small`, src/util.rs:193-197. -/
def printBytesSmall (bytes : List Byte) : Disp := .print (bytes.flatMap hexByte)

/-! ### The bit breakdown, src/emv/bitflag_values.rs:73-178 -/

/-- The eight digits of a byte, src/emv/bitflag_values.rs:97-103. -/
def byteBits (b : Byte) : Text :=
  (List.range 8).reverse.map (fun offset => if b.toNat.testBit offset then '1' else '0')

/-- The binary representation, src/emv/bitflag_values.rs:90-104. -/
def binaryText : List Byte → Text
  | [] => []
  | [b] => byteBits b
  | b :: bs => byteBits b ++ ' ' :: binaryText bs

/-! The drawing computes on `u8` and `u64`. Every operation that can leave its type is written out, and is modelled as
panicking when it does. (A build without overflow checks would wrap around instead: since no operation is ever out of
range, which is proved, the two do not differ.) -/

/-- `a + b` on `u8`. -/
def u8Add (a b : Nat) : Out Nat := if a + b < 256 then .ok (a + b) else .panic

/-- `a - b` on `u8`. -/
def u8Sub (a b : Nat) : Out Nat := if b ≤ a then .ok (a - b) else .panic

/-- `a * b` on `u8`. -/
def u8Mul (a b : Nat) : Out Nat := if a * b < 256 then .ok (a * b) else .panic

/-- `1 << n` on `u64`. -/
def u64Bit (n : Nat) : Out Nat := if n < 64 then .ok (1 <<< n) else .panic

/-- A loop that prints: the texts of its rounds one after the other. -/
def printLoop (f : Nat → Out Text) : List Nat → Out Text
  | [] => .ok []
  | i :: is => do
    let t ← f i
    let ts ← printLoop f is
    return t ++ ts

/-- `arm_bits`, src/emv/bitflag_values.rs:109, 111-112: the loop over the ranges from the last one. -/
def armBits : List EnabledBitRange → (arms : Nat) → Out Nat
  | [], arms => .ok arms
  | r :: rs, arms => do
    let b ← u64Bit r.offset
    armBits rs (arms ||| b)

/-- `multi_bit_value`, src/emv/bitflag_values.rs:110, 113-115. -/
def multiBitValue (ranges : List EnabledBitRange) : Bool := ranges.any (fun r => decide (r.len > 1))

/-- One round of the padding before a header glyph, src/emv/bitflag_values.rs:124-129. -/
def headerCell (numBits offset i : Nat) : Out Text := do
  let j ← u8Add i 1
  return (if j % 8 = 0 ∧ j < numBits then [' '] else []) ++ (if i ≠ offset then [' '] else [])

/-- The padding before one header glyph, src/emv/bitflag_values.rs:123-130. -/
def headerPad (numBits offset currentOffset : Nat) : Out Text :=
  printLoop (headerCell numBits offset) (List.range' offset (currentOffset + 1 - offset))

/-- One header glyph, src/emv/bitflag_values.rs:131-139. -/
def headerGlyph (len : Nat) : Out Text :=
  if len > 1 then do
    let k ← u8Sub len 2
    return '├' :: (List.replicate k '─' ++ ['┘'])
  else .ok ['│']

/-- The next `current_offset`, src/emv/bitflag_values.rs:142-146. -/
def nextOffset (offset len : Nat) : Out Nat := if offset > len then u8Sub offset len else .ok 0

/-- The header line, src/emv/bitflag_values.rs:122-147. -/
def headerLine (numBits : Nat) : List EnabledBitRange → (currentOffset : Nat) → Out Text
  | [], _ => .ok []
  | r :: rs, currentOffset => do
    let pad ← headerPad numBits r.offset currentOffset
    let glyph ← headerGlyph r.len
    let next ← nextOffset r.offset r.len
    let rest ← headerLine numBits rs next
    return pad ++ glyph ++ rest

/-- One round of the leading part of an explanation line, src/emv/bitflag_values.rs:154-161. -/
def armCell (numBits arms i : Nat) : Out Text := do
  let k ← u8Sub numBits i
  let b ← u64Bit k
  return (if arms &&& b > 0 then ['│'] else [' ']) ++ (if k % 8 = 0 then [' '] else [])

/-- The leading part of an explanation line, src/emv/bitflag_values.rs:153-162. -/
def armLead (numBits arms offset : Nat) : Out Text := do
  let k ← u8Sub numBits offset
  printLoop (armCell numBits arms) (List.range' 1 (k - 1))

/-- The colour of an explanation, src/emv/bitflag_values.rs:165-173. -/
def severitySpec (showSeverityColours : Bool) (s : Severity) : ColorSpec :=
  ⟨false, if showSeverityColours then
      match s with
      | .normal => none
      | .warning => some .yellow
      | .error => some .red
    else none⟩

/-- Goes on with the result of a computation that does not return errors. -/
def Disp.after {α : Type} (x : Out α) (k : α → Disp) : Disp :=
  match x with
  | .ok a => k a
  | _ => .panic

/-- One explanation line, src/emv/bitflag_values.rs:150-177. -/
def armLine (numBits arms indentation : Nat) (showSeverityColours : Bool) (r : EnabledBitRange) :
    Disp :=
  .all [printIndentation indentation, .after (armLead numBits arms r.offset) .print, .print ['└', ' '],
    .color (severitySpec showSeverityColours r.severity), .println r.explanation, .reset]

/-- `display_breakdown` of a bitflag value, src/emv/bitflag_values.rs:73-178. (`V::NUM_BYTES as u8`, line 82,
truncates.) -/
def displayBreakdown (numBytes : Nat) (binaryRepr : List Byte) (ranges : List EnabledBitRange)
    (indentation : Nat) (showSeverityColours : Bool) : Disp :=
  .after (u8Mul (numBytes % 256) 8) fun numBits =>
    .all [
      printIndentation indentation, .color boldSpec, .print (binaryText binaryRepr), .println [],
      .reset,
      .after (armBits ranges.reverse 0) fun arms =>
        .all [
          if multiBitValue ranges then
            .after (u8Sub numBits 1) fun currentOffset =>
              .all [printIndentation indentation, .after (headerLine numBits ranges currentOffset) .print,
                .println []]
          else .nil,
          .all (ranges.reverse.map (armLine numBits arms indentation showSeverityColours))]]

/-- `display_breakdown` of the value of a `bitflag_value!` struct. -/
def displayLayout (l : Layout) (v : Value) (indentation : Nat) (show_ : Bool) : Disp :=
  displayBreakdown l.numBytes (l.binaryRepresentation v) (l.bitDisplayInformation v) indentation show_

end Pemv
