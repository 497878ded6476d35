import Verif.Model.Util

/-!
# The macros of src/macros.rs, as interpreters of tables

Each invocation of `enum_no_repr_fallible!`, `enum_no_repr_infallible!`, `enum_repr_fallible!` is a
list of `Variant`s; each invocation of `bitflag_value!` is a `Layout`. The functions below are what the
macros expand to, with the table as an argument. The tables themselves are in `Model/Tables.lean`.
-/

namespace Pemv

/-! ### Enums -/

/-- One line of an enum macro: variant name, patterns (`none` is the wildcard `_`), display text
(src/macros.rs:16, 76, 131). -/
structure Variant (α : Type) where
  name : String
  pats : Option (List α)
  text : String
  deriving DecidableEq, Repr

/-- Does the pattern match? (One arm of the generated `match`, src/macros.rs:35, 92, 151.) -/
def Variant.isMatch {α : Type} [BEq α] (v : Variant α) (x : α) : Bool :=
  match v.pats with
  | none => true
  | some ps => ps.contains x

/-- The generated `match` on a value: the first arm that matches (src/macros.rs:34-37, 91-93,
150-153). -/
def enumMatch {α : Type} [BEq α] (table : List (Variant α)) (x : α) : Option (Variant α) :=
  table.find? (fun v => v.isMatch x)

/-- `TryFrom` of a fallible enum with its error (src/macros.rs:29-39, 145-155). -/
def enumTryFrom {α : Type} [BEq α] (table : List (Variant α)) (e : ParseError) (x : α) :
    Out (Variant α) :=
  match enumMatch table x with
  | some v => .ok v
  | none => .err e

/-- `From<enum> for u8` of `enum_repr_fallible!` (src/macros.rs:157-161): the discriminant is the one
value of the variant. -/
def Variant.toByte (v : Variant Byte) : Byte :=
  match v.pats with
  | some (p :: _) => p
  | _ => 0

/-! ### Bitflag values -/

/-- `Severity`, src/emv/bitflag_values.rs:34-38. -/
inductive Severity where
  | normal | warning | error
  deriving DecidableEq, Repr

/-- `EnabledBitRange`, src/emv/bitflag_values.rs:23-30. -/
structure EnabledBitRange where
  offset : Nat
  len : Nat
  explanation : Text
  severity : Severity
  deriving DecidableEq, Repr

/-- The field types that occur in `bitflag_value!` invocations: `bool`, `u8`, a fallible enum (with
its error), and the optional enums of src/emv/cv_rule (with the text shown for unknown codes). -/
inductive FieldTy where
  | bool
  | u8
  | enum (table : List (Variant Byte)) (error : ParseError)
  | optEnum (table : List (Variant Byte)) (unknown : String)
  deriving DecidableEq, Repr

/-- One field of `bitflag_value!`, src/macros.rs:260: name, type, bits, shift (`none` for the
un-shifted form), severity, display. -/
structure Field where
  name : String
  ty : FieldTy
  mask : Byte
  shift : Option Nat
  severity : Severity
  display : String
  deriving DecidableEq, Repr

/-- One invocation of `bitflag_value!`, src/macros.rs:253-265: the byte count and, per byte, its
number and fields. -/
structure Layout where
  numBytes : Nat
  rows : List (Nat × List Field)
  deriving DecidableEq, Repr

/-- The value of a field. -/
inductive FieldVal where
  | bool (b : Bool)
  | u8 (n : Byte)
  | enum (v : Variant Byte)
  | optEnum (v : Option (Variant Byte))
  deriving DecidableEq, Repr

/-- A parsed bitflag struct (src/macros.rs:267-273): the field values in declaration order, grouped
by byte as in the invocation. -/
abbrev Value := List (List FieldVal)

/-- `USED_BITS_MASK`, src/macros.rs:303-309. -/
def Layout.usedBitsMask (l : Layout) : List Byte :=
  l.rows.map (fun r => r.2.foldr (fun f acc => f.mask ||| acc) 0)

/-- `>> shift` of the shifted form (nothing in the un-shifted form), src/macros.rs:354-365. -/
def Field.shiftAmount (f : Field) : Byte := UInt8.ofNat (f.shift.getD 0)

/-- `@parse`, src/macros.rs:351-365, on the already masked byte. For the optional enums, `try_from`
is the infallible `From<u8>` (src/emv/cv_rule/cv_method.rs:49-55, cvm_condition.rs:68-74). -/
def Field.parse (f : Field) (byte : Byte) : Out FieldVal :=
  match f.ty with
  | .bool => .ok (.bool (decide (f.mask &&& byte > 0)))
  | .u8 => .ok (.u8 ((f.mask &&& byte) >>> f.shiftAmount))
  | .enum table e => (enumTryFrom table e ((f.mask &&& byte) >>> f.shiftAmount)).map .enum
  | .optEnum table _ => .ok (.optEnum (enumMatch table ((f.mask &&& byte) >>> f.shiftAmount)))

/-- The fields of one byte, in order; the first error aborts (`?` in src/macros.rs:361, 364). -/
def parseFields : List Field → Byte → Out (List FieldVal)
  | [], _ => .ok []
  | f :: fs, byte => do
    let v ← f.parse byte
    let vs ← parseFields fs byte
    .ok (v :: vs)

/-- The struct expression, src/macros.rs:293-297; `bytes` are the masked bytes. -/
def parseRows : List (Nat × List Field) → List Byte → Out Value
  | [], _ => .ok []
  | (byteNum, fs) :: rows, bytes => do
    let byte ← index bytes byteNum
    let vs ← parseFields fs byte
    let rest ← parseRows rows bytes
    .ok (vs :: rest)

/-- The masking loop, src/macros.rs:288-291 (also src/emv/cvm_results.rs:40-43): `mask[index]` panics
when the mask is shorter than the input. -/
def maskBytes : List Byte → List Byte → Out (List Byte)
  | [], _ => .ok []
  | _ :: _, [] => .panic
  | b :: bs, m :: ms => do
    let rest ← maskBytes bs ms
    .ok ((b &&& m) :: rest)

/-- `TryFrom<&[u8]>` of a bitflag struct, src/macros.rs:275-299. -/
def Layout.tryFrom (l : Layout) (rawBytes : List Byte) : Out Value :=
  if rawBytes.length ≠ l.numBytes then
    .err (.byteCountIncorrect .eq l.numBytes rawBytes.length)
  else do
    let bytes ← maskBytes rawBytes l.usedBitsMask
    parseRows l.rows bytes

/-- `u8::from(field)`: identity on `u8`, discriminant of an enum, and 0 for an unknown optional enum
(src/emv/cv_rule/cv_method.rs:58-62, cvm_condition.rs:77-81). -/
def FieldVal.toByte : FieldVal → Byte
  | .bool b => if b then 1 else 0
  | .u8 n => n
  | .enum v => v.toByte
  | .optEnum none => 0
  | .optEnum (some v) => v.toByte

/-- `@field_binary_repr`, src/macros.rs:368-380. -/
def Field.binaryRepr (f : Field) (v : FieldVal) : Byte :=
  match f.ty, v with
  | .bool, .bool b => if b then f.mask else 0
  | _, v => v.toByte <<< f.shiftAmount

/-- `get_binary_representation`, src/macros.rs:311-319. -/
def Layout.binaryRepresentation (l : Layout) (v : Value) : List Byte :=
  List.zipWith
    (fun (r : Nat × List Field) (vs : List FieldVal) =>
      (List.zipWith Field.binaryRepr r.2 vs).foldr (· ||| ·) 0)
    l.rows v

/-- `u8::trailing_zeros`, used at src/macros.rs:344. -/
def trailingZeros (b : Byte) : Nat :=
  ((List.range 8).takeWhile (fun i => !(b.toNat.testBit i))).length

/-- `u8::trailing_ones`, used at src/macros.rs:344, 347. -/
def trailingOnes (b : Byte) : Nat :=
  ((List.range 8).takeWhile (fun i => b.toNat.testBit i)).length

/-- `u8::leading_zeros`, used at src/macros.rs:386. -/
def leadingZeros (b : Byte) : Nat :=
  ((List.range 8).takeWhile (fun i => !(b.toNat.testBit (7 - i)))).length

/-- `@bit_len`, src/macros.rs:343-348. -/
def Field.bitLen (f : Field) : Nat :=
  match f.shift with
  | none => trailingOnes (f.mask >>> UInt8.ofNat (trailingZeros f.mask))
  | some s => trailingOnes (f.mask >>> UInt8.ofNat s)

/-- The `offset` expression, src/macros.rs:386. (Evaluated on compile-time constants; the subtractions
do not underflow for the tables of the program, see `Layout.WF`.) -/
def Field.offset (f : Field) (byteCount byteNum : Nat) : Nat :=
  (7 - leadingZeros f.mask) + (byteCount - byteNum - 1) * 8

/-- The decimal numeral of a natural number (`Display` of unsigned integers), with fuel. -/
def natToTextF : Nat → Nat → Text
  | 0, _ => []
  | fuel + 1, n =>
    if n < 10 then [Char.ofNat (48 + n)]
    else natToTextF fuel (n / 10) ++ [Char.ofNat (48 + n % 10)]

/-- `Display` of unsigned integers. -/
def natToText (n : Nat) : Text := natToTextF (n + 1) n

/-- `Display` of a field value: `u8` in decimal, enums their text (src/macros.rs:42-48, 164-170), the
optional enums their text or the "unknown" text (src/emv/cv_rule/cv_method.rs:72-80,
cvm_condition.rs:91-99). -/
def Field.valueText (f : Field) (v : FieldVal) : Text :=
  match v with
  | .bool b => (if b then "true" else "false").toList
  | .u8 n => natToText n.toNat
  | .enum v => v.text.toList
  | .optEnum (some v) => v.text.toList
  | .optEnum none =>
    match f.ty with
    | .optEnum _ unknown => unknown.toList
    | _ => []

/-- `format!(display, value)` for a display string with `{}` placeholders (src/macros.rs:407, 415). -/
def formatDisplay : Text → Text → Text
  | '{' :: '}' :: rest, arg => arg ++ formatDisplay rest arg
  | c :: rest, arg => c :: formatDisplay rest arg
  | [], _ => []

/-- `@display_field_bits`, src/macros.rs:383-418: a `bool` pushes a range only when set, anything else
always. -/
def Field.displayRange (f : Field) (byteCount byteNum : Nat) (v : FieldVal) : List EnabledBitRange :=
  match f.ty, v with
  | .bool, .bool b =>
    if b then [⟨f.offset byteCount byteNum, f.bitLen, f.display.toList, f.severity⟩] else []
  | _, v =>
    [⟨f.offset byteCount byteNum, f.bitLen, formatDisplay f.display.toList (f.valueText v),
      f.severity⟩]

/-- `get_bit_display_information`, src/macros.rs:321-329. -/
def Layout.bitDisplayInformation (l : Layout) (v : Value) : List EnabledBitRange :=
  (List.zipWith
    (fun (r : Nat × List Field) (vs : List FieldVal) =>
      (List.zipWith (fun f x => f.displayRange l.numBytes r.1 x) r.2 vs).flatten)
    l.rows v).flatten

end Pemv
