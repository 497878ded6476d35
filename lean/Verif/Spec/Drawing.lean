import Verif.Model.Output

/-!
# Specification of the terminal and of the drawing of bit breakdowns
-/

namespace Pemv.Spec

/-! ### The terminal -/

/-- The style of text when no colour is set. -/
def plainStyle : ColorSpec := ⟨false, none⟩

/-- What a terminal in a style shows when it receives a sequence of actions: characters, each in the style
last set. -/
def paint : ColorSpec → List Ev → List (Char × ColorSpec)
  | _, [] => []
  | s, .text t :: es => t.map (fun c => (c, s)) ++ paint s es
  | _, .setColor c :: es => paint c es
  | _, .reset :: es => paint plainStyle es

/-- The style the terminal is left in. -/
def lastStyle : ColorSpec → List Ev → ColorSpec
  | s, [] => s
  | s, .text _ :: es => lastStyle s es
  | _, .setColor c :: es => lastStyle c es
  | _, .reset :: es => lastStyle plainStyle es

/-- An output routine ends normally, shows these cells, and leaves the terminal without colours. -/
structure Shows (d : Disp) (cells : List (Char × ColorSpec)) : Prop where
  returns : d.panicked = false
  cells : paint plainStyle d.evs = cells
  restored : lastStyle plainStyle d.evs = plainStyle

/-- Text in a style. -/
def styled (s : ColorSpec) (t : Text) : List (Char × ColorSpec) := t.map (fun c => (c, s))

/-- Text without a style. -/
def plain (t : Text) : List (Char × ColorSpec) := styled plainStyle t

/-- Leading tabs. -/
def tabs (n : Nat) : Text := List.replicate n '\t'

/-! ### Columns

A value of `n` bytes is written as `n` groups of eight digits separated by single spaces. Bits are counted
from the rightmost one, from 0. -/

/-- The bit written in a text column, if any. -/
def bitAt (n k : Nat) : Option Nat := if k % 9 = 8 then none else some (8 * n - 1 - (k - k / 9))

/-- The column of a bit. -/
def column (n b : Nat) : Nat := (8 * n - 1 - b) + (8 * n - 1 - b) / 8

/-- Bit `b` of a value of `n` bytes. -/
def bitOf (bytes : List Byte) (b : Nat) : Bool :=
  (bytes.getD (bytes.length - 1 - b / 8) 0).toNat.testBit (b % 8)

/-- The line of digits. -/
def digitLine (bytes : List Byte) : Text :=
  (List.range (9 * bytes.length - 1)).map (fun k =>
    match bitAt bytes.length k with
    | some b => if bitOf bytes b then '1' else '0'
    | none => ' ')

/-- One annotated range of bits: its leftmost bit, its width, its explanation and its severity. -/
structure Annotation where
  left : Nat
  width : Nat
  text : Text
  severity : Severity
  deriving DecidableEq, Repr

/-- The rightmost bit. -/
def Annotation.right (r : Annotation) : Nat := r.left + 1 - r.width

/-- Does the range contain a bit? -/
def Annotation.has (r : Annotation) (b : Nat) : Bool := decide (r.right ≤ b) && decide (b ≤ r.left)

/-- What the header line shows for a bit: a bracket over each range of several bits, a bar over each single
bit, nothing over other bits. -/
def headerGlyphAt (rs : List Annotation) (b : Nat) : Char :=
  match rs.find? (fun r => r.has b) with
  | none => ' '
  | some r => if r.width = 1 then '│' else if b = r.left then '├' else if b = r.right then '┘' else '─'

/-- The header line, up to the rightmost annotated bit. -/
def header (n : Nat) (rs : List Annotation) : Text :=
  (List.range ((rs.getLast?.map (fun r => column n r.right + 1)).getD 0)).map (fun k =>
    match bitAt n k with
    | some b => headerGlyphAt rs b
    | none => ' ')

/-- The part of an explanation line before the elbow: a bar below the leftmost bit of every range further
left. -/
def lead (n : Nat) (rs : List Annotation) (r : Annotation) : Text :=
  (List.range (column n r.left)).map (fun k =>
    match bitAt n k with
    | some b => if rs.any (fun r' => r'.left == b) then '│' else ' '
    | none => ' ')

/-- The colour of a severity. -/
def severityStyle : Severity → ColorSpec
  | .normal => ⟨false, none⟩
  | .warning => ⟨false, some .yellow⟩
  | .error => ⟨false, some .red⟩

/-- The whole drawing: the digits, the header if some range has several bits, and the explanations from
right to left, each with an elbow in the column of its leftmost bit. -/
def drawing (bytes : List Byte) (rs : List Annotation) (indent : Nat) (colours : Bool) :
    List (Char × ColorSpec) :=
  plain (tabs indent) ++ styled ⟨true, none⟩ (digitLine bytes ++ ['\n']) ++
  (if rs.any (fun r => r.width ≠ 1) then plain (tabs indent ++ header bytes.length rs ++ ['\n']) else []) ++
  rs.reverse.flatMap (fun r => plain (tabs indent ++ lead bytes.length rs r ++ ['└', ' ']) ++
    styled (if colours then severityStyle r.severity else plainStyle) (r.text ++ ['\n']))

/-- Ranges that do not leave their byte, in a value of `n` bytes, from left to right, without overlap. -/
def GoodRanges (n : Nat) (rs : List Annotation) : Prop :=
  (∀ r ∈ rs, 1 ≤ r.width ∧ r.width ≤ r.left % 8 + 1 ∧ r.left < 8 * n) ∧
    rs.Pairwise (fun a b => b.left < a.right)

end Pemv.Spec
