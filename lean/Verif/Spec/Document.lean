import Verif.Spec.Labels
import Verif.Spec.Codes
import Verif.Spec.Process
import Verif.Spec.Dictionary

/-!
# Specification of what is shown

What the program shows for each value and for whole blocks, as a document: lines with an indentation. It is
given directly in terms of the bytes received and of the published tables; none of the parsed types of the
program occur.
-/

namespace Pemv.Spec

/-- Characters with their styles. -/
abbrev Cells := List (Char × ColorSpec)

/-- A line: its indentation (`none` for lines that are never indented) and its content including the line
break. -/
structure Line where
  indent : Option Nat
  cells : Cells

/-- A line in a document that is indented as a whole. The indentation is a number below 256; see C55 for
what becomes of deeper lines. -/
def Line.render (base : Nat) (l : Line) : Cells :=
  match l.indent with
  | some k => plain (tabs ((base + k) % 256)) ++ l.cells
  | none => l.cells

/-- A document, indented as a whole. -/
def showLines (base : Nat) (ls : List Line) : Cells := ls.flatMap (Line.render base)

/-- A document one level deeper. -/
def deeper (ls : List Line) : List Line := ls.map (fun l => { l with indent := l.indent.map (· + 1) })

/-- Headings are bold and cyan. -/
def heading (t : String) : Cells := styled ⟨true, some .cyan⟩ t.toList

/-- Bold text. -/
def bold (t : Text) : Cells := styled ⟨true, none⟩ t

/-- A line at the current level. -/
def line (c : Cells) : Line := ⟨some 0, c⟩

/-- A heading on a line of its own. -/
def title (t : String) : Line := line (heading (t ++ "\n"))

/-- A heading followed by text. -/
def entry (t : String) (rest : Text) : Line := line (heading t ++ plain (rest ++ ['\n']))

/-- A line of plain text. -/
def textLine (t : Text) : Line := line (plain (t ++ ['\n']))

/-! ### Bytes in hex -/

/-- Two upper-case digits. -/
def hexPair (b : Byte) : Text :=
  ["0123456789ABCDEF".toList.getD (b.toNat / 16) ' ', "0123456789ABCDEF".toList.getD (b.toNat % 16) ' ']

/-- Bytes separated by single spaces. -/
def hexRow (bs : List Byte) : Text := [' '].intercalate (bs.map hexPair)

/-- Rows of sixteen bytes; the last one may be shorter. -/
def rowsOf16 (bs : List Byte) : List (List Byte) :=
  (List.range ((bs.length + 15) / 16)).map (fun i => (bs.drop (16 * i)).take 16)

/-- A byte as a readable character. -/
def readable (b : Byte) : Char := if 32 ≤ b.toNat ∧ b.toNat ≤ 126 then Char.ofNat b.toNat else '.'

/-- Text filled up with spaces. -/
def padTo (width : Nat) (t : Text) : Text := t ++ List.replicate (width - t.length) ' '

/-- A hex dump. -/
def dump (bs : List Byte) : List Line := (rowsOf16 bs).map (fun r => textLine (hexRow r))

/-- A hex dump with the readable characters from column 49 on. -/
def dumpWithText (bs : List Byte) : List Line :=
  (rowsOf16 bs).map (fun r => textLine (padTo 49 (hexRow r) ++ r.map readable))

/-! ### Values -/

/-- The drawing of a bit-mapped value, by lines. -/
def drawingLines (bytes : List Byte) (rs : List Annotation) (colours : Bool) : List Line :=
  [line (bold (digitLine bytes ++ ['\n']))] ++
  (if rs.any (fun r => r.width ≠ 1) then [textLine (header bytes.length rs)] else []) ++
  rs.reverse.map (fun r => line (plain (lead bytes.length rs r ++ ['└', ' ']) ++
    styled (if colours then severityStyle r.severity else plainStyle) (r.text ++ ['\n'])))

/-- A bit-mapped value: the used bits and the explanations of its items. -/
def bitLines (items : List Item) (labels : List (String × Severity × String)) (bs : List Byte)
    (colours : Bool) : List Line :=
  drawingLines (clearUnused items bs) (annotations labels items bs) colours

/-- An issuer action code. -/
def iacLines (kind : IacKind) (bs : List Byte) : List Line :=
  title (iacHeading kind) :: bitLines tvrItems tvrLabels bs false

/-- The code in some bits if it is listed, otherwise 0. -/
def listedOrZero (codes : List (Nat × String)) (n : Nat) : Nat := if (codes.lookup n).isSome then n else 0

/-- The bits shown for CVM Results: unlisted method and condition codes appear as zeros. -/
def cvmResultsBits (bs : List Byte) : List Byte :=
  [UInt8.ofNat (64 * bits (bs.getD 0 0) 7 7 + listedOrZero cvmCodes (bits (bs.getD 0 0) 6 1)),
   UInt8.ofNat (listedOrZero conditionCodes (bits (bs.getD 1 0) 8 1)), bs.getD 2 0]

/-- CVM Results. -/
def cvmResultsLines (bs : List Byte) (colours : Bool) : List Line :=
  drawingLines (cvmResultsBits bs) (cvmResultsAnnotations bs) colours

/-- One aspect of a service code: the branch, the aspect in bold, and its meaning, aligned. -/
def aspect (branch label meaning : String) : Line :=
  line (plain branch.toList ++ bold label.toList ++
    plain (List.replicate (26 - label.toList.length) ' ' ++ meaning.toList ++ ['\n']))

/-- A service code. -/
def serviceCodeLines (d1 d2 d3 : Nat) : List Line :=
  [line (bold (decimal d1 ++ decimal d2 ++ decimal d3 ++ ['\n'])),
   aspect "││├ " "Allowed Services:" (services d3),
   aspect "││└ " "PIN Requirements:" (pin d3),
   aspect "│└─ " "Authorisation Processing:" (authorisation d2),
   aspect "├── " "Interchange:" (interchange d1),
   aspect "└── " "Technology:" (technology d1)]

/-- The rules of a CVM List. -/
def pairs : List Byte → List (Byte × Byte)
  | a :: b :: rest => (a, b) :: pairs rest
  | _ => []

/-- The X amount. -/
def amountX (bs : List Byte) : Nat := beValue (bs.take 4)

/-- The Y amount. -/
def amountY (bs : List Byte) : Nat := beValue ((bs.drop 4).take 4)

/-- Do the amounts matter? Condition codes 6 to 9 refer to them. -/
def amountsMatter (bs : List Byte) : Bool :=
  decide (amountX bs ≠ 0) || decide (amountY bs ≠ 0) ||
    (pairs (bs.drop 8)).any (fun p => decide (6 ≤ p.2.toNat) && decide (p.2.toNat ≤ 9))

/-- A number with at least `w` digits. -/
def digitsAtLeast (w n : Nat) : Text := List.replicate (w - (decimal n).length) '0' ++ decimal n

/-- The text of a code, or that for unlisted ones. -/
def codeText (item : String) (codes : List (Nat × String)) (n : Nat) : String :=
  match codes.lookup n with
  | some c => (codeTexts.lookup c).getD ""
  | none => (unlistedTexts.lookup item).getD ""

/-- An aspect of a rule. -/
def ruleAspect (label meaning : String) : Line :=
  ⟨some 1, bold label.toList ++ plain (' ' :: meaning.toList ++ ['\n'])⟩

/-- A rule of a CVM List, with its number. -/
def ruleLines (number : Nat) (p : Byte × Byte) : List Line :=
  [line (bold ("CVM ".toList ++ decimal number ++ ":\n".toList)),
   ruleAspect "Method:         " (codeText "method" cvmCodes (bits p.1 6 1)),
   ruleAspect "Condition:      " (codeText "condition" conditionCodes p.2.toNat),
   ruleAspect "If Unsuccessful:" (if bits p.1 7 7 = 1 then "Next CVM" else "Fail")]

/-- A CVM List. -/
def cvmListLines (bs : List Byte) : List Line :=
  let w := max 3 (max (decimal (amountX bs)).length (decimal (amountY bs)).length)
  (if amountsMatter bs then
    [entry "X Value:" (' ' :: digitsAtLeast w (amountX bs) ++
      " (implicit decimal point based on application currency)".toList),
     entry "Y Value:" (' ' :: digitsAtLeast w (amountY bs))]
  else []) ++
  [title "Cardholder Verification Rules:"] ++
  ((pairs (bs.drop 8)).zipIdx 1).flatMap (fun p => ruleLines p.2 p.1)

/-- Issuer Application Data (format A of the CCD). -/
def iadLines (bs : List Byte) (colours : Bool) : List Line :=
  [title "Common Core Identifier:"] ++
  deeper (bitLines cciItems cciLabels ((bs.drop 1).take 1) colours) ++
  [entry "Derivation Key Index:" (" 0x".toList ++ hexPair (bs.getD 2 0)),
   title "Card Verification Results:"] ++
  deeper (bitLines cvrItems cvrLabels ((bs.drop 3).take 5) colours) ++
  [title "Counters: (Payment System-Specific)"] ++ deeper (dump ((bs.drop 8).take 8)) ++
  [title "Issuer-Discretionary Data"] ++ deeper (dump (bs.drop 17))

/-- The texts of the POS entry modes, by code. -/
def posEntryModeTexts : List (Nat × String) :=
  [(0x00, "Unknown"), (0x01, "Manual (keyed entry)"), (0x02, "Magnetic Stripe Reader (MSR)"),
   (0x03, "Barcode"), (0x04, "Optical Character Recognition (OCR)"),
   (0x05, "Integrated Circuit Chip (ICC) - Data Reliable (contact/insert transaction) (CVV can be checked)"),
   (0x06, "Magnetic Stripe Track 1"), (0x07, "Contactless Chip (contactless/tap transaction)"),
   (0x08, "Contactless Chip (contactless/tap transaction) - Contactless Mapping Service Applied"),
   (0x09, "E-Commerce - Including Remote Chip"),
   (0x10, "Merchant Has Cardholder Credentials On File (token, recurring payment, etc.)"),
   (0x80, "ICC Could Not Process - Fallback to MSR"), (0x81, "E-Commerce - Including Chip"),
   (0x82, "Via a Server (issuer, acquirer, third-party vendor)"),
   (0x83, "Contactless Chip (contactless/tap transaction)"),
   (0x90, "Magnetic Stripe Reader (MSR) - Full Track Data - Data Reliable (CVV can be checked)"),
   (0x91, "Contactless Magnetic Stripe Data (MSD)"),
   (0x92, "Contactless Chip (contactless/tap transaction) - Contactless Mapping Service Applied"),
   (0x95, "Integrated Circuit Chip (ICC) - Data Unreliable (contact/insert transaction) (CVV cannot be checked)")]

/-- The meaning of an authorisation response code: two ASCII digits. -/
def responseText : List Byte → Option String
  | [a, b] =>
    if 48 ≤ a.toNat ∧ a.toNat ≤ 57 ∧ 48 ≤ b.toNat ∧ b.toNat ≤ 57 then
      responseCodes.lookup (10 * (a.toNat - 48) + (b.toNat - 48))
    else none
  | _ => none

/-- Is this Issuer Application Data of format A? -/
def isFormatA (bs : List Byte) : Bool :=
  bs.length == 32 && bs[0]? == some 0x0F && bs[16]? == some 0x0F &&
    (bs[1]? == some 0xA5 || bs[1]? == some 0xA6)

/-- What is shown of the value of a data element beyond its bytes; nothing for elements that are not decoded
and for values that are not understood. -/
def valueLines (colours : Bool) (tag d : List Byte) : Option (List Line) :=
  if tag = [0x5F, 0x30] then
    some (serviceCodeLines ((d.getD 0 0).toNat % 16) ((d.getD 1 0).toNat / 16) ((d.getD 1 0).toNat % 16))
  else if tag = [0x8A] then (responseText d).map (fun t => [textLine t.toList])
  else if tag = [0x8E] then some (cvmListLines d)
  else if tag = [0x95] then some (bitLines tvrItems tvrLabels d colours)
  else if tag = [0x9B] then some (bitLines tsiItems tsiLabels d colours)
  else if tag = [0x9C] then
    (transactionTypes.lookup (d.getD 0 0).toNat).map (fun t => [textLine t.toList])
  else if tag = [0x9F, 0x0D] then some (iacLines .default d)
  else if tag = [0x9F, 0x0E] then some (iacLines .denial d)
  else if tag = [0x9F, 0x0F] then some (iacLines .online d)
  else if tag = [0x9F, 0x10] then if isFormatA d then some (iadLines d colours) else none
  else if tag = [0x9F, 0x33] then
    some (bitLines terminalCapabilitiesItems terminalCapabilitiesLabels d colours)
  else if tag = [0x9F, 0x34] then some (cvmResultsLines d colours)
  else if tag = [0x9F, 0x35] then (terminalType (d.getD 0 0).toNat).map (fun t => [textLine t.toList])
  else if tag = [0x9F, 0x39] then
    (posEntryModeTexts.lookup (d.getD 0 0).toNat).map (fun t => [textLine t.toList])
  else if tag = [0x9F, 0x40] then
    some (bitLines additionalTerminalCapabilitiesItems additionalTerminalCapabilitiesLabels d colours)
  else none

/-! ### Tags and blocks -/

/-- The dictionary name of a tag. -/
def dictionaryName (tag : List Byte) : Option String :=
  (dictionary.find? (fun p => tagBytes p.2 == tag)).map Prod.fst

/-- The name shown for a tag: that of the dictionary, unless its value is not understood. -/
def shownName (t : RawEmvTag) : Option String :=
  match t.data with
  | .masked => dictionaryName t.tag
  | .normal d =>
    match tolerated.lookup t.tag, valueLines false t.tag d with
    | some (_, n), none => some n
    | _, _ => dictionaryName t.tag

/-- The number of bytes of a value. -/
def sizeText : EmvData → Text
  | .masked => "?? bytes".toList
  | .normal d => if d.length = 1 then "1 byte".toList else decimal d.length ++ " bytes".toList

/-- The line that introduces a tag. -/
def tagLine (t : RawEmvTag) : Line :=
  line (heading "Tag:" ++ plain " 0x".toList ++ bold (t.tag.flatMap hexPair) ++
    plain (" - ".toList ++ sizeText t.data ++ " - ".toList ++ ((shownName t).getD "<Unknown>").toList ++ ['\n']))

/-- The value as received. -/
def rawLines : EmvData → List Line
  | .masked => [title "* Masked *"]
  | .normal [] => []
  | .normal d => title "Raw:" :: deeper (dumpWithText d)

/-- The value, decoded. -/
def parsedLines (colours : Bool) (t : RawEmvTag) : List Line :=
  match t.data with
  | .masked => []
  | .normal d =>
    match valueLines colours t.tag d with
    | some ls => title "Parsed:" :: deeper ls
    | none => []

mutual
/-- A data object, with its children one level deeper. -/
def nodeLines (colours : Bool) : RawEmvNode → List Line
  | .mk t children =>
    [tagLine t] ++ rawLines t.data ++ parsedLines colours t ++
    (match children with
      | [] => []
      | c :: cs => title "Constructed Data Object's Child Tags:" :: deeper (nodeLines colours c ++
          moreLines colours cs))
/-- Further data objects, each preceded by an empty line. -/
def moreLines (colours : Bool) : List RawEmvNode → List Line
  | [] => []
  | n :: ns => [⟨none, plain ['\n']⟩] ++ nodeLines colours n ++ moreLines colours ns
end

/-- The document of a block: its data objects separated by empty lines. -/
def blockLines (colours : Bool) : List RawEmvNode → List Line
  | [] => []
  | n :: ns => nodeLines colours n ++ moreLines colours ns

mutual
/-- The tags of a node in document order with their nesting depths, the node itself being at depth `d`. -/
def nodeLevels (d : Nat) : RawEmvNode → List (Nat × RawEmvTag)
  | .mk t c => (d, t) :: blockLevels (d + 1) c
/-- The tags of a block in document order with their nesting depths. -/
def blockLevels (d : Nat) : List RawEmvNode → List (Nat × RawEmvTag)
  | [] => []
  | n :: ns => nodeLevels d n ++ blockLevels d ns
end

/-- What is shown about a tag alone. -/
def identifyLines (tag : List Byte) : List Line :=
  [entry "Name:" ("             ".toList ++ ((dictionaryName tag).getD "<Unknown>").toList),
   line (heading "Tag:" ++ plain "              0x".toList ++ bold (tag.flatMap hexPair) ++ plain ['\n']),
   entry "Class:" ("            ".toList ++ (match classOf tag with
     | .universal => "Universal" | .application => "Application" | .contextSpecific => "Context-Specific"
     | .priv => "Private").toList),
   entry "Data Object Type:" (match typeOf tag with
     | .primitive => " Primitive".toList | .constructed => " Constructed".toList)]

end Pemv.Spec
