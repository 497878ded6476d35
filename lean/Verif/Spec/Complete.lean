import Verif.Spec.Run
import Verif.Spec.Ingenico

/-!
# Specification of the answer to every request

What the program has to report for each option and argument, from the text given to the lines shown. Nothing of the
program occurs in it but data types.
-/

namespace Pemv.Spec

/-! ### Data objects -/

mutual
/-- The data objects inside a value: those of a constructed object that is not masked and whose value is a sequence of
objects. -/
inductive ContentsOf (masks : List Char) : List Byte → EmvData → List RawEmvNode → Prop
  | masked (tag : List Byte) : ContentsOf masks tag .masked []
  | primitive (tag value : List Byte) (h : typeOf tag = .primitive) : ContentsOf masks tag (.normal value) []
  | unreadable (tag value : List Byte) (h : typeOf tag = .constructed) (hn : ¬ ∃ es, value = concat es ∧ IsBlock es) :
      ContentsOf masks tag (.normal value) []
  | template (tag : List Byte) (h : typeOf tag = .constructed) {es : List Elem} {ns : List RawEmvNode} (hb : IsBlock es)
      (ht : ObjectsOf masks es ns) : ContentsOf masks tag (.normal (concat es)) ns
/-- The data objects a sequence of encoded objects stands for. -/
inductive ObjectsOf (masks : List Char) : List Elem → List RawEmvNode → Prop
  | nil : ObjectsOf masks [] []
  | cons (e : Elem) {es : List Elem} {children ns : List RawEmvNode}
      (hc : ContentsOf masks e.tag (dataOf e.value masks) children) (rest : ObjectsOf masks es ns) :
      ObjectsOf masks (e :: es) (.mk ⟨e.tag, classOf e.tag, typeOf e.tag, dataOf e.value masks⟩ children :: ns)
end

/-- The data objects Ingenico records stand for. -/
inductive RecordsOf (masks : List Char) : List Record → List RawEmvNode → Prop
  | nil : RecordsOf masks [] []
  | cons (r : Record) {rs : List Record} {children ns : List RawEmvNode}
      (hc : ContentsOf masks r.tag (r.data masks) children) (rest : RecordsOf masks rs ns) :
      RecordsOf masks (r :: rs) (.mk ⟨r.tag, classOf r.tag, typeOf r.tag, r.data masks⟩ children :: ns)

/-! ### Reading -/

/-- Some objects, then a tag and a length that is too long. -/
def TooLong (bytes : List Byte) : Prop :=
  ∃ es tag b rest, bytes = concat es ++ (tag ++ b :: rest) ∧ (∀ e ∈ es, Elem.WF e) ∧ IsTag tag ∧ 132 < b.toNat

/-- What is found in BER-TLV data. -/
inductive BerReads (masks : List Char) : List Byte → Except ParseError (List RawEmvNode) → Prop
  | block {es : List Elem} {ns : List RawEmvNode} (hb : IsBlock es) (h : ObjectsOf masks es ns) :
      BerReads masks (concat es) (.ok ns)
  | tooLong {bytes : List Byte} (h : TooLong bytes) : BerReads masks bytes (.error .unsupported)
  | malformed {bytes : List Byte} (hb : ¬ ∃ es, bytes = concat es ∧ IsBlock es) (hl : ¬ TooLong bytes) :
      BerReads masks bytes (.error .nonCompliant)

/-- Records of ASCII characters. -/
def Recorded (masks : List Char) (s : Text) (rs : List Record) : Prop := (∀ c ∈ s, c.toNat < 128) ∧ IsIngenico masks s rs

/-- Some records, then one with a length that is too long. -/
def TooLongRecord (masks : List Char) (s : Text) : Prop :=
  (∀ c ∈ s, c.toNat < 128) ∧
  ∃ l typ tagHex lenHex rest, s = render l ++ typ :: (tagHex ++ ':' :: (lenHex ++ ':' :: rest)) ∧
    (∀ p ∈ l, Record.WF masks p.1) ∧ (∀ c ∈ tagHex, IsHex c) ∧ 2 ≤ tagHex.length ∧
    (∀ c ∈ lenHex, IsHex c) ∧ 10 ≤ lenHex.length

/-- What is found in Ingenico data. -/
inductive IngReads (masks : List Char) : Text → Except ParseError (List RawEmvNode) → Prop
  | records {s : Text} {rs : List Record} {ns : List RawEmvNode} (hr : Recorded masks s rs)
      (h : RecordsOf masks (emvRecords rs) ns) : IngReads masks s (.ok ns)
  | tooLong {s : Text} (h : TooLongRecord masks s) : IngReads masks s (.error .unsupported)
  | malformed {s : Text} (hr : ¬ ∃ rs, Recorded masks s rs) (hl : ¬ TooLongRecord masks s) :
      IngReads masks s (.error .nonCompliant)

/-- What the options on blocks find: the format, if it is told, and the data objects. -/
inductive BlockReads (masks : List Char) : Operation → Text → Except ParseError (Option String × List RawEmvNode) → Prop
  | ber {s : Text} {ns : List RawEmvNode} (h : BerReads masks (hexBytes s) (.ok ns)) :
      BlockReads masks .berTlv s (.ok (none, ns))
  | berError {s : Text} {e : ParseError} (h : BerReads masks (hexBytes s) (.error e)) : BlockReads masks .berTlv s (.error e)
  | ingenico {s : Text} {ns : List RawEmvNode} (h : IngReads masks s (.ok ns)) :
      BlockReads masks .ingenicoTlv s (.ok (none, ns))
  | ingenicoError {s : Text} {e : ParseError} (h : IngReads masks s (.error e)) : BlockReads masks .ingenicoTlv s (.error e)
  | autoIngenico {s : Text} {ns : List RawEmvNode} (hs : s ≠ []) (h : IngReads masks s (.ok ns)) :
      BlockReads masks .autoTlv s (.ok (some "Ingenico", ns))
  | autoBer {s : Text} {ns : List RawEmvNode} (hs : s ≠ []) (hi : ¬ ∃ rs, Recorded masks s rs)
      (h : BerReads masks (hexBytes s) (.ok ns)) : BlockReads masks .autoTlv s (.ok (some "BER-TLV", ns))
  | autoError {s : Text} (h : s = [] ∨ (¬ ∃ rs, Recorded masks s rs) ∧ ¬ ∃ es, hexBytes s = concat es ∧ IsBlock es) :
      BlockReads masks .autoTlv s (.error .unrecognised)

/-! ### Faults of values -/

/-- The numbers of bytes of the data elements that are decoded and have a fixed size. -/
def fixedSizes : List (List Byte × Nat) :=
  [([0x5F, 0x30], 2), ([0x8A], 2), ([0x95], 5), ([0x9B], 2), ([0x9C], 1), ([0x9F, 0x0D], 5), ([0x9F, 0x0E], 5),
   ([0x9F, 0x0F], 5), ([0x9F, 0x33], 3), ([0x9F, 0x34], 3), ([0x9F, 0x35], 1), ([0x9F, 0x39], 1), ([0x9F, 0x40], 5)]

/-- What is wrong with a value that is not acceptable. -/
def faultOf (tag value : List Byte) : ParseError :=
  if tag = [0x8E] then
    if value.length < 8 then .byteCountIncorrect .gt 8 value.length else .byteCountNotDivisibleIntoComponents
  else if value.length ≠ (fixedSizes.lookup tag).getD 0 then
    .byteCountIncorrect .eq ((fixedSizes.lookup tag).getD 0) value.length
  else if tag = [0x9F, 0x34] then .nonCompliant
  else if tag = [0x9F, 0x35] ∨ tag = [0x9F, 0x39] then .unrecognised
  else .invalidNumber

/-- This is what is wrong with the first value that is not acceptable. -/
def FirstFault (b : List RawEmvNode) (e : ParseError) : Prop :=
  ∃ pre t post d, blockTags b = pre ++ t :: post ∧ (∀ x ∈ pre, ∀ d, x.data = .normal d → Acceptable x.tag d) ∧
    t.data = .normal d ∧ ¬ Acceptable t.tag d ∧ e = faultOf t.tag d

/-! ### Answers -/

/-- The lines before those of a block. -/
def formatTold : Option String → List Line
  | some f => formatLines f
  | none => []

/-- The answer to a request: lines or a message. -/
inductive Answer (masks : List Char) (sort : Bool) : Operation → Text → Except Text (List Line) → Prop
  | hex {op : Operation} (s : Text) (h : op ∈ hexOperations) : Answer masks sort op s (hexReport op (hexBytes s))
  | serviceCode {s : Text} {n : Nat} (h : IsU16Text s n) (hn : n ≤ 999) :
      Answer masks sort .serviceCode s (.ok (serviceCodeLines (n / 100) (n / 10 % 10) (n % 10)))
  | noServiceCode {s : Text} (h : ¬ ∃ n, IsU16Text s n ∧ n ≤ 999) :
      Answer masks sort .serviceCode s (.error (message .invalidNumber))
  | block {op : Operation} {s : Text} {f : Option String} {b b' : List RawEmvNode}
      (h : BlockReads masks op s (.ok (f, b))) (ha : AllAcceptable b) (ho : Arranged sort b b') :
      Answer masks sort op s (.ok (formatTold f ++ blockLines true b'))
  | fault {op : Operation} {s : Text} {f : Option String} {b : List RawEmvNode} {e : ParseError}
      (h : BlockReads masks op s (.ok (f, b))) (hf : FirstFault b e) : Answer masks sort op s (.error (message e))
  | unreadable {op : Operation} {s : Text} {e : ParseError} (h : BlockReads masks op s (.error e)) :
      Answer masks sort op s (.error (message e))

/-- No line of the answer has to be indented by more than 255 tabs. -/
def Indentable : Except Text (List Line) → Prop
  | .ok ls => ∀ l ∈ ls, ∀ k, l.indent = some k → k ≤ 255
  | .error _ => True

end Pemv.Spec
