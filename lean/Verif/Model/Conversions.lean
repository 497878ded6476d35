import Verif.Model.Values

/-!
# Conversions and comparisons that the program offers without using all of them itself

The rest of src/emv/cv_rule/cv_method.rs, src/emv/cv_rule/cvm_condition.rs and src/emv/ccd/iad.rs.
-/

namespace Pemv

/-- `OptionalCvMethod`, src/emv/cv_rule/cv_method.rs:29-32, and `OptionalCvmCondition`,
src/emv/cv_rule/cvm_condition.rs:48-51. -/
structure OptionalCode where
  internal : Option (Variant Byte)
  deriving DecidableEq, Repr

/-- `From<Option<_>>`, src/emv/cv_rule/cv_method.rs:35-39, cvm_condition.rs:54-58. -/
def OptionalCode.ofOption (value : Option (Variant Byte)) : OptionalCode := ⟨value⟩

/-- `From<Optional…> for Option<_>`, src/emv/cv_rule/cv_method.rs:42-46, cvm_condition.rs:61-65. -/
def OptionalCode.toOption (value : OptionalCode) : Option (Variant Byte) := value.internal

/-- `From<u8>`, src/emv/cv_rule/cv_method.rs:49-55, cvm_condition.rs:68-74: `try_from(value).ok()`. -/
def OptionalCode.ofByte (table : List (Variant Byte)) (value : Byte) : OptionalCode :=
  match enumTryFrom table .nonCompliant value with
  | .ok v => ⟨some v⟩
  | _ => ⟨none⟩

/-- `From<Optional…> for u8`, src/emv/cv_rule/cv_method.rs:58-62, cvm_condition.rs:77-81. -/
def OptionalCode.toByte (value : OptionalCode) : Byte :=
  match value.internal with
  | some v => v.toByte
  | none => 0

/-- `Display`, src/emv/cv_rule/cv_method.rs:72-80, cvm_condition.rs:91-99; `unknown` is the text of the `else` branch. -/
def OptionalCode.display (unknown : String) (value : OptionalCode) : Text :=
  match value.internal with
  | some v => v.text.toList
  | none => unknown.toList

/-- `FormatCode::A`, src/emv/ccd/cci.rs:24. -/
def formatCodeA : Variant Byte := ⟨"A", some [0x0A], "Format A"⟩

/-- `PartialEq<FormatCode> for FormatSpecificData`, src/emv/ccd/iad.rs:89-95: the data of `Iad` are those of format A. -/
def Iad.hasFormat (_data : Iad) (other : Variant Byte) : Bool := decide (other = formatCodeA)

/-- `PartialEq<FormatSpecificData> for FormatCode`, src/emv/ccd/iad.rs:96-100. -/
def formatOf (code : Variant Byte) (other : Iad) : Bool := other.hasFormat code

end Pemv
