import Verif.Spec.Complete
import Verif.Spec.Whole

/-!
# Specification of C111: the data objects that are given
-/

namespace Pemv.Spec

/-- The data objects given, as tags and values: BER-TLV objects, or Ingenico records that are EMV data. How a length is
written, the format of a record and what is around it do not occur in them, and neither does what is masked. -/
inductive Holds (masks : List Char) : CliOps → List (List Byte × EmvData) → Prop
  | ber {s : Text} {es : List Elem} (hb : IsBlock es) (hs : hexBytes s = concat es) :
      Holds masks { berTlv := some s } (es.map (fun e => (e.tag, dataOf e.value masks)))
  | ingenico {s : Text} {rs : List Record} (hr : Recorded masks s rs) :
      Holds masks { ingenicoTlv := some s } ((emvRecords rs).map (fun r => (r.tag, r.data masks)))

/-- The same data objects in the same order; if they are going to be sorted, only the order of objects with the same
tag matters. -/
def SameObjects (sort : Bool) (l l' : List (List Byte × EmvData)) : Prop :=
  if sort then ∀ tag, l.filter (fun p => decide (p.1 = tag)) = l'.filter (fun p => decide (p.1 = tag)) else l = l'

/-- The format that is detected and the option for it: Ingenico records if the text is some, otherwise BER-TLV. -/
inductive Detects (masks : List Char) (s : Text) : String → CliOps → Prop
  | ingenico (h : ∃ rs, Recorded masks s rs) : Detects masks s "Ingenico" { ingenicoTlv := some s }
  | ber (h : ¬ ∃ rs, Recorded masks s rs) (hb : ∃ es, hexBytes s = concat es ∧ IsBlock es) :
      Detects masks s "BER-TLV" { berTlv := some s }

end Pemv.Spec
