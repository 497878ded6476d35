import Verif.Spec.Run

/-!
# Specification of relations between whole runs
-/

namespace Pemv.Spec

/-- The tag of an object. -/
def Obj.tagBytes : Obj → List Byte
  | .prim tag _ => tag
  | .cons tag _ => tag

/-- The bytes of its value. -/
def Obj.content : Obj → List Byte
  | .prim _ value => value
  | .cons _ children => encodeAll children

/-- Objects written as Ingenico records: each in ASCII or hex, and followed by a separator. -/
def asRecords (l : List (Obj × Bool × Char)) : Text :=
  render (l.map (fun p => (writeRecord p.2.1 p.1.tagBytes p.1.content, p.2.2)))

/-- The number of hex digits in a text is even. -/
def WholeBytes (s : Text) : Prop := (s.filterMap hexDigit?).length % 2 = 0

open Classical in
mutual
/-- A data object with its value and its children removed if the value is masked, and otherwise with its children
treated in the same way. -/
noncomputable def hideNode (masks : List Char) : RawEmvNode → RawEmvNode
  | .mk t c =>
    match t.data with
    | .masked => .mk t c
    | .normal v =>
      if IsMasked (latin1 v) masks then .mk { t with data := .masked } [] else .mk t (hideBlock masks c)
/-- The same for all objects of a block. -/
noncomputable def hideBlock (masks : List Char) : List RawEmvNode → List RawEmvNode
  | [] => []
  | n :: ns => hideNode masks n :: hideBlock masks ns
end

open Classical in
/-- What becomes of an object read from an Ingenico record: hidden if the value in the record is masked, and otherwise
with its children treated as above. -/
noncomputable def hideRecord (masks : List Char) (r : Record) : RawEmvNode → RawEmvNode
  | .mk t c =>
    if IsMasked r.value masks then .mk { t with data := .masked } [] else .mk t (hideBlock masks c)

/-- The block that is read when one of the two options is given. -/
inductive Reads (m : Machine) (masks : List Char) : CliOps → List RawEmvNode → Prop
  | ber {s : Text} {b : List RawEmvNode} (hm : Fits m (hexBytes s).length) (h : berParse m (hexBytes s) masks = .ok b) :
      Reads m masks { berTlv := some s } b
  | ingenico {s : Text} {b : List RawEmvNode} (hm : Fits m s.length) (h : ingParse m s masks = .ok b) :
      Reads m masks { ingenicoTlv := some s } b

/-- A run is like another one, except that the format is told before anything else that is shown. If the other one
reports an error, it reports the same and shows nothing. -/
structure Announces (format : String) (r r' : Run) : Prop where
  stderr : r'.stderr = r.stderr
  help : r'.help = r.help
  diverged : r'.diverged = r.diverged
  panicked : r'.disp.panicked = r.disp.panicked
  error : r.stderr ≠ none → r'.disp = .nil ∧ r.disp = .nil
  shown : r.stderr = none → ∃ d, Shows d (showLines 0 (formatLines format)) ∧ r'.disp = d.seq r.disp

end Pemv.Spec
