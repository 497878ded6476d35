import Verif.Spec.Document
import Verif.Spec.Sort
import Verif.Spec.Ingenico
import Verif.Model.Main

/-!
# Specification of whole runs of the program
-/

namespace Pemv.Spec

/-! ### What a run can do -/

/-- The run shows this on standard output, ends normally with the terminal's colours restored, and writes
nothing to standard error. -/
structure Succeeds (r : Run) (shown : Cells) : Prop where
  shows : Shows r.disp shown
  stderr : r.stderr = none
  help : r.help = false
  terminates : r.diverged = false

/-- The run writes this message to standard error, does not touch standard output (not even its colours), and
ends normally. -/
structure Fails (r : Run) (message : Text) : Prop where
  stdout : r.disp.evs = []
  returns : r.disp.panicked = false
  stderr : r.stderr = some (message ++ ['\n'])
  help : r.help = false
  terminates : r.diverged = false

/-- The run prints the help text and does nothing else. -/
structure ShowsHelp (r : Run) : Prop where
  stdout : r.disp.evs = []
  returns : r.disp.panicked = false
  stderr : r.stderr = none
  help : r.help = true
  terminates : r.diverged = false

/-- A document or a message. -/
def Reports (r : Run) : Except Text (List Line) → Prop
  | .ok ls => Succeeds r (showLines 0 ls)
  | .error msg => Fails r msg

/-! ### Error messages -/

/-- A wrong number of bytes. -/
def lengthMessage (how : String) (expected found : Nat) : Text :=
  ("The wrong number of bytes were provided for the value. Perhaps you provided the wrong value? " ++
    "Expected: ").toList ++ how.toList ++ [' '] ++ decimal expected ++ ", Found: ".toList ++ decimal found

/-- The messages of the other errors. -/
def messages : List (ParseError × String) := [
  (.byteCountNotDivisibleIntoComponents, "The number of bytes provided is not divisible into the components of the value. Please check the format of the input data."),
  (.invalidBytes, "The bytes provided are not valid."),
  (.invalidNumber, "The value provided is not a valid number, or is too large."),
  (.nonCompliant, "The value provided isn't compliant with the specifications in some way, or this tool is out of date. If you have reason to believe it's the latter, please make sure you're using the latest version then open an issue on GitHub."),
  (.nonCcdCompliant, "The value provided isn't compliant with the EMV Common Core Definitions (CCD) in some way. This isn't a problem necessarily, but it does mean that the value can't be parsed."),
  (.unsupported, "The value provided is in some way unsupported. If you have genuine need for the unsupported feature, please open an issue on GitHub."),
  (.unrecognised, "The value provided is in some way unrecognised. This isn't a problem necessarily, but it does mean that the value can't be parsed.")]

/-- The message of an error. -/
def message : ParseError → Text
  | .byteCountIncorrect .lt n k => lengthMessage "less than or equal to" n k
  | .byteCountIncorrect .eq n k => lengthMessage "exactly" n k
  | .byteCountIncorrect .gt n k => lengthMessage "greater than or equal to" n k
  | e => ((messages.lookup e).getD "").toList

/-! ### Operations -/

/-- The operations, in order of precedence. -/
inductive Operation where
  | tvr | ccdIad | ccdCvr | tsi | cvmResults | cvmList | identify | autoTlv | berTlv | ingenicoTlv | serviceCode
  deriving DecidableEq, Repr

/-- The options given, in order of precedence. -/
def options (o : CliOps) : List (Operation × Option Text) :=
  [(.tvr, o.tvr), (.ccdIad, o.ccdIad), (.ccdCvr, o.ccdCvr), (.tsi, o.tsi), (.cvmResults, o.cvmResults),
   (.cvmList, o.cvmList), (.identify, o.identify), (.autoTlv, o.autoTlv), (.berTlv, o.berTlv),
   (.ingenicoTlv, o.ingenicoTlv), (.serviceCode, o.serviceCode)]

/-- The operation performed, and its argument. -/
def selected (o : CliOps) : Option (Operation × Text) :=
  (options o).findSome? (fun p => p.2.map (fun s => (p.1, s)))

/-- What is reported for the operations that take one value in hex. -/
def hexReport : Operation → List Byte → Except Text (List Line)
  | .tvr, bs =>
    if bs.length = 5 then .ok (bitLines tvrItems tvrLabels bs true)
    else .error (lengthMessage "exactly" 5 bs.length)
  | .ccdIad, bs => if isFormatA bs then .ok (iadLines bs true) else .error (message .nonCcdCompliant)
  | .ccdCvr, bs =>
    if bs.length = 5 then .ok (bitLines cvrItems cvrLabels bs true)
    else .error (lengthMessage "exactly" 5 bs.length)
  | .tsi, bs =>
    if bs.length = 2 then .ok (bitLines tsiItems tsiLabels bs true)
    else .error (lengthMessage "exactly" 2 bs.length)
  | .cvmResults, bs =>
    if bs.length ≠ 3 then .error (lengthMessage "exactly" 3 bs.length)
    else if 2 < (bs.getD 2 0).toNat then .error (message .nonCompliant)
    else .ok (cvmResultsLines bs true)
  | .cvmList, bs =>
    if bs.length < 8 then .error (lengthMessage "greater than or equal to" 8 bs.length)
    else if bs.length % 2 = 1 then .error (message .byteCountNotDivisibleIntoComponents)
    else .ok (cvmListLines bs)
  | .identify, bs =>
    if bs = [] then .error (lengthMessage "greater than or equal to" 1 0) else .ok (identifyLines bs)
  | _, _ => .error []

/-- The operations that take one value in hex. -/
def hexOperations : List Operation := [.tvr, .ccdIad, .ccdCvr, .tsi, .cvmResults, .cvmList, .identify]

/-! ### Blocks -/

mutual
/-- Every node has its children in the order of tags. -/
inductive ChildrenInOrder : List RawEmvNode → List RawEmvNode → Prop
  | nil : ChildrenInOrder [] []
  | cons (t : RawEmvTag) {c c' b b' : List RawEmvNode} (hc : InTagOrder c c') (hb : ChildrenInOrder b b') :
      ChildrenInOrder (.mk t c :: b) (.mk t c' :: b')
/-- `b'` is `b` with every level sorted by tag, equal tags staying in their order. -/
inductive InTagOrder : List RawEmvNode → List RawEmvNode → Prop
  | mk {b mid b' : List RawEmvNode} (hc : ChildrenInOrder b mid) (perm : b'.Perm mid)
      (ascending : b'.Pairwise (fun x y => LexLe x.tag.tag y.tag.tag))
      (stable : ∀ k, b'.filter (fun n => decide (n.tag.tag = k)) = mid.filter (fun n => decide (n.tag.tag = k))) :
      InTagOrder b b'
end

/-- The lines that tell the format found. -/
def formatLines (format : String) : List Line :=
  [⟨none, heading "TLV Format: " ++ plain (format.toList ++ ['\n'])⟩, ⟨none, plain ['\n']⟩]

/-- The block shown for a block that was read. -/
def Arranged (sort : Bool) (b b' : List RawEmvNode) : Prop := if sort then InTagOrder b b' else b' = b

/-- Every value of a block is acceptable. -/
def AllAcceptable (b : List RawEmvNode) : Prop :=
  ∀ t ∈ blockTags b, ∀ d, t.data = .normal d → Acceptable t.tag d

end Pemv.Spec
