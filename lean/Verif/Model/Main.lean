import Verif.Model.Auto
import Verif.Model.Display
import Verif.Model.Config

/-!
# `main`, src/main.rs
-/

namespace Pemv

/-- `Display for ParseError`, src/error.rs:46-99. -/
def ParseError.text : ParseError → Text
  | .byteCountIncorrect ty expected found =>
    ("The wrong number of bytes were provided for the value. Perhaps you provided the " ++
      "wrong value? Expected: ").toList ++
    (match ty with
      | .lt => "less than or equal to"
      | .eq => "exactly"
      | .gt => "greater than or equal to").toList ++
    " ".toList ++ natToText expected ++ ", Found: ".toList ++ natToText found
  | .byteCountNotDivisibleIntoComponents =>
    ("The number of bytes provided is not divisible into the components of the value. " ++
      "Please check the format of the input data.").toList
  | .invalidBytes => "The bytes provided are not valid.".toList
  | .invalidNumber => "The value provided is not a valid number, or is too large.".toList
  | .nonCompliant =>
    ("The value provided isn't compliant with the specifications in some way, or this " ++
      "tool is out of date. If you have reason to believe it's the latter, please make " ++
      "sure you're using the latest version then open an issue on GitHub.").toList
  | .nonCcdCompliant =>
    ("The value provided isn't compliant with the EMV Common Core Definitions (CCD) in " ++
      "some way. This isn't a problem necessarily, but it does mean that the value " ++
      "can't be parsed.").toList
  | .unsupported =>
    ("The value provided is in some way unsupported. If you have genuine need for the " ++
      "unsupported feature, please open an issue on GitHub.").toList
  | .unrecognised =>
    ("The value provided is in some way unrecognised. This isn't a problem " ++
      "necessarily, but it does mean that the value can't be parsed.").toList

/-- The operation options as `clap` reports them, src/cli.rs:118-316. -/
structure CliOps where
  tvr : Option Text := none
  ccdIad : Option Text := none
  ccdCvr : Option Text := none
  tsi : Option Text := none
  cvmResults : Option Text := none
  cvmList : Option Text := none
  identify : Option Text := none
  autoTlv : Option Text := none
  berTlv : Option Text := none
  ingenicoTlv : Option Text := none
  serviceCode : Option Text := none
  deriving DecidableEq, Repr

/-- What a run did: its output, its error output, whether it printed the help text instead. A panic is
recorded in `disp.panicked`; `diverged` is fuel exhaustion (proved impossible). -/
structure Run where
  disp : Disp
  stderr : Option Text
  help : Bool
  diverged : Bool
  deriving DecidableEq, Repr

/-- `.map(|v| v.display_breakdown(..)).err()` followed by src/main.rs:216-218, after the actions `pre`
already performed. -/
def finish {α : Type} (pre : Disp) (x : Out α) (display : α → Disp) : Run :=
  match x with
  | .ok v => ⟨pre.seq (display v), none, false, false⟩
  | .err e => ⟨pre, some (e.text ++ ['\n']), false, false⟩
  | .panic => ⟨pre.seq .panic, none, false, false⟩
  | .diverge => ⟨pre, none, false, true⟩

/-- `if sort_parsed_tags { v.sort_nodes() }`, src/main.rs:169-171, 183-185, 194-196. -/
def maybeSort (sort : Bool) (b : ProcessedEmvBlock) : ProcessedEmvBlock :=
  if sort then sortNodes b else b

/-- The header of the automatic parser, src/main.rs:160-164. -/
def autoHeader (format : TlvFormat) : Disp :=
  .all [.color headerSpec, .print "TLV Format: ".toList, .reset, .println format.text.toList,
    .println []]

/-- The auto-TLV branch, src/main.rs:155-175. -/
def runAuto (m : Machine) (s : Text) (masks : List Char) (sort : Bool) : Run :=
  match autoParse m s masks with
  | .ok (format, block) =>
    let result := processBlock block
    let pre := if result.isOk then autoHeader format else .nil
    finish pre (result.map (maybeSort sort)) (fun b => displayBlock m b 0 true)
  | .err e => finish .nil (.err e : Out ProcessedEmvBlock) (fun b => displayBlock m b 0 true)
  | .panic => finish .nil (.panic : Out ProcessedEmvBlock) (fun b => displayBlock m b 0 true)
  | .diverge => finish .nil (.diverge : Out ProcessedEmvBlock) (fun b => displayBlock m b 0 true)

/-- `main` from the operation dispatch on, src/main.rs:121-219, with the settings of lines
107-119. -/
def run (m : Machine) (ops : CliOps) (masks : List Char) (sort : Bool) : Run :=
  if let some s := ops.tvr then
    finish .nil (tvrLayout.tryFrom (parseHexStr s)) (fun v => displayLayout tvrLayout v 0 true)
  else if let some s := ops.ccdIad then
    finish .nil (Iad.tryFrom (parseHexStr s)) (fun v => displayIad m v 0 true)
  else if let some s := ops.ccdCvr then
    finish .nil (cvrLayout.tryFrom (parseHexStr s)) (fun v => displayLayout cvrLayout v 0 true)
  else if let some s := ops.tsi then
    finish .nil (tsiLayout.tryFrom (parseHexStr s)) (fun v => displayLayout tsiLayout v 0 true)
  else if let some s := ops.cvmResults then
    finish .nil (CvmResults.tryFrom (parseHexStr s)) (fun v => displayCvmResults v 0 true)
  else if let some s := ops.cvmList then
    finish .nil (CvmList.tryFrom (parseHexStr s)) (fun v => displayCvmList m v 0)
  else if let some s := ops.identify then
    finish .nil (TagBasicInfo.tryFrom (parseHexStr s)) (fun v => displayTagInfo v 0)
  else if let some s := ops.autoTlv then
    runAuto m s masks sort
  else if let some s := ops.berTlv then
    finish .nil ((berParse m (parseHexStr s) masks >>= processBlock).map (maybeSort sort))
      (fun b => displayBlock m b 0 true)
  else if let some s := ops.ingenicoTlv then
    finish .nil ((ingParse m s masks >>= processBlock).map (maybeSort sort))
      (fun b => displayBlock m b 0 true)
  else if let some s := ops.serviceCode then
    finish .nil (parseStrToU16 s >>= ServiceCode.tryFromU16) (fun v => displayServiceCode v 0)
  else ⟨.nil, none, true, false⟩

/-- `main`, src/main.rs:103-219: the settings (lines 107-119), the colour choice of the output stream
(line 121), and the operation. `clap` (line 105) is a library: `c` and `ops` are what it reports; it has
already ended the program for arguments it rejects. -/
def program (m : Machine) (file : FigData) (env : Dict) (profile : Option String) (c : CliConfig) (isTty : Bool)
    (ops : CliOps) : Out (TermColorChoice × Run) := do
  let s ← settings (configFigment file env profile) c isTty
  .ok (s.colour, run m ops s.masks s.sort)

end Pemv
