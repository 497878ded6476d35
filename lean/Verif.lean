import Verif.Model.Main
import Verif.Props.Util
import Verif.Props.Ber
import Verif.Props.Ingenico
import Verif.Props.Auto
import Verif.Props.Masking
import Verif.Props.Bitflags
import Verif.Props.Codes
import Verif.Props.Values
import Verif.Props.Process
import Verif.Props.Sort
import Verif.Props.Drawing
import Verif.Props.Display
import Verif.Props.Run
import Verif.Props.Config
import Verif.Props.Cli
import Verif.Props.Whole
import Verif.Props.Alike
import Verif.Props.Breaks
import Verif.Props.Lines
import Verif.Props.Terminal
import Verif.Props.Builds
import Verif.Props.Nested
import Verif.Props.Order
import Verif.Props.Build
import Verif.Props.Argv
import Verif.Props.World
import Verif.Props.Ends
import Verif.Props.Work
import Verif.Props.Stream
import Verif.Props.Masked
import Verif.Props.Status
import Verif.Props.Rearranged
import Verif.Props.Complaints
import Verif.Props.Reserved
import Verif.Props.Stored
import Verif.Props.Exact
import Verif.Props.Complete
import Verif.Props.Cut
import Verif.Props.Narrow
import Verif.Props.Provider
import Verif.Props.Conversions
import Verif.Props.Testing
import Verif.Props.OsArgs
import Verif.Props.Help
import Verif.Props.Release
import Verif.Props.Calls
import Verif.Props.Copied
import Verif.Props.Objects
import Verif.Props.Alarms
import Verif.Props.Changelog
import Verif.Props.Ci
import Verif.Props.Announced
import Verif.Props.Ignore
import Verif.Props.Workflow
import Verif.Conformance.Changelog
import Verif.Conformance.Parsers
import Verif.Conformance.Values
import Verif.Axioms
