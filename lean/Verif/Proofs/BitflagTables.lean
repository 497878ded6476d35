import Verif.Proofs.Bitflags

/-! # The layouts of the program pass the check -/

namespace Pemv

open Spec

theorem tvr_ok : layoutOk tvrLayout 5 tvrItems = true := by decide +kernel
theorem tsi_ok : layoutOk tsiLayout 2 tsiItems = true := by decide +kernel
theorem terminalCapabilities_ok : layoutOk terminalCapabilitiesLayout 3 terminalCapabilitiesItems = true := by
  decide +kernel
theorem additionalTerminalCapabilities_ok :
    layoutOk additionalTerminalCapabilitiesLayout 5 additionalTerminalCapabilitiesItems = true := by
  decide +kernel
theorem cci_ok : layoutOk cciLayout 1 cciItems = true := by decide +kernel
theorem cvr_ok : layoutOk cvrLayout 5 cvrItems = true := by decide +kernel
theorem cvRule_ok : layoutOk cvRuleLayout 2 cvRuleItems = true := by decide +kernel

end Pemv
