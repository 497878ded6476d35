import Verif.Model.Cli

/-!
# The texts of the options, src/cli.rs

`build_cli` also says, for each option, what the help text tells about it. How `clap` lays the help text out (with
the names, the defaults and the possible values from `cliTable`) is not modelled; `-h` shows the short texts, `--help`
the long ones where there are any.
-/

namespace Pemv

/-- What the help text tells about one `Arg` of `build_cli`: the heading it comes under (`next_help_heading`), the
placeholder for its value, the other names that are shown, the text and the long text. -/
structure ArgHelp where
  id : String
  heading : Option String := none
  valueName : Option String := none
  visible : List String := []
  help : String
  longHelp : Option String := none
  deriving DecidableEq, Repr

/-- `value_name`, `visible_alias`, `help`, `long_help` and `next_help_heading`, src/cli.rs:28-316. -/
def helpTable : List ArgHelp := [
  { id := "help",
    help := "Print help information. Use `--help` for more detailed descriptions." },
  { id := "version",
    help := "Print version information." },
  { id := "colour", valueName := some "WHEN",
    help := "When to use colour in console output.",
    longHelp := some
      "When to use colour in console output.\nThe `ansi` value is the same as `always`, except it specifies \
      that only ANSI colour codes should be used. This means on Windows terminals for example, Windows console \
      text attributes will not be used." },
  { id := "masking-character", valueName := some "CHARACTER", visible := ["masking"],
    help := "The character that will be treated as masked data when parsing. This argument can be provided multiple \
      times to specify multiple masking characters.",
    longHelp := some
      "The character that will be treated as masked data when parsing. This argument can be provided multiple \
      times to specify multiple masking characters.\nA tag is considered to be masked if the entire contents \
      match the masking character." },
  { id := "sort-parsed-tags", valueName := some "TRUE/FALSE", visible := ["sort"],
    help := "Whether to sort parsed tags from TLV parsers like `--ber-tlv`." },
  { id := "no-sort-parsed-tags", valueName := some "TRUE/FALSE", visible := ["no-sort"],
    help := "Whether not to sort parsed tags from TLV parsers like `--ber-tlv`. This is the inverse to \
      `--sort-parsed-tags`." },
  { id := "identify", heading := some "EMV Utilities", valueName := some "TAG",
    help := "Attempt to identify an EMV tag by name.",
    longHelp := some
      "Attempt to identify an EMV tag by name.\nThe class and data object type are properties of tags that \
      indicate what context they're designed to be used in, and what kind of data they store. Constructed data \
      objects contain nested EMV TLV data." },
  { id := "auto-tlv", heading := some "EMV Utilities", valueName := some "EMV DATA BLOCK",
    visible := ["auto", "parse-tlv", "parse"],
    help := "Parse a block of TLV data, attempting to find the format automatically." },
  { id := "ber-tlv", heading := some "EMV Utilities", valueName := some "EMV DATA BLOCK",
    help := "Parse a block of BER-TLV encoded data.",
    longHelp := some
      "Parse a block of BER-TLV encoded data.\nThe 'BER' stands for \"Basic Encoding Rules\", and BER-TLV is \
      the 'canonical' EMV TLV data format. That said, some PIN pad manufacturers have their own variations \
      with slight differences." },
  { id := "ingenico-tlv", heading := some "EMV Utilities", valueName := some "EMV DATA BLOCK",
    help := "Parse a block of TLV data encoded in the proprietary Ingenico format.",
    longHelp := some
      "Parse a block of TLV data encoded in the proprietary Ingenico format.\nNote that this tool ignores \
      non-EMV tags in the input data." },
  { id := "tvr", heading := some "Individual EMV Tags", valueName := some "TVR", visible := ["95", "iac", "tac"],
    help := "Parse Terminal Verification Results (tag 0x95).",
    longHelp := some
      "Parse Terminal Verification Results (tag 0x95).\nIndicates the results of almost everything in the \
      transaction, and often elucidates the cause of a chip-related issue.\nIssuer Action Codes (IAC, tags \
      0x9F0D, 0x9F0E, 0x9F0F) and Terminal Action Codes (TAC, no EMV tags but often in terminal EMV \
      configuration files) can also be parsed using this same option." },
  { id := "ccd-iad", heading := some "Individual EMV Tags", valueName := some "IAD", visible := ["9F10", "iad"],
    help := "Parse CCD-compliant Issuer Application Data (tag 0x9F10).",
    longHelp := some
      "Parse CCD-compliant Issuer Application Data (tag 0x9F10).\nCommon Core Definitions (CCD) are an EMV \
      standard that allows issuers to use the same standard format for multiple card applications. Not all \
      card brands use this, however.\nThe issuer application data is sent to the card issuer, and isn't \
      usually very helpful." },
  { id := "ccd-cvr", heading := some "Individual EMV Tags", valueName := some "CVR", visible := ["cvr"],
    help := "Parse CCD-compliant Card Verification Results (part of tag 0x9F10).",
    longHelp := some
      "Parse CCD-compliant Card Verification Results (part of tag 0x9F10).\nSee the description of `--ccd-iad` \
      for more information about CCD compliance.\nThis value is a part of the issuer application data, and \
      includes information from the card application intended for the card issuer." },
  { id := "tsi", heading := some "Individual EMV Tags", valueName := some "TSI", visible := ["9B"],
    help := "Parse Transaction Status Information (tag 0x9B).",
    longHelp := some
      "Parse Transaction Status Information (tag 0x9B).\nIndicates the functions performed during the \
      transaction. It doesn't indicate whether they were successful or not." },
  { id := "cvm-results", heading := some "Individual EMV Tags", valueName := some "CVM RESULTS", visible := ["9F34"],
    help := "Parse Cardholder Verification Method (CVM) Results (tag 0x9F34).",
    longHelp := some
      "Parse Cardholder Verification Method (CVM) Results (tag 0x9F34).\nThis contains the results of \
      cardholder verification processing." },
  { id := "cvm-list", heading := some "Individual EMV Tags", valueName := some "CVM LIST", visible := ["8E"],
    help := "Parse a Cardholder Verification Method (CVM) List (tag 0x8E).",
    longHelp := some
      "Parse a Cardholder Verification Method (CVM) List (tag 0x8E).\nThis list on the card defines the list \
      of cardholder verification methods to try, in order. Some methods may only be available for certain \
      payment environments, and some methods may specify that the transaction should continue even if they're \
      unsuccessful." },
  { id := "service-code", heading := some "Non-EMV", valueName := some "SERVICE CODE", visible := ["5F30"],
    help := "Parse a card Service Code (MSR, or EMV tag 0x5F30).",
    longHelp := some
      "Parse a card Service Code (MSR, or EMV tag 0x5F30).\nThis specifies the restrictions on where and how \
      the card can be used, in addition to what's required to authorise transactions with it." }]

/-- The text `--help` shows for an option (clap contract). -/
def ArgHelp.full (h : ArgHelp) : String := h.longHelp.getD h.help

end Pemv
