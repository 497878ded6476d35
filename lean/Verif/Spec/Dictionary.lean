import Verif.Model.Basic

/-!
# The EMV data element dictionary

The data elements with a tag of EMV Book 3, annex A (version 4.3), and the POS entry mode, in the
alphabetical order of the dictionary, with the tag written as a number.
-/

namespace Pemv.Spec

/-- Data element names and their tags. -/
def dictionary : List (String × Nat) := [
  ("Account Type", 0x5F57),
  ("Acquirer Identifier", 0x9F01),
  ("Additional Terminal Capabilities", 0x9F40),
  ("Amount, Authorised (Binary)", 0x81),
  ("Amount, Authorised (Numeric)", 0x9F02),
  ("Amount, Other (Binary)", 0x9F04),
  ("Amount, Other (Numeric)", 0x9F03),
  ("Amount, Reference Currency (Binary)", 0x9F3A),
  ("Application Cryptogram", 0x9F26),
  ("Application Currency Code", 0x9F42),
  ("Application Currency Exponent", 0x9F44),
  ("Application Dedicated File (ADF) Name", 0x4F),
  ("Application Discretionary Data", 0x9F05),
  ("Application Effective Date", 0x5F25),
  ("Application Expiration Date", 0x5F24),
  ("Application File Locator (AFL)", 0x94),
  ("Application Identifier (AID)", 0x9F06),
  ("Application Interchange Profile", 0x82),
  ("Application Label", 0x50),
  ("Application Preferred Name", 0x9F12),
  ("Application Primary Account Number (PAN)", 0x5A),
  ("Application Primary Account Number (PAN) Sequence Number", 0x5F34),
  ("Application Priority Indicator", 0x87),
  ("Application Reference Currency", 0x9F3B),
  ("Application Reference Currency Exponent", 0x9F43),
  ("Application Template", 0x61),
  ("Application Transaction Counter (ATC)", 0x9F36),
  ("Application Usage Control", 0x9F07),
  ("Application Version Number (ICC)", 0x9F08),
  ("Application Version Number (Terminal)", 0x9F09),
  ("Authorisation Code", 0x89),
  ("Authorisation Response Code", 0x8A),
  ("Bank Identifier Code (BIC)", 0x5F54),
  ("CVM List", 0x8E),
  ("CVM Results", 0x9F34),
  ("Card Risk Management Data Object List 1 (CDOL1)", 0x8C),
  ("Card Risk Management Data Object List 2 (CDOL2)", 0x8D),
  ("Cardholder Name", 0x5F20),
  ("Cardholder Name Extended", 0x9F0B),
  ("Certification Authority Public Key Index (ICC)", 0x8F),
  ("Certification Authority Public Key Index (Terminal)", 0x9F22),
  ("Command Template", 0x83),
  ("Cryptogram Information Data (CID)", 0x9F27),
  ("Data Authentication Code", 0x9F45),
  ("Dedicated File (DF) Name", 0x84),
  ("Directory Definition File (DDF) Name", 0x9D),
  ("Directory Discretionary Template", 0x73),
  ("Dynamic Data Authentication Data Object List (DDOL)", 0x9F49),
  ("File Control Information (FCI) Issuer Discretionary Data", 0xBF0C),
  ("File Control Information (FCI) Proprietary Template", 0xA5),
  ("File Control Information (FCI) Template", 0x6F),
  ("ICC Dynamic Number", 0x9F4C),
  ("ICC PIN Encipherment Public Key Certificate", 0x9F2D),
  ("ICC PIN Encipherment Public Key Exponent", 0x9F2E),
  ("ICC PIN Encipherment Public Key Remainder", 0x9F2F),
  ("ICC Public Key Certificate", 0x9F46),
  ("ICC Public Key Exponent", 0x9F47),
  ("ICC Public Key Remainder", 0x9F48),
  ("Interface Device (IFD/Terminal) Serial Number", 0x9F1E),
  ("International Bank Account Number (IBAN)", 0x5F53),
  ("Issuer Action Code - Default", 0x9F0D),
  ("Issuer Action Code - Denial", 0x9F0E),
  ("Issuer Action Code - Online", 0x9F0F),
  ("Issuer Application Data (CCD-Compliant)", 0x9F10),
  ("Issuer Authentication Data", 0x91),
  ("Issuer Code Table Index", 0x9F11),
  ("Issuer Country Code", 0x5F28),
  ("Issuer Country Code (alpha2 format)", 0x5F55),
  ("Issuer Country Code (alpha3 format)", 0x5F56),
  ("Issuer Identification Number (IIN)", 0x42),
  ("Issuer Public Key Certificate", 0x90),
  ("Issuer Public Key Exponent", 0x9F32),
  ("Issuer Public Key Remainder", 0x92),
  ("Issuer Script Command", 0x86),
  ("Issuer Script Identifier", 0x9F18),
  ("Issuer Script Template 1", 0x71),
  ("Issuer Script Template 2", 0x72),
  ("Issuer URL", 0x5F50),
  ("Language Preference", 0x5F2D),
  ("Last Online Application Transaction Counter (ATC) Register", 0x9F13),
  ("Log Entry", 0x9F4D),
  ("Log Format", 0x9F4F),
  ("Lower Consecutive Offline Limit", 0x9F14),
  ("Merchant Category Code", 0x9F15),
  ("Merchant Identifier", 0x9F16),
  ("Merchant Name and Location", 0x9F4E),
  ("PIN Try Counter", 0x9F17),
  ("POS Entry Mode", 0x9F39),
  ("Processing Options Data Object List (PDOL)", 0x9F38),
  ("READ RECORD Response Message Template", 0x70),
  ("Response Message Template Format 1", 0x80),
  ("Response Message Template Format 2", 0x77),
  ("Service Code", 0x5F30),
  ("Short File Identifier (SFI)", 0x88),
  ("Signed Dynamic Application Data", 0x9F4B),
  ("Signed Static Application Data", 0x93),
  ("Static Data Authentication Tag List", 0x9F4A),
  ("Terminal Capabilities", 0x9F33),
  ("Terminal Country Code", 0x9F1A),
  ("Terminal Floor Limit", 0x9F1B),
  ("Terminal Identification", 0x9F1C),
  ("Terminal Risk Management Data", 0x9F1D),
  ("Terminal Type", 0x9F35),
  ("Terminal Verification Results (TVR)", 0x95),
  ("Track 1 Discretionary Data", 0x9F1F),
  ("Track 2 Discretionary Data", 0x9F20),
  ("Track 2 Equivalent Data", 0x57),
  ("Transaction Certificate (TC) Hash Value", 0x98),
  ("Transaction Certificate Data Object List (TDOL)", 0x97),
  ("Transaction Currency Code", 0x5F2A),
  ("Transaction Currency Exponent", 0x5F36),
  ("Transaction Date", 0x9A),
  ("Transaction PIN Data", 0x99),
  ("Transaction Reference Currency Code", 0x9F3C),
  ("Transaction Reference Currency Exponent", 0x9F3D),
  ("Transaction Sequence Counter", 0x9F41),
  ("Transaction Status Information (TSI)", 0x9B),
  ("Transaction Time", 0x9F21),
  ("Transaction Type", 0x9C),
  ("Unpredictable Number", 0x9F37),
  ("Upper Consecutive Offline Limit", 0x9F23)]

/-- The bytes of a tag number: one byte, or two. -/
def tagBytes (n : Nat) : List Byte :=
  if n < 256 then [UInt8.ofNat n] else [UInt8.ofNat (n / 256), UInt8.ofNat (n % 256)]

end Pemv.Spec
