import Verif.Proofs.Codes

/-!
# C47, C48, C63: code tables, single-code values and service codes
-/

namespace Pemv

open Spec

/-! ### C47 -/

/-- **C47.** In no table do two variants list the same code; the catch-all variant, if any, comes last; and
two variants never have the same name or the same text. -/
theorem c47_unambiguous (table : List (Variant Byte)) (ht : table ∈ codeTables) :
    (table.flatMap (fun v => v.pats.getD [])).Nodup ∧
    (∀ v ∈ table.dropLast, v.pats ≠ none) ∧
    (table.map Variant.name).Nodup ∧ (table.map Variant.text).Nodup := by
  have key : ∀ table ∈ codeTables, (table.flatMap (fun v => v.pats.getD [])).Nodup ∧
      (∀ v ∈ table.dropLast, v.pats ≠ none) ∧
      (table.map Variant.name).Nodup ∧ (table.map Variant.text).Nodup := by decide +kernel
  exact key table ht

example := c47_unambiguous cvMethodTable (by simp [codeTables])

/-- **C47.** The selected variant is the one that lists the code; if none does, the catch-all one; if there
is none, nothing. -/
theorem c47_selected (table : List (Variant Byte)) (ht : table ∈ codeTables) (x : Byte) :
    (∀ v ∈ table, ∀ ps, v.pats = some ps → x ∈ ps → enumMatch table x = some v) ∧
    ((∀ v ∈ table, ∀ ps, v.pats = some ps → x ∉ ps) →
      enumMatch table x = table.find? (fun v => v.pats.isNone)) := by
  have key : ∀ n, n < 256 → ∀ table ∈ codeTables,
      (table.all (fun v => match v.pats with
        | some ps => !ps.contains (UInt8.ofNat n) || enumMatch table (UInt8.ofNat n) == some v
        | none => true) &&
      (!(table.all (fun v => match v.pats with
        | some ps => !ps.contains (UInt8.ofNat n)
        | none => true)) || enumMatch table (UInt8.ofNat n) == table.find? (fun v => v.pats.isNone))) = true := by
    decide +kernel
  have h := key x.toNat x.toNat_lt table ht
  simp only [UInt8.ofNat_toNat, Bool.and_eq_true, List.all_eq_true] at h
  constructor
  · intro v hv ps hps hx
    have := h.1 v hv
    rw [hps] at this
    simpa [hx] using this
  · intro hn
    have h2 := h.2
    rw [Bool.or_eq_true] at h2
    rcases h2 with h2 | h2
    · exfalso
      have : (table.all fun v => match v.pats with
        | some ps => !ps.contains x
        | none => true) = true := by
        rw [List.all_eq_true]
        intro v hv
        cases hp : v.pats with
        | none => rfl
        | some ps => have := hn v hv ps hp; simpa using this
      rw [this] at h2; cases h2
    · simpa using h2

/-- 0x1E is the code of a signature. -/
example : ∃ v ∈ cvMethodTable, enumMatch cvMethodTable 0x1E = some v ∧ v.text = "Signature (paper)" := by
  have h : ∃ v ∈ cvMethodTable, (∃ ps, v.pats = some ps ∧ (0x1E : Byte) ∈ ps) ∧ v.text = "Signature (paper)" := by
    decide +kernel
  obtain ⟨v, hv, ⟨ps, h1, h2⟩, h3⟩ := h
  exact ⟨v, hv, (c47_selected cvMethodTable (by simp [codeTables]) 0x1E).1 v hv ps h1 h2, h3⟩

/-- **C47.** In a one-code-per-variant table a variant converts to its code and back, and a code to its
variant and back; so different codes select different variants. -/
theorem c47_round_trip (table : List (Variant Byte)) (ht : table ∈ oneCodeTables) (x : Byte)
    (v : Variant Byte) :
    (v ∈ table → enumMatch table v.toByte = some v) ∧ (enumMatch table x = some v → v.toByte = x ∧ v ∈ table) := by
  constructor
  · have key : ∀ table ∈ oneCodeTables, ∀ v ∈ table, enumMatch table v.toByte = some v := by decide +kernel
    exact key table ht v
  · have key : ∀ n, n < 256 → ∀ table ∈ oneCodeTables,
        (match enumMatch table (UInt8.ofNat n) with
        | some v => v.toByte == UInt8.ofNat n
        | none => true) = true := by decide +kernel
    have h := key x.toNat x.toNat_lt table ht
    intro hv
    rw [UInt8.ofNat_toNat, hv] at h
    exact ⟨by simpa using h, List.mem_of_find?_eq_some hv⟩

example := c47_round_trip cvMethodTable (by simp [oneCodeTables]) 0x1E

/-- **C47.** The response-code table: no text code is listed twice, every entry is found by its codes, and
names and texts differ. -/
theorem c47_response_codes :
    (arcTable.flatMap (fun v => v.pats.getD [])).Nodup ∧ (∀ v ∈ arcTable, v.pats ≠ none) ∧
    (arcTable.map Variant.name).Nodup ∧ (arcTable.map Variant.text).Nodup ∧
    ∀ v ∈ arcTable, ∀ c ∈ v.pats.getD [], enumMatch arcTable c = some v := by
  refine ⟨by decide +kernel, by decide +kernel, by decide +kernel, by decide +kernel, by decide +kernel⟩

example : (enumMatch posEntryModeTable 0x83).map Variant.name = some "ContactlessIcc" ∧
    (enumMatch interchangeTable 0x03).map Variant.name = some "Rfu" ∧
    enumMatch transactionTypeTable 0x03 = none := by decide +kernel

/-! ### C63 -/

/-- **C63.** An accepted transaction type is one byte holding a listed code, and means that code. -/
theorem c63_transaction_type (bs : List Byte) (v : Variant Byte) (h : transactionTypeTryFrom bs = .ok v) :
    ∃ b, bs = [b] ∧ transactionTypes.lookup b.toNat = some v.text := by
  obtain ⟨b, rfl, hb⟩ := byteEnum_ok h
  have key : ∀ n, n < 256 → (match enumMatch transactionTypeTable (UInt8.ofNat n) with
      | some v => transactionTypes.lookup n == some v.text
      | none => true) = true := by decide +kernel
  have := key b.toNat b.toNat_lt
  rw [UInt8.ofNat_toNat, hb] at this
  exact ⟨b, rfl, by simpa using this⟩

example := c63_transaction_type [0x20] _ rfl

/-- **C63.** A terminal type means what its two digits mean. -/
theorem c63_terminal_type (bs : List Byte) (v : Variant Byte) (h : terminalTypeTryFrom bs = .ok v) :
    ∃ b, bs = [b] ∧ terminalType b.toNat = some v.text := by
  obtain ⟨b, rfl, hb⟩ := byteEnum_ok h
  have key : ∀ n, n < 256 → (match enumMatch terminalTypeTable (UInt8.ofNat n) with
      | some v => terminalType n == some v.text
      | none => true) = true := by decide +kernel
  have := key b.toNat b.toNat_lt
  rw [UInt8.ofNat_toNat, hb] at this
  exact ⟨b, rfl, by simpa using this⟩

example := c63_terminal_type [0x22] _ rfl

/-- **C63.** A POS entry mode means its code. -/
theorem c63_pos_entry_mode (bs : List Byte) (v : Variant Byte) (h : posEntryModeTryFrom bs = .ok v) :
    ∃ b, bs = [b] ∧ posEntryModes.lookup b.toNat = some v.name := by
  obtain ⟨b, rfl, hb⟩ := byteEnum_ok h
  have key : ∀ n, n < 256 → (match enumMatch posEntryModeTable (UInt8.ofNat n) with
      | some v => posEntryModes.lookup n == some v.name
      | none => true) = true := by decide +kernel
  have := key b.toNat b.toNat_lt
  rw [UInt8.ofNat_toNat, hb] at this
  exact ⟨b, rfl, by simpa using this⟩

example := c63_pos_entry_mode [0x05] _ rfl

/-- **C63.** Any other input is an error: of the byte count, or unrecognised. -/
theorem c63_errors (bs : List Byte) :
    (bs.length ≠ 1 → transactionTypeTryFrom bs = .err (.byteCountIncorrect .eq 1 bs.length) ∧
      terminalTypeTryFrom bs = .err (.byteCountIncorrect .eq 1 bs.length) ∧
      posEntryModeTryFrom bs = .err (.byteCountIncorrect .eq 1 bs.length)) ∧
    ∀ b, bs = [b] →
      (transactionTypes.lookup b.toNat = none ↔ transactionTypeTryFrom bs = .err .unrecognised) ∧
      (terminalType b.toNat = none ↔ terminalTypeTryFrom bs = .err .unrecognised) ∧
      (posEntryModes.lookup b.toNat = none ↔ posEntryModeTryFrom bs = .err .unrecognised) := by
  constructor
  · intro h
    simp only [transactionTypeTryFrom, terminalTypeTryFrom, posEntryModeTryFrom, byteEnumTryFrom]
    simp [h]
  · rintro b rfl
    have key : ∀ n, n < 256 →
        (transactionTypes.lookup n = none ↔ transactionTypeTryFrom [UInt8.ofNat n] = .err .unrecognised) ∧
        (terminalType n = none ↔ terminalTypeTryFrom [UInt8.ofNat n] = .err .unrecognised) ∧
        (posEntryModes.lookup n = none ↔ posEntryModeTryFrom [UInt8.ofNat n] = .err .unrecognised) := by
      decide +kernel
    have := key b.toNat b.toNat_lt
    rwa [UInt8.ofNat_toNat] at this

/-- **C63.** Every listed code is accepted, with the meaning published for it. -/
theorem c63_listed (b : Byte) (t : String) :
    (transactionTypes.lookup b.toNat = some t → ∃ v, transactionTypeTryFrom [b] = .ok v ∧ v.text = t) ∧
    (terminalType b.toNat = some t → ∃ v, terminalTypeTryFrom [b] = .ok v ∧ v.text = t) ∧
    (posEntryModes.lookup b.toNat = some t → ∃ v, posEntryModeTryFrom [b] = .ok v ∧ v.name = t) := by
  have key : ∀ n, n < 256 →
      (∀ t ∈ transactionTypes.lookup n, (transactionTypeTryFrom [UInt8.ofNat n]).map Variant.text = .ok t) ∧
      (∀ t ∈ terminalType n, (terminalTypeTryFrom [UInt8.ofNat n]).map Variant.text = .ok t) ∧
      (∀ t ∈ posEntryModes.lookup n, (posEntryModeTryFrom [UInt8.ofNat n]).map Variant.name = .ok t) := by
    decide +kernel
  have hout : ∀ {x : Out (Variant Byte)} {f : Variant Byte → String}, x.map f = .ok t → ∃ v, x = .ok v ∧ f v = t := by
    intro x f h
    cases x with
    | ok v => exact ⟨v, rfl, by injection h⟩
    | _ => cases h
  have := key b.toNat b.toNat_lt
  rw [UInt8.ofNat_toNat] at this
  exact ⟨fun h => hout (this.1 t h), fun h => hout (this.2.1 t h), fun h => hout (this.2.2 t h)⟩

example : transactionTypes.lookup 0x20 = some "Refund" ∧ (terminalType 0x21).isSome = true ∧
    posEntryModes.lookup 0x05 = some "ContactIcc" := by decide +kernel

/-- **C63.** A response code is the text its two bytes encode in UTF-8; two ASCII digits mean the listed
code. -/
theorem c63_response_code (bs : List Byte) (v : Variant Text) (h : arcTryFrom bs = .ok v) :
    ∃ d1 d2, d1 < 10 ∧ d2 < 10 ∧ bs = [UInt8.ofNat (48 + d1), UInt8.ofNat (48 + d2)] ∧
      responseCodes.lookup (10 * d1 + d2) = some v.text := by
  obtain ⟨a, b, s, rfl, hs, hv⟩ := arc_ok h
  have hb := fromUtf8Two_sound a b s hs
  have hmem := List.mem_of_find?_eq_some hv
  have hmatch := List.find?_some hv
  have key : ∀ v ∈ arcTable, ∀ c ∈ v.pats.getD [], ∃ d1, d1 < 10 ∧ ∃ d2, d2 < 10 ∧
      asBytes c = [UInt8.ofNat (48 + d1), UInt8.ofNat (48 + d2)] ∧
      responseCodes.lookup (10 * d1 + d2) = some v.text := by decide +kernel
  have hc : s ∈ v.pats.getD [] := by
    have hnw : ∀ v ∈ arcTable, v.pats ≠ none := by decide +kernel
    rw [Variant.isMatch] at hmatch
    cases hp : v.pats with
    | none => exact absurd hp (hnw v hmem)
    | some ps => rw [hp] at hmatch; simpa using hmatch
  obtain ⟨d1, h1, d2, h2, h3, h4⟩ := key v hmem s hc
  rw [hb] at h3
  exact ⟨d1, d2, h1, h2, h3, h4⟩

example := c63_response_code [0x30, 0x30] _ rfl

/-- **C63.** Every listed response code is accepted. -/
theorem c63_response_code_listed (d1 d2 : Nat) (h1 : d1 < 10) (h2 : d2 < 10)
    (h : (responseCodes.lookup (10 * d1 + d2)).isSome) :
    ∃ v, arcTryFrom [UInt8.ofNat (48 + d1), UInt8.ofNat (48 + d2)] = .ok v := by
  have key : ∀ d1, d1 < 10 → ∀ d2, d2 < 10 → (responseCodes.lookup (10 * d1 + d2)).isSome = true →
      (arcTryFrom [UInt8.ofNat (48 + d1), UInt8.ofNat (48 + d2)]).isOk = true := by decide +kernel
  have := key d1 h1 d2 h2 h
  cases he : arcTryFrom [UInt8.ofNat (48 + d1), UInt8.ofNat (48 + d2)] with
  | ok v => exact ⟨v, rfl⟩
  | _ => rw [he] at this; cases this

example : (arcTryFrom [0x35, 0x31]).map Variant.text = .ok "Insufficient Funds" ∧
    arcTryFrom [0x5A, 0x33] = .err .unrecognised ∧ arcTryFrom [0xFF, 0x33] = .err .invalidNumber ∧
    (terminalTypeTryFrom [0x22]).map Variant.text =
      .ok "Attended, Offline With Online Capabilities, Controlled by a Merchant" := by decide +kernel

/-! ### C48 -/

/-- **C48.** Two bytes are a service code exactly when their four nibbles are decimal digits, the first of
them 0; the code is then the number the digits denote. Anything else is an error. -/
theorem c48_bytes (a b : Byte) :
    ((a.toNat / 16 = 0 ∧ a.toNat % 16 ≤ 9 ∧ b.toNat / 16 ≤ 9 ∧ b.toNat % 16 ≤ 9) →
      ServiceCode.tryFrom [a, b] =
        ServiceCode.tryFromU16 (100 * (a.toNat % 16) + 10 * (b.toNat / 16) + b.toNat % 16) ∧
      ∃ v, ServiceCode.tryFrom [a, b] = .ok v) ∧
    (¬ (a.toNat / 16 = 0 ∧ a.toNat % 16 ≤ 9 ∧ b.toNat / 16 ≤ 9 ∧ b.toNat % 16 ≤ 9) →
      ServiceCode.tryFrom [a, b] = .err .invalidNumber) := by
  rw [serviceCode_bytes]
  constructor
  · rintro ⟨h1, h2, h3, h4⟩
    rw [if_pos ⟨by omega, h2, h3, h4⟩, h1, Nat.mul_zero, Nat.zero_add]
    obtain ⟨v, hv, -⟩ := serviceCode_number (100 * (a.toNat % 16) + 10 * (b.toNat / 16) + b.toNat % 16)
      (by omega)
    exact ⟨rfl, v, hv⟩
  · intro h
    split
    · next hd =>
      have : 999 < 1000 * (a.toNat / 16) + 100 * (a.toNat % 16) + 10 * (b.toNat / 16) + b.toNat % 16 := by
        have : ¬ a.toNat / 16 = 0 := fun h0 => h ⟨h0, hd.2⟩
        omega
      rw [ServiceCode.tryFromU16, if_pos this]
    · rfl

/-- **C48.** Any other number of bytes is an error with the counts. -/
theorem c48_length (bs : List Byte) (h : bs.length ≠ 2) :
    ServiceCode.tryFrom bs = .err (.byteCountIncorrect .eq 2 bs.length) := by
  rw [ServiceCode.tryFrom, if_pos h]

example := c48_length [0x02, 0x01, 0x00] (by decide)

/-- **C48.** A number is a service code exactly up to 999; each of its three digits alone determines its
meanings, as in ISO/IEC 7813. -/
theorem c48_digits (n : Nat) :
    (n ≤ 999 → ∃ v, ServiceCode.tryFromU16 n = .ok v ∧ v.number = n ∧
      v.interchange.text = interchange (n / 100) ∧ v.technology.text = technology (n / 100) ∧
      v.authorisationProcessing.text = authorisation (n / 10 % 10) ∧
      v.allowedServices.text = services (n % 10) ∧ v.pinRequirements.text = pin (n % 10)) ∧
    (999 < n → ServiceCode.tryFromU16 n = .err .invalidNumber) :=
  ⟨serviceCode_number n, fun h => by rw [ServiceCode.tryFromU16, if_pos h]⟩

/-- **C48.** What is shown for a service code is what the table of ISO/IEC 7813 says, row by row and column by column. A
dash is shown as RFU, but in the columns about the technology and the PIN, which say what else there is to a digit, as
magnetic stripe only and as no PIN. -/
theorem c48_chart (n : Nat) (h : n ≤ 999) : ∃ v r1 r2 r3, ServiceCode.tryFromU16 n = .ok v ∧
    chart[n / 100]? = some r1 ∧ chart[n / 10 % 10]? = some r2 ∧ chart[n % 10]? = some r3 ∧
    v.interchange.text = chartCell "RFU" r1.interchange ∧
    v.technology.text = chartCell "Magnetic stripe only (MSR)" r1.technology ∧
    v.authorisationProcessing.text = chartCell "RFU" r2.authorisation ∧
    v.allowedServices.text = chartCell "RFU" r3.services ∧ v.pinRequirements.text = chartCell "None" r3.pin := by
  obtain ⟨v, h0, -, h1, h2, h3, h4, h5⟩ := serviceCode_number n h
  have key : ∀ d, d < 10 → ∃ r, chart[d]? = some r ∧ interchange d = chartCell "RFU" r.interchange ∧
      technology d = chartCell "Magnetic stripe only (MSR)" r.technology ∧
      authorisation d = chartCell "RFU" r.authorisation ∧ services d = chartCell "RFU" r.services ∧
      pin d = chartCell "None" r.pin := by
    intro d hd
    match d, hd with
    | 0, _ | 1, _ | 2, _ | 3, _ | 4, _ | 5, _ | 6, _ | 7, _ | 8, _ | 9, _ => exact ⟨_, rfl, by decide⟩
  obtain ⟨r1, k1, a1, a2, -⟩ := key (n / 100) (by omega)
  obtain ⟨r2, k2, -, -, a3, -⟩ := key (n / 10 % 10) (by omega)
  obtain ⟨r3, k3, -, -, -, a4, a5⟩ := key (n % 10) (by omega)
  exact ⟨v, r1, r2, r3, h0, k1, k2, k3, h1.trans a1, h2.trans a2, h3.trans a3, h4.trans a4, h5.trans a5⟩

example := c48_chart 201 (by decide)

/-- **C48.** A digit is shown as RFU exactly if the table has nothing for it at its place: the remaining dashes are in
columns next to an entry. -/
theorem c48_reserved (n : Nat) (h : n ≤ 999) : ∃ v r1 r2 r3, ServiceCode.tryFromU16 n = .ok v ∧
    chart[n / 100]? = some r1 ∧ chart[n / 10 % 10]? = some r2 ∧ chart[n % 10]? = some r3 ∧
    (v.interchange.text = "RFU" ↔ r1.interchange = none ∧ r1.technology = none) ∧
    (v.authorisationProcessing.text = "RFU" ↔ r2.authorisation = none) ∧
    (v.allowedServices.text = "RFU" ↔ r3.services = none ∧ r3.pin = none) := by
  obtain ⟨v, r1, r2, r3, h0, k1, k2, k3, h1, -, h3, h4, -⟩ := c48_chart n h
  have key : ∀ r ∈ chart, (chartCell "RFU" r.interchange = "RFU" ↔ r.interchange = none ∧ r.technology = none) ∧
      (chartCell "RFU" r.authorisation = "RFU" ↔ r.authorisation = none) ∧
      (chartCell "RFU" r.services = "RFU" ↔ r.services = none ∧ r.pin = none) := by decide
  refine ⟨v, r1, r2, r3, h0, k1, k2, k3, ?_, ?_, ?_⟩
  · rw [h1]; exact (key r1 (List.mem_of_getElem? k1)).1
  · rw [h3]; exact (key r2 (List.mem_of_getElem? k2)).2.1
  · rw [h4]; exact (key r3 (List.mem_of_getElem? k3)).2.2

/-- Row 2 of the table. -/
example : chart[2]?.map (fun r => (r.interchange, r.technology, r.pin)) =
    some (some "International", some "Integrated circuit card", none) := by decide

example : (ServiceCode.tryFrom [0x02, 0x01]).map (fun v => (v.number, v.technology.text)) =
    .ok (201, "Integrated circuit card (ICC)") ∧ ServiceCode.tryFrom [0x12, 0x01] = .err .invalidNumber ∧
    ServiceCode.tryFrom [0x02, 0x0A] = .err .invalidNumber := by decide +kernel

end Pemv
