import Verif.Proofs.Stored

/-!
# C18: how much is kept of what was read
-/

namespace Pemv

open Spec

/-- **C18.** The values and tags kept for a block, at all levels together, are at most as many bytes as the input has, once
per level. -/
theorem c18_stored {m : Machine} (masks : List Char) (bytes : List Byte) (hm : Fits m bytes.length)
    (ns : RawEmvBlock) (h : berParse m bytes masks = .ok ns) :
    blockStored ns ≤ blockDepth ns * bytes.length := blockStored_le masks _ bytes ns (Nat.le_refl _) hm h

example := c18_stored (m := .debug64) [] [0x70, 0x03, 0x50, 0x01, 0x41] (by unfold Fits; decide +kernel) _ rfl

/-- **C18.** So they can be quadratic in the length of the input, and are for templates inside each other. -/
theorem c18_quadratic (d : Nat) (h : d < 2 ^ 29) (masks : List Char) : ∃ bytes ns,
    bytes.length ≤ 6 * d + 2 ∧ berParse .debug64 bytes masks = .ok ns ∧ (d + 1) * (d + 1) ≤ blockStored ns := by
  obtain ⟨h1, h2, -⟩ := nest_encode d (by omega) masks
  have h4 : encodeAll [nest d] = (nest d).encode := by simp [encodeAll]
  exact ⟨encodeAll [nest d], nodes [nest d], by rw [h4]; exact h2,
    c11_round_trip masks _ ⟨h1, trivial⟩ (c16_fits_64 rfl _ (by rw [h4]; omega)), nest_stored d⟩

/-- Three levels, of which each is kept with everything in it. -/
example : blockStored (nodes [nest 2]) = 1 + 4 + 1 + 2 + 1 ∧ (encodeAll [nest 2]).length = 6 ∧
    blockDepth (nodes [nest 2]) = 3 := by decide

end Pemv
