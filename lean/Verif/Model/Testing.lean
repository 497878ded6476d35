import Verif.Model.Values

/-!
# The tests that go through a type, src/testing_macros.rs

The macros of src/testing_macros.rs as functions of the type they are applied to. A test that comes to its end passes
(`.ok ()`); a failed assertion is a panic. The messages of the assertions are left out. A `HashSet` is the list of what
has been put into it: `Hash` and `Eq` of the types are derived.
-/

namespace Pemv

/-- `assert!`. -/
def assertThat (b : Bool) : Out Unit := if b then .ok () else .panic

/-- `assert!(set.insert(x))`, src/testing_macros.rs:54-58, 78-81, 149-152. -/
def insertNew {α : Type} [DecidableEq α] (seen : List α) (x : α) : Out (List α) := do
  assertThat (!decide (x ∈ seen))
  .ok (x :: seen)

/-- One turn of a loop whose body goes on with the next turn or puts something new into the set. -/
def insertStep {X κ : Type} [DecidableEq κ] (body : X → Out (Option κ)) (seen : List κ) (x : X) : Out (List κ) := do
  match ← body x with
  | none => .ok seen
  | some k => insertNew seen k

/-- `wrong_byte_count!`, src/testing_macros.rs:6-21. -/
def wrongByteCount {α : Type} [DecidableEq α] (tryFrom : List Byte → Out α) (byteCount : Nat) : Out Unit :=
  assertThat (decide (tryFrom (List.replicate (byteCount + 1) 0) =
    .err (.byteCountIncorrect .eq byteCount (byteCount + 1))))

/-- `testing_vec`: all zero but for one bit, src/testing_macros.rs:37-38, 90-91. -/
def testingVec (byteCount byteIndex bitIndex : Nat) : List Byte :=
  (List.replicate byteCount 0).set byteIndex ((0 : Byte) ||| (1 <<< UInt8.ofNat bitIndex))

/-- The two loops over `byte_index` and `bit_index`, src/testing_macros.rs:35-36, 88-89. -/
def testingBits (byteCount : Nat) : List (Nat × Nat) :=
  (List.range byteCount).flatMap (fun byteIndex => (List.range 8).map (fun bitIndex => (byteIndex, bitIndex)))

/-- What the body of the loop of `bitflag_unique_values!` puts into the set, if it comes so far,
src/testing_macros.rs:37-53. -/
def uniqueCheck (l : Layout) (byteCount : Nat) (empty : Value) (bit : Nat × Nat) : Out (Option Value) := do
  let bytes := testingVec byteCount bit.1 bit.2
  let result ← (l.tryFrom bytes).expect
  if result = empty then .ok none
  else do
    assertThat (decide (bytes = l.binaryRepresentation result))
    .ok (some result)

/-- `bitflag_unique_values!`, src/testing_macros.rs:24-63. -/
def bitflagUniqueValues (l : Layout) (byteCount : Nat) : Out Unit := do
  let empty ← (l.tryFrom (List.replicate byteCount 0)).expect
  let _ ← (testingBits byteCount).foldlM (insertStep (uniqueCheck l byteCount empty)) []
  .ok ()

/-- What the body of the loop of `bitflag_display_bits!` puts into the set, if it comes so far: the information with the
first range whose offset is not among those that are always present, src/testing_macros.rs:90-148. -/
def displayCheck (l : Layout) (byteCount : Nat) (empty : Value) (offsets : List Nat) (bit : Nat × Nat) :
    Out (Option (List EnabledBitRange)) := do
  let result ← (l.tryFrom (testingVec byteCount bit.1 bit.2)).expect
  if result = empty then .ok none
  else do
    let info := l.bitDisplayInformation result
    assertThat (decide (info.length ≥ (l.bitDisplayInformation empty).length))
    assertThat (decide (info.length - (l.bitDisplayInformation empty).length ≤ 1))
    match info.find? (fun r => !decide (r.offset ∈ offsets)) with
    | none => .ok none
    | some r => do
      let testBitOffset := ((byteCount - 1) - bit.1) * 8 + bit.2
      assertThat (decide (testBitOffset ≤ r.offset))
      assertThat (decide (testBitOffset + r.len > r.offset))
      .ok (some info)

/-- `bitflag_display_bits!`, src/testing_macros.rs:66-161. -/
def bitflagDisplayBits (l : Layout) (byteCount : Nat) : Out Unit := do
  let empty ← (l.tryFrom (List.replicate byteCount 0)).expect
  let offsets ← (l.bitDisplayInformation empty).foldlM (fun seen r => insertNew seen r.offset) []
  let _ ← (testingBits byteCount).foldlM (insertStep (displayCheck l byteCount empty offsets)) []
  .ok ()

/-- `enum_byte_slice_result_matches_true_value_result!`, src/testing_macros.rs:164-171: the two results are the same,
be they values or errors. -/
def sameResult {α : Type} [DecidableEq α] (expected result : Out α) : Out Unit :=
  assertThat (decide (expected = result))

end Pemv
