/-!
# Basic vocabulary of the model

Rust values and control flow as Lean values: bytes, texts, results with panics, machine arithmetic.
-/

namespace Pemv

/-- Rust `u8`. -/
abbrev Byte := UInt8

/-- Rust `&str` / `String`: the sequence of its Unicode scalar values. -/
abbrev Text := List Char

/-- Rust `str::as_bytes`: the UTF-8 encoding (`String.utf8EncodeChar` is Lean core's encoder). -/
def asBytes (s : Text) : List Byte := s.flatMap String.utf8EncodeChar

/-- `ParseError`, src/error.rs:12-34. (`Ordering` is `std::cmp::Ordering` of the
`ByteCountIncorrect` variant.) -/
inductive ParseError where
  | byteCountIncorrect (type : Ordering) (expected found : Nat)
  | byteCountNotDivisibleIntoComponents
  | invalidBytes
  | invalidNumber
  | nonCompliant
  | nonCcdCompliant
  | unsupported
  | unrecognised
  deriving DecidableEq, Repr

/-- The outcome of running a Rust function returning `Result<α, ParseError>`: a value, an error, a
panic (failed bounds check, failed assertion, arithmetic overflow with overflow checks on), or - only
because Lean functions are total - exhaustion of the fuel of a loop (`diverge`). The latter is proved
never to happen. -/
inductive Out (α : Type) where
  | ok (a : α)
  | err (e : ParseError)
  | panic
  | diverge
  deriving DecidableEq, Repr

namespace Out

/-- Rust's `?` operator / sequencing. -/
@[inline] def bind {α β : Type} (x : Out α) (f : α → Out β) : Out β :=
  match x with
  | ok a => f a
  | err e => err e
  | panic => panic
  | diverge => diverge

instance : Monad Out where
  pure := ok
  bind := bind

/-- Rust's `Result::map_err`. -/
def mapErr {α : Type} (x : Out α) (f : ParseError → ParseError) : Out α :=
  match x with
  | err e => err (f e)
  | x => x

/-- Rust's `Result::map`. -/
def map {α β : Type} (f : α → β) (x : Out α) : Out β := x.bind (fun a => ok (f a))

/-- Rust's `Result::unwrap_or_default` at a vector type: errors become the empty vector, panics stay
panics. -/
def unwrapOrDefault {α : Type} (x : Out (List α)) : Out (List α) :=
  match x with
  | err _ => ok []
  | x => x

/-- Rust's `Result::expect`. -/
def expect {α : Type} (x : Out α) : Out α :=
  match x with
  | err _ => panic
  | x => x

@[simp] theorem ok_bind {α β : Type} (a : α) (f : α → Out β) : (ok a >>= f) = f a := rfl
@[simp] theorem err_bind {α β : Type} (e : ParseError) (f : α → Out β) : (err e >>= f) = err e := rfl
@[simp] theorem panic_bind {α β : Type} (f : α → Out β) : (panic >>= f) = panic := rfl
@[simp] theorem diverge_bind {α β : Type} (f : α → Out β) : (diverge >>= f) = diverge := rfl
@[simp] theorem pure_eq {α : Type} (a : α) : (pure a : Out α) = ok a := rfl
@[simp] theorem map_ok {α β : Type} (f : α → β) (a : α) : map f (ok a) = ok (f a) := rfl
@[simp] theorem map_err {α β : Type} (f : α → β) (e) : map f (err e) = err e := rfl
@[simp] theorem map_panic {α β : Type} (f : α → β) : map f panic = panic := rfl
@[simp] theorem map_diverge {α β : Type} (f : α → β) : map f diverge = diverge := rfl

/-- Successful, with a value satisfying nothing in particular. -/
def isOk {α : Type} : Out α → Bool
  | ok _ => true
  | _ => false

/-- Returned normally: with a value or with an error. -/
def isReturned {α : Type} : Out α → Bool
  | ok _ => true
  | err _ => true
  | _ => false

end Out

/-- The compilation target: width of `usize`, and whether arithmetic overflow panics (debug builds)
or wraps (release builds, Cargo.toml sets no `overflow-checks`). -/
structure Machine where
  usizeBits : Nat
  overflowChecks : Bool
  deriving DecidableEq, Repr

namespace Machine

/-- Result of an exact `usize` arithmetic operation on this machine. -/
def norm (m : Machine) (n : Nat) : Out Nat :=
  if n < 2 ^ m.usizeBits then .ok n
  else if m.overflowChecks then .panic
  else .ok (n % 2 ^ m.usizeBits)

/-- `usize` addition. -/
def add (m : Machine) (a b : Nat) : Out Nat := m.norm (a + b)

/-- `usize` multiplication. -/
def mul (m : Machine) (a b : Nat) : Out Nat := m.norm (a * b)

/-- The usual targets. -/
def debug64 : Machine := ⟨64, true⟩
def release64 : Machine := ⟨64, false⟩
def debug32 : Machine := ⟨32, true⟩
def release32 : Machine := ⟨32, false⟩

end Machine

/-- Rust indexing `xs[i]`: panics when out of bounds. -/
def index {α : Type} (xs : List α) (i : Nat) : Out α :=
  match xs[i]? with
  | some x => .ok x
  | none => .panic

/-- Rust slicing `&xs[a..b]`: panics unless `a ≤ b ≤ len`. (`&xs[a..=b]` is `slice xs a (b + 1)`.) -/
def slice {α : Type} (xs : List α) (a b : Nat) : Out (List α) :=
  if a ≤ b ∧ b ≤ xs.length then .ok ((xs.drop a).take (b - a)) else .panic

end Pemv
