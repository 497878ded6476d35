import Verif.Model.Terminal

/-!
# Standard output as a buffered stream whose reader may go away

`print!`, `println!` and `termcolor`'s `StandardStream` write to `std::io::Stdout`, which is a `LineWriter` around a
`BufWriter` around the file descriptor. These are the contracts of the Rust standard library
(`std/src/io/buffered/{bufwriter,linewritershim}.rs`, `std/src/io/stdio.rs`): `write_all` on each level, the panic of
`print!` when writing fails, and the last flush when the process ends. The program itself ignores errors of colour
changes (`.ok()`, for example src/main.rs:160 and 162, src/emv/bitflag_values.rs:89 and 106).
-/

namespace Pemv

/-- The state of the stream: the size of the buffer and what is in it, what has arrived at the reader, and how many bytes
the reader will still take. After that every attempt to write fails. -/
structure Stream where
  capacity : Nat
  buffer : List Byte
  arrived : List Byte
  room : Nat
  deriving DecidableEq, Repr

/-- The result of a call: the new state, and whether it was `Ok`. -/
abbrev Written := Stream × Bool

/-- `?`. -/
def Written.andThen (x : Written) (f : Stream → Written) : Written := if x.2 then f x.1 else x

namespace Stream

/-- `write_all` on the file descriptor: bytes are handed over as long as there is a reader. -/
def raw (s : Stream) (bs : List Byte) : Written :=
  if bs.length ≤ s.room then ({ s with arrived := s.arrived ++ bs, room := s.room - bs.length }, true)
  else ({ s with arrived := s.arrived ++ bs.take s.room, room := 0 }, false)

/-- `BufWriter::flush_buf`: what could not be handed over stays in the buffer. -/
def flush (s : Stream) : Written :=
  if (s.raw s.buffer).2 then ({ (s.raw s.buffer).1 with buffer := [] }, true)
  else ({ (s.raw s.buffer).1 with buffer := s.buffer.drop s.room }, false)

/-- `BufWriter::write_to_buffer_unchecked`. -/
def push (s : Stream) (bs : List Byte) : Written := ({ s with buffer := s.buffer ++ bs }, true)

/-- `BufWriter::write_all` and `write_all_cold`. -/
def bufWrite (s : Stream) (bs : List Byte) : Written :=
  if bs.length < s.capacity - s.buffer.length then s.push bs
  else
    Written.andThen (if s.capacity - s.buffer.length < bs.length then s.flush else (s, true)) fun s =>
      if s.capacity ≤ bs.length then s.raw bs else s.push bs

/-- `memrchr(b'\n', buf)` and `split_at`: the complete lines, if there are any, and the rest. -/
def splitLines : List Byte → Option (List Byte × List Byte)
  | [] => none
  | b :: bs =>
    match splitLines bs with
    | some (lines, tail) => some (b :: lines, tail)
    | none => if b = 10 then some ([b], bs) else none

/-- `LineWriterShim::write_all`. -/
def lineWrite (s : Stream) (bs : List Byte) : Written :=
  match splitLines bs with
  | none => Written.andThen (if s.buffer.getLast? = some 10 then s.flush else (s, true)) (·.bufWrite bs)
  | some (lines, tail) =>
    Written.andThen (if s.buffer = [] then s.raw lines else Written.andThen (s.bufWrite lines) (·.flush))
      (·.bufWrite tail)

/-- Several pieces, up to the first failure. -/
def writePieces (s : Stream) : List (List Byte) → Written
  | [] => (s, true)
  | p :: ps => Written.andThen (s.lineWrite p) (·.writePieces ps)

end Stream

/-- What one action of the program amounts to: the pieces it writes, and whether a failure is a panic (`print!`) or
ignored (`.ok()`). -/
structure Action where
  pieces : List (List Byte)
  checked : Bool
  deriving DecidableEq, Repr

/-- The pieces of a colour change: one per escape sequence. -/
def colourPieces (coloured : Bool) : Ev → List (List Byte)
  | .text _ => []
  | .setColor c =>
    if coloured then
      [asBytes (sgr "0")] ++ (if c.bold then [asBytes (sgr "1")] else []) ++ (match c.fg with
        | some k => [asBytes (sgr k.code)]
        | none => [])
    else []
  | .reset => if coloured then [asBytes (sgr "0")] else []

/-- How actions are written. A text may be handed to the stream in any pieces: `print!` writes each part of its format
string and each argument by itself. -/
inductive Writes (coloured : Bool) : List Ev → List Action → Prop
  | nil : Writes coloured [] []
  | text (t : Text) (pieces : List (List Byte)) (h : pieces.flatten = asBytes t) {evs : List Ev} {as : List Action}
      (rest : Writes coloured evs as) : Writes coloured (.text t :: evs) (⟨pieces, true⟩ :: as)
  | setColor (c : ColorSpec) {evs : List Ev} {as : List Action} (rest : Writes coloured evs as) :
      Writes coloured (.setColor c :: evs) (⟨colourPieces coloured (.setColor c), false⟩ :: as)
  | reset {evs : List Ev} {as : List Action} (rest : Writes coloured evs as) :
      Writes coloured (.reset :: evs) (⟨colourPieces coloured .reset, false⟩ :: as)

/-- The actions in order: the stream afterwards, and whether `print!` panicked. After a panic nothing more is written. -/
def perform (s : Stream) : List Action → Stream × Bool
  | [] => (s, false)
  | a :: as =>
    if (s.writePieces a.pieces).2 = false ∧ a.checked then ((s.writePieces a.pieces).1, true)
    else perform (s.writePieces a.pieces).1 as

/-- What a reader sees of a process. -/
structure Delivered where
  arrived : List Byte
  panicked : Bool
  deriving DecidableEq, Repr

/-- A process with a fresh stream whose reader takes `room` bytes. When the process ends, normally or by a panic, the
stream is flushed, and an error of that is ignored. The exit status is 101 after a panic and 0 otherwise. -/
def deliver (capacity room : Nat) (actions : List Action) (panics : Bool) : Delivered :=
  let x := perform ⟨capacity, [], [], room⟩ actions
  ⟨x.1.flush.1.arrived, x.2 || panics⟩

/-- The exit status. -/
def Delivered.status (d : Delivered) : Nat := if d.panicked then 101 else 0

end Pemv
