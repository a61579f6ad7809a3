/-
Byte strings, decoder results and little-endian integers.

Go values modelled here: `io.Reader` as the list of bytes still to be read,
`io.Writer` as the list of bytes written, `error` as `Res.err`, a run-time
panic as `Res.panic`.
-/
namespace Opcua

/-- A Go byte slice / string of bytes. -/
abbrev Bytes := List UInt8

/-- Outcome of a Go call: normal return, returned `error`, or run-time panic. -/
inductive Res (α : Type) where
  | ok (a : α)
  | err
  | panic
deriving Repr, DecidableEq

/-- Outcome of reading from an `io.Reader`: value and remaining input, a returned
`error` with the input that is left at that moment, or a run-time panic. -/
inductive DRes (α : Type) where
  | ok (a : α × Bytes)
  | err (left : Bytes)
  | panic
deriving Repr, DecidableEq

/-- A decoder: consumes a prefix of the remaining input.
Models the methods `func (dec *BinaryDecoder) ReadX(value *X) error`
(ua/binary_decoder.go:341-2628), which all read from `dec.r`. -/
structure Dec (α : Type) where
  run : Bytes → DRes α

namespace Dec

instance : Monad Dec where
  pure a := ⟨fun s => .ok (a, s)⟩
  bind d f := ⟨fun s =>
    match d.run s with
    | .ok (a, s') => (f a).run s'
    | .err l => .err l
    | .panic => .panic⟩

/-- `return BadDecodingError` -/
def fail : Dec α := ⟨fun s => .err s⟩
/-- a run-time panic -/
def crash : Dec α := ⟨fun _ => .panic⟩

end Dec

/-- `io.ReadFull(dec.r, buf[:n])`: exactly `n` bytes, or an error after consuming
all that was left (used by every reader, e.g. ua/binary_decoder.go:342). -/
def readN (n : Nat) : Dec Bytes := ⟨fun s =>
  if n ≤ s.length then .ok (s.take n, s.drop n) else .err []⟩

/-- `binary.LittleEndian.PutUintXX`: the `n` low bytes of `v`, least significant
first. -/
def leBytes : Nat → Nat → Bytes
  | 0, _ => []
  | n + 1, v => UInt8.ofNat (v % 256) :: leBytes n (v / 256)

/-- `binary.LittleEndian.UintXX`. -/
def leVal : Bytes → Nat
  | [] => 0
  | b :: bs => b.toNat + 256 * leVal bs

end Opcua
