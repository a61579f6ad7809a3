import Verif.Model.Bytes

/-! The bounded chunk writer, ua/bytes_writer.go. -/
namespace Opcua.Writer

/-- `Writer`: the slice `s` and the writing index `i`, ua/bytes_writer.go:10-13. -/
structure St where
  s : Bytes
  i : Nat

/-- NewWriter, ua/bytes_writer.go:16. -/
def new (b : Bytes) : St := ⟨b, 0⟩

/-- `copy(s[at:], p)`: overwrite as many bytes as fit. -/
def copyAt (s : Bytes) (at' : Nat) (p : Bytes) : Bytes × Nat :=
  let n := min (s.length - at') p.length
  (s.take at' ++ p.take n ++ s.drop (at' + n), n)

/-- Write, ua/bytes_writer.go:29-40; the result is (n, error?). -/
def write (w : St) (p : Bytes) : St × Nat × Bool :=
  if w.i ≥ w.s.length then (w, 0, true)
  else
    let (s', n) := copyAt w.s w.i p
    (⟨s', w.i + n⟩, n, decide (n < p.length))

/-- WriteAt for a non-negative offset, ua/bytes_writer.go:46-56. -/
def writeAt (w : St) (p : Bytes) (offset : Nat) : St × Nat × Bool :=
  if offset ≥ w.i then (w, 0, true)
  else
    let (s', n) := copyAt w.s offset p
    (⟨s', w.i⟩, n, decide (n < p.length))

/-- Bytes, ua/bytes_writer.go:63. -/
def bytes (w : St) : Bytes := w.s.take w.i

/-- Len, ua/bytes_writer.go:19-21. -/
def len (w : St) : Nat := w.i

inductive Op where
  | write (p : Bytes)
  | writeAt (p : Bytes) (offset : Nat)

def step (w : St) : Op → St × Nat × Bool
  | .write p => write w p
  | .writeAt p o => writeAt w p o

def run (w : St) : List Op → St
  | [] => w
  | o :: os => run (step w o).1 os

end Opcua.Writer
