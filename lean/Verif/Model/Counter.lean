import Verif.Model.Channel

/-! The compare-and-swap counters: getNextSequenceNumber, getNextTokenID
(server/server_secure_channel.go:1518-1545), getNextChannelID (server/server.go:1077-1089),
getNextSequenceNumber, getNextRequestHandle (client/client_secure_channel.go:1822-1851). -/
namespace Opcua.Counter
open Opcua.Channel (nextSeq)

/-- The shared word and, for each caller, the value it loaded in the current turn of its loop.
`draws` is the log of returned numbers in the order of the successful swaps. -/
structure State where
  val : BitVec 32
  loaded : Nat → Option (BitVec 32)
  draws : List (Nat × BitVec 32)

/-- One atomic step of one caller. -/
inductive Ev where
  | load (t : Nat)
  | cas (t : Nat)
deriving Repr, DecidableEq

def setLoaded (f : Nat → Option (BitVec 32)) (t : Nat) (v : Option (BitVec 32)) : Nat → Option (BitVec 32) :=
  fun u => if u = t then v else f u

/-- `LoadUint32`, respectively `CompareAndSwapUint32(&x, old, new)`: on success the caller returns
`new`, on failure it starts the loop again. A `cas` of a caller that has nothing loaded is not a
step of the program and does nothing. -/
def step (s : State) : Ev → State
  | .load t => { s with loaded := setLoaded s.loaded t (some s.val) }
  | .cas t =>
    match s.loaded t with
    | none => s
    | some old =>
      if s.val = old then
        { val := nextSeq old, loaded := setLoaded s.loaded t none, draws := s.draws ++ [(t, nextSeq old)] }
      else { s with loaded := setLoaded s.loaded t none }

def run (s : State) (evs : List Ev) : State := evs.foldl step s

end Opcua.Counter
