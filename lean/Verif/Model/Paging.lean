import Verif.Model.Bytes

/-! Browse continuation points: addBrowseContinuationPoint and removeBrowseContinuationPoint
(server/session.go:348-373), the end of handleBrowse (server/server_service_set.go:1312-1334) and
handleBrowseNext (1465-1521). `R` is the type of reference descriptions; which references a Browse
selects is modelled in Model/Browse.lean. The items of one request run in parallel on the worker
pool, the requests of a session one after the other. -/
namespace Opcua.Paging

variable {R : Type}

/-- browseCP, server/session.go:22-25. `tag` names the Browse item it stems from; the code has no
such name, it serves to state properties. -/
structure Entry (R : Type) where
  tag : Nat
  data : List R
  max : Nat
deriving Repr, DecidableEq

inductive Status where
  | good
  | badNoContinuationPoints
  | badContinuationPointInvalid
deriving Repr, DecidableEq

/-- BrowseResult, with the tag of the Browse item it answers. -/
structure Answer (R : Type) where
  tag : Option Nat
  status : Status
  refs : List R
  cp : Option Bytes
deriving Repr, DecidableEq

/-- `held`: what a worker of BrowseNext has removed and not yet answered. `out`: the answers, in
order. `crashed`: a worker panicked, which ends the process. -/
structure State (R : Type) where
  limit : Nat
  last : BitVec 32
  cps : List (BitVec 32 × Entry R)
  held : List (Nat × Entry R)
  out : List (Answer R)
  crashed : Bool

/-- `binary.LittleEndian.PutUint32`. -/
def encode (n : BitVec 32) : Bytes :=
  [UInt8.ofBitVec (n.extractLsb' 0 8), UInt8.ofBitVec (n.extractLsb' 8 8),
   UInt8.ofBitVec (n.extractLsb' 16 8), UInt8.ofBitVec (n.extractLsb' 24 8)]

/-- `binary.LittleEndian.Uint32`: reads the first four bytes, panics (`none`) when there are
fewer. -/
def decode : Bytes → Option (BitVec 32)
  | a :: b :: c :: d :: _ => some (d.toBitVec ++ c.toBitVec ++ b.toBitVec ++ a.toBitVec)
  | _ => none

def find (m : List (BitVec 32 × Entry R)) (k : BitVec 32) : Option (Entry R) :=
  match m with
  | [] => none
  | (k', e) :: m => if k' = k then some e else find m k

def erase (m : List (BitVec 32 × Entry R)) (k : BitVec 32) : List (BitVec 32 × Entry R) := m.filter (fun x => x.1 ≠ k)

/-- addBrowseContinuationPoint, server/session.go:348-359. -/
def addCP (s : State R) (e : Entry R) : State R × Option Bytes :=
  if s.limit > 0 ∧ s.cps.length ≥ s.limit then (s, none)
  else ({ s with last := s.last + 1, cps := erase s.cps (s.last + 1) ++ [(s.last + 1, e)] }, some (encode (s.last + 1)))

/-- The page and what is kept: `rds[:max]`, `rds[max:]`; server_service_set.go:1312-1334 and
1497-1518. -/
def answerPage (s : State R) (e : Entry R) (paged : Bool) : State R :=
  if paged then
    match addCP s { e with data := e.data.drop e.max } with
    | (s, none) => { s with out := s.out ++ [⟨some e.tag, .badNoContinuationPoints, [], none⟩] }
    | (s, some cp) => { s with out := s.out ++ [⟨some e.tag, .good, e.data.take e.max, some cp⟩] }
  else { s with out := s.out ++ [⟨some e.tag, .good, e.data, none⟩] }

inductive Ev (R : Type) where
  /-- a Browse item that selected `refs` -/
  | browse (tag : Nat) (refs : List R) (max : Nat)
  /-- worker `t` calls removeBrowseContinuationPoint for a BrowseNext item -/
  | take (t : Nat) (cp : Bytes) (release : Bool)
  /-- worker `t` goes on with what it removed -/
  | put (t : Nat)
deriving Repr, DecidableEq

def findHeld (m : List (Nat × Entry R)) (t : Nat) : Option (Entry R) :=
  match m with
  | [] => none
  | (t', e) :: m => if t' = t then some e else findHeld m t

/-- One step. A Browse does not run while a BrowseNext of the session is in progress, and a worker
does one item at a time; such events change nothing. -/
def step (s : State R) (ev : Ev R) : State R :=
  if s.crashed then s else
  match ev with
  | .browse tag refs max =>
    if s.held ≠ [] then s
    else answerPage s ⟨tag, refs, max⟩ (decide (max > 0 ∧ refs.length > max))
  | .take t cp release =>
    if (findHeld s.held t).isSome then s
    else if cp = [] then { s with out := s.out ++ [⟨none, .good, [], none⟩] }
    else
      match decode cp with
      | none => { s with crashed := true }
      | some id =>
        match find s.cps id with
        | none => { s with out := s.out ++ [⟨none, .badContinuationPointInvalid, [], none⟩] }
        | some e =>
          if release then { s with cps := erase s.cps id, out := s.out ++ [⟨none, .good, [], none⟩] }
          else { s with cps := erase s.cps id, held := s.held ++ [(t, e)] }
  | .put t =>
    match findHeld s.held t with
    | none => s
    | some e => answerPage { s with held := s.held.filter (fun x => x.1 ≠ t) } e (decide (e.data.length > e.max))

def run (s : State R) (evs : List (Ev R)) : State R := evs.foldl step s

/-- A new session. -/
def init (limit : Nat) : State R := ⟨limit, 0, [], [], [], false⟩

end Opcua.Paging
