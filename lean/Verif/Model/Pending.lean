import Verif.Model.Channel

/-! Matching of responses to requests on a client channel: Request
(client/client_secure_channel.go:237-267), handleResponse and mapPendingResponses (1734-1759),
responseWorker (1350-1366). Callers are numbered; each number makes one request. Drawing the handle
is one atomic step here; C26 covers its load and compare-and-swap steps. The answer that
CloseSecureChannel gives to itself (534-538) is not modelled. -/
namespace Opcua.Pending
open Opcua.Channel (nextSeq)

/-- A decoded response: its RequestHandle and the rest. -/
structure Resp where
  handle : BitVec 32
  body : Nat
deriving Repr, DecidableEq

inductive Outcome where
  | response (r : Resp)
  | badRequestTimeout
  | badSecureChannelClosed
deriving Repr, DecidableEq

/-- Where a caller of Request is: before the call, about to put the operation on pendingResponseCh
(line 246), sending (248), in the final select (253), returned. -/
inductive Phase where
  | idle
  | drawn (h : BitVec 32) (deadline : Nat)
  | sending (h : BitVec 32) (deadline : Nat)
  | waiting (h : BitVec 32) (deadline : Nat)
  | done (o : Outcome)
deriving Repr, DecidableEq

/-- `starts`, `enq` and `log` record the handles drawn, the callers whose operation was enqueued and
the deliveries, in order; the code keeps no such record. -/
structure State where
  now : Nat
  closed : Bool
  val : BitVec 32                        -- requestHandle counter
  phase : Nat → Phase
  queue : List (BitVec 32 × Nat)         -- pendingResponseCh, capacity 32 (line 436)
  pend : BitVec 32 → Option Nat          -- pendingResponses
  box : Nat → Option Resp                -- the response channel of each operation, capacity 1
  starts : List (Nat × BitVec 32)
  enq : List Nat
  log : List (Nat × Resp)

def queueCap : Nat := 32

inductive Ev where
  | tick (d : Nat)
  | start (c : Nat) (hint : Nat)
  | enqueue (c : Nat)
  | sent (c : Nat)
  | receive (r : Resp)
  | take (c : Nat)
  | expire (c : Nat)
  | close
  | closedExit (c : Nat)
deriving Repr, DecidableEq

def setAt {α β : Type} [DecidableEq α] (f : α → β) (a : α) (b : β) : α → β := fun x => if x = a then b else f x

/-- mapPendingResponses, lines 1750-1759. -/
def mapPending (pend : BitVec 32 → Option Nat) : List (BitVec 32 × Nat) → (BitVec 32 → Option Nat)
  | [] => pend
  | (h, c) :: q => mapPending (setAt pend h (some c)) q

/-- handleResponse, lines 1734-1747. -/
def handleResponse (s : State) (r : Resp) : State :=
  let pend := mapPending s.pend s.queue
  match pend r.handle with
  | none => { s with pend := pend, queue := [] }
  | some c =>
    match s.box c with
    | none =>
      { s with pend := setAt pend r.handle none, queue := [], box := setAt s.box c (some r), log := s.log ++ [(c, r)] }
    | some _ => { s with pend := setAt pend r.handle none, queue := [] }

/-- One atomic step; an event that is not possible in a state leaves it unchanged. -/
def step (s : State) : Ev → State
  | .tick d => { s with now := s.now + d }
  | .start c hint =>
    match s.phase c with
    | .idle =>
      let h := nextSeq s.val
      { s with val := h, phase := setAt s.phase c (.drawn h (s.now + hint)), starts := s.starts ++ [(c, h)] }
    | _ => s
  | .enqueue c =>
    match s.phase c with
    | .drawn h d =>
      if s.queue.length < queueCap then
        { s with queue := s.queue ++ [(h, c)], phase := setAt s.phase c (.sending h d), enq := s.enq ++ [c] }
      else s
    | _ => s
  | .sent c =>
    match s.phase c with
    | .sending h d => { s with phase := setAt s.phase c (.waiting h d) }
    | _ => s
  | .receive r => if s.closed then s else handleResponse s r
  | .take c =>
    match s.phase c, s.box c with
    | .waiting _ _, some r => { s with phase := setAt s.phase c (.done (.response r)), box := setAt s.box c none }
    | _, _ => s
  | .expire c =>
    match s.phase c with
    | .waiting _ d => if d ≤ s.now then { s with phase := setAt s.phase c (.done .badRequestTimeout) } else s
    | _ => s
  | .close => { s with closed := true }
  | .closedExit c =>
    match s.phase c with
    | .waiting _ _ => if s.closed then { s with phase := setAt s.phase c (.done .badSecureChannelClosed) } else s
    | _ => s

def run (s : State) (evs : List Ev) : State := evs.foldl step s

/-- The channel after Open, with the counter at `v`. -/
def init (v : BitVec 32) : State := ⟨0, false, v, fun _ => .idle, [], fun _ => none, fun _ => none, [], [], []⟩

end Opcua.Pending
