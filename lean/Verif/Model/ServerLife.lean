/-!
# The life of a server

`ListenAndServe`, `Close`, `serve` and `handleConnection` (server/server.go:282-413) as a machine. The
channel `srv.closing`, the listener, the calls and the connections are parts of the state; what the callers,
the clients, the network and the timers do are events.

Simplifications: the steps of one event happen at once (the reads and writes of `srv.state` are under the
lock of the server, those of the channel are atomic); `handleRequest` returns; one second of `time.Sleep` in
`Close` is one event; a connection is known only by the phase that it is in; the goroutines of the session
and subscription managers, which also watch `srv.closing`, are in the models of those.
-/

namespace Opcua.ServerLife

/-- `ua.ServerState`, as far as used: ServerStateUnknown, ServerStateRunning, ServerStateShutdown. -/
inductive Status where
  | unknown
  | running
  | shutdown
  deriving DecidableEq, Repr

/-- The errors that `ListenAndServe` returns. -/
inductive Code where
  | badInternalError
  | badTCPEndpointURLInvalid
  | badResourceUnavailable
  | badServerHalted
  | badTCPInternalError
  deriving DecidableEq, Repr

/-- Where a call of `ListenAndServe` is. Delays are in milliseconds. -/
inductive Phase where
  /-- past the check of the state, server.go:292-293 -/
  | starting
  /-- in `ln.Accept()` of `serve`, server.go:358 -/
  | accepting (delay : Nat)
  /-- in `time.Sleep(delay)` of `serve`, server.go:372 -/
  | sleeping (delay : Nat)
  /-- in `wg.Wait()`, server.go:316 -/
  | waiting (err : Option Code)
  | returned (err : Option Code)
  deriving DecidableEq, Repr

/-- Where a call of `Close` is. -/
inductive Closer where
  /-- in the loop of server.go:334-337, with so many seconds to go -/
  | counting (n : Nat)
  /-- about to `close(srv.closing)`, server.go:345 -/
  | shutting
  | done
  deriving DecidableEq, Repr

/-- Where `handleConnection` is. -/
inductive Conn where
  /-- in `ch.Open()`, server.go:388 -/
  | opening
  /-- in `requestWorker`, server.go:407 -/
  | serving
  /-- the same, after `ch.Close()` of the goroutine that watches `srv.closing`, server.go:400-406 -/
  | closed
  /-- `wg.Done()` has been called -/
  | gone
  deriving DecidableEq, Repr

inductive Listener where
  | none
  | open
  | closed
  deriving DecidableEq, Repr

structure State where
  status : Status := .unknown
  /-- `srv.closing` has been closed -/
  closing : Bool := false
  /-- the process has ended by a panic -/
  panicked : Bool := false
  listener : Listener := .none
  calls : List Phase := []
  closers : List Closer := []
  conns : List Conn := []
  /-- `srv.secondsTillShutdown` -/
  seconds : Nat := 0
  deriving DecidableEq, Repr

/-- How `url.Parse` and `net.Listen` end, server.go:295-305. -/
inductive Bind where
  | badURL
  | busy
  | ok
  deriving DecidableEq, Repr

/-- How `ln.Accept()` ends. -/
inductive Accept where
  | conn
  /-- a `net.Error` whose `Timeout()` is true -/
  | timeout
  /-- any other error -/
  | failed
  deriving DecidableEq, Repr

inductive Event where
  /-- the application calls `ListenAndServe` -/
  | serve
  | bind (i : Nat) (r : Bind)
  | accept (i : Nat) (r : Accept)
  /-- the sleep of `serve` is over -/
  | wake (i : Nat)
  /-- `wg.Wait()` and `workerpool.StopWait()` return -/
  | drain (i : Nat)
  /-- the application calls `Close` -/
  | close
  /-- one second of `Close` is over -/
  | tick (j : Nat)
  | shut (j : Nat)
  /-- the goroutine of server.go:307-310 -/
  | unlisten
  /-- `ch.Open()` succeeds -/
  | opened (c : Nat)
  /-- `ch.Open()` fails, at the latest when its deadline has passed, server_secure_channel.go:117, 190 -/
  | refused (c : Nat)
  /-- the client ends the connection, or a request cannot be read or answered -/
  | hangup (c : Nat)
  /-- the goroutine of server.go:400-406 sees that the server is closing -/
  | watch (c : Nat)
  /-- `readRequest` fails because the channel has been closed -/
  | finish (c : Nat)
  deriving DecidableEq, Repr

/-- `ListenAndServe` up to the end of its critical section, server.go:286-293. -/
def onServe (s : State) : State :=
  if s.status ≠ .unknown then { s with calls := s.calls ++ [.returned (some .badInternalError)] }
  else { s with status := .running, calls := s.calls ++ [.starting] }

/-- server.go:295-310. -/
def onBind (s : State) (i : Nat) : Bind → State
  | .badURL => { s with calls := s.calls.set i (.returned (some .badTCPEndpointURLInvalid)) }
  | .busy => { s with calls := s.calls.set i (.returned (some .badResourceUnavailable)) }
  | .ok => { s with listener := .open, calls := s.calls.set i (.accepting 0) }

/-- `delay` after a timeout, server.go:364-371. -/
def backoff (delay : Nat) : Nat :=
  let d := if delay = 0 then 5 else delay * 2
  if d > 1000 then 1000 else d

/-- What `Accept` gives: on a closed listener always an error that is not a timeout (net.ErrClosed). -/
def outcome (l : Listener) (r : Accept) : Accept := if l = .closed then .failed else r

/-- `serve` after `Accept`, server.go:358-381. -/
def onAccept (s : State) (i delay : Nat) : Accept → State
  | .conn => { s with calls := s.calls.set i (.accepting 0), conns := s.conns ++ [.opening] }
  | .timeout =>
    if s.status ≠ .running then { s with calls := s.calls.set i (.waiting (some .badServerHalted)) }
    else { s with calls := s.calls.set i (.sleeping (backoff delay)) }
  | .failed =>
    if s.status ≠ .running then { s with calls := s.calls.set i (.waiting (some .badServerHalted)) }
    else { s with calls := s.calls.set i (.waiting (some .badTCPInternalError)) }

/-- All connections have been served to the end: the counter of `wg` is zero. -/
def idle (s : State) : Bool := s.conns.all (· == .gone)

/-- `Close` up to the end of its critical section, server.go:327-342. -/
def onClose (s : State) : State :=
  if s.status = .running then { s with status := .shutdown, closers := s.closers ++ [.counting 3], seconds := 3 }
  else { s with status := .shutdown, closers := s.closers ++ [.shutting] }

/-- One round of the loop of `Close`, server.go:334-338. -/
def onTick (s : State) (j : Nat) : Nat → State
  | 0 => s
  | 1 => { s with closers := s.closers.set j .shutting, seconds := 0 }
  | n + 1 => { s with closers := s.closers.set j (.counting n), seconds := n }

/-- `close(srv.closing)` panics if the channel is closed already, server.go:345. -/
def onShut (s : State) (j : Nat) : State :=
  if s.closing then { s with panicked := true }
  else { s with closing := true, closers := s.closers.set j .done }

def live (s : State) : Event → State
  | .serve => onServe s
  | .bind i r => if s.calls[i]? = some .starting then onBind s i r else s
  | .accept i r =>
    match s.calls[i]? with
    | some (.accepting d) => onAccept s i d (outcome s.listener r)
    | _ => s
  | .wake i =>
    match s.calls[i]? with
    | some (.sleeping d) => { s with calls := s.calls.set i (.accepting d) }
    | _ => s
  | .drain i =>
    match s.calls[i]? with
    | some (.waiting e) => if idle s then { s with calls := s.calls.set i (.returned e) } else s
    | _ => s
  | .close => onClose s
  | .tick j =>
    match s.closers[j]? with
    | some (.counting n) => onTick s j n
    | _ => s
  | .shut j => if s.closers[j]? = some .shutting then onShut s j else s
  | .unlisten => if s.closing ∧ s.listener = .open then { s with listener := .closed } else s
  | .opened c => if s.conns[c]? = some .opening then { s with conns := s.conns.set c .serving } else s
  | .refused c => if s.conns[c]? = some .opening then { s with conns := s.conns.set c .gone } else s
  | .hangup c => if s.conns[c]? = some .serving then { s with conns := s.conns.set c .gone } else s
  | .watch c => if s.closing ∧ s.conns[c]? = some .serving then { s with conns := s.conns.set c .closed } else s
  | .finish c => if s.conns[c]? = some .closed then { s with conns := s.conns.set c .gone } else s

/-- Nothing happens after a panic. -/
def step (s : State) (e : Event) : State := if s.panicked then s else live s e

def run (evs : List Event) : State := evs.foldl step {}

end Opcua.ServerLife
