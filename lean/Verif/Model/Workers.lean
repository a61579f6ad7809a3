/-!
# The workers that all connections share

Six services hand the items of a request to one pool of workers and wait until all of them are done: Browse, BrowseNext,
TranslateBrowsePathsToNodeIds, Read, Write and Call (server/server_service_set.go:1200-1352, 1464-1546, 1649-1721,
2210-2240, 2358-2388, 3607-3687). The pool is made at server/server.go:132; every connection has one goroutine that takes a
request, handles it, answers, and then takes the next one (server/server.go:416-428).

The pool itself is github.com/gammazero/workerpool, which is not part of the repository: `Submit` appends to a queue without
a bound, a worker takes from its front, there are at most as many workers as `New` was told.

Simplifications: the session checks before (Model/Session.lean) and the numbers of items (Model/Batch.lean) have been passed;
a service that does without workers is a request without items; that an item ends is one step, in which it stores its result,
counts itself done and sets its worker free: that no item does these in another order or more than once is what the first
part is for.
-/

namespace Opcua.Workers

/-! ## What an item does with its result -/

/-- The closures that are submitted, as far as the result, the WaitGroup and the flow of control are concerned. Everything
else is left out, and any branch may be taken. -/
inductive Flow where
  /-- `results[i] = ..` -/
  | set
  /-- `wg.Done()` -/
  | done
  | ret
  | skip
  | seq (a b : Flow)
  /-- `if` and `switch` -/
  | alt (a b : Flow)
  /-- `for`, with any number of rounds; `continue` and `break` end a round as `skip` -/
  | loop (a : Flow)
  deriving DecidableEq, Repr

infixr:60 " ;; " => Flow.seq

inductive Act where
  | set
  | done
  deriving DecidableEq, Repr

/-- What a flow may do, and whether it ends with `return`. -/
inductive Exec : Flow → List Act → Bool → Prop where
  | set : Exec .set [.set] false
  | done : Exec .done [.done] false
  | ret : Exec .ret [] true
  | skip : Exec .skip [] false
  | stop {a b t} : Exec a t true → Exec (.seq a b) t true
  | next {a b t u r} : Exec a t false → Exec b u r → Exec (.seq a b) (t ++ u) r
  | left {a b t r} : Exec a t r → Exec (.alt a b) t r
  | right {a b t r} : Exec b t r → Exec (.alt a b) t r
  | over {a} : Exec (.loop a) [] false
  | out {a t} : Exec a t true → Exec (.loop a) t true
  | again {a t u r} : Exec a t false → Exec (.loop a) u r → Exec (.loop a) (t ++ u) r

/-- `{ results[i] = ..; wg.Done(); return }`, the usual end. -/
def leave : Flow := .set ;; .done ;; .ret

/-- `if .. { leave }` -/
def guard : Flow := .alt leave .skip

/-- server_service_set.go:1210-1330. -/
def browse : Flow :=
  guard ;; guard ;; guard ;;            -- 1212-1228: direction, node, permission
  .alt (guard ;; guard) .skip ;;        -- 1233-1246: reference type
  .loop (
    .alt .skip (                        -- 1250-1252
      .alt .skip (                      -- 1253-1255
        guard ;;                        -- 1256-1261: target
        .alt .skip (                    -- 1262-1265
          .alt .skip (                  -- 1266-1268
            .alt .skip .skip ;;         -- 1269-1288: result mask
            .alt (.loop .skip) .skip))))) ;;   -- 1290-1299: type definition
  .alt (guard ;; leave) .skip ;;        -- 1311-1327: continuation point
  .set ;; .done                         -- 1329-1332

/-- server_service_set.go:1474-1520. -/
def browseNext : Flow :=
  guard ;; guard ;; guard ;;            -- 1476-1497: no point, unknown point, release
  .alt (guard ;; leave) .skip ;;        -- 1498-1513
  .set ;; .done                         -- 1514-1517

/-- server_service_set.go:1659-1701. -/
def translate : Flow :=
  guard ;;                              -- 1661-1665
  .loop guard ;;                        -- 1666-1672
  guard ;; guard ;; guard ;;            -- 1674-1688
  .alt (guard ;; leave) .skip ;;        -- 1689-1698
  .set ;; .done                         -- 1699-1700

/-- server_service_set.go:2217-2221. -/
def read : Flow := .set ;; .done

/-- server_service_set.go:2365-2369. -/
def write : Flow := .set ;; .done

/-- server_service_set.go:3617-3666. -/
def call : Flow :=
  guard ;; guard ;;                     -- 3621-3631: object
  .alt .skip leave ;;                   -- 3632-3639: its class
  guard ;; guard ;;                     -- 3640-3651: method
  .alt (.alt .set (.alt .set .set)) .set ;;   -- 3653-3664: the user, the handler, its class
  .done                                 -- 3665

def closures : List Flow := [browse, browseNext, translate, read, write, call]

/-! ## The pool -/

/-- An item of a request: the connection, the number of the request, the index in it. -/
structure Task where
  conn : Nat
  req : Nat
  item : Nat
  deriving DecidableEq, Repr

/-- What happened, in the order of time. -/
inductive Seen where
  /-- request `req` with `n` items was taken from connection `conn` -/
  | taken (conn req n : Nat)
  | submitted (t : Task)
  | began (t : Task)
  | ended (t : Task) (v : Nat)
  | answered (conn req : Nat) (results : List (Option Nat))
  deriving DecidableEq, Repr

/-- A request in the hands of its handler: the local variables `l`, `ii`, `results` and `wg`. -/
structure Job where
  req : Nat
  count : Nat
  submitted : Nat
  results : List (Option Nat)
  wg : Nat
  deriving DecidableEq, Repr

/-- `conns`: what the goroutine of each connection has in hand, `none` while it waits in `readRequest`; `next`: the number of
the next request. `crashed`: a panic because the counter of a WaitGroup became negative. -/
structure State where
  conns : List (Option Job)
  queue : List Task := []
  working : List Task := []
  next : Nat := 0
  log : List Seen := []
  crashed : Bool := false
  deriving DecidableEq, Repr

inductive Ev where
  /-- a request with `n` items is read from a connection -/
  | take (conn n : Nat)
  /-- the handler of the connection submits its next item -/
  | submit (conn : Nat)
  /-- a worker takes the first item of the queue -/
  | begin_
  /-- the `k`-th item at work ends with the result `v` -/
  | finish (k v : Nat)
  /-- the handler of the connection answers -/
  | answer (conn : Nat)
  deriving DecidableEq, Repr

/-- server.go:418-424: the next request is read when the one before has been handled; server_service_set.go:2210-2213 and
alike: `make([]T, l)`, `wg.Add(l)`. -/
def take (s : State) (c n : Nat) : State :=
  match s.conns[c]? with
  | some none =>
    { s with
      conns := s.conns.set c (some ⟨s.next, n, 0, List.replicate n none, n⟩)
      next := s.next + 1
      log := s.log ++ [.taken c s.next n] }
  | _ => s

/-- server_service_set.go:2215-2222 and alike. -/
def submit (s : State) (c : Nat) : State :=
  match s.conns[c]? with
  | some (some j) =>
    if j.submitted < j.count then
      { s with
        conns := s.conns.set c (some { j with submitted := j.submitted + 1 })
        queue := s.queue ++ [⟨c, j.req, j.submitted⟩]
        log := s.log ++ [.submitted ⟨c, j.req, j.submitted⟩] }
    else s
  | _ => s

/-- A worker of the pool that is free takes the item submitted first. -/
def begin_ (workers : Nat) (s : State) : State :=
  match s.queue with
  | t :: q =>
    if s.working.length < workers then
      { s with
        queue := q
        working := s.working ++ [t]
        log := s.log ++ [.began t] }
    else s
  | [] => s

/-- server_service_set.go:2218-2220 and alike. An item whose handler has answered already would find the counter at zero. -/
def finish (s : State) (k v : Nat) : State :=
  match s.working[k]? with
  | some t =>
    let s := { s with
      working := s.working.eraseIdx k
      log := s.log ++ [Seen.ended t v] }
    match s.conns[t.conn]? with
    | some (some j) =>
      if j.req = t.req ∧ 0 < j.wg then
        { s with
          conns := s.conns.set t.conn (some { j with
            results := j.results.set t.item (some v)
            wg := j.wg - 1 }) }
      else { s with crashed := true }
    | _ => { s with crashed := true }
  | none => s

/-- server_service_set.go:2224-2240 and alike: `wg.Wait()` returns when the counter is zero; then the answer is written and
the goroutine goes back to reading. -/
def answer (s : State) (c : Nat) : State :=
  match s.conns[c]? with
  | some (some j) =>
    if j.submitted = j.count ∧ j.wg = 0 then
      { s with
        conns := s.conns.set c none
        log := s.log ++ [.answered c j.req j.results] }
    else s
  | _ => s

def step (workers : Nat) (s : State) (e : Ev) : State :=
  if s.crashed then s
  else match e with
    | .take c n => take s c n
    | .submit c => submit s c
    | .begin_ => begin_ workers s
    | .finish k v => finish s k v
    | .answer c => answer s c

/-- A server with this many connections. -/
def init (conns : Nat) : State := { conns := List.replicate conns none }

def run (workers : Nat) (s : State) (evs : List Ev) : State := evs.foldl (step workers) s

end Opcua.Workers
