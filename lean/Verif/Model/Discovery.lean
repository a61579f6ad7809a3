import Verif.Model.Endpoint

/-!
# The discovery services and the list of endpoints

server/server_service_set.go:29-88 (`findServers`, `getEndpoints`), server/server.go:150-182
(`LocalDescription`, `LocalCertificate`, `Endpoints`), the choice of the endpoint of a channel at
server/server_secure_channel.go:288-314, and the lock of the server, which all of them take to read and
`ListenAndServe` and `Close` (server/server.go:286-293, 325-341) take to write.

Simplifications: of an application description only the URI and the discovery URLs are spelled out, the rest is one
value; the descriptions of the endpoints are those of Model/Endpoint.lean with the URL and the transport profile added.
-/

namespace Opcua.Discovery

open Opcua.Endpoint (Config Desc Policy Mode)

/-- ua.ApplicationDescription. -/
structure App where
  uri : String
  discoveryUrls : List String
  /-- names, type, gateway and profile -/
  rest : Nat := 0
  deriving DecidableEq, Repr

/-- ua.EndpointDescription: the URL, the server and the transport profile beside `Desc`. -/
structure Entry where
  url : String
  server : App
  profile : String
  desc : Desc
  deriving DecidableEq, Repr

/-- ua/transport_profile_uris.go:7. -/
def tcp : String := "http://opcfoundation.org/UA-Profile/Transport/uatcp-uasc-uabinary"

/-- The parts of the server that matter here: server/server.go:49-95. `cache` is `srv.endpoints`, nil at first. -/
structure Srv where
  app : App
  url : String
  config : Config
  cache : Option (List Entry) := none
  deriving DecidableEq, Repr

/-- server.go:961-1074: each endpoint has the URL and the description of the server and the one transport. -/
def build (s : Srv) : List Entry :=
  (Endpoint.endpoints s.config).map fun d => ⟨s.url, s.app, tcp, d⟩

/-- server.go:175-182: the list is made when it is asked for first. -/
def listed (s : Srv) : List Entry × Srv :=
  match s.cache with
  | some es => (es, s)
  | none => (build s, { s with cache := some (build s) })

/-- The inner loops at server_service_set.go:33-38 and 63-69: they end at the first match. -/
def appendIf {α : Type} (have_ : String) (wanted : List String) (a : α) (out : List α) : List α :=
  match wanted with
  | [] => out
  | w :: ws => if have_ = w then out ++ [a] else appendIf have_ ws a out

/-- server_service_set.go:29-42. -/
def findServers (s : Srv) (uris : List String) : List App :=
  [s.app].foldl (fun out a => if uris.length > 0 then appendIf a.uri uris a out else out ++ [a]) []

/-- server_service_set.go:60-74. The variable of the loop is a copy, so that the list in the cache keeps its URLs. -/
def getEndpoints (es : List Entry) (url : String) (profiles : List String) : List Entry :=
  es.foldl (fun out e =>
    if profiles.length > 0 then appendIf e.profile profiles { e with url := url } out
    else out ++ [{ e with url := url }]) []

/-- What a channel is given: server_secure_channel.go:288-314. -/
inductive Chan where
  /-- `ch.localEndpoint` is one of the list, or the zero value -/
  | endpoint (e : Option Entry)
  /-- `discoveryOnly`, with an endpoint of its own at this URL -/
  | discoveryOnly (url : String)
  /-- `DiscoveryURLs[0]` of an empty list -/
  | panic
  deriving DecidableEq, Repr

/-- server_secure_channel.go:288-314. An endpoint with an empty URL counts as none. -/
def openChannel (s : Srv) (es : List Entry) (p : Policy) (m : Mode) : Chan :=
  let e := es.find? fun e => decide (e.profile = tcp) && decide (e.desc.policy = p) && decide (e.desc.mode = m)
  if (e.all fun e => decide (e.url = "")) && decide (p = .none) && decide (m = .none) then
    match s.app.discoveryUrls with
    | u :: _ => .discoveryOnly u
    | [] => .panic
  else .endpoint e

/-- What clients ask for. -/
inductive Req where
  | findServers (uris : List String)
  | getEndpoints (url : String) (profiles : List String)
  /-- the list in the answer to CreateSession, server_service_set.go:266 -/
  | createSession
  | openChannel (p : Policy) (m : Mode)
  deriving DecidableEq, Repr

inductive Ans where
  | servers (l : List App)
  | endpoints (l : List Entry)
  | channel (c : Chan)
  deriving DecidableEq, Repr

/-- One request. -/
def serve (s : Srv) : Req → Ans × Srv
  | .findServers uris => (.servers (findServers s uris), s)
  | .getEndpoints url profiles => (.endpoints (getEndpoints (listed s).1 url profiles), (listed s).2)
  | .createSession => (.endpoints (listed s).1, (listed s).2)
  | .openChannel p m => (.channel (openChannel s (listed s).1 p m), (listed s).2)

/-- The state after a history of requests. -/
def run (s : Srv) (rs : List Req) : Srv := rs.foldl (fun s r => (serve s r).2) s

/-! ## The lock of the server

A `sync.RWMutex`: a writer announces itself, waits for the readers to leave and then enters; while a writer is
announced or inside, nobody else may begin to read or to announce. Readers are counted, not known. -/

/-- What a goroutine calls. -/
inductive Op where
  /-- `LocalDescription`, `LocalCertificate`, `EndpointURL`, ...: RLock, RUnlock -/
  | read
  /-- `Endpoints`: RLock; if there is no list yet, `buildEndpointDescriptions`, which calls `LocalCertificate` once
  for each endpoint; RUnlock -/
  | endpoints
  /-- `ListenAndServe`, `Close`: Lock, Unlock -/
  | write
  deriving DecidableEq, Repr

/-- Where a goroutine is. -/
inductive At where
  | idle
  /-- holds the lock to read -/
  | reading
  /-- inside `buildEndpointDescriptions`, holding the lock to read, with `k` endpoints to make -/
  | building (k : Nat)
  /-- as `building (k+1)`, inside `LocalCertificate`, holding the lock to read once more -/
  | nested (k : Nat)
  | announced
  | inside
  deriving DecidableEq, Repr

structure Thread where
  at_ : At
  todo : List Op
  deriving DecidableEq, Repr

/-- `count` is the number of endpoints that are to be made; `built` says that `srv.endpoints` is not nil. -/
structure Sys where
  readers : Nat
  writer : Bool
  built : Bool
  count : Nat
  threads : List Thread
  deriving DecidableEq, Repr

/-- One step of goroutine `i`, or none if it must wait or has nothing to do. -/
def move (s : Sys) (i : Nat) (t : Thread) : Option Sys :=
  match t.at_, t.todo with
  | .idle, [] => none
  | .idle, .read :: todo =>
    if s.writer then none else some { s with readers := s.readers + 1, threads := s.threads.set i ⟨.reading, todo⟩ }
  | .idle, .endpoints :: todo =>
    if s.writer then none
    else some { s with readers := s.readers + 1,
                       threads := s.threads.set i ⟨if s.built then .reading else .building s.count, todo⟩ }
  | .idle, .write :: todo =>
    if s.writer then none else some { s with writer := true, threads := s.threads.set i ⟨.announced, todo⟩ }
  | .reading, todo => some { s with readers := s.readers - 1, threads := s.threads.set i ⟨.idle, todo⟩ }
  | .building 0, todo => some { s with built := true, threads := s.threads.set i ⟨.reading, todo⟩ }
  | .building (k + 1), todo =>
    if s.writer then none else some { s with readers := s.readers + 1, threads := s.threads.set i ⟨.nested k, todo⟩ }
  | .nested k, todo => some { s with readers := s.readers - 1, threads := s.threads.set i ⟨.building k, todo⟩ }
  | .announced, todo => if s.readers = 0 then some { s with threads := s.threads.set i ⟨.inside, todo⟩ } else none
  | .inside, todo => some { s with writer := false, threads := s.threads.set i ⟨.idle, todo⟩ }

/-- The turn of goroutine `i`; if it must wait, nothing happens. -/
def turn (s : Sys) (i : Nat) : Sys :=
  match s.threads[i]? with
  | none => s
  | some t => (move s i t).getD s

/-- A schedule says whose turn it is. -/
def sched (s : Sys) (is : List Nat) : Sys := is.foldl turn s

/-- Goroutines that begin to work on `programs`. -/
def start (built : Bool) (count : Nat) (programs : List (List Op)) : Sys :=
  ⟨0, false, built, count, programs.map (⟨.idle, ·⟩)⟩

end Opcua.Discovery
