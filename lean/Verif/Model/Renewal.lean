/-! Renewal of the security token between a client and a server joined by two in-order byte
streams: sendRequest and renewToken (client/client_secure_channel.go:506-511, 1762-1790), the token
header of each request chunk (1270), handleOpenSecureChannel and the token check of readRequest
(server/server_secure_channel.go:346-357, 1090-1095). Tokens are numbered from 1 in the order they
are issued (the counter of C26; its wrap-around after 2^32 − 1 renewals is left out), and keys are
identified with the token they belong to. -/
namespace Opcua.Renewal

/-- What the client writes: the OPN request of renewal `id`, or a chunk under a token. -/
inductive Up where
  | opn (id : Nat)
  | msg (tok : Nat)
deriving Repr, DecidableEq

/-- Server side: tokenID, pendingTokenID and lastTokenID. -/
structure Server where
  cur : Nat
  pend : Nat
  last : Nat
deriving Repr, DecidableEq

structure State where
  srv : Server
  broken : Bool            -- the server has answered BadSecureChannelTokenUnknown and closed
  up : List Up             -- client to server
  down : List (Nat × Nat)  -- server to client: OPN responses (renewal id, token id)
  tok : Nat                -- client's tokenID
  used : Bool              -- the client has sent a chunk under `tok`
  live : List Nat          -- renewals waiting for their response
  nextId : Nat
deriving Repr, DecidableEq

inductive Ev where
  | send                    -- a request chunk is written
  | renew                   -- a renewal is started
  | giveUp (id : Nat)       -- the renewal request times out (renewToken returns the error)
  | serverRecv              -- the server handles the next message
  | clientRecv              -- the client handles the next OPN response
deriving Repr, DecidableEq

/-- The server handles one message; `none` when it closes the channel. The response to an OPN is
returned as well. -/
def handle (v : Server) : Up → Option (Server × List (Nat × Nat))
  | .opn id => some (⟨v.cur, v.last + 1, v.last + 1⟩, [(id, v.last + 1)])
  | .msg t =>
    if v.cur = t then some (v, [])
    else if t ≠ v.pend then none
    else some (⟨t, v.pend, v.last⟩, [])

def step (s : State) : Ev → State
  | .send => { s with up := s.up ++ [.msg s.tok], used := true }
  | .renew => { s with up := s.up ++ [.opn s.nextId], live := s.nextId :: s.live, nextId := s.nextId + 1 }
  | .giveUp id => { s with live := s.live.filter (· ≠ id) }
  | .serverRecv =>
    if s.broken then s
    else match s.up with
      | [] => s
      | m :: up =>
        match handle s.srv m with
        | none => { s with up := up, broken := true }
        | some (v, out) => { s with srv := v, up := up, down := s.down ++ out }
  | .clientRecv =>
    match s.down with
    | [] => s
    | (id, t) :: down =>
      if id ∈ s.live then { s with down := down, tok := t, used := false, live := s.live.filter (· ≠ id) }
      else { s with down := down }

def run (s : State) (evs : List Ev) : State := evs.foldl step s

/-- After Open: the server has issued token 1 and waits for its first use; the client holds it. -/
def opened : State := ⟨⟨0, 1, 1⟩, false, [], [], 1, false, [], 0⟩

end Opcua.Renewal
