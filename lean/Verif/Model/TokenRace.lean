/-! Which keys secure a chunk, and which token it names, when sending runs concurrently with a token
change. Server: readRequest (server/server_secure_channel.go:1090-1146) against sendServiceResponse
(620-621, 960-1030). Client: renewToken (client/client_secure_channel.go:1779-1788) against
sendServiceRequest (1266-1292). Keys are identified with the token they are derived for. -/
namespace Opcua.TokenRace

/-- Server side. `tokenID` is the shared word; `keyTok` the token of the installed sending keys;
`locked`: the sender holds sendingSemaphore; `hdr`: token already written into the chunk being
built; `out`: chunks sent, as (token named, token of the keys). -/
structure Server where
  tokenID : Nat
  keyTok : Nat
  locked : Bool
  hdr : Option Nat
  out : List (Nat × Nat)
deriving Repr, DecidableEq

inductive SEv where
  | setToken (t : Nat)   -- reader, line 1096: `ch.tokenID = ch.pendingTokenID`, no lock held
  | installKeys          -- reader, lines 1122-1146, under sendingSemaphore
  | lock                 -- sender, line 620
  | header               -- sender: the token word of a chunk
  | secure                 -- sender: sign, encrypt and write the chunk
  | unlock               -- sender, line 621
deriving Repr, DecidableEq

/-- An event that is not possible in a state leaves it unchanged. -/
def sstep (s : Server) : SEv → Server
  | .setToken t => { s with tokenID := t }
  | .installKeys => if s.locked then s else { s with keyTok := s.tokenID }
  | .lock => { s with locked := true }
  | .header => if s.locked then { s with hdr := some s.tokenID } else s
  | .secure =>
    match s.hdr with
    | some h => { s with hdr := none, out := s.out ++ [(h, s.keyTok)] }
    | none => s
  | .unlock => { s with locked := false, hdr := none }

def srun (s : Server) (evs : List SEv) : Server := evs.foldl sstep s

/-- Client side; `sendTok` is sendingTokenID. The sender holds sendingSemaphore throughout. -/
structure Client where
  tokenID : Nat
  sendTok : Nat
  hdr : Option Nat
  out : List (Nat × Nat)
deriving Repr, DecidableEq

inductive CEv where
  | renewed (t : Nat)    -- renewToken, lines 1779-1788
  | header               -- line 1270, outside tokenLock
  | secure                 -- lines 1273-1292 and the rest of the chunk: re-key if the token changed
deriving Repr, DecidableEq

def cstep (s : Client) : CEv → Client
  | .renewed t => { s with tokenID := t }
  | .header => { s with hdr := some s.tokenID }
  | .secure =>
    match s.hdr with
    | some h => { s with sendTok := s.tokenID, hdr := none, out := s.out ++ [(h, s.tokenID)] }
    | none => s

def crun (s : Client) (evs : List CEv) : Client := evs.foldl cstep s

end Opcua.TokenRace
