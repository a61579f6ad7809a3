/-!
# Who can read what travels on a secure channel

A symbolic model: messages are terms, keys and random numbers are atoms, and an attacker who has all that was ever sent
derives further terms by the rules of `Knows` (the rules of Dolev and Yao). Whoever holds a private key that is not `corrupt`
runs this code. The attacker makes and delivers every frame, has certificates of its own, and runs clients and servers.

What is modelled of the code is what is sent, encrypted for whom or under which key, and from which random numbers keys are
made: client/client_secure_channel.go:444-470, 528-720 (OpenSecureChannel), 1205-1348 (requests), 1350-1620 (responses),
1739-1787 (renewal); server/server_secure_channel.go:270-379, 434-617 (opening), 1028-1450 (requests), 888-1026 (answers),
1469-1516 (renewal).

Simplifications: encryption hides everything but the key it needs (lengths are left out, and that equal texts have equal
ciphertexts under one token); a MAC and a signature show what they are made of; sequence numbers, request ids and policies are
left out of headers, but for the policy None on a server. A message that an honest party sends is one chunk. Which of its
requests for a token a client takes a response for is up to the attacker. An error or panic ends the connection of either
party.
-/

namespace Opcua.Secrecy

/-- A holder of a private key. -/
abbrev Agent := Nat

inductive Mode where
  | none
  | sign
  | signAndEncrypt
  deriving DecidableEq, Repr

inductive Term where
  /-- what everybody knows -/
  | num (n : Nat)
  /-- an empty nonce -/
  | nil
  /-- nonce `n` that a client made for its channel `i`, client_secure_channel.go:448 and 1771 -/
  | cnonce (i n : Nat)
  /-- nonce `n` that the server with the key of `s` made for its connection `c` while the public key of the client was that
  of `a`, server_secure_channel.go:283 and 1475 (`s` and `a` are a record) -/
  | snonce (c n : Nat) (s a : Agent)
  /-- what a client asks with a request -/
  | secret (m : Nat)
  /-- what a server says with a response -/
  | reply (m : Nat)
  | priv (a : Agent)
  | pair (x y : Term)
  /-- encrypted with the public key of `a` -/
  | aenc (a : Agent) (x : Term)
  /-- `x` and a signature of `a` over it -/
  | sig (a : Agent) (x : Term)
  | senc (k x : Term)
  | mac (k x : Term)
  /-- the keys for one direction: `calculatePSHA` of secret and seed -/
  | kdf (secret seed : Term)
  | openReq (renew : Bool) (mode : Mode) (nonce : Term)
  | openResp (chan tok : Nat) (nonce : Term)
  deriving DecidableEq, Repr

/-- How a channel of a client is set up: its own key, the certificate of the server, the mode. -/
structure Cfg where
  me : Agent
  peer : Agent
  mode : Mode

structure Setup where
  cfg : Nat → Cfg
  /-- whose private key the attacker has -/
  corrupt : Agent → Prop
  /-- whose certificate a server takes for a new channel -/
  trusted : Agent → Bool

/-- What the attacker can derive from what was sent. -/
inductive Knows (p : Setup) (net : List Term) : Term → Prop where
  | seen {x} : x ∈ net → Knows p net x
  | num n : Knows p net (.num n)
  | nil : Knows p net .nil
  | priv {a} : p.corrupt a → Knows p net (.priv a)
  | pair {x y} : Knows p net x → Knows p net y → Knows p net (.pair x y)
  | fst {x y} : Knows p net (.pair x y) → Knows p net x
  | snd {x y} : Knows p net (.pair x y) → Knows p net y
  | aenc {a x} : Knows p net x → Knows p net (.aenc a x)
  | adec {a x} : Knows p net (.aenc a x) → Knows p net (.priv a) → Knows p net x
  | sig {a x} : Knows p net x → Knows p net (.priv a) → Knows p net (.sig a x)
  | signed {a x} : Knows p net (.sig a x) → Knows p net x
  | senc {k x} : Knows p net x → Knows p net k → Knows p net (.senc k x)
  | sdec {k x} : Knows p net (.senc k x) → Knows p net k → Knows p net x
  | mac {k x} : Knows p net x → Knows p net k → Knows p net (.mac k x)
  | maced {k x} : Knows p net (.mac k x) → Knows p net x
  | kdf {x y} : Knows p net x → Knows p net y → Knows p net (.kdf x y)
  | openReq {r m x} : Knows p net x → Knows p net (.openReq r m x)
  | asked {r m x} : Knows p net (.openReq r m x) → Knows p net x
  | openResp {c t x} : Knows p net x → Knows p net (.openResp c t x)
  | answered {c t x} : Knows p net (.openResp c t x) → Knows p net x

/-- A frame: its header, which everybody can read, and the rest. -/
inductive Frame where
  /-- OPN under a secured policy; `cert` is the sender's certificate, `none` one that is none -/
  | opn (chan : Nat) (cert : Option Agent) (x : Term)
  /-- OPN under the policy None -/
  | plain (x : Term)
  | msg (final : Bool) (chan tok : Nat) (x : Term)
  deriving DecidableEq, Repr

def Frame.payload : Frame → Term
  | .opn _ _ x => x
  | .plain x => x
  | .msg _ _ _ x => x

/-- The headers, as signatures and MACs cover them. -/
def opnHeader (chan : Nat) (cert : Option Agent) : Term :=
  .pair (.num chan) (.num (match cert with | none => 0 | some a => a + 1))

def msgHeader (final : Bool) (chan tok : Nat) : Term :=
  .pair (.num (if final then 1 else 0)) (.pair (.num chan) (.num tok))

/-- An OPN frame: signed by the sender, encrypted for the receiver, client_secure_channel.go:676-716 and
server_secure_channel.go:560-600. -/
def sealOpn (sender receiver : Agent) (chan : Nat) (body : Term) : Frame :=
  .opn chan (some sender) (.aenc receiver (.sig sender (.pair (opnHeader chan (some sender)) body)))

/-- Opening it with the own private key and the public key of the peer: the signature covers the header as received. -/
def openOpn (me peer : Agent) (chan : Nat) (cert : Option Agent) (x : Term) : Option Term :=
  match x with
  | .aenc a (.sig b (.pair h body)) => if a = me ∧ b = peer ∧ h = opnHeader chan cert then some body else none
  | _ => none

/-- A MSG chunk in a mode with a key, client_secure_channel.go:1301-1338 and server_secure_channel.go:976-1015. `none`: there
is no key, and a nil MAC or cipher is used. -/
def sealMsg (mode : Mode) (key : Option Term) (chan tok : Nat) (body : Term) : Option Frame :=
  match mode, key with
  | .none, _ => some (.msg true chan tok body)
  | _, none => none
  | .sign, some k => some (.msg true chan tok (.mac k (.pair (msgHeader true chan tok) body)))
  | .signAndEncrypt, some k => some (.msg true chan tok (.senc k (.mac k (.pair (msgHeader true chan tok) body))))

/-- Decrypting and verifying one, client_secure_channel.go:1456-1480 and server_secure_channel.go:1150-1174. -/
def openMsg (mode : Mode) (key : Option Term) (final : Bool) (chan tok : Nat) (x : Term) : Option Term :=
  match mode, key with
  | .none, _ => some x
  | _, none => none
  | .sign, some k =>
    match x with
    | .mac k' (.pair h body) => if k' = k ∧ h = msgHeader final chan tok then some body else none
    | _ => none
  | .signAndEncrypt, some k =>
    match x with
    | .senc k'' (.mac k' (.pair h body)) => if k'' = k ∧ k' = k ∧ h = msgHeader final chan tok then some body else none
    | _ => none

/-! ### Clients -/

/-- A channel of a client. `made` counts its nonces, `waiting` are those of requests for a token without a response, `got` is
a record of the responses. -/
structure Client where
  up : Bool := true
  opened : Bool := false
  chan : Nat := 0
  tok : Nat := 0
  sendTok : Nat := 0
  recvTok : Nat := 0
  localN : Term := .nil
  remoteN : Term := .nil
  sendKey : Option Term := none
  recvKey : Option Term := none
  made : Nat := 0
  waiting : List Term := []
  got : List Term := []
  deriving DecidableEq, Repr

/-- `Open` and `renewToken` with sendOpenSecureChannelRequest, client_secure_channel.go:444-454, 528-720, 1766-1774. -/
def ask (g : Cfg) (i : Nat) (k : Client) : Client × List Term :=
  if k.up then
    let n := Term.cnonce i k.made
    let body := Term.openReq k.opened g.mode n
    let f := match g.mode with
      | .none => Frame.plain body
      | _ => sealOpn g.me g.peer k.chan body
    ({ k with made := k.made + 1, waiting := k.waiting ++ [n] }, [f.payload])
  else (k, [])

/-- `sendServiceRequest`, client_secure_channel.go:1205-1348. -/
def send (g : Cfg) (k : Client) (m : Nat) : Client × List Term :=
  if k.up && k.opened then
    let k := if k.tok = k.sendTok then k
      else { k with
        sendTok := k.tok
        sendKey := if g.mode = .none then none else some (.kdf k.remoteN k.localN) }
    match sealMsg g.mode k.sendKey k.chan k.tok (.secret m) with
    | some f => (k, [f.payload])
    | none => ({ k with up := false }, [])
  else (k, [])

/-- A response, client_secure_channel.go:455-469, 1622-1747 and 1775-1786; a request is none. -/
def respond (k : Client) (which : Nat) (body : Term) : Client :=
  match body with
  | .openResp c t n =>
    match k.waiting[which]? with
    | none => k
    | some l =>
      { k with
        opened := true
        chan := if k.opened then k.chan else c
        tok := t
        localN := l
        remoteN := n
        waiting := k.waiting.eraseIdx which }
  | .openReq _ _ _ => { k with up := false }
  | b => { k with got := k.got ++ [b] }

/-- `readResponse`, client_secure_channel.go:1350-1620. -/
def recv (g : Cfg) (k : Client) (f : Frame) (which : Nat) : Client :=
  if k.up then
    match f with
    | .msg final c t x =>
      if c ≠ k.chan then { k with up := false }
      else
        let k := if t = k.recvTok then k
          else { k with
            recvTok := t
            recvKey := if g.mode = .none then none else some (.kdf k.localN k.remoteN) }
        match openMsg g.mode k.recvKey final c t x with
        | some b => respond k which b
        | none => { k with up := false }
    | .opn c cert x =>
      if g.mode = .none then { k with up := false }
      else
        match openOpn g.me g.peer c cert x with
        | some b => respond k which b
        | none => { k with up := false }
    | .plain x => if g.mode = .none then respond k which x else { k with up := false }
  else k

/-! ### Servers -/

/-- A connection of a server. `key` is `remotePublicKey`, `cert` what `remoteCertificate` parses to, `plain` says that the
policy is None; `acc` is the first part of a message of several chunks, `asked` is a record of the requests. -/
structure Conn where
  me : Agent
  up : Bool := true
  opened : Bool := false
  mode : Mode := .none
  key : Option Agent := none
  cert : Option Agent := none
  plain : Bool := true
  tok : Nat := 0
  pendTok : Nat := 0
  lastTok : Nat := 0
  localN : Term := .nil
  remoteN : Term := .nil
  sendKey : Option Term := none
  recvKey : Option Term := none
  made : Nat := 0
  acc : Option Term := none
  asked : List Term := []
  deriving DecidableEq, Repr

/-- A new token and its response, server_secure_channel.go:281-287, 347-375 and 1474-1506; the response is signed and encrypted
unless the mode is None (lines 434-617), and `RSASign` fails under the policy None. -/
def issue (c : Nat) (k : Conn) (remote : Term) : Conn × List Term :=
  let t := k.lastTok + 1
  match k.mode with
  | .none =>
    ({ k with localN := .nil, remoteN := remote, pendTok := t, lastTok := t }, [.openResp (c + 1) t .nil])
  | _ =>
    match k.plain, k.key with
    | false, some a =>
      ({ k with localN := .snonce c k.made k.me a, remoteN := remote, pendTok := t, lastTok := t, made := k.made + 1 },
        [(sealOpn k.me a (c + 1) (.openResp (c + 1) t (.snonce c k.made k.me a))).payload])
    | _, _ => ({ k with up := false }, [])

/-- A message: `Open` wants a request for a token first (lines 271-338), later ones are renewals (1469-1472) or services. -/
def handle (p : Setup) (c : Nat) (k : Conn) (body : Term) : Conn × List Term :=
  match body with
  | .openReq r m n =>
    if k.opened then
      if r then issue c k n else ({ k with up := false }, [])
    else if m = .none then issue c { k with opened := true, mode := m } n
    else
      match k.cert with
      | some a =>
        if p.trusted a then issue c { k with opened := true, mode := m, key := some a } n else ({ k with up := false }, [])
      | none => ({ k with up := false }, [])
  | .openResp _ _ _ => ({ k with up := false }, [])
  | b => if k.opened then ({ k with asked := k.asked ++ [b] }, []) else ({ k with up := false }, [])

/-- The end of a chunk: `Decode` reads the request at the start of what the chunks hold, lines 1355-1466. -/
def part (p : Setup) (c : Nat) (k : Conn) (final : Bool) (b : Term) : Conn × List Term :=
  let first := k.acc.getD b
  if final then handle p c { k with acc := none } first else ({ k with acc := some first }, [])

/-- Making the keys when the pending token comes into use, lines 1085-1147. -/
def switch (k : Conn) : Option Conn :=
  match k.mode with
  | .none => some { k with tok := k.pendTok }
  | _ =>
    if k.plain then none
    else some { k with
      tok := k.pendTok
      recvKey := some (.kdf k.localN k.remoteN)
      sendKey := some (.kdf k.remoteN k.localN) }

/-- `readRequest`, server_secure_channel.go:1028-1450. The channel id of an OPN frame is not looked at. -/
def frame (p : Setup) (c : Nat) (k : Conn) (f : Frame) : Conn × List Term :=
  if k.up then
    match f with
    | .msg final ch t x =>
      if ch ≠ c + 1 then ({ k with up := false }, [])
      else
        match (if t = k.tok then some k else if t = k.pendTok then switch k else none) with
        | none => ({ k with up := false }, [])
        | some k =>
          match openMsg k.mode k.recvKey final ch t x with
          | none => ({ k with up := false }, [])
          | some b => part p c k final b
    | .opn ch cert x =>
      let k := { k with plain := false, cert := cert, key := match cert with | some a => some a | none => k.key }
      match k.key with
      | none => ({ k with up := false }, [])
      | some a =>
        match openOpn k.me a ch cert x with
        | none => ({ k with up := false }, [])
        | some b => part p c k true b
    | .plain x => part p c { k with plain := true, cert := none } true x
  else (k, [])

/-- `sendServiceResponse`, server_secure_channel.go:888-1026. -/
def reply (c : Nat) (k : Conn) (m : Nat) : Conn × List Term :=
  if k.up && k.opened then
    match sealMsg k.mode k.sendKey (c + 1) k.tok (.reply m) with
    | some f => (k, [f.payload])
    | none => ({ k with up := false }, [])
  else (k, [])

/-! ### All together -/

structure State where
  clients : Nat → Client
  conns : Nat → Option Conn
  net : List Term

/-- A client asks for a token or a service; a client gets a frame; a server with the key of `a` accepts a connection, gets a
frame, sends a response. -/
inductive Ev where
  | ask (i : Nat)
  | send (i m : Nat)
  | recv (i : Nat) (f : Frame) (which : Nat)
  | accept (c : Nat) (a : Agent)
  | frame (c : Nat) (f : Frame)
  | reply (c m : Nat)
  deriving DecidableEq, Repr

def setClient (s : State) (i : Nat) (r : Client × List Term) : State :=
  { s with
    clients := fun j => if j = i then r.1 else s.clients j
    net := s.net ++ r.2 }

def setConn (s : State) (c : Nat) (r : Conn × List Term) : State :=
  { s with
    conns := fun j => if j = c then some r.1 else s.conns j
    net := s.net ++ r.2 }

def step (p : Setup) (s : State) : Ev → State
  | .ask i => setClient s i (ask (p.cfg i) i (s.clients i))
  | .send i m => setClient s i (send (p.cfg i) (s.clients i) m)
  | .recv i f which => setClient s i (recv (p.cfg i) (s.clients i) f which, [])
  | .accept c a =>
    match s.conns c with
    | none => setConn s c ({ me := a }, [])
    | some _ => s
  | .frame c f =>
    match s.conns c with
    | none => s
    | some k => setConn s c (frame p c k f)
  | .reply c m =>
    match s.conns c with
    | none => s
    | some k => setConn s c (reply c k m)

def run (p : Setup) (s : State) (evs : List Ev) : State := evs.foldl (step p) s

def init : State := { clients := fun _ => {}, conns := fun _ => none, net := [] }

end Opcua.Secrecy
