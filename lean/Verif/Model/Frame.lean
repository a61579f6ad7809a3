import Verif.Model.Channel

/-! Reading frames from the connection: read (server/server_secure_channel.go:1589-1620) and Read
(client/client_secure_channel.go:1867-1898), and Hello/Acknowledge. -/
namespace Opcua.Frame
open Opcua.Channel (Out Status u32At)

/-- The connection: the segments the network delivers, in order. A call `conn.Read(p)` takes at
most `len(p)` bytes of the first segment; what is left stays for the next call. The end of the
list is the end of the stream (`io.EOF`). Every behaviour of a stream socket that returns at least
one byte per call is some list of non-empty segments. -/
abbrev Conn := List Bytes

/-- The inner loop `for num < count { n, err = conn.Read(p[num:count]) … }`: `k` bytes still to
be read. -/
def readLoop (k : Nat) (acc : Bytes) : Conn → Out (Bytes × Conn)
  | [] => if k = 0 then .ok (acc, []) else .err .badSecureChannelClosed
  | seg :: rest =>
    if k = 0 then .ok (acc, seg :: rest)
    else if seg.length ≤ k then readLoop (k - seg.length) (acc ++ seg) rest
    else .ok (acc ++ seg.take k, seg.drop k :: rest)

/-- read(p) with `cap(p) = cap`, together with the check of its result by the caller
(`err != nil || count == 0` → BadSecureChannelClosed, server_secure_channel.go:1054-1057).
`p[num:count]` with `count = 8 > cap(p)` is a run-time panic. -/
def readFrame (cap : Nat) (conn : Conn) : Out (Bytes × Conn) :=
  if cap < 8 then .panic
  else match readLoop 8 [] conn with
    | .err s => .err s
    | .panic => .panic
    | .ok (h, conn) =>
      let count := leVal ((h.drop 4).take 4)
      if count > cap then .err .badSecureChannelClosed
      else readLoop (count - 8) h conn

/-- All frames up to the first failure, with a bound on their number. -/
def readFrames (cap : Nat) : Nat → Conn → List Bytes × Bool
  | 0, _ => ([], true)
  | n + 1, conn =>
    match readFrame cap conn with
    | .ok (f, conn) => let r := readFrames cap n conn; (f :: r.1, r.2)
    | _ => ([], false)

/-! ### Hello -/

/-- The sizes the two sides announce (Part 6, 7.1.2). -/
structure Hello where
  receive : BitVec 32
  send : BitVec 32
  maxMessage : BitVec 32
  maxChunks : BitVec 32
deriving Repr, DecidableEq

/-- Server side after Hello, server_secure_channel.go:242-260: buffer sizes; the response limits
are taken over from the client; the request limits are the server's own. -/
structure Negotiated where
  receive : BitVec 32
  send : BitVec 32
  maxResponseMessage : BitVec 32
  maxResponseChunks : BitVec 32
deriving Repr, DecidableEq

def negotiate (maxBufferSize : BitVec 32) (h : Hello) : Negotiated :=
  { receive := if maxBufferSize > h.send then h.send else maxBufferSize
    send := if maxBufferSize > h.receive then h.receive else maxBufferSize
    maxResponseMessage := h.maxMessage
    maxResponseChunks := h.maxChunks }

/-! ### Token lifetime -/

def minTokenLifetime : BitVec 32 := 300000#32
def maxTokenLifetime : BitVec 32 := 3600000#32

/-- server_secure_channel.go:348-354, 1482-1488 -/
def reviseLifetime (requested : BitVec 32) : BitVec 32 :=
  let r := requested
  let r := if r > maxTokenLifetime then maxTokenLifetime else r
  if r < minTokenLifetime then minTokenLifetime else r

/-- `RevisedLifetime*75/100` in uint32, client_secure_channel.go:463, 1780: milliseconds from the
arrival of the response to the renewal. -/
def renewalDelay (revised : BitVec 32) : BitVec 32 := revised * 75#32 / 100#32

end Opcua.Frame
