/-! Revision of requested timing parameters: the session timeout
(server/server_service_set.go:213-219) and the parameters of a subscription
(server/subscription.go:186-266). Finite float64 values are rationals and products and quotients
are exact; the rounding of float64 is not modelled. -/
namespace Opcua.Revise

/-- A float64 value. -/
inductive F64 where
  | nan
  | negInf
  | posInf
  | fin (q : Rat)
deriving Repr, DecidableEq

/-- `a < b`; false when one of them is NaN. -/
def F64.lt : F64 → F64 → Bool
  | .nan, _ => false
  | _, .nan => false
  | .negInf, .negInf => false
  | .negInf, _ => true
  | _, .negInf => false
  | .posInf, _ => false
  | _, .posInf => true
  | .fin a, .fin b => decide (a < b)

/-- minSessionTimeout, maxSessionTimeout (server/server.go) in milliseconds. -/
abbrev minSessionTimeout : Rat := 10000
abbrev maxSessionTimeout : Rat := 3600000

/-- server_service_set.go:213-219. -/
def sessionTimeout (req : F64) : F64 :=
  let t := req
  let t := if t.lt (.fin minSessionTimeout) then .fin minSessionTimeout else t
  let t := if F64.lt (.fin maxSessionTimeout) t then .fin maxSessionTimeout else t
  t

/-- `int64(f)` as amd64 computes it: truncation, and the smallest int64 for NaN and values out of
range. -/
def toInt64 : F64 → Int
  | .fin q => if -(2 : Rat) ^ 63 ≤ q ∧ q < (2 : Rat) ^ 63 then (if 0 ≤ q then q.floor else q.ceil) else -(2 ^ 63)
  | _ => -(2 ^ 63)

/-- IsExpired, server/session.go:145-149, `idle` being the milliseconds since the last access. -/
def isExpired (idle : Nat) (timeout : F64) : Bool := decide ((idle : Int) > toInt64 timeout)

/-- subscription.go:16-19, milliseconds. -/
abbrev minPublishingInterval : Rat := 125
abbrev maxPublishingInterval : Rat := 60000
abbrev minLifetime : Rat := 10000
abbrev maxLifetime : Rat := 3600000

/-- setPublishingInterval, subscription.go:186-197. -/
def publishingInterval (req : F64) : F64 :=
  let p := req
  let p := if p = .nan then .fin minPublishingInterval else p
  let p := if p.lt (.fin minPublishingInterval) then .fin minPublishingInterval else p
  let p := if F64.lt (.fin maxPublishingInterval) p then .fin maxPublishingInterval else p
  p

/-- `uint32(a / i)`, plus one if `math.Mod(a, i) != 0`. -/
def countFor (a i : Rat) : Nat :=
  let n := (a / i).floor.toNat
  if (n : Rat) * i ≠ a then n + 1 else n

/-- setMaxKeepAliveCount, subscription.go:199-224. -/
def maxKeepAliveCount (i : Rat) (req : Nat) : Nat :=
  let n := if req = 0 then 3 else req
  let n := if (n : Rat) * i > maxLifetime then countFor maxLifetime i else n
  if (n : Rat) * i > maxPublishingInterval then countFor maxPublishingInterval i else n

/-- setLifetimeCount, subscription.go:226-258. `none` as interval stands for MaxFloat64. -/
def lifetimeCount (i : Rat) (keepAlive req : Nat) : Nat :=
  let n := if (req : Rat) * i > maxLifetime then countFor maxLifetime i else req
  if keepAlive < (2 ^ 32 - 1) / 3 then
    let n := if keepAlive * 3 > n then keepAlive * 3 else n
    if minLifetime > i ∧ minLifetime > (n : Rat) * i then countFor minLifetime i else n
  else 2 ^ 32 - 1

/-- setMaxNotificationsPerPublish, subscription.go:260-266. -/
def maxNotifications (req : Nat) : Nat := if req > 0 then req else 2 ^ 31 - 1

end Opcua.Revise
