import Verif.Model.Access

/-! The Call service with the built-in methods GetMonitoredItems and ResendData (server/server.go:859-957,
server/server_service_set.go:3612-3669). The guards of Call are `Access.call`. Methods of applications are an
uninterpreted function of the arguments; a handler that panics is left out. The items of a subscription are listed in
the order in which the loop over the map visits them. -/

namespace Opcua.Call

open Opcua.AddressSpace (Id)
open Opcua.Access (Identity)

/-- An input argument, as the type assertion `.(uint32)` sees it. -/
inductive Arg where
  | u32 (n : BitVec 32)
  | other (k : Nat)
  deriving DecidableEq, Repr

inductive Status where
  | good | badArgumentsMissing | badTooManyArguments | badInvalidArgument | badSubscriptionIDInvalid
  | badUserAccessDenied
  /-- a status of the guards of Call -/
  | guarded (st : Access.Status)
  /-- the answer of a method of the application -/
  | custom (k : Nat)
  deriving DecidableEq, Repr

/-- ua.CallMethodResult: status, whether each argument has the wrong type, output arguments. -/
structure Result where
  status : Status
  mismatch : List Bool := []
  outputs : List (List Nat) := []
  deriving DecidableEq, Repr

/-- A monitored item: its id and the handle of the client. -/
structure Item where
  id : Nat
  handle : Nat
  deriving DecidableEq, Repr

/-- A subscription: the session that owns it, its items, and the flag of resendData. -/
structure Sub where
  id : BitVec 32
  owner : Nat
  items : List Item
  resend : Bool
  deriving DecidableEq, Repr

/-- SubscriptionManager.Get -/
def get (t : List Sub) (id : BitVec 32) : Option Sub := t.find? (fun s => decide (s.id = id))

/-- The check of the arguments both methods begin with, server.go:861-883, 935-952: the subscription, or the answer. -/
def subscriptionOf (t : List Sub) (session : Option Nat) (args : List Arg) : Except Result Sub :=
  match args with
  | [] => .error ⟨.badArgumentsMissing, [], []⟩
  | [.u32 id] =>
    match get t id with
    | none => .error ⟨.badSubscriptionIDInvalid, [], []⟩
    | some s => if session = some s.owner then .ok s else .error ⟨.badUserAccessDenied, [], []⟩
  | [.other _] => .error ⟨.badInvalidArgument, [true], []⟩
  | _ => .error ⟨.badTooManyArguments, [], []⟩

/-- The handler of GetMonitoredItems, server.go:859-893. -/
def getMonitoredItems (t : List Sub) (session : Option Nat) (args : List Arg) : Result :=
  match subscriptionOf t session args with
  | .error r => r
  | .ok s => ⟨.good, [], [s.items.map Item.id, s.items.map Item.handle]⟩

/-- resendData, subscription.go:651-656 -/
def setResend (t : List Sub) (id : BitVec 32) : List Sub :=
  t.map (fun s => if s.id = id then { s with resend := true } else s)

/-- The handler of ResendData, server.go:931-957. -/
def resendData (t : List Sub) (session : Option Nat) (args : List Arg) : List Sub × Result :=
  match subscriptionOf t session args with
  | .error r => (t, r)
  | .ok s => (setResend t s.id, ⟨.good, [], []⟩)

/-- What handles a method. -/
inductive Handler where
  | getMonitoredItems
  | resendData
  | custom (f : List Arg → Nat)

structure World where
  access : Access.Server
  handlers : Id → Handler
  /-- the HasComponent references from objects to methods, which Call does not look at (server_service_set.go:3650) -/
  components : List (Id × Id)
  subs : List Sub

/-- One item of Call, server_service_set.go:3619-3668. -/
def call (w : World) (user : Identity) (session : Nat) (object method : Id) (args : List Arg) : World × Result :=
  match Access.call w.access user object method with
  | .status st => (w, ⟨.guarded st, [], []⟩)
  | .runs _ m =>
    match w.handlers m with
    | .getMonitoredItems => (w, getMonitoredItems w.subs (some session) args)
    | .resendData =>
      let (t, r) := resendData w.subs (some session) args
      ({ w with subs := t }, r)
    | .custom f => (w, ⟨.custom (f args), [], []⟩)

end Opcua.Call
