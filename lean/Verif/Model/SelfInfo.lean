/-!
# What the server says about itself

server/server.go:506-742 and 855-857 (initializeNamespace), ua/server_capabilites.go, server/option.go:26-40,
212-218, and the checks of the number of operations in server/server_service_set.go.

Simplifications: a node is its number in namespace 0; the address space is a map from these numbers to the
variables of the node set, with what reading the Value attribute gives; nodes that are not variables are there
only to be deleted. Deleting a node takes away that node (the children that go with it, and the references, are in
Model/AddressSpace.lean). The timestamps of the values are not modelled. Times are natural numbers. The numbers of
nodes are those the constants have in ua/nodeids.generated.go. The handlers of the diagnostics (server.go:743-853)
are in Model/Diagnostics.lean; the methods (859-957) in Model/Call.lean; the references to the modelling rules
(708-725) and the four naming rules (726-737), whose nodes are not in the node set, are left out.
-/

namespace Opcua.SelfInfo

/-- ua/server_capabilites.go:34-47 -/
structure Limits where
  read : Nat := 1000
  historyReadData : Nat := 1000
  historyReadEvents : Nat := 1000
  write : Nat := 1000
  historyUpdateData : Nat := 1000
  historyUpdateEvents : Nat := 1000
  methodCall : Nat := 1000
  browse : Nat := 1000
  registerNodes : Nat := 1000
  translate : Nat := 1000
  nodeManagement : Nat := 1000
  monitoredItems : Nat := 1000
  deriving DecidableEq, Repr

/-- ua/server_capabilites.go:4-15 with the defaults of 18-31 and 50-65. `limits` is a pointer. -/
structure Caps where
  locales : List String := ["en"]
  maxString : Nat := 4096
  maxArray : Nat := 4096
  maxByteString : Nat := 4096
  browsePoints : Nat := 10
  historyPoints : Nat := 100
  queryPoints : Nat := 0
  sampleRate : Rat := 100
  profiles : List String := ["http://opcfoundation.org/UA-Profile/Server/StandardUA2017",
    "http://opcfoundation.org/UAProfile/Server/Methods"]
  limits : Option Limits := some {}
  deriving DecidableEq, Repr

/-- ua.BuildInfo -/
structure BuildInfo where
  productUri : String := ""
  manufacturerName : String := ""
  productName : String := ""
  softwareVersion : String := ""
  buildNumber : String := ""
  buildDate : Nat := 0
  deriving DecidableEq, Repr

/-- What the options and the defaults give, server.go:98-131. `caps` is a pointer. -/
structure Config where
  caps : Option Caps := some {}
  build : BuildInfo := {}
  startTime : Nat := 0
  diagnostics : Bool := true
  historian : Bool := false
  deriving DecidableEq, Repr

/-- What changes while the server runs: its state, the shutdown (server.go:288-340), the clock and the tables of
URIs. -/
structure Live where
  state : Nat := 7
  now : Nat := 0
  seconds : Nat := 0
  reason : String × String := ("", "")
  namespaces : List String := []
  servers : List String := []
  deriving DecidableEq, Repr

/-- ua.ServerStatusDataType -/
structure ServerStatus where
  startTime : Nat
  currentTime : Nat
  state : Nat
  build : BuildInfo
  seconds : Nat
  reason : String × String
  deriving DecidableEq, Repr

/-- The values that are given, by their Go type. -/
inductive Val where
  | bool (b : Bool)
  | byte (n : Nat)
  | uint16 (n : Nat)
  | uint32 (n : Nat)
  | int32 (n : Int)
  | double (x : Rat)
  | string (s : String)
  | strings (l : List String)
  | time (t : Nat)
  | text (t : String × String)
  | build (b : BuildInfo)
  | status (s : ServerStatus)
  deriving DecidableEq, Repr

/-- Where the value of a variable comes from: what the node set gives (`none` if nothing), SetValue, or a handler
that is asked at every read. -/
inductive Source where
  | file (v : Option Val)
  | set (v : Val)
  | handler (f : Live → Val)

/-- server_service_set.go:6086-6101: a handler is asked, otherwise the stored value is read. -/
def Source.read (live : Live) : Source → Option Val
  | .file v => v
  | .set v => some v
  | .handler f => some (f live)

abbrev Space := Nat → Option Source

/-- FindVariable and SetValue or SetReadValueHandler: nothing if there is no such node. -/
def Space.put (s : Space) (id : Nat) (src : Source) : Space :=
  fun k => if k = id then (s id).map fun _ => src else s k

/-- FindNode and DeleteNode. -/
def Space.delete (s : Space) (id : Nat) : Space := fun k => if k = id then none else s k

/-- What initializeNamespace does to a node. -/
inductive Act where
  | set (f : Config → Caps → Limits → Val)
  | handler (f : Config → Live → Val)
  | delete

/-- server.go:549-561 -/
def statusOf (c : Config) (l : Live) : ServerStatus :=
  { startTime := c.startTime, currentTime := l.now, state := l.state, build := c.build, seconds := l.seconds,
    reason := l.reason }

/-- server.go:511-537 -/
def actsHead : List (Nat × Act) :=
  [(2994, .set fun _ _ _ => .bool false),
   (12886, .delete), (12749, .delete),
   (2267, .set fun _ _ _ => .byte 255),
   (3709, .set fun _ _ _ => .int32 0),
   (11312, .delete), (11313, .delete), (14415, .delete), (11314, .delete)]

/-- server.go:539-605 -/
def actsStatus : List (Nat × Act) :=
  [(2255, .handler fun _ l => .strings l.namespaces),
   (2254, .handler fun _ l => .strings l.servers),
   (2256, .handler fun c l => .status (statusOf c l)),
   (2259, .handler fun _ l => .int32 l.state),
   (2258, .handler fun _ l => .time l.now),
   (2992, .handler fun _ l => .uint32 l.seconds),
   (2993, .handler fun _ l => .text l.reason),
   (2257, .set fun c _ _ => .time c.startTime),
   (2260, .set fun c _ _ => .build c.build),
   (2262, .set fun c _ _ => .string c.build.productUri),
   (2263, .set fun c _ _ => .string c.build.manufacturerName),
   (2261, .set fun c _ _ => .string c.build.productName),
   (2264, .set fun c _ _ => .string c.build.softwareVersion),
   (2265, .set fun c _ _ => .string c.build.buildNumber),
   (2266, .set fun c _ _ => .time c.build.buildDate)]

/-- server.go:606-632 -/
def actsCaps : List (Nat × Act) :=
  [(2271, .set fun _ p _ => .strings p.locales),
   (11703, .set fun _ p _ => .uint32 p.maxString),
   (11702, .set fun _ p _ => .uint32 p.maxArray),
   (12911, .set fun _ p _ => .uint32 p.maxByteString),
   (2735, .set fun _ p _ => .uint16 p.browsePoints),
   (2737, .set fun _ p _ => .uint16 p.historyPoints),
   (2736, .set fun _ p _ => .uint16 p.queryPoints),
   (2272, .set fun _ p _ => .double p.sampleRate),
   (2269, .set fun _ p _ => .strings p.profiles)]

/-- server.go:633-671 -/
def actsHistory : List (Nat × Act) :=
  [(11193, .set fun _ _ _ => .bool false),
   (11196, .set fun _ _ _ => .bool false),
   (11197, .set fun _ _ _ => .bool false),
   (11198, .set fun _ _ _ => .bool false),
   (11199, .set fun _ _ _ => .bool false),
   (11200, .set fun _ _ _ => .bool false),
   (11242, .set fun _ _ _ => .bool false),
   (11273, .set fun _ _ _ => .bool false),
   (11274, .set fun _ _ _ => .bool false),
   (11275, .set fun _ _ _ => .bool false),
   (11281, .set fun _ _ _ => .bool false),
   (11282, .set fun _ _ _ => .bool false),
   (11283, .set fun _ _ _ => .bool false)]

/-- server.go:672-707 -/
def actsLimits : List (Nat × Act) :=
  [(11714, .set fun _ _ m => .uint32 m.monitoredItems),
   (11710, .set fun _ _ m => .uint32 m.browse),
   (12165, .set fun _ _ m => .uint32 m.historyReadData),
   (12166, .set fun _ _ m => .uint32 m.historyReadEvents),
   (12167, .set fun _ _ m => .uint32 m.historyUpdateData),
   (12168, .set fun _ _ m => .uint32 m.historyUpdateEvents),
   (11709, .set fun _ _ m => .uint32 m.methodCall),
   (11713, .set fun _ _ m => .uint32 m.nodeManagement),
   (11705, .set fun _ _ m => .uint32 m.read),
   (11711, .set fun _ _ m => .uint32 m.registerNodes),
   (11712, .set fun _ _ m => .uint32 m.translate),
   (11707, .set fun _ _ m => .uint32 m.write)]

/-- server.go:739-742 and 855-857 -/
def actsTail : List (Nat × Act) :=
  [(2294, .set fun c _ _ => .bool c.diagnostics), (2289, .delete)]

/-- initializeNamespace after the node set is loaded, in order. -/
def acts : List (Nat × Act) :=
  actsHead ++ (actsStatus ++ (actsCaps ++ (actsHistory ++ (actsLimits ++ actsTail))))

def apply (c : Config) (p : Caps) (m : Limits) (s : Space) (a : Nat × Act) : Space :=
  match a.2 with
  | .set f => s.put a.1 (.set (f c p m))
  | .handler f => s.put a.1 (.handler (f c))
  | .delete => s.delete a.1

/-- New and initializeNamespace. `none` is the panic on a nil pointer: `srv.serverCapabilities` nil (scheduler.go:19
and session.go:132 read it too), or `OperationLimits` nil while a variable of the limits is there
(server.go:672-707). -/
def initNamespace (c : Config) (s : Space) : Option Space :=
  match c.caps with
  | none => none
  | some p =>
    match p.limits with
    | some m => some (acts.foldl (apply c p m) s)
    | none =>
      if actsLimits.any fun a => (s a.1).isSome then none
      else some ((actsHead ++ (actsStatus ++ (actsCaps ++ (actsHistory ++ actsTail)))).foldl (apply c p {}) s)

/-- What a client reads. -/
def read (s : Space) (live : Live) (id : Nat) : Option Val := (s id).bind (·.read live)

/-! ## The limits -/

/-- The services that take lists of operations. -/
inductive Service where
  | browse | browseNext | translate | registerNodes | unregisterNodes | read | write | historyReadData
  | historyReadEvents | call | createItems | modifyItems | setMonitoringMode | deleteItems | setTriggering
  deriving DecidableEq, Repr

/-- The limit each handler compares with. server_service_set.go:1182 (Browse), 1446 (BrowseNext), 1631
(TranslateBrowsePathsToNodeIds), 1814 (RegisterNodes), 1946 (UnregisterNodes), 2190 (Read), 2336 (Write), 2504
(HistoryRead, whatever its details), 3588 (Call), 3827, 4114, 4321, 4669 (monitored items). SetTriggering
(4369-4549) compares with nothing. -/
def limitOf (m : Limits) : Service → Option Nat
  | .browse => some m.browse
  | .browseNext => some m.browse
  | .translate => some m.translate
  | .registerNodes => some m.registerNodes
  | .unregisterNodes => some m.registerNodes
  | .read => some m.read
  | .write => some m.write
  | .historyReadData => some m.historyReadData
  | .historyReadEvents => some m.historyReadData
  | .call => some m.methodCall
  | .createItems => some m.monitoredItems
  | .modifyItems => some m.monitoredItems
  | .setMonitoringMode => some m.monitoredItems
  | .deleteItems => some m.monitoredItems
  | .setTriggering => none

inductive Fault where
  | badNothingToDo | badTooManyOperations
  deriving DecidableEq, Repr

/-- The checks of the number of operations, for example server_service_set.go:2168-2208. -/
def refuse (m : Limits) (v : Service) (n : Nat) : Option Fault :=
  if n = 0 then some .badNothingToDo
  else match limitOf m v with
    | some k => if n > k then some .badTooManyOperations else none
    | none => none

end Opcua.SelfInfo
