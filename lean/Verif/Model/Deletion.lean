import Verif.Model.Browse

/-!
# Deleting nodes, with everything that holds on to them

server/namespace_manager.go:348-555: the table of nodes maps ids to node objects. The objects live on when
they are taken out of the table: whoever has a pointer still has the object, its references and its
listeners. Therefore nodes are numbered here (a pointer is a number), unlike in Model/AddressSpace.lean.

Simplifications: those of Model/AddressSpace.lean; a node has one attribute that is read and written, its
value; a Browse name and the users who may browse it are kept for Browse, but Read, Write and Call ask for
the node only (their checks are in Model/Access.lean, Model/Write.lean and Model/Call.lean). The application
does not call SetReferences itself. A call that looks for children takes a number of rounds; if they are not
enough, it has not returned (it may never), and the state stays as it was.
-/

namespace Opcua.Deletion

open AddressSpace (Id Ref Node Space exempt isBack protectedId childTypes serverObject hasNotifier)

/-- A node object: ObjectNode (object_node.go:12-25), VariableNode (variable_node.go:10-31) and so on. The
listeners are `subs`, object_node.go:24. -/
structure Obj where
  id : Id
  node : Node
  value : Nat := 0
  listeners : List Nat := []

/-- What an item watches: a data item has `itemToMonitor` (datachange_monitored_item.go:252, 269, 405), an
event item has `node` (event_monitored_item.go:286). -/
inductive Item where
  | data (id : Id)
  | event (p : Nat)
  deriving DecidableEq, Repr

structure State where
  objs : Nat → Obj
  table : Id → Option Nat
  items : Nat → Option Item

/-- The address space that the services see. -/
def State.space (st : State) : Space := fun x => (st.table x).map (fun p => (st.objs p).node)

def setObj (st : State) (p : Nat) (o : Obj) : State :=
  { st with objs := fun q => if q = p then o else st.objs q }

def setTable (st : State) (x : Id) (v : Option Nat) : State :=
  { st with table := fun y => if y = x then v else st.table y }

/-- SetReferences, object_node.go:105-109 and in the other classes. -/
def setRefs (st : State) (p : Nat) (refs : List Ref) : State :=
  setObj st p { st.objs p with node := { (st.objs p).node with refs := refs } }

/-- One reference of an added node, namespace_manager.go:355-379. -/
def linkBack (p : Nat) (st : State) (r : Ref) : State :=
  if exempt r then st
  else
    match st.table r.target with
    | none => st
    | some q =>
      if (st.objs q).node.refs.any (isBack (st.objs p).id r) then st
      else setRefs st q ((st.objs q).node.refs ++ [⟨r.type, !r.inverse, (st.objs p).id⟩])

/-- addNodes, namespace_manager.go:348-382. -/
def addNodes (st : State) (ps : List Nat) : State :=
  let st := ps.foldl (fun st p => setTable st (st.objs p).id (some p)) st
  ps.foldl (fun st p => (st.objs p).node.refs.foldl (linkBack p) st) st

/-- One reference of a node that is deleted, namespace_manager.go:422-438. -/
def unlinkBack (p : Nat) (st : State) (r : Ref) : State :=
  if exempt r then st
  else
    match st.table r.target with
    | none => st
    | some q => setRefs st q ((st.objs q).node.refs.filter (fun tr => !isBack (st.objs p).id r tr))

/-- deleteNodeandInverseReferences, namespace_manager.go:419-444. -/
def deleteObj (st : State) (p : Nat) : State :=
  setTable ((st.objs p).node.refs.foldl (unlinkBack p) st) (st.objs p).id none

/-- The nodes that GetChildren visits next from a node, namespace_manager.go:588-595. -/
def kids (st : State) (p : Nat) : List Nat :=
  (st.objs p).node.refs.filterMap (fun r =>
    if !r.inverse && childTypes.contains r.type then st.table r.target else none)

/-- GetChildren, namespace_manager.go:575-598, with a number of rounds. -/
def childrenLoop (st : State) : Nat → List Nat → List Nat → Option (List Nat)
  | _, [], out => some out
  | 0, _ :: _, _ => none
  | k + 1, p :: queue, out => childrenLoop st k (queue ++ kids st p) (out ++ kids st p)

def getChildren (st : State) (rounds : Nat) (p : Nat) : Option (List Nat) := childrenLoop st rounds [p] []

/-- One round of the outer loop of DeleteNodes, namespace_manager.go:405-415: the inner loop deletes all the
nodes in every round. -/
def deleteRound (children : Bool) (rounds : Nat) (ps : List Nat) (st : State) (p : Nat) : Option State :=
  if children then
    match getChildren st rounds p with
    | none => none
    | some cs => some (ps.foldl deleteObj (cs.foldl deleteObj st))
  else some (ps.foldl deleteObj st)

def deleteRounds (children : Bool) (rounds : Nat) (ps : List Nat) : State → List Nat → Option State
  | st, [] => some st
  | st, p :: more =>
    match deleteRound children rounds ps st p with
    | none => none
    | some st' => deleteRounds children rounds ps st' more

/-- DeleteNodes, namespace_manager.go:402-417, and DeleteNode, 448-450. -/
def deleteNodes (st : State) (children : Bool) (rounds : Nat) (ps : List Nat) : Option State :=
  deleteRounds children rounds ps st ps

/-- DeleteNodeByID, namespace_manager.go:497-514. -/
def deleteByID (st : State) (x : Id) : State :=
  if protectedId x then st
  else
    match st.table x with
    | none => st
    | some p => deleteObj st p

/-- DeleteNodeByIDRecursive, namespace_manager.go:519-555. -/
def deleteRecursive (st : State) (rounds : Nat) (x : Id) : Option State :=
  if protectedId x then some st
  else
    match st.table x with
    | none => some st
    | some p =>
      match getChildren st rounds p with
      | none => none
      | some cs => some (deleteObj ((cs.filter (fun q => !protectedId (st.objs q).id)).foldl deleteObj st) p)

/-- OnEvent, namespace_manager.go:601-621, from a node object; ObjectNode.OnEvent tells the listeners,
object_node.go:117-123. Each listener with the event's node. -/
def raise (st : State) : Nat → Nat → List Nat
  | 0, _ => []
  | k + 1, p =>
    if (st.objs p).id = serverObject then (st.objs p).listeners
    else
      (st.objs p).listeners ++
      match (st.objs p).node.refs.find? (fun r => r.inverse && decide (r.type = hasNotifier)) with
      | none => []
      | some r =>
        match st.table r.target with
        | some q => if (st.objs q).node.cls = 1 then raise st k q else []
        | none => []

inductive Ev where
  /-- AddNodes of the application -/
  | add (ps : List Nat)
  /-- DeleteNode and DeleteNodes of the application -/
  | delete (ps : List Nat) (children : Bool) (rounds : Nat)
  | deleteByID (x : Id)
  | deleteRecursive (x : Id) (rounds : Nat)
  /-- SetValue of the application on an object that it has -/
  | set (p : Nat) (v : Nat)
  | read (x : Id)
  | write (x : Id) (v : Nat)
  | call (obj method : Id)
  | browse (user : Nat) (d : Browse.Description)
  | translate (x : Id) (path : List Browse.Step)
  /-- CreateMonitoredItems for the value -/
  | monitor (i : Nat) (x : Id)
  /-- CreateMonitoredItems for events -/
  | listen (i : Nat) (x : Id)
  /-- a data item is sampled -/
  | sample (i : Nat)
  /-- the application raises an event at an object that it has -/
  | raise (p : Nat) (e : Nat) (rounds : Nat)

/-- What comes back. `none` and `false`: the node is unknown. -/
inductive Out where
  | value (x : Id) (v : Option Nat)
  | wrote (x : Id) (ok : Bool)
  | called (obj method : Id) (ok : Bool)
  | browsed (d : Browse.Description) (r : Browse.Result)
  | path (x : Id) (s : Browse.PathStatus) (ts : List Browse.Target)
  | created (i : Nat) (x : Id) (ok : Bool)
  | sampled (i : Nat) (x : Id) (v : Option Nat)
  | heard (i : Nat) (e : Nat)
  deriving DecidableEq, Repr

/-- readValue as far as the node is concerned, server_service_set.go:6073-6076. -/
def readValue (st : State) (x : Id) : Option Nat := (st.table x).map (fun p => (st.objs p).value)

/-- writeValue, server_service_set.go:5573-5576. -/
def write (st : State) (x : Id) (v : Nat) : State × Bool :=
  match st.table x with
  | none => (st, false)
  | some p => (setObj st p { st.objs p with value := v }, true)

/-- handleCreateMonitoredItems, server_service_set.go:3851-3855, 3901-3950; startMonitoring,
event_monitored_item.go:282-289. -/
def create (st : State) (i : Nat) (x : Id) (events : Bool) : State × Bool :=
  match st.table x with
  | none => (st, false)
  | some p =>
    let st := { st with items := fun j => if j = i then some (if events then .event p else .data x) else st.items j }
    (if events then setObj st p { st.objs p with listeners := (st.objs p).listeners ++ [i] } else st, true)

/-- The poll of a data item, datachange_monitored_item.go:405. -/
def sample (st : State) (i : Nat) : List Out :=
  match st.items i with
  | some (.data x) => [.sampled i x (readValue st x)]
  | _ => []

def step (st : State) : Ev → State × List Out
  | .add ps => (addNodes st ps, [])
  | .delete ps children rounds => ((deleteNodes st children rounds ps).getD st, [])
  | .deleteByID x => (deleteByID st x, [])
  | .deleteRecursive x rounds => ((deleteRecursive st rounds x).getD st, [])
  | .set p v => (setObj st p { st.objs p with value := v }, [])
  | .read x => (st, [.value x (readValue st x)])
  | .write x v => ((write st x v).1, [.wrote x (write st x v).2])
  /- handleCall, server_service_set.go:3620, 3640. -/
  | .call obj method => (st, [.called obj method ((st.table obj).isSome && (st.table method).isSome)])
  | .browse user d => (st, [.browsed d (Browse.browse st.space user d)])
  | .translate x path => (st, [.path x (Browse.translate st.space x path).1 (Browse.translate st.space x path).2])
  | .monitor i x => ((create st i x false).1, [.created i x (create st i x false).2])
  | .listen i x => ((create st i x true).1, [.created i x (create st i x true).2])
  | .sample i => (st, sample st i)
  | .raise p e rounds => (st, (raise st rounds p).map (fun i => .heard i e))

def run (st : State) (evs : List Ev) : State := evs.foldl (fun st e => (step st e).1) st

/-- All that comes back. -/
def outs : State → List Ev → List Out
  | _, [] => []
  | st, e :: evs => (step st e).2 ++ outs (step st e).1 evs

/-- The objects that the application has made, none of them in the table yet. -/
def start (objs : Nat → Obj) : State := ⟨objs, fun _ => none, fun _ => none⟩

end Opcua.Deletion
