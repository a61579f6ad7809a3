import Verif.Model.Subscription
import Verif.Model.MonitoredItem

/-!
# What the server shows about one subscription and one session

The counters of a subscription (server/subscription.go:28-63, 134-184, 305-649;
server/server_service_set.go:5520-5549; server/datachange_monitored_item.go:300-326) and the handlers
that show them: the structure and the variables below the node of a subscription
(server/subscription_manager.go:127-948), the array of the server (server/server.go:808-852), and the
same for a session (server/session_manager.go:106-1710).

The publishing of the subscription is Model/Subscription.lean, with the numbers of data changes and of
events of a message as its contents; the items are Model/MonitoredItem.lean. A service or a publishing
cycle is one step. Simplifications: what a message holds comes with the event and is not taken from
the items; the variables are read between the steps, although their handlers take no lock; numbers
that are not `uint32` (interval, priority, ids) are natural numbers.
-/

namespace Opcua.SubCounters

open Opcua

/-! ## The counters -/

variable {V : Type}

/-- `Subscription`, subscription.go:28-63. -/
structure Diag (V : Type) where
  sub : Subscription.Sub (Nat × Nat)
  items : MonitoredItem.State V
  session : Nat
  id : Nat
  priority : Nat
  interval : Nat
  maxNotifications : Nat
  modify : BitVec 32 := 0
  republishRequests : BitVec 32 := 0
  republishMessageRequests : BitVec 32 := 0
  republishMessages : BitVec 32 := 0
  data : BitVec 32 := 0
  event : BitVec 32 := 0
  notifications : BitVec 32 := 0
  late : BitVec 32 := 0
  unacknowledged : BitVec 32 := 0
  monitored : BitVec 32 := 0
  overflow : BitVec 32 := 0

/-- The loops over the notifications of the items, subscription.go:340-361 and 530-551: each adds one to
two counters. -/
def count (d : Diag V) (c : Nat × Nat) : Diag V :=
  { d with
    data := d.data + BitVec.ofNat 32 c.1
    event := d.event + BitVec.ofNat 32 c.2
    notifications := d.notifications + BitVec.ofNat 32 c.1 + BitVec.ofNat 32 c.2 }

/-- Sending notifications, subscription.go:327-413 and 515-605. The notifications are counted before
the message is written. -/
def sendData (d : Diag V) (c : Nat × Nat) (more : Bool) (results : List Subscription.AckStatus) (ok late : Bool) : Diag V :=
  let d := count d c
  let sub := Subscription.sendData d.sub c more results ok late
  if ok then
    { d with
      sub := sub
      unacknowledged := BitVec.ofNat 32 sub.queue.length
      late := if late then d.late + 1 else d.late }
  else { d with sub := sub }

/-- Sending a keep-alive, subscription.go:445-479 and 609-645. -/
def sendKeepAlive (d : Diag V) (results : List Subscription.AckStatus) (ok late : Bool) : Diag V :=
  let sub := Subscription.sendKeepAlive d.sub results ok
  if ok then
    { d with
      sub := sub
      unacknowledged := BitVec.ofNat 32 sub.queue.length
      late := if late then d.late + 1 else d.late }
  else { d with sub := sub }

/-- `publish`, subscription.go:305-500. -/
def cycle (d : Diag V) (data : Option ((Nat × Nat) × Bool)) (req : Subscription.Req) : Diag V :=
  match (if d.sub.enabled then data else none), req with
  | some (c, more), .some results ok => sendData d c more results ok false
  | some _, _ => { d with sub := Subscription.cycle d.sub data req }
  | none, .some results ok =>
    let d := { d with sub := { d.sub with keepAlive := d.sub.keepAlive + 1 } }
    if d.sub.keepAlive ≥ d.sub.maxKeepAlive ∨ d.sub.pubCount = 0 then sendKeepAlive d results ok false else d
  | none, _ => { d with sub := Subscription.cycle d.sub data req }

/-- `handleLatePublishRequest`, subscription.go:502-649. -/
def handleLate (d : Diag V) (data : Option ((Nat × Nat) × Bool)) (results : List Subscription.AckStatus) (ok : Bool) : Diag V :=
  if d.sub.isLate = false then d
  else
    match (if d.sub.enabled then data else none) with
    | some (c, more) => sendData d c more results ok true
    | none =>
      if d.sub.keepAlive ≥ d.sub.maxKeepAlive ∨ d.sub.pubCount = 0 then
        sendKeepAlive d (List.replicate results.length .good) ok true
      else d

/-- `handleRepublish`, server_service_set.go:5520-5549. -/
def republish (d : Diag V) (n : BitVec 32) (ok : Bool) : Diag V :=
  let r := Subscription.republish d.sub n ok
  { d with
    sub := r.1
    republishRequests := d.republishRequests + 1
    republishMessageRequests := d.republishMessageRequests + 1
    republishMessages := if r.2.isSome then d.republishMessages + 1 else d.republishMessages }

/-- What a service does to the counters of the items: `AppendItem` and `DeleteItem`,
subscription.go:134-163, and `enqueue`, datachange_monitored_item.go:300-326,
event_monitored_item.go:184-204. -/
def itemStep (d : Diag V) (e : MonitoredItem.Ev V) : Diag V :=
  let items := MonitoredItem.step d.items e
  match e with
  | .create id _ _ _ =>
    match MonitoredItem.find d.items.items id with
    | some _ => { d with items := items }
    | none => { d with items := items, monitored := d.monitored + 1 }
  | .delete id =>
    match MonitoredItem.find d.items.items id with
    | some _ => { d with items := items, monitored := d.monitored - 1 }
    | none => { d with items := items }
  | .sample id _ =>
    match MonitoredItem.find d.items.items id with
    | some i =>
      if i.mode ≠ .disabled ∧ i.queue.length ≥ i.size ∧ i.size > 1 then { d with items := items, overflow := d.overflow + 1 }
      else { d with items := items }
    | none => { d with items := items }
  | _ => { d with items := items }

inductive Ev (V : Type) where
  | cycle (data : Option ((Nat × Nat) × Bool)) (req : Subscription.Req)
  | late (data : Option ((Nat × Nat) × Bool)) (results : List Subscription.AckStatus) (ok : Bool)
  | ack (n : BitVec 32)
  | republish (n : BitVec 32) (ok : Bool)
  | setMode (enabled : Bool)
  | modify (maxLifetime maxKeepAlive interval maxNotifications priority : Nat)
  | item (e : MonitoredItem.Ev V)
  /-- the services on items set the counter of the lifetime back, server_service_set.go:3783, 4070, 4297,
  4462, 4645 -/
  | touch

/-- One step; a deleted subscription is not found by the services, and its goroutine ends. -/
def step (d : Diag V) (e : Ev V) : Diag V :=
  if d.sub.alive = false then d
  else
    match e with
    | .cycle data req => cycle d data req
    | .late data results ok => handleLate d data results ok
    -- subscription.go:268-280: `unacknowledgedMessageCount` stays as it is
    | .ack n => { d with sub := (Subscription.acknowledge d.sub n).1 }
    | .republish n ok => republish d n ok
    -- subscription.go:165-170
    | .setMode b => { d with sub := { d.sub with enabled := b, lifetime := 0 } }
    -- subscription.go:172-184
    | .modify l k i m p =>
      { d with
        sub := { d.sub with maxLifetime := l, maxKeepAlive := k, lifetime := 0 }
        interval := i, maxNotifications := m, priority := p, modify := d.modify + 1 }
    | .item e => itemStep d e
    | .touch => { d with sub := { d.sub with lifetime := 0 } }

def run (d : Diag V) (evs : List (Ev V)) : Diag V := evs.foldl step d

/-- `NewSubscription`, subscription.go:66-86. -/
def new (session id priority interval maxNotifications : Nat) (enabled : Bool) (maxLifetime maxKeepAlive : Nat) : Diag V :=
  { sub := Subscription.new enabled maxLifetime maxKeepAlive, items := MonitoredItem.init, session, id, priority,
    interval, maxNotifications }

/-! ## What the handlers return for a subscription -/

/-- The fields of `Subscription` that are shown. -/
inductive SubField where
  | sessionId | id | priority | publishingInterval | maxKeepAliveCount | maxLifetimeCount
  | maxNotificationsPerPublish | publishingEnabled | modifyCount | republishRequestCount
  | republishMessageRequestCount | republishMessageCount | publishRequestCount
  | dataChangeNotificationsCount | eventNotificationsCount | notificationsCount
  | latePublishRequestCount | keepAliveCount | lifetimeCount | unacknowledgedMessageCount
  | monitoredItemCount | disabledMonitoredItemCount | monitoringQueueOverflowCount
  | nextSequenceNumber
  deriving DecidableEq, Repr

/-- A field, or the constant `uint32(0)`. -/
inductive SubExpr where
  | f (x : SubField)
  | zero
  deriving DecidableEq, Repr

/-- The value of a field. -/
def SubField.get (d : Diag V) : SubField → Nat
  | .sessionId => d.session
  | .id => d.id
  | .priority => d.priority
  | .publishingInterval => d.interval
  | .maxKeepAliveCount => d.sub.maxKeepAlive
  | .maxLifetimeCount => d.sub.maxLifetime
  | .maxNotificationsPerPublish => d.maxNotifications
  | .publishingEnabled => if d.sub.enabled then 1 else 0
  | .modifyCount => d.modify.toNat
  | .republishRequestCount => d.republishRequests.toNat
  | .republishMessageRequestCount => d.republishMessageRequests.toNat
  | .republishMessageCount => d.republishMessages.toNat
  | .publishRequestCount => d.sub.pubCount.toNat
  | .dataChangeNotificationsCount => d.data.toNat
  | .eventNotificationsCount => d.event.toNat
  | .notificationsCount => d.notifications.toNat
  | .latePublishRequestCount => d.late.toNat
  | .keepAliveCount => d.sub.keepAlive
  | .lifetimeCount => d.sub.lifetime
  | .unacknowledgedMessageCount => d.unacknowledged.toNat
  | .monitoredItemCount => d.monitored.toNat
  | .disabledMonitoredItemCount => d.items.disabled.toNat
  | .monitoringQueueOverflowCount => d.overflow.toNat
  | .nextSequenceNumber => d.sub.nextSeq.toNat

def SubExpr.eval (d : Diag V) : SubExpr → Nat
  | .f x => x.get d
  | .zero => 0

/-- The variables below the variable of a subscription, with what their handlers return,
subscription_manager.go:197-941. -/
def subComponents : List (String × SubExpr) := [
  ("SessionId", .f .sessionId),
  ("SubscriptionId", .f .id),
  ("Priority", .f .priority),
  ("PublishingInterval", .f .publishingInterval),
  ("MaxKeepAliveCount", .f .maxKeepAliveCount),
  ("MaxLifetimeCount", .f .maxLifetimeCount),
  ("MaxNotificationsPerPublish", .f .maxNotificationsPerPublish),
  ("PublishingEnabled", .f .publishingEnabled),
  ("ModifyCount", .f .modifyCount),
  ("EnableCount", .zero),
  ("DisableCount", .zero),
  ("RepublishRequestCount", .f .republishRequestCount),
  ("RepublishMessageRequestCount", .f .republishMessageRequestCount),
  ("RepublishMessageCount", .f .republishMessageCount),
  ("TransferRequestCount", .zero),
  ("TransferredToAltClientCount", .zero),
  ("TransferredToSameClientCount", .zero),
  ("PublishRequestCount", .f .publishRequestCount),
  ("DataChangeNotificationsCount", .f .dataChangeNotificationsCount),
  ("EventNotificationsCount", .f .eventNotificationsCount),
  ("NotificationsCount", .f .notificationsCount),
  ("LatePublishRequestCount", .f .latePublishRequestCount),
  ("CurrentKeepAliveCount", .f .keepAliveCount),
  ("CurrentLifetimeCount", .f .lifetimeCount),
  ("UnacknowledgedMessageCount", .f .unacknowledgedMessageCount),
  ("DiscardedMessageCount", .zero),
  ("MonitoredItemCount", .f .monitoredItemCount),
  ("DisabledMonitoredItemCount", .f .disabledMonitoredItemCount),
  ("MonitoringQueueOverflowCount", .f .monitoringQueueOverflowCount),
  ("NextSequenceNumber", .f .nextSequenceNumber),
  ("EventQueueOverFlowCount", .zero)]

/-- The structure that the variable of a subscription returns, subscription_manager.go:158-193; the
fields that are commented out are zero. -/
def subStruct : List (String × SubExpr) := [
  ("SessionID", .f .sessionId),
  ("SubscriptionID", .f .id),
  ("Priority", .f .priority),
  ("PublishingInterval", .f .publishingInterval),
  ("MaxKeepAliveCount", .f .maxKeepAliveCount),
  ("MaxLifetimeCount", .f .maxLifetimeCount),
  ("MaxNotificationsPerPublish", .f .maxNotificationsPerPublish),
  ("PublishingEnabled", .f .publishingEnabled),
  ("ModifyCount", .f .modifyCount),
  ("EnableCount", .zero),
  ("DisableCount", .zero),
  ("RepublishRequestCount", .f .republishRequestCount),
  ("RepublishMessageRequestCount", .f .republishMessageRequestCount),
  ("RepublishMessageCount", .f .republishMessageCount),
  ("TransferRequestCount", .zero),
  ("TransferredToAltClientCount", .zero),
  ("TransferredToSameClientCount", .zero),
  ("PublishRequestCount", .f .publishRequestCount),
  ("DataChangeNotificationsCount", .f .dataChangeNotificationsCount),
  ("EventNotificationsCount", .f .eventNotificationsCount),
  ("NotificationsCount", .f .notificationsCount),
  ("LatePublishRequestCount", .f .latePublishRequestCount),
  ("CurrentKeepAliveCount", .f .keepAliveCount),
  ("CurrentLifetimeCount", .f .lifetimeCount),
  ("UnacknowledgedMessageCount", .f .unacknowledgedMessageCount),
  ("DiscardedMessageCount", .zero),
  ("MonitoredItemCount", .f .monitoredItemCount),
  ("DisabledMonitoredItemCount", .f .disabledMonitoredItemCount),
  ("MonitoringQueueOverflowCount", .f .monitoringQueueOverflowCount),
  ("NextSequenceNumber", .f .nextSequenceNumber),
  ("EventQueueOverFlowCount", .zero)]

/-- The same structure in `SubscriptionDiagnosticsArray` of the server, server.go:815-850. -/
def subArray : List (String × SubExpr) := [
  ("SessionID", .f .sessionId),
  ("SubscriptionID", .f .id),
  ("Priority", .f .priority),
  ("PublishingInterval", .f .publishingInterval),
  ("MaxKeepAliveCount", .f .maxKeepAliveCount),
  ("MaxLifetimeCount", .f .maxLifetimeCount),
  ("MaxNotificationsPerPublish", .f .maxNotificationsPerPublish),
  ("PublishingEnabled", .f .publishingEnabled),
  ("ModifyCount", .f .modifyCount),
  ("EnableCount", .zero),
  ("DisableCount", .zero),
  ("RepublishRequestCount", .f .republishRequestCount),
  ("RepublishMessageRequestCount", .f .republishMessageRequestCount),
  ("RepublishMessageCount", .f .republishMessageCount),
  ("TransferRequestCount", .zero),
  ("TransferredToAltClientCount", .zero),
  ("TransferredToSameClientCount", .zero),
  ("PublishRequestCount", .f .publishRequestCount),
  ("DataChangeNotificationsCount", .f .dataChangeNotificationsCount),
  ("EventNotificationsCount", .f .eventNotificationsCount),
  ("NotificationsCount", .f .notificationsCount),
  ("LatePublishRequestCount", .f .latePublishRequestCount),
  ("CurrentKeepAliveCount", .f .keepAliveCount),
  ("CurrentLifetimeCount", .f .lifetimeCount),
  ("UnacknowledgedMessageCount", .f .unacknowledgedMessageCount),
  ("DiscardedMessageCount", .zero),
  ("MonitoredItemCount", .f .monitoredItemCount),
  ("DisabledMonitoredItemCount", .f .disabledMonitoredItemCount),
  ("MonitoringQueueOverflowCount", .f .monitoringQueueOverflowCount),
  ("NextSequenceNumber", .f .nextSequenceNumber),
  ("EventQueueOverFlowCount", .zero)]

/-- What a client reads from the variable with a name below the node of a subscription. -/
def shown (d : Diag V) (name : String) : Option Nat :=
  (subComponents.find? (fun r => r.1 == name)).map (fun r => r.2.eval d)

/-! ## What the handlers return for a session -/

/-- The fields of `Session` that are shown, session.go:29-110. -/
inductive SesField where
  | sessionId | sessionName | clientDescription | serverUri | endpointURL | localeIds | timeout
  | maxResponseMessageSize | timeCreated | lastAccess | requestCount | errorCount
  | unauthorizedRequestCount | readCount | readErrorCount | historyReadCount
  | historyReadErrorCount | writeCount | writeErrorCount | historyUpdateCount
  | historyUpdateErrorCount | callCount | callErrorCount | createMonitoredItemsCount
  | createMonitoredItemsErrorCount | modifyMonitoredItemsCount | modifyMonitoredItemsErrorCount
  | setMonitoringModeCount | setMonitoringModeErrorCount | setTriggeringCount
  | setTriggeringErrorCount | deleteMonitoredItemsCount | deleteMonitoredItemsErrorCount
  | createSubscriptionCount | createSubscriptionErrorCount | modifySubscriptionCount
  | modifySubscriptionErrorCount | setPublishingModeCount | setPublishingModeErrorCount
  | publishCount | publishErrorCount | republishCount | republishErrorCount
  | transferSubscriptionsCount | transferSubscriptionsErrorCount | deleteSubscriptionsCount
  | deleteSubscriptionsErrorCount | addNodesCount | addNodesErrorCount | addReferencesCount
  | addReferencesErrorCount | deleteNodesCount | deleteNodesErrorCount | deleteReferencesCount
  | deleteReferencesErrorCount | browseCount | browseErrorCount | browseNextCount
  | browseNextErrorCount | translateBrowsePathsToNodeIdsCount
  | translateBrowsePathsToNodeIdsErrorCount | queryFirstCount | queryFirstErrorCount
  | queryNextCount | queryNextErrorCount | registerNodesCount | registerNodesErrorCount
  | unregisterNodesCount | unregisterNodesErrorCount
  deriving DecidableEq, Repr

/-- What a handler returns: a field, a pair of counters, the number of subscriptions of the session, the
number of their items, the number of queued publish requests. -/
inductive SesExpr where
  | f (x : SesField)
  | counter (total error : SesField)
  | subs
  | items
  | queued
  deriving DecidableEq, Repr

/-- A session as far as it is shown: its fields, the numbers of items of its subscriptions, and the length
of its queue. -/
structure Ses where
  get : SesField → Nat
  subs : List Nat
  queued : Nat

inductive SesVal where
  | num (n : Nat)
  | counter (total error : Nat)
  deriving DecidableEq, Repr

/-- Lines 146-152 and 461-490 count the subscriptions and their items in the same way. -/
def SesExpr.eval (s : Ses) : SesExpr → SesVal
  | .f x => .num (s.get x)
  | .counter t e => .counter (s.get t) (s.get e)
  | .subs => .num s.subs.length
  | .items => .num s.subs.sum
  | .queued => .num s.queued

/-- The variables below `SessionDiagnostics`, session_manager.go:199-1238. -/
def sesComponents : List (String × SesExpr) := [
  ("SessionId", .f .sessionId),
  ("SessionName", .f .sessionName),
  ("ClientDescription", .f .clientDescription),
  ("ServerUri", .f .serverUri),
  ("EndpointUrl", .f .endpointURL),
  ("LocaleIds", .f .localeIds),
  ("ActualSessionTimeout", .f .timeout),
  ("MaxResponseMessageSize", .f .maxResponseMessageSize),
  ("ClientConnectionTime", .f .timeCreated),
  ("ClientLastContactTime", .f .lastAccess),
  ("CurrentSubscriptionsCount", .subs),
  ("CurrentMonitoredItemsCount", .items),
  ("CurrentPublishRequestsInQueue", .queued),
  ("TotalRequestCount", .counter .requestCount .errorCount),
  ("UnauthorizedRequestCount", .f .unauthorizedRequestCount),
  ("ReadCount", .counter .readCount .readErrorCount),
  ("HistoryReadCount", .counter .historyReadCount .historyReadErrorCount),
  ("WriteCount", .counter .writeCount .writeErrorCount),
  ("HistoryUpdateCount", .counter .historyUpdateCount .historyUpdateErrorCount),
  ("CallCount", .counter .callCount .callErrorCount),
  ("CreateMonitoredItemsCount", .counter .createMonitoredItemsCount .createMonitoredItemsErrorCount),
  ("ModifyMonitoredItemsCount", .counter .modifyMonitoredItemsCount .modifyMonitoredItemsErrorCount),
  ("SetMonitoringModeCount", .counter .setMonitoringModeCount .setMonitoringModeErrorCount),
  ("SetTriggeringCount", .counter .setTriggeringCount .setTriggeringErrorCount),
  ("DeleteMonitoredItemsCount", .counter .deleteMonitoredItemsCount .deleteMonitoredItemsErrorCount),
  ("CreateSubscriptionCount", .counter .createSubscriptionCount .createSubscriptionErrorCount),
  ("ModifySubscriptionCount", .counter .modifySubscriptionCount .modifySubscriptionErrorCount),
  ("SetPublishingModeCount", .counter .setPublishingModeCount .setPublishingModeErrorCount),
  ("PublishCount", .counter .publishCount .publishErrorCount),
  ("RepublishCount", .counter .republishCount .republishErrorCount),
  ("TransferSubscriptionsCount", .counter .transferSubscriptionsCount .transferSubscriptionsErrorCount),
  ("DeleteSubscriptionsCount", .counter .deleteSubscriptionsCount .deleteSubscriptionsErrorCount),
  ("AddNodesCount", .counter .addNodesCount .addNodesErrorCount),
  ("AddReferencesCount", .counter .addReferencesCount .addReferencesErrorCount),
  ("DeleteNodesCount", .counter .deleteNodesCount .deleteNodesErrorCount),
  ("DeleteReferencesCount", .counter .deleteReferencesCount .deleteReferencesErrorCount),
  ("BrowseCount", .counter .browseCount .browseErrorCount),
  ("BrowseNextCount", .counter .browseNextCount .browseNextErrorCount),
  ("TranslateBrowsePathsToNodeIdsCount", .counter .translateBrowsePathsToNodeIdsCount .translateBrowsePathsToNodeIdsErrorCount),
  ("QueryFirstCount", .counter .queryFirstCount .queryFirstErrorCount),
  ("QueryNextCount", .counter .queryNextCount .queryNextErrorCount),
  ("RegisterNodesCount", .counter .registerNodesCount .registerNodesErrorCount),
  ("UnregisterNodesCount", .counter .unregisterNodesCount .unregisterNodesErrorCount)]

/-- The structure that `SessionDiagnostics` returns, session_manager.go:145-198. -/
def sesStruct : List (String × SesExpr) := [
  ("SessionID", .f .sessionId),
  ("SessionName", .f .sessionName),
  ("ClientDescription", .f .clientDescription),
  ("ServerURI", .f .serverUri),
  ("EndpointURL", .f .endpointURL),
  ("LocaleIDs", .f .localeIds),
  ("ActualSessionTimeout", .f .timeout),
  ("MaxResponseMessageSize", .f .maxResponseMessageSize),
  ("ClientConnectionTime", .f .timeCreated),
  ("ClientLastContactTime", .f .lastAccess),
  ("CurrentSubscriptionsCount", .subs),
  ("CurrentMonitoredItemsCount", .items),
  ("CurrentPublishRequestsInQueue", .queued),
  ("TotalRequestCount", .counter .requestCount .errorCount),
  ("UnauthorizedRequestCount", .f .unauthorizedRequestCount),
  ("ReadCount", .counter .readCount .readErrorCount),
  ("HistoryReadCount", .counter .historyReadCount .historyReadErrorCount),
  ("WriteCount", .counter .writeCount .writeErrorCount),
  ("HistoryUpdateCount", .counter .historyUpdateCount .historyUpdateErrorCount),
  ("CallCount", .counter .callCount .callErrorCount),
  ("CreateMonitoredItemsCount", .counter .createMonitoredItemsCount .createMonitoredItemsErrorCount),
  ("ModifyMonitoredItemsCount", .counter .modifyMonitoredItemsCount .modifyMonitoredItemsErrorCount),
  ("SetMonitoringModeCount", .counter .setMonitoringModeCount .setMonitoringModeErrorCount),
  ("SetTriggeringCount", .counter .setTriggeringCount .setTriggeringErrorCount),
  ("DeleteMonitoredItemsCount", .counter .deleteMonitoredItemsCount .deleteMonitoredItemsErrorCount),
  ("CreateSubscriptionCount", .counter .createSubscriptionCount .createSubscriptionErrorCount),
  ("ModifySubscriptionCount", .counter .modifySubscriptionCount .modifySubscriptionErrorCount),
  ("SetPublishingModeCount", .counter .setPublishingModeCount .setPublishingModeErrorCount),
  ("PublishCount", .counter .publishCount .publishErrorCount),
  ("RepublishCount", .counter .republishCount .republishErrorCount),
  ("TransferSubscriptionsCount", .counter .transferSubscriptionsCount .transferSubscriptionsErrorCount),
  ("DeleteSubscriptionsCount", .counter .deleteSubscriptionsCount .deleteSubscriptionsErrorCount),
  ("AddNodesCount", .counter .addNodesCount .addNodesErrorCount),
  ("AddReferencesCount", .counter .addReferencesCount .addReferencesErrorCount),
  ("DeleteNodesCount", .counter .deleteNodesCount .deleteNodesErrorCount),
  ("DeleteReferencesCount", .counter .deleteReferencesCount .deleteReferencesErrorCount),
  ("BrowseCount", .counter .browseCount .browseErrorCount),
  ("BrowseNextCount", .counter .browseNextCount .browseNextErrorCount),
  ("TranslateBrowsePathsToNodeIDsCount", .counter .translateBrowsePathsToNodeIdsCount .translateBrowsePathsToNodeIdsErrorCount),
  ("QueryFirstCount", .counter .queryFirstCount .queryFirstErrorCount),
  ("QueryNextCount", .counter .queryNextCount .queryNextErrorCount),
  ("RegisterNodesCount", .counter .registerNodesCount .registerNodesErrorCount),
  ("UnregisterNodesCount", .counter .unregisterNodesCount .unregisterNodesErrorCount)]

/-- The names of the variables below `SessionSecurityDiagnostics`, session_manager.go:1297-1680. -/
def securityComponents : List String := ["SessionId", "ClientUserIdOfSession", "ClientUserIdHistory",
  "AuthenticationMechanism", "Encoding", "TransportProtocol", "SecurityMode", "SecurityPolicyURI", "ClientCertificate"]

/-- What `SubscriptionDiagnosticsArray` of a session returns, session_manager.go:1702-1704: an empty
array whatever the subscriptions. -/
def sessionArray (_subs : List (Diag V)) : List (List (String × Nat)) := []

/-- What `SubscriptionDiagnosticsArray` of the server returns, server.go:809-852. -/
def serverArray (enabled : Bool) (subs : List (Diag V)) : Option (List (List (String × Nat))) :=
  if !enabled then none else some (subs.map (fun d => subArray.map (fun r => (r.1, r.2.eval d))))

end Opcua.SubCounters
