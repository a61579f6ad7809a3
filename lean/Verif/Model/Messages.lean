import Verif.Model.Structs

/-!
# The messages of the services

The tables are made by tools/gen_structs.py from the switches of the code; structures are numbered as in
Model/Structs.lean and ids are of namespace 0.
-/

namespace Opcua.Messages

/-- What `sendServiceRequest` writes in front of a request, client/client_secure_channel.go:911-1349. -/
def clientWrites : List (Nat × Nat) := [
  (252, 826) /- PublishRequest -/,
  (181, 631) /- ReadRequest -/,
  (146, 527) /- BrowseRequest -/,
  (148, 533) /- BrowseNextRequest -/,
  (155, 554) /- TranslateBrowsePathsToNodeIDsRequest -/,
  (198, 673) /- WriteRequest -/,
  (212, 712) /- CallRequest -/,
  (195, 664) /- HistoryReadRequest -/,
  (89, 428) /- GetEndpointsRequest -/,
  (99, 446) /- OpenSecureChannelRequest -/,
  (101, 452) /- CloseSecureChannelRequest -/,
  (105, 461) /- CreateSessionRequest -/,
  (112, 467) /- ActivateSessionRequest -/,
  (114, 473) /- CloseSessionRequest -/,
  (225, 751) /- CreateMonitoredItemsRequest -/,
  (235, 781) /- DeleteMonitoredItemsRequest -/,
  (237, 787) /- CreateSubscriptionRequest -/,
  (259, 847) /- DeleteSubscriptionsRequest -/,
  (241, 799) /- SetPublishingModeRequest -/,
  (229, 763) /- ModifyMonitoredItemsRequest -/,
  (231, 769) /- SetMonitoringModeRequest -/,
  (233, 775) /- SetTriggeringRequest -/,
  (239, 793) /- ModifySubscriptionRequest -/,
  (254, 832) /- RepublishRequest -/,
  (257, 841) /- TransferSubscriptionsRequest -/,
  (82, 422) /- FindServersRequest -/,
  (85, 12208) /- FindServersOnNetworkRequest -/,
  (92, 437) /- RegisterServerRequest -/,
  (96, 12211) /- RegisterServer2Request -/,
  (116, 479) /- CancelRequest -/,
  (131, 488) /- AddNodesRequest -/,
  (134, 494) /- AddReferencesRequest -/,
  (137, 500) /- DeleteNodesRequest -/,
  (140, 506) /- DeleteReferencesRequest -/,
  (157, 560) /- RegisterNodesRequest -/,
  (159, 566) /- UnregisterNodesRequest -/,
  (176, 615) /- QueryFirstRequest -/,
  (178, 621) /- QueryNextRequest -/,
  (208, 700) /- HistoryUpdateRequest -/]

/-- What `readRequest` makes of an id, server/server_secure_channel.go:1028-1468. -/
def serverReads : List (Nat × Nat) := [
  (252, 826) /- PublishRequest -/,
  (181, 631) /- ReadRequest -/,
  (146, 527) /- BrowseRequest -/,
  (148, 533) /- BrowseNextRequest -/,
  (155, 554) /- TranslateBrowsePathsToNodeIDsRequest -/,
  (198, 673) /- WriteRequest -/,
  (212, 712) /- CallRequest -/,
  (195, 664) /- HistoryReadRequest -/,
  (89, 428) /- GetEndpointsRequest -/,
  (99, 446) /- OpenSecureChannelRequest -/,
  (101, 452) /- CloseSecureChannelRequest -/,
  (105, 461) /- CreateSessionRequest -/,
  (112, 467) /- ActivateSessionRequest -/,
  (114, 473) /- CloseSessionRequest -/,
  (225, 751) /- CreateMonitoredItemsRequest -/,
  (235, 781) /- DeleteMonitoredItemsRequest -/,
  (237, 787) /- CreateSubscriptionRequest -/,
  (259, 847) /- DeleteSubscriptionsRequest -/,
  (241, 799) /- SetPublishingModeRequest -/,
  (229, 763) /- ModifyMonitoredItemsRequest -/,
  (231, 769) /- SetMonitoringModeRequest -/,
  (233, 775) /- SetTriggeringRequest -/,
  (239, 793) /- ModifySubscriptionRequest -/,
  (254, 832) /- RepublishRequest -/,
  (257, 841) /- TransferSubscriptionsRequest -/,
  (82, 422) /- FindServersRequest -/,
  (85, 12208) /- FindServersOnNetworkRequest -/,
  (92, 437) /- RegisterServerRequest -/,
  (96, 12211) /- RegisterServer2Request -/,
  (116, 479) /- CancelRequest -/,
  (131, 488) /- AddNodesRequest -/,
  (134, 494) /- AddReferencesRequest -/,
  (137, 500) /- DeleteNodesRequest -/,
  (140, 506) /- DeleteReferencesRequest -/,
  (157, 560) /- RegisterNodesRequest -/,
  (159, 566) /- UnregisterNodesRequest -/,
  (176, 615) /- QueryFirstRequest -/,
  (178, 621) /- QueryNextRequest -/,
  (208, 700) /- HistoryUpdateRequest -/]

/-- What `sendServiceResponse` writes in front of a response, server/server_secure_channel.go:619-1027. -/
def serverWrites : List (Nat × Nat) := [
  (253, 829) /- PublishResponse -/,
  (182, 634) /- ReadResponse -/,
  (147, 530) /- BrowseResponse -/,
  (149, 536) /- BrowseNextResponse -/,
  (156, 557) /- TranslateBrowsePathsToNodeIDsResponse -/,
  (199, 676) /- WriteResponse -/,
  (213, 715) /- CallResponse -/,
  (196, 667) /- HistoryReadResponse -/,
  (90, 431) /- GetEndpointsResponse -/,
  (106, 464) /- CreateSessionResponse -/,
  (113, 470) /- ActivateSessionResponse -/,
  (115, 476) /- CloseSessionResponse -/,
  (226, 754) /- CreateMonitoredItemsResponse -/,
  (236, 784) /- DeleteMonitoredItemsResponse -/,
  (238, 790) /- CreateSubscriptionResponse -/,
  (260, 850) /- DeleteSubscriptionsResponse -/,
  (242, 802) /- SetPublishingModeResponse -/,
  (79, 397) /- ServiceFault -/,
  (230, 766) /- ModifyMonitoredItemsResponse -/,
  (232, 772) /- SetMonitoringModeResponse -/,
  (234, 778) /- SetTriggeringResponse -/,
  (240, 796) /- ModifySubscriptionResponse -/,
  (255, 835) /- RepublishResponse -/,
  (258, 844) /- TransferSubscriptionsResponse -/,
  (83, 425) /- FindServersResponse -/,
  (86, 12209) /- FindServersOnNetworkResponse -/,
  (93, 440) /- RegisterServerResponse -/,
  (97, 12212) /- RegisterServer2Response -/,
  (117, 482) /- CancelResponse -/,
  (132, 491) /- AddNodesResponse -/,
  (135, 497) /- AddReferencesResponse -/,
  (138, 503) /- DeleteNodesResponse -/,
  (141, 509) /- DeleteReferencesResponse -/,
  (158, 563) /- RegisterNodesResponse -/,
  (160, 569) /- UnregisterNodesResponse -/,
  (177, 618) /- QueryFirstResponse -/,
  (179, 624) /- QueryNextResponse -/,
  (209, 703) /- HistoryUpdateResponse -/]

/-- What `readResponse` makes of an id, client/client_secure_channel.go:1368-1733. -/
def clientReads : List (Nat × Nat) := [
  (253, 829) /- PublishResponse -/,
  (182, 634) /- ReadResponse -/,
  (147, 530) /- BrowseResponse -/,
  (149, 536) /- BrowseNextResponse -/,
  (156, 557) /- TranslateBrowsePathsToNodeIDsResponse -/,
  (199, 676) /- WriteResponse -/,
  (213, 715) /- CallResponse -/,
  (196, 667) /- HistoryReadResponse -/,
  (90, 431) /- GetEndpointsResponse -/,
  (100, 449) /- OpenSecureChannelResponse -/,
  (102, 455) /- CloseSecureChannelResponse -/,
  (106, 464) /- CreateSessionResponse -/,
  (113, 470) /- ActivateSessionResponse -/,
  (115, 476) /- CloseSessionResponse -/,
  (226, 754) /- CreateMonitoredItemsResponse -/,
  (236, 784) /- DeleteMonitoredItemsResponse -/,
  (238, 790) /- CreateSubscriptionResponse -/,
  (260, 850) /- DeleteSubscriptionsResponse -/,
  (242, 802) /- SetPublishingModeResponse -/,
  (79, 397) /- ServiceFault -/,
  (230, 766) /- ModifyMonitoredItemsResponse -/,
  (232, 772) /- SetMonitoringModeResponse -/,
  (234, 778) /- SetTriggeringResponse -/,
  (240, 796) /- ModifySubscriptionResponse -/,
  (255, 835) /- RepublishResponse -/,
  (258, 844) /- TransferSubscriptionsResponse -/,
  (83, 425) /- FindServersResponse -/,
  (86, 12209) /- FindServersOnNetworkResponse -/,
  (93, 440) /- RegisterServerResponse -/,
  (97, 12212) /- RegisterServer2Response -/,
  (117, 482) /- CancelResponse -/,
  (132, 491) /- AddNodesResponse -/,
  (135, 497) /- AddReferencesResponse -/,
  (138, 503) /- DeleteNodesResponse -/,
  (141, 509) /- DeleteReferencesResponse -/,
  (158, 563) /- RegisterNodesResponse -/,
  (160, 569) /- UnregisterNodesResponse -/,
  (177, 618) /- QueryFirstResponse -/,
  (179, 624) /- QueryNextResponse -/,
  (209, 703) /- HistoryUpdateResponse -/]

/-- A service of the client, client/client_service_set.go: what it sends and the type to which it
asserts the response. -/
structure Method where
  name : String
  request : Nat
  response : Nat
  deriving DecidableEq, Repr

def methods : List Method := [
  ⟨"FindServers", 82, 83⟩ /- 13: FindServersRequest, FindServersResponse -/,
  ⟨"GetEndpoints", 89, 90⟩ /- 23: GetEndpointsRequest, GetEndpointsResponse -/,
  ⟨"createSession", 105, 106⟩ /- 133: CreateSessionRequest, CreateSessionResponse -/,
  ⟨"activateSession", 112, 113⟩ /- 143: ActivateSessionRequest, ActivateSessionResponse -/,
  ⟨"closeSession", 114, 115⟩ /- 153: CloseSessionRequest, CloseSessionResponse -/,
  ⟨"Cancel", 116, 117⟩ /- 163: CancelRequest, CancelResponse -/,
  ⟨"AddNodes", 131, 132⟩ /- 173: AddNodesRequest, AddNodesResponse -/,
  ⟨"AddReferences", 134, 135⟩ /- 183: AddReferencesRequest, AddReferencesResponse -/,
  ⟨"DeleteNodes", 137, 138⟩ /- 193: DeleteNodesRequest, DeleteNodesResponse -/,
  ⟨"DeleteReferences", 140, 141⟩ /- 203: DeleteReferencesRequest, DeleteReferencesResponse -/,
  ⟨"Browse", 146, 147⟩ /- 213: BrowseRequest, BrowseResponse -/,
  ⟨"BrowseNext", 148, 149⟩ /- 223: BrowseNextRequest, BrowseNextResponse -/,
  ⟨"TranslateBrowsePathsToNodeIDs", 155, 156⟩ /- 233: TranslateBrowsePathsToNodeIDsRequest, TranslateBrowsePathsToNodeIDsResponse -/,
  ⟨"RegisterNodes", 157, 158⟩ /- 243: RegisterNodesRequest, RegisterNodesResponse -/,
  ⟨"UnregisterNodes", 159, 160⟩ /- 253: UnregisterNodesRequest, UnregisterNodesResponse -/,
  ⟨"Read", 181, 182⟩ /- 263: ReadRequest, ReadResponse -/,
  ⟨"Write", 198, 199⟩ /- 273: WriteRequest, WriteResponse -/,
  ⟨"HistoryRead", 195, 196⟩ /- 283: HistoryReadRequest, HistoryReadResponse -/,
  ⟨"HistoryUpdate", 208, 209⟩ /- 293: HistoryUpdateRequest, HistoryUpdateResponse -/,
  ⟨"Call", 212, 213⟩ /- 303: CallRequest, CallResponse -/,
  ⟨"CreateMonitoredItems", 225, 226⟩ /- 313: CreateMonitoredItemsRequest, CreateMonitoredItemsResponse -/,
  ⟨"ModifyMonitoredItems", 229, 230⟩ /- 323: ModifyMonitoredItemsRequest, ModifyMonitoredItemsResponse -/,
  ⟨"SetMonitoringMode", 231, 232⟩ /- 333: SetMonitoringModeRequest, SetMonitoringModeResponse -/,
  ⟨"SetTriggering", 233, 234⟩ /- 343: SetTriggeringRequest, SetTriggeringResponse -/,
  ⟨"DeleteMonitoredItems", 235, 236⟩ /- 353: DeleteMonitoredItemsRequest, DeleteMonitoredItemsResponse -/,
  ⟨"CreateSubscription", 237, 238⟩ /- 363: CreateSubscriptionRequest, CreateSubscriptionResponse -/,
  ⟨"ModifySubscription", 239, 240⟩ /- 373: ModifySubscriptionRequest, ModifySubscriptionResponse -/,
  ⟨"SetPublishingMode", 241, 242⟩ /- 383: SetPublishingModeRequest, SetPublishingModeResponse -/,
  ⟨"Publish", 252, 253⟩ /- 393: PublishRequest, PublishResponse -/,
  ⟨"Republish", 254, 255⟩ /- 403: RepublishRequest, RepublishResponse -/,
  ⟨"TransferSubscriptions", 257, 258⟩ /- 413: TransferSubscriptionsRequest, TransferSubscriptionsResponse -/,
  ⟨"DeleteSubscriptions", 259, 260⟩ /- 423: DeleteSubscriptionsRequest, DeleteSubscriptionsResponse -/]

/-- `handleRequest`, server/server.go:430-505: the requests with a handler and the types of the responses that
the handler makes. Those to a PublishRequest are made in server/session.go and server/subscription.go too. -/
def handlers : List (Nat × List Nat) := [
  (252, [79, 253]) /- PublishRequest: handlePublish -/,
  (254, [79, 255]) /- RepublishRequest: handleRepublish -/,
  (181, [79, 182]) /- ReadRequest: handleRead -/,
  (198, [79, 199]) /- WriteRequest: handleWrite -/,
  (212, [79, 213]) /- CallRequest: handleCall -/,
  (146, [79, 147]) /- BrowseRequest: handleBrowse -/,
  (148, [79, 149]) /- BrowseNextRequest: handleBrowseNext -/,
  (155, [79, 156]) /- TranslateBrowsePathsToNodeIDsRequest: handleTranslateBrowsePathsToNodeIds -/,
  (237, [79, 238]) /- CreateSubscriptionRequest: handleCreateSubscription -/,
  (239, [79, 240]) /- ModifySubscriptionRequest: handleModifySubscription -/,
  (241, [79, 242]) /- SetPublishingModeRequest: handleSetPublishingMode -/,
  (259, [79, 260]) /- DeleteSubscriptionsRequest: handleDeleteSubscriptions -/,
  (225, [79, 226]) /- CreateMonitoredItemsRequest: handleCreateMonitoredItems -/,
  (229, [79, 230]) /- ModifyMonitoredItemsRequest: handleModifyMonitoredItems -/,
  (231, [79, 232]) /- SetMonitoringModeRequest: handleSetMonitoringMode -/,
  (235, [79, 236]) /- DeleteMonitoredItemsRequest: handleDeleteMonitoredItems -/,
  (195, [79, 196]) /- HistoryReadRequest: handleHistoryRead -/,
  (105, [79, 106]) /- CreateSessionRequest: handleCreateSession -/,
  (112, [79, 113]) /- ActivateSessionRequest: handleActivateSession -/,
  (114, [79, 115]) /- CloseSessionRequest: handleCloseSession -/,
  (99, [100]) /- OpenSecureChannelRequest: handleOpenSecureChannel -/,
  (101, []) /- CloseSecureChannelRequest: handleCloseSecureChannel -/,
  (82, [83]) /- FindServersRequest: findServers -/,
  (89, [90]) /- GetEndpointsRequest: getEndpoints -/,
  (157, [79, 158]) /- RegisterNodesRequest: handleRegisterNodes -/,
  (159, [79, 160]) /- UnregisterNodesRequest: handleUnregisterNodes -/,
  (233, [79, 234]) /- SetTriggeringRequest: handleSetTriggering -/,
  (116, [79, 117]) /- CancelRequest: handleCancel -/]

/-- ServiceFault -/
abbrev fault : Nat := 79

/-- The types of the responses to a request; a request without a handler gets a fault with
BadServiceUnsupported, server/server.go:488-503. -/
def replies (request : Nat) : List Nat :=
  match handlers.find? (fun h => h.1 == request) with
  | some h => h.2
  | none => [fault]

/-- The id under which a switch over types writes type `t`; in the default case it returns
BadEncodingError. -/
def idFor (table : List (Nat × Nat)) (t : Nat) : Option Nat := (table.find? (fun r => r.1 == t)).map (·.2)

/-- The type a switch over ids makes of `id`; in the default case it returns BadDecodingError. -/
def typeFor (table : List (Nat × Nat)) (id : Nat) : Option Nat := (table.find? (fun r => r.2 == id)).map (·.1)

/-- The body of a message: the id, then the structure (`bodyEncoder.Encode`). -/
def write (table : List (Nat × Nat)) (t : Nat) (fs : List Val) : Option Bytes :=
  match idFor table t with
  | none => none
  | some id =>
    match encode Structs.reg (.struct (Structs.reg.fieldsOf t)) (.struct fs) with
    | none => none
    | some e => some (writeNodeID (some (.numeric 0 (BitVec.ofNat 32 id))) ++ e)

/-- The number of an id of namespace 0; all ids of the switches are such. -/
def number : Option NodeID → Option Nat
  | some (.numeric ns n) => if ns = 0 then some n.toNat else none
  | _ => none

/-- Reading the body of a message: the id, then the structure it stands for. -/
def read (table : List (Nat × Nat)) (fuel : Nat) : Dec (Nat × Val) := do
  let id ← readNodeID
  match (number id).bind (typeFor table) with
  | none => Dec.fail
  | some t => do
    let v ← decode Structs.reg fuel (.struct (Structs.reg.fieldsOf t))
    return (t, v)

end Opcua.Messages
