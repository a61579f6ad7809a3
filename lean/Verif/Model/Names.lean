/-!
# Texts of status codes and names of enumeration values

ua/status_code.go:40, ua/status_code.generated.go (all constants with their comments, 7-496; `Error`, 499-995);
ua/enums.generated.go (the constants and the `String` method of each of the 45 types). Generated from those files in
their order; constants of the `case` labels are replaced by their values.
-/

namespace Opcua.Names

/-- Comment, name and value of the constants, ua/status_code.go:39-40 and ua/status_code.generated.go:7-496. -/
def statusConstants : List (String × String × Nat) := [
  ("The operation completed successfully.", "Good", 0x00000000),
  ("An unexpected error occurred.", "BadUnexpectedError", 0x80010000),
  ("An internal error occurred as a result of a programming or configuration error.", "BadInternalError", 0x80020000),
  ("Not enough memory to complete the operation.", "BadOutOfMemory", 0x80030000),
  ("An operating system resource is not available.", "BadResourceUnavailable", 0x80040000),
  ("A low level communication error occurred.", "BadCommunicationError", 0x80050000),
  ("Encoding halted because of invalid data in the objects being serialized.", "BadEncodingError", 0x80060000),
  ("Decoding halted because of invalid data in the stream.", "BadDecodingError", 0x80070000),
  ("The message encoding/decoding limits imposed by the stack have been exceeded.", "BadEncodingLimitsExceeded", 0x80080000),
  ("The request message size exceeds limits set by the server.", "BadRequestTooLarge", 0x80B80000),
  ("The response message size exceeds limits set by the client.", "BadResponseTooLarge", 0x80B90000),
  ("An unrecognized response was received from the server.", "BadUnknownResponse", 0x80090000),
  ("The operation timed out.", "BadTimeout", 0x800A0000),
  ("The server does not support the requested service.", "BadServiceUnsupported", 0x800B0000),
  ("The operation was cancelled because the application is shutting down.", "BadShutdown", 0x800C0000),
  ("The operation could not complete because the client is not connected to the server.", "BadServerNotConnected", 0x800D0000),
  ("The server has stopped and cannot process any requests.", "BadServerHalted", 0x800E0000),
  ("There was nothing to do because the client passed a list of operations with no elements.", "BadNothingToDo", 0x800F0000),
  ("The request could not be processed because it specified too many operations.", "BadTooManyOperations", 0x80100000),
  ("The request could not be processed because there are too many monitored items in the subscription.", "BadTooManyMonitoredItems", 0x80DB0000),
  ("The extension object cannot be (de)serialized because the data type id is not recognized.", "BadDataTypeIDUnknown", 0x80110000),
  ("The certificate provided as a parameter is not valid.", "BadCertificateInvalid", 0x80120000),
  ("An error occurred verifying security.", "BadSecurityChecksFailed", 0x80130000),
  ("The certificate does not meet the requirements of the security policy.", "BadCertificatePolicyCheckFailed", 0x81140000),
  ("The certificate has expired or is not yet valid.", "BadCertificateTimeInvalid", 0x80140000),
  ("An issuer certificate has expired or is not yet valid.", "BadCertificateIssuerTimeInvalid", 0x80150000),
  ("The HostName used to connect to a server does not match a HostName in the certificate.", "BadCertificateHostNameInvalid", 0x80160000),
  ("The URI specified in the ApplicationDescription does not match the URI in the certificate.", "BadCertificateURIInvalid", 0x80170000),
  ("The certificate may not be used for the requested operation.", "BadCertificateUseNotAllowed", 0x80180000),
  ("The issuer certificate may not be used for the requested operation.", "BadCertificateIssuerUseNotAllowed", 0x80190000),
  ("The certificate is not trusted.", "BadCertificateUntrusted", 0x801A0000),
  ("It was not possible to determine if the certificate has been revoked.", "BadCertificateRevocationUnknown", 0x801B0000),
  ("It was not possible to determine if the issuer certificate has been revoked.", "BadCertificateIssuerRevocationUnknown", 0x801C0000),
  ("The certificate has been revoked.", "BadCertificateRevoked", 0x801D0000),
  ("The issuer certificate has been revoked.", "BadCertificateIssuerRevoked", 0x801E0000),
  ("The certificate chain is incomplete.", "BadCertificateChainIncomplete", 0x810D0000),
  ("User does not have permission to perform the requested operation.", "BadUserAccessDenied", 0x801F0000),
  ("The user identity token is not valid.", "BadIdentityTokenInvalid", 0x80200000),
  ("The user identity token is valid but the server has rejected it.", "BadIdentityTokenRejected", 0x80210000),
  ("The specified secure channel is no longer valid.", "BadSecureChannelIDInvalid", 0x80220000),
  ("The timestamp is outside the range allowed by the server.", "BadInvalidTimestamp", 0x80230000),
  ("The nonce does appear to be not a random value or it is not the correct length.", "BadNonceInvalid", 0x80240000),
  ("The session id is not valid.", "BadSessionIDInvalid", 0x80250000),
  ("The session was closed by the client.", "BadSessionClosed", 0x80260000),
  ("The session cannot be used because ActivateSession has not been called.", "BadSessionNotActivated", 0x80270000),
  ("The subscription id is not valid.", "BadSubscriptionIDInvalid", 0x80280000),
  ("The header for the request is missing or invalid.", "BadRequestHeaderInvalid", 0x802A0000),
  ("The timestamps to return parameter is invalid.", "BadTimestampsToReturnInvalid", 0x802B0000),
  ("The request was cancelled by the client.", "BadRequestCancelledByClient", 0x802C0000),
  ("Too many arguments were provided.", "BadTooManyArguments", 0x80E50000),
  ("The server requires a license to operate in general or to perform a service or operation, but existing license is expired.", "BadLicenseExpired", 0x810E0000),
  ("The server has limits on number of allowed operations / objects, based on installed licenses, and these limits where exceeded.", "BadLicenseLimitsExceeded", 0x810F0000),
  ("The server does not have a license which is required to operate in general or to perform a service or operation.", "BadLicenseNotAvailable", 0x81100000),
  ("The subscription was transferred to another session.", "GoodSubscriptionTransferred", 0x002D0000),
  ("The processing will complete asynchronously.", "GoodCompletesAsynchronously", 0x002E0000),
  ("Sampling has slowed down due to resource limitations.", "GoodOverload", 0x002F0000),
  ("The value written was accepted but was clamped.", "GoodClamped", 0x00300000),
  ("Communication with the data source is defined, but not established, and there is no last known value available.", "BadNoCommunication", 0x80310000),
  ("Waiting for the server to obtain values from the underlying data source.", "BadWaitingForInitialData", 0x80320000),
  ("The syntax of the node id is not valid.", "BadNodeIDInvalid", 0x80330000),
  ("The node id refers to a node that does not exist in the server address space.", "BadNodeIDUnknown", 0x80340000),
  ("The attribute is not supported for the specified Node.", "BadAttributeIDInvalid", 0x80350000),
  ("The syntax of the index range parameter is invalid.", "BadIndexRangeInvalid", 0x80360000),
  ("No data exists within the range of indexes specified.", "BadIndexRangeNoData", 0x80370000),
  ("The data encoding is invalid.", "BadDataEncodingInvalid", 0x80380000),
  ("The server does not support the requested data encoding for the node.", "BadDataEncodingUnsupported", 0x80390000),
  ("The access level does not allow reading or subscribing to the Node.", "BadNotReadable", 0x803A0000),
  ("The access level does not allow writing to the Node.", "BadNotWritable", 0x803B0000),
  ("The value was out of range.", "BadOutOfRange", 0x803C0000),
  ("The requested operation is not supported.", "BadNotSupported", 0x803D0000),
  ("A requested item was not found or a search operation ended without success.", "BadNotFound", 0x803E0000),
  ("The object cannot be used because it has been deleted.", "BadObjectDeleted", 0x803F0000),
  ("Requested operation is not implemented.", "BadNotImplemented", 0x80400000),
  ("The monitoring mode is invalid.", "BadMonitoringModeInvalid", 0x80410000),
  ("The monitoring item id does not refer to a valid monitored item.", "BadMonitoredItemIDInvalid", 0x80420000),
  ("The monitored item filter parameter is not valid.", "BadMonitoredItemFilterInvalid", 0x80430000),
  ("The server does not support the requested monitored item filter.", "BadMonitoredItemFilterUnsupported", 0x80440000),
  ("A monitoring filter cannot be used in combination with the attribute specified.", "BadFilterNotAllowed", 0x80450000),
  ("A mandatory structured parameter was missing or null.", "BadStructureMissing", 0x80460000),
  ("The event filter is not valid.", "BadEventFilterInvalid", 0x80470000),
  ("The content filter is not valid.", "BadContentFilterInvalid", 0x80480000),
  ("An unrecognized operator was provided in a filter.", "BadFilterOperatorInvalid", 0x80C10000),
  ("A valid operator was provided, but the server does not provide support for this filter operator.", "BadFilterOperatorUnsupported", 0x80C20000),
  ("The number of operands provided for the filter operator was less then expected for the operand provided.", "BadFilterOperandCountMismatch", 0x80C30000),
  ("The operand used in a content filter is not valid.", "BadFilterOperandInvalid", 0x80490000),
  ("The referenced element is not a valid element in the content filter.", "BadFilterElementInvalid", 0x80C40000),
  ("The referenced literal is not a valid value.", "BadFilterLiteralInvalid", 0x80C50000),
  ("The continuation point provide is longer valid.", "BadContinuationPointInvalid", 0x804A0000),
  ("The operation could not be processed because all continuation points have been allocated.", "BadNoContinuationPoints", 0x804B0000),
  ("The reference type id does not refer to a valid reference type node.", "BadReferenceTypeIDInvalid", 0x804C0000),
  ("The browse direction is not valid.", "BadBrowseDirectionInvalid", 0x804D0000),
  ("The node is not part of the view.", "BadNodeNotInView", 0x804E0000),
  ("The number was not accepted because of a numeric overflow.", "BadNumericOverflow", 0x81120000),
  ("The ServerUri is not a valid URI.", "BadServerURIInvalid", 0x804F0000),
  ("No ServerName was specified.", "BadServerNameMissing", 0x80500000),
  ("No DiscoveryUrl was specified.", "BadDiscoveryURLMissing", 0x80510000),
  ("The semaphore file specified by the client is not valid.", "BadSempahoreFileMissing", 0x80520000),
  ("The security token request type is not valid.", "BadRequestTypeInvalid", 0x80530000),
  ("The security mode does not meet the requirements set by the server.", "BadSecurityModeRejected", 0x80540000),
  ("The security policy does not meet the requirements set by the server.", "BadSecurityPolicyRejected", 0x80550000),
  ("The server has reached its maximum number of sessions.", "BadTooManySessions", 0x80560000),
  ("The user token signature is missing or invalid.", "BadUserSignatureInvalid", 0x80570000),
  ("The signature generated with the client certificate is missing or invalid.", "BadApplicationSignatureInvalid", 0x80580000),
  ("The client did not provide at least one software certificate that is valid and meets the profile requirements for the server.", "BadNoValidCertificates", 0x80590000),
  ("The server does not support changing the user identity assigned to the session.", "BadIdentityChangeNotSupported", 0x80C60000),
  ("The request was cancelled by the client with the Cancel service.", "BadRequestCancelledByRequest", 0x805A0000),
  ("The parent node id does not to refer to a valid node.", "BadParentNodeIDInvalid", 0x805B0000),
  ("The reference could not be created because it violates constraints imposed by the data model.", "BadReferenceNotAllowed", 0x805C0000),
  ("The requested node id was reject because it was either invalid or server does not allow node ids to be specified by the client.", "BadNodeIDRejected", 0x805D0000),
  ("The requested node id is already used by another node.", "BadNodeIDExists", 0x805E0000),
  ("The node class is not valid.", "BadNodeClassInvalid", 0x805F0000),
  ("The browse name is invalid.", "BadBrowseNameInvalid", 0x80600000),
  ("The browse name is not unique among nodes that share the same relationship with the parent.", "BadBrowseNameDuplicated", 0x80610000),
  ("The node attributes are not valid for the node class.", "BadNodeAttributesInvalid", 0x80620000),
  ("The type definition node id does not reference an appropriate type node.", "BadTypeDefinitionInvalid", 0x80630000),
  ("The source node id does not reference a valid node.", "BadSourceNodeIDInvalid", 0x80640000),
  ("The target node id does not reference a valid node.", "BadTargetNodeIDInvalid", 0x80650000),
  ("The reference type between the nodes is already defined.", "BadDuplicateReferenceNotAllowed", 0x80660000),
  ("The server does not allow this type of self reference on this node.", "BadInvalidSelfReference", 0x80670000),
  ("The reference type is not valid for a reference to a remote server.", "BadReferenceLocalOnly", 0x80680000),
  ("The server will not allow the node to be deleted.", "BadNoDeleteRights", 0x80690000),
  ("The server was not able to delete all target references.", "UncertainReferenceNotDeleted", 0x40BC0000),
  ("The server index is not valid.", "BadServerIndexInvalid", 0x806A0000),
  ("The view id does not refer to a valid view node.", "BadViewIDUnknown", 0x806B0000),
  ("The view timestamp is not available or not supported.", "BadViewTimestampInvalid", 0x80C90000),
  ("The view parameters are not consistent with each other.", "BadViewParameterMismatch", 0x80CA0000),
  ("The view version is not available or not supported.", "BadViewVersionInvalid", 0x80CB0000),
  ("The list of references may not be complete because the underlying system is not available.", "UncertainNotAllNodesAvailable", 0x40C00000),
  ("The server should have followed a reference to a node in a remote server but did not. The result set may be incomplete.", "GoodResultsMayBeIncomplete", 0x00BA0000),
  ("The provided Nodeid was not a type definition nodeid.", "BadNotTypeDefinition", 0x80C80000),
  ("One of the references to follow in the relative path references to a node in the address space in another server.", "UncertainReferenceOutOfServer", 0x406C0000),
  ("The requested operation has too many matches to return.", "BadTooManyMatches", 0x806D0000),
  ("The requested operation requires too many resources in the server.", "BadQueryTooComplex", 0x806E0000),
  ("The requested operation has no match to return.", "BadNoMatch", 0x806F0000),
  ("The max age parameter is invalid.", "BadMaxAgeInvalid", 0x80700000),
  ("The operation is not permitted over the current secure channel.", "BadSecurityModeInsufficient", 0x80E60000),
  ("The history details parameter is not valid.", "BadHistoryOperationInvalid", 0x80710000),
  ("The server does not support the requested operation.", "BadHistoryOperationUnsupported", 0x80720000),
  ("The defined timestamp to return was invalid.", "BadInvalidTimestampArgument", 0x80BD0000),
  ("The server does not support writing the combination of value, status and timestamps provided.", "BadWriteNotSupported", 0x80730000),
  ("The value supplied for the attribute is not of the same type as the attribute's value.", "BadTypeMismatch", 0x80740000),
  ("The method id does not refer to a method for the specified object.", "BadMethodInvalid", 0x80750000),
  ("The client did not specify all of the input arguments for the method.", "BadArgumentsMissing", 0x80760000),
  ("The executable attribute does not allow the execution of the method.", "BadNotExecutable", 0x81110000),
  ("The server has reached its maximum number of subscriptions.", "BadTooManySubscriptions", 0x80770000),
  ("The server has reached the maximum number of queued publish requests.", "BadTooManyPublishRequests", 0x80780000),
  ("There is no subscription available for this session.", "BadNoSubscription", 0x80790000),
  ("The sequence number is unknown to the server.", "BadSequenceNumberUnknown", 0x807A0000),
  ("The requested notification message is no longer available.", "BadMessageNotAvailable", 0x807B0000),
  ("The client of the current session does not support one or more Profiles that are necessary for the subscription.", "BadInsufficientClientProfile", 0x807C0000),
  ("The sub-state machine is not currently active.", "BadStateNotActive", 0x80BF0000),
  ("An equivalent rule already exists.", "BadAlreadyExists", 0x81150000),
  ("The server cannot process the request because it is too busy.", "BadTCPServerTooBusy", 0x807D0000),
  ("The type of the message specified in the header invalid.", "BadTCPMessageTypeInvalid", 0x807E0000),
  ("The SecureChannelId and/or TokenId are not currently in use.", "BadTCPSecureChannelUnknown", 0x807F0000),
  ("The size of the message specified in the header is too large.", "BadTCPMessageTooLarge", 0x80800000),
  ("There are not enough resources to process the request.", "BadTCPNotEnoughResources", 0x80810000),
  ("An internal error occurred.", "BadTCPInternalError", 0x80820000),
  ("The server does not recognize the QueryString specified.", "BadTCPEndpointURLInvalid", 0x80830000),
  ("The request could not be sent because of a network interruption.", "BadRequestInterrupted", 0x80840000),
  ("Timeout occurred while processing the request.", "BadRequestTimeout", 0x80850000),
  ("The secure channel has been closed.", "BadSecureChannelClosed", 0x80860000),
  ("The token has expired or is not recognized.", "BadSecureChannelTokenUnknown", 0x80870000),
  ("The sequence number is not valid.", "BadSequenceNumberInvalid", 0x80880000),
  ("The applications do not have compatible protocol versions.", "BadProtocolVersionUnsupported", 0x80BE0000),
  ("There is a problem with the configuration that affects the usefulness of the value.", "BadConfigurationError", 0x80890000),
  ("The variable should receive its value from another variable, but has never been configured to do so.", "BadNotConnected", 0x808A0000),
  ("There has been a failure in the device/data source that generates the value that has affected the value.", "BadDeviceFailure", 0x808B0000),
  ("There has been a failure in the sensor from which the value is derived by the device/data source.", "BadSensorFailure", 0x808C0000),
  ("The source of the data is not operational.", "BadOutOfService", 0x808D0000),
  ("The deadband filter is not valid.", "BadDeadbandFilterInvalid", 0x808E0000),
  ("Communication to the data source has failed. The variable value is the last value that had a good quality.", "UncertainNoCommunicationLastUsableValue", 0x408F0000),
  ("Whatever was updating this value has stopped doing so.", "UncertainLastUsableValue", 0x40900000),
  ("The value is an operational value that was manually overwritten.", "UncertainSubstituteValue", 0x40910000),
  ("The value is an initial value for a variable that normally receives its value from another variable.", "UncertainInitialValue", 0x40920000),
  ("The value is at one of the sensor limits.", "UncertainSensorNotAccurate", 0x40930000),
  ("The value is outside of the range of values defined for this parameter.", "UncertainEngineeringUnitsExceeded", 0x40940000),
  ("The value is derived from multiple sources and has less than the required number of Good sources.", "UncertainSubNormal", 0x40950000),
  ("The value has been overridden.", "GoodLocalOverride", 0x00960000),
  ("This Condition refresh failed, a Condition refresh operation is already in progress.", "BadRefreshInProgress", 0x80970000),
  ("This condition has already been disabled.", "BadConditionAlreadyDisabled", 0x80980000),
  ("This condition has already been enabled.", "BadConditionAlreadyEnabled", 0x80CC0000),
  ("Property not available, this condition is disabled.", "BadConditionDisabled", 0x80990000),
  ("The specified event id is not recognized.", "BadEventIDUnknown", 0x809A0000),
  ("The event cannot be acknowledged.", "BadEventNotAcknowledgeable", 0x80BB0000),
  ("The dialog condition is not active.", "BadDialogNotActive", 0x80CD0000),
  ("The response is not valid for the dialog.", "BadDialogResponseInvalid", 0x80CE0000),
  ("The condition branch has already been acknowledged.", "BadConditionBranchAlreadyAcked", 0x80CF0000),
  ("The condition branch has already been confirmed.", "BadConditionBranchAlreadyConfirmed", 0x80D00000),
  ("The condition has already been shelved.", "BadConditionAlreadyShelved", 0x80D10000),
  ("The condition is not currently shelved.", "BadConditionNotShelved", 0x80D20000),
  ("The shelving time not within an acceptable range.", "BadShelvingTimeOutOfRange", 0x80D30000),
  ("No data exists for the requested time range or event filter.", "BadNoData", 0x809B0000),
  ("No data found to provide upper or lower bound value.", "BadBoundNotFound", 0x80D70000),
  ("The server cannot retrieve a bound for the variable.", "BadBoundNotSupported", 0x80D80000),
  ("Data is missing due to collection started/stopped/lost.", "BadDataLost", 0x809D0000),
  ("Expected data is unavailable for the requested time range due to an un-mounted volume, an off-line archive or tape, or similar reason for temporary unavailability.", "BadDataUnavailable", 0x809E0000),
  ("The data or event was not successfully inserted because a matching entry exists.", "BadEntryExists", 0x809F0000),
  ("The data or event was not successfully updated because no matching entry exists.", "BadNoEntryExists", 0x80A00000),
  ("The client requested history using a timestamp format the server does not support (i.e requested ServerTimestamp when server only supports SourceTimestamp).", "BadTimestampNotSupported", 0x80A10000),
  ("The data or event was successfully inserted into the historical database.", "GoodEntryInserted", 0x00A20000),
  ("The data or event field was successfully replaced in the historical database.", "GoodEntryReplaced", 0x00A30000),
  ("The value is derived from multiple values and has less than the required number of Good values.", "UncertainDataSubNormal", 0x40A40000),
  ("No data exists for the requested time range or event filter.", "GoodNoData", 0x00A50000),
  ("The data or event field was successfully replaced in the historical database.", "GoodMoreData", 0x00A60000),
  ("The requested number of Aggregates does not match the requested number of NodeIds.", "BadAggregateListMismatch", 0x80D40000),
  ("The requested Aggregate is not support by the server.", "BadAggregateNotSupported", 0x80D50000),
  ("The aggregate value could not be derived due to invalid data inputs.", "BadAggregateInvalidInputs", 0x80D60000),
  ("The aggregate configuration is not valid for specified node.", "BadAggregateConfigurationRejected", 0x80DA0000),
  ("The request specifies fields which are not valid for the EventType or cannot be saved by the historian.", "GoodDataIgnored", 0x00D90000),
  ("The request was rejected by the server because it did not meet the criteria set by the server.", "BadRequestNotAllowed", 0x80E40000),
  ("The request has not been processed by the server yet.", "BadRequestNotComplete", 0x81130000),
  ("The value does not come from the real source and has been edited by the server.", "GoodEdited", 0x00DC0000),
  ("There was an error in execution of these post-actions.", "GoodPostActionFailed", 0x00DD0000),
  ("The related EngineeringUnit has been changed but the Variable Value is still provided based on the previous unit.", "UncertainDominantValueChanged", 0x40DE0000),
  ("A dependent value has been changed but the change has not been applied to the device.", "GoodDependentValueChanged", 0x00E00000),
  ("The related EngineeringUnit has been changed but this change has not been applied to the device. The Variable Value is still dependent on the previous unit but its status is currently Bad.", "BadDominantValueChanged", 0x80E10000),
  ("A dependent value has been changed but the change has not been applied to the device. The quality of the dominant variable is uncertain.", "UncertainDependentValueChanged", 0x40E20000),
  ("A dependent value has been changed but the change has not been applied to the device. The quality of the dominant variable is Bad.", "BadDependentValueChanged", 0x80E30000),
  ("It is delivered with a dominant Variable value when a dependent Variable has changed but the change has not been applied.", "GoodEditedDependentValueChanged", 0x01160000),
  ("It is delivered with a dependent Variable value when a dominant Variable has changed but the change has not been applied.", "GoodEditedDominantValueChanged", 0x01170000),
  ("It is delivered with a dependent Variable value when a dominant or dependent Variable has changed but change has not been applied.", "GoodEditedDominantValueChangedDependentValueChanged", 0x01180000),
  ("It is delivered with a Variable value when Variable has changed but the value is not legal.", "BadEditedOutOfRange", 0x81190000),
  ("It is delivered with a Variable value when a source Variable has changed but the value is not legal.", "BadInitialValueOutOfRange", 0x811A0000),
  ("It is delivered with a dependent Variable value when a dominant Variable has changed and the value is not legal.", "BadOutOfRangeDominantValueChanged", 0x811B0000),
  ("It is delivered with a dependent Variable value when a dominant Variable has changed, the value is not legal and the change has not been applied.", "BadEditedOutOfRangeDominantValueChanged", 0x811C0000),
  ("It is delivered with a dependent Variable value when a dominant or dependent Variable has changed and the value is not legal.", "BadOutOfRangeDominantValueChangedDependentValueChanged", 0x811D0000),
  ("It is delivered with a dependent Variable value when a dominant or dependent Variable has changed, the value is not legal and the change has not been applied.", "BadEditedOutOfRangeDominantValueChangedDependentValueChanged", 0x811E0000),
  ("The communication layer has raised an event.", "GoodCommunicationEvent", 0x00A70000),
  ("The system is shutting down.", "GoodShutdownEvent", 0x00A80000),
  ("The operation is not finished and needs to be called again.", "GoodCallAgain", 0x00A90000),
  ("A non-critical timeout occurred.", "GoodNonCriticalTimeout", 0x00AA0000),
  ("One or more arguments are invalid.", "BadInvalidArgument", 0x80AB0000),
  ("Could not establish a network connection to remote server.", "BadConnectionRejected", 0x80AC0000),
  ("The server has disconnected from the client.", "BadDisconnect", 0x80AD0000),
  ("The network connection has been closed.", "BadConnectionClosed", 0x80AE0000),
  ("The operation cannot be completed because the object is closed, uninitialized or in some other invalid state.", "BadInvalidState", 0x80AF0000),
  ("Cannot move beyond end of the stream.", "BadEndOfStream", 0x80B00000),
  ("No data is currently available for reading from a non-blocking stream.", "BadNoDataAvailable", 0x80B10000),
  ("The asynchronous operation is waiting for a response.", "BadWaitingForResponse", 0x80B20000),
  ("The asynchronous operation was abandoned by the caller.", "BadOperationAbandoned", 0x80B30000),
  ("The stream did not return all data requested (possibly because it is a non-blocking stream).", "BadExpectedStreamToBlock", 0x80B40000),
  ("Non blocking behaviour is required and the operation would block.", "BadWouldBlock", 0x80B50000),
  ("A value had an invalid syntax.", "BadSyntaxError", 0x80B60000),
  ("The operation could not be finished because all available connections are in use.", "BadMaxConnectionsReached", 0x80B70000)]

/-- The cases of the switch in Error, ua/status_code.generated.go:500-991. -/
def errorCases : List (Nat × String) := [
  (0x00000000, "The operation completed successfully."),
  (0x80010000, "An unexpected error occurred."),
  (0x80020000, "An internal error occurred as a result of a programming or configuration error."),
  (0x80030000, "Not enough memory to complete the operation."),
  (0x80040000, "An operating system resource is not available."),
  (0x80050000, "A low level communication error occurred."),
  (0x80060000, "Encoding halted because of invalid data in the objects being serialized."),
  (0x80070000, "Decoding halted because of invalid data in the stream."),
  (0x80080000, "The message encoding/decoding limits imposed by the stack have been exceeded."),
  (0x80B80000, "The request message size exceeds limits set by the server."),
  (0x80B90000, "The response message size exceeds limits set by the client."),
  (0x80090000, "An unrecognized response was received from the server."),
  (0x800A0000, "The operation timed out."),
  (0x800B0000, "The server does not support the requested service."),
  (0x800C0000, "The operation was cancelled because the application is shutting down."),
  (0x800D0000, "The operation could not complete because the client is not connected to the server."),
  (0x800E0000, "The server has stopped and cannot process any requests."),
  (0x800F0000, "There was nothing to do because the client passed a list of operations with no elements."),
  (0x80100000, "The request could not be processed because it specified too many operations."),
  (0x80DB0000, "The request could not be processed because there are too many monitored items in the subscription."),
  (0x80110000, "The extension object cannot be (de)serialized because the data type id is not recognized."),
  (0x80120000, "The certificate provided as a parameter is not valid."),
  (0x80130000, "An error occurred verifying security."),
  (0x81140000, "The certificate does not meet the requirements of the security policy."),
  (0x80140000, "The certificate has expired or is not yet valid."),
  (0x80150000, "An issuer certificate has expired or is not yet valid."),
  (0x80160000, "The HostName used to connect to a server does not match a HostName in the certificate."),
  (0x80170000, "The URI specified in the ApplicationDescription does not match the URI in the certificate."),
  (0x80180000, "The certificate may not be used for the requested operation."),
  (0x80190000, "The issuer certificate may not be used for the requested operation."),
  (0x801A0000, "The certificate is not trusted."),
  (0x801B0000, "It was not possible to determine if the certificate has been revoked."),
  (0x801C0000, "It was not possible to determine if the issuer certificate has been revoked."),
  (0x801D0000, "The certificate has been revoked."),
  (0x801E0000, "The issuer certificate has been revoked."),
  (0x810D0000, "The certificate chain is incomplete."),
  (0x801F0000, "User does not have permission to perform the requested operation."),
  (0x80200000, "The user identity token is not valid."),
  (0x80210000, "The user identity token is valid but the server has rejected it."),
  (0x80220000, "The specified secure channel is no longer valid."),
  (0x80230000, "The timestamp is outside the range allowed by the server."),
  (0x80240000, "The nonce does appear to be not a random value or it is not the correct length."),
  (0x80250000, "The session id is not valid."),
  (0x80260000, "The session was closed by the client."),
  (0x80270000, "The session cannot be used because ActivateSession has not been called."),
  (0x80280000, "The subscription id is not valid."),
  (0x802A0000, "The header for the request is missing or invalid."),
  (0x802B0000, "The timestamps to return parameter is invalid."),
  (0x802C0000, "The request was cancelled by the client."),
  (0x80E50000, "Too many arguments were provided."),
  (0x810E0000, "The server requires a license to operate in general or to perform a service or operation, but existing license is expired."),
  (0x810F0000, "The server has limits on number of allowed operations / objects, based on installed licenses, and these limits where exceeded."),
  (0x81100000, "The server does not have a license which is required to operate in general or to perform a service or operation."),
  (0x002D0000, "The subscription was transferred to another session."),
  (0x002E0000, "The processing will complete asynchronously."),
  (0x002F0000, "Sampling has slowed down due to resource limitations."),
  (0x00300000, "The value written was accepted but was clamped."),
  (0x80310000, "Communication with the data source is defined, but not established, and there is no last known value available."),
  (0x80320000, "Waiting for the server to obtain values from the underlying data source."),
  (0x80330000, "The syntax of the node id is not valid."),
  (0x80340000, "The node id refers to a node that does not exist in the server address space."),
  (0x80350000, "The attribute is not supported for the specified Node."),
  (0x80360000, "The syntax of the index range parameter is invalid."),
  (0x80370000, "No data exists within the range of indexes specified."),
  (0x80380000, "The data encoding is invalid."),
  (0x80390000, "The server does not support the requested data encoding for the node."),
  (0x803A0000, "The access level does not allow reading or subscribing to the Node."),
  (0x803B0000, "The access level does not allow writing to the Node."),
  (0x803C0000, "The value was out of range."),
  (0x803D0000, "The requested operation is not supported."),
  (0x803E0000, "A requested item was not found or a search operation ended without success."),
  (0x803F0000, "The object cannot be used because it has been deleted."),
  (0x80400000, "Requested operation is not implemented."),
  (0x80410000, "The monitoring mode is invalid."),
  (0x80420000, "The monitoring item id does not refer to a valid monitored item."),
  (0x80430000, "The monitored item filter parameter is not valid."),
  (0x80440000, "The server does not support the requested monitored item filter."),
  (0x80450000, "A monitoring filter cannot be used in combination with the attribute specified."),
  (0x80460000, "A mandatory structured parameter was missing or null."),
  (0x80470000, "The event filter is not valid."),
  (0x80480000, "The content filter is not valid."),
  (0x80C10000, "An unrecognized operator was provided in a filter."),
  (0x80C20000, "A valid operator was provided, but the server does not provide support for this filter operator."),
  (0x80C30000, "The number of operands provided for the filter operator was less then expected for the operand provided."),
  (0x80490000, "The operand used in a content filter is not valid."),
  (0x80C40000, "The referenced element is not a valid element in the content filter."),
  (0x80C50000, "The referenced literal is not a valid value."),
  (0x804A0000, "The continuation point provide is longer valid."),
  (0x804B0000, "The operation could not be processed because all continuation points have been allocated."),
  (0x804C0000, "The reference type id does not refer to a valid reference type node."),
  (0x804D0000, "The browse direction is not valid."),
  (0x804E0000, "The node is not part of the view."),
  (0x81120000, "The number was not accepted because of a numeric overflow."),
  (0x804F0000, "The ServerUri is not a valid URI."),
  (0x80500000, "No ServerName was specified."),
  (0x80510000, "No DiscoveryUrl was specified."),
  (0x80520000, "The semaphore file specified by the client is not valid."),
  (0x80530000, "The security token request type is not valid."),
  (0x80540000, "The security mode does not meet the requirements set by the server."),
  (0x80550000, "The security policy does not meet the requirements set by the server."),
  (0x80560000, "The server has reached its maximum number of sessions."),
  (0x80570000, "The user token signature is missing or invalid."),
  (0x80580000, "The signature generated with the client certificate is missing or invalid."),
  (0x80590000, "The client did not provide at least one software certificate that is valid and meets the profile requirements for the server."),
  (0x80C60000, "The server does not support changing the user identity assigned to the session."),
  (0x805A0000, "The request was cancelled by the client with the Cancel service."),
  (0x805B0000, "The parent node id does not to refer to a valid node."),
  (0x805C0000, "The reference could not be created because it violates constraints imposed by the data model."),
  (0x805D0000, "The requested node id was reject because it was either invalid or server does not allow node ids to be specified by the client."),
  (0x805E0000, "The requested node id is already used by another node."),
  (0x805F0000, "The node class is not valid."),
  (0x80600000, "The browse name is invalid."),
  (0x80610000, "The browse name is not unique among nodes that share the same relationship with the parent."),
  (0x80620000, "The node attributes are not valid for the node class."),
  (0x80630000, "The type definition node id does not reference an appropriate type node."),
  (0x80640000, "The source node id does not reference a valid node."),
  (0x80650000, "The target node id does not reference a valid node."),
  (0x80660000, "The reference type between the nodes is already defined."),
  (0x80670000, "The server does not allow this type of self reference on this node."),
  (0x80680000, "The reference type is not valid for a reference to a remote server."),
  (0x80690000, "The server will not allow the node to be deleted."),
  (0x40BC0000, "The server was not able to delete all target references."),
  (0x806A0000, "The server index is not valid."),
  (0x806B0000, "The view id does not refer to a valid view node."),
  (0x80C90000, "The view timestamp is not available or not supported."),
  (0x80CA0000, "The view parameters are not consistent with each other."),
  (0x80CB0000, "The view version is not available or not supported."),
  (0x40C00000, "The list of references may not be complete because the underlying system is not available."),
  (0x00BA0000, "The server should have followed a reference to a node in a remote server but did not. The result set may be incomplete."),
  (0x80C80000, "The provided Nodeid was not a type definition nodeid."),
  (0x406C0000, "One of the references to follow in the relative path references to a node in the address space in another server."),
  (0x806D0000, "The requested operation has too many matches to return."),
  (0x806E0000, "The requested operation requires too many resources in the server."),
  (0x806F0000, "The requested operation has no match to return."),
  (0x80700000, "The max age parameter is invalid."),
  (0x80E60000, "The operation is not permitted over the current secure channel."),
  (0x80710000, "The history details parameter is not valid."),
  (0x80720000, "The server does not support the requested operation."),
  (0x80BD0000, "The defined timestamp to return was invalid."),
  (0x80730000, "The server does not support writing the combination of value, status and timestamps provided."),
  (0x80740000, "The value supplied for the attribute is not of the same type as the attribute's value."),
  (0x80750000, "The method id does not refer to a method for the specified object."),
  (0x80760000, "The client did not specify all of the input arguments for the method."),
  (0x81110000, "The executable attribute does not allow the execution of the method."),
  (0x80770000, "The server has reached its maximum number of subscriptions."),
  (0x80780000, "The server has reached the maximum number of queued publish requests."),
  (0x80790000, "There is no subscription available for this session."),
  (0x807A0000, "The sequence number is unknown to the server."),
  (0x807B0000, "The requested notification message is no longer available."),
  (0x807C0000, "The client of the current session does not support one or more Profiles that are necessary for the subscription."),
  (0x80BF0000, "The sub-state machine is not currently active."),
  (0x81150000, "An equivalent rule already exists."),
  (0x807D0000, "The server cannot process the request because it is too busy."),
  (0x807E0000, "The type of the message specified in the header invalid."),
  (0x807F0000, "The SecureChannelId and/or TokenId are not currently in use."),
  (0x80800000, "The size of the message specified in the header is too large."),
  (0x80810000, "There are not enough resources to process the request."),
  (0x80820000, "An internal error occurred."),
  (0x80830000, "The server does not recognize the QueryString specified."),
  (0x80840000, "The request could not be sent because of a network interruption."),
  (0x80850000, "Timeout occurred while processing the request."),
  (0x80860000, "The secure channel has been closed."),
  (0x80870000, "The token has expired or is not recognized."),
  (0x80880000, "The sequence number is not valid."),
  (0x80BE0000, "The applications do not have compatible protocol versions."),
  (0x80890000, "There is a problem with the configuration that affects the usefulness of the value."),
  (0x808A0000, "The variable should receive its value from another variable, but has never been configured to do so."),
  (0x808B0000, "There has been a failure in the device/data source that generates the value that has affected the value."),
  (0x808C0000, "There has been a failure in the sensor from which the value is derived by the device/data source."),
  (0x808D0000, "The source of the data is not operational."),
  (0x808E0000, "The deadband filter is not valid."),
  (0x408F0000, "Communication to the data source has failed. The variable value is the last value that had a good quality."),
  (0x40900000, "Whatever was updating this value has stopped doing so."),
  (0x40910000, "The value is an operational value that was manually overwritten."),
  (0x40920000, "The value is an initial value for a variable that normally receives its value from another variable."),
  (0x40930000, "The value is at one of the sensor limits."),
  (0x40940000, "The value is outside of the range of values defined for this parameter."),
  (0x40950000, "The value is derived from multiple sources and has less than the required number of Good sources."),
  (0x00960000, "The value has been overridden."),
  (0x80970000, "This Condition refresh failed, a Condition refresh operation is already in progress."),
  (0x80980000, "This condition has already been disabled."),
  (0x80CC0000, "This condition has already been enabled."),
  (0x80990000, "Property not available, this condition is disabled."),
  (0x809A0000, "The specified event id is not recognized."),
  (0x80BB0000, "The event cannot be acknowledged."),
  (0x80CD0000, "The dialog condition is not active."),
  (0x80CE0000, "The response is not valid for the dialog."),
  (0x80CF0000, "The condition branch has already been acknowledged."),
  (0x80D00000, "The condition branch has already been confirmed."),
  (0x80D10000, "The condition has already been shelved."),
  (0x80D20000, "The condition is not currently shelved."),
  (0x80D30000, "The shelving time not within an acceptable range."),
  (0x809B0000, "No data exists for the requested time range or event filter."),
  (0x80D70000, "No data found to provide upper or lower bound value."),
  (0x80D80000, "The server cannot retrieve a bound for the variable."),
  (0x809D0000, "Data is missing due to collection started/stopped/lost."),
  (0x809E0000, "Expected data is unavailable for the requested time range due to an un-mounted volume, an off-line archive or tape, or similar reason for temporary unavailability."),
  (0x809F0000, "The data or event was not successfully inserted because a matching entry exists."),
  (0x80A00000, "The data or event was not successfully updated because no matching entry exists."),
  (0x80A10000, "The client requested history using a timestamp format the server does not support (i.e requested ServerTimestamp when server only supports SourceTimestamp)."),
  (0x00A20000, "The data or event was successfully inserted into the historical database."),
  (0x00A30000, "The data or event field was successfully replaced in the historical database."),
  (0x40A40000, "The value is derived from multiple values and has less than the required number of Good values."),
  (0x00A50000, "No data exists for the requested time range or event filter."),
  (0x00A60000, "The data or event field was successfully replaced in the historical database."),
  (0x80D40000, "The requested number of Aggregates does not match the requested number of NodeIds."),
  (0x80D50000, "The requested Aggregate is not support by the server."),
  (0x80D60000, "The aggregate value could not be derived due to invalid data inputs."),
  (0x80DA0000, "The aggregate configuration is not valid for specified node."),
  (0x00D90000, "The request specifies fields which are not valid for the EventType or cannot be saved by the historian."),
  (0x80E40000, "The request was rejected by the server because it did not meet the criteria set by the server."),
  (0x81130000, "The request has not been processed by the server yet."),
  (0x00DC0000, "The value does not come from the real source and has been edited by the server."),
  (0x00DD0000, "There was an error in execution of these post-actions."),
  (0x40DE0000, "The related EngineeringUnit has been changed but the Variable Value is still provided based on the previous unit."),
  (0x00E00000, "A dependent value has been changed but the change has not been applied to the device."),
  (0x80E10000, "The related EngineeringUnit has been changed but this change has not been applied to the device. The Variable Value is still dependent on the previous unit but its status is currently Bad."),
  (0x40E20000, "A dependent value has been changed but the change has not been applied to the device. The quality of the dominant variable is uncertain."),
  (0x80E30000, "A dependent value has been changed but the change has not been applied to the device. The quality of the dominant variable is Bad."),
  (0x01160000, "It is delivered with a dominant Variable value when a dependent Variable has changed but the change has not been applied."),
  (0x01170000, "It is delivered with a dependent Variable value when a dominant Variable has changed but the change has not been applied."),
  (0x01180000, "It is delivered with a dependent Variable value when a dominant or dependent Variable has changed but change has not been applied."),
  (0x81190000, "It is delivered with a Variable value when Variable has changed but the value is not legal."),
  (0x811A0000, "It is delivered with a Variable value when a source Variable has changed but the value is not legal."),
  (0x811B0000, "It is delivered with a dependent Variable value when a dominant Variable has changed and the value is not legal."),
  (0x811C0000, "It is delivered with a dependent Variable value when a dominant Variable has changed, the value is not legal and the change has not been applied."),
  (0x811D0000, "It is delivered with a dependent Variable value when a dominant or dependent Variable has changed and the value is not legal."),
  (0x811E0000, "It is delivered with a dependent Variable value when a dominant or dependent Variable has changed, the value is not legal and the change has not been applied."),
  (0x00A70000, "The communication layer has raised an event."),
  (0x00A80000, "The system is shutting down."),
  (0x00A90000, "The operation is not finished and needs to be called again."),
  (0x00AA0000, "A non-critical timeout occurred."),
  (0x80AB0000, "One or more arguments are invalid."),
  (0x80AC0000, "Could not establish a network connection to remote server."),
  (0x80AD0000, "The server has disconnected from the client."),
  (0x80AE0000, "The network connection has been closed."),
  (0x80AF0000, "The operation cannot be completed because the object is closed, uninitialized or in some other invalid state."),
  (0x80B00000, "Cannot move beyond end of the stream."),
  (0x80B10000, "No data is currently available for reading from a non-blocking stream."),
  (0x80B20000, "The asynchronous operation is waiting for a response."),
  (0x80B30000, "The asynchronous operation was abandoned by the caller."),
  (0x80B40000, "The stream did not return all data requested (possibly because it is a non-blocking stream)."),
  (0x80B50000, "Non blocking behaviour is required and the operation would block."),
  (0x80B60000, "A value had an invalid syntax."),
  (0x80B70000, "The operation could not be finished because all available connections are in use.")]

/-- The default of the switch, ua/status_code.generated.go:992-993. -/
def unknownText : String := "An unknown error occurred."

/-- A switch: the first case with the value. -/
def switch {α : Type} [DecidableEq α] (cases : List (α × String)) (default : String) (v : α) : String :=
  match cases with
  | [] => default
  | (k, t) :: cs => if v = k then t else switch cs default v

/-- Error, ua/status_code.generated.go:499-995. -/
def errorText (c : BitVec 32) : String := switch errorCases unknownText c.toNat

/-- An enumeration: the name of the type, its constants, the cases of its String method. -/
structure Enum where
  type : String
  consts : List (String × Int)
  cases : List (Int × String)

/-- String; the default of the switch is the empty string. -/
def Enum.string (e : Enum) (v : BitVec 32) : String := switch e.cases "" v.toInt

/-- ua/enums.generated.go:8-38. -/
def nodeIDType : Enum where
  type := "NodeIDType"
  consts := [("NodeIDTypeTwoByte", 0), ("NodeIDTypeFourByte", 1), ("NodeIDTypeNumeric", 2), ("NodeIDTypeString", 3),
    ("NodeIDTypeGUID", 4), ("NodeIDTypeByteString", 5)]
  cases := [(0, "TwoByte"), (1, "FourByte"), (2, "Numeric"), (3, "String"), (4, "GUID"), (5, "ByteString")]

/-- ua/enums.generated.go:41-62. -/
def namingRuleType : Enum where
  type := "NamingRuleType"
  consts := [("NamingRuleTypeMandatory", 1), ("NamingRuleTypeOptional", 2), ("NamingRuleTypeConstraint", 3)]
  cases := [(1, "Mandatory"), (2, "Optional"), (3, "Constraint")]

/-- ua/enums.generated.go:65-89. -/
def openFileMode : Enum where
  type := "OpenFileMode"
  consts := [("OpenFileModeRead", 1), ("OpenFileModeWrite", 2), ("OpenFileModeEraseExisting", 4),
    ("OpenFileModeAppend", 8)]
  cases := [(1, "Read"), (2, "Write"), (4, "EraseExisting"), (8, "Append")]

/-- ua/enums.generated.go:92-122. -/
def identityCriteriaType : Enum where
  type := "IdentityCriteriaType"
  consts := [("IdentityCriteriaTypeUserName", 1), ("IdentityCriteriaTypeThumbprint", 2), ("IdentityCriteriaTypeRole",
    3), ("IdentityCriteriaTypeGroupID", 4), ("IdentityCriteriaTypeAnonymous", 5),
    ("IdentityCriteriaTypeAuthenticatedUser", 6)]
  cases := [(1, "UserName"), (2, "Thumbprint"), (3, "Role"), (4, "GroupID"), (5, "Anonymous"), (6,
    "AuthenticatedUser")]

/-- ua/enums.generated.go:125-155. -/
def trustListMasks : Enum where
  type := "TrustListMasks"
  consts := [("TrustListMasksNone", 0), ("TrustListMasksTrustedCertificates", 1), ("TrustListMasksTrustedCrls", 2),
    ("TrustListMasksIssuerCertificates", 4), ("TrustListMasksIssuerCrls", 8), ("TrustListMasksAll", 15)]
  cases := [(0, "None"), (1, "TrustedCertificates"), (2, "TrustedCrls"), (4, "IssuerCertificates"), (8, "IssuerCrls"),
    (15, "All")]

/-- ua/enums.generated.go:158-182. -/
def pubSubState : Enum where
  type := "PubSubState"
  consts := [("PubSubStateDisabled", 0), ("PubSubStatePaused", 1), ("PubSubStateOperational", 2), ("PubSubStateError",
    3)]
  cases := [(0, "Disabled"), (1, "Paused"), (2, "Operational"), (3, "Error")]

/-- ua/enums.generated.go:185-203. -/
def dataSetFieldFlags : Enum where
  type := "DataSetFieldFlags"
  consts := [("DataSetFieldFlagsNone", 0), ("DataSetFieldFlagsPromotedField", 1)]
  cases := [(0, "None"), (1, "PromotedField")]

/-- ua/enums.generated.go:206-239. -/
def dataSetFieldContentMask : Enum where
  type := "DataSetFieldContentMask"
  consts := [("DataSetFieldContentMaskNone", 0), ("DataSetFieldContentMaskStatusCode", 1),
    ("DataSetFieldContentMaskSourceTimestamp", 2), ("DataSetFieldContentMaskServerTimestamp", 4),
    ("DataSetFieldContentMaskSourcePicoSeconds", 8), ("DataSetFieldContentMaskServerPicoSeconds", 16),
    ("DataSetFieldContentMaskRawData", 32)]
  cases := [(0, "None"), (1, "StatusCode"), (2, "SourceTimestamp"), (4, "ServerTimestamp"), (8, "SourcePicoSeconds"),
    (16, "ServerPicoSeconds"), (32, "RawData")]

/-- ua/enums.generated.go:242-263. -/
def overrideValueHandling : Enum where
  type := "OverrideValueHandling"
  consts := [("OverrideValueHandlingDisabled", 0), ("OverrideValueHandlingLastUsableValue", 1),
    ("OverrideValueHandlingOverrideValue", 2)]
  cases := [(0, "Disabled"), (1, "LastUsableValue"), (2, "OverrideValue")]

/-- ua/enums.generated.go:266-287. -/
def dataSetOrderingType : Enum where
  type := "DataSetOrderingType"
  consts := [("DataSetOrderingTypeUndefined", 0), ("DataSetOrderingTypeAscendingWriterID", 1),
    ("DataSetOrderingTypeAscendingWriterIDSingle", 2)]
  cases := [(0, "Undefined"), (1, "AscendingWriterID"), (2, "AscendingWriterIDSingle")]

/-- ua/enums.generated.go:290-338. -/
def uADPNetworkMessageContentMask : Enum where
  type := "UADPNetworkMessageContentMask"
  consts := [("UADPNetworkMessageContentMaskNone", 0), ("UADPNetworkMessageContentMaskPublisherID", 1),
    ("UADPNetworkMessageContentMaskGroupHeader", 2), ("UADPNetworkMessageContentMaskWriterGroupID", 4),
    ("UADPNetworkMessageContentMaskGroupVersion", 8), ("UADPNetworkMessageContentMaskNetworkMessageNumber", 16),
    ("UADPNetworkMessageContentMaskSequenceNumber", 32), ("UADPNetworkMessageContentMaskPayloadHeader", 64),
    ("UADPNetworkMessageContentMaskTimestamp", 128), ("UADPNetworkMessageContentMaskPicoSeconds", 256),
    ("UADPNetworkMessageContentMaskDataSetClassID", 512), ("UADPNetworkMessageContentMaskPromotedFields", 1024)]
  cases := [(0, "None"), (1, "PublisherID"), (2, "GroupHeader"), (4, "WriterGroupID"), (8, "GroupVersion"), (16,
    "NetworkMessageNumber"), (32, "SequenceNumber"), (64, "PayloadHeader"), (128, "Timestamp"), (256, "PicoSeconds"),
    (512, "DataSetClassID"), (1024, "PromotedFields")]

/-- ua/enums.generated.go:341-374. -/
def uADPDataSetMessageContentMask : Enum where
  type := "UADPDataSetMessageContentMask"
  consts := [("UADPDataSetMessageContentMaskNone", 0), ("UADPDataSetMessageContentMaskTimestamp", 1),
    ("UADPDataSetMessageContentMaskPicoSeconds", 2), ("UADPDataSetMessageContentMaskStatus", 4),
    ("UADPDataSetMessageContentMaskMajorVersion", 8), ("UADPDataSetMessageContentMaskMinorVersion", 16),
    ("UADPDataSetMessageContentMaskSequenceNumber", 32)]
  cases := [(0, "None"), (1, "Timestamp"), (2, "PicoSeconds"), (4, "Status"), (8, "MajorVersion"), (16,
    "MinorVersion"), (32, "SequenceNumber")]

/-- ua/enums.generated.go:377-410. -/
def jSONNetworkMessageContentMask : Enum where
  type := "JSONNetworkMessageContentMask"
  consts := [("JSONNetworkMessageContentMaskNone", 0), ("JSONNetworkMessageContentMaskNetworkMessageHeader", 1),
    ("JSONNetworkMessageContentMaskDataSetMessageHeader", 2), ("JSONNetworkMessageContentMaskSingleDataSetMessage",
    4), ("JSONNetworkMessageContentMaskPublisherID", 8), ("JSONNetworkMessageContentMaskDataSetClassID", 16),
    ("JSONNetworkMessageContentMaskReplyTo", 32)]
  cases := [(0, "None"), (1, "NetworkMessageHeader"), (2, "DataSetMessageHeader"), (4, "SingleDataSetMessage"), (8,
    "PublisherID"), (16, "DataSetClassID"), (32, "ReplyTo")]

/-- ua/enums.generated.go:413-443. -/
def jSONDataSetMessageContentMask : Enum where
  type := "JSONDataSetMessageContentMask"
  consts := [("JSONDataSetMessageContentMaskNone", 0), ("JSONDataSetMessageContentMaskDataSetWriterID", 1),
    ("JSONDataSetMessageContentMaskMetaDataVersion", 2), ("JSONDataSetMessageContentMaskSequenceNumber", 4),
    ("JSONDataSetMessageContentMaskTimestamp", 8), ("JSONDataSetMessageContentMaskStatus", 16)]
  cases := [(0, "None"), (1, "DataSetWriterID"), (2, "MetaDataVersion"), (4, "SequenceNumber"), (8, "Timestamp"), (16,
    "Status")]

/-- ua/enums.generated.go:446-473. -/
def brokerTransportQoS : Enum where
  type := "BrokerTransportQoS"
  consts := [("BrokerTransportQoSNotSpecified", 0), ("BrokerTransportQoSBestEffort", 1),
    ("BrokerTransportQoSAtLeastOnce", 2), ("BrokerTransportQoSAtMostOnce", 3), ("BrokerTransportQoSExactlyOnce", 4)]
  cases := [(0, "NotSpecified"), (1, "BestEffort"), (2, "AtLeastOnce"), (3, "AtMostOnce"), (4, "ExactlyOnce")]

/-- ua/enums.generated.go:476-503. -/
def diagnosticsLevel : Enum where
  type := "DiagnosticsLevel"
  consts := [("DiagnosticsLevelBasic", 0), ("DiagnosticsLevelAdvanced", 1), ("DiagnosticsLevelInfo", 2),
    ("DiagnosticsLevelLog", 3), ("DiagnosticsLevelDebug", 4)]
  cases := [(0, "Basic"), (1, "Advanced"), (2, "Info"), (3, "Log"), (4, "Debug")]

/-- ua/enums.generated.go:506-524. -/
def pubSubDiagnosticsCounterClassification : Enum where
  type := "PubSubDiagnosticsCounterClassification"
  consts := [("PubSubDiagnosticsCounterClassificationInformation", 0), ("PubSubDiagnosticsCounterClassificationError",
    1)]
  cases := [(0, "Information"), (1, "Error")]

/-- ua/enums.generated.go:527-551. -/
def iDType : Enum where
  type := "IDType"
  consts := [("IDTypeNumeric", 0), ("IDTypeString", 1), ("IDTypeGUID", 2), ("IDTypeOpaque", 3)]
  cases := [(0, "Numeric"), (1, "String"), (2, "GUID"), (3, "Opaque")]

/-- ua/enums.generated.go:554-593. -/
def nodeClass : Enum where
  type := "NodeClass"
  consts := [("NodeClassUnspecified", 0), ("NodeClassObject", 1), ("NodeClassVariable", 2), ("NodeClassMethod", 4),
    ("NodeClassObjectType", 8), ("NodeClassVariableType", 16), ("NodeClassReferenceType", 32), ("NodeClassDataType",
    64), ("NodeClassView", 128)]
  cases := [(0, "Unspecified"), (1, "Object"), (2, "Variable"), (4, "Method"), (8, "ObjectType"), (16,
    "VariableType"), (32, "ReferenceType"), (64, "DataType"), (128, "View")]

/-- ua/enums.generated.go:596-662. -/
def permissionType : Enum where
  type := "PermissionType"
  consts := [("PermissionTypeNone", 0), ("PermissionTypeBrowse", 1), ("PermissionTypeReadRolePermissions", 2),
    ("PermissionTypeWriteAttribute", 4), ("PermissionTypeWriteRolePermissions", 8), ("PermissionTypeWriteHistorizing",
    16), ("PermissionTypeRead", 32), ("PermissionTypeWrite", 64), ("PermissionTypeReadHistory", 128),
    ("PermissionTypeInsertHistory", 256), ("PermissionTypeModifyHistory", 512), ("PermissionTypeDeleteHistory", 1024),
    ("PermissionTypeReceiveEvents", 2048), ("PermissionTypeCall", 4096), ("PermissionTypeAddReference", 8192),
    ("PermissionTypeRemoveReference", 16384), ("PermissionTypeDeleteNode", 32768), ("PermissionTypeAddNode", 65536)]
  cases := [(0, "None"), (1, "Browse"), (2, "ReadRolePermissions"), (4, "WriteAttribute"), (8,
    "WriteRolePermissions"), (16, "WriteHistorizing"), (32, "Read"), (64, "Write"), (128, "ReadHistory"), (256,
    "InsertHistory"), (512, "ModifyHistory"), (1024, "DeleteHistory"), (2048, "ReceiveEvents"), (4096, "Call"), (8192,
    "AddReference"), (16384, "RemoveReference"), (32768, "DeleteNode"), (65536, "AddNode")]

/-- ua/enums.generated.go:665-701. -/
def accessLevelType : Enum where
  type := "AccessLevelType"
  consts := [("AccessLevelTypeNone", 0), ("AccessLevelTypeCurrentRead", 1), ("AccessLevelTypeCurrentWrite", 2),
    ("AccessLevelTypeHistoryRead", 4), ("AccessLevelTypeHistoryWrite", 8), ("AccessLevelTypeSemanticChange", 16),
    ("AccessLevelTypeStatusWrite", 32), ("AccessLevelTypeTimestampWrite", 64)]
  cases := [(0, "None"), (1, "CurrentRead"), (2, "CurrentWrite"), (4, "HistoryRead"), (8, "HistoryWrite"), (16,
    "SemanticChange"), (32, "StatusWrite"), (64, "TimestampWrite")]

/-- ua/enums.generated.go:704-749. -/
def accessLevelExType : Enum where
  type := "AccessLevelExType"
  consts := [("AccessLevelExTypeNone", 0), ("AccessLevelExTypeCurrentRead", 1), ("AccessLevelExTypeCurrentWrite", 2),
    ("AccessLevelExTypeHistoryRead", 4), ("AccessLevelExTypeHistoryWrite", 8), ("AccessLevelExTypeSemanticChange",
    16), ("AccessLevelExTypeStatusWrite", 32), ("AccessLevelExTypeTimestampWrite", 64),
    ("AccessLevelExTypeNonatomicRead", 256), ("AccessLevelExTypeNonatomicWrite", 512),
    ("AccessLevelExTypeWriteFullArrayOnly", 1024)]
  cases := [(0, "None"), (1, "CurrentRead"), (2, "CurrentWrite"), (4, "HistoryRead"), (8, "HistoryWrite"), (16,
    "SemanticChange"), (32, "StatusWrite"), (64, "TimestampWrite"), (256, "NonatomicRead"), (512, "NonatomicWrite"),
    (1024, "WriteFullArrayOnly")]

/-- ua/enums.generated.go:752-776. -/
def eventNotifierType : Enum where
  type := "EventNotifierType"
  consts := [("EventNotifierTypeNone", 0), ("EventNotifierTypeSubscribeToEvents", 1), ("EventNotifierTypeHistoryRead",
    4), ("EventNotifierTypeHistoryWrite", 8)]
  cases := [(0, "None"), (1, "SubscribeToEvents"), (4, "HistoryRead"), (8, "HistoryWrite")]

/-- ua/enums.generated.go:779-803. -/
def accessRestrictionType : Enum where
  type := "AccessRestrictionType"
  consts := [("AccessRestrictionTypeNone", 0), ("AccessRestrictionTypeSigningRequired", 1),
    ("AccessRestrictionTypeEncryptionRequired", 2), ("AccessRestrictionTypeSessionRequired", 4)]
  cases := [(0, "None"), (1, "SigningRequired"), (2, "EncryptionRequired"), (4, "SessionRequired")]

/-- ua/enums.generated.go:806-827. -/
def structureType : Enum where
  type := "StructureType"
  consts := [("StructureTypeStructure", 0), ("StructureTypeStructureWithOptionalFields", 1), ("StructureTypeUnion",
    2)]
  cases := [(0, "Structure"), (1, "StructureWithOptionalFields"), (2, "Union")]

/-- ua/enums.generated.go:830-854. -/
def applicationType : Enum where
  type := "ApplicationType"
  consts := [("ApplicationTypeServer", 0), ("ApplicationTypeClient", 1), ("ApplicationTypeClientAndServer", 2),
    ("ApplicationTypeDiscoveryServer", 3)]
  cases := [(0, "Server"), (1, "Client"), (2, "ClientAndServer"), (3, "DiscoveryServer")]

/-- ua/enums.generated.go:857-881. -/
def messageSecurityMode : Enum where
  type := "MessageSecurityMode"
  consts := [("MessageSecurityModeInvalid", 0), ("MessageSecurityModeNone", 1), ("MessageSecurityModeSign", 2),
    ("MessageSecurityModeSignAndEncrypt", 3)]
  cases := [(0, "Invalid"), (1, "None"), (2, "Sign"), (3, "SignAndEncrypt")]

/-- ua/enums.generated.go:884-908. -/
def userTokenType : Enum where
  type := "UserTokenType"
  consts := [("UserTokenTypeAnonymous", 0), ("UserTokenTypeUserName", 1), ("UserTokenTypeCertificate", 2),
    ("UserTokenTypeIssuedToken", 3)]
  cases := [(0, "Anonymous"), (1, "UserName"), (2, "Certificate"), (3, "IssuedToken")]

/-- ua/enums.generated.go:911-929. -/
def securityTokenRequestType : Enum where
  type := "SecurityTokenRequestType"
  consts := [("SecurityTokenRequestTypeIssue", 0), ("SecurityTokenRequestTypeRenew", 1)]
  cases := [(0, "Issue"), (1, "Renew")]

/-- ua/enums.generated.go:932-1049. -/
def nodeAttributesMask : Enum where
  type := "NodeAttributesMask"
  consts := [("NodeAttributesMaskNone", 0), ("NodeAttributesMaskAccessLevel", 1),
    ("NodeAttributesMaskArrayDimensions", 2), ("NodeAttributesMaskBrowseName", 4),
    ("NodeAttributesMaskContainsNoLoops", 8), ("NodeAttributesMaskDataType", 16), ("NodeAttributesMaskDescription",
    32), ("NodeAttributesMaskDisplayName", 64), ("NodeAttributesMaskEventNotifier", 128),
    ("NodeAttributesMaskExecutable", 256), ("NodeAttributesMaskHistorizing", 512), ("NodeAttributesMaskInverseName",
    1024), ("NodeAttributesMaskIsAbstract", 2048), ("NodeAttributesMaskMinimumSamplingInterval", 4096),
    ("NodeAttributesMaskNodeClass", 8192), ("NodeAttributesMaskNodeID", 16384), ("NodeAttributesMaskSymmetric",
    32768), ("NodeAttributesMaskUserAccessLevel", 65536), ("NodeAttributesMaskUserExecutable", 131072),
    ("NodeAttributesMaskUserWriteMask", 262144), ("NodeAttributesMaskValueRank", 524288),
    ("NodeAttributesMaskWriteMask", 1048576), ("NodeAttributesMaskValue", 2097152),
    ("NodeAttributesMaskDataTypeDefinition", 4194304), ("NodeAttributesMaskRolePermissions", 8388608),
    ("NodeAttributesMaskAccessRestrictions", 16777216), ("NodeAttributesMaskAll", 33554431),
    ("NodeAttributesMaskBaseNode", 26501220), ("NodeAttributesMaskObject", 26501348), ("NodeAttributesMaskObjectType",
    26503268), ("NodeAttributesMaskVariable", 26571383), ("NodeAttributesMaskVariableType", 28600438),
    ("NodeAttributesMaskMethod", 26632548), ("NodeAttributesMaskReferenceType", 26537060), ("NodeAttributesMaskView",
    26501356)]
  cases := [(0, "None"), (1, "AccessLevel"), (2, "ArrayDimensions"), (4, "BrowseName"), (8, "ContainsNoLoops"), (16,
    "DataType"), (32, "Description"), (64, "DisplayName"), (128, "EventNotifier"), (256, "Executable"), (512,
    "Historizing"), (1024, "InverseName"), (2048, "IsAbstract"), (4096, "MinimumSamplingInterval"), (8192,
    "NodeClass"), (16384, "NodeID"), (32768, "Symmetric"), (65536, "UserAccessLevel"), (131072, "UserExecutable"),
    (262144, "UserWriteMask"), (524288, "ValueRank"), (1048576, "WriteMask"), (2097152, "Value"), (4194304,
    "DataTypeDefinition"), (8388608, "RolePermissions"), (16777216, "AccessRestrictions"), (33554431, "All"),
    (26501220, "BaseNode"), (26501348, "Object"), (26503268, "ObjectType"), (26571383, "Variable"), (28600438,
    "VariableType"), (26632548, "Method"), (26537060, "ReferenceType"), (26501356, "View")]

/-- ua/enums.generated.go:1052-1145. -/
def attributeWriteMask : Enum where
  type := "AttributeWriteMask"
  consts := [("AttributeWriteMaskNone", 0), ("AttributeWriteMaskAccessLevel", 1),
    ("AttributeWriteMaskArrayDimensions", 2), ("AttributeWriteMaskBrowseName", 4),
    ("AttributeWriteMaskContainsNoLoops", 8), ("AttributeWriteMaskDataType", 16), ("AttributeWriteMaskDescription",
    32), ("AttributeWriteMaskDisplayName", 64), ("AttributeWriteMaskEventNotifier", 128),
    ("AttributeWriteMaskExecutable", 256), ("AttributeWriteMaskHistorizing", 512), ("AttributeWriteMaskInverseName",
    1024), ("AttributeWriteMaskIsAbstract", 2048), ("AttributeWriteMaskMinimumSamplingInterval", 4096),
    ("AttributeWriteMaskNodeClass", 8192), ("AttributeWriteMaskNodeID", 16384), ("AttributeWriteMaskSymmetric",
    32768), ("AttributeWriteMaskUserAccessLevel", 65536), ("AttributeWriteMaskUserExecutable", 131072),
    ("AttributeWriteMaskUserWriteMask", 262144), ("AttributeWriteMaskValueRank", 524288),
    ("AttributeWriteMaskWriteMask", 1048576), ("AttributeWriteMaskValueForVariableType", 2097152),
    ("AttributeWriteMaskDataTypeDefinition", 4194304), ("AttributeWriteMaskRolePermissions", 8388608),
    ("AttributeWriteMaskAccessRestrictions", 16777216), ("AttributeWriteMaskAccessLevelEx", 33554432)]
  cases := [(0, "None"), (1, "AccessLevel"), (2, "ArrayDimensions"), (4, "BrowseName"), (8, "ContainsNoLoops"), (16,
    "DataType"), (32, "Description"), (64, "DisplayName"), (128, "EventNotifier"), (256, "Executable"), (512,
    "Historizing"), (1024, "InverseName"), (2048, "IsAbstract"), (4096, "MinimumSamplingInterval"), (8192,
    "NodeClass"), (16384, "NodeID"), (32768, "Symmetric"), (65536, "UserAccessLevel"), (131072, "UserExecutable"),
    (262144, "UserWriteMask"), (524288, "ValueRank"), (1048576, "WriteMask"), (2097152, "ValueForVariableType"),
    (4194304, "DataTypeDefinition"), (8388608, "RolePermissions"), (16777216, "AccessRestrictions"), (33554432,
    "AccessLevelEx")]

/-- ua/enums.generated.go:1148-1172. -/
def browseDirection : Enum where
  type := "BrowseDirection"
  consts := [("BrowseDirectionForward", 0), ("BrowseDirectionInverse", 1), ("BrowseDirectionBoth", 2),
    ("BrowseDirectionInvalid", 3)]
  cases := [(0, "Forward"), (1, "Inverse"), (2, "Both"), (3, "Invalid")]

/-- ua/enums.generated.go:1175-1217. -/
def browseResultMask : Enum where
  type := "BrowseResultMask"
  consts := [("BrowseResultMaskNone", 0), ("BrowseResultMaskReferenceTypeID", 1), ("BrowseResultMaskIsForward", 2),
    ("BrowseResultMaskNodeClass", 4), ("BrowseResultMaskBrowseName", 8), ("BrowseResultMaskDisplayName", 16),
    ("BrowseResultMaskTypeDefinition", 32), ("BrowseResultMaskAll", 63), ("BrowseResultMaskReferenceTypeInfo", 3),
    ("BrowseResultMaskTargetInfo", 60)]
  cases := [(0, "None"), (1, "ReferenceTypeID"), (2, "IsForward"), (4, "NodeClass"), (8, "BrowseName"), (16,
    "DisplayName"), (32, "TypeDefinition"), (63, "All"), (3, "ReferenceTypeInfo"), (60, "TargetInfo")]

/-- ua/enums.generated.go:1220-1286. -/
def filterOperator : Enum where
  type := "FilterOperator"
  consts := [("FilterOperatorEquals", 0), ("FilterOperatorIsNull", 1), ("FilterOperatorGreaterThan", 2),
    ("FilterOperatorLessThan", 3), ("FilterOperatorGreaterThanOrEqual", 4), ("FilterOperatorLessThanOrEqual", 5),
    ("FilterOperatorLike", 6), ("FilterOperatorNot", 7), ("FilterOperatorBetween", 8), ("FilterOperatorInList", 9),
    ("FilterOperatorAnd", 10), ("FilterOperatorOr", 11), ("FilterOperatorCast", 12), ("FilterOperatorInView", 13),
    ("FilterOperatorOfType", 14), ("FilterOperatorRelatedTo", 15), ("FilterOperatorBitwiseAnd", 16),
    ("FilterOperatorBitwiseOr", 17)]
  cases := [(0, "Equals"), (1, "IsNull"), (2, "GreaterThan"), (3, "LessThan"), (4, "GreaterThanOrEqual"), (5,
    "LessThanOrEqual"), (6, "Like"), (7, "Not"), (8, "Between"), (9, "InList"), (10, "And"), (11, "Or"), (12, "Cast"),
    (13, "InView"), (14, "OfType"), (15, "RelatedTo"), (16, "BitwiseAnd"), (17, "BitwiseOr")]

/-- ua/enums.generated.go:1289-1316. -/
def timestampsToReturn : Enum where
  type := "TimestampsToReturn"
  consts := [("TimestampsToReturnSource", 0), ("TimestampsToReturnServer", 1), ("TimestampsToReturnBoth", 2),
    ("TimestampsToReturnNeither", 3), ("TimestampsToReturnInvalid", 4)]
  cases := [(0, "Source"), (1, "Server"), (2, "Both"), (3, "Neither"), (4, "Invalid")]

/-- ua/enums.generated.go:1319-1343. -/
def historyUpdateType : Enum where
  type := "HistoryUpdateType"
  consts := [("HistoryUpdateTypeInsert", 1), ("HistoryUpdateTypeReplace", 2), ("HistoryUpdateTypeUpdate", 3),
    ("HistoryUpdateTypeDelete", 4)]
  cases := [(1, "Insert"), (2, "Replace"), (3, "Update"), (4, "Delete")]

/-- ua/enums.generated.go:1346-1370. -/
def performUpdateType : Enum where
  type := "PerformUpdateType"
  consts := [("PerformUpdateTypeInsert", 1), ("PerformUpdateTypeReplace", 2), ("PerformUpdateTypeUpdate", 3),
    ("PerformUpdateTypeRemove", 4)]
  cases := [(1, "Insert"), (2, "Replace"), (3, "Update"), (4, "Remove")]

/-- ua/enums.generated.go:1373-1394. -/
def monitoringMode : Enum where
  type := "MonitoringMode"
  consts := [("MonitoringModeDisabled", 0), ("MonitoringModeSampling", 1), ("MonitoringModeReporting", 2)]
  cases := [(0, "Disabled"), (1, "Sampling"), (2, "Reporting")]

/-- ua/enums.generated.go:1397-1418. -/
def dataChangeTrigger : Enum where
  type := "DataChangeTrigger"
  consts := [("DataChangeTriggerStatus", 0), ("DataChangeTriggerStatusValue", 1),
    ("DataChangeTriggerStatusValueTimestamp", 2)]
  cases := [(0, "Status"), (1, "StatusValue"), (2, "StatusValueTimestamp")]

/-- ua/enums.generated.go:1421-1442. -/
def deadbandType : Enum where
  type := "DeadbandType"
  consts := [("DeadbandTypeNone", 0), ("DeadbandTypeAbsolute", 1), ("DeadbandTypePercent", 2)]
  cases := [(0, "None"), (1, "Absolute"), (2, "Percent")]

/-- ua/enums.generated.go:1445-1475. -/
def redundancySupport : Enum where
  type := "RedundancySupport"
  consts := [("RedundancySupportNone", 0), ("RedundancySupportCold", 1), ("RedundancySupportWarm", 2),
    ("RedundancySupportHot", 3), ("RedundancySupportTransparent", 4), ("RedundancySupportHotAndMirrored", 5)]
  cases := [(0, "None"), (1, "Cold"), (2, "Warm"), (3, "Hot"), (4, "Transparent"), (5, "HotAndMirrored")]

/-- ua/enums.generated.go:1478-1514. -/
def serverState : Enum where
  type := "ServerState"
  consts := [("ServerStateRunning", 0), ("ServerStateFailed", 1), ("ServerStateNoConfiguration", 2),
    ("ServerStateSuspended", 3), ("ServerStateShutdown", 4), ("ServerStateTest", 5), ("ServerStateCommunicationFault",
    6), ("ServerStateUnknown", 7)]
  cases := [(0, "Running"), (1, "Failed"), (2, "NoConfiguration"), (3, "Suspended"), (4, "Shutdown"), (5, "Test"), (6,
    "CommunicationFault"), (7, "Unknown")]

/-- ua/enums.generated.go:1517-1544. -/
def modelChangeStructureVerbMask : Enum where
  type := "ModelChangeStructureVerbMask"
  consts := [("ModelChangeStructureVerbMaskNodeAdded", 1), ("ModelChangeStructureVerbMaskNodeDeleted", 2),
    ("ModelChangeStructureVerbMaskReferenceAdded", 4), ("ModelChangeStructureVerbMaskReferenceDeleted", 8),
    ("ModelChangeStructureVerbMaskDataTypeChanged", 16)]
  cases := [(1, "NodeAdded"), (2, "NodeDeleted"), (4, "ReferenceAdded"), (8, "ReferenceDeleted"), (16,
    "DataTypeChanged")]

/-- ua/enums.generated.go:1547-1568. -/
def axisScaleEnumeration : Enum where
  type := "AxisScaleEnumeration"
  consts := [("AxisScaleEnumerationLinear", 0), ("AxisScaleEnumerationLog", 1), ("AxisScaleEnumerationLn", 2)]
  cases := [(0, "Linear"), (1, "Log"), (2, "Ln")]

/-- ua/enums.generated.go:1571-1598. -/
def exceptionDeviationFormat : Enum where
  type := "ExceptionDeviationFormat"
  consts := [("ExceptionDeviationFormatAbsoluteValue", 0), ("ExceptionDeviationFormatPercentOfValue", 1),
    ("ExceptionDeviationFormatPercentOfRange", 2), ("ExceptionDeviationFormatPercentOfEURange", 3),
    ("ExceptionDeviationFormatUnknown", 4)]
  cases := [(0, "AbsoluteValue"), (1, "PercentOfValue"), (2, "PercentOfRange"), (3, "PercentOfEURange"), (4,
    "Unknown")]

/-- All enumerations of ua/enums.generated.go. -/
def enums : List Enum := [nodeIDType, namingRuleType, openFileMode, identityCriteriaType, trustListMasks, pubSubState,
    dataSetFieldFlags, dataSetFieldContentMask, overrideValueHandling, dataSetOrderingType,
    uADPNetworkMessageContentMask, uADPDataSetMessageContentMask, jSONNetworkMessageContentMask,
    jSONDataSetMessageContentMask, brokerTransportQoS, diagnosticsLevel, pubSubDiagnosticsCounterClassification,
    iDType, nodeClass, permissionType, accessLevelType, accessLevelExType, eventNotifierType, accessRestrictionType,
    structureType, applicationType, messageSecurityMode, userTokenType, securityTokenRequestType, nodeAttributesMask,
    attributeWriteMask, browseDirection, browseResultMask, filterOperator, timestampsToReturn, historyUpdateType,
    performUpdateType, monitoringMode, dataChangeTrigger, deadbandType, redundancySupport, serverState,
    modelChangeStructureVerbMask, axisScaleEnumeration, exceptionDeviationFormat]

end Opcua.Names
