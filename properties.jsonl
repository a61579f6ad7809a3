{"id": "C01", "title": "Fixed-width scalars survive the binary codec", "statement": "Writing a Boolean, (S)Byte, (U)Int16/32/64, Float or Double with BinaryEncoder and reading it back with BinaryDecoder returns the same value (bit-for-bit for floats) and leaves the reader exactly after the value, whatever bytes follow.", "quantifier": "for every value of every scalar width and every byte string that follows it", "why_tests_cant": "the 64-bit and float value spaces and the set of following bytes cannot be enumerated", "anchors": ["ua/binary_encoder.go:WriteBoolean..WriteDouble", "ua/binary_decoder.go:ReadBoolean..ReadDouble"]}
{"id": "C02", "title": "Strings, byte strings and byte arrays survive the binary codec", "statement": "A string or byte string shorter than 2^31 bytes written and read back is returned unchanged with the reader placed exactly after it; the empty string is indistinguishable from the null string; a nil byte array stays nil and an empty one stays empty; a length field larger than the remaining input is reported as a decoding error, never as a short value.", "quantifier": "for every byte content, every length below 2^31 and every following input", "why_tests_cant": "contents and lengths are unbounded", "anchors": ["ua/binary_encoder.go:WriteString,WriteByteString,WriteByteArray", "ua/binary_decoder.go:ReadString,ReadByteString,ReadByteArray"]}
{"id": "C03", "title": "DateTime encoding is exact to 100 ns, clamped and order preserving", "statement": "A time between 1601-01-01 and 9999-12-31T23:59:59 is read back as the same instant truncated to 100 ns; times before that range read back as the earliest representable time, times after it as the latest; and encoding never reverses the order of two times whose tick count fits in a signed 64-bit integer.", "quantifier": "for every instant (seconds, nanoseconds)", "why_tests_cant": "the space of instants is about 2^93 and the interesting cases are at clamping and truncation boundaries", "anchors": ["ua/binary_encoder.go:WriteDateTime", "ua/binary_decoder.go:ReadDateTime"]}
{"id": "C04", "title": "GUIDs survive the mixed-endian wire layout", "statement": "A GUID written and read back is identical, and its wire form has the first three groups byte-reversed and the last eight bytes in order.", "quantifier": "for every 128-bit GUID and every following input", "why_tests_cant": "2^128 values", "anchors": ["ua/binary_encoder.go:WriteGUID", "ua/binary_decoder.go:ReadGUID"]}
{"id": "C05", "title": "NodeIDs survive the binary codec in every encoding form", "statement": "Every NodeID (numeric, string, GUID, opaque; any namespace) other than the null identifiers of namespace 0 is read back equal to what was written, no matter which of the two-byte, four-byte or full forms the encoder picks; the null identifiers of namespace 0 all read back as the nil NodeID; and the encoder picks the two-byte form exactly for namespace 0 identifiers up to 255.", "quantifier": "for every NodeID and every following input", "why_tests_cant": "identifier and namespace spaces are unbounded and the form selection has several boundary conditions", "anchors": ["ua/binary_encoder.go:WriteNodeID", "ua/binary_decoder.go:ReadNodeID", "ua/nodeid.go"]}
{"id": "C06", "title": "ExpandedNodeIDs survive the binary codec", "statement": "Every ExpandedNodeID with a non-null NodeID is read back with the same identifier, server index and namespace URI (namespace index 0 when a URI is present).", "quantifier": "for every ExpandedNodeID and every following input", "why_tests_cant": "identifier, URI and server index spaces are unbounded; the flag bits interact", "anchors": ["ua/binary_encoder.go:WriteExpandedNodeID", "ua/binary_decoder.go:ReadExpandedNodeID"]}
{"id": "C07", "title": "QualifiedName and LocalizedText survive the binary codec", "statement": "A QualifiedName or LocalizedText written and read back is unchanged, including when locale or text is empty, and the LocalizedText mask byte is exactly the set of non-empty fields.", "quantifier": "for every namespace index, name, locale and text, and every following input", "why_tests_cant": "string contents are unbounded", "anchors": ["ua/binary_encoder.go:WriteQualifiedName,WriteLocalizedText", "ua/binary_decoder.go:ReadQualifiedName,ReadLocalizedText"]}
{"id": "C08", "title": "Variants survive the binary codec", "statement": "A Variant holding any supported scalar or one-dimensional array, including arrays of Variants and DataValues nested to any depth, is read back as the same value with the same dynamic type and the reader exactly after it.", "quantifier": "for every variant of any nesting depth and array length, and every following input", "why_tests_cant": "the type is recursive and unbounded", "anchors": ["ua/binary_encoder.go:WriteVariant", "ua/binary_decoder.go:ReadVariant"]}
{"id": "C09", "title": "DataValues survive the binary codec and stay aligned", "statement": "A DataValue is read back with the same value, status and (100 ns truncated) timestamps and picoseconds for each of the 64 combinations of present fields; and after reading any DataValue - even one whose Variant cannot be decoded - the reader is positioned after that DataValue.", "quantifier": "for every DataValue and every following input, decodable or not", "why_tests_cant": "64 presence masks times unbounded contents; the alignment claim quantifies over undecodable inputs", "anchors": ["ua/binary_encoder.go:WriteDataValue", "ua/binary_decoder.go:ReadDataValue"]}
{"id": "C10", "title": "Multi-dimensional arrays keep their shape and never crash the decoder", "statement": "A rectangular two- or three-dimensional array written as a Variant is read back with the same shape and elements; and reading a Variant with arbitrary array dimensions either returns an array of that shape or an error, never a crash.", "quantifier": "for every element list, every dimension list, valid or hostile", "why_tests_cant": "dimension fields are attacker controlled 32-bit integers; tests only try consistent ones", "anchors": ["ua/binary_encoder.go:WriteVariant (multi-dim cases)", "ua/binary_decoder.go:ReadVariant (multi-dim cases)"]}
{"id": "C11", "title": "Unknown ExtensionObjects are skipped without losing alignment", "statement": "Reading an ExtensionObject whose type id is not registered, or whose body is XML, yields nil and leaves the reader exactly after the declared body; a registered object is read back equal.", "quantifier": "for every type id, body and following input", "why_tests_cant": "body contents and lengths are unbounded", "anchors": ["ua/binary_encoder.go:WriteExtensionObject", "ua/binary_decoder.go:ReadExtensionObject"]}
{"id": "C12", "title": "Structures survive the reflective codec", "statement": "Any structure made of supported fields, nested structures and slices, to any depth, encoded with Encode and decoded with Decode into a value of the same type gives back the same structure (an empty slice and a nil slice are the same) with the reader exactly after it.", "quantifier": "for every structure type (schema), every value of it and every following input", "why_tests_cant": "the set of structure types and values is unbounded", "anchors": ["ua/binary_encoder.go:Encode,newValueEncoder..", "ua/binary_decoder.go:Decode,newValueDecoder.."]}
{"id": "C13", "title": "Truncated input is always rejected", "statement": "Decoding a proper prefix of the encoding of a scalar, string, NodeID, QualifiedName, LocalizedText or structure made of these always reports an error; it never returns a value.", "quantifier": "for every value and every proper prefix of its encoding", "why_tests_cant": "every cut point of every encoding must be considered", "anchors": ["ua/binary_decoder.go"]}
{"id": "C14", "title": "Encodings are self-delimiting", "statement": "No encoding of a value of a given type is a proper prefix of the encoding of another value of that type, so concatenated values decode unambiguously; encoding is injective up to the documented null identifications.", "quantifier": "for every pair of values of every modelled type", "why_tests_cant": "quantifies over pairs of unbounded values", "anchors": ["ua/binary_encoder.go", "ua/binary_decoder.go"]}
{"id": "C15", "title": "The type registry stays a bijection", "statement": "After any sequence of RegisterBinaryEncodingID calls (including refused ones) every registered id maps to exactly one type and every registered type to exactly one id, and the two directions agree; a call either registers the pair, repeats an existing pair, or is refused leaving the previously registered pairs intact.", "quantifier": "for every sequence of registrations", "why_tests_cant": "histories are unbounded and refused calls have roll-back code", "anchors": ["ua/binary_registry.go:RegisterBinaryEncodingID,FindBinaryEncodingIDForType,FindTypeForBinaryEncodingID"]}
{"id": "C16", "title": "The chunk writer never writes outside its buffer", "statement": "After any sequence of writes into a fixed-size Writer, the content is the concatenation of the accepted bytes, its length never exceeds the buffer, and a write that does not fit reports an error together with the number of bytes that were kept.", "quantifier": "for every buffer size and every sequence of writes", "why_tests_cant": "sequences of writes are unbounded", "anchors": ["ua/bytes_writer.go:Writer"]}
{"id": "C17", "title": "NodeID text form round-trips", "statement": "ParseNodeID(id.String()) returns id for every NodeID except the numeric null id of namespace 0 (which parses as nil), and text that is not in one of the four forms parses as nil.", "quantifier": "for every NodeID of every kind", "why_tests_cant": "identifiers are arbitrary strings, possibly containing the separator characters", "anchors": ["ua/nodeid.go:ParseNodeID,String"]}
{"id": "C18", "title": "ExpandedNodeID text form round-trips", "statement": "ParseExpandedNodeID(id.String()) returns id for every ExpandedNodeID with a non-null NodeID whose namespace URI contains no semicolon. A text with a server index that is not a number below 2^32, or with a server or namespace part that does not end, is read as the null id; the text of an id without a NodeID is that of i=0.", "quantifier": "for every server index, URI and NodeID", "why_tests_cant": "URIs and identifiers are arbitrary strings", "anchors": ["ua/expanded_nodeid.go:ParseExpandedNodeID,String"]}
{"id": "C19", "title": "QualifiedName and browse path text forms round-trip", "statement": "ParseQualifiedName(q.String()) returns q for every QualifiedName; a string without a numeric namespace prefix parses as that string in namespace 0; and parsing a '/'-joined list of names gives back the list when no name contains '/'.", "quantifier": "for every namespace index and name", "why_tests_cant": "names are arbitrary strings, possibly containing ':'", "anchors": ["ua/qualified_name.go:ParseQualifiedName,ParseBrowsePath,String"]}
{"id": "C20", "title": "Namespace index and URI translation are inverse", "statement": "For a namespace table of distinct non-empty URIs, converting a NodeID to an ExpandedNodeID and back returns the NodeID; converting an ExpandedNodeID whose URI is not in the table gives nil; and converting under a permuted table of another server still designates the same (URI, identifier); different NodeIDs have different ExpandedNodeIDs, and an ExpandedNodeID whose URI is in the table comes back from its NodeID.", "quantifier": "for every namespace table, every NodeID", "why_tests_cant": "tables and ids are unbounded", "anchors": ["ua/expanded_nodeid.go:ToNodeID", "ua/nodeid.go:ToExpandedNodeID"]}
{"id": "C21", "title": "Status code classification", "statement": "Each status code is exactly one of good, uncertain, bad, or none of the three (reserved severity), depending only on the top two bits; the overflow flag is reported exactly when both the data-value info type and the overflow bit are set; setting the overflow bits never changes the severity; a change of structure is reported exactly for bit 15 and a change of semantics exactly for bit 14.", "quantifier": "for all 2^32 status codes", "why_tests_cant": "2^32 codes; relied on by every status check", "anchors": ["ua/status_code.go:IsGood,IsBad,IsUncertain,IsStructureChanged,IsSemanticsChanged,IsOverflow"]}
{"id": "C22", "title": "DiagnosticInfo decoding never crashes", "statement": "Reading a DiagnosticInfo from any input returns a value or an error.", "quantifier": "for every input", "why_tests_cant": "the input is attacker controlled and every response header contains one", "anchors": ["ua/binary_decoder.go:ReadDiagnosticInfo"]}
{"id": "C23", "title": "Chunking is lossless and respects the negotiated buffer", "statement": "When a message body is sent, the bodies of the produced chunks concatenate to exactly the message body, every chunk is at most the negotiated send buffer size, every chunk except the last is marked intermediate and the last is marked final.", "quantifier": "for every body length, security mode, policy and negotiated buffer size large enough for one body byte", "why_tests_cant": "size arithmetic with block rounding over unbounded bodies and buffer sizes", "anchors": ["server/server_secure_channel.go:sendServiceResponse", "client/client_secure_channel.go:sendServiceRequest"]}
{"id": "C24", "title": "Padding makes encrypted chunks whole blocks and is removed exactly", "statement": "In SignAndEncrypt mode the encrypted part of each chunk is a multiple of the cipher block size, and the receiver recovers exactly the body bytes of the chunk from the padding it finds; the same holds for the asymmetric OpenSecureChannel messages with key sizes above and below 2048 bits.", "quantifier": "for every body, block size, signature size and key size", "why_tests_cant": "arithmetic over all sizes; receiver and sender are in different packages", "anchors": ["server/server_secure_channel.go:sendServiceResponse,readRequest,sendOpenSecureChannelResponse", "client/client_secure_channel.go:sendServiceRequest,readResponse,sendOpenSecureChannelRequest"]}
{"id": "C25", "title": "Secure messages round-trip end to end", "statement": "For any cipher whose decryption inverts encryption and any MAC, a request body sent by the client channel is reassembled by the server channel as exactly the same bytes when both hold the same token keys, and any change to the authenticated bytes that the MAC detects is refused with BadSecurityChecksFailed and delivers nothing.", "quantifier": "for every body, every security mode, every key and every number of chunks", "why_tests_cant": "composition of chunking, padding, signing, encrypting over unbounded bodies", "anchors": ["client/client_secure_channel.go:sendServiceRequest", "server/server_secure_channel.go:readRequest"]}
{"id": "C26", "title": "Sequence numbers and request handles are consecutive and never zero", "statement": "Numbers drawn from the sequence, token, channel and request-handle counters are never zero, increase by one, wrap from 2^32-1 to 1, and any 2^32-1 successive draws are pairwise distinct; this holds for every interleaving of concurrent callers.", "quantifier": "for every history of draws and every interleaving of the load and compare-and-swap steps of concurrent callers", "why_tests_cant": "schedules are unbounded and wrap-around needs 2^32 draws", "anchors": ["server/server_secure_channel.go:getNextSequenceNumber,getNextTokenID", "server/server.go:getNextChannelID", "client/client_secure_channel.go:getNextSequenceNumber,getNextRequestHandle"]}
{"id": "C27", "title": "Only the current or the pending token is accepted", "statement": "A secured chunk is processed only if its token id is the current token or the pending one; the first chunk under the pending token makes it current, after which the old token is refused for ever; any other token is refused with BadSecureChannelTokenUnknown.", "quantifier": "for every interleaving of renewals and chunks", "why_tests_cant": "histories are unbounded", "anchors": ["server/server_secure_channel.go:readRequest,handleOpenSecureChannel"]}
{"id": "C28", "title": "Client and server derive the same symmetric keys", "statement": "After an OpenSecureChannel exchange, the key block the client uses for sending equals the block the server uses for receiving and vice versa, the two directions use the nonces in opposite roles, and the derived block has exactly the requested length and does not depend on how many bytes are requested beyond a prefix.", "quantifier": "for every pair of nonces, every key block size, every PRF", "why_tests_cant": "agreement is between two separately written packages for all nonces", "anchors": ["client/client_secure_channel.go:calculatePSHA", "server/server_secure_channel.go:calculatePSHA"]}
{"id": "C29", "title": "Frame reading is independent of TCP fragmentation", "statement": "However the network splits the byte stream into reads, the channel delivers the same sequence of frames; a frame longer than the receive buffer is refused; and a stream that ends inside a frame never delivers that frame.", "quantifier": "for every byte stream and every fragmentation of it", "why_tests_cant": "fragmentations are unbounded schedules", "anchors": ["server/server_secure_channel.go:read", "client/client_secure_channel.go:Read"]}
{"id": "C30", "title": "Message limits are enforced on receive and on send", "statement": "A request is delivered only if its chunk count and accumulated size are within the channel limits; a response larger than the client's limits is never delivered, not even in part.", "quantifier": "for every message size, chunk count and limit", "why_tests_cant": "limits and sizes are unbounded; the partial-delivery case needs a chunk-count limit to be hit mid-message", "anchors": ["server/server_secure_channel.go:readRequest,sendServiceResponse"]}
{"id": "C31", "title": "No unauthenticated request on a secured channel", "statement": "On a channel opened with Sign or SignAndEncrypt, every service request that is delivered has passed signature verification with the channel keys or the peer's certificate of the channel.", "quantifier": "for every sequence of received messages", "why_tests_cant": "quantifies over all hostile message sequences", "anchors": ["server/server_secure_channel.go:readRequest"]}
{"id": "C32", "title": "Replayed chunks are refused", "statement": "A chunk that was already accepted on a channel is not accepted a second time under the same token.", "quantifier": "for every history of received chunks", "why_tests_cant": "quantifies over histories", "anchors": ["server/server_secure_channel.go:readRequest"]}
{"id": "C33", "title": "Hello negotiation", "statement": "After Hello/Acknowledge the server's send and receive buffers are no larger than what either side announced, and every announced size leads either to a working channel or to an error reply.", "quantifier": "for every set of announced sizes", "why_tests_cant": "32-bit sizes from an untrusted peer", "anchors": ["server/server_secure_channel.go:Open,read"]}
{"id": "C34", "title": "Token lifetime and renewal", "statement": "The revised token lifetime is between the server's minimum and maximum and equals the request when that is in range; the client schedules renewal at 75 percent of the revised lifetime, strictly before the token expires.", "quantifier": "for every requested and revised lifetime", "why_tests_cant": "32-bit arithmetic over all lifetimes", "anchors": ["server/server_secure_channel.go:Open,handleOpenSecureChannel", "client/client_secure_channel.go:Open,renewToken"]}
{"id": "C35", "title": "Responses reach exactly the request they answer", "statement": "On a client channel each response is delivered to the pending request with the same handle and to no other, at most once; a response whose handle is not pending is dropped without disturbing other requests.", "quantifier": "for every interleaving of requests and responses", "why_tests_cant": "interleavings are unbounded", "anchors": ["client/client_secure_channel.go:Request,handleResponse,mapPendingResponses"]}
{"id": "C36", "title": "Every session service is gated", "statement": "No session service other than CreateSession/ActivateSession has any effect on the address space, subscriptions or session data unless the token names an existing, unexpired session that was activated on the very channel the request arrived on; otherwise the specific status of the failing check is returned.", "quantifier": "for every server state, channel, token and request", "why_tests_cant": "the gate is copied into some twenty handlers and quantifies over all server states", "anchors": ["server/server_service_set.go:handle*", "server/session_manager.go:Get"]}
{"id": "C37", "title": "Session table limits and expiry", "statement": "The number of sessions never exceeds the configured maximum; a session that has been idle for longer than its timeout is never handed to a service; a session that was used within its timeout is never removed by the expiry sweep; ids and tokens of live sessions stay unique.", "quantifier": "for every sequence of create, use, close and sweep operations at arbitrary times", "why_tests_cant": "histories and times are unbounded", "anchors": ["server/session_manager.go:Add,Get,Delete,checkForExpiredSessions", "server/session.go:IsExpired"]}
{"id": "C38", "title": "Publish requests are answered exactly once, in order, with bounded queueing", "statement": "Each queued publish request is answered at most once, requests leave the queue in arrival order, at most 64 are held, and at every moment each accepted request is either still queued or has been answered (published, timed out, or evicted with BadTooManyPublishRequests).", "quantifier": "for every sequence of add and remove operations at arbitrary times", "why_tests_cant": "histories are unbounded", "anchors": ["server/session.go:addPublishRequest,removePublishRequest"]}
{"id": "C39", "title": "Browsing in pages returns exactly the full result", "statement": "Following continuation points until none is returned yields, concatenated, exactly the reference list an unlimited Browse would have returned, each page no longer than the requested maximum; a continuation point works once; the number of open points never exceeds the limit.", "quantifier": "for every reference list, page size, and interleaving of Browse, BrowseNext and release calls", "why_tests_cant": "lists, page sizes and interleavings are unbounded", "anchors": ["server/session.go:addBrowseContinuationPoint,removeBrowseContinuationPoint", "server/server_service_set.go:handleBrowse,handleBrowseNext"]}
{"id": "C40", "title": "BrowseNext never crashes", "statement": "BrowseNext called with any byte string as continuation point gets a per-item status.", "quantifier": "for every byte string", "why_tests_cant": "the argument is attacker controlled", "anchors": ["server/session.go:removeBrowseContinuationPoint"]}
{"id": "C41", "title": "Revised session timeout", "statement": "The revised session timeout is within [10 s, 1 h] and equals the request when the request is in that range.", "quantifier": "for every requested timeout, including NaN and infinities", "why_tests_cant": "all float64 values", "anchors": ["server/server_service_set.go:handleCreateSession"]}
{"id": "C42", "title": "Password tokens are bound to the server nonce", "statement": "A decrypted user-name token is accepted only if it ends with the nonce the server issued, and then the password handed to the authenticator is exactly the bytes before the nonce; malformed length fields are refused.", "quantifier": "for every decrypted byte string and nonce", "why_tests_cant": "attacker-controlled plaintext", "anchors": ["server/server_service_set.go:handleActivateSession", "client/client.go:open"]}
{"id": "C43", "title": "Revised subscription parameters are sane", "statement": "The revised publishing interval is within the server limits, the keep-alive count is at least 1, the lifetime count is at least three times the keep-alive count, the keep-alive period does not exceed the maximum publishing interval by a full interval, and requested values inside the limits are kept.", "quantifier": "for every requested interval and counts", "why_tests_cant": "all 32-bit counts and real intervals, with rounding", "anchors": ["server/subscription.go:setPublishingInterval,setMaxKeepAliveCount,setLifetimeCount"]}
{"id": "C44", "title": "Notification sequence numbers are gap-free", "statement": "The notification messages a client receives from one subscription carry consecutive sequence numbers starting at 1; keep-alive messages announce the number of the next notification message without consuming it; no number is used for two different messages.", "quantifier": "for every history of publish cycles, publish requests, failures to send and parameter changes", "why_tests_cant": "histories are unbounded; failures to send at any point", "anchors": ["server/subscription.go:publish,handleLatePublishRequest"]}
{"id": "C45", "title": "Unacknowledged notifications stay available", "statement": "A notification message stays retrievable through Republish until the client acknowledges it or 128 newer messages have been produced; the retransmission queue never holds more than 128 messages and availableSequenceNumbers lists exactly what it holds.", "quantifier": "for every history of publish, acknowledge and republish", "why_tests_cant": "histories are unbounded", "anchors": ["server/subscription.go:publish,acknowledge", "server/server_service_set.go:handleRepublish"]}
{"id": "C46", "title": "Acknowledgement results are faithful", "statement": "For each acknowledgement in a publish request the result at the same position in the matching publish response is Good exactly if that message was held and has been released by it, BadSequenceNumberUnknown if the subscription did not hold it and BadSubscriptionIDInvalid if the subscription does not exist.", "quantifier": "for every list of acknowledgements and every subscription state", "why_tests_cant": "lists and states are unbounded", "anchors": ["server/server_service_set.go:handlePublish", "server/subscription.go:acknowledge,handleLatePublishRequest"]}
{"id": "C47", "title": "Keep-alives are timely", "statement": "A subscription with a publish request always queued never lets more than maxKeepAliveCount publishing cycles pass without sending a message, and it sends the first message in the first cycle.", "quantifier": "for every history of cycles with arbitrary notification arrival", "why_tests_cant": "histories are unbounded", "anchors": ["server/subscription.go:publish"]}
{"id": "C48", "title": "Subscription lifetime", "statement": "A subscription is deleted for lifetime expiry only after at least maxLifetimeCount consecutive cycles in which no publish request was available, and it is deleted after at most maxKeepAliveCount + maxLifetimeCount such cycles, leaving a BadTimeout status change for the client.", "quantifier": "for every history of cycles, publish requests and modifications", "why_tests_cant": "histories are unbounded", "anchors": ["server/subscription.go:publish,handleLatePublishRequest"]}
{"id": "C49", "title": "Sessions cannot touch each other's subscriptions", "statement": "A session can create, modify, delete or trigger monitored items in, change, acknowledge, republish from or delete only its own subscriptions.", "quantifier": "for every pair of sessions, subscription and request", "why_tests_cant": "quantifies over all services and states", "anchors": ["server/server_service_set.go:handleCreateMonitoredItems,handleModifyMonitoredItems,handleSetMonitoringMode,handleSetTriggering,handleDeleteMonitoredItems,handleModifySubscription,handleSetPublishingMode,handleDeleteSubscriptions,handlePublish,handleRepublish"]}
{"id": "C50", "title": "Subscription table limit", "statement": "The number of subscriptions never exceeds the configured maximum, ids are never reused while in use, and deleting a subscription removes exactly it.", "quantifier": "for every sequence of create and delete", "why_tests_cant": "histories are unbounded", "anchors": ["server/subscription_manager.go:Add,Delete,Get,GetBySession"]}
{"id": "C51", "title": "Monitored item queues keep the right values", "statement": "A queue of size n never holds more than n values; with discardOldest it always holds the most recent n values in order; without it, it holds the oldest n-1 values followed by the most recent one.", "quantifier": "for every queue size and every sequence of values", "why_tests_cant": "sequences are unbounded", "anchors": ["server/datachange_monitored_item.go:enqueue,setQueueSize", "server/event_monitored_item.go:enqueue"]}
{"id": "C52", "title": "Queue overflow is visible to the client", "statement": "When a value was discarded from a queue longer than one, the overflow bit is set in a value the client subsequently receives.", "quantifier": "for every queue size greater than one and every sequence of values", "why_tests_cant": "sequences are unbounded", "anchors": ["server/datachange_monitored_item.go:enqueue,setQueueSize"]}
{"id": "C53", "title": "Notifications are delivered once, in order, and within the limit", "statement": "Per item, the values delivered over successive publish responses are exactly the queued values in order with none lost or repeated; no response carries more than maxNotificationsPerPublish values; moreNotifications is set exactly when a reporting item still has queued values.", "quantifier": "for every set of items, queue contents and limit, over any number of publishes", "why_tests_cant": "unbounded item sets and histories", "anchors": ["server/subscription.go:publish", "server/datachange_monitored_item.go:notifications", "server/event_monitored_item.go:notifications"]}
{"id": "C54", "title": "Absolute deadband", "statement": "With an absolute deadband, a new sample of a numeric variable is reported exactly when it differs from the last reported value by more than the deadband (status unchanged), for signed, unsigned and array values alike.", "quantifier": "for every pair of values and every deadband", "why_tests_cant": "64-bit value pairs; wrap-around", "anchors": ["server/datachange_monitored_item.go:isDataChange,equalDeadbandAbsolute"]}
{"id": "C55", "title": "Data change trigger", "statement": "Without deadband, a sample is reported exactly when the condition selected by the trigger (status; status or value; status, value or source timestamp) holds relative to the last reported sample, so consecutive reported samples always differ in the selected respect.", "quantifier": "for every sequence of samples and every trigger", "why_tests_cant": "sequences are unbounded", "anchors": ["server/datachange_monitored_item.go:isDataChange,notificationsAvailable"]}
{"id": "C56", "title": "Disabled item count", "statement": "The number of disabled items reported by a subscription equals the number of its items in Disabled mode.", "quantifier": "for every sequence of create, delete and mode changes", "why_tests_cant": "histories are unbounded", "anchors": ["server/subscription.go:AppendItem,DeleteItem", "server/datachange_monitored_item.go:SetMonitoringMode", "server/event_monitored_item.go:SetMonitoringMode"]}
{"id": "C57", "title": "Triggering links", "statement": "An item in Sampling mode is published only after an item that links to it has queued a value; adding and removing links behaves like a multiset of links, and removing a link that does not exist is reported.", "quantifier": "for every sequence of link changes and samples", "why_tests_cant": "histories are unbounded", "anchors": ["server/datachange_monitored_item.go:AddTriggeredItem,RemoveTriggeredItem,enqueue,notificationsAvailable"]}
{"id": "C58", "title": "Event filters", "statement": "An event is queued exactly when the where clause evaluates to true on it (OfType meaning the event type or any subtype), evaluation terminates for every filter a client can send, and the queued fields are the selected attributes in order.", "quantifier": "for every filter and every event", "why_tests_cant": "filters are client-supplied graphs of elements", "anchors": ["server/event_monitored_item.go:OnEvent,whereClause,selectFields"]}
{"id": "C59", "title": "References stay symmetric", "statement": "After any sequence of adding nodes, every hierarchical or other reference (except HasTypeDefinition and HasModellingRule) between two present nodes has its inverse on the other node, without duplicates being created; deleting a node removes every such reference to it.", "quantifier": "for every sequence of node additions and deletions", "why_tests_cant": "histories and graphs are unbounded", "anchors": ["server/namespace_manager.go:addNodes,AddNodes,deleteNodeandInverseReferences,DeleteNodes"]}
{"id": "C60", "title": "Standard nodes cannot be deleted", "statement": "No sequence of DeleteNodeByID / DeleteNodeByIDRecursive calls removes a node of namespace 0 or a mandatory child; refused calls change nothing.", "quantifier": "for every address space and every sequence of calls", "why_tests_cant": "graphs and histories are unbounded", "anchors": ["server/namespace_manager.go:isProtectedNode,DeleteNodeByID,DeleteNodeByIDRecursive"]}
{"id": "C61", "title": "Subtype test is the transitive closure of HasSubtype", "statement": "IsSubtype(a, b) is true exactly if b is reachable from a by one or more inverse HasSubtype references, and it terminates even when the type graph has a cycle.", "quantifier": "for every type graph and pair of types", "why_tests_cant": "graphs are unbounded, chains may be longer than any tested", "anchors": ["server/namespace_manager.go:IsSubtype"]}
{"id": "C62", "title": "Child enumeration terminates and is exact", "statement": "Enumerating children or subtypes of a node terminates on every graph and returns each descendant once; recursive deletion reports the number of nodes it deleted.", "quantifier": "for every graph, including cyclic and diamond-shaped ones", "why_tests_cant": "graphs are unbounded", "anchors": ["server/namespace_manager.go:GetChildren,GetSubTypes,DeleteNodeByIDRecursive"]}
{"id": "C63", "title": "Browse returns exactly the matching, permitted references", "statement": "Browse on an existing permitted node returns, in order, exactly the references whose direction, type (with subtypes if asked) and target node class match and whose target the user may browse.", "quantifier": "for every address space, user and browse description", "why_tests_cant": "graphs and filters are unbounded", "anchors": ["server/server_service_set.go:handleBrowse"]}
{"id": "C64", "title": "Browse paths resolve to all their targets", "statement": "TranslateBrowsePathsToNodeIds returns every node reachable by the path, and only nodes the user may browse.", "quantifier": "for every address space, user and path", "why_tests_cant": "graphs and paths are unbounded", "anchors": ["server/server_service_set.go:handleTranslateBrowsePathsToNodeIds,follow,target"]}
{"id": "C65", "title": "Namespace indexes are stable and unique", "statement": "The namespace table never contains a URI twice, an index once handed out always designates the same URI, and adding a known URI returns its existing index.", "quantifier": "for every sequence of additions", "why_tests_cant": "histories are unbounded", "anchors": ["server/namespace_manager.go:Add"]}
{"id": "C66", "title": "Attribute access control", "statement": "A value is read, written or monitored, or a method called, only if one of the user's roles has the corresponding permission on the node and the node's access level allows it; a node the user may not browse is indistinguishable from a missing one for Read and Write.", "quantifier": "for every node, role configuration, user and request", "why_tests_cant": "role and permission configurations are unbounded", "anchors": ["server/server_service_set.go:readValue,writeValue,handleCall,handleCreateMonitoredItems", "server/variable_node.go:UserAccessLevel", "server/roles_provider.go:IsUserPermitted"]}
{"id": "C67", "title": "Role assignment", "statement": "A user is granted a role exactly when some rule for that role admits the application and endpoint and one of its identity criteria matches the user, independent of the order of the rules.", "quantifier": "for every rule list, user, application and endpoint", "why_tests_cant": "rule lists are unbounded", "anchors": ["server/roles_provider.go:GetRoles"]}
{"id": "C68", "title": "Written values match the declared type", "statement": "If Write reports Good for a Value attribute without handler, the stored value is null or has the declared built-in type (or the variable accepts any type), has a rank allowed by the value rank, and respects the configured length limits.", "quantifier": "for every variable and every value", "why_tests_cant": "types, ranks and lengths combine", "anchors": ["server/server_service_set.go:writeValue"]}
{"id": "C69", "title": "Index ranges on read and write", "statement": "Reading with an index range returns exactly the selected elements; writing with an index range changes exactly the selected elements; reading back a range just written returns what was written; malformed ranges are BadIndexRangeInvalid, ranges outside the data BadIndexRangeNoData.", "quantifier": "for every array or string, every range text", "why_tests_cant": "all strings as ranges, all lengths", "anchors": ["server/server_service_set.go:readRange,writeRange,parseBounds,validateIndexRange"]}
{"id": "C70", "title": "Writing never crashes the server", "statement": "Every Write request gets a per-item status.", "quantifier": "for every node state and write value", "why_tests_cant": "values are client controlled", "anchors": ["server/server_service_set.go:writeValue,writeRange", "server/variable_node.go:SetValue,SetHistorizing"]}
{"id": "C71", "title": "Batch services answer every item in place", "statement": "A batch service returns one result per request item, at the item's position, equal to what the item alone would have given; empty batches and batches over the operation limit are refused as a whole with no effect.", "quantifier": "for every batch and every completion order of the worker pool", "why_tests_cant": "completion orders of concurrent workers are schedules", "anchors": ["server/server_service_set.go:handleRead,handleWrite,handleBrowse,handleCall"]}
{"id": "C72", "title": "Endpoint selection picks the strongest acceptable endpoint", "statement": "Dial connects with an endpoint whose policy is supported and matches the options, and no other such endpoint has a higher security level; without a client certificate only an unsecured endpoint is chosen unless a policy was requested explicitly; if none matches Dial fails.", "quantifier": "for every list of endpoints and options", "why_tests_cant": "endpoint lists are server controlled", "anchors": ["client/client.go:Dial"]}
{"id": "C73", "title": "Timestamp selection", "statement": "A client that asks for source, server, both or neither timestamps receives exactly these, with value and status unchanged, for reads and for monitored items.", "quantifier": "for every data value and choice", "why_tests_cant": "value space is unbounded", "anchors": ["server/server_service_set.go:selectTimestamps", "server/datachange_monitored_item.go:withTimestamps"]}
{"id": "C74", "title": "Decoding arbitrary bytes never crashes the process", "statement": "Decoding any byte sequence as any supported type returns a value or an error; no input, however deeply nested, terminates the process.", "quantifier": "for every byte sequence, every type, every stack size", "why_tests_cant": "the input space is all byte strings; crashes hide in combinations of type bytes", "anchors": ["ua/binary_decoder.go:ReadVariant,ReadDiagnosticInfo,Decode"]}
{"id": "C75", "title": "ExtensionObject bodies are delimited by their declared length", "statement": "After reading an ExtensionObject of a registered type the reader is positioned at the end of the declared body, also when the sender's version of the type has further fields.", "quantifier": "for every registered type and every body", "why_tests_cant": "requires reasoning over all versions a peer may send", "anchors": ["ua/binary_decoder.go:ReadExtensionObject"]}
{"id": "C76", "title": "Arbitrary frames on an open channel never crash the receiver", "statement": "Whatever bytes a peer sends on an open channel, receiving a frame ends in a delivered fragment or an error; it never terminates the process.", "quantifier": "for every frame, security mode, policy and channel state", "why_tests_cant": "the frame space is all byte strings and the crash conditions are arithmetic over sizes and keys", "anchors": ["server/server_secure_channel.go:readRequest", "client/client_secure_channel.go:readResponse"]}
{"id": "C77", "title": "Renewing the security token never breaks the channel", "statement": "However requests, token renewals and renewal timeouts of concurrent callers interleave, the server never refuses a chunk of its own client because of the token it names.", "quantifier": "for every interleaving of requests, renewals and deliveries", "why_tests_cant": "schedules between two processes are unbounded", "anchors": ["client/client_secure_channel.go:sendRequest,renewToken", "server/server_secure_channel.go:handleOpenSecureChannel,readRequest"]}
{"id": "C78", "title": "A client request returns by its deadline", "statement": "A call of Request returns, with a response or BadRequestTimeout, once its timeout hint has elapsed, also when the server does not answer.", "quantifier": "for every number of concurrent callers and every schedule", "why_tests_cant": "needs all schedules of many callers and a silent peer", "anchors": ["client/client_secure_channel.go:Request"]}
{"id": "C79", "title": "A chunk is secured with the keys of the token it names", "statement": "Every chunk written on a channel is signed and encrypted with the keys belonging to the token id in its header, also while the token changes.", "quantifier": "for every interleaving of sending and token change", "why_tests_cant": "race between two goroutines; the window is a few instructions wide", "anchors": ["server/server_secure_channel.go:readRequest,sendServiceResponse", "client/client_secure_channel.go:sendServiceRequest,renewToken"]}
{"id": "C80", "title": "Publish requests time out only after their hint", "statement": "A publish request is answered BadTimeout only if its timeout hint is not zero and at least that time has passed since the server received it.", "quantifier": "for every request, client clock and history of the queue", "why_tests_cant": "depends on the difference of two clocks and on the time spent in the queue", "anchors": ["server/session.go:removePublishRequest"]}
{"id": "C81", "title": "A session stays with the client that created it", "statement": "ActivateSession moves a session to a channel only if the request is signed with the key of the certificate given when the session was created.", "quantifier": "for every history of sessions, channels and clients", "why_tests_cant": "quantifies over all clients and histories", "anchors": ["server/server_service_set.go:handleCreateSession,handleActivateSession"]}
{"id": "C82", "title": "Password logins work with every server key", "statement": "Whatever RSA key the server uses, an encrypted user name token made by the client with the server's public key reaches the authenticator with the password the user gave.", "quantifier": "for every key, password and nonce", "why_tests_cant": "about one key in 256 has a private exponent that is shorter than its modulus; tests use a fixed key", "anchors": ["server/server_service_set.go:handleActivateSession", "client/client.go:open"]}
{"id": "C83", "title": "One client cannot block the subscriptions of others", "statement": "However subscriptions are created, used, published, deleted and expire, no goroutine of the server waits for ever for a lock or for room in a queue: every request about subscriptions can finish.", "quantifier": "for every set of concurrent service calls, publishing timers and expiry checks and every schedule of them", "why_tests_cant": "deadlocks need particular schedules of many goroutines", "anchors": ["server/subscription.go:publish,deleteImpl", "server/subscription_manager.go:Delete,checkForExpiredSubscriptions", "server/server_service_set.go:handlePublish"]}
{"id": "C84", "title": "Services that meet do not crash the server", "statement": "No interleaving of services on subscriptions, publishing timers, expiry and closing of the server makes the process panic by closing a nil or closed channel or by using what a deleted subscription has thrown away.", "quantifier": "for every history of interleaved services, timers and expiry", "why_tests_cant": "needs particular interleavings; one panic ends the process", "anchors": ["server/subscription.go:Delete,deleteImpl,Modify,acknowledge,AppendItem,startPublishing,stopPublishing", "server/subscription_manager.go:stopPublishingAllSubscriptions", "server/server_service_set.go:handleDeleteSubscriptions,handleModifySubscription,handleRepublish,handlePublish"]}
{"id": "C85", "title": "Publishing mode is obeyed", "statement": "While publishing is disabled for a subscription its client gets keep-alives only; while it is enabled, available notifications are sent with exactly their contents in the first publishing cycle that finds a publish request, or at once when a publish request arrives for a subscription that had to wait for one.", "quantifier": "for every history of cycles, publish requests and changes of the publishing mode", "why_tests_cant": "histories are unbounded", "anchors": ["server/subscription.go:publish,handleLatePublishRequest,SetPublishingMode"]}
{"id": "C86", "title": "Monitored items never block the server", "statement": "Publishing, sampling, raising of events, the expiry of subscriptions and the services that create, link, change and delete monitored items and subscriptions never wait for each other for ever, whatever items the client links by SetTriggering and whatever variables it monitors.", "quantifier": "for every graph of triggering links, every choice of monitored variables (also the diagnostics of subscriptions and sessions), every set of concurrent cycles, samples, events and service calls, and every schedule of them", "why_tests_cant": "deadlocks need particular schedules and particular links", "anchors": ["server/datachange_monitored_item.go:enqueue,SetTriggered", "server/event_monitored_item.go:OnEvent,SetMonitoringMode,Modify,Delete", "server/object_node.go:OnEvent,AddEventListener,RemoveEventListener", "server/server_service_set.go:handleSetTriggering", "server/datachange_monitored_item.go:Poll,startMonitoring,notificationsAvailable", "server/subscription_manager.go:checkForExpiredSubscriptions,addDiagnosticsNode", "server/session_manager.go:addDiagnosticsNode"]}
{"id": "C87", "title": "Disabling an item discards its values", "statement": "After an item is disabled and enabled again, the client receives only values that were sampled after it was enabled again.", "quantifier": "for every history of samples, publishing cycles and mode changes", "why_tests_cant": "needs a sample that waits for a publishing cycle at the moment of disabling; histories are unbounded", "anchors": ["server/datachange_monitored_item.go:SetMonitoringMode,notificationsAvailable,startMonitoring"]}
{"id": "C88", "title": "Percent deadband", "statement": "A percent deadband that the server accepts suppresses the changes it is meant to suppress: in particular a value that does not change is not reported again, and no change of more than the deadband is missed.", "quantifier": "for every history of samples and cycles", "why_tests_cant": "histories are unbounded", "anchors": ["server/datachange_monitored_item.go:isDataChange,notificationsAvailable", "server/server_service_set.go:handleCreateMonitoredItems"]}
{"id": "C89", "title": "Events reach every notifier once", "statement": "An event raised at an object is delivered exactly once to the listeners of that object and of every object that is reached from it by inverse HasNotifier references up to the Server, and to no others; raising it terminates.", "quantifier": "for every address space and every object", "why_tests_cant": "graphs of notifiers are unbounded and may have cycles", "anchors": ["server/namespace_manager.go:OnEvent"]}
{"id": "C90", "title": "Variant type of a data type", "statement": "FindVariantType returns the variant type of the nearest built-in supertype of a data type in the current address space, whatever was looked up before, and it terminates.", "quantifier": "for every type graph and every sequence of lookups and additions", "why_tests_cant": "type graphs and histories are unbounded", "anchors": ["server/namespace_manager.go:FindVariantType,FindSuperType"]}
{"id": "C91", "title": "Fields of events come back", "statement": "An event that a client selects with the select clauses of its kind (or of a kind that has a part of its fields) and unmarshals with UnmarshalFields has the field values it was raised with; fields it does not have get their zero values, and a wrong number of fields is refused.", "quantifier": "for every event of the four kinds and every kind used to read it", "why_tests_cant": "all field values and combinations of kinds", "anchors": ["ua/base_event.go:GetAttribute,UnmarshalFields", "ua/condition.go", "ua/acknowledgeable_condition.go", "ua/alarm_condition.go", "server/event_monitored_item.go:selectFields"]}
{"id": "C92", "title": "A tampered endpoint list does not weaken the connection", "statement": "If the answer to the client's discovery request is altered on its way, Dial either fails or connects with an endpoint at least as strong as the one it would have chosen from the server's own list; in particular it compares what it discovered with the list the server returns in CreateSession.", "quantifier": "for every genuine list, every altered list and all options", "why_tests_cant": "the alterations are an adversary's choice", "anchors": ["client/client.go:Dial", "client/client.go:open"]}
{"id": "C93", "title": "Passwords never cross the network readable", "statement": "The password or issued token of a user leaves the client only encrypted with the key of the server's certificate, or over a channel that encrypts its messages.", "quantifier": "for every endpoint list, all options, passwords and nonces", "why_tests_cant": "token policies are chosen by the other side; a test sees the lists of one server", "anchors": ["client/client.go:open", "server/server.go:buildEndpointDescriptions"]}
{"id": "C94", "title": "Identities are authenticated, and valid ones get in", "statement": "A session is activated for an identity only if the authenticator for its kind accepted exactly this identity, the password came encrypted or the possession of the certificate's key was shown, and the endpoint is one the server offers; on every endpoint the server offers, every identity its authenticator accepts can log in; no identity token crashes the server.", "quantifier": "for every server configuration, channel, token and identity", "why_tests_cant": "the tokens are an adversary's choice, and configurations multiply with policies, modes and kinds of identity", "anchors": ["server/server_service_set.go:handleActivateSession", "client/client.go:open", "server/server.go:buildEndpointDescriptions"]}
{"id": "C95", "title": "Methods run where they belong, for their caller only", "statement": "Call runs a method only on an object that has it; the standard methods GetMonitoredItems and ResendData take exactly one UInt32 argument, answer other arguments with the status of the standard, act only on subscriptions of the calling session, return exactly the handles of its items in corresponding places, and after ResendData every reporting item sends its present value.", "quantifier": "for every address space, user, session, set of subscriptions and list of arguments", "why_tests_cant": "arguments and sessions are chosen by clients; that no other subscription is reached or changed speaks about all of them", "anchors": ["server/server_service_set.go:handleCall", "server/server.go:initializeNamespace", "server/subscription.go:resendData", "server/datachange_monitored_item.go:notificationsAvailable"]}
{"id": "C96", "title": "Only trusted, unrevoked certificates are accepted", "statement": "Unless verification is switched off, a secure channel is opened with the other side only if its certificate is in the trust list or descends by signatures from one that is, is in its period, made for the purpose and the host, and no list in force of its issuer names it, whatever other certificates the other side sends along; a trusted certificate is accepted; rejected certificates are filed.", "quantifier": "for every certificate and chain sent, all trust lists, issuer lists and revocation lists, all times", "why_tests_cant": "chains and lists are unbounded and partly an adversary's choice; tests try a few certificates", "anchors": ["ua/certificate_helpers.go:ValidateCertificate", "ua/certificate_helpers.go:checkRevocation", "server/server_secure_channel.go:Open", "client/client_secure_channel.go:Open"]}
{"id": "C97", "title": "A session belongs to the application of its channel", "statement": "The application URI under which the server creates a session is one of the certificate that secures the channel.", "quantifier": "for every channel and CreateSession request", "why_tests_cant": "the request is the adversary's choice; tests use honest clients, which send the certificate of the channel", "anchors": ["server/server_service_set.go:handleCreateSession"]}
{"id": "C98", "title": "A loaded node set keeps its meaning", "statement": "Loading a UANodeSet file puts every node of the file into the server under the same identifier in the namespace with the same URI, whatever indexes the file and the server use for it; references, browse names and display names keep their meaning in the same way; no two nodes are merged, nodes that the file does not name are untouched and no namespace index of the server changes; a file that names nodes it cannot mean is refused.", "quantifier": "for every file, every namespace table of the server, every order of loading files", "why_tests_cant": "indexes of file and server differ in unboundedly many ways, depending on which files were loaded before; tests load one or two files into a fresh server", "anchors": ["server/namespace_manager.go:LoadNodeSetFromBuffer", "server/namespace_manager.go:toNodeID", "server/namespace_manager.go:toBrowseName", "ua/ua_node_set.go"]}
{"id": "C99", "title": "Values in node sets survive loading", "statement": "A variable of a loaded UANodeSet file has the value the file gives it, with the namespaces inside the value translated, whatever its data type and rank, and no value crashes the server.", "quantifier": "for every data type, rank and value of a variable in a file", "why_tests_cant": "data types are open ended, and values depend on the file, its aliases and the types loaded before", "anchors": ["server/namespace_manager.go:toDataValue"]}
{"id": "C100", "title": "Connecting never crashes the client", "statement": "Whatever the answering server sends during discovery, channel opening, CreateSession, ActivateSession and the reading of the namespace tables, client.Dial returns a client or an error; it neither panics nor goes on for ever.", "quantifier": "for every sequence of server answers, every list of endpoints and certificates, every configuration of the client", "why_tests_cant": "the peer is arbitrary and possibly hostile before it has been authenticated; tests use the library's own well-behaved server", "anchors": ["client/client.go:Dial", "client/client.go:open", "client/client_service_set.go", "client/client_secure_channel.go:Open", "client/client_secure_channel.go:newClientSecureChannel"]}
{"id": "C101", "title": "Dial connects exactly to what it was meant for", "statement": "If client.Dial returns a client, then the server has listed its endpoint, its certificate was validated, the channel uses the keys the mode asks for, the session was created with the same certificate and with a valid signature over the client's certificate and nonce, and the session was activated; and conversely Dial succeeds with every server that does its part, and the client then knows the server's namespaces.", "quantifier": "for every server behaviour and every configuration of the client", "why_tests_cant": "it quantifies over all answers of an adversarial server and over all timings of the closing of the discovery connection", "anchors": ["client/client.go:Dial", "client/client.go:open", "client/client_secure_channel.go:Open", "client/client_secure_channel.go:Close"]}
{"id": "C102", "title": "Connections are not left open", "statement": "When client.Dial fails, every TCP connection it made is closed; when it succeeds only the one of the session is open; after Close of the client that one is closed too.", "quantifier": "for every server behaviour at every step of connecting and closing", "why_tests_cant": "leaks show only after many failures, at each of many points where the server may fail", "anchors": ["client/client.go:Dial", "client/client.go:Close", "client/client_service_set.go:GetEndpoints", "client/client_secure_channel.go:Close", "client/client_secure_channel.go:Abort"]}
{"id": "C103", "title": "Items are sampled at their revised interval", "statement": "The revised sampling interval respects the limits of the server and of the node and is the requested one when that is within them; while a data change item is enabled, it is read exactly once at each tick of one timer whose period is the revised interval (to the millisecond), and after it is disabled or deleted it is read no more.", "quantifier": "for every requested interval, publishing interval and node; for every history of create, modify, mode change and delete requests, ticks and polls, in every interleaving", "why_tests_cant": "it speaks of all histories and interleavings of services with the goroutines of the poll groups, and of all float64 intervals", "anchors": ["server/datachange_monitored_item.go:setSamplingInterval", "server/datachange_monitored_item.go:startMonitoring", "server/datachange_monitored_item.go:stopMonitoring", "server/scheduler.go:GetPollGroup", "server/scheduler.go:run"]}
{"id": "C104", "title": "Services on items that meet do not crash the server", "statement": "However creation, modification, mode changes, sampling and deletion of monitored items are interleaved, the server does not panic.", "quantifier": "for every number of items and goroutines and every interleaving of their steps", "why_tests_cant": "the panics need a deletion between two steps of another request; no test can enumerate the interleavings", "anchors": ["server/datachange_monitored_item.go:Modify", "server/datachange_monitored_item.go:SetMonitoringMode", "server/datachange_monitored_item.go:Delete", "server/datachange_monitored_item.go:Poll", "server/scheduler.go:NewPollGroup"]}
{"id": "C105", "title": "A server runs once and ends when it is closed", "statement": "At most one call of ListenAndServe serves, it returns only with an error and only after all its connections have ended. After Close, which gives clients the three seconds that it announces, the serving call ends with BadServerHalted, nothing listens and no connection is left, whatever clients do; a timeout of Accept is survived with growing pauses. Close never crashes the process, and a server that could not start can be started later.", "quantifier": "for every history of calls of ListenAndServe and Close, of connections, errors and timers, in every order", "why_tests_cant": "needs all interleavings of calls, connections and timers; a test sees one", "anchors": ["server/server.go:ListenAndServe,Close,serve,handleConnection"]}
{"id": "C106", "title": "Published counts and nodes of sessions and subscriptions are right", "statement": "With diagnostics enabled, CurrentSessionCount, CumulatedSessionCount, SessionTimeoutCount, CurrentSubscriptionCount and CumulatedSubscriptionCount are at any time the numbers of sessions and subscriptions that exist, were created or timed out; the address space holds a diagnostics node for each session and each subscription that exists and for no other, and the server's SubscriptionDiagnosticsArray lists exactly the subscriptions that exist. With diagnostics disabled nothing of it is there.", "quantifier": "for every history of sessions and subscriptions created, refused, closed, expired and deleted", "why_tests_cant": "counters drift and nodes leak only along particular histories of creation, expiry and deletion", "anchors": ["server/session_manager.go:Add,Delete,checkForExpiredSessions,addDiagnosticsNode,removeDiagnosticsNode", "server/subscription_manager.go:Add,Delete,addDiagnosticsNode,removeDiagnosticsNode", "server/server.go:initializeNamespace"]}
{"id": "C107", "title": "Security diagnostics of a session are right and shown only over encrypted channels to authenticated users", "statement": "The SessionSecurityDiagnostics of a session can be read exactly by sessions whose user has the role AuthenticatedUser and whose channel signs and encrypts; what they read describes the session it is about: its id, the users it was activated with in order, the way the last one was authenticated, and the mode, policy and certificate of its channel.", "quantifier": "for every pair of sessions, every assignment of roles and every sequence of activations", "why_tests_cant": "concerns every pair of a reading and a described session, of any users and channels", "anchors": ["server/session_manager.go:addDiagnosticsNode", "server/session.go:SetUserIdentity"]}
{"id": "C108", "title": "Request counters tell how many requests were handled and failed", "statement": "For each service the session's diagnostics count every request of the session once and every one answered with a fault once as an error; TotalRequestCount is the sum of them; RejectedRequestsCount counts every request that was refused once. No counter shows more than happened, and none loses any when clients work at the same time.", "quantifier": "for every sequence of requests with every outcome, and every interleaving of the increments", "why_tests_cant": "every exit of every handler has its own increments, and lost updates depend on the schedule", "anchors": ["server/server_service_set.go:handleBrowse,handleRead,handleWrite,handlePublish,handleUnregisterNodes", "server/server.go:handleRequest"]}
{"id": "C109", "title": "Standard structures and enumerations are those of the OPC UA schema", "statement": "Every structure that the library defines has the name and, in order, the fields of the structure of the schema, and is written on the wire in the layout the schema gives, with all that is in it; every value of it is read back as it was. The constants of every enumeration have the values of the schema, and fields have the enumeration the schema gives them.", "quantifier": "for every structure and enumeration of the library and every value of its fields", "why_tests_cant": "a structure with two fields exchanged or of the wrong width still reads back what the same library wrote; only the comparison with the schema shows it, for each of 284 structures and all their values", "anchors": ["ua/structs.generated.go", "ua/enums.generated.go", "ua/binary_encoder.go:getEncoder", "ua/binary_decoder.go:getDecoder"]}
{"id": "C110", "title": "Standard structures are known by the ids of the address space", "statement": "Loading the package registers every structure under an id of its own without a panic. The id under which the library writes a structure into an ExtensionObject, and by which it finds the structure when it reads one, is that of the Default Binary encoding of the data type of that name in the address space; what is written in an ExtensionObject is read back as it was.", "quantifier": "for every structure, every encoding object of the address space and every value", "why_tests_cant": "a wrong id is symmetric: the library reads back what it wrote, while every other party fails; and an id used twice ends the program when the package is loaded", "anchors": ["ua/structs.generated.go:init", "ua/nodeids.generated.go", "ua/binary_registry.go:RegisterBinaryEncodingID", "server/nodeset_1_04.xml"]}
{"id": "C111", "title": "Service messages reach the other side as what they are", "statement": "Each service of the client sends the request of its name; the server reads it as that request with the same content. Each answer of the handlers to it is either the response that the service awaits or a ServiceFault, and the client reads it as such with the same content. Services that the server does not have are answered by a fault. A message behind any other id is refused.", "quantifier": "for every service, every content of the messages and every id", "why_tests_cant": "four switches of some forty cases each, in two packages, must agree pairwise and with the registry; the content is unbounded", "anchors": ["client/client_secure_channel.go:sendServiceRequest,readResponse", "client/client_service_set.go", "server/server_secure_channel.go:sendServiceResponse,readRequest", "server/server.go:handleRequest"]}
{"id": "C112", "title": "A multi-state variable shows the text of its value", "statement": "After SetMultiStateValueDiscreteTypeBehavior, a client that writes a value of the enumeration finds the value stored and the property ValueAsText equal to the display name of that value, whatever was written before; a value that is not in the enumeration is refused and changes nothing; no written value ends the server; two clients that write at the same time leave the value and the text in step.", "quantifier": "for every enumeration, every sequence of written values of every type and every interleaving of two writers", "why_tests_cant": "the value is any variant, the enumeration any list, and the text lags behind only in some interleavings of the three stores of a write", "anchors": ["server/namespace_manager.go:SetMultiStateValueDiscreteTypeBehavior,toEnumValues", "server/server_service_set.go:writeValue"]}
{"id": "C113", "title": "Properties and components are found by their browse name", "statement": "FindProperty answers with a variable that the node refers to by HasProperty and that has the browse name, and finds one if there is one; FindComponent does so for components, of HasComponent and its subtypes. The behaviour of a multi-state variable is set exactly if it has both of its properties.", "quantifier": "for every node, its references, every address space and every browse name", "why_tests_cant": "the references are any list, in either direction, to nodes that may not exist and may share a browse name", "anchors": ["server/namespace_manager.go:FindProperty,FindComponent,SetMultiStateValueDiscreteTypeBehavior"]}
{"id": "C114", "title": "Discovery tells clients which endpoints there are", "statement": "FindServers answers with the server itself if its URI or no URI is named. GetEndpoints answers with every combination of mode and policy that the server offers, once, weakest first with rising levels, under the URL the client names, with the users it knows under ids of their own; or with nothing if the client wants another transport. Neither depends on what was asked before. A channel with the policy and mode of a listed endpoint gets that endpoint; a server that does not allow channels without security still answers discovery on them. Making the list never blocks or ends the server.", "quantifier": "for every configuration, every history of requests and every schedule of goroutines that use the lock of the server", "why_tests_cant": "the list is made once and shared by all clients, so that a change made for one shows for others; the lock is taken twice by one goroutine, which stops everything only if a writer arrives between", "anchors": ["server/server_service_set.go:findServers,getEndpoints", "server/server.go:Endpoints,buildEndpointDescriptions,LocalCertificate,Close", "server/server_secure_channel.go:Open"]}
{"id": "C115", "title": "The server says about itself what is so", "statement": "The standard variables of the Server object show the configuration and the state of the server at every read: build information, start time, state, shutdown, capabilities and limits; each has a value of the type it declares. A client that keeps to the published limits is never refused for the number of its operations, and one that exceeds them always is. The history capabilities say whether there is a historian. The server starts with any capabilities.", "quantifier": "for every configuration, every address space with the standard variables, every moment and every number of operations", "why_tests_cant": "53 variables are filled one by one, and a swapped id or a value of the wrong type shows only to a client that reads that variable; the limits are compared in fourteen handlers, each with its own field", "anchors": ["server/server.go:initializeNamespace", "ua/server_capabilites.go", "server/server_service_set.go:handle*"]}
{"id": "C116", "title": "History is what clients saw", "statement": "While Historizing is on, the historian is given every value of a variable, once, in the order in which the values became current and in the order of their timestamps, with the timestamp the client wrote; a value that a client read is already recorded. A write that cannot be recorded is not reported as good. Recording does not stop other clients from reading. A request for history reaches the method of the historian for its kind of details unchanged, and the answer of the historian reaches the client unchanged; wrong requests get the fault of the standard without the historian being asked.", "quantifier": "for every number of concurrent writers and readers, every schedule of their steps, every behaviour of the historian and every request", "why_tests_cant": "whether history agrees with what was read depends on where the lock is taken relative to the store, the call of the historian and the clock, under all interleavings", "anchors": ["server/variable_node.go:SetValue,Value,SetHistorizing", "server/server_service_set.go:writeRange,writeValue,handleHistoryRead", "server/history_read_writer.go"]}
{"id": "C117", "title": "Every node has the attributes of its class", "statement": "Reading an attribute gives the field of that name, in the type of the attribute, if the class of the node has the attribute, and BadAttributeIdInvalid if not; every mandatory attribute is there for every user who may browse the node. A user who may not browse a node cannot tell it from one that does not exist. What can be read can be monitored and the other way round. The default encoding of a value may be named; an array attribute can be read in part; the role permissions shown are those in force.", "quantifier": "for every node of every class, every attribute number, every user and every content of the fields", "why_tests_cant": "27 attributes for eight classes are served by one switch and listed again by eight methods; an attribute left out, or served from the wrong field, shows only for that class and attribute", "anchors": ["server/server_service_set.go:readValue", "server/*_node.go:IsAttributeIDValid"]}
{"id": "C118", "title": "A security policy means the same at both ends and in the standard", "statement": "For each of the five policies the algorithms, the sizes of keys, signatures, blocks and nonces, the derivation of keys and the names of algorithms in messages are those of its profile, in every place where client or server chooses by policy. So whatever one end signs the other verifies, whatever one end encrypts the other decrypts, and messages arrive as sent; a block of plain text is as large as the algorithm takes. Keys and nonces of lengths that the profile does not allow are refused.", "quantifier": "for every policy, every message, every pair of nonces and of keys, and all primitives that keep the contract of their standards", "why_tests_cant": "the policy is switched over in fifteen places, and each policy is a different path through all of them; sizes that do not fit show only for some lengths of messages and keys", "anchors": ["ua/security_policy.go", "client/client.go", "client/client_secure_channel.go:calculatePSHA", "server/server_secure_channel.go:calculatePSHA,Open", "server/server_service_set.go:createSession,activateSession"]}
{"id": "C119", "title": "The diagnostics of a subscription tell what happened to it", "statement": "The variables below the diagnostics node of a subscription and of a session have the names of the standard's structures and each shows the same value as its field in the structure and in the server's array. ModifyCount, RepublishRequestCount, RepublishMessageRequestCount, RepublishMessageCount, PublishRequestCount, LatePublishRequestCount, the three counters of notifications, EnableCount, DisableCount, MonitoredItemCount, MonitoringQueueOverflowCount, DiscardedMessageCount and UnacknowledgedMessageCount are the numbers of what they are named after, and NextSequenceNumber is the number of the next message.", "quantifier": "for every history of publishing cycles, publish requests, acknowledgements, republish requests, changes of the subscription and of its items, samples and failed writes", "why_tests_cant": "a counter that is forgotten on one path is wrong only after a history that takes this path; the same seventy fields are listed in five places", "anchors": ["server/subscription_manager.go:addDiagnosticsNode", "server/session_manager.go:addDiagnosticsNode", "server/server.go:initializeNamespace", "server/subscription.go:publish,handleLatePublishRequest,AppendItem,DeleteItem,Modify", "server/server_service_set.go:handleRepublish"]}
{"id": "C120", "title": "The setting the user chose is the one the library uses", "statement": "Each option of Dial and of New does what its documentation says. If several options are about the same setting the last one counts; options for different settings may be given in any order; a setting nobody chose has its documented default. The chosen value is what can be seen outside: the numbers in the Hello message, the timeout of the connection, the lifetime asked for a token, the fields of CreateSession, the hints in the headers of requests, the files and suppressions that the validation of certificates is told, the endpoint looked for, the limits of sessions and subscriptions, and who decides about which users. An option whose files cannot be read or used makes Dial return an error before it connects.", "quantifier": "for every list of options in every order, every content of the files, every user and every answer of the authenticators", "why_tests_cant": "the settings pass through constructors with more than twenty positional parameters of the same types, where two exchanged ones are seen only with options that differ in both; orders and combinations of options are too many to test", "anchors": ["client/option.go", "client/client.go:Dial,open", "client/client_secure_channel.go:newClientSecureChannel,Request,Open", "client/client_service_set.go:GetEndpoints", "server/option.go", "server/server.go:New", "server/server_secure_channel.go:newServerSecureChannel,Open", "server/session_manager.go:Add", "server/subscription_manager.go:Add", "server/server_service_set.go:handleActivateSession"]}
{"id": "C121", "title": "Every request is answered once, and a connection that ends says why", "statement": "Each request that reaches the server is answered exactly once, in the order of the requests, as long as none of them asks for the end of the channel. The server closes a connection only when the client asks for it or after an Error message that tells why, and writes nothing afterwards. The client reads that reason and gives it to the callers; from then on every call fails at once, none hangs, none gets a response, Close releases the connection, and no message of the peer ends the process of the client.", "quantifier": "for every sequence of requests, sizes of responses, limits, reasons and texts, every order of the steps of callers, and every byte string that arrives as a frame", "why_tests_cant": "the size of a response and the moment of the end are unbounded; a hang shows only after a certain number of calls on a dead connection", "anchors": ["server/server.go:handleConnection,requestWorker,handleRequest", "server/server_secure_channel.go:Abort,Write,sendServiceResponse,handleOpenSecureChannel,handleCloseSecureChannel", "client/client_secure_channel.go:readResponse,responseWorker,handleResponse,Request,Close", "client/client.go:Close"]}
{"id": "C122", "title": "A certificate list is a set that finds the possible issuers", "statement": "After any sequence of AddCert and AppendCertsFromPEM on a list from NewCertificateList, Contains is true exactly for the certificates that were brought, Subjects lists each of them once in the order of first arrival, AppendCertsFromPEM reports exactly whether the file has a usable certificate, FindPotentialParents returns exactly the members that may have signed the given certificate, and nothing panics.", "quantifier": "for every sequence of calls, every content of PEM files and every certificate that is asked for", "why_tests_cant": "the indices by name and by key must stay right for every order of additions, duplicates included", "anchors": ["ua/certificate_list.go:NewCertificateList,FindPotentialParents,Contains,AddCert,AppendCertsFromPEM,Subjects"]}
{"id": "C123", "title": "Status codes and enumeration values have their documented texts and names", "statement": "StatusCode.Error gives each constant the text of its documentation, says 'unknown' exactly for codes without a constant whatever their information bits, and tells constants apart; the first word of a constant's name is the severity that IsGood, IsBad and IsUncertain report. String of an enumeration value is the name of its constant without the name of the type, empty exactly for numbers that are no constant or union of constants, and never the same for two values. The masks and bits for the lower half of a code are those of the standard, and setting bits of one field leaves the others.", "quantifier": "for all 2^32 status codes, all enumerations and all 2^32 values", "why_tests_cant": "tests look at a few of 244 codes and 45 types, not at every number that may arrive on the wire", "anchors": ["ua/status_code.generated.go:Error", "ua/enums.generated.go:String", "ua/status_code.go:constants"]}
{"id": "C124", "title": "The client takes as a response only what its server has made", "statement": "On a secured channel every message that the client takes as a response carries the signature of the server's certificate or a MAC under a key that only client and server can know, made for a token the server has issued; chunks are put together only from one response, in order and once; a response that a server sends arrives as exactly the bytes that were sent, within the limits the client has announced; and no frame, whoever sent it, ends the process of the client.", "quantifier": "for all byte strings as frames, all histories of opening, renewing and receiving, all suites of algorithms that fulfil their contract, all sizes of messages and buffers", "why_tests_cant": "tests talk to an honest server; what an attacker on the wire may send at which moment is not enumerable", "anchors": ["client/client_secure_channel.go:readResponse", "client/client_secure_channel.go:Open", "client/client_secure_channel.go:renewToken"]}
{"id": "C125", "title": "A call returns the answer that the server gave to this call", "statement": "On an open channel between a client and a server of this library, over a stream that delivers its bytes in order in arbitrary pieces, the handlers of the server see exactly the requests that were called, each once, in order and with all their fields; every call that returns has exactly the response that the handler made for this call, of the type the service awaits or a fault, with all its fields, however many calls are under way and in whatever order they are answered; neither side ever fails to read what the other sent; and when nothing is under way any more, every call has its answer.", "quantifier": "for all interleavings of calls of all services, of the two readers, of answers in any order and of cuts of the two streams; all field values that can be represented; all security modes, suites of algorithms that fulfil their contract, nonces, buffer sizes with room for a byte, and messages within the limits; up to 2^32-1 calls, between two renewals of the token", "why_tests_cant": "the number of interleavings, of ways to cut the streams and of values is unbounded; a single confusion of two answers shows only under load", "anchors": ["client/client_secure_channel.go:Request", "client/client_secure_channel.go:handleResponse", "server/server.go:requestWorker", "server/server_secure_channel.go:readRequest", "server/server_secure_channel.go:sendServiceResponse"]}
{"id": "C126", "title": "A Publish request reaches the subscription that needs it, or waits for one", "statement": "A Publish request of an open session is answered exactly once or waits. If the end of a subscription is due to be told, the request carries it. Otherwise it goes at once to the subscription of highest priority among those of its own session that are waiting for a request. A request waits only while its session has a subscription; when a session has none, its requests are answered with BadNoSubscription.", "quantifier": "for all histories of creating, modifying, deleting and enabling subscriptions by any number of sessions, of publishing timers in any order with any data, of requests with any deadlines, and of every order of subscriptions of equal priority", "why_tests_cant": "whether a request is stranded depends on what other sessions do and on the order of timers, deletions and requests; a test sees few of these histories, and a request that waits forever looks like one that waits", "anchors": ["server/server_service_set.go:handlePublish", "server/server_service_set.go:handleDeleteSubscriptions", "server/subscription.go:publish", "server/subscription.go:handleLatePublishRequest", "server/session.go:removePublishRequest"]}
{"id": "C127", "title": "Closing a channel ends it at the server, after everything that was called before", "statement": "Close sends one close frame. Whatever was called, answered and read before, in whatever pieces the bytes arrive, the server reads each request that was called and that it had not read, in the order of the calls, then reads the close request and ends the channel; without a close request it goes on waiting. A close request that does not fit one chunk or the message limit is not sent at all: Close returns an error and the connection stays open.", "quantifier": "for all conversations (calls, answers, deliveries, cuts of the streams), all contents of the close request, all security modes, buffer sizes and limits", "why_tests_cant": "the close frame has its own code for header, padding, signing and encrypting; whether it is understood depends on sizes, mode, keys and on what is still under way in front of it", "anchors": ["client/client_secure_channel.go:Close", "client/client_secure_channel.go:sendCloseSecureChannelRequest", "client/client_secure_channel.go:sendRequest", "server/server_secure_channel.go:readRequest", "server/server_secure_channel.go:handleCloseSecureChannel", "server/server.go:requestWorker"]}
{"id": "C128", "title": "Variables behave as if requests came one after the other", "statement": "However the items of Read and Write requests of several clients and calls of SetValue by the application overlap, there is one order of all items, each item once, in which every answered result is the one that the item has when the items are done one after the other; an item of a request answered before another request was sent comes before the items of that other. In particular a Read sent after a Write was answered Good returns the written value, unless something else changed the variable since. A write with an index range is excepted while something else changes the same variable.", "quantifier": "for all initial values, all numbers of requests and items, all interleavings of their steps and all times of arrival and answer", "why_tests_cant": "a test meets a few interleavings of the worker pool; one that loses or reorders an update needs two tasks to meet between the reading and the storing of a value", "anchors": ["server/server_service_set.go:handleRead", "server/server_service_set.go:handleWrite", "server/server_service_set.go:readValue", "server/server_service_set.go:writeValue", "server/server_service_set.go:writeRange", "server/variable_node.go:Value", "server/variable_node.go:SetValue"]}
{"id": "C129", "title": "A careful client loses no notification, even if responses are lost", "statement": "Responses to Publish that the server has written may be lost on the way. A client acknowledges only messages that it has, receives the answers to its Republish requests, and never leaves 128 messages unacknowledged. Then the messages 1 to n that it holds contain, for every item, the values sampled in their order; as long as no queue overflowed and nobody deleted, changed or disabled the item they are exactly the first values sampled, without gap or repetition; and by asking with Republish for the numbers it misses, the client gets every message that was made, and so every value except those still queued at the item.", "quantifier": "for all histories of samples, services on items and subscriptions, publishing cycles, late requests, losses, acknowledgements and Republish requests, all numbers of items, all limits", "why_tests_cant": "it is about every pattern of losses, acknowledgements and repeated requests, meeting every division of the queues into messages", "anchors": ["server/subscription.go:publish", "server/subscription.go:handleLatePublishRequest", "server/subscription.go:acknowledge", "server/server_service_set.go:handleRepublish", "server/datachange_monitored_item.go:enqueue", "server/datachange_monitored_item.go:notifications"]}
{"id": "C130", "title": "A variable changes, and a method runs, only on the order of an authorised client", "statement": "Whatever bytes arrive on whatever connections: the value of a variable is changed by the network, or a method runs, only when a Write or Call arrived whole on a connection on which earlier the credentials of a user arrived whose roles permit exactly this, in an ActivateSession signed by the owner of the channel; on a secured channel every chunk of both messages was made with the key of the channel; and nothing but what was ordered is changed. A message has its effect once for each time the client sent it.", "quantifier": "for all histories of connections and frames of any bytes, all cryptographic suites, all users, roles, permissions and address spaces", "why_tests_cant": "it is about everything an attacker could send, at any moment of any other conversation", "anchors": ["server/server_secure_channel.go:readRequest", "server/server.go:handleRequest", "server/server_service_set.go:handleActivateSession", "server/server_service_set.go:handleWrite", "server/server_service_set.go:handleCall", "server/session_manager.go:Get"]}
{"id": "C131", "title": "An event reaches every client that listens, once, in order, with the fields asked for", "statement": "A client that has an event item on a node gets each event that is raised at the node, or at an object of which the node is a notifier, while the item is enabled, if the event passes the filter of the item: once, in the order in which the events were raised, with the value of each select clause. It gets no other event. Responses may be lost on the way: a client that acknowledges what it has and asks again for the rest has everything.", "quantifier": "for all address spaces, all filters and clauses, all histories of events, services on items, publishing and loss", "why_tests_cant": "it joins notifiers, filters, queues, publishing and recovery, over all histories and any number of clients", "anchors": ["server/namespace_manager.go:OnEvent", "server/object_node.go:OnEvent", "server/event_monitored_item.go:OnEvent", "server/event_monitored_item.go:setQueueSize", "server/subscription.go:publish"]}
{"id": "C132", "title": "A client that watches a variable ends up with its last value", "statement": "A client has a data change item on a variable. When the variable keeps its value from some time on, the client ends up with that value: once the item was polled, the sampling interval has passed and the publishing timer has come round, the last value of the item that the client has, after asking again for messages that were lost on the way, has the content and status of the variable (with a deadband: is within the deadband of it), whatever values, overflows of the queue, changes of mode and modifications of the item came before.", "quantifier": "for all histories of writes, polls, publishing turns, losses, services on the item and on others, all queue sizes and both discard policies", "why_tests_cant": "it joins sampling, filter, queue overflow, publishing and recovery over all interleavings and times", "anchors": ["server/datachange_monitored_item.go:notificationsAvailable", "server/datachange_monitored_item.go:setQueueSize", "server/datachange_monitored_item.go:Poll", "server/subscription.go:publish", "server/subscription.go:handleLatePublishRequest"]}
{"id": "C133", "title": "A subscription is published at the interval that the server confirmed", "statement": "CreateSubscription and ModifySubscription answer with a publishing interval and with counts for lifetime and keep-alives, and the subscription uses just these. From then on, until it is modified or deleted, it is published once per interval: in any stretch of time no more often than the interval allows, but for the turn that was due, and no less often if the server is not overloaded. A subscription that is gone is not published any more.", "quantifier": "for all histories of creating, modifying, enabling, deleting and expiring of subscriptions by any number of sessions, all requested intervals and counts, and all schedules of the goroutines behind the timers", "why_tests_cant": "intervals come from 125 ms to a minute in steps of less than a millisecond, drift shows only over long times, and which goroutine runs when is up to the scheduler", "anchors": ["server/subscription.go:startPublishing", "server/subscription.go:stopPublishing", "server/subscription.go:Modify", "server/server_service_set.go:handleCreateSubscription", "server/server_service_set.go:handleModifySubscription", "server/server_service_set.go:handleSetPublishingMode"]}
{"id": "C134", "title": "The end of a session leaves nothing behind", "statement": "When a session ends, by CloseSession or because it was not used for longer than its timeout, every Publish request of it that waits is answered, and none is answered afterwards; no request that comes later can use the session. With DeleteSubscriptions its subscriptions are gone at once, otherwise they end by themselves when nobody has asked for their notifications during their lifetime. A service of the session that is under way on another connection at that moment ends with an answer, and the server goes on. A session whose requests never come further apart than its timeout is ended by nobody but its client; one that is silent for longer is ended by the next sweep. It never has more continuation points of Browse than the server allows.", "quantifier": "for all histories of any number of sessions and connections, with sessions created, activated on other connections, closed and timed out, with any services under way at any moment, and for all counts of the subscriptions", "why_tests_cant": "the services of one connection and the end of a session on another must fall into the same microseconds, and orphaned subscriptions show only after hours", "anchors": ["server/session.go:delete", "server/session.go:addPublishRequest", "server/session.go:addBrowseContinuationPoint", "server/session_manager.go:checkForExpiredSessions", "server/server_service_set.go:handleCloseSession", "server/subscription.go:publish"]}
{"id": "C135", "title": "A client that watches a variable sees only values that it had, in the order in which it had them", "statement": "A client monitors the value of a variable. The values in the messages that it has, put in the order of the numbers of the messages, are values that the variable had while it was monitored, each with its status and with the time stamps chosen when the item was created, in the order in which the variable had them, a value possibly several times; apart from marks that there is no value yet (Bad_WaitingForInitialData). This holds for any client, also one that acknowledges what it does not have or asks twice, whether or not responses get lost or cannot be written, and while the item is modified, disabled and enabled. If the client never asks for a message again, the values also arrive in that order.", "quantifier": "for all histories of writes, polls, publishing cycles, late requests, services on items and subscriptions, acknowledgements, Republish requests and losses, all filters, sampling intervals and queue sizes; the numbers of messages below 2^32, without bound for the order of arrival", "why_tests_cant": "it is about every interleaving of writes, samples, queues that overflow, messages and losses", "anchors": ["server/datachange_monitored_item.go:notificationsAvailable", "server/datachange_monitored_item.go:enqueue", "server/datachange_monitored_item.go:SetMonitoringMode", "server/subscription.go:publish", "server/subscription.go:handleLatePublishRequest", "server/server_service_set.go:handleRepublish"]}
{"id": "C136", "title": "Answering a request neither ends the server process nor goes on for ever", "statement": "Whatever frames arrive on a secure channel and whenever their requests are answered, a server makes progress: it cuts an answer of any size into finitely many chunks, and the process survives making them. An answer is the response, cut, padded, signed and encrypted with the key of the token in use, so that a client can read it.", "quantifier": "for all histories of frames and answers on a channel, all policies, modes, buffer sizes and limits, all sizes of answers", "why_tests_cant": "it is about every sequence of well and badly formed frames, renewals and answers of any size; a panic on one connection ends all others", "anchors": ["server/server_secure_channel.go:sendServiceResponse", "server/server_secure_channel.go:readRequest", "server/server_secure_channel.go:handleOpenSecureChannel", "server/server_secure_channel.go:Open"]}
{"id": "C137", "title": "What travels on an encrypted channel stays between client and server", "statement": "Nobody but the holder of the server's private key and the client learns what a client sends in requests on a SignAndEncrypt channel, nor what the server sends in responses on it: not even an attacker who sees and makes every frame, has trusted or untrusted certificates of its own, and takes part in other channels.", "quantifier": "for all histories of any number of clients, servers and connections, all frames an attacker can derive (for requests: all frames whatsoever), all sets of private keys the attacker holds, all openings and renewals", "why_tests_cant": "it quantifies over every strategy of an attacker and over all interleavings of unboundedly many channels", "anchors": ["client/client_secure_channel.go:Open", "client/client_secure_channel.go:sendOpenSecureChannelRequest", "client/client_secure_channel.go:sendServiceRequest", "client/client_secure_channel.go:renewToken", "server/server_secure_channel.go:Open", "server/server_secure_channel.go:readRequest", "server/server_secure_channel.go:sendServiceResponse", "server/server_secure_channel.go:handleOpenSecureChannel"]}
{"id": "C138", "title": "What is taken on a secured channel was sent by the other party", "statement": "On a signed or encrypted channel every request a server hands to a service was sent by the client whose certificate the channel was opened with, and every response a client hands to its caller was sent by the server whose certificate it was given; an attacker who sees and makes every frame, has certificates of its own and takes part in other channels cannot have anything of its own taken.", "quantifier": "for all histories of any number of clients, servers and connections, all frames an attacker can derive, all sets of private keys the attacker holds, all openings and renewals", "why_tests_cant": "it quantifies over every strategy of an attacker and over all interleavings of unboundedly many channels", "anchors": ["client/client_secure_channel.go:Open", "client/client_secure_channel.go:readResponse", "client/client_secure_channel.go:sendServiceRequest", "client/client_secure_channel.go:renewToken", "server/server_secure_channel.go:Open", "server/server_secure_channel.go:readRequest", "server/server_secure_channel.go:sendServiceResponse", "server/server_secure_channel.go:handleOpenSecureChannel"]}
{"id": "C139", "title": "Clients share the workers of the server without harm to each other", "statement": "The items of Browse, BrowseNext, TranslateBrowsePathsToNodeIds, Read, Write and Call requests of all clients are worked on by a fixed number of workers. However they meet, each item is worked on once, items begin in the order in which they came, each answer holds the results of its own items in their places, and no request waits for ever: it is answered once the items before it and its own have ended. What one client asks for does not stop the requests of another.", "quantifier": "for all numbers of workers and connections, all requests with any number of items, all interleavings of their arrival, submission, work and answers, all paths through the handlers of items", "why_tests_cant": "it depends on the interleaving of unboundedly many goroutines, on every path through the code of an item, and on handlers that do not return", "anchors": ["server/server_service_set.go:handleBrowse", "server/server_service_set.go:handleBrowseNext", "server/server_service_set.go:handleTranslateBrowsePathsToNodeIds", "server/server_service_set.go:handleRead", "server/server_service_set.go:handleWrite", "server/server_service_set.go:handleCall", "server/server.go:requestWorker", "server/server.go:WorkerPool"]}
{"id": "C140", "title": "What clients can make the server keep is bounded", "statement": "Whatever clients send, and in whatever order, what the server keeps for them between requests - sessions, waiting Publish requests, continuation points, subscriptions, notifications that were not acknowledged, monitored items, queued values, triggering links, connections, samplers - stays within limits that are known beforehand; a limit refuses or drops nothing for which there is room, and what a client has left behind is given back.", "quantifier": "for all limits that an application can set, and all sequences of requests of any number of clients, of expiries, publishings and values", "why_tests_cant": "a bound is about all histories, however long; a test sees a finite one and no leak that is slower than it", "anchors": ["server/session.go:addPublishRequest", "server/session.go:addBrowseContinuationPoint", "server/session.go:SetUserIdentity", "server/session_manager.go:Add", "server/subscription_manager.go:Add", "server/subscription.go:publish", "server/subscription.go:AppendItem", "server/scheduler.go:GetPollGroup", "server/datachange_monitored_item.go:setQueueSize", "server/datachange_monitored_item.go:AddTriggeredItem", "server/server.go:serve"]}
{"id": "C141", "title": "Decoding takes memory in proportion to what was received", "statement": "What decoding a message asks of memory stays in proportion to the bytes received: a length, a count or a dimension that stands in a message does not make the receiver allocate for elements that have not arrived, whether the decoding succeeds or fails; so that a peer, authenticated or not, cannot exhaust the memory of the process with a small message.", "quantifier": "for all structures of the library, all byte strings, and all lengths, counts and dimensions in them", "why_tests_cant": "the proportion is a statement about all messages; tests decode messages that an encoder has made, where every length is true", "anchors": ["ua/binary_decoder.go:ReadString", "ua/binary_decoder.go:ReadByteString", "ua/binary_decoder.go:ReadByteArray", "ua/binary_decoder.go:getSliceDecoder", "ua/binary_decoder.go:getStructPtrDecoder", "ua/binary_decoder.go:ReadVariant", "ua/binary_decoder.go:ReadDataValue", "ua/binary_decoder.go:ReadExtensionObject", "ua/binary_decoder.go:ReadInt32Array"]}
{"id": "C142", "title": "Browse, browse paths and Read show one address space", "statement": "What the services tell a user about a node agrees: the node class, browse name and display name that Browse shows of a target are those Read gives the same user; a node is unknown to Browse exactly if it is unknown to Read; the type definition that Browse tells is found by browsing for it; and TranslateBrowsePathsToNodeIds finds, for a path, the nodes that the user gets to by browsing along its names.", "quantifier": "for all address spaces, users, browse descriptions, result masks and browse paths of any length", "why_tests_cant": "the agreement is between independent pieces of code and for every address space and user; tests of one service use one fixed nodeset and one user", "anchors": ["server/server_service_set.go:handleBrowse", "server/server_service_set.go:handleTranslateBrowsePathsToNodeIds", "server/server_service_set.go:follow", "server/server_service_set.go:target", "server/server_service_set.go:readValue"]}
{"id": "C143", "title": "A client's book of its monitored items is right", "statement": "A client that writes down what its requests asked for and what the responses confirmed knows its monitored items: the server has exactly the items of that book, with the client handle, mode, timestamps, discard policy, filter, queue size and sampling interval that stand there; GetMonitoredItems lists exactly those ids and handles; and every notification stands under the handle of an item that is in the book and not disabled, with at most the confirmed queue size of values per item. Refused requests change nothing.", "quantifier": "for all histories of CreateMonitoredItems, ModifyMonitoredItems, SetMonitoringMode, DeleteMonitoredItems, GetMonitoredItems, samples, triggers, Publish responses, changes of the publishing interval and items created elsewhere, and all orders in which maps are visited", "why_tests_cant": "the book of the client is an accumulation over the whole history of requests, some of which are refused in part; tests make one item, and look at one response", "anchors": ["server/server_service_set.go:handleCreateMonitoredItems", "server/server_service_set.go:handleModifyMonitoredItems", "server/server_service_set.go:handleSetMonitoringMode", "server/server_service_set.go:handleDeleteMonitoredItems", "server/datachange_monitored_item.go:Modify", "server/event_monitored_item.go:Modify", "server/subscription.go:AppendItem"]}
{"id": "C144", "title": "A client is told only what its user may have", "statement": "Values of variables, other attributes and events reach a client, through Read, HistoryRead, notifications or Republish, only if the user of its session may have them at that moment. What a user may not have does not influence what they are told: two runs of the server that differ only in the values of a variable look alike to a client none of whose users may read it. Nor is a node that a user may not see told from one that does not exist.", "quantifier": "for all address spaces and rights, all numbers of sessions, users and subscriptions, and all histories of logins, requests, samples, events and Publish responses; the second part for all pairs of histories", "why_tests_cant": "confidentiality is about all ways and all histories, and about pairs of runs; a test follows one way in one run", "anchors": ["server/server_service_set.go:readValue", "server/server_service_set.go:handleCreateMonitoredItems", "server/server_service_set.go:handleRepublish", "server/server_service_set.go:handleHistoryRead", "server/datachange_monitored_item.go:Poll", "server/event_monitored_item.go:OnEvent", "server/session.go:SetUserIdentity"]}
{"id": "C145", "title": "What was deleted is gone, and nothing else", "statement": "Once DeleteNode, DeleteNodes, DeleteNodeByID or DeleteNodeByIDRecursive has returned, and until a node of that id is added again, no service knows the deleted nodes: they are not found by Read, Write, Call, Browse, browse paths or CreateMonitoredItems, nothing leads to them, and monitored items on them report that they are unknown and nothing else. Exactly the given nodes, with children also what is under them and belongs to nothing else, are deleted; standard nodes are spared. All others stay as they were, can be browsed and used, and lose only their references to deleted nodes. The calls return.", "quantifier": "for all node objects and address spaces and all histories of adding, deleting, requests, samples and events", "why_tests_cant": "graphs of references and histories are unbounded, and a deleted object can live on wherever a pointer to it is kept; tests delete a few nodes of a small tree and look whether they are found", "anchors": ["server/namespace_manager.go:DeleteNodes", "server/namespace_manager.go:deleteNodeandInverseReferences", "server/namespace_manager.go:DeleteNodeByIDRecursive", "server/namespace_manager.go:GetChildren", "server/namespace_manager.go:OnEvent", "server/server_service_set.go:handleBrowse", "server/event_monitored_item.go:startMonitoring"]}
{"id": "C146", "title": "A client's book of its subscriptions is right", "statement": "A client that writes down what its requests asked for and what the responses confirmed knows its subscriptions: the server has exactly those of that book, with the publishing interval, lifetime and keep-alive counts, limit of notifications, priority and publishing mode that stand there. A subscription that ends by itself is announced to its client by the next Publish responses, and none ends in silence. SetPublishingMode and DeleteSubscriptions answer for every id in its place and act on exactly the subscriptions of the caller; refused calls change nothing. A subscription that a client asks to keep when it closes its session can be used afterwards.", "quantifier": "for all histories of CreateSubscription, ModifySubscription, SetPublishingMode, DeleteSubscriptions, CloseSession and Publish calls of any sessions, of publishing timers with and without Publish requests, expiry checks and session timeouts", "why_tests_cant": "whether two books that are kept apart agree is a claim about every history of calls and timers; tests make a few subscriptions and look at single responses", "anchors": ["server/server_service_set.go:handleCreateSubscription", "server/server_service_set.go:handleModifySubscription", "server/server_service_set.go:handleSetPublishingMode", "server/server_service_set.go:handleDeleteSubscriptions", "server/server_service_set.go:handlePublish", "server/subscription.go:NewSubscription", "server/subscription.go:Modify", "server/subscription.go:publish", "server/subscription_manager.go:checkForExpiredSubscriptions"]}
{"id": "C147", "title": "What was received can be sent on", "statement": "A program that reads a value off a connection can write it to another: every value that a decoder accepts is encoded without an error, and whoever reads what was written reads the same value and stops where it ends; so it goes on through any number of hops. In particular a value that a client has written to a variable can be given to every client that reads it. Structures that can be received are sent under an id by which they are received.", "quantifier": "for all byte strings that are accepted for any type the codec handles, all values that result, all histories of RegisterBinaryEncodingID and all tables of namespaces, any number of hops", "why_tests_cant": "tests start from values the program makes and see whether they come back; what a peer may send is any bytes, with every non-minimal form, shape and nesting the decoder lets through", "anchors": ["ua/binary_decoder.go:ReadVariant", "ua/binary_decoder.go:ReadDataValue", "ua/binary_decoder.go:ReadExtensionObject", "ua/binary_decoder.go:ReadNodeID", "ua/binary_decoder.go:ReadExpandedNodeID", "ua/binary_encoder.go:WriteVariant", "ua/binary_encoder.go:WriteExtensionObject", "ua/binary_encoder.go:WriteExpandedNodeID", "ua/binary_registry.go:RegisterBinaryEncodingID"]}
{"id": "C148", "title": "A value takes no more room when it is sent on than when it was received", "statement": "A program that reads a value off a connection and writes it to another writes no more bytes than it has read, whatever forms the peer has used for ids, strings, shapes and structures, and under every table of namespaces. So a peer cannot make a relay or a server send more than it was sent.", "quantifier": "for all byte strings that are accepted for any type the codec handles, all values that result, all histories of RegisterBinaryEncodingID and all tables of namespaces", "why_tests_cant": "a bound on the length of the output over all accepted inputs, with every non-minimal form, leftover and nesting; tests compare lengths for a few values that the program itself has made", "anchors": ["ua/binary_decoder.go:ReadVariant", "ua/binary_decoder.go:ReadDataValue", "ua/binary_decoder.go:ReadExtensionObject", "ua/binary_decoder.go:ReadNodeID", "ua/binary_encoder.go:WriteVariant", "ua/binary_encoder.go:WriteDataValue", "ua/binary_encoder.go:WriteExtensionObject", "ua/binary_encoder.go:WriteNodeID"]}
{"id": "C149", "title": "What is read depends on nothing but the bytes that are taken", "statement": "A value that a decoder reads is the value of the bytes it took: the same bytes by themselves, or before any other bytes, are read as the same value, and the reader stops at their end; bytes that are refused are refused whatever follows, at the same place. So values that stand one after the other in a message are read as each would be by itself, and a message that was cut is not read as another. Nor does it depend on how deep in the stack it is read: with more room the same is read and the same refused, and the room that is needed is bounded by the length of the message.", "quantifier": "for all byte strings, not only those the encoder writes, all types the codec handles, all registries, all continuations and all depths of the stack", "why_tests_cant": "compares the runs of the decoder on every accepted input with those on every continuation and every beginning of it; tests decode what was encoded", "anchors": ["ua/binary_decoder.go:Decode", "ua/binary_decoder.go:ReadVariant", "ua/binary_decoder.go:ReadDataValue", "ua/binary_decoder.go:ReadExtensionObject", "ua/binary_decoder.go:ReadDiagnosticInfo"]}
