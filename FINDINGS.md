# Where the code departs from the properties

Every theorem with suffix `_fails`, with the comment beside it. Made by tools/report.py.

## C03 DateTime encoding is exact to 100 ns, clamped and order preserving

* `C03_after_range_fails` (Props/Scalars.lean): The code violates the clamping claim: a time in the far future (year ≈ 36812) is read back as the year 1601, because the tick count wraps around.

## C06 ExpandedNodeIDs survive the binary codec

* `C06_nil_nodeid_fails` (Props/Scalars.lean): With a nil NodeID the flags are lost but the URI and index are still written: the reader gets a different value and stops in the middle of the encoding.

## C09 DataValues survive the binary codec and stay aligned

* `C09_alignment_fails` (Props/Value.lean): Alignment is lost when the Variant cannot be decoded: the reader stops before the status code, whose four bytes are then taken for the next field.

## C10 Multi-dimensional arrays keep their shape and never crash the decoder

* `C10_empty_rows_shape_fails` (Props/Value.lean): An array of shape 2×0×0 is read back with shape 0×0×0.
* `C10_inconsistent_dimensions_fails` (Props/Value.lean): A 17-byte Variant with dimensions [2, 1] but no elements crashes the reader.
* `C10_negative_dimension_fails` (Props/Value.lean): So does a negative dimension.

## C12 Structures survive the reflective codec

* `C12_guid_field_fails` (Props/Value.lean): A structure with a GUID field (such as DataSetMetaDataType) cannot be encoded at all, although a GUID is a built-in type.

## C19 QualifiedName and browse path text forms round-trip

* `C19_large_prefix_fails` (Props/Text.lean): The claim is false for a number above 65535: "70000:a", which has no valid namespace prefix, parses as the whole string in namespace 65535.

## C20 Namespace index and URI translation are inverse

* `C20_standard_fails` (Props/Namespaces.lean): A node of the standard namespace has two names: given with the URI it is found, and named without. The registry of types, a map with these names as keys, does not find the one under the other.
* `C20_server_fails` (Props/Namespaces.lean): A node of another server is taken for the node of this one that has the same id: the server index is dropped.
* `C20_full_table_fails` (Props/Text.lean): The bound on the table is needed: with exactly 65536 namespaces (all indexes in use) no index is ever replaced by its URI, because the length is truncated to 16 bits, so the id means another namespace at a server with another table.

## C22 DiagnosticInfo decoding never crashes

* `C22_symbolic_id_fails` (Props/Value.lean): A DiagnosticInfo with a symbolic id crashes the reader.
* `C22_own_encoding_fails` (Props/Value.lean): The writer produces such bytes for an ordinary DiagnosticInfo.

## C27 Only the current or the pending token is accepted

* `C27_token_zero_fails` (Props/Channel.lean): The claim that only issued tokens are accepted does not hold between Open and the first chunk: the current token id is still zero, a chunk that names token 0 gets past the token check, and in the secured modes it reaches the nil verifier and crashes the server process.

## C30 Message limits are enforced on receive and on send

* `C30_partial_response_fails` (Props/Channel.lean): But a response that needs more chunks than the client allows is delivered in part: the chunk limit is only noticed after the allowed number of chunks has been written.
* `C30_in_part_fails` (Props/Channel.lean): This is so on every channel with a limit: a message that needs more chunks leaves exactly the allowed number of frames on the wire, none of them the last of a message, and the sender then has an error.

## C31 No unauthenticated request on a secured channel

* `C31_plain_request_fails` (Props/OpenChannel.lean): The claim is false: on a channel in any state and any mode, also SignAndEncrypt, a frame of the OPN type that names the policy None is accepted with whatever body it carries. Building it needs no key, no token and no channel id; the body may be any service request.
* `C31_foreign_certificate_fails` (Props/OpenChannel.lean): Nor is the certificate of the channel compared: a frame signed with any other RSA key is accepted when it carries the certificate of that key, which then replaces the one of the channel.

## C32 Replayed chunks are refused

* `C32_replay_fails` (Props/Channel.lean): Replay is not detected: every frame that was accepted is accepted again right away, with the same content. The sequence number is read and ignored.

## C33 Hello negotiation

* `C33_tiny_buffer_fails` (Props/Frame.lean): But a client that announces a send buffer below 8 bytes crashes the server with the first read after the Acknowledge: `receiveBuffer[0:8]` is out of range.

## C34 Token lifetime and renewal

* `C34_wrap_fails` (Props/Frame.lean): Above 57266230 ms the 32-bit product wraps and renewal is scheduled much too early: a server that grants 16 hours (57600000 ms) makes the client renew after about 4 minutes instead of 12 hours.

## C36 Every session service is gated

* `C36_unactivated_deleted_fails` (Props/Session.lean): A service request that names a session not yet activated deletes the session, whatever channel it comes from.
* `C36_foreign_refresh_fails` (Props/Session.lean): A request refused because it came over a foreign channel extends the life of the session: after 9 s of silence the session would have expired one second later, but it is still served.

## C38 Publish requests are answered exactly once, in order, with bounded queueing

* `C38_delete_fails` (Props/PublishQueue.lean): Deleting the session drops the queued requests: they are neither queued nor answered, and never will be.
* `C38_hang_fails` (Props/PublishQueue.lean): The worker can hang: it finds the queue full, the timers then empty it (all requests have timed out), and the worker waits to receive from an empty queue. No timer and no passing of time gets it out; its request is neither queued nor answered, and its channel serves no further request.

## C40 BrowseNext never crashes

* `C40_short_fails` (Props/Paging.lean): A continuation point of one to three bytes crashes the server process, in every state in which a worker is free.

## C41 Revised session timeout

* `C41_nan_fails` (Props/Revise.lean): A request of NaN is granted as NaN, and the session then counts as expired at once: the very first request of the client is refused.

## C42 Password tokens are bound to the server nonce

* `C42_replay_fails` (Props/Password.lean): C42 fails (the nonce). A token that was made for any nonce at all is accepted whatever nonce the server has issued: an observed token can be replayed.
* `C42_zero_fill_fails` (Props/Password.lean): C42 fails (bytes that were not sent). A secret that stops after its length field is accepted, with zero bytes for the password.
* `C42_long_fails` (Props/Password.lean): C42 fails (long passwords). The honest token of a password longer than 64 bytes is refused, though the client sends it.

## C44 Notification sequence numbers are gap-free

* `C44_reuse_fails` (Props/Subscription.lean): C44 fails (no number twice). A message whose response cannot be written stays in the retransmission queue under a number that the next message uses again; Republish for that number then gives the other message.

## C45 Unacknowledged notifications stay available

* `C45_republish_removes_fails` (Props/Subscription.lean): C45 fails (until acknowledged). Republish removes the message that it sends: asked again, for instance because that response was lost, it has nothing, though nobody acknowledged the message.

## C46 Acknowledgement results are faithful

* `C46_late_keep_alive_fails` (Props/SubTable.lean): C46 fails (response). If the request is answered at once by the keep-alive of a late subscription, its results are replaced by Good, whatever they were.

## C48 Subscription lifetime

* `C48_not_consecutive_fails` (Props/Subscription.lean): C48 fails (consecutive). Cycles in which the keep-alive is not due do not look for a request and do not reset the counter. Here three cycles without a request, with cycles in between for which requests were queued, end a subscription whose lifetime is three cycles.

## C49 Sessions cannot touch each other's subscriptions

* `C49_items_fails` (Props/SubTable.lean): C49 fails. CreateMonitoredItems, SetMonitoringMode, SetTriggering and DeleteMonitoredItems change the monitored items of a subscription whoever asks.
* `C49_acks_fails` (Props/SubTable.lean): C49 fails. An acknowledgement in a publish request discards the notifications of a subscription of any session; so does Republish, which sends them to whoever asks.

## C50 Subscription table limit

* `C50_wrap_fails` (Props/SubTable.lean): C50 fails. The counter wraps around and `Add` overwrites: requests that are refused because the table is full count as well, and after 2^32 of them a new subscription of session 2 takes the place of the live subscription of session 1.

## C52 Queue overflow is visible to the client

* `C52_never_fails` (Props/MonitoredItem.lean): C52 fails (always). Whatever the history, no delivered value has the overflow bit set if the sampled values have not: the code sets the bit in a copy.
* `C52_lost_fails` (Props/MonitoredItem.lean): C52 fails. A queue of two values gets four: two are lost, and the client cannot tell.

## C54 Absolute deadband

* `C54_unsigned_fails` (Props/DataChange.lean): C54 fails (unsigned). An unsigned number that decreases by 1 is reported whatever the deadband.
* `C54_wrap_fails` (Props/DataChange.lean): C54 fails (wrap-around). A change from the smallest to the largest 64-bit number is not reported with a deadband of 1.
* `C54_array_fails` (Props/DataChange.lean): C54 fails (arrays). Two equal arrays at different addresses are reported, whatever the deadband.
* `C54_inf_fails` (Props/DataChange.lean): C54 fails (infinities). A value that stays infinite is reported again and again.

## C55 Data change trigger

* `C55_nan_fails` (Props/DataChange.lean): C55 fails (NaN). A value that is and stays NaN is reported in every sampling interval.

## C56 Disabled item count

* `C56_underflow_fails` (Props/MonitoredItem.lean): C56 fails. A reporting item set to Sampling: no item is disabled, the count is 2^32 - 1.

## C58 Event filters

* `C58_operator_fails` (Props/EventFilter.lean): C58 fails (operators). "Not of type ..." is never true.
* `C58_conversion_fails` (Props/EventFilter.lean): C58 fails (conversion). A severity of 700 is not equal to the Int32 700.
* `C58_time_fails` (Props/EventFilter.lean): C58 fails (times). A time with a clock reading is not equal to the same instant in a literal.
* `C58_inherited_fails` (Props/EventFilter.lean): C58 fails (inherited fields). A condition has a severity, but a clause that asks for the severity of a ConditionType gets null.
* `C58_panic_fails` (Props/EventFilter.lean): C58 fails (panics). Filters that a client can send make the server panic: Equals with one operand, OfType without operands, and the comparison of two arrays.
* `C58_endless_fails` (Props/EventFilter.lean): C58 fails (no end). An element that refers to itself is evaluated for ever.

## C59 References stay symmetric

* `C59_late_fails` (Props/AddressSpace.lean): C59 fails (late). A node refers to a node that is added later: it never gets the inverse, and when it is deleted again the reference to it stays.
* `C59_replaced_fails` (Props/AddressSpace.lean): C59 fails (replaced). A node is added again under the same id without its references: its neighbours keep their references to it, and it has none to them.

## C61 Subtype test is the transitive closure of HasSubtype

* `C61_long_fails` (Props/SpaceQueries.lean): C61 fails (long chains). The 102nd supertype is denied.
* `C61_multiple_fails` (Props/SpaceQueries.lean): C61 fails (several supertypes). Only the first supertype is followed.

## C62 Child enumeration terminates and is exact

* `C62_cycle_fails` (Props/SpaceQueries.lean): C62 fails (cycles). If a node reached is its own descendant, GetChildren never ends.
* `C62_diamond_fails` (Props/SpaceQueries.lean): C62 fails (diamonds). A descendant with two parents is returned twice.
* `C62_count_fails` (Props/SpaceQueries.lean): C62 fails (count). Of the four nodes of the diamond, five are reported as deleted; and a standard node that is kept is counted, too.
* `C62_subtypes_fails` (Props/SpaceQueries.lean): C62 fails (subtypes). GetSubTypes never ends for a type with a subtype; for a type without, it gives nothing.

## C63 Browse returns exactly the matching, permitted references

* `C63_dangling_fails` (Props/Browse.lean): C63 fails (dangling references). One reference to a node that is not in the table, and Browse answers that the browsed node is unknown, though the user may browse it and its component.

## C64 Browse paths resolve to all their targets

* `C64_permission_fails` (Props/Browse.lean): C64 fails (permission). User 7 may not browse node 4, yet the path to it gives its identifier; no user is asked for.
* `C64_first_fails` (Props/Browse.lean): C64 fails (ambiguous elements). Only the first node that matches an element is followed.

## C65 Namespace indexes are stable and unique

* `C65_wrap_fails` (Props/SpaceQueries.lean): C65 fails (wrap-around). The index of URI number 65536 is given as 0, which designates another one.

## C66 Attribute access control

* `C66_history_fails` (Props/Access.lean): C66 fails (history). The history of node 2 is read by an anonymous user, who may neither browse nor read the node nor read its history.

## C67 Role assignment

* `C67_break_fails` (Props/Access.lean): C67 fails (rules that do not apply). A rule that does not allow the application hides the rules after it, though one of them grants a role.
* `C67_order_fails` (Props/Access.lean): C67 fails (order). The same rules in the other order grant the role.
* `C67_connection_fails` (Props/Access.lean): C67 fails (connection). No rule grants Anna a role on the kiosk, yet the value is read, whatever the application: the nodes ask for the roles of a user without application and endpoint.

## C68 Written values match the declared type

* `C68_matrix_fails` (Props/Write.lean): A matrix of any type is stored in an array of numbers.
* `C68_element_fails` (Props/Write.lean): A string of any length is stored in an array.
* `C68_struct_fails` (Props/Write.lean): A DataValue is stored in a variable of extension objects.
* `C68_range_fails` (Props/Write.lean): Replacing characters by longer ones makes a string longer than the limit.

## C69 Index ranges on read and write

* `C69_empty_fails` (Props/Range.lean): The text of the range of a value that is empty is not looked at.
* `C69_sign_fails` (Props/Range.lean): A sign is taken, although the grammar has none.
* `C69_large_fails` (Props/Range.lean): A well-formed index beyond 32 bits is called malformed, not outside the data.
* `C69_component_fails` (Props/Range.lean): An empty component selects everything, although the grammar has none.
* `C69_second_fails` (Props/Range.lean): With a second range the write replaces the whole strings: the characters outside the range are lost, and reading the range back does not give what was written.

## C70 Writing never crashes the server

* `C70_null_fails` (Props/Write.lean): A null value written with a range ends the server.
* `C70_type_fails` (Props/Write.lean): In a variable of any type, a value of another type written with a range ends the server.
* `C70_rank_fails` (Props/Write.lean): In a variable of any rank, a value of another rank written with a range ends the server.
* `C70_matrix_fails` (Props/Write.lean): A matrix written with a range to an array ends the server.
* `C70_historian_fails` (Props/Write.lean): Without a historian, a client that turns historizing on and writes a value ends the server.

## C71 Batch services answer every item in place

* `C71_lost_fails` (Props/Batch.lean): Two writes to different elements of one array in one batch: both are answered Good, and one of them is lost.

## C72 Endpoint selection picks the strongest acceptable endpoint

* `C72_mode_fails` (Props/Endpoint.lean): C72 fails (a mode without a policy). A client without a certificate that asks for signed and encrypted messages, and leaves the policy open, is connected without any security as soon as the server lists an unsecured endpoint.

## C73 Timestamp selection

* `C73_modify_fails` (Props/DataChange.lean): C73 fails (modify). A client asks for both timestamps by ModifyMonitoredItems and still gets none.

## C74 Decoding arbitrary bytes never crashes the process

* `C74_nested_variant_fails` (Props/Value.lean): With Variants it is false: whatever the stack depth, a run of bytes `24` (a Variant in a Variant in a …) exhausts it.

## C75 ExtensionObject bodies are delimited by their declared length

* `C75_extended_body_fails` (Props/Value.lean): A body of the registered struct 1 with one extra byte (as a newer peer that appended a field would send), correctly announced as 9 bytes long: the reader stops one byte short of the end of the body.

## C76 Arbitrary frames on an open channel never crash the receiver

* `C76_short_frame_fails` (Props/Channel.lean): But in the secured modes a frame that is shorter than the signature crashes the server process: anyone who can inject bytes into the connection needs only the channel id and the token id, no key.
* `C76_non_rsa_fails` (Props/OpenChannel.lean): An OPN frame with the certificate of a non-RSA key crashes the server, in any channel state: the type assertion is unchecked and nothing has been authenticated before it.
* `C76_padding_fails` (Props/OpenChannel.lean): Nor does a valid signature protect the server: a peer that signs with its own key a payload whose padding size exceeds the payload crashes it. `pl` is the plain text before the signature.
* `C76_policy_fails` (Props/OpenChannel.lean): In mode Sign a frame of anybody's that names the policy None, while a token is pending (as it is when a channel has just been opened or renewed), makes the next chunk with that token end the process: there is no MAC under that policy.

## C77 Renewing the security token never breaks the channel

* `C77_overlap_fails` (Props/Renewal.lean): The code does not keep renewals apart: sendRequest tests the renewal time and moves it in two steps, so two concurrent requests can both start a renewal. The first response then makes the client send under token 2 while the server waits for token 3, and the server closes the channel.
* `C77_unused_token_fails` (Props/Renewal.lean): It also breaks without overlap, when a token is replaced before its first use: a request that is sent during the renewal still names the token the server has just forgotten.

## C78 A client request returns by its deadline

* `C78_blocked_fails` (Props/Pending.lean): The claim is false before that point: while the server does not answer, the operation of a 33rd concurrent caller does not fit the queue, and the caller stays blocked however much time passes, whatever other callers do and even after the channel is closed.
* `C78_reachable_fails` (Props/Pending.lean): 32 callers waiting for a silent server bring the channel into that state.

## C79 A chunk is secured with the keys of the token it names

* `C79_server_fails` (Props/TokenRace.lean): The code does not ensure this: readRequest changes the token id before it waits for the sender, so a response that is being sent in several chunks names the new token in its remaining chunks while they are secured with the old keys. The client cannot verify them.
* `C79_client_fails` (Props/TokenRace.lean): The code does not ensure this either: the token word is written before the token lock is taken, so a renewal that completes in between yields a chunk that names the old token under the new keys.

## C80 Publish requests time out only after their hint

* `C80_no_hint_fails` (Props/PublishQueue.lean): A request without timeout (hint 0) is refused with BadTimeout one millisecond after it was made.
* `C80_clock_skew_fails` (Props/PublishQueue.lean): A client whose clock is more than the hint behind the server's never gets a notification: its request is timed out the moment it arrives.

## C81 A session stays with the client that created it

* `C81_takeover_fails` (Props/Session.lean): An application holding another certificate takes over a session created by a client with certificate 1, by signing with its own key: the session is then bound to its channel. It needs the authentication token; the client certificate of the session is not looked at.
* `C81_unsecured_fails` (Props/Session.lean): Over a channel without security no signature at all is needed.

## C82 Password logins work with every server key

* `C82_short_exponent_fails` (Props/Password.lean): C82 fails. If the private exponent is shorter than the modulus, the cipher text is read in blocks that are too short. With a cipher that refuses such blocks every encrypted password login ends the connection, although the key is in order and the channel works with it.

## C83 One client cannot block the subscriptions of others

* `C83_inversion_fails` (Props/Locks.lean): C83 fails (order of locks). The check for expired subscriptions takes the lock of the table and then that of a subscription; a subscription that expires takes them the other way round. If they meet, no subscription can be created any more.
* `C83_queue_fails` (Props/Locks.lean): C83 fails (full queue). If 65 or more subscriptions of a session expire and the session does not publish, not all of the timers ever finish.
* `C83_outage_fails` (Props/Locks.lean): C83 fails (one client stops all). A client with 65 subscriptions that goes away stops the subscriptions of all clients: the last timer waits for ever with its lock, then the check for expired subscriptions waits for that lock with the lock of the table.

## C84 Services that meet do not crash the server

* `C84_array_fails` (Props/Diagnostics.lean): A client that reads the SubscriptionDiagnosticsArray of the server while another creates a subscription can make Go end the process, whichever of the two begins first.
* `C84_race_fails` (Props/SubCrash.lean): C84 fails. A subscription whose lifetime ends just after ModifySubscription, DeleteSubscriptions, Republish, CreateMonitoredItems or an acknowledgement found it ends the process.
* `C84_foreign_fails` (Props/SubCrash.lean): C84 fails. An acknowledgement by another session that meets DeleteSubscriptions ends the process.
* `C84_shutdown_fails` (Props/SubCrash.lean): C84 fails. Closing the server panics if a subscription is being created, and so does a request to delete or modify a subscription that comes after it.

## C86 Monitored items never block the server

* `C86_self_fails` (Props/ItemLocks.lean): C86 fails (self). SetTriggering accepts a link from an item to itself. The next time the item queues a value, the publishing goroutine waits for a lock that it holds; it holds the lock of the subscription, too, so that Publish and the other services wait with it (here goroutine 1, which deletes an item). No coincidence is needed.
* `C86_mutual_fails` (Props/ItemLocks.lean): C86 fails (mutual). Two items that listen to different nodes and trigger each other: two events at the same time block each other, and the applications that raise them.
* `C86_event_fails` (Props/ItemLocks.lean): C86 fails (events). Without any links: an event is raised while SetMonitoringMode or Modify changes an item that listens to it. The event holds the node and waits for the item, the service holds the item and waits for the node.
* `C86_delete_fails` (Props/ItemLocks.lean): C86 fails (deletion). The same when the item is deleted, which also blocks the subscription.
* `C86_diagnostics_fails` (Props/ItemLocks.lean): C86 fails (diagnostics). A client monitors the diagnostics of its own subscription. Sampling holds the item and waits for the subscription, publishing holds the subscription and waits for the item. From then on the subscription does not publish, and everything that needs it waits, too (here a Read of the diagnostics).
* `C86_resend_fails` (Props/ItemLocks.lean): C86 fails (ResendData). With such an item no coincidence is needed: after ResendData the publishing goroutine itself samples the item and waits for the lock that it holds.
* `C86_cross_fails` (Props/ItemLocks.lean): C86 fails (two subscriptions). Two subscriptions that monitor each other.
* `C86_session_fails` (Props/ItemLocks.lean): C86 fails (session diagnostics). A client monitors the diagnostics of its session. If its subscription expires while the item is sampled, then sampling holds the item and waits for the subscription manager, and the check for expired subscriptions holds the manager and waits for the item: from then on all services on all subscriptions of all clients wait (here goroutine 2, which creates or looks up one).
* `C86_sessionResend_fails` (Props/ItemLocks.lean): C86 fails (session diagnostics, ResendData). The same without expiry: after ResendData publishing samples such an item while it holds the subscription, and the check asks every subscription whether it has expired while it holds the manager.

## C87 Disabling an item discards its values

* `C87_stale_fails` (Props/DataChange.lean): C87 fails. A sample of time 15 waits for the next cycle when the item is disabled at 16; a day later, at 1000, the item is enabled again, and the first value that it reports is the old one.

## C88 Percent deadband

* `C88_percent_fails` (Props/DataChange.lean): C88 fails. With a percent deadband a value that does not change is reported in every sampling interval, and so is the placeholder before the first sample.

## C89 Events reach every notifier once

* `C89_second_fails` (Props/SpaceQueries.lean): C89 fails (second notifier). The listeners of the second area do not get the event.
* `C89_cycle_fails` (Props/SpaceQueries.lean): C89 fails (cycles). An event raised in a cycle of notifiers is delivered again and again, and the call never returns.

## C90 Variant type of a data type

* `C90_stale_fails` (Props/SpaceQueries.lean): C90 fails (stale). A data type that was looked up before it was added stays Null for ever.
* `C90_cycle_fails` (Props/SpaceQueries.lean): C90 fails (cycles). The lookup of a data type in a cycle of types never ends.

## C92 A tampered endpoint list does not weaken the connection

* `C92_fails` (Props/Endpoint.lean): C92 fails. Take any server of this library that has an unsecured endpoint, and a client with a certificate that leaves the choice to Dial. If somebody on the network strips the discovery answer down to the unsecured endpoint, the client connects without security and accepts the session, although the answer to CreateSession lists the endpoints that were stripped.

## C93 Passwords never cross the network readable

* `C93_fails` (Props/Endpoint.lean): C93 fails (the list is believed). A single endpoint made up by somebody on the network is enough: the client connects without security, and sends its password as it is.
* `C93_signed_fails` (Props/Endpoint.lean): C93 fails (asking for a policy does not help). The client asks for signed messages under Basic256Sha256. The token policy in the list it gets says None, and the password goes out as it is on a channel that signs and does not encrypt.

## C94 Identities are authenticated, and valid ones get in

* `C94_panic_fails` (Props/Endpoint.lean): C94 fails (an authenticator's own errors). An authenticator that answers with an error of its own, like `errors.New`, crashes the server process.
* `C94_issued_fails` (Props/Endpoint.lean): C94 fails (issued tokens). The server asks an authenticator for issued tokens if it has one, but it never lists a policy for them: on every endpoint the client gives up before it sends anything.
* `C94_issuedPolicy_fails` (Props/Endpoint.lean): C94 fails (issued tokens under the wrong policy). The server takes an issued token under the id of its policy for user certificates, and hands the bytes of the token to the authenticator as they came: nothing about them is encrypted, signed, or bound to the nonce.

## C95 Methods run where they belong, for their caller only

* `C95_object_fails` (Props/Call.lean): The claim is false for the object: the method runs on an object that does not have it.

## C96 Only trusted, unrevoked certificates are accepted

* `C96_lists_fails` (Props/Certificate.lean): The claim is false for revocation: the newer of two lists in force of the issuer names the certificate, and it is accepted, since only the first list is looked at.

## C97 A session belongs to the application of its channel

* `C97_other_fails` (Props/Certificate.lean): The claim is false: a client on a channel with its own certificate creates a session in the name of any other application whose certificate it knows; the two certificates are not compared.
* `C97_none_fails` (Props/Certificate.lean): And without security any name is taken.

## C98 A loaded node set keeps its meaning

* `C98_displayName_fails` (Props/NodeSet.lean): A display name with an ampersand keeps its XML escape.
* `C98_outside_fails` (Props/NodeSet.lean): An index outside the file's own table is not refused: it is taken for an index of the server and the node lands in a namespace that the file never named.
* `C98_malformed_fails` (Props/NodeSet.lean): An identifier whose namespace index does not parse ("ns=x;i=85") is not refused: the index becomes 0 and the node replaces a standard node.
* `C98_unparsed_fails` (Props/NodeSet.lean): Nodes whose identifiers do not parse are stored without one, over one another, and loading reports no error.
* `C98_forward_fails` (Props/NodeSet.lean): The XML schema writes a false IsForward also as "0"; such a reference is loaded as a forward one.
* `C98_element_fails` (Props/NodeSet.lean): A top-level element of a name the loader does not know crashes the server.

## C99 Values in node sets survive loading

* `C99_nodeId_fails` (Props/NodeSet.lean): The namespace index inside a NodeId value is not translated: the value names another node.
* `C99_qualifiedName_fails` (Props/NodeSet.lean): Nor is the index inside a QualifiedName value.
* `C99_subtype_fails` (Props/NodeSet.lean): Values of a subtype of a built-in type are dropped, here a UtcTime (i=294), a DateTime.
* `C99_rank_fails` (Props/NodeSet.lean): Values of every rank but -1 and 1 are dropped: any (-2), scalar or one dimension (-3), one or more dimensions (0), and matrices.
* `C99_enum_fails` (Props/NodeSet.lean): When the enumeration is in the same file as the variable the value is dropped, because the types of the file are not in the address space yet; from an earlier file it is kept.
* `C99_default_fails` (Props/NodeSet.lean): A variable without the attribute DataType, for which the schema says BaseDataType, is loaded without a data type and without its value.
* `C99_extension_fails` (Props/NodeSet.lean): An extension object with a body the loader does not know crashes it, in a Range variable and in a list of arguments.

## C100 Connecting never crashes the client

* `C100_key_fails` (Props/Dial.lean): C100 fails (the key of the certificate). An endpoint whose certificate has a key that is not RSA crashes the client, before the certificate is validated.
* `C100_type_fails` (Props/Dial.lean): C100 fails (the type of a response). A good response of the wrong type crashes the client; a service fault that says Good is one.
* `C100_table_fails` (Props/Dial.lean): C100 fails (the namespace table). A namespace table that is good but not an array of strings, for instance null, crashes the client after it has logged in.
* `C100_mode_fails` (Props/Dial.lean): C100 fails (a policy without security). A listed endpoint with a policy, the mode None and no certificate crashes a client with a certificate that left the choice to the library.
* `C100_size_fails` (Props/Dial.lean): C100 fails (the size of the key). An RSA key of exactly as many bytes as the padding takes makes the client divide by zero.
* `C100_password_fails` (Props/Dial.lean): C100 fails (a password for a small key). On an unsecured endpoint with such a key, building the password token never ends; with a smaller key it panics.

## C101 Dial connects exactly to what it was meant for

* `C101_race_fails` (Props/Dial.lean): C101 fails (a race at the end of discovery). The server closes the connection as soon as it has read CloseSecureChannel; if the client sees that first, Dial fails although the endpoints have come.
* `C101_header_fails` (Props/Dial.lean): C101 fails (an additional header). If the response to OpenSecureChannel has an additional header, the client waits for a lock it holds itself and times out.
* `C101_tables_fails` (Props/Dial.lean): C101 fails (tables that cannot be read). If the server does not let the client read its namespace table, Dial succeeds with a table that has only the first namespace.

## C102 Connections are not left open

* `C102_discovery_fails` (Props/Dial.lean): C102 fails (discovery). If the server answers the Hello of the discovery with an error, or anything else goes wrong there, Dial leaves the connection open, and nobody can close it.
* `C102_closeSession_fails` (Props/Dial.lean): C102 fails (Close with a failing CloseSession). If CloseSession fails, for instance since the session has timed out, Close returns the error and the connection stays open.
* `C102_closeChannel_fails` (Props/Dial.lean): C102 fails (Close with a failing CloseSecureChannel). If the channel cannot be closed in good order, Close reports success and the connection stays open.

## C103 Items are sampled at their revised interval

* `C103_nan_fails` (Props/PollGroup.lean): C103 fails (NaN). A client that asks for the interval NaN is told NaN, and the item is sampled at the least interval.
* `C103_slow_fails` (Props/PollGroup.lean): C103 fails (slow nodes). A variable whose MinimumSamplingInterval is 10^13 ms, about 300 years, is sampled at the least interval of the server instead: the product with a million wraps around.
* `C103_overlap_fails` (Props/PollGroup.lean): C103 fails (overlap). Two ModifyMonitoredItems requests that meet may leave the item in two poll groups. From then on it is sampled at both intervals, though it has one; and after it has been deleted it is still a listener of the first.
* `C103_disabled_fails` (Props/PollGroup.lean): C103 fails (disabled). A ModifyMonitoredItems request that meets a SetMonitoringMode request may leave the item disabled and in a poll group: it is read for ever, and nothing takes the values out of its prequeue.

## C104 Services on items that meet do not crash the server

* `C104_delete_fails` (Props/PollGroup.lean): C104 fails (deletion). A ModifyMonitoredItems or SetMonitoringMode request that meets the deletion of its item, or of its subscription, uses the subscription that the deletion has taken away from the item: the server panics.
* `C104_rate_fails` (Props/PollGroup.lean): C104 fails (rate). If the server is configured with a least sampling interval below a millisecond, a client that asks for such an interval makes it panic: the ticker of the poll group would have the period zero.

## C105 A server runs once and ends when it is closed

* `C105_twice_fails` (Props/ServerLife.lean): C105 fails (twice). A second call of `Close` ends the process: closing a closed channel panics. This does not need a coincidence; the second call also cuts the three seconds short.
* `C105_closeFirst_fails` (Props/ServerLife.lean): C105 fails (close first). `ListenAndServe` after `Close` returns BadInternalError, not BadServerHalted as its documentation says.
* `C105_retry_fails` (Props/ServerLife.lean): C105 fails (retry). If the port is in use at first, then the server can never be started: every further call of `ListenAndServe` is refused, also when the port has become free.
* `C105_fatal_fails` (Props/ServerLife.lean): C105 fails (Accept). An error of `Accept` that is not a timeout, such as too many open files, ends `serve`: while one client stays connected, `ListenAndServe` does not return, no new connection is accepted, and yet the server still says that it runs and keeps its port.

## C106 Published counts and nodes of sessions and subscriptions are right

* `C106_orphan_fails` (Props/Diagnostics.lean): A session that ends takes the nodes of its subscriptions with it, though they go on: they count, they are in the array of the server, but there is no node for them any more.

## C107 Security diagnostics of a session are right and shown only over encrypted channels to authenticated users

* `C107_other_fails` (Props/Diagnostics.lean): A user who looks at the diagnostics of another's session sees its mode, policy and certificate as those of the own session: a session without any security looks encrypted.

## C108 Request counters tell how many requests were handled and failed

* `C108_uncounted_fails` (Props/Diagnostics.lean): HistoryRead, Cancel and CloseSession requests are not counted: the client reads no requests at all after any number of them.
* `C108_rejected_fails` (Props/Diagnostics.lean): Not every request that was refused is counted: not an UnregisterNodes on a session that was not activated (though the same Browse is), and not a request for a service there is none of.
* `C108_race_fails` (Props/Diagnostics.lean): The counters of the server are changed by the goroutines of all channels without a lock: two refusals may count as one.

## C109 Standard structures and enumerations are those of the OPC UA schema

* `C109_flags_fails` (Props/Structs.lean): The schema gives the flags in FieldMetaData 16 bits, the library 32.
* `C109_guid_fails` (Props/Structs.lean): No value of a structure that holds a Guid can be sent or received.

## C110 Standard structures are known by the ids of the address space

* `C110_program_fails` (Props/Structs.lean): ProgramDiagnostic2DataType has the id 24034 in the address space; the library writes 15397 and, when it meets 24034, knows no structure.
* `C110_missing_fails` (Props/Structs.lean): UnsignedRationalNumber is in the address space but not in the library.

## C112 A multi-state variable shows the text of its value

* `C112_unknown_fails` (Props/MultiState.lean): C112 fails: any accepted value outside of the enumeration is stored all the same, and the text remains that of the value before.
* `C112_kind_fails` (Props/MultiState.lean): C112 fails: so is a value that is no number.
* `C112_rounded_fails` (Props/MultiState.lean): C112 fails: 1.5 is stored with the text of 1, and the largest uint64 with that of -1.
* `C112_range_fails` (Props/MultiState.lean): C112 fails: the index range is not looked at; what is written to an element replaces the whole.
* `C112_crash_fails` (Props/MultiState.lean): C112 fails: while EnumValues holds no values of the enumeration (as before the application sets it), any accepted number ends the server.
* `C112_race_fails` (Props/MultiState.lean): C112 fails: two writes of known values that meet can leave the value of one with the text of the other.

## C113 Properties and components are found by their browse name

* `C113_subtype_fails` (Props/MultiState.lean): C113 fails: a component by a subtype of HasComponent, such as HasOrderedComponent, is not found.
* `C113_hidden_fails` (Props/MultiState.lean): C113 fails: a node of the name that is no variable hides a property after it.

## C114 Discovery tells clients which endpoints there are

* `C114_crash_fails` (Props/Discovery.lean): C114 fails (no discovery URL). A server that does not allow channels without security, and whose description has no discovery URLs, ends when a client asks for its endpoints without security, as Dial does.
* `C114_deadlock_fails` (Props/Discovery.lean): C114 fails (the lock of the server). Somebody asks for the endpoints for the first time, and Close is called while the list is being made: neither returns, and no other call that needs the lock ever begins, whatever the others want to do and whatever the schedule.
* `C114_race_fails` (Props/Discovery.lean): C114 fails (a race). Two goroutines may make the list at the same time, both under the lock for reading, and both store it.

## C115 The server says about itself what is so

* `C115_types_fails` (Props/SelfInfo.lean): MaxReturnDataValues and MaxReturnEventValues are UInt32 and are given the Boolean `false`, on every server.
* `C115_triggering_fails` (Props/SelfInfo.lean): SetTriggering is never refused for its number of links, whatever limit is published.
* `C115_event_history_fails` (Props/SelfInfo.lean): The history of events is limited by what is published for the history of data: with different limits a request within the published limit is refused, and one above it is taken.
* `C115_zero_limit_fails` (Props/SelfInfo.lean): A limit of zero, which the standard does not allow to be published (Part 5, 6.3.11), is published, and the service then refuses everything.
* `C115_history_fails` (Props/SelfInfo.lean): A server with a historian, which answers HistoryRead, says that neither the history of data nor that of events can be read.
* `C115_crash_fails` (Props/SelfInfo.lean): Capabilities written without operation limits crash the server while it starts, and so do none.
* `C115_session_arrays_fails` (Props/SelfInfo.lean): The arrays of the session diagnostics (3707, 3708), mandatory in Part 5, are never filled: what is read is what the node set gave, whichever sessions there are.

## C116 History is what clients saw

* `C116_order_fails` (Props/History.lean): The times of the history can run backwards, and the current value be older than one in the history: the time is taken before the lock.
* `C116_error_fails` (Props/History.lean): The historian refuses a value; the client is told Good, and the value is current but not in the history.
* `C116_source_time_fails` (Props/History.lean): Whatever source timestamp a client writes, the value gets the time of the server, without the client being told.
* `C116_blocked_fails` (Props/History.lean): While the historian stores a value nobody reads the variable, not even the old value, and nobody else writes it.
* `C116_deadlock_fails` (Props/History.lean): A historian that reads the variable before it answers never answers: nothing moves any more.
* `C116_handler_fails` (Props/History.lean): A variable whose value comes from a handler: clients see every value of the handler, and Historizing may be on, but nothing is ever recorded.

## C117 Every node has the attributes of its class

* `C117_encoding_fails` (Props/Attributes.lean): The standard encoding of a structure, "Default Binary", is refused when a client names it, whatever the value and the user: only a request without an encoding is answered.
* `C117_range_fails` (Props/Attributes.lean): A range of the array dimensions, an array, is refused though the same range of a value is not, and the fault of an attribute that the node does not have or of a node that does not exist is hidden behind it.
* `C117_role_permissions_fails` (Props/Attributes.lean): A node without permissions of its own shows an empty list of role permissions, though those of the server are in force: the user's part of the list is larger than the list.
* `C117_type_value_fails` (Props/Attributes.lean): The default value of a variable type, which the node holds, is served to nobody.
* `C117_items_fails` (Props/Attributes.lean): A monitored item can be made for an attribute that the server then says the node does not have: the definition of a data type without one, and the role permissions of a node for a user who may not see them.

## C118 A security policy means the same at both ends and in the standard

* `C118_key_length_fails` (Props/Suites.lean): The lengths of keys are not compared with the profile: a channel is opened for a client whose key has 544 bits where at least 2048 are asked for.
* `C118_nonce_fails` (Props/Suites.lean): The length of the client's nonce is not looked at: with an empty one the keys of the server are derived with an empty secret, so that they depend on nothing but the nonce of the server.
* `C118_issued_fails` (Props/Suites.lean): An issued token is encrypted by the client and never decrypted by the server: it takes the cipher text for the token.

## C119 The diagnostics of a subscription tell what happened to it

* `C119_unacknowledged_fails` (Props/SubCounters.lean): Acknowledging does not change `UnacknowledgedMessageCount`: it shows a message although there is none left.
* `C119_enabled_fails` (Props/SubCounters.lean): `EnableCount` shows nothing of publishing being switched on, nor `DisableCount` of it being switched off.
* `C119_discarded_fails` (Props/SubCounters.lean): `DiscardedMessageCount` shows nothing of a message that is dropped before it was acknowledged.
* `C119_overflow_fails` (Props/SubCounters.lean): Values lost in a queue of one are not counted.
* `C119_session_array_fails` (Props/SubCounters.lean): The array that a session shows of its subscriptions is empty when it has some.
* `C119_security_name_fails` (Props/SubCounters.lean): The variable with the policy of a session has another name than in the standard: a client that looks for `SecurityPolicyUri` does not find it.

## C120 The setting the user chose is the one the library uses

* `C120_timeoutHint_fails` (Props/Options.lean): C120 fails for the timeout hint. Whatever was chosen, a request without its own hint is sent with 15000.
* `C120_diagnosticsHint_fails` (Props/Options.lean): C120 fails for the diagnostics hint. Whatever was chosen, no request asks for diagnostics unless the caller has filled in the header.
* `C120_responseSize_fails` (Props/Options.lean): C120 fails for the size of responses. CreateSession always names 64 Mb, although the Hello message names what was chosen.
* `C120_discovery_fails` (Props/Options.lean): C120 fails for discovery. The first connection of Dial waits 15 seconds and announces the default limits, whatever was chosen.
* `C120_documented_fails` (Props/Options.lean): C120 fails for two documented defaults: the comments of WithTimeoutHint and WithConnectTimeout say 1500 and 5000.
* `C120_otherKey_fails` (Props/Options.lean): C120 fails for keys that are not RSA keys. As the key of a user such a file makes Dial panic. As the key of the client it is taken without a word and the key is nil.
* `C120_issued_fails` (Props/Options.lean): C120 fails for issued identities. The client has WithIssuedIdentity, but no choice of options makes a server that lets such a user in.
* `C120_nilFunc_fails` (Props/Options.lean): C120 fails for nil. A nil authenticator rejects the user, but a nil function for the same purpose makes the server panic when a user of this kind comes; nil capabilities make New panic; a nil provider panics when roles are asked for.

## C121 Every request is answered once, and a connection that ends says why

* `C121_untold_fails` (Props/Ending.lean): On every other channel the server never gives a reason: once the channel is open no Error message is sent, for whatever cause the connection is closed.
* `C121_tooLarge_fails` (Props/Ending.lean): A response that is too large for the client, or that cannot be encoded, is not replaced by a fault: the request has no answer, and the connection is closed under all the others.
* `C121_inPart_fails` (Props/Ending.lean): With too many chunks the client has even got the beginning of an answer.
* `C121_silent_fails` (Props/Ending.lean): A second OpenSecureChannel that does not renew, and any request that a handler gives up, end the connection with no answer and no reason as well.
* `C121_crash_fails` (Props/Ending.lean): An Error message with the code Good, from anyone who can write into the connection, ends the process of the client: 16 bytes suffice, in every security mode, since these frames are not secured.
* `C121_reason_fails` (Props/Ending.lean): The reason is read and kept, and no caller learns it: with any two reasons everything callers can see is the same, whatever happens before and after.
* `C121_hang_fails` (Props/Ending.lean): When the queue is full a call made after the end never returns, whatever happens and however long its timeout is over.
* `C121_oneByOne_fails` (Props/Ending.lean): Calls one after the other are enough: the connection is lost, 32 calls fail, the next one hangs.
* `C121_socket_fails` (Props/Ending.lean): And so Client.Close after the end never closes the connection of the client: it asks for the end of the session first and returns when that fails.

## C122 A certificate list is a set that finds the possible issuers

* `C122_issuer_fails` (Props/CertList.lean): An issuer whose certificate has no key identifier is missed when the child names one: for every such pair.
* `C122_stranger_fails` (Props/CertList.lean): A certificate of another name is returned as a possible issuer when it has the same key identifier.

## C123 Status codes and enumeration values have their documented texts and names

* `C123_info_fails` (Props/Names.lean): A code with information bits, such as an overflow or a limit, has lost its text: for every code.
* `C123_tell_fails` (Props/Names.lean): The text does not tell the codes apart: two pairs of constants share theirs, BadNoData with GoodNoData and GoodEntryReplaced with GoodMoreData.
* `C123_flags_fails` (Props/Names.lean): A union of flags has no name: reading and writing is the empty string.
* `C123_historian_fails` (Props/Text.lean): The bit that marks a partial value of the historian is not among the bits of the historian: setting it changes nothing there for any code and says instead that the value is at its low limit. The bit for interpolated values is 16 and not 2 as in the standard.

## C124 The client takes as a response only what its server has made

* `C124_forged_fails` (Props/ClientRecv.lean): The claim fails while `Open` waits for its response: a chunk under any token but 0 is then taken if its MAC is made with the key of two empty nonces, which everybody can compute; and this key stays: after `Open` has taken what it was sent as the response, whatever the nonces, chunks of that token made with the same key are taken as well.
* `C124_any_token_fails` (Props/ClientRecv.lean): Nor is it looked at whether the server has issued the token that a chunk names: at any time any number does, and the keys are made from the current nonces.
* `C124_replay_fails` (Props/ClientRecv.lean): A chunk that was taken is taken again.
* `C124_mixed_fails` (Props/ClientRecv.lean): Nor are request ids and sequence numbers looked at: a chunk of one response and the last chunk of another, in any order of sequence numbers, make one message.
* `C124_crash_fails` (Props/ClientRecv.lean): Before `Open` has its response a chunk for channel 0 under token 0 ends the process of the client in the secured modes, whatever follows its header: there is no cipher and no MAC yet.
* `C124_error_fails` (Props/ClientRecv.lean): An Error frame ends the channel with the status in it, on a secured channel as well: nothing is verified.

## C126 A Publish request reaches the subscription that needs it, or waits for one

* `C126_stranded_fails` (Props/PublishFlow.lean): A session without subscriptions should hear BadNoSubscription. If another session has a subscription, its request waits instead, and nothing that other sessions, the timers or the sweep do ever answers it, not even after its deadline.

## C128 Variables behave as if requests came one after the other

* `C128_range_fails` (Props/Pool.lean): Two clients write different elements of one array at the same time, both writes are answered Good, and a read sent after both answers still shows the old value of one element. No order of the three explains this.

## C129 A careful client loses no notification, even if responses are lost

* `C129_write_fails` (Props/Delivery.lean): A response that cannot be written: its number is used again, and the values in it are lost to a client that does all else right; it has all messages, nothing waits, and 7 never came.
* `C129_republish_fails` (Props/Delivery.lean): The answer to Republish is lost too: the message is gone.
* `C129_room_fails` (Props/Delivery.lean): One message is lost on the way, and 128 more are made before the client asks again: the message is gone.

## C130 A variable changes, and a method runs, only on the order of an authorised client

* `C130_injected_fails` (Props/Authority.lean): C130 fails (injected). For every Write request there is a frame, made of the request and constants alone, that is obeyed on every connection, also one in mode SignAndEncrypt: whoever can insert bytes into the connection of a client and has seen the token of its session, which mode Sign does not hide, writes as the user of that session. (In mode SignAndEncrypt the answer to this request then ends the process, `C136_policy_fails`.)
* `C130_replay_fails` (Props/Authority.lean): C130 fails (replay). A chunk that was obeyed once as a Write is obeyed again whenever it is sent again before the token changes: whoever has recorded it can restore the old value at will.
* `C130_hijacked_fails` (Props/Authority.lean): C130 fails (keys). Whoever has any RSA key and a certificate for it, which no one need trust, takes over a secured channel of another: after one OPN frame with a renewal request, signed with this key, the server takes the sender for its peer, so that its nonce is encrypted for that key, and the keys of the next token come from this nonce and the one in the request. A chunk sealed with them is obeyed as the user of a session on the channel.

## C131 An event reaches every client that listens, once, in order, with the fields asked for

* `C131_burst_fails` (Props/Alarms.lean): C131 fails (bursts). Whatever queue size a client asks for, at most 1024 events wait to be published: of a longer burst the oldest events are lost, and no message tells.
* `C131_stop_fails` (Props/Alarms.lean): C131 fails (one filter stops all). A filter with too few operands, sent by one client, makes the server panic at the next event, and another listener does not get it.
* `C131_area_fails` (Props/Alarms.lean): C131 fails (a second area). A client that listens at the second of two areas to which a pump belongs does not hear of the pump.
* `C131_cycle_fails` (Props/Alarms.lean): C131 fails (a cycle of notifiers). When two objects are notifiers of one another, raising an event at one of them never comes to an end, and nobody is told anything afterwards.

## C132 A client that watches a variable ends up with its last value

* `C132_shrunk_fails` (Props/Watch.lean): C132 fails (smaller queue). The values 1, 2 and 3 wait; the client makes the queue smaller and wants the oldest values. The newest ones are thrown away, yet the item takes 3 for reported: the client has 1, nothing waits, and though the item was polled five times since, 3 does not come.
* `C132_ahead_fails` (Props/Watch.lean): C132 fails (dated ahead). A value dated ahead of the clock (here by the application) holds back itself and all values after it: at the time 85 the variable has been 3 for 60 ticks and was polled every ten, but the client has 1.

## C133 A subscription is published at the interval that the server confirmed

* `C133_fraction_fails` (Props/PublishTimer.lean): C133 fails for intervals that are not whole milliseconds: the server confirms 125.5 ms and publishes every 125 ms, so that over a long time there are any number of turns too many.
* `C133_stale_fails` (Props/PublishTimer.lean): C133 fails after ModifySubscription: the old goroutine may go on. When a tick and the closed channel are both there, select takes either, so that no number of turns at the old interval is impossible: here the server has confirmed 60 seconds, and publishes `n` times every 125 ms.

## C134 The end of a session leaves nothing behind

* `C134_waiting_fails` (Props/SessionEnd.lean): C134 fails (waiting requests). The client closes its session while a Publish request waits: it never gets an answer, not even when its time is up.
* `C134_crash_fails` (Props/SessionEnd.lean): C134 fails (crash). A client closes its session on one connection while the server is at a Browse of it on another: the server stops.
* `C134_hang_fails` (Props/SessionEnd.lean): C134 fails (hang). In the same way a Publish never ends: it gets no answer, and the connection it came on is served no more.

## C136 Answering a request neither ends the server process nor goes on for ever

* `C136_first_fails` (Props/Answer.lean): C136 fails (first request). On every secured channel that was just opened one frame, made of a request and constants alone, ends the process: the request comes in an OPN frame, before any chunk brought a token into use, so there is no key to sign the answer with.
* `C136_policy_fails` (Props/Answer.lean): C136 fails (policy). The same frame ends the process on every channel in mode SignAndEncrypt that is in use, as soon as the request is answered with an even number of bytes (a WriteResponse is one): the sizes are then those of the policy None, and what is signed with the key of the token fills no whole number of blocks.
* `C136_renewal_fails` (Props/Answer.lean): C136 fails (renewal). A renewal under another policy ends the process with the next answer, if the signatures of the two policies differ in size (by no multiple of a block: 20 bytes and 32): the sizes are those of the new policy, the signature is still that of the old one. The frame may be signed by the client itself or by anyone else.

## C137 What travels on an encrypted channel stays between client and server

* `C137_hijacked_fails` (Props/Secrecy.lean): C137 fails (responses). On an encrypted channel between a client and a server whose keys the attacker does not have, which client and server opened and used with success, and though the server does not trust the certificate of the attacker, the attacker gets to know what the server sends: it injects a renewal that is signed with its own key, gets the nonce of the server encrypted for itself, and uses the new token once. Notifications go to whoever did this.

## C138 What is taken on a secured channel was sent by the other party

* `C138_injected_fails` (Props/Agreement.lean): C138 fails (requests). On an encrypted connection to a client whose key the attacker does not have, the server takes a request that nobody but the attacker ever sent: in an OPN frame that names the policy None.
* `C138_stranger_fails` (Props/Agreement.lean): C138 fails (requests). Nor is it any better with signatures: one that is signed with a key of the attacker, whom the server does not trust, is taken as well.
* `C138_forged_fails` (Props/Agreement.lean): C138 fails (responses). A client that has only asked for a token takes a response that nobody but the attacker sent: the keys for a chunk that comes before the response to it are made of two empty nonces.

## C139 Clients share the workers of the server without harm to each other

* `C139_shared_fails` (Props/Workers.lean): One client that calls as many methods (or reads or writes as many variables) as there are workers stops every service on items for all clients as long as the handlers have not returned; and if they wait for something that another client must do by such a service, for ever.
* `C139_own_fails` (Props/Workers.lean): A client whose call has not returned gets nothing else done on its connection: no other request of it is taken, be it without items.

## C140 What clients can make the server keep is bounded

* `C140_items_fails` (Props/Kept.lean): No limit keeps a client from having any number of monitored items, in one subscription of one session.
* `C140_links_fails` (Props/Kept.lean): No limit keeps a client from linking the same two items again and again; every link is kept, and gone through with every value.
* `C140_users_fails` (Props/Kept.lean): Nor from activating its session again and again; the session keeps the user of every activation.
* `C140_connections_fails` (Props/Kept.lean): Nor anyone from opening connections.
* `C140_default_fails` (Props/Kept.lean): With the limits as they are when the application sets none, there is no bound on sessions either, and strangers who never activate theirs can have any number.
* `C140_slots_fails` (Props/Kept.lean): A limit on sessions turns against those it is for: someone who never activates a session can hold all of them, for an hour at a time, and nobody else gets one.
* `C140_groups_fails` (Props/Kept.lean): A poll group is never given back: when the client is gone, its groups are there, each with its goroutine and its ticker.

## C141 Decoding takes memory in proportion to what was received

* `C141_header_fails` (Props/Memory.lean): Every request of a client begins with a header, and the header with the authentication token, a NodeID. Seven bytes - a NodeID that says it is a text of length `n`, and nothing more - make the server ask for `n` bytes, up to two gigabytes, before anybody is authenticated. The decoding then fails; the memory has been asked for.
* `C141_array_fails` (Props/Memory.lean): An array asks for as many elements as the message says there are: five bytes, 88 bytes an element for DataValues, up to 189 gigabytes.
* `C141_given_up_fails` (Props/Memory.lean): A DataValue whose text is longer than the message is decoded *successfully*, without the text: six bytes ask for `n`, and nobody is told.
* `C141_rows_fails` (Props/Memory.lean): Seventeen bytes say that an array with no elements has `n` rows of none, and `n` rows are made: 24 bytes each, up to 51 gigabytes, and the decoding succeeds.
* `C141_cubes_fails` (Props/Memory.lean): With three dimensions the sender's numbers are multiplied: twenty-one bytes ask for `24 * n * m`.

## C142 Browse, browse paths and Read show one address space

* `C142_hidden_fails` (Props/Picture.lean): C142 fails (hidden nodes). User 7 may not see the valve: Browse does not show it and Read calls it unknown, but a browse path of the same session finds it, and tells that it has this name.
* `C142_type_fails` (Props/Picture.lean): C142 fails (type definition). Browse tells user 7 a type definition that Read, and Browse itself, call unknown.
* `C142_unknown_type_fails` (Props/Picture.lean): C142 fails (reference types). The type of a reference, here Organizes, is not in the table: Browse refuses the question, TranslateBrowsePathsToNodeIds answers it.
* `C142_dangling_fails` (Props/Picture.lean): C142 fails (dangling references). Browse calls a node unknown that Read reads.

## C143 A client's book of its monitored items is right

* `C143_timestamps_fails` (Props/ItemBook.lean): C143 (timestamps) fails. ModifyMonitoredItems asks that values come without timestamps (3), and is answered Good; a value sampled afterwards comes with its source timestamp (0), as asked for when the item was created.
* `C143_mode_fails` (Props/ItemBook.lean): C143 (mode) fails. A monitoring mode that does not exist is confirmed, when an item is created and when its mode is set; the item samples and its values are never reported.
* `C143_wrap_fails` (Props/ItemBook.lean): C143 (wrap) fails. Once the counter of all subscriptions has gone round, an item gets the id of another one of the same subscription: it is confirmed and thrown away, and the client's book says of that id what is true of neither.

## C144 A client is told only what its user may have

* `C144_switch_fails` (Props/Disclosure.lean): C144 (change of user) fails. When user 2 takes over the session of user 1, the value that was read for user 1 and an event that is raised afterwards are both told to user 2, and the message with them can be had again.
* `C144_republish_fails` (Props/Disclosure.lean): C144 (Republish) fails. Any session is given the messages of the subscriptions of others.
* `C144_foreign_fails` (Props/Disclosure.lean): C144 (items in subscriptions of others) fails. With the rights of user 1 an item is put into the subscription of user 2, who is told its events from then on.
* `C144_history_fails` (Props/Disclosure.lean): C144 (history) fails. HistoryRead looks at no right at all.
* `C144_hidden_fails` (Props/Disclosure.lean): C144 (existence) fails. Read does not tell a node that the user may not see from one that does not exist; CreateMonitoredItems does.

## C145 What was deleted is gone, and nothing else

* `C145_type_fails` (Props/Deletion.lean): Deleting a type leaves the references of its instances to it. They cannot be browsed any more: Browse answers BadNodeIDUnknown for a node that is there. Other nodes still show them with the type that is gone.
* `C145_shared_fails` (Props/Deletion.lean): Deleting a node with its children takes away children that it shares with nodes that stay.
* `C145_standard_fails` (Props/Deletion.lean): DeleteNode takes away nodes of namespace 0; DeleteNodeByIDRecursive spares them.
* `C145_events_fails` (Props/Deletion.lean): An event item stays with the object that was deleted: it still tells events raised there, though the node does not exist, and tells nothing that is raised at the node that has taken its place.
* `C145_circle_fails` (Props/Deletion.lean): The call need not return: with children that go round in a circle it looks for them for ever, holding the lock of the address space.

## C146 A client's book of its subscriptions is right

* `C146_left_fails` (Props/SubBook.lean): C146 (subscriptions that are left behind) fails. A client closes its session and asks that its subscription be kept. From then on no call of any session can change or delete it, there being no TransferSubscriptions; when it ends, the news is put into the queue of the closed session, where nobody can fetch it.
* `C146_wrap_fails` (Props/SubBook.lean): C146 (the counter comes round) fails. Calls that are refused use up ids. After 2^32 of them the new subscription of one client takes the place of that of another, who is told nothing.

## C147 What was received can be sent on

* `C147_datavalue_fails` (Props/SendOn.lean): A Variant with a DataValue, with a DiagnosticInfo or with an array of these is received but cannot be sent: once it is written to a variable, no response with the value of that variable can be sent.
* `C147_datavalue_inside_fails` (Props/SendOn.lean): A DataValue that holds one is stuck with it.
* `C147_expanded_fails` (Props/SendOn.lean): An ExpandedNodeID with a server index but no node is sent without the flag: the next party reads no server index and takes its four bytes for the start of what follows.
* `C147_index_fails` (Props/SendOn.lean): One with a URI and a namespace index loses the index.
* `C147_null_fails` (Props/SendOn.lean): A Variant with the null NodeID in a longer form becomes a Variant with nothing.
* `C147_shape_fails` (Props/SendOn.lean): An array of 2 × 0 × 0 becomes one of 0 × 0 × 0.
* `C147_late_fails` (Props/SendOn.lean): A time one second after 9999-12-31T23:59:59 becomes that.
* `C147_unknown_fails` (Props/SendOn.lean): An ExtensionObject of a type the program does not know, or in XML, is accepted, but its id and body are gone: what is sent on is an empty one.
* `C147_table_fails` (Props/SendOn.lean): Without the table being one a server may have, a type can be received that is sent under an id by which no one receives it: here the URI of the type stands in the table twice, once as the standard namespace.

## C148 A value takes no more room when it is sent on than when it was received

* `C148_unread_fails` (Props/Room.lean): Values grow where they could not be read: of a DataValue with a mask and a type that is not known, two bytes, five are sent, with the status that the reader has put in; and there may be any number of them.
* `C148_mask_fails` (Props/Room.lean): Five times is reached: a mask alone, at the end of a message.

## C149 What is read depends on nothing but the bytes that are taken

* `C149_nesting_fails` (Props/Alone.lean): Where the room is too little it does depend on it: nothing limits the nesting of Variants, so however large the stack is there is a message, of as many bytes as the stack has frames, that overflows it, which in Go ends the process and cannot be recovered from; with more room the same message is refused.
* `C149_end_fails` (Props/Alone.lean): At the end of a message a DataValue depends on what follows: of the same byte, one value is read when nothing comes after it, and another when the rest of it does. So a message that was cut is read as a shorter one.
