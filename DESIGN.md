# Formal model of awcullen/opcua

Model of the Go code in /repo in Lean 4; properties are in `properties.jsonl`,
their status in `MANIFEST.json`.

## Layout

* `lean/Verif/Model/*.lean`  – definitions transcribed from /repo. Each definition cites file and lines and notes what was simplified.
* `lean/Verif/Lemmas/*.lean` – helper lemmas.
* `lean/Verif/Props/*.lean`  – small independent specifications, the property theorems, and an `example` beside each showing that its hypotheses can be met.
* `seeded/LOG.jsonl`         – mutation tests of the theorems.

Naming: `Cnn_xxx` is a theorem of property Cnn. Suffix `_partial`: proves the
property only under the stated restriction. Suffix `_fails`: the code violates
the property; the theorem is the negation with a concrete witness, and is
accompanied by a `_partial` theorem saying when the property does hold.

## Trusted base

* The Lean 4.33.0 kernel.
* Axioms: at most `propext`, `Classical.choice`, `Quot.sound` (checked with `#print axioms`).
* The correspondence between the Go text and the Lean definitions, made by hand; cited line ranges allow review.
* Go run-time, standard library (`net`, `crypto/*`, `time`, `sync`, `container/list`, `strconv`, `encoding/binary`, `encoding/base64`, `reflect`) and third-party packages (`gammazero/deque`, `google/uuid`, `djherbis/buffer`) are assumed to behave as documented.
* Cryptographic primitives are parameters of the theorems, constrained only by functional laws (decrypt inverts encrypt, equal lengths); no computational security claim is made.

## Modelling conventions

* Bytes are `UInt8`/`BitVec 8`; fixed-width integers are `BitVec n` or `UIntN` when wrap-around matters, otherwise `Nat`/`Int`, stated at the definition.
* `float64` is modelled by its 64-bit pattern where only copied; where arithmetic is done on it the model uses rationals, which is noted as a simplification.
* Go panics are explicit values of the result type (`Res.panic`), so "never crashes" can be stated.
* Loops that may not terminate in Go are given fuel or modelled as step relations, and the divergence is a statement about all fuel.
* Mutex-protected methods are atomic steps; where the code uses atomics without a mutex the individual loads and CAS operations are the steps.

## Plan per property

| id | modelled | proof |
|----|----------|-------|
| C01,C02,C04,C07 | encoder/decoder functions over byte lists | round-trip with arbitrary suffix |
| C03 | tick arithmetic in Int with explicit int64 wrap | case analysis with omega |
| C05,C06 | NodeID forms | round-trip by cases; negation for the nil-id-with-URI case |
| C08,C09,C10 | recursive Variant/DataValue codec with fuel on the decoder | mutual structural induction; negations for desynchronisation and panics |
| C11,C12 | schema-indexed codec | induction on schema |
| C13,C14 | generic consequence of round-trip plus "decoders only look at what they consume" | lemma on prefix-monotone decoders |
| C15 | two maps as association functions | invariant by induction over calls |
| C16 | bounded writer | invariant |
| C17–C19 | text printing/parsing over bytes | string lemmas for decimal printing; the accepted texts are given as inductive relations (Guid forms, base64 by place values, server and namespace parts) written apart from the parsers, and the parsers proved to accept exactly these |
| C20 | table lookup | list lemmas; the other direction from the position that the search gives (`Props/Namespaces`). Fails: all 65536 indexes in use; the standard namespace has two names; the server index is dropped |
| C21 | 32-bit masks | bitwise reasoning |
| C22 | decoder with explicit nil dereference | negation + partial |
| C23–C25 | chunk plan, padding, sign/encrypt with abstract crypto, receiver | well-founded induction on remaining length |
| C26 | counter + interleaved load/CAS machine | invariant over all schedules |
| C27,C28 | token state machine, P_SHA expansion | invariant, list prefix lemma |
| C29 | reader over a list of fragments | independence of fragmentation by induction |
| C30–C32 | receive state machine | negation witnesses + partial |
| C33,C34 | arithmetic of negotiation | omega; negations |
| C35 | pending map machine | invariant |
| C36,C37 | session table and gate | decision logic; invariants |
| C38 | publish request queue machine with history | invariant |
| C39,C40 | paging machine | induction; negation |
| C41,C43 | clamping over rationals with NaN/inf | case analysis |
| C42 | plaintext layout | round-trip, negation |
| C44–C48 | subscription state machine | invariants |
| C49 | ownership table of the services | negations + partial |
| C50 | manager table | invariant |
| C51–C53, C56, C57 | queues, links, modes and publishing of the items of a subscription | invariants over histories, ghost history of what was queued; negations |
| C54, C55 | filters of data change items as functions | decision theorems; negations |
| C58, C91 | where and select clauses of event items over the address space of C59; fields of the four kinds of events | rules of Part 4 as an inductive specification, determinism, agreement for well-formed filters; negations |
| C59, C60 | nodes and references as a map, histories of additions and deletions | invariants over histories; negations |
| C61, C62 | loops over references with a number of rounds | closures as specification, fixed point of the breadth-first search, counting of rounds; negations for cycles, diamonds, several supertypes |
| C63, C64 | Browse and TranslateBrowsePaths over the same graph | decision theorems; negations |
| C65 | the namespace table | induction over additions; negation for 65537 URIs |
| C66, C67 | rules of the roles provider, permissions of nodes, the guarded attributes and services | decision theorems over all rules, identities and nodes; negations |
| C68, C70 | one item of Write with the declared data type, value rank and dimensions, value kinds as an inductive type, panics explicit | decision theorems, frame over histories of writes; negations |
| C69 | text of an index range, its application to every kind of value on read and on write | agreement with a slicing specification for well-formed ranges; negations for malformed ones |
| C71 | items as programs of atomic actions, the pool as any interleaving with requests of others | invariant on results; independence of items; negation for lost updates |
| C72, C92–C94 | endpoint lists, the choice of the client, the list of the server, identity tokens on both sides with RSA abstract | the sort as any permutation that respects the levels; case analysis on policies; composition with C42 and C82; negations with altered lists |
| C73 | the switch on timestamps | case analysis |
| C74–C76 | OpenSecureChannel message layout, padding, authentication | round trip; negations |
| C77–C79 | renewal timer, request deadlines, token change race as state machines | invariants; negations with schedules |
| C80 | the queue machine of C38 with time | invariant; negations |
| C81 | the session table of C36 with client keys | negations + partial |
| C82 | the token of C42 with a private exponent of any length | negation for short exponents + partial |
| C83 | locks and queues as a machine of goroutines with programs | lock order invariant; stuck states as witnesses |
| C84 | channel, queue and table state of a subscription; goroutines that look up and then act | invariant for orderly histories; witnesses for races |
| C85 | the subscription machine of C44 | invariant on the mode; case analysis |
| C86 | locks of items, nodes, subscriptions and the subscription manager as a machine of goroutines; sampling of diagnostics | lock order invariant; stuck states as witnesses; an invariant for the blocked publisher after ResendData |
| C87, C88 | the sampling machine of C55 | values as an invariant; negations |
| C89, C90 | the graph of C59; events and data types as walks along its references | closures as specification; negations for cycles and stale caches |
| C95 | Call with the guards of C66, the two built-in methods, the sampling machine of C55 | the standard's answers as an inductive specification; frame; negation for methods of other objects |
| C96 | certificates as records, signatures as names of keys, crypto/x509 `Verify` as a parameter with its documented contract and an instance of it | descent by signatures as specification; negation for a second revocation list |
| C97 | the check of CreateSession | case analysis; negation with a borrowed certificate |
| C98 | decoded node set files, namespace map, aliases, identifiers, references, names | "same node" by URI as specification, induction over the URI loop; negations for malformed and foreign indexes, escaped names, unknown elements |
| C99 | toDataValue over a sum of the XML values | by data type; negations for identifiers inside values, subtypes, ranks, enumerations of the same file, unknown structures |
| C100 | Dial against a server that may answer anything: discovery, channel, session, tables; key sizes | case analysis of every step; the panic of a service call is characterised exactly; negations for keys, types, tables, modes and sizes |
| C101 | as C100 | what the server has shown of itself is a specification of its own; sound for every server, complete for healthy ones; negations for the race of Close, additional headers, unreadable tables |
| C102 | as C100, with the state of both connections | case analysis of every step; negations for failing discovery, CloseSession and CloseSecureChannel |
| C103 | poll groups, items and the goroutines that work on them step by step; revision of the sampling interval with float64 limits, and the period in nanoseconds with int64 overflow | invariant over histories (an item is in the group of its interval, or the one goroutine at work on it is about to put it there), counting of reads against ticks; negations for overlapping requests, NaN and overflow |
| C104 | the same machine with the panics of nil subscriptions and of tickers with period zero | invariant over all interleavings in which deletions do not overlap; negations with witnesses |
| C105 | ListenAndServe, Close, serve and handleConnection as a machine of calls, listener, channel `closing` and connections | invariants over histories; a measure that every step decreases; no step left implies finished; witnesses for a second Close, a port in use, a fatal Accept error |
| C106 | the tables of sessions and subscriptions, the summary counters and the diagnostics nodes as a machine of manager calls | invariant relating tables, counters and nodes to what clients saw; witness of a session that ends before its subscription |
| C107 | the read handlers of SessionSecurityDiagnostics and SetUserIdentity | case analysis for all pairs of sessions; induction over activations; witness family for a foreign session |
| C108 | the increments at each exit of the handlers, by service and kind of exit; `count++` as load and store | induction over requests; witnesses for the services and exits without increment and for a lost update |
| C109 | the structures and enumerations of the library and those of schema/Opc.Ua.Types.bsd as tables, both made by tools/gen_structs.py | comparison of the complete tables in the kernel, lifted to nested layouts by induction over nesting and to all values by the round trip of C12; witnesses FieldMetaData and structures with a Guid |
| C110 | the registrations of `init`, the encoding objects of server/nodeset_1_04.xml | induction over the registrations; comparison of the tables; round trip of C11; witnesses ProgramDiagnostic2DataType and UnsignedRationalNumber |
| C111 | the four switches over messages, the services of the client and the answers of the handlers as tables; writing and reading a message | comparison of the tables, lifted to all contents by the round trips of C05 and C12 |
| C112 | the write handler of a multi-state variable, the conversions to int64, its three stores as separate steps | induction over the writes; witnesses for unknown values, other types, fractions, index ranges, an unset enumeration and two writers; for two writers of one value all interleavings by induction |
| C113 | the two searches over the references of a node | induction over the references; witnesses for HasOrderedComponent and for a hidden property |
| C114 | the discovery services with the list that is made once; the endpoint of a channel; the lock of the server as a reader/writer lock that prefers writers, with goroutines as state machines | induction over the requests and over schedules, with a measure for progress; witnesses for a description without URLs, for Close during the first request and for two first requests |
| C115 | what initializeNamespace does to the standard variables, as a list of acts on the address space; the limit each handler compares with | the acts are on distinct nodes, so what is read is what the act says; compared for every variable with a table of the standard; negations for the two variables of the wrong type, SetTriggering, the history of events, zero limits, the history capabilities, missing capabilities and the session arrays |
| C116 | SetValue with its lock, the call of the historian and the clock, as a machine of any number of writers and readers; the dispatch of HistoryRead | invariant on the lock and on the value that is being recorded, by induction over schedules; witnesses for crossing timestamps and for a historian that refuses; a stopped historian blocks every schedule |
| C117 | readValue over the eight node types with all their fields; IsAttributeIDValid of each | a specification of the fields and of the mandatory and optional attributes of Part 3, agreement for every attribute number by cases; witnesses for the encoding, ranges, role permissions and the value of a variable type |
| C118 | every switch over the policy on its own; the primitives as parameters with the contract of RFC 2104, RFC 8017 and AES-CBC | agreement with a table of profiles by cases; the suites of the policies are lawful, so the round trips of C24 and C25 hold for them with the keys of C28; witnesses for key and nonce lengths and for issued tokens |
| C119 | the counters as a layer on the machines of C44-C52 (publishing and items), the lists of fields and variables as tables | a counter that steps up exactly when something happens counts it (induction over histories); sums over all messages made; the tables against Schema and Structs; witnesses for the counters that stay behind |
| C120 | the options as functions on a record of settings, the constructor of the channel with its positional parameters, what a channel and a session then send and check; for the server the same with its authenticators, where an interface may hold a nil function | a setting that each option sets as it says is the last one chosen (induction over the list); exchange of neighbours for permutations; witnesses for settings that are not used, for nil and for keys that are not RSA keys |
| C121 | the loop of the server over requests with what each handler writes (chunks of the real sending loop) and how it returns; the Error frame as bytes; the client's reading of such frames and its worker, over the machine of pending calls | induction over the requests: answers are a sublist of the requests, all of them when the answers fit; round trip of the Error frame; a simulation shows that the reason has no influence on callers; witnesses and general theorems for silent ends, the crash by the code Good, the hang after 32 calls and the connection that Close leaves open |
| C122 | the list with its two index maps, nil pointers, zero value and panics; PEM files as sequences of blocks | an invariant relates the maps to a plain list without duplicates; induction over blocks and calls; witnesses for issuers without key identifier and strangers with the same one |
| C123 | the tables of the two generated files, constant by constant and case by case, and the switch | general lemmas about switches without duplicate labels; the finite tables are checked completely in the kernel; the theorems speak about all numbers |
| C124 | readResponse frame by frame: token switch, decryption, verification, OPN frames, Error frames, limits; the nonces and keys over the life of a channel; cryptography as in C25 | round trip with the sender of C23 by induction over chunks; inversion lemmas for taken frames; history induction over keys; witnesses for what is taken or crashes without any key |
| C125 | both ends of a channel as one machine over byte streams: header, encoding, chunks, sealing, arbitrary segmentation, reassembly, decoding, handlers that answer in any order, matching by handle | composition of C12/C111 (messages), C23/C25/C124 (chunks), C29 (frames), C26 (handles) in one invariant over all event histories: what is under way in each direction is a list of well formed messages |
| C126 | all sessions, their channels of requests and status changes, and all subscriptions with priority, counters and lateness; one step per service call or turn of a timer | conservation of requests by induction over histories (a permutation); the sorted scan finds the hungry subscription of highest priority; invariant `Held` for one creating session; violated with several sessions because `sm.Len()` counts the subscriptions of all sessions (C126_stranded_fails, with an invariant over all continuations) |
| C127 | the close frame byte by byte, on top of the conversation of C125; the request worker of the server as a loop over the stream | the frame opens as any frame does (lengths, header words, decryption, signature, padding), hence `serverRecv` gets it; induction over the requests under way, from the invariant of C125; sizes that do not fit characterised exactly |
| C128 | every item a task as in C71; the tasks of all requests interleaved action by action; requests sent and answers given are a log | forward simulation: each item takes effect at its last action; invariant that the list of effects so far is legal, ends in the present state, and respects the order of the log; an interrupted write of a part stays valid because nothing else changes the variable. The excepted case is refuted: of two writes to different elements, both answered Good, one is lost, and no order explains it |
| C129 | the items of C53 and the subscription of C44-C48 joined: a message is what the loop over the items takes; a client that holds messages, each response lost or not | invariant: both parts are runs of their own models, the contents of the messages are the takings of the items in order, what the client holds was made by the server, and every message made is held by the client or still in the queue (numbers being unique); then C53 gives the values. Three witnesses show that each condition is needed: a failed write, a lost answer to Republish, 128 unacknowledged messages |
| C130 | the way of a request from the frame to its effect, joined: chunks and OPN frames of the channel (C25, C31), the sessions (C36-C38), roles, permissions, Write and Call (C66) | invariant over all histories: every chunk collected on a connection arrived there and is sealed or is an OPN frame, every session bound to a channel was activated by a message on it with the credentials of its user. Fails in three ways, each for all channels: a clear OPN frame is obeyed as any request, a recorded chunk is obeyed again, and a renewal signed with any RSA key makes its sender the peer of the channel |
| C131 | the way of an event from OnEvent to the client, joined: notifiers (C89), listeners of objects, filters and fields (C58), queues (C51, C53), messages and their recovery (C129) | invariant over all histories from the creation of an item: it is a listener of its node just while it is enabled, its samples are what was wanted, and nothing is thrown away while there is room. Fails: more than 1024 events between two messages are lost silently whatever queue size was asked for; one bad filter stops the server; a second notifier is not told |
| C132 | a variable, the item that watches it (C54, C55), the queue (C51, C53), messages and their recovery (C129), joined, with a clock | invariants over all histories: the value last put into the queue is the last of what was published or waits; nothing in the prequeue is dated after the clock; after the last write each turn of sampling leaves the new value last in line or known. Fails: Modify to a smaller queue that keeps the oldest values throws the newest away and never reports it again; a value dated ahead of the clock holds back all that follow |
| C133 | subscriptions and the goroutines with a ticker behind them; the ticker has room for one tick; the goroutine starts, takes a tick or takes the end when the schedule says so; time in milliseconds; requested values revised as in C43 | invariant `Inv`: one goroutine per subscription that is not told to end, at the confirmed interval; potential arguments `Bound` and `Kept` relate calls of publish, the tick in the channel and the time of the next tick. Fails: the ticker drops the fraction of a millisecond; after Modify the old goroutine may go on, as select takes a tick or the end at random |
| C134 | sessions over the subscriptions and requests of C126; one service at a time per connection, in two steps, the gate and the rest; CloseSession, the sweep; the nil channel and the nil map that delete leaves; a goroutine that waits for a nil channel is stuck for ever, a panic stops the server | invariants `Gone` (an ended session hears nothing), `Tidy` (outside the table = nil map and empty queue), potential `Doomed` for orphaned subscriptions: idle turns left plus lifetime left falls with every turn. Fails: waiting requests are never answered; a Publish under way hangs with its connection; a Browse under way crashes the server |
| C135 | the join of C132: variable, item, queue, messages, client | invariant `Orderly`: samples so far, last value, values that wait and the value of the variable follow the history (`Follows`, an inductive relation of its own); numbers of messages never fall even if a write fails (`Rising`), so putting messages in order gives a part of the samples for any client |
| C136 | one connection: the frames it reads (OpenChannel), what is asked and not yet answered, and sendServiceResponse with the sizes of the policy named last but MAC and cipher of the token; panics and loops without end are results | the room for a body is positive under every policy once an OPN response fitted (C136_room), so no history gets stuck; invariant for orderly histories: policy, policy of the keys and mode agree, and a key exists once something was asked; an answer is then `sendMessage` of C23. Fails: one unauthenticated OPN frame with a service request on a fresh or on an encrypting channel, and a renewal under a policy with another size of signatures, end the process with the next answer |
| C137 | symbolic terms (nonces, asymmetric and symmetric encryption, signatures, MACs, derived keys), derivation rules of an attacker, and clients and servers as far as they say what is sent encrypted for whom and under keys of which nonces | the terms sent satisfy a predicate that is closed under derivation and that secrets do not satisfy: a nonce of a private channel occurs only encrypted for its server, a key with such a nonce in it protects its contents; by induction over the history, for responses under the invariant that the public key of a connection was never the attacker's. Fails: a renewal signed with the attacker's own key makes a server encrypt later responses for the attacker |
| C138 | the symbolic model of C137, with histories in which the attacker derives every frame it delivers | what was sent satisfies a predicate, closed under derivation, that says where nonces and MACs of honest parties occur: a nonce only in a request or response signed by its maker and encrypted for its peer, a MAC under a secret key only around a message that an honest party sent; the keys of a client or connection are made of one nonce of its own and one that is known or made for it. Fails: OPN frames with service requests in them, under the policy None or signed by a stranger, and chunks before the first response |
| C139 | the closures handed to the pool as flows of control with `results[i] = ..` and `wg.Done()` in them, any branch possible; the pool as a queue and a number of workers, connections that take one request at a time, the counter of each WaitGroup, with a panic should it become negative | flows: a checker for "a result, then done, once", sound for every execution, run on the six closures; pool: an invariant ties results, counter, queue and log together; answers, order and the number at work follow; progress by a measure and because some event is possible while a request is open. Fails: as many items as there are workers whose handlers wait stop the items of everybody, and a connection whose request is in hand takes no other |
| C140 | all that is kept, as lists of sessions, subscriptions, items, poll groups and connections, with an event for every request, expiry, publishing and value | an invariant over all histories (`Spec.Bounded`), and a sum of all that is kept; the poll groups are distinct intervals between the shortest and a minute. Fails, for every n by construction of a history: items in a subscription, links between two items, users of a session, connections; sessions and subscriptions with the default options; poll groups stay when the client is gone; sessions that nobody activates fill the limit for an hour |
| C141 | the decoder of Model/Value.lean once more, with a count of the bytes that `make`, `reflect.New` and `reflect.MakeSlice` are asked for, in the order of the code; sizes of the Go types on a 64-bit machine. Erasing the count gives `dec` back (`C141_result`) | accounts (`Cost`) that follow the text of the decoder: each byte read brings 136, a table of all structures of the library shows that this pays for every element of every slice. Fails, for every n: a text, bytes or an array of which only the length has arrived (7 bytes in the header of any request), a Variant given up in a DataValue, rows and cubes of nothing |
| C142 | one table of nodes (`Picture.World`) on which the models of Browse, browse paths (Model/Browse.lean) and Read (Model/Attributes.lean) are run | `C63_sound` and the reading of a visible node give the agreement of the attributes; with visible neighbours Browse is a filter of the references, which is compared with the filter of target; induction over the path. Fails: browse paths find and name nodes the user may not see, Browse tells type definitions the user may not see, reference types that are not in the table, nodes with a dangling reference |
| C143 | the requests on the monitored items of a subscription with their responses, the queues, and the counter of ids (`ItemBook`); the book of the client is a fold over requests and responses alone (`Spec.book`) | invariant over histories: items and book agree pointwise, ids are not beyond the counter, queues hold own values and not more than the size, disabled items have none. Fails: Modify ignores TimestampsToReturn, modes that do not exist are confirmed, the counter of ids wraps and AppendItem's refusal is ignored |
| C144 | every way in which data leave the server (`Disclosure`): sessions with their user, subscriptions, items with prequeue and queue, retransmission queue; what filters, queues and timers drop is part of the events | invariant: all that a subscription holds, and every event its items listen for, may be told to its session (once with 'some user it was activated for', once with 'its user now'). Noninterference: taking the values of a node out of the state commutes with every step, and what the session is told has none of them. Fails: a change of user to one with fewer rights (values queued before, events raised after), Republish and CreateMonitoredItems on subscriptions of others, HistoryRead, CreateMonitoredItems on nodes that may not be seen |
| C145 | node objects as pointers, the table from ids to them, their references, values and listeners (`Deletion`): adding, the four ways of deleting, and every service as far as it looks nodes up | deleting only shrinks: table entries go, references go only with their targets, attributes and objects stay. GetChildren gives a set closed under children, so at the end of DeleteNodes the deleted nodes are closed under the references of the first state, although the outer loop works on a space that it has already thinned out: exactly what is under the given nodes. Browse after a deletion: equal to Browse before, filtered, by refinement to `AddressSpace.deleteNode`. Fails: instances of a deleted type cannot be browsed, shared children and (DeleteNode) standard nodes are deleted, event items stay with the deleted object, circles never end |
| C146 | subscriptions with their settings and lifetime counter, the table, the queues of status changes and the sessions, each call with its response (`SubBook`) | `Spec.book` folds the requests and responses of one session into a book. One invariant between the table and all books, kept by each of the ways in which an entry is written, struck out or announced; from it: everything the server has stands in the book as it is, everything in the book is there or announced, and after as many Publish requests as there are announcements the two are equal. The lifetime counter stays below the lifetime, which is never 0, so the minutely check finds nothing. Fails: the id counter comes round (refused calls use up ids), and a subscription kept at CloseSession can be used by nobody and ends unheard |
| C147 | the codec of `Value`, with the registry of `Registry` under a table of namespaces (`Namespaces.regOf`) | For every decoder a statement on all its results (`Post`): leaves are of their type, lengths fit, times on the grid, nulls are nil; arrays by the count that was read; shapes by what the splitting loops leave. By induction on the room of the stack every accepted value that `Keeps` is well-typed, as deep as the room allows and its own canonical form, so the round trip of C08 applies. A history of registrations gives a registry where every type that is found has an id under which it is found. Fails: a Variant with a DataValue or with DiagnosticInfos cannot be sent; an ExpandedNodeID with a server index and no node is sent so that all that follows is misread; an index beside a URI, null NodeIDs in longer forms, shapes with a middle dimension of zero and times after 9999 change; unknown ExtensionObjects are emptied; a URI twice in the table |
| C148 | the codec of `Value`, with the registry of `Registry` under a table of namespaces (`Namespaces.regOf`) | For every decoder a statement on its result and the number of bytes it took (`Uses`), and that a failure gives nothing back; for sequences the bytes are shared out among the elements, so that what the splitting loops keep is bounded by its own part. By induction on the room of the stack: the length of the encoding is at most the bytes read plus four for each DataValue that says its value could not be read, hence at most five times the bytes read. Under any table the id of a structure is sent in a form that is no longer, as the search takes the lowest index. Fails: ReadDataValue puts a status of four bytes in place of a value it could not read; 2k bytes become 5k |
| C149 | the decoders of `Scalars` and `Value` | A relation on decoders (`Alone`): what is left is the end of what was there, and what was taken gives the same result before any other end, for values and for failures. It is kept by sequencing, choice and repetition, and by the DataValue decoder that goes on after a failed Variant as long as something is left; by induction on the room of the stack it holds of every type. Where no Variant can occur it holds at the end of the input too, so a proper beginning of accepted bytes is refused. Room: two such relations between the decoders at different depths, one that allows a crash for want of room, one for inputs up to a length, where every nested reader starts after at least one byte; (H + 2) frames per byte are enough for structures nested H deep, fifteen for those of the library, and one per byte is needed. Fails: a DataValue cut off in its Variant is read as one with a bad status; Variants nested as deep as the stack crash the process, with more room they are refused |

## Coverage

Per module of `lean/Verif/Model`: the code it transcribes. What a definition leaves
out is written at the head of its module and at the definition.

| module | code |
|--------|------|
| Bytes, Scalars, Value | ua/binary_encoder.go, ua/binary_decoder.go: built-in types, Variant, DataValue, ExtensionObject, reflective structures, DiagnosticInfo |
| Text | ua/node_id.go, ua/expanded_node_id.go, ua/qualified_name.go: printing and parsing; namespace translation |
| Registry | ua/binary_encoding_id registration maps |
| Writer | ua/writer.go |
| Channel, OpenChannel, Frame, Psha | client_secure_channel.go, server_secure_channel.go: chunking, padding, signing, reading frames, Hello/Acknowledge, OPN messages, key derivation |
| Counter, Pending, Renewal, TokenRace | sequence numbers, request handles, response matching, token renewal of both channels |
| Session, Paging | server/session_manager.go, server/session.go, the gate of the session services, continuation points |
| PublishQueue, Subscription, SubTable, Locks, SubCrash, Revise | server/subscription.go, server/subscription_manager.go, publish, republish, transfer of ownership, locks, revised parameters |
| MonitoredItem, ItemLocks, DataChange, EventFilter | server/datachange_monitored_item.go, server/event_monitored_item.go, ua/content_filter.go, the event types, server/scheduler.go as far as locks go |
| AddressSpace, Browse | server/namespace_manager.go (tables, references, subtype and child walks, deletion), Browse, TranslateBrowsePaths |
| Access | server/roles_provider.go, user attributes, permission checks of Read, Write, Call, HistoryRead, CreateMonitoredItems |
| Range, Write, Batch | index ranges, one item of Write, the worker pool of the batch services |
| Call | Call with GetMonitoredItems and ResendData of server/server.go |
| Certificate | ua/certificate_helpers.go, certificate checks of both Open functions, application URI check of CreateSession |
| Password, Endpoint | Dial and open of client/client.go, buildEndpointDescriptions, handleActivateSession |
| NodeSet | LoadNodeSetFromBuffer of server/namespace_manager.go, ua/ua_node_set.go (after xml.Unmarshal) |
| Dial | client/client.go Dial, open, Close, Abort; client/client_service_set.go; Request, Open, Close, Abort of client/client_secure_channel.go (outcomes; bytes are in the other models) |
| server/scheduler.go:10-99; datachange_monitored_item.go:43-71, 123-171, 207-273 | Model/PollGroup.lean |
| ServerLife | server/server.go:282-413 (ListenAndServe, Close, serve, handleConnection); `handleRequest` is taken to return |
| Diagnostics | server/session_manager.go:50-104, 106-1718 (nodes and read handlers of sessions, not the times and names), server/subscription_manager.go:51-150, 949-954, server/session.go:198-220, server/server.go:742-855, the `Count++` lines of server/server_service_set.go |
| Structs, Schema | ua/structs.generated.go, ua/enums.generated.go, the ids of encodings in ua/nodeids.generated.go; schema/Opc.Ua.Types.bsd and the encoding objects of server/nodeset_1_04.xml as specification; written by tools/gen_structs.py, which is trusted to copy |
| Messages | the switches of client/client_secure_channel.go:911-1203, 1622-1719 and server/server_secure_channel.go:618-887, 1358-1455, client/client_service_set.go, server/server.go:430-505, the types of the responses made in server/*.go |
| MultiState | server/namespace_manager.go:101-134, 291-345; server/server_service_set.go:6025-6030 |
| Discovery | server/server_service_set.go:29-88; server/server.go:150-182, 961-1074; server/server_secure_channel.go:288-314; the lock of the server |
| What the server says about itself | server/server.go:506-707, 739-742, 855-857; ua/server_capabilites.go; the limits compared in server/server_service_set.go:1182-4669 |
| History | server/variable_node.go:123-137, 203-215; server/server_service_set.go:2391-2636, 2972-2975, 6025-6056; server/history_read_writer.go |
| Attributes | server/server_service_set.go:6062-6251; server/object_node.go:142-151, variable_node.go:232-243, method_node.go:146-155, object_type_node.go:115-124, variable_type_node.go:139-149, reference_type_node.go:127-137, data_type_node.go:122-131, view_node.go:118-127 |
| Suites | ua/security_policy.go; ua/rsa_uris.go; client/client.go:265-345, 355-680; client/client_secure_channel.go:393-422, 1790-1800; server/server_secure_channel.go:281-287, 1102-1128, 1474-1479, 1555-1565; server/server_service_set.go:161-207, 312-335, 465-487, 563-745 |
| SubCounters | server/subscription.go:28-63, 66-86, 134-184, 305-649 (counters); server/subscription_manager.go:127-948; server/server.go:808-852; server/session_manager.go:106-1240, 1297-1704 (names and values); server/server_service_set.go:5520-5549; server/datachange_monitored_item.go:300-326 and server/event_monitored_item.go:184-204 (overflow count) |
| Options | client/option.go; client/client.go:28-74, 119-143, 243-251; client/client_secure_channel.go:35-52, 55-95, 131-194, 237-247, 280-326, 451, 1768 (settings); client/client_service_set.go:82-113; server/option.go; server/server.go:41-152, 350-352 (settings); server/server_secure_channel.go:102-121, 321-336; server/session_manager.go:50-56 and server/subscription_manager.go:50-56 (limits); server/server_service_set.go:786-819 |
| Ending | server/server.go:384-505; server/server_secure_channel.go:382-429, 1469-1516 (endings); client/client_secure_channel.go:473-496, 1350-1417, 1603-1617, 1734-1736; client/client.go:748-764 |
| CertList | ua/certificate_list.go (whole file) |
| Names | ua/status_code.generated.go (whole file); ua/enums.generated.go (whole file) |
| ClientRecv | client/client_secure_channel.go:437-470, 1368-1622, 1762-1788 (receiving side) |
| Conversation | the composition of Messages, Channel, Frame, ClientRecv with client/client_secure_channel.go:237-267, 1350-1366, 1734-1747 and server/server.go:415-428 |
| PublishFlow | server/server_service_set.go:5180-5257, 5349-5425; server/subscription.go:305-649 (which request goes where); server/session.go:292-346; server/subscription_manager.go:78-117 |
| Closing | client/client_secure_channel.go:472-485, 528-538, 744-908; server/server_secure_channel.go:1512-1515; server/server.go:415-428 |
| Pool | server/server_service_set.go:2210-2240, 2352-2388, 5569-6098; server/variable_node.go:122-137 |
| Delivery | server/subscription.go:305-649; server/server_service_set.go:5520-5549 |
| Authority | server/server.go:416-504; server/server_service_set.go:313-339, 2243-2400, 3619-3668; server/server_secure_channel.go:1028-1450 |
| Alarms | server/namespace_manager.go:601-621; server/object_node.go:116-140; server/event_monitored_item.go:33-56, 117-219, 282-296 |
| Watch | server/datachange_monitored_item.go:45-71, 124-171, 247-273, 336-411; server/subscription.go:305-366, 502-560; server/server_service_set.go:6063-6095 |
| PublishTimer | server/subscription.go:66-115, 165-185, 280-303; server/server_service_set.go:4851-4892, 4973-5005, 5083-5104, 5180-5226 |
| SessionEnd | server/session.go:36-70, 151-172, 292-299, 348-359; server/session_manager.go:39-47, 68-104; server/server_service_set.go:870-960 (CloseSession), 5271-5332 (gate) |
| Answer | server/server_secure_channel.go:240-251, 440-561, 619-1026, 1098-1143 |
| Secrecy | client/client_secure_channel.go:444-470, 528-720, 1205-1620, 1739-1787; server/server_secure_channel.go:270-379, 434-617, 888-1450, 1469-1516 |
| Workers | server/server_service_set.go:1200-1345, 1464-1533, 1649-1713, 2210-2240, 2358-2388, 3607-3680; server/server.go:132, 416-428 |
| Kept | server/session.go:124, 145-149, 204-224, 290-373; server/session_manager.go:39-103; server/subscription_manager.go:51-64; server/subscription.go:123-159, 268-281, 376-381, 566-570; server/scheduler.go:24-37; server/datachange_monitored_item.go:127-326; server/event_monitored_item.go:114-204; server/server.go:24-31, 354-381 |
| Memory | ua/binary_decoder.go:137-222, 441-523, 528-813, 816-863, 866-2054, 2087-2628 (what they allocate) |
| Picture | server/server_service_set.go:1226-1310, 1981-2054, 6063-6110 on one table (server/namespace_manager.go:30, 73-78) |
| ItemBook | server/server_service_set.go:3785-3967, 4073-4172, 4340-4347, 4690-4696; server/datachange_monitored_item.go:44-62, 126-246, 300-353; server/event_monitored_item.go:43-182, 297-314; server/subscription.go:134-163, 327-362 |
| Disclosure | server/server_service_set.go:3848-3967, 5499-5545, 6063-6098, 2391-2640; server/datachange_monitored_item.go:155-171, 247-273, 355-411; server/event_monitored_item.go:140-155, 213-219, 280-294; server/subscription.go:318-420; server/session.go:204-225 |
| Deletion | server/namespace_manager.go:348-555, 575-621; server/object_node.go:12-25, 98-139; server/event_monitored_item.go:282-296 |
| SubBook | server/server_service_set.go:932-960, 4852-4893, 4967-5007, 5080-5090, 5182-5227, 5349-5430; server/subscription.go:66-85, 165-185, 415-429, 479-495; server/subscription_manager.go:41-119 |
| Namespaces | ua/binary_encoder.go:778-787; ua/binary_decoder.go:780-784 |

`AXIOMS.md` lists the axioms of every claim theorem, `FINDINGS.md` every place where
the code departs from a property; both are made by `tools/report.py`.

## Not modelled

TLS/TCP, chain building of crypto/x509 (its contract is `Library.Lawful`), parsing of
certificate files, logging, diagnostics of times, names and queue lengths, the
generated type tables, JSON/XML encodings beyond what the
table names.
