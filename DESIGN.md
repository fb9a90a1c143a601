# Formal model of ros-drivers/odva_ethernetip in Lean 4

## Layout

* `properties.jsonl`: the properties, in terms of the public API.
* `lean/Verif/Model/*.lean`: the executable model, one definition per C++ function, each citing file and lines.
* `lean/Verif/Spec/*.lean`: small specifications written without the model's helpers (wire layouts, trace vocabulary,
  outcome tables, histories of calls).
* `lean/Verif/Lemmas/*.lean`: helper lemmas.
* `lean/Verif/Props/*.lean`: the property theorems `Eip.cNN_…`, with an `example` beside each that meets its hypotheses.
* `lean/Verif/Tests/*.lean`: the project's own unit tests (`/repo/test/*.cpp`) evaluated on the model. These are tests of the
  model's reading of the code, not proofs, and no property rests on them. Expectations about addresses in memory are left out.
* `MANIFEST.json`: which theorems settle which property.
* `seeded/LOG.jsonl`: wrong-program experiments, one line each. `theorems_failed` and `survived` are what the build of the
  edited model reported when the experiment was first run; `theorems_failed_after_tightening` is a second run of the same
  edit. A failing theorem only shows that its proof no longer goes through; that the named claims
  are really false of the edited model (`claims_made_false_by_reading`) was judged by reading. Lines with `"run": false`
  record weak statements found by reading, without a run. Lines with `"automatic": true` come from a sweep that makes one small
  change at a time all over the model (numbers, comparisons, connectives, field names) and rebuilds everything that rests
  on it; only the first failing theorem is recorded, and every change that survived was judged by hand.

## How the code is modelled

* C++ functions become programs `Prog σ α := σ → Res α × σ`. `Res` has three cases: a value, a thrown
  exception (kind and message), and undefined behaviour (`ub`). The state after a throw is kept, so
  partially updated objects and half-consumed readers are visible, as in C++.
* `try/catch` is modelled with the standard exception hierarchy (`length_error` is a `logic_error`,
  `boost::system::system_error` is a `runtime_error`). UB is never caught.
* A null `shared_ptr` dereference, an out-of-range `vector::operator[]`, a read of an indeterminate local or of a
  `bool` that is neither 0 nor 1,
  a use of freed memory and a double free are UB outcomes, never assumed away.
* Fixed-width integers are `UInt8/16/32`; conversions that truncate in C++ truncate in the model.
  `size_t` values are `Nat`, except where the code relies on wrap-around (message router response, stream
  position), where the 64-bit wrap and the conversion to `int` are modelled.
* `Serializable` as a source is a table of its virtual functions (`getLength`, `serialize`, the result of
  `dynamic_cast` to `SerializableBuffer`); as a destination it is a table of the deserialize functions with
  open recursion, so the virtual calls made by `SequencedDataItem<T>` are resolved as in C++.
* In the session model sockets are an environment: for every socket call an arbitrary answer (fail or not, bytes
  received, number of bytes accepted). All theorems quantify over the environment. Every call is recorded in a trace.
  The answers are fixed beforehand, but nothing is lost by that: `c113_reactive` gives, for every party that reacts to
  what the session does, answers with which the run is the one against that party. Which answers occur on the library's own
  sockets is settled by C114.
* Further models refine or complement this one:
  * `Model/Mem.lean`: a heap with allocation and freeing under `SerializableBuffer` (C66).
  * `Model/Refs.lean`: parsers whose results are references into memory instead of values, and `recv_buffer_` as the
    memory referred to. Proved to agree with the value-level model (C59, C67).
  * `Model/Shared.lean`: the steps of `sendCommand` of several callers interleaved, over a device with a FIFO of
    replies or a byte stream cut in any way (C71, C72).
  * `Model/Log.lean`: the session calls once more, with the messages they log. Proved to agree with the model without
    log (C96). A conversion specification that does not fit its argument is undefined behaviour by the language; it is
    modelled as what x86-64 does with it (C95). `Model/Lines.lean`: the characters of a line (C126).
  * `Model/Sharing.lean`: encapsulation and CPF packets whose payloads are shared objects. Proved to agree with the
    value-level model as long as no object is changed through another pointer (C120).
  * `Model/Uninit.lean`: objects with uninitialised members, with the contents of the memory as a parameter (C121).
  * `Model/Threads.lean`: the calls of several threads on one session, cut at their socket calls, in any order. Proved to
    agree with the model when one call is done at a time (C123, C124).
  * `Model/Sockets.lean`: `TCPSocket` and `UDPSocket` over Boost.Asio sockets (C82–C84, C101). `Model/TestSocket.lean`: the
    `TestSocket` of the project's tests (C78, C81). `Model/Rehearsed.lean`: a test that runs a session on two of them (C125).
  * `Model/Races.lean`: the calls of a session access by access (C128). Proved to be the same calls. That a call on a socket
    counts as a change of the socket is taken from the documentation of Boost.Asio ("Shared objects: Unsafe").
  * `Model/Ports.lean`: the sockets of several sessions and the table of UDP ports they share (C127).

## Properties

Properties the code violates are kept as stated. The model proves the negation with a witness, mostly a whole
family of witnesses (`*_violated`), and what does hold (`*_partial`); `MANIFEST.json` marks them partial. All
properties can be expressed in the model.

| property | status | modelled | proved by |
|---|---|---|---|
| C01 A buffer reader never reads outside its buffer | proved | `BufferReader` (Model/Reader) | induction over arbitrary operation lists; refinement to a position in a fixed byte string |
| C02 A buffer writer never writes outside its buffer | proved | `BufferWriter` (Model/Writer) | induction over arbitrary operation lists |
| C03 Integers are little-endian on the wire and survive a round trip | proved | `read<T>`/`write<T>` | induction on the width; both byte order directions |
| C04 getLength equals the number of bytes serialize writes | proved | every `serialize`/`getLength` | compositional predicate `Writes`: writes exactly these bytes or throws `length_error` |
| C05 CPF items and packets report their true serialized length | partial (violated by the code) | `CPFItem`, `CPFPacket` | as C04 for items under 65536 bytes; witness family for 65536 |
| C06 Encapsulation headers round-trip, and every 24-byte string is a header | proved | `EncapHeader` | equality with the layout in Spec/Wire, both directions |
| C07 Encapsulation packets round-trip | proved | `EncapPacket` | `Encodes` + `Parses` |
| C08 CPF packets round-trip with items in order | proved | `CPFPacket` | induction over the item list |
| C09 Unconnected requests have the standard wire layout | proved | `RRDataRequest`, `MessageRouterRequest` | equality with the layout in Spec/Wire |
| C10 Paths encode the added segments in order | proved | `Path` operation lists | induction over the operations against Spec `PathIs` |
| C11 Connection parameters pack without interference | proved | `calcConnectionParams` | arithmetic on `Nat`: each field is recovered, fields do not touch one another |
| C12 Identity items round-trip | proved | `IdentityItemData` | `Encodes` + `Parses` |
| C13 Long identity names keep the record well formed | partial (violated by the code) | `IdentityItemData` | as C12 up to 255 characters, witness for all longer names |
| C14 Sequenced address items and register data round-trip | proved | `SequencedAddressItem`, `RegisterSessionData` | `Encodes` + `Parses` |
| C15 A sequenced data item is the sequence number followed by the item | proved | `SequencedDataItem<T>` | open recursion through the virtual calls, for any `T` |
| C16 A sequenced data item can be reused after a failed parse | partial (violated by the code) | `SequencedDataItem<T>`, state after a throw | exact outcome of a second parse for every class |
| C17 getDataAs into a sequenced raw buffer separates the sequence number | partial (violated by the code) | `getDataAs` into `SequencedDataItem<SerializableBuffer>` | exact result for all data |
| C18 Message router responses split into status and data exactly | proved | `MessageRouterResponse` | exact outcome on all byte strings |
| C19 A message router response can be parsed in the middle of a stream | partial (violated by the code) | `MessageRouterResponse` on a reader with a history | exact outcome for any number of bytes consumed before, including the unsigned wrap |
| C20 Truncated messages are rejected | proved | every `deserialize` | every strict prefix of an encoding throws `length_error` |
| C21 Parsing depends only on the bytes it consumes | proved | every `deserialize` | `ConsumesPrefix`: result invariant under changes of the tail |
| C22 Deserializers never crash on hostile bytes | partial (violated by the code) | every `deserialize` | exhaustive case analysis of the input (`Covers`), exact set of crashing inputs for `RRDataResponse` |
| C23 Forward open and close replies parse field by field | proved | `ForwardOpenSuccess`, `ForwardCloseSuccess` | exact outcome on all byte strings |
| C24 RR data replies are accepted only with a null address item and an unconnected message item | proved | `RRDataResponse` | if and only if characterisation of acceptance, with all fields |
| C25 Opening a session sends the standard registration request and nothing else | proved | `Session::open` | the trace of socket calls for every environment |
| C26 A successful open adopts the non-zero session handle from the reply | proved | `Session::open` | inversion of a normal return |
| C27 A rejected registration closes both sockets and opens no session | proved | `Session::open` | inversion; trace suffix |
| C28 Open has exactly one outcome for every reply | proved | `Session::open` | outcome table as a function of the received bytes |
| C29 Open survives every reply | partial (violated by the code) | `Session::open` | witness reply; every other reply proved safe |
| C30 A failed open leaves no socket open | partial (violated by the code) | `Session::open` | trace after a throw |
| C31 A failed open leaves the session closed | partial (violated by the code) | `Session::open` | state after a throw |
| C32 Every request carries the current session handle | proved | all commands | inversion of `sendCommand`; every frame in every trace |
| C33 Replies for another session or command are never accepted | proved | all commands | inversion of a normal return |
| C34 A command on a session that is not open fails | partial (violated by the code) | commands with session id 0 | witness for every such session; echoing devices proved |
| C35 A non-zero CIP general status is always reported | proved | `sendRRDataCommand` and callers | inversion |
| C36 A non-zero encapsulation status is reported as a failure | partial (violated by the code) | `sendCommand` | witness for every status value |
| C37 A reply to a different service is rejected | partial (violated by the code) | `getSingleAttribute`… | witness for every service code |
| C38 Reading an attribute returns what the device sent | proved | `getSingleAttribute` | for any result class, result equals its parse of the response data |
| C39 Writing an attribute sends exactly the value | proved | `setSingleAttribute` | frame equality with Spec/Wire |
| C40 Attribute access and connection setup survive every reply | partial (violated by the code) | all commands | exact set of crashing replies |
| C41 createConnection adds exactly one connection at the end or changes nothing | proved | `createConnection` | inversion of both outcomes, state equality |
| C42 closeConnection removes exactly the named connection or changes nothing | proved | `closeConnection` | inversion of both outcomes, state equality |
| C43 Connection numbers stay valid | partial (violated by the code) | connection list over histories | induction over histories |
| C44 closeConnection and getConnection reject bad numbers | partial (violated by the code) | `closeConnection`, `getConnection` | case analysis on the number |
| C45 Connection serial numbers are never reused early | proved | `Connection` counters over histories | induction over histories, arithmetic modulo 2^16 |
| C46 Requested connection ids are distinct | proved | `Connection` counters over histories | induction over histories, arithmetic modulo 2^32 |
| C47 The forward open request describes the requested connection | proved | `createConnection` | frame equality with Spec/Connections |
| C48 The forward close request names the connection that was opened | proved | `closeConnection` | frame equality with Spec/Connections |
| C49 A forward open reply for another connection is refused | proved | `Connection::verifyForwardOpenResult` | inversion |
| C50 A forward close reply for another connection is refused | proved | `Connection::verifyForwardCloseResult` | inversion |
| C51 Closing a session unregisters it and closes both sockets | proved | `Session::close` | trace equality |
| C52 A failed close can be retried | proved | `Session::close` | state after a throw, composition with a second call |
| C53 The destructor never throws and unregisters exactly the open sessions | proved | `~Session` | outcome and trace for every environment |
| C54 Closing a session closes its connections | partial (violated by the code) | `Session::close` | state equality |
| C55 Each command is one request and at most one receive | proved | all calls | trace shape, over histories by induction |
| C56 Commands change only what they must | proved | all calls | frame conditions, over histories by induction |
| C57 Old receive-buffer contents never leak into a result | proved | `recv_buffer_` | non-interference: two sessions differing only in the buffer give the same result |
| C58 Receiving an IO packet yields the datagram's items | proved | `receiveIOPacket` | exact outcome per datagram |
| C59 A received IO packet keeps its contents | partial (violated by the code) | `receiveIOPacket` with references (Model/Refs) | refinement of the value-level model; induction over histories |
| C60 Sending an IO packet puts exactly its encoding on the wire | proved | `sendIOPacket` | datagram equality with Spec `cpf` |
| C61 Oversized requests are never put on the wire malformed | partial (violated by the code) | all sends | induction over histories for small payloads; witness families |
| C62 The list-identity request is the standard 24-byte datagram | proved | `IOScanner::sendListIdentityRequest` | datagram equality |
| C63 The scanner never lets an exception escape and prints only valid identities | partial (violated by the code) | `IOScanner` receive handler | exact outcome per datagram |
| C64 The scanner keeps listening | partial (violated by the code) | `IOScanner::run` with a queue of arrivals | induction over arrivals |
| C65 Copying a serializable is serialize-then-parse | proved | `copy_serializable` | equality with serialize followed by parse; the direct path for raw buffers |
| C66 Raw buffers own or borrow memory safely | partial (violated by the code) | `SerializableBuffer` on a heap (Model/Mem) | heap invariant by induction over operation lists; double-free and dangling witnesses |
| C67 getPayloadAs yields a usable object | partial (violated by the code) | `getPayloadAs` on a heap (Model/Refs) | reference-level refinement; every other source dangles |
| C68 Stream and buffer writers produce the same bytes | proved | `StreamWriter`/`BufferWriter` | simulation |
| C69 Stream and buffer readers agree on complete input | proved | `StreamReader`/`BufferReader` | simulation for every class |
| C70 Short streams are reported | partial (violated by the code) | `StreamReader` | witness families; the stream state characterised |
| C71 Each caller gets the reply to its own request | partial (violated by the code) | steps of `sendCommand` interleaved (Model/Shared) | induction over schedules; witnesses for any two commands |
| C72 A reply split by TCP is reassembled or the connection is resynchronised | partial (violated by the code) | byte-stream device with arbitrary segmentation | induction over executions; witnesses |
| C73 A partially sent request is detected | partial (violated by the code) | `send` results | non-interference: accepted counts change nothing |
| C74 The header length field matches the payload | proved | `EncapPacket` operation lists | invariant by induction |
| C75 Errors reach the caller as documented exception types | partial (violated by the code) | all calls | inversion of throws |
| C76 Session ids are only acquired by registration and only dropped by close | proved | all calls | invariant over histories |
| C77 Copying an open session does not disturb it | partial (violated by the code) | implicit copy of `Session` | trace of copy and destruction |
| C78 The test socket is a faithful byte pipe | proved | `TestSocket` operation lists | induction |
| C79 The wire format does not depend on the host | partial (violated by the code) | `write<T>` on both byte orders (Model/Host) | direct, for all values |
| C80 A failed parse does not corrupt the object | partial (violated by the code) | state after a throw of every `deserialize` | exact |
| C81 Clearing the test socket erases what was sent | partial (violated by the code) | `TestSocket::clearTxBuffer` | exact contents of the array |
| C82 The IO socket delivers only the device's datagrams | partial (violated by the code) | `UDPSocket` (Model/Sockets) | induction over call histories; non-interference in the senders |
| C83 A failed open can be repeated | partial (violated by the code) | `UDPSocket`, `TCPSocket` | invariant over call histories |
| C84 A failed open does not redirect traffic | partial (violated by the code) | `UDPSocket`, `TCPSocket` | invariant over call histories |
| C85 A sized parse accepts exactly frames of that size | proved | `EncapPacket`, `CPFItem`, `EncapHeader` sized `deserialize` | if and only if characterisation |
| C86 A parsed object reports the length it was parsed from | partial (violated by the code) | `getLength` of parsed objects | exhaustive input case analysis |
| C87 Any item can be carried with a sequence number | partial (violated by the code) | `SequencedDataItem<T>` for each class | per-class simulation with the open recursion |
| C88 Requests made from a connection object describe it | proved | `Connection` call lists | induction over the calls, equality with Spec/Wire |
| C89 A forward close request reports its true length | partial (violated by the code) | `ForwardCloseRequest` | `Encodes` without the flag; exact excess with it |
| C90 The device is asked for the buffer size the caller gave | partial (violated by the code) | `calcConnectionParams` | arithmetic on `Nat` |
| C91 With a conforming device the session follows the device's state | proved | whole `Session` against a device given as a relation on bytes (Spec/Device.lean); on the library's own sockets the device's answers are bytes that arrive (Spec/Network) | refinement: one lemma per call inverting what the device may serve, then induction over the calls; an able device turned into a reacting party gives a run for every use (c91_some_run); on the sockets, what is received is shown to be what arrived, so the refinement applies |
| C92 Attributes of every size can be read | partial (violated by the code) | `sendCommand`, the 4096-byte receive buffer | uniqueness of frames: a cut frame is no frame |
| C93 A stream reader delivers its stream in order and stays failed once it has run dry | proved | `StreamReader`, `StreamWriter` | induction over call lists, splitting at the first call that does not fit |
| C94 Raw buffers free what they allocate | partial (violated by the code) | `SerializableBuffer` on a heap (Model/Mem) | balance of live blocks and owners, by induction over operation lists; leaking family |
| C95 Log messages show the values they are given | partial (violated by the code) | every log call: format string and promoted arguments, x86-64 argument slots (Model/Log) | case analysis over all messages, for all values and unused bits; witnesses |
| C96 Errors are logged exactly when a call fails | partial (violated by the code) | all session calls with their log (Model/Log) | simulation of the calls without log; compositional predicates on the messages added |
| C97 The log says opened and closed exactly when that happened | partial (violated by the code) | `open`, `close` with their log | exact place of the message among the messages added; inversion |
| C98 The log of a command tells what was wrong with the reply | proved | `sendRRDataCommand` and callers with their log | exact log as a function of the bytes received |
| C99 The library does not write to the standard output | partial (violated by the code) | all session calls with their log | compositional predicate on the messages added; witness family |
| C100 Replaced connection ids are logged | proved | `createConnection`, `closeConnection` with their log | exact log as a function of the reply |
| C101 A closed socket carries nothing | proved | `TCPSocket`, `UDPSocket` with what arrives (Model/Sockets) | invariants over call lists: closed stays closed, pending is a suffix of what arrived |
| C102 Sessions of one originator name their connections differently | partial (violated by the code) | the session constructor with its random generator (Model/Random) | equal seeds; non-interference of the receive buffer; ranges of counters over histories |
| C103 Items can be read back before they are sent | partial (violated by the code) | `CPFItem::getDataAs`, `copy_serializable`, `SequencedDataItem` | `Encodes` and `Parses` of the item; exact results in the other cases |
| C104 The accessors of a response return what the reply said | proved | `RRDataResponse` accessors | inversion of the parser of replies |
| C105 Classes that go one way refuse the other way and change nothing | partial (violated by the code) | the throwing halves of the message classes (Model/OneWay) | evaluation for all states; a keeps-predicate on the parser for RR data |
| C106 Parsing a raw buffer fills it with the next bytes, or throws | partial (violated by the code) | `SerializableBuffer::deserialize` | evaluation on both readers, exact result for short streams |
| C107 The scanner's log tells what came of every arrival | partial (violated by the code) | `io_scanner` with its log calls (Model/ScanLog) | log-adding refinement of Model/Scanner; exact messages by inversion of the parser |
| C108 Opening, closing and I/O log exactly what happened | proved | `Session::open`, `close`, destructor, I/O with their log calls (Model/Log) | exact results of each socket call and parser, case by case; the cases are proved to be exhaustive |
| C109 A session can be opened again after a failed open | partial (violated by the code) | `Session` over `TCPSocket` and `UDPSocket` (Model/Wired) | induction on histories with the invariant that the I/O socket stays open; case analysis of `open` and `close`; constructed runs |
| C110 A session talks to the device it was opened to | partial (violated by the code) | `Session` over `TCPSocket` and `UDPSocket` (Model/Wired) | invariant over histories tying the route of both sockets to the last successful `open`; constructed counterexample |
| C111 Nothing that arrived before the connection was made is taken for an answer | proved | `TCPSocket`, `UDPSocket` with what arrives, `Session` over them (Model/Wired) | invariants over everything that happens: received and waiting bytes make up a piece of what arrived |
| C112 A new session starts at the numbers of a generator seeded with the time | proved | the session constructor with its random generator (Model/Random) | refinement of the generator of the C++ standard, stated on natural numbers (Spec/Random); first request of a history |
| C113 What a session does depends only on how its socket calls went | proved | all functions of `Session`, as strategies that ask the sockets (Spec/Strategy.lean) | a predicate closed under binding, catching and local state, one lemma per function; comparison of two executions of one strategy; answers built along the strategy |
| C114 Which outcomes of socket calls a session must be prepared for | proved | `TCPSocket`, `UDPSocket` with what arrives, `Session` over them; the rules in Spec/Possible.lean | simulation in both directions: each event obeys the rules; for each permitted event a network on which it happens |
| C115 The headers of the library can be included in any combination | partial (violated by the code) | the preprocessor on the 36 headers: include directives, guards, declared and used names (tables transcribed from the text); include lists of the library's own sources and tests | induction over preprocessing; two headers with one guard exclude each other, all others are complete and in order by the include graph's rank |
| C116 A call comes back although the device is silent | partial (violated by the code) | `Session` over `TCPSocket` and `UDPSocket`, and calls that have not come back (Model/Waiting) | the place of receives in the trace of each call; the waiting point and its inevitability; resuming a call with other answers, by its strategy (C113) |
| C117 Raw buffers show the bytes they were given | proved | `SerializableBuffer` in memory (Model/Mem): every operation, with the heap's contents | the memory invariant of C66 along a history; contents of the heap after allocating, freeing and storing; one case per operation |
| C118 Working on one raw buffer leaves other raw buffers and lent memory alone | partial (violated by the code) | as C117 | violated for all contents when a stream read has just the length of the buffer, and by copies; frame lemma: an operation changes only bytes its buffer refers to and stores through |
| C119 A stream writer reports what the stream did not take | partial (violated by the code) | `StreamWriter` over an `ostream` that ends or has failed | every `serialize` as its bytes appended as far as there is room (`Writes`), composed over lists of objects; witness family for every object and room |
| C120 Packets that share a payload do not disturb one another | partial (violated by the code) | programs over a store of objects and packets that point to them (`Model/Sharing`) | simulation of every function by the one on values; invariant (pointers valid, existing objects kept) by induction over programs; witness family for every pair of objects of different size |
| C121 Nothing depends on uninitialised memory | partial (violated by the code) | `createConnection`, `closeConnection`, `getSingleAttribute` and the scanner with the memory of their objects as a parameter (`Model/Uninit`) | every parser from a buffer acts the same whatever the object was (`Overwrites`, composed), and its value on success is determined by the bytes; histories by induction; witnesses for user-built objects |
| C122 A close that failed can be repeated on the library's sockets | partial (violated by the code) | `close` of both sockets may report an error although the socket is closed (`TCPSocket.close`, `UDPSocket.close` with `works`); a session on these sockets (`NetStep`, `NetHistory`) | case analysis of `close` over the sockets, a closed control socket stays closed without `open` (induction over histories), and a history in which it happens, built with C114 |
| C123 Threads that share a session do not disturb one another's transfers | partial (violated by the code) | the public functions of the session cut at their socket calls (`Model/Threads`), a pool of calls and any schedule | the pieces in a row are the call (per function); stages of a call as an invariant over schedules, with the buffer as the fold of all receives; witness families for every command and every datagram |
| C124 Connections can be created and closed while other threads use the session | partial (violated by the code) | as C123 | stages of a call with the effect on the session, others' pieces leave all but the buffer alone; witness families for all pairs of connections |
| C125 What a test on TestSockets shows happens on the library's sockets too | partial (violated by the code) | a session on two `TestSocket`s, with lines that script and clear them (`Model/Rehearsed`), and on the library's sockets (`Model/Wired`) | a session only reacts (C113), so fake sockets determine its course; recorded and scripted bytes by induction over the test; each call's socket calls obey the rules of C114, which gives a history on the library's sockets; two witness tests |
| C126 What the library logs arrives whole and can be read back | partial (violated by the code) | the bytes of a log line (`Model/Lines`): digits, UTF-8 texts, console_bridge's buffer of 1024 bytes and its levels | digits by strong induction against an inductive reading relation; an upper bound for every message from the texts of the exceptions that can reach it (a rule for each construct of the model); witness family |
| C127 Several sessions in one program do not disturb one another | partial (violated by the code) | the sockets of any number of sessions on one machine with its table of UDP ports (`Model/Ports`) | projection of every run to each session; invariant of the port table; every interleaving of the sessions' own runs is a run of the machine (induction over the interleaving); impossibility by the invariant, witness run |
| C128 Threads may use a session at the same time | partial (violated by the code) | the calls as sequences of single accesses to the members and sockets (`Model/Races`), any number of threads, every interleaving | the accesses in a row are the call (same function); the places of every call by a rule for each construct; invariant: every thread is where it could be alone; explicit schedules for the races, for all states; exact line by cases over all pairs of calls |
| C129 Attributes of the elementary types keep their values | partial (violated by the code) | the elementary types with their values and memory, and the templates of the session at these types (`Model/Types`); reading a bool that is neither 0 nor 1 is undefined | values and bytes by arithmetic modulo the size; the exchange from the theorems on attributes; exact line by cases over the types |
| C130 Parsing keeps no more of a message than there is | partial (violated by the code) | all parsers from buffers and streams; what an object keeps (`Spec/Held`) | a program logic that counts the bytes left in the reader and those kept, one rule per construct; witnesses for streams and identities |
| C131 A scan finds the devices of the network | partial (violated by the code) | the scanner with its own socket, the option SO_BROADCAST, ports and senders (`Model/Lan`); which hosts hear a request (`Spec/Lan`) | exact result of every scan from the theorems on the handler; the rest follows from it |
| C132 A connection obtained from getConnection stays that connection | partial (violated by the code) | The vector of connections in memory: allocation, room, elements, references into it; every call of the session followed on it (Model/Handed) | What each call does to the list gives what it does to the vector; induction over histories for the invariant, the reference that is kept, and the one that is gone. Violations for every growth policy and every session |
| C133 Scanners that share an io_service do not disturb one another | partial (violated by the code) | An io_service with the scanners made on it: stopped or not, handlers of cancelled receives, mail for all scanners in any order (Model/Hub) | Induction over the mail: every scanner ends up as it would alone with its own mail, the run returns exactly when nobody waits; a service at its end stays there over every history (violation); equality with the single scanner of C131 when nobody else waits; what making and destroying a scanner do to the others |
| C134 Cyclic I/O data arrive as sent, and lost, repeated and reordered packets can be told | partial (violated by the code) | sendIOPacket and receiveIOPacket of two sessions (Model/Session) with a producer and a consumer as user programs (Spec/Cyclic) | Induction over the packets that arrive, from the bytes each packet is sent as, the items the receiver gets back, and the round trip of sequenced items; the violation for every value of more than 4076 bytes |
| C135 The library does the same on 32-bit and on 64-bit hosts | partial (violated by the code) | The functions that compute with size_t in a way that may wrap around, for any width (Model/Width) | Conversions to int are congruent modulo 2^32; an invariant of the reads bounds what a reader has delivered; the sum of lengths modulo the width for packets, with the smallest kind of packet that overflows 32 bits as violation |
| C136 A call that runs out of memory leaves the session as if it had not been made, or as if it had been made | partial (violated by the code) | All calls and the destructor of Session with the places where they allocate; a list says which allocations fail (Model/Tight) | Compositional relation between each call and the call with enough memory: same outcome, or cut short; a count of the allocations of a successful call places the failure after the device's answer for the violations |
| C137 A session can be used further after calls that ran out of memory | partial (violated by the code) | Histories of calls in which any allocation of any call may fail and the caller goes on (runOpsT in Model/Tight) | Each call cut short makes a step of the kinds used for C45, C46 and C76, so the invariants over histories carry over; the violation for all worlds in which two read requests can be sent |
| C138 A scan that runs out of memory reports devices as a whole or not at all | partial (violated by the code) | The scanner with its log and the places where it allocates; a list says which allocations fail (Model/TightScan) | Compositional relation between each function and the function with enough memory: same outcome, or the first part of it; a second relation finds, for every message logged, an allocation just before it |
| C139 A command that failed does not spoil the commands after it | partial (violated by the code) | All commands, open and close of Session (Model/Session); the device and the network are a reading of the trace of socket calls in Spec/Backlog | The socket calls of every command have one of three shapes; induction over the history keeps track of the answers on their way |

## Trusted base

* Lean 4.33.0's kernel. No axioms are added; there is no `sorry`, `native_decide` or `bv_decide`. All 7905 theorem
  constants of the project (helper lemmas and generated ones included) depend on at most `propext`,
  `Classical.choice` and `Quot.sound`. The table below gives the axioms of each property theorem.
* The reading of the C++ code: each definition of the model cites its source, and says what it simplifies. The unit
  tests of the project all pass on the model (`lean/Verif/Tests`), which supports the reading but does not prove it.
* The specifications in `lean/Verif/Spec` and the hypotheses of the theorems.
* Platform assumptions: little-endian host (C79 states what depends on it), 64-bit `size_t` (C135 states what depends on it), 32-bit `int`,
  `sizeof(sockaddr_in) = 16`, allocations never fail (C136 states what happens in calls of `Session` when they do).
* Boost.Asio: `buffer(b, n)` takes at most `n` bytes, `buffer + n` drops `n`, `buffer_copy` copies the minimum
  of both sizes; a socket call either throws `boost::system::system_error` or completes. In `Model/Sockets.lean`:
  `socket::open` on an open socket throws `already_open`, `boost::asio::connect` closes and reopens the socket for
  each endpoint it tries, `close` of an open socket may report an error but closes it, `receive` from a UDP socket takes one datagram and drops what does
  not fit. `bind` fails if another socket has the port at the same address, or if one of the two addresses is 0.0.0.0;
  port 0 lets the system choose. `io_service::run` returns when no operation is pending and does nothing when called again without `reset`.
* Boost.Random: `mt19937` is the published 32-bit Mersenne Twister (C112 proves the model equal to
  the definition in the C++ standard; an example compares two outputs with the published ones),
  `uniform_int_distribution<>(0, 0xFFFF)` takes the upper 16 bits of an output.
* console_bridge, which is neither in the repository nor installed: `log` formats with `vsnprintf` into a buffer of 1024
  bytes (so 1023 characters are kept), the levels are ordered debug, inform, warn, error, none, and warn is the default.

## What is modelled

Every function in `src/` and `include/odva_ethernetip/`:

| code | model |
|---|---|
| `serialization/{reader,buffer_reader,stream_reader}.h` | Model/Reader |
| `serialization/{writer,buffer_writer,stream_writer}.h` | Model/Writer, byte order in Model/Host |
| `serialization/{serializable,serializable_buffer,serializable_primitive}.h`, `copy_serializable` | Model/Serializable, Model/Items, memory in Model/Mem and Model/Refs |
| `path` | Model/Path |
| `encap_header`, `encap_packet` | Model/Encap, packets sharing payloads in Model/Sharing |
| `cpf_item`, `cpf_packet` | Model/CPF, packets sharing data in Model/Sharing |
| `sequenced_data_item.h`, `sequenced_address_item.h`, `register_session_data.h`, `identity_item_data` | Model/Items |
| `rr_data*`, `message_router_*`, `forward_open_*`, `forward_close_*` | Model/Messages, the halves that only throw in Model/OneWay |
| `connection` | Model/Connection, with uninitialised members in Model/Uninit |
| `session` | Model/Session, starting numbers in Model/Random, copies in Model/Copy, interleavings in Model/Shared, Model/Threads and (single accesses) Model/Races, on the library's own sockets in Model/Wired, waiting in Model/Waiting |
| `eip_types.h`, and `getSingleAttribute`/`setSingleAttribute` at its types | Model/Types |
| `io_scanner` | Model/Scanner, on a network in Model/Lan, several on one io_service in Model/Hub |
| the references `getConnection` hands out | Model/Handed |
| `socket/{tcp_socket,udp_socket}.h` | Model/Sockets, those of several sessions in Model/Ports |
| functions that compute with `size_t`, on hosts of other widths | Model/Width |
| calls of `Session` when memory runs out, and histories of such calls | Model/Tight |
| the scanner when memory runs out | Model/TightScan |
| `socket/test_socket.h` | Model/TestSocket; a session on it in Model/Rehearsed |
| log calls in `session`, `connection`, `rr_data`, `io_scanner` | Model/Log, those of `io_scanner` in Model/ScanLog, their characters in Model/Lines |
| include directives, guards and declared names of all headers | Model/Headers |

## Not modelled

* Name resolution and the network beyond the answers it gives.
* What the machine does once there is a data race: C128 says when there is one, at the level of single accesses to the
  members; C71, C72, C123 and C124 interleave whole socket calls and whole pieces of code between them. The vector of
  connections and the receive buffer are one place each in C128.

## Axioms per theorem

p = `propext`, c = `Classical.choice`, q = `Quot.sound`. 495 property theorems.

| theorem | axioms | says |
|---|---|---|
| `c01_reader_stays_in_buffer` (Streams) | p q | C01. Every call delivers the next bytes of the buffer or is refused without effect; the byte count is the position. |
| `c02_writer_stays_in_buffer` (Streams) | p q | C02. After any writes the buffer holds the accepted chunks, then its old contents. |
| `c02_refused_write_changes_nothing` (Streams) | p q | A write is refused exactly when it does not fit, and then changes nothing. |
| `c03_integers_little_endian` (Streams) | p q | C03. Integers are written least significant byte first, whatever writer is used. |
| `c03_integers_round_trip` (Streams) | c p q | C03. Reading the bytes of an integer gives the integer back: members, locals and attribute values, from buffers and streams. |
| `c03_every_string_is_one_integer` (Streams) | c p q | C03. Every byte string of size `k` encodes exactly one number below `256 ^ k`. |
| `c04_reported_length_is_written_length` (Wire) | c p q | C04. Every serializable the library sends writes exactly the bytes of its wire format, and reports their number. |
| `c04_exact_buffer` (Wire) | p q | C04. So the buffer the library allocates for an object is filled exactly: sending neither throws nor pads. |
| `c05_violated` (Wire) | c p q | C05 is false: any packet with one item of exactly 65536 bytes reports 6 bytes and cannot be sent from a buffer of that size. |
| `c05_true_length_partial` (Wire) | c p q | C05 (partial: every item under 65536 bytes). Missing: larger items, for which it is false. |
| `c05_item_true_length_partial` (Wire) | c p q | C05 (partial). The same for one item. |
| `c05_exact` (Wire) | c p q | What is written never depends on the size; only the announced length does. |
| `c06_header_round_trip` (Wire) | c p q | C06. The 24 bytes of any header parse back to it, whatever the header object held before. |
| `c06_every_string_is_a_header` (Wire) | c p q | C06. Every 24-byte string is a header. |
| `c07_packet_round_trip` (Wire) | c p q | C07. A packet whose length field is its payload's length parses back to the same header and payload bytes. |
| `c07_constructed_packet_round_trip` (Wire) | c p q | C07. A packet constructed with a payload under 65536 bytes: all fields after the round trip. |
| `c07_parse_then_serialize` (Wire) | c p q | C07. A byte string that parses is reserialized to exactly the bytes consumed, and the payload has exactly as many bytes as the length field says. |
| `c08_cpf_round_trip` (Wire) | c p q | C08. Items come back in order with the same types and data. |
| `c08_parse_then_serialize` (Wire) | c p q | C08. A byte string that parses is reserialized to exactly the bytes consumed. |
| `c09_request_layout` (Wire) | c p q | C09. The wire layout of an unconnected request. |
| `c09_any_handle_and_timeout` (Wire) | c p q | C09. The same with any interface handle and timeout in the request, and for plain RR data. |
| `c09_announced_length` (Wire) | c p q | C09. The announced length is the true length when the message has fewer than 65536 bytes. |
| `c09_router_request` (Wire) | c p q | C09. A message router request on its own, and the one made without arguments: service code 0, an empty path, no data. |
| `c10_shortcuts` (Requests) | c p q | C10. The shortcut constructors. |
| `c10_path_encodes_segments` (Wire) | c p q | C10. Any sequence of calls on a new path. |
| `c10_count` (Wire) | c p q | C10. The count byte is right below 256 segments. |
| `c10_count_sharp` (Wire) | none | C10. With exactly 256 segments the count byte is zero: the bound in the claim is sharp. |
| `c11_packed_word` (Wire) | c p q | C11. The packed word is the sum of the five fields in their positions. |
| `c11_fields_do_not_interfere` (Wire) | c p q | C11. Every field can be read back from the word whatever the others are, and no other bit is set. |
| `c12_identity_round_trip` (Wire) | c p q | C12. Identity records with names up to 255 characters. |
| `c13_violated` (Wire) | c p q | C13 is false: a record with a name of 256 or more characters never reports the length it writes, and parses back as a record with a shorter name. |
| `c13_identity_round_trip_partial` (Wire) | c p q | C13 (partial: names up to 255 characters). Missing: longer names, for which it is false. |
| `c14_round_trips` (Wire) | c p q | C14. |
| `c15_sequenced_item` (Wire) | c p q | C15. For a class whose sized `deserialize` delegates to the unsized one: the sequence number, then the item. |
| `c15_sequenced_raw` (Wire) | c p q | C15. The same for a raw buffer, whose sized `deserialize` is its own. |
| `c16_violated_exact` (Parsing) | c p q | C16 is false, for every class and every failure after the sequence number: the object stays in the middle of a parse, and the next input is read without its sequence number, shifted by two bytes. |
| `c16_violated` (Parsing) | c p q | C16 is false for sequenced address items: a truncated input followed by a good one. |
| `c16_violated_sized` (Parsing) | c p q | C16 is false for raw data read with a length, for all data: after an input that is shorter than the length it was read with, the next input of `n` bytes with a correct length of `n` is read as `n - 2` bytes of data: its sequence number is taken for data, its last two bytes are left over, and the sequence number is still that of the failed input. |
| `c16_reuse_partial` (Parsing) | p | C16 (partial: failures before the sequence number is complete). Then the object is unchanged and can be reused. Missing: failures inside the item, for which it is false. |
| `c17_violated` (Parsing) | p | C17 is false for all data: the sequence number is left as it was and the two bytes of the sequence number stay in front of the data. |
| `c17_all_bytes_kept_partial` (Parsing) | none | C17 (partial): no byte is lost, the raw buffer holds all of the item's data. Missing: the separation of the sequence number, which does not happen. |
| `c18_exact_split` (Parsing) | c p q | C18. The exact outcome on every byte string. |
| `c19_violated` (Parsing) | c p q | C19 is false whenever other bytes were consumed before: the response data loses one byte for each of them. |
| `c19_own_buffer_partial` (Parsing) | c p q | C19 (partial: nothing consumed before, fewer than 2^31 bytes). The full response is parsed and what follows is left alone. Missing: readers that have delivered bytes before, for which it is false. |
| `c20_truncation_rejected` (Parsing) | c p q | C20. Every strict prefix of a valid message is rejected with `length_error`. |
| `c21_parsing_is_local` (Parsing) | c p q | C21. Every deserializer of the library consumes a prefix of its buffer and ignores what follows. |
| `c22_never_crash_partial` (Parsing) | p q | C22 (partial: every class except `RRDataResponse`). Sized and unsized deserializers on any byte buffer. |
| `c22_violated` (Parsing) | c p q | C22 is false for RR data responses: a null pointer is dereferenced for every input whose message item is empty, and for no other input. |
| `c23_reply_fields` (Parsing) | c p q | C23. Forward open and close replies, field by field. |
| `c24_acceptance` (Parsing) | c p q | C24. Plain RR data is accepted exactly when its first item is an empty null address and its second an unconnected message, and then the object holds the interface handle and the timeout in front of the items and the reader stands behind the last item; otherwise `logic_error` or `length_error` is thrown. |
| `c24_response_acceptance` (Parsing) | c p q | C24. RR data responses are accepted only with the same two items, the second holding a complete response, whose contents are then in the object, with the interface handle and the timeout in front of the items. |
| `c24_response_accepted` (Parsing) | c p q | C24. And every such response is accepted, whatever the object held before. |
| `c25_registration_bytes` (Open) | none | The registration request is the standard 28 byte message. |
| `c25_open_calls` (Open) | c p q | C25. Whatever the sockets do, `open` performs an initial part of one fixed sequence of calls; a call that fails is the last one; and if it returns normally it has performed exactly the first four, of which one is a send. |
| `c26_open_adopts_handle` (Open) | c p q | C26. After a successful `open` the session id is the non-zero handle of the registration frame received by this call; if that frame carries at least four bytes, they start with protocol version 1. |
| `c27_rejected_closes` (Open) | c p q | C27. When the sockets work and the reply is not a register-session frame with an acceptable handle and, if it has room for one, a protocol version 1, then `open` throws `runtime_error`, the last two calls closed both sockets and the session id is unchanged. |
| `c28_outcome` (Open) | c p q | C28. On a session that is not open, with working sockets, the reply alone decides between three outcomes: success with the handle of the reply; a null pointer dereference; `runtime_error`. |
| `c28_success_iff` (Open) | c p q | Success is thus equivalent to a good reply. |
| `c29_violated` (Open) | c p q | C29 is false on every session with working sockets: a registration reply with a good handle and no payload. |
| `c29_survives_partial` (Open) | c p q | C29 (partial). Undefined behaviour is hit only by a frame with the right command, an acceptable handle and no payload. Missing: that reply. |
| `c30_violated` (Open) | c p q | C30 is false: a socket error while sending the registration or receiving the reply leaves both sockets open, a failure to open the IO socket leaves the control socket open. |
| `c30_no_socket_left_partial` (Open) | c p q | C30 (partial). If `open` throws anything but a socket error, both sockets have been closed; if the very first call fails, nothing was opened. Missing: the other socket errors, for which it is false. |
| `c31_failed_open_keeps_id` (Open) | c p q | A failed `open` never changes the session id. |
| `c31_violated` (Open) | c p q | C31 is false for every session that is open: when opening it again fails, it still counts as open, although after a rejected reply both its sockets are closed. |
| `c31_stays_closed_partial` (Open) | c p q | C31 (partial: sessions that were not open). Missing: sessions that were open, for which it is false. |
| `c31_violated_sockets` (Possible) | c p q | C31 is false on the sockets of the library too: an `open` of a session that is open throws, whatever the network does, and the session still counts as open. |
| `c32_command_handle` (Commands) | c p q | C32. Whatever world the session is in, every message a command sends is sent on the control socket, and is a send-RR-data frame with the session's current handle and zero status, context and options. The data given to `setSingleAttribute` may be any object that only adds bytes to the writer, even one that misreports its length. |
| `c32_close_handle` (Commands) | c p q | C32. Every message `close` sends is the unregister frame with the session's handle and no payload. |
| `c33_accepts_only_own` (Commands) | c p q | C33. On an open session, a command that returns normally has received a send-RR-data frame with the session's own handle. |
| `c33_rejects_others` (Commands) | c p q | C33. On an open session, every other reply (too short, wrong command, wrong handle) makes the command throw `runtime_error`, with session id and connections unchanged. |
| `c34_violated` (Commands) | c p q | C34 is false for every session that is not registered: if the device (or anyone in its place) answers with any non-zero handle, writing an attribute succeeds. |
| `c34_echoed_handle_partial` (Commands) | c p q | C34 (partial: devices that echo the handle of the request). If the reply carries the handle 0, as the request did, the command throws. Missing: replies with another handle, for which it is false. |
| `c34_unconnected_partial` (Possible) | c p q | C34 (partial: while the control socket is not connected, as before `open` and after `close`). Over the sockets of the library a command does not succeed and sends nothing, whatever arrives. Missing: unregistered sessions whose control socket is connected, for which it is false (`c34_violated_sockets`). |
| `c34_violated_sockets` (Possible) | c p q | C34 is false on the sockets of the library too: if the local port of the I/O socket is taken, `open` throws and leaves the control socket connected. A device that then answers with any non-zero handle makes writing an attribute succeed, although no session was ever registered. |
| `c35_status_reported` (Commands) | c p q | C35. A reply whose message router response has a non-zero general status makes every command throw `runtime_error`, with session id and connections unchanged. |
| `c36_violated` (Commands) | c p q | C36 is false: the status field of the encapsulation header is never looked at. Any otherwise good reply with a header status other than 0 makes a write succeed. |
| `c36_status_with_no_body_partial` (Commands) | c p q | C36 (partial: failures that are also visible in the message). A command that returns normally received a complete message router response with general status 0, so a header status is only missed on replies that carry a full successful response. In particular a reply consisting of the header alone never succeeds. Missing: the header status itself, which is ignored. |
| `c37_violated` (Commands) | c p q | C37 is false: whatever service code `s` the reply has, a write succeeds on it. |
| `c37_connection_replies_partial` (Commands) | c p q | C37 (partial: connection commands). `createConnection` and `closeConnection` succeed only on replies whose data has the form of a forward open or forward close reply for this very connection; the service code itself is not checked, so for attribute commands the property is false. |
| `c38_get` (Commands) | c p q | C38. For every class, instance and attribute, `getSingleAttributeSerializable` sends exactly the get attribute single request for that path, receives once, and, when the reply is good and carries the data `data`, its outcome and result are those of the result object's own sized `deserialize` on a buffer holding exactly `data`. |
| `c38_get_raw` (Commands) | c p q | C38. Into a raw buffer, the data is stored as it is. |
| `c38_get_integers` (Commands) | c p q | C38. An unsigned 8, 16 or 32 bit attribute is the little-endian value of the first bytes of the data. |
| `c39_set` (Commands) | c p q | C39. For every path and every object that reports its true length, `setSingleAttributeSerializable` first sends exactly the set attribute single request for that path followed by the object's bytes; if the socket calls work and the reply is good with status 0, it returns, and that was the only message. |
| `c39_set_integers` (Commands) | c p q | C39 for integers. |
| `c40_violated_hollow` (Commands) | c p q | C40 is false: a reply without payload, or with an empty unconnected message item, makes every command dereference a null pointer. |
| `c40_violated_no_data` (Commands) | c p q | C40 is false: a good response without data makes reading an attribute and opening or closing a connection dereference a null pointer. |
| `c40_no_other_crash_partial` (Commands) | c p q | C40 (partial: all other replies). If a command with proper arguments has undefined behaviour, it is a null pointer dereference on a hollow reply or, except for writes, on a good response without data; for reads, provided the result class's own `deserialize` has no undefined behaviour. Missing: those replies, for which it is false. |
| `c40_violated_sockets` (Possible) | c p q | C40 is false on the sockets of the library too: a device that answers the first command with a packet without payload, or with an empty unconnected message item, makes every command dereference a null pointer. |
| `c41_created` (Connections) | c p q | C41. If `createConnection` returns `i`, one connection has been added at the end of the list, at position `i` (as long as the number of connections fits an `int`), and the session id is unchanged. |
| `c41_failed` (Connections) | c p q | C41. If `createConnection` does not return normally, connections and session id are unchanged. |
| `c42_closed` (Connections) | c p q | C42. If `closeConnection(n)` returns, exactly the connection at position `n` has been removed; otherwise the list is unchanged. The session id never changes. |
| `c43_violated` (Connections) | c p q | C43 is false: whenever a connection that is not the last one is closed, the number of the last connection becomes invalid although that connection is still open, and using it is undefined behaviour. |
| `c43_stable_partial` (Connections) | c p q | C43 (partial: no smaller number is closed). A connection keeps its number in every history that closes only connections with larger numbers; creating connections, commands and IO never matter. Missing: histories that close a connection with a smaller number, for which it is false. |
| `c44_violated` (Connections) | p | C44 is false: every number that does not name a connection is undefined behaviour in both functions. |
| `c44_in_range_partial` (Connections) | c p q | C44 (partial: numbers that do name a connection). For those there is no out of range access, and `getConnection` returns the connection. Missing: all other numbers, for which it is false. |
| `c45_serials_distinct` (Connections) | c p q | C45. In any history with at most 65536 attempts, from any state, all forward open requests sent carry different connection serial numbers. (The data of set attribute commands may be any object that only adds bytes.) |
| `c45_connections_distinct` (Connections) | c p q | C45. Starting without connections, all connections in the list have different serial numbers. |
| `c46_ids_distinct` (Connections) | c p q | C46. In any history with at most 2^31 attempts, from any state, all connection ids proposed in forward open requests are different. |
| `c47_forward_open` (Connections) | c p q | C47. The first thing `createConnection` does is to send on the control socket exactly the large forward open request for class 6, instance 1 that the protocol prescribes. |
| `c48_forward_close` (Connections) | c p q | C48. The first thing `closeConnection(n)` does is to send on the control socket exactly the forward close request for class 6, instance 1 with the numbers stored for connection `n`. |
| `c48_stored_as_requested` (Connections) | c p q | C48. When `createConnection` succeeds, the connection stored at the end of the list has the three numbers that the forward open request carried; it was the only request of the call. |
| `c48_histories` (Connections) | c p q | C48 over histories: after any history that starts without connections, what closing any connection of the list sends first is a forward close request whose three numbers are those of a forward open request sent earlier. |
| `c49_success` (Connections) | c p q | C49. If `createConnection` returns, the reply had general status 0 and its data was a forward open reply repeating the connection serial number, vendor id and originator serial number of the request; the connection stored has the ids and actual packet intervals of the reply. |
| `c49_refused` (Connections) | c p q | C49. A forward open reply for another connection makes `createConnection` throw `logic_error` and add nothing. |
| `c49_accepted` (Connections) | c p q | C49, conversely: a forward open reply that repeats the three numbers of the request is accepted, whatever else it says, and the connection is stored with the ids and packet intervals of the reply. |
| `c50_success` (Connections) | c p q | C50. If `closeConnection(n)` returns, the reply had general status 0 and its data was a forward close reply repeating the three numbers of connection `n`. |
| `c50_refused` (Connections) | c p q | C50. A forward close reply for another connection makes `closeConnection` throw `logic_error` and remove nothing. |
| `c50_accepted` (Connections) | c p q | C50, conversely: a forward close reply that repeats the three numbers of connection `n` is accepted, and the connection is removed. |
| `c51_close` (Close) | c p q | C51. If `close` returns, the calls made were exactly: one send of the unregister frame with the session's handle and no payload, close of the control socket, close of the IO socket. The session id is 0 afterwards, and nothing else in the session has changed. |
| `c51_close_returns` (Close) | c p q | With working sockets `close` does return. |
| `c52_failed_close` (Close) | c p q | C52. If `close` throws, it is because of a socket error, and the session object is unchanged; calling `close` or the destructor again starts with the same unregister message. |
| `c53_destroy` (Close) | c p q | C53. The destructor neither throws nor crashes. For a session that is not open it makes no socket call. For an open session its first call is the send of the unregister frame with the session's handle. |
| `c53_never_opened` (Effects) | c p q | C53 over histories. A session that was just constructed, and on which no `open` returned normally since, is destroyed without any socket call. |
| `c54_violated` (Close) | c p q | C54 is false for every session with connections: `close` keeps the connection list. |
| `c54_no_connections_partial` (Close) | c p q | C54 (partial: sessions without connections). Missing: all others, for which it is false. |
| `c55_one_exchange` (Effects) | c p q | C55. Whatever its outcome, a command makes at most one send followed by at most one receive, both on the control socket, and nothing else; a failed call is the last one. |
| `c55_io` (Effects) | p q | C55. `receiveIOPacket` makes one receive on the IO socket; `sendIOPacket` makes at most one send on the IO socket; `getConnection` makes no socket call. |
| `c56_passive` (Effects) | c p q | C56. Attribute access and IO change nothing in the session but the receive buffer. |
| `c56_connections` (Effects) | c p q | C56. `createConnection` changes only the receive buffer, the connection list and the counters; `closeConnection` only the receive buffer and the connection list. |
| `c56_identity` (Effects) | c p q | C56. No history of calls changes the originator's vendor id and serial number. |
| `c57_oblivious` (Effects) | p q | C57. The outcome of every call on a session, and everything it does except to the receive buffer, is the same whatever bytes earlier calls left in the receive buffer. |
| `c57_values` (Effects) | p q | C57. The same for the values returned: the number of a new connection, a received IO packet, an attribute. |
| `c57_histories` (Effects) | p q | C57 over histories. |
| `c58_items` (IO) | c p q | C58. If the datagram starts with a common packet format packet, `receiveIOPacket` returns its items, with the bytes of the datagram as data (a null pointer for an empty item); this was the only socket call. |
| `c58_truncated` (IO) | c p q | C58. Any other datagram is truncated, and `length_error` is thrown. |
| `c58_failed` (IO) | p | C58. A failed receive is reported as such. |
| `c59_refines` (Aliasing) | c p q | The two views of `receiveIOPacket` agree: the packet of the value-level model is what the references of the returned packet refer to at the time of return. |
| `c59_violated` (Aliasing) | c p q | C59 does not hold: let a packet with the items `l1` be received, and later another datagram whose items `l2` have the same types and lengths. The packet that was returned first then has the contents of the second one. |
| `c59_contents` (Aliasing) | p q | What a received packet contains after any history of calls: the receive buffer as overwritten by everything that was received on either socket since, and nothing else changes it. |
| `c59_no_receive_partial` (Aliasing) | c p q | C59, as far as it holds: a packet that was received keeps its contents during any history of calls in which nothing is successfully received on either socket. What is missing: histories with receives, for which it is false. |
| `c60_sends` (IO) | c p q | C60. Sending a packet whose items report their true lengths is one send on the IO socket, of exactly the packet's encoding; it throws only if the socket does. |
| `c60_round_trip` (IO) | c p q | C60. A session that receives the datagram sent by another one gets the items back. |
| `c61_violated` (IO) | c p q | C61 is false: every set attribute command with 65512 bytes or more sends a frame whose length field is wrong, and returns normally if the reply is good. |
| `c61_violated_io` (IO) | c p q | C61 is also false for IO packets: one with 65536 items or more is sent with a wrong number of items. |
| `c61_fits_partial` (IO) | c p q | C61 (partial: the payload fits). As long as the data of the call is small, every frame sent on the control socket has length fields that agree with its contents, and every datagram sent on the IO socket is the encoding of a packet. Missing: larger set attribute data and IO packets with more items, for which it is false. |
| `c61_io_refused_partial` (IO) | c p q | C61 (partial). An IO packet with an item of 65536 bytes or more is refused with `length_error`; nothing is sent. |
| `c62_request` (Scanner) | c p q | C62. Whatever arrives and whatever fails, running the scanner sends exactly one datagram if the host name can be resolved and none otherwise: to port 44818 of the given host, 24 bytes, the command 0x63 followed by zeros. |
| `c62_failures` (Scanner) | c p q | Sending throws `system_error` if the name cannot be resolved or the socket fails, and otherwise returns normally. |
| `c63_violated` (Scanner) | c p q | C63 does not hold: any list identity datagram without payload, such as a copy of the request itself, is undefined behaviour. |
| `c63_violated_item` (Scanner) | c p q | C63 does not hold either for a list identity reply whose identity item is empty. |
| `c63_no_exception_partial` (Scanner) | c p q | C63, the part that always holds: whatever arrives, the handler throws nothing. |
| `c63_reports_partial` (Scanner) | c p q | C63, the part that always holds: the handler reports a device if and only if a complete list identity reply has arrived, and then reports the identity in it, once. Missing from C63: datagrams without payload and replies with an empty identity item, see `c63_violated` and `c63_violated_item`; all others return normally, see `c63_safe_partial`. |
| `c63_safe_partial` (Scanner) | c p q | C63, as far as it holds: every other datagram, however malformed, is handled without undefined behaviour. |
| `c64_violated` (Scanner) | c p q | C64 does not hold: after the first arrival no receive operation is left, so `run` returns (or leaves with undefined behaviour), and everything that arrives later is never looked at. |
| `c64_violated_again` (Scanner) | c p q | C64 does not hold for a second call of `run` at all: it returns at once. |
| `c64_first_partial` (Scanner) | c p q | C64, as far as it holds: the first arrival is handled; if it is the reply of a device, that device is reported. What is missing: every later arrival. |
| `c65_copy` (Parsing) | p q | C65. The four cases of `copy_serializable`. |
| `c66_violated` (Memory) | c p q | C66 does not hold: a raw buffer filled from a stream that is then copied is freed twice, for every length and every content. |
| `c66_violated_failed_read` (Memory) | p | C66 does not hold even without copies: when a raw buffer that has allocated memory is read from a `BufferReader` with too few bytes, `length_error` is thrown and `data_` still refers to the memory that has just been freed. Here four bytes come from a stream, then two are asked of an empty buffer, then the buffer is serialized. |
| `c66_careful_partial` (Memory) | c p q | C66, as far as it holds: a careful user — who besides the usual obligations neither copies a raw buffer that has allocated memory nor lets such a buffer read from too short a `BufferReader` — never causes a double free or an access to freed memory. What is missing: the two extra obligations, which `c66_violated` and `c66_violated_failed_read` show to be necessary. |
| `c66_no_streams_partial` (Memory) | c p q | C66, as far as it holds: without sized reads from streams, any correct user is safe, whatever is copied. |
| `c66_accesses` (StreamCalls) | p q | C66. Memory accesses of the model are defined exactly when every byte lies in a block that is still allocated; a write changes those bytes and nothing else. |
| `c67_violated_everywhere` (Aliasing) | p q | C67 does not hold: whatever is copied into whatever class, if the source is anything but a raw buffer, every non-empty reference in the resulting object is to freed memory. |
| `c67_violated` (Aliasing) | c p q | C67 does not hold, and nothing reports it: copying any common packet format packet into a `CPFPacket` succeeds, with a reference for every item that has data, and each of them is to freed memory. |
| `c67_packet_partial` (Aliasing) | c p q | C67, as far as it holds, for `CPFPacket`: parsed from a raw buffer on live memory, the packet is what the value-level model says, and each of its references can be read, and yields what the memory contains then, for as long as that memory is live. What is missing: sources other than raw buffers, for which it is false. |
| `c67_encap_partial` (Aliasing) | c p q | C67, as far as it holds, for `EncapPacket`. What is missing is as in `c67_packet_partial`. |
| `c67_response_partial` (Aliasing) | c p q | C67, as far as it holds, for `MessageRouterResponse`. What is missing is as in `c67_packet_partial`. |
| `c68_writers_agree` (Parsing) | p | C68. An object that serializes at all writes the same bytes to a stream with room for them and to a large enough buffer. |
| `c68_counts` (StreamCalls) | p | C68. Both writers report the number of bytes of the encoding after writing an object to a fresh target. |
| `c69_readers_agree` (Parsing) | c p q | C69. Streams with enough bytes give the same object and position as buffers. |
| `c70_violated` (Robust) | c p q | C70 is false for every short input: headers, registration data and sequenced addresses are returned as if they had been received. |
| `c70_violated_packet` (Robust) | c p q | C70 is false for packets: the missing part of the payload is unknown memory. |
| `c70_violated_cpf` (Robust) | p | C70 is false for common packets: an empty stream makes the number of items indeterminate. |
| `c70_short_stream_flagged_partial` (Robust) | c p q | C70 (partial). A short stream can be noticed afterwards: it is in a failed state exactly if bytes were missing. Missing: the exception, which is never thrown. |
| `c70_violated_response` (StreamCalls) | c p q | C70 is false for message router responses: if the stream ends within the additional status, the parse succeeds with one byte *more* of response data than the whole response was said to have, all of it unknown memory, because the byte count of the failed stream is the largest `size_t`. |
| `c70_violated_identity` (StreamCalls) | c p q | C70 is false for identities: if the stream ends within the product name, the parse succeeds, the missing characters are those the object had before at their places, or NUL if its name was shorter, and the state is the object's old one. |
| `c71_serial_partial` (Transport) | c p q | C71 for commands issued one at a time, by any number of callers in any order: when replies arrive whole, what each command makes of the reply is what the device has answered to its own request. Missing from C71: callers that use the session at the same time. |
| `c71_violated` (Transport) | c p q | C71 does not hold for callers that use the session at the same time: for any two commands, when the second caller gets to the socket first, each command takes the reply to the other one's request. |
| `c71_violated_buffer` (Transport) | c p q | C71 does not hold even if every caller gets the right bytes from the socket: `recv_buffer_` is shared too. For any two commands with replies of equal length, a caller that receives between the other's receive and its parsing replaces the reply, and both commands take the second reply. |
| `c71_steps_partial` (Transport) | p q | The executions in these theorems are made of the steps of `sendCommand`: done in a row, they are a call of it. |
| `c72_violated` (Transport) | c p q | C72 does not hold: for any two commands and any split of the first reply, the first command takes the first part, and the second command takes the second part instead of the reply to its own request, which is left for the next one. |
| `c72_stream_partial` (Transport) | c p q | C72, what holds for every segmentation: with commands issued one at a time, the bytes the commands receive are, in order and without loss or repetition, the replies of the device in the order of the requests, and each command makes of its own bytes what it should. Missing: that its own bytes are its own reply. |
| `c72_violated_always` (Transport) | c p q | C72 does not hold in any execution in which a command has received only part of its reply: whatever happens then, the bytes received by the next command start with the rest of that reply, or are part of it. |
| `c72_first_partial` (Transport) | c p q | C72, the part about the first command: if the device's reply is a frame and only part of it is received, the command fails; it does not return a wrong result. |
| `c72_whole_partial` (Transport) | c p q | C72, as far as it holds: when replies arrive whole every command takes its own reply. |
| `c73_violated` (Transport) | p q | C73 does not hold, for any call in any situation: how many bytes the socket accepts has no influence on the outcome, the session or the socket calls. |
| `c73_violated_nothing` (Transport) | p q | C73 in particular: a call that succeeds when everything is accepted also "succeeds" when nothing is, and the rest is not sent. |
| `c73_violated_histories` (Transport) | p q | C73 over histories. |
| `c74_length_field_after_any_history` (Robust) | p q | C74. Whatever happened to the packet before, failed parses included: after construction, `setPayload`, `updateLength` or a parse that returns, the length field is the payload's length modulo 65536. |
| `c74_constructed_and_parsed` (Robust) | p q | C74. Construction with a payload, and a parsed packet's payload: exactly the announced number of bytes, none if that number is zero. |
| `c75_set` (Effects) | c p q | C75. Writing an attribute throws `runtime_error` when the socket calls work, and the unchanged socket error when one of them fails. |
| `c75_connections` (Effects) | c p q | C75. The connection commands throw `runtime_error` or `logic_error` (or its subclass `length_error`) when the socket calls work, and the unchanged socket error when one of them fails. |
| `c75_violated` (Effects) | c p q | C75 is false for reads: a good response whose data is shorter than the integer asked for makes `getSingleAttribute` throw `length_error`, which is not a `runtime_error`. |
| `c75_get_partial` (Effects) | c p q | C75 (partial: reads). An exception from reading an attribute is a `runtime_error` if no good response with data was received, the unchanged socket error if a socket call failed, and otherwise one that the result object's own `deserialize` threw on the data received. Missing: that this last one is also a `runtime_error`, which is false. |
| `c76_session_id` (Effects) | c p q | C76. A call changes the session id only if it is an `open` that returns normally, and then to the handle of the register-session frame received by that call (its fourth socket call); or a `close` that returns normally, and then to 0. |
| `c76_sets` (Effects) | c p q | C76. An `open` that returns normally does set the session id to the handle received, and a `close` that returns normally does clear it. |
| `c76_destroy` (Effects) | c p q | C76. The destructor clears the session id or leaves it, and never throws. |
| `c76_histories` (Effects) | c p q | C76 over histories: at any time the session id is the one the history started with, or 0, or the handle of a register-session frame received on the control socket during the history. |
| `c77_violated` (Close) | c p q | C77 is false for every open session with working sockets: when a copy goes out of scope, the session is unregistered at the device and both sockets are closed, while the original still has its session id. |
| `c77_copy_harmless_partial` (Close) | p | C77 (partial: sessions that are not open). Missing: open sessions, for which it is false. |
| `c78_sent` (TestSocket) | p q | C78. Whatever is sent and received in whatever order, the socket records the concatenation of everything sent since the last clear, up to 4096 bytes. |
| `c78_send_count` (TestSocket) | p q | C78. Each send reports how many of its bytes were recorded: all of them, or as many as there was room for. |
| `c78_received` (TestSocket) | p q | C78. The receives return the scripted bytes in order, each at most the requested number. |
| `c78_open` (TestSocket) | p | C78. A new socket is closed. Afterwards it says that it is open exactly if `open` was called and not `close` since, and keeps the names given to the last `open`. |
| `c79_violated` (Robust) | p q | C79 is false on big-endian hosts: they write the most significant byte first, for every value. |
| `c79_little_endian_partial` (Robust) | p q | C79 (partial: little-endian hosts). Integers are written least significant byte first, which is what the rest of the model assumes of `write8`, `write16` and `write32`. Missing: big-endian hosts, for which it is false. |
| `c79_reading_partial` (Robust) | c p q | C79 for reading. On a little-endian host the memory filled from the wire has the value the protocol means, for every width. What a host writes it reads back; and a big-endian host reads exactly what a little-endian one reads from the reversed bytes. |
| `c80_violated` (Robust) | c p q | C80 is false for headers: every input of 2 to 23 bytes is rejected, but its command is already in the object. |
| `c80_violated_cpf` (Robust) | p | C80 is false for common packets: the items are gone after any failed parse that did not read an item. |
| `c80_unchanged_partial` (Robust) | p | C80 (partial). What does survive a failed parse: primitives, raw buffers, headers when not even the command was there, and the payload of a packet. Missing: the header of a packet, the items of a common packet and the other structured objects, for which it is false. |
| `c81_violated` (TestSocket) | p | C81 does not hold: `clearTxBuffer` clears only the first 8 bytes; all others keep what was sent before. |
| `c81_count_partial` (TestSocket) | p q | C81, as far as it holds: the count is reset, so nothing counts as recorded any more and the next send starts at the beginning. Missing: the contents of the array. |
| `c82_violated` (Sockets) | p | C82 does not hold: what the receives return does not depend on who sent the datagrams. Replace the senders of all datagrams by any others, and every receive returns the same. |
| `c82_violated_stranger` (Sockets) | p | C82 in particular: on an open socket, a datagram from any sender is returned to the caller. |
| `c82_arrived_partial` (Sockets) | p | C82, as far as it holds: what is returned is the beginning of a datagram that has arrived, each datagram at most once, in the order of arrival. So if only the device sends to this port, only its datagrams are returned. Missing: any check of the sender. |
| `c83_tcp_partial` (Sockets) | p | C83 for TCP: after any calls with any outcomes, `open` succeeds as soon as a socket can be created and some endpoint accepts the connection, and the socket is then connected to such an endpoint. Missing from C83: UDP. |
| `c83_violated` (Sockets) | p | C83 does not hold for UDP: if the local port is in use, `open` throws, and from then on every `open` throws, whatever the system answers and whatever else is done, until the socket is closed. |
| `c83_udp_partial` (Sockets) | p q | C83 for UDP, as far as it holds: a failure to resolve the name or to create the socket does not stand in the way of a later `open`; after `close` nothing does. Missing: a local port in use, after which `open` fails until `close`. |
| `c84_violated` (Sockets) | p | C84 does not hold for UDP: opening a socket that is already open, for any name that resolves, throws, and everything sent afterwards goes to the new endpoint. |
| `c84_udp_partial` (Sockets) | p | C84 for UDP, as far as it holds: if the name cannot be resolved nothing changes. Missing: names that resolve. |
| `c84_tcp_partial` (Sockets) | p | C84 for TCP: after a failed `open` of a connected socket, whatever is sent successfully goes to the endpoint it went to before. Missing from C84: UDP. |
| `c85_packet` (Sized) | c p q | C85. A sized parse of a packet accepts exactly the inputs that start with a packet of that total size, and then consumes that many bytes; every other input and every other size is rejected with `length_error`. |
| `c85_item` (Sized) | c p q | C85. A sized parse of a CPF item accepts exactly the inputs that start with an item of at most that size. |
| `c85_header` (Sized) | none | C85. A header is parsed with the length 24 and with no other. |
| `c86_violated` (Sized) | c p q | C86 is false for plain RR data: whenever the message is not empty or more items follow, the object reports 16 bytes although more were consumed. |
| `c86_reported_length_partial` (Sized) | c p q | C86 (partial: every class but plain `RRData`). An object that was parsed reports the number of bytes it was parsed from. Missing: plain `RRData`, for which it is false (`RRDataRequest` cannot be parsed and `getLength` of `RRDataResponse` throws); primitives and sequenced items are in `c86_primitive_partial` and `c86_sequenced_partial`. |
| `c86_primitive_partial` (Sized) | p q | C86 (partial: primitives). Missing: as for `c86_reported_length_partial`. |
| `c86_sequenced_partial` (Sized) | c p q | C86 (partial: sequenced items that are not in the middle of a parse). If `T` reports what it was parsed from, so does `SequencedDataItem<T>`. Missing: objects left behind by a failed parse, for which it is false (`c86_violated_sequenced`). |
| `c86_violated_sequenced` (Sized) | p q | C86 is false for a sequenced item left behind by a failed parse: the next parse that returns consumes two bytes fewer than the object then reports, for every class `T` that itself reports what it was parsed from. |
| `c87_violated_header` (Sized) | c p q | C87 is false for encapsulation headers: every one of them is rejected, and the object is left in the middle of a parse. |
| `c87_violated_response` (Sized) | c p q | C87 is false for message router responses: the last two bytes of the response data are lost. |
| `c87_violated` (Sized) | c p q | C87 is false. |
| `c87_sequenced_partial` (Sized) | c p q | C87 (partial: every other class that can be parsed). Missing: headers and message router responses, for which it is false, and raw buffers, which are covered by C17. |
| `c88_open_request` (Requests) | c p q | C88. Whatever values the fields of a connection object have, and whatever is done to its path, the forward open request it creates has exactly those values and that path. |
| `c88_close_request` (Requests) | c p q | C88. The forward close request has the values of the connection object; its path is always that of the connection manager, whatever is done to the path of the connection. |
| `c88_new` (Requests) | none | C88. A new connection object has the path to its two assemblies. |
| `c89_violated` (Requests) | c p q | C89 is false for every path with the pad flag: the pad byte is counted twice, so the request reports one byte more than it writes, and the data sent ends with a byte that is not part of the request. |
| `c89_unpadded_partial` (Requests) | c p q | C89 (partial: paths without the pad flag). Missing: paths with it, for which it is false. |
| `c90_violated` (Requests) | c p q | C90 is false for every size from 32768 on: the device is asked for 32768 bytes less. |
| `c90_small_partial` (Requests) | c p q | C90 (partial: sizes below 32768). Missing: larger sizes, for which it is false. |
| `c91_some_run` (Conforming) | c p q | C91: a device that can always answer can be at the other end of any use of any session. Whatever the user does, there is a run in which the control connection works and leads to that device, so that C91 says something about every use. |
| `c91_refines` (Device) | c p q | C91. Whatever a tidy user does with a session whose control connection works and leads to a conforming device, every outcome is the one prescribed by the state of the device at that time, and afterwards session and device agree on the session handle and on the list of open connections. |
| `c91_no_surprise` (Device) | c p q | C91. With a conforming device a call on the control connection either succeeds or throws `runtime_error`: no other exception and no undefined behaviour. |
| `c91_read_back` (Device) | c p q | C91. Read your writes: once a value has been written to an attribute, reading the attribute gives that value or is refused, whatever else is done in between except writing the attribute. |
| `c91_network` (Network) | c p q | C91 on the library's own sockets: the control connection is a `TCPSocket` on which nothing waits, and the answers of a conforming device arrive there as bytes, each in one piece. Then what a tidy user sees is what the state of the device prescribes, and session and device agree afterwards. |
| `c92_violated` (Device) | c p q | C92 is false: when the device answers with a frame of more than 4096 bytes - which the protocol allows - every command throws `runtime_error`, although the whole frame has arrived. |
| `c92_violated_attribute` (Device) | c p q | C92. In particular an attribute of more than 4052 bytes cannot be read, although the device sends it. |
| `c92_small_partial` (Device) | c p q | C92 (partial). Attributes of up to 4052 bytes are read as the device sends them. Missing: longer ones. |
| `c93_complete` (StreamCalls) | p q | C93. As long as the stream has what is asked for, every call delivers what the same call on a buffer with the same bytes delivers, and the byte count is the number of bytes asked for. |
| `c93_exhausted` (StreamCalls) | p q | C93. The first call that asks for too much throws nothing either: a read delivers the bytes that are left and leaves the rest of the target alone. After it every call has no effect, and the byte count is the largest `size_t` instead of a number of bytes. |
| `c93_writer` (StreamCalls) | c p q | C93. A stream writer accepts every write its stream has room for; the stream gets all chunks in order, and the byte count is its length. |
| `c94_violated` (Leaks) | c p q | C94 does not hold: a raw buffer that was filled from a stream and is then assigned another raw buffer, as `copy_serializable` does, never frees its memory. All buffers are destroyed, the user has allocated nothing, and a block is still allocated; whatever was read. |
| `c94_no_leak_partial` (Leaks) | c p q | C94, as far as it holds: when a careful user never assigns to a raw buffer that has memory of its own and finally destroys all raw buffers, exactly the memory is left that the user has allocated and not freed; there is no undefined behaviour on the way. What is missing: assignment to a buffer that has memory of its own, which `c94_violated` shows to leak, and the two rules of C66. |
| `c94_accounted_partial` (Leaks) | c p q | The same at any moment: apart from the memory the user has allocated and not freed, there is one allocated block for each raw buffer that has memory of its own, so that nothing has been lost. Missing: as for `c94_no_leak_partial`. |
| `c95_shown_right_partial` (LogText) | c p q | C95 (partial: which messages). A message shows its values, whatever the parts of the argument slots that the calling convention leaves open contain, exactly if it does not print a 32-bit number (or a 16-bit one) with `%zu`, is not the address line of the scanner, is not a serial number from 2^31 on, and is not a product name with a zero byte. Missing: these messages. |
| `c95_clean_partial` (LogText) | c p q | C95 (partial: the usual case). If numbers of 32 bits are passed with zeros in the upper half of their slots, which the calling convention does not promise, the only messages that do not show their values are the address line of the scanner, serial numbers from 2^31 on and product names with a zero byte. Missing: these messages. |
| `c95_violated` (LogText) | p q | C95 is false: with a suitable content of the upper half of the argument slot, the message about an opened session shows a different number for every session id. |
| `c95_violated_address` (LogText) | p q | C95 is false for the address line of the scanner even if nothing is left open: it prints the location of the text as a number. |
| `c96_log_only_grows` (Log) | c p q | C96. Logging does not change what a call does, and messages are only added at the end of the log. |
| `c96_error_means_failure` (Log) | c p q | C96. A call that logs an error throws. |
| `c96_violated` (Log) | p q | C96 is false: if the socket cannot be opened, `open` throws and no error is logged. |
| `c96_failure_is_logged_partial` (Log) | c p q | C96 (partial: the exceptions a session makes up itself). A call with ordinary arguments that throws a runtime error, or the logic error about a reply that does not match the connection, has logged an error. Missing: exceptions of the sockets, and `length_error` for result data that is too short. |
| `c96_violated_short` (Log) | c p q | C96 is false also for replies that arrive: if the device answers a read request with a single byte, where the result takes two, the call throws and no error is logged. |
| `c97_opened` (Log) | c p q | C97. `open` logs "Successfully opened session ID" with this id exactly if it returned normally and the session now has this id. |
| `c97_violated` (Log) | c p q | C97 is false for closing: if the control socket cannot be closed after the unregister message was sent, `close` throws, the session keeps its id and its sockets, and the log says "Session closed". |
| `c97_closed_partial` (Log) | c p q | C97 (partial: what "Session closed" means). `close` logs "Session closed" exactly if the unregister message was handed to the control socket, in particular whenever it returns normally. Missing: it is logged before the sockets are closed, so it may be logged although they are not. |
| `c97_sockets_partial` (Possible) | c p q | C97 (partial: as long as closing a socket does not fail). Over the sockets of the library the log says that the session was closed exactly when `close` returned normally; then it is no longer registered. Missing: closing a socket may fail, then it is false (`c97_violated`). |
| `c98_unsent` (Log) | c p q | C98. A command that cannot be sent logs only that it is sending. |
| `c98_unreceived` (Log) | c p q | C98. A command whose reply cannot be received logs that it is waiting, and nothing more. |
| `c98_unreadable` (Log) | c p q | C98. A command that receives bytes without a complete frame logs their number and that they are too short. |
| `c98_refused` (Log) | c p q | C98. A command that receives a frame it refuses logs the reason, with the value it expected and the one it got. |
| `c98_truncated` (Log) | c p q | C98. A command that receives an acceptable frame whose data ends inside the items logs what is odd about the frame, and that the data is too short. |
| `c98_wrong_items` (Log) | c p q | C98. A command that receives an acceptable frame with items other than a null address and an unconnected message logs what is odd about the frame, whether there are more than two items, and what is wrong with them. |
| `c98_short_message` (Log) | c p q | C98. A command that receives an acceptable frame whose unconnected message is too short to be a response logs what is odd about the frame, whether there are more than two items, and that the data is too short. |
| `c98_all_cases` (Log) | c p q | C98 leaves no case out: the payload of a frame is empty (C40), ends inside the items, has wrong items, or has an unconnected message that is empty (C40), too short, or a response. |
| `c98_failed` (Log) | c p q | C98. A command that is answered with a non-zero status logs what is odd about the reply, and the status. |
| `c98_set_succeeds` (Log) | c p q | C98. Writing an attribute, if the device answers that it succeeded, logs what is odd about the reply and nothing else. |
| `c98_get_answered` (Log) | c p q | C98. Reading an attribute, if the device answers that it succeeded, logs what is odd about the reply and nothing else, whether or not the data can be parsed. |
| `c99_no_output_partial` (Log) | c p q | C99 (partial: all calls but one). No call except `closeConnection` writes to the standard output. Missing: `closeConnection`. |
| `c99_violated` (Log) | c p q | C99 is false: `closeConnection` writes a line to the standard output whenever the device answers with a forward close reply, also if the reply is right. |
| `c100_replaced` (Log) | c p q | C100. When the device confirms a connection, the log names each of the two connection ids that the device replaced, with the old and the new value, and no other. |
| `c100_mismatch` (Log) | c p q | C100. When the device answers about another connection, that is logged as an error, and no id is said to be replaced. |
| `c101_udp` (Sockets) | p | C101 for UDP. After `close`, and until the socket is opened again, every `send` and every `receive` throws, and nothing is sent. |
| `c101_tcp` (Sockets) | p | C101 for TCP. After `close`, and until the socket is opened again, every `send` and every `receive` throws, and nothing is sent. |
| `c101_udp_fresh` (Sockets) | p | C101 for UDP. What is received after `close` and further calls is the beginning of a datagram that arrived after the `close`: datagrams that were pending are never delivered. |
| `c101_tcp_fresh` (Sockets) | p q | C101 for TCP. What is received after `close` and further calls is a piece of what arrived after the `close`: bytes that were pending are never delivered. |
| `c102_violated` (Random) | c p q | C102 is false: two sessions of the same originator constructed in the same second, whatever happens to them before, name their first connections by the same three numbers, and propose the same connection ids for them. |
| `c102_violated_twins` (Random) | p q | C102 is false in the strongest way: two such sessions that get the same calls, and whose sockets give the same answers, cannot be told apart. All their messages are the same. |
| `c102_apart_partial` (Random) | c p q | C102 (partial: sessions with different originators, or whose ranges of serial numbers do not overlap). In any two histories the connections are named differently. Missing: sessions whose ranges overlap, for which it is false. |
| `c103_violated_sequenced` (Accessors) | c p q | C103 is false for items that hold a sequenced raw buffer. Before the item is sent, a raw buffer taken from it lacks the sequence number; after it has been received, the sequence number is part of the data. |
| `c103_violated_structured` (Accessors) | c p q | C103 is false for structured data taken as a raw buffer: an exception before the item is sent, the bytes after it has been received. |
| `c103_violated_empty` (Accessors) | c p q | C103 is false for data without bytes: it can be read before the item is sent; reading it from the received item is undefined behaviour. |
| `c103_same_partial` (Accessors) | c p q | C103 (partial: raw buffers, and structured data read as structured data; not empty). What `getDataAs` makes of the item before it is sent is what it makes of the item parsed from its bytes, for every destination. Missing: the cases above, for which it is false. |
| `c103_sequenced_partial` (Accessors) | p | C103 (partial), the exact result for a sequenced raw buffer read into structured data before it is sent: the sequence number is not seen, and the destination is told two bytes more than there are. |
| `c104_accessors` (Accessors) | c p q | C104. After a reply has been parsed, the service code and the general status are those of the reply, and the pointers to additional status and data are null exactly if the reply has none, and otherwise lead to their bytes. |
| `c104_fresh` (Accessors) | none | C104. Before anything has been parsed, a response has service code and general status 0 and null pointers, whatever is asked of it; so a general status of 0 alone does not tell that a reply has arrived. |
| `c104_as` (Accessors) | c p q | C104. `getAdditionalStatusAs` and `getResponseDataAs` read exactly the additional status and exactly the data: a structure is parsed from these bytes, a raw buffer becomes these bytes. |
| `c105_replies` (OneWay) | none | C105 for replies. Serializing a message router response or a forward open or close reply throws the logic error "Not implemented" and writes nothing, to any writer. |
| `c105_requests` (OneWay) | none | C105 for requests. Parsing a path, a message router request or a forward open or close request, with or without a length, throws the logic error "Not implemented" and changes neither object nor reader. |
| `c105_violated_response` (OneWay) | c p q | C105 is false for RR data responses as sources: six bytes are written before the exception. |
| `c105_violated_request` (OneWay) | c p q | C105 is false for RR data requests as destinations: every well-formed RR data message is refused, but only after it has replaced the interface handle and the timeout. |
| `c105_rr_partial` (OneWay) | p q | C105 (partial: what still holds for the two classes of RR data). Serializing an RR data response never returns normally, nor does asking for its length; parsing into an RR data request never returns normally and never touches the message router request. Missing: that nothing at all is changed, which is false. |
| `c106_fill_partial` (Accessors) | p q | C106 for `deserialize(reader)` (partial: not streams that end early). A raw buffer of a given size takes as many bytes from the reader, in order, and leaves the rest unread. A buffer reader without enough bytes throws `length_error`, and the raw buffer keeps its bytes. Missing: streams that end early, for which it is false. |
| `c106_fill_sized_partial` (Accessors) | p q | C106 for `deserialize(reader, n)` (partial: not streams that end early). Whatever its size before, the raw buffer becomes the next `n` bytes, in order. A buffer reader without enough bytes throws `length_error`, and the raw buffer keeps its bytes, if they are not in memory of its own (those are freed: C66). Missing: streams that end early, for which it is false, and memory of its own. |
| `c106_violated` (Accessors) | p | C106 is false for streams that end early: nothing is thrown. The raw buffer gets the bytes that are there; the others are the old ones if the size is the same, and the contents of fresh memory if it is not. |
| `c107_same` (ScanLog) | p q | C107. With its log the scanner does what the scanner without log of C62, C63 and C64 does; messages are only added to the log. |
| `c107_violated` (ScanLog) | c p q | C107 does not hold: a list identity datagram without payload, such as the scanner's own request, or with an empty identity item is undefined behaviour, and nothing but warnings has been logged about it. |
| `c107_violated_short` (ScanLog) | c p q | C107 does not hold either for datagrams that are cut off: nothing is logged, the complaint is only printed. |
| `c107_says_partial` (ScanLog) | c p q | C107, as far as it holds: the exact messages about every datagram for which the handler is defined. They are the warnings the datagram deserves, and after them either the identity of the device or one complaint (an error, or for cut off datagrams the printed message). |
| `c107_levels_partial` (ScanLog) | p q | C107: the levels of the messages of `c107_says_partial`. First there are only warnings; then there is one error, or the printed message about a datagram that is cut off, or the description of the device, all of it information. |
| `c107_all_partial` (ScanLog) | c p q | C107: `c107_says_partial` speaks about all datagrams but those of `c107_violated`. |
| `c107_run_partial` (ScanLog) | c p q | C107 for the whole of a scan: the messages up to the first arrival, and then those about the first arrival, if it is a datagram the handler is defined for. Later arrivals are not looked at (C64). |
| `c107_unsent` (ScanLog) | c p q | C107: if the request cannot be sent, that is all there is in the log. |
| `c108_unconnected` (LogOpen) | p q | C108. If one of the sockets cannot be opened, the log only says that they are being opened. |
| `c108_unsent` (LogOpen) | c p q | C108. If the registration cannot be sent, the log ends with the attempt to send it. |
| `c108_unreceived` (LogOpen) | c p q | C108. If the registration reply cannot be received, the log ends with the waiting for it. |
| `c108_unreadable` (LogOpen) | c p q | C108. If the reply is no complete frame, the log says so, after the number of bytes received. That message comes after the sockets have been closed: it is missing if closing them fails. |
| `c108_refused` (LogOpen) | c p q | C108. If the frame received is refused, the log says why. The second of these messages comes after the sockets have been closed: it is missing if closing them fails. |
| `c108_opened` (LogOpen) | c p q | C108. A registration that succeeds logs what is odd about the reply and, last, the session id. |
| `c108_version` (LogOpen) | c p q | C108. A registration that is answered with another protocol version logs both versions, whatever becomes of closing the sockets. |
| `c108_hollow` (LogOpen) | c p q | C108. A registration reply without data is undefined behaviour, after the warning about its size. |
| `c108_cases` (LogOpen) | c p q | C108. The theorems above leave out nothing: every reply that is received is no complete frame, or a frame that is refused, or has no data, less than four bytes of data, or a version and options. |
| `c108_close` (LogOpen) | c p q | C108. Closing logs that it begins and, once the request has been sent, that the session is closed, whatever becomes of closing the sockets. |
| `c108_destroy` (LogOpen) | c p q | C108. Destroying a session logs what closing it does if it is open, and nothing otherwise. |
| `c108_send` (LogOpen) | p q | C108. Sending I/O data logs one message, before anything is sent. |
| `c108_receive` (LogOpen) | c p q | C108. Receiving I/O data logs the number of bytes received and, for a datagram with bytes after its items, how many were used. |
| `c109_violated` (Wired) | c p q | C109 does not hold: while the I/O socket is open, every call to `open` throws, whatever the network does, and the session id stays what it is. Only `close` helps. |
| `c109_violated_exchange` (Wired) | c p q | C109: how one gets there. First: if the I/O socket was opened and the registration then broke off with an error of the control socket, also with one on closing it, the I/O socket stays open. |
| `c109_violated_port` (Wired) | c p q | C109: the other way: if the local port is taken, `open` throws and the I/O socket stays open, bound to nothing. |
| `c109_closed_partial` (Wired) | c p q | C109, as far as it holds: these failures leave the I/O socket closed: a registration that is answered but refused; a control socket that cannot be opened; an I/O name that cannot be resolved. |
| `c109_close_partial` (Wired) | c p q | C109: a `close` that returns normally closes the I/O socket and the control socket, whatever state they were in. |
| `c109_opens_partial` (Wired) | c p q | C109: as long as the I/O socket is closed, opening works if nothing stands in its way: both names resolve, one of the control endpoints accepts, the local port is free, and the device answers with a registration. |
| `c110_route_partial` (Route) | c p q | C110, as far as it holds: if the caller opens the session only when it is closed, then as long as it is open, its control socket is connected to an endpoint of the device named in the last successful `open` and its I/O socket sends to the first endpoint of that device, unless closing a socket has failed. Even then, whatever the next call sends, it sends there. |
| `c110_violated` (Route) | c p q | C110 does not hold: open an open session to another device that accepts the connection: the call throws, but from then on the session, with its old handle, talks to the other device on both sockets. |
| `c110_violated_request` (Route) | c p q | C110: what then happens to the next request: with the handle of the first device it arrives at the second. This is so for every session whose I/O socket is open, every second device that accepts the connection, and every attribute. |
| `c111_tcp` (Route) | p q | C111: the control socket. Whatever happened before, the bytes received over a connection are, in order and without a gap, the bytes that arrived over it. |
| `c111_udp` (Route) | p q | C111: the I/O socket. From sockets that were new at the beginning, whatever happened since, what is received after the I/O socket was opened and before it is closed are datagrams that arrived meanwhile: the first ones, in order, each once, cut to 4096 bytes. |
| `c111_registration` (Route) | c p q | C111 for a session: the handle a successful `open` adopts was sent by the device over the connection just made: it is in the bytes that arrived after the connection was made. |
| `c112_construct` (Starting) | c p q | C112: what a session starts with, for every time of construction and every generator that is `mt19937`. The connection id is the first output of the generator seeded with the time; the serial number is drawn from the second one; the session has no handle and no connections, and the vendor id and serial number given to the constructor. |
| `c112_first_request` (Starting) | c p q | C112: the first connection request of a session, whatever was called before it: the proposed ids are the first output of the generator and the number after it, the name of the connection is the serial number drawn from the second output together with the vendor id and serial number of the originator; if the program gave none, these are 0x1234 and 0x6789. |
| `c112_log` (Starting) | c p q | C112: the constructor logs one message, at level inform, which is about exactly these two numbers. |
| `c113_strategy` (Strategy) | c p q | C113. Every function of a session carries out a strategy: until it returns or throws, its next socket call is determined by the state of the session at the beginning and by what was seen of the socket calls since then; so are the result and the state at the end. |
| `c113_first_difference` (Strategy) | c p q | C113: two histories of the same calls on equal sessions have the same socket calls with the same answers, and then the same outcomes and the same state at the end; or the first difference is that one socket call was answered differently. |
| `c113_seen` (Strategy) | c p q | C113: a history in which the same is seen from outside has the same outcomes and leaves the session in the same state. |
| `c113_reactive` (Strategy) | c p q | C113: fixing the answers of the sockets beforehand loses nothing. For every party that reacts to what the session does, in any way, there are answers with which every history of calls runs as with that party. |
| `c113_one_run` (Strategy) | c p q | C113: and this run is the only one: histories played against the same party look the same from outside. |
| `c114_exactly` (Possible) | p q | C114. What the socket calls of a session over new sockets of the library come to obeys the rules of `Spec.Can`, and whatever obeys them does come about on some network. |
| `c114_histories` (Possible) | c p q | C114 for a session: these calls with these outcomes, ending in this world, are a history over new sockets of the library exactly if the session behaves that way with the answers it got and those answers obey the rules of `Spec.Can`. |
| `c114_any_reply` (Possible) | c p q | C114: on the sockets of the library a device can answer the first command after `open` with any one to 4096 bytes: the session is open with the handle the device gave, the exchange of the command works, and what it receives are these bytes. So everything shown of commands for such a reply applies. |
| `c115_violated` (Headers) | p q | C115 does not hold: whatever else is included and in whatever order, no translation unit sees both `IdentityItemData` and `RegisterSessionData`: the headers that declare them have the same include guard. |
| `c115_once_partial` (Headers) | p q | C115, what always holds: preprocessing comes to an end, with one result, and no header is in it twice. |
| `c115_all_partial` (Headers) | p q | C115 (partial: not both of the headers that share a guard). Everything the included headers declare is declared in the translation unit, and every header in it finds the names it uses declared before it. Missing: the two headers together. |
| `c115_violated_second` (Headers) | p q | C115, which of the two is missing: the one that is included second. Both headers are included directly, since no header of the library includes either. |
| `c115_own_partial` (Headers) | p q | C115 for the library itself: every source file and every test sees all names of the library it uses. |
| `c116_violated` (Waiting) | c p q | C116 is violated by the commands: over a connected control socket on which nothing waits, each command with proper arguments comes to a point where it waits for the device, and as long as nothing arrives it cannot end without a socket call failing: no time limit ends it. |
| `c116_violated_open` (Waiting) | c p q | The same for `open`, whatever the sockets were like: once connected it waits for the device, and as long as nothing arrives it cannot end without a socket call failing. |
| `c116_violated_io` (Waiting) | p q | The same for `receiveIOPacket`: it waits at an open I/O socket on which nothing waits, and as long as nothing arrives it does not come back at all. |
| `c116_no_wait_partial` (Waiting) | c p q | C116 as far as it holds: `close`, `sendIOPacket`, `getConnection` and the destructor never wait for the device, and the calls come back from any state of the sockets without anything arriving. |
| `c116_once_partial` (Waiting) | c p q | C116 as far as it holds: a call waits at most once. When one to 4096 bytes arrive at the control socket it waits at, or a datagram at a bound I/O socket, then it can receive them and come back; it then closes at most the sockets, and needs nothing more from the network. |
| `c117_contents` (Contents) | c p q | C117: after any history of a careful user, the next operation has the right result and its raw buffer then shows the right bytes. |
| `c117_always_shows` (Contents) | c p q | C117: a raw buffer keeps showing something until it is destroyed: in a careful user's history no raw buffer that exists loses its memory. |
| `c118_violated_lent` (Contents) | c p q | C118 does not hold for memory lent by the user: a read of `n` bytes from a stream into a raw buffer on `n` bytes of the user's memory overwrites that memory, whatever it held, while a read of any other number of bytes from the same stream leaves it alone. |
| `c118_violated` (Contents) | p | C118 does not hold: neither for lent memory nor for the other raw buffers (a copy changes with the original). |
| `c118_lent_partial` (Contents) | c p q | C118, as far as it holds, for memory lent by the user: an operation leaves it alone unless it stores through a raw buffer that refers to bytes of it. What is missing: reads without a length and reads from a stream with just the length the raw buffer has. |
| `c118_others_partial` (Contents) | c p q | C118, as far as it holds, for the other raw buffers: each shows what it showed, unless the operation stores through a raw buffer that has bytes in common with it. What is missing: buffers that share memory with the one read into. |
| `c118_in_place_partial` (Contents) | c p q | C118, as far as it holds: constructing, copying, assigning, reading with a length from a buffer, serializing and destroying raw buffers changes no byte of lent memory and nothing any other raw buffer shows. What is missing: the reads that fill memory in place. |
| `c119_violated` (Written) | p q | C119 does not hold: an object written to a stream that has room for only a part of it is cut off, and the call returns normally, where a buffer writer throws `length_error` for the same room. |
| `c119_violated_count` (Written) | p | The byte count is no number of bytes written either: it includes what was on the stream before, and after a failure it is the largest `size_t`. |
| `c119_prefix_partial` (Written) | c p q | C119, as far as it holds: whatever objects are written to a stream one after the other, no call throws, and the stream gets their bytes in order, without a gap, up to the point where it is full. If there is room, it gets them all. What is missing: an exception if there is none. |
| `c120_others_partial` (Sharing) | c p q | C120, as far as it holds: in every program, a step that does not change an object itself leaves every object that exists, every encapsulation packet and every CPF packet other than the one it works on exactly as they were, also those that share objects with it. What is missing: nothing for these steps; see `c120_violated` for changes of an object. |
| `c120_as_alone_partial` (Sharing) | c p q | C120, as far as it holds: sharing makes no difference for the packet a function is called on. In every program, each function has the result and the effect on its packet that it has on a packet that shares nothing. |
| `c120_made_partial` (Sharing) | p q | C120, as far as it holds: what constructors and direct assignments make. Whatever exists already, new objects and packets get the contents they are constructed with, and a packet gets the header or the items assigned to it and keeps the rest. |
| `c120_violated` (Sharing) | p q | C120 does not hold when an object is changed: a packet and its copy both get the new payload and keep the old length field, for any two objects whose sizes differ; after `updateLength` on one of them, the other is still wrong. |
| `c120_violated_all` (Sharing) | p | What a change of an object does: every packet with a pointer to it has it as its payload from then on, and keeps its header; all other packets are as they were. |
| `c120_length_partial` (Sharing) | c p q | C120, as far as it holds, for the length field: if a program changes objects only without changing their size, does not assign length fields and its parses return, then all its packets have the right length field. And whatever it has done, `updateLength` makes the field right. What is missing: changes of the size. |
| `c121_violated` (Uninit) | c p q | C121 does not hold for connections a user builds: the forward open request of a new `Connection` has five fields from whatever the memory contained, and requests from different memory differ. |
| `c121_violated_messages` (Uninit) | c p q | C121 does not hold for requests and identities a user builds: serialised as they are constructed, all their fields but the path and the name are what the memory contained. |
| `c121_session_partial` (Uninit) | c p q | C121, as far as it holds, for sessions: nothing a session sends, returns, throws or keeps depends on what the memory of the objects contains that its calls build, in all histories. What is missing: objects a user builds, see `c121_violated` and `c121_violated_messages`. |
| `c121_attribute_partial` (Uninit) | c p q | C121, as far as it holds, for attributes: what `getSingleAttribute` returns or throws does not depend on what its local variable contained, for all types of a fixed size. |
| `c121_scanner_partial` (Uninit) | c p q | C121, as far as it holds, for the scanner: what it sends and reports does not depend on what its buffer and the identity it parses into contained, whatever arrives. |
| `c122_violated` (CloseAgain) | c p q | C122 does not hold: if a `close` fails because closing one of the sockets reports an error, the session keeps its id, but its control socket is closed. From then on, until the session is opened again, every `close` throws and no request leaves. |
| `c122_violated_reopen` (CloseAgain) | c p q | C122: opening the session again does not help either, unless the device happens to give it the id it had: if it was the control socket that failed to close, the I/O socket is still open and `open` throws; otherwise `open` throws if the device gives another id. |
| `c122_connected_partial` (CloseAgain) | c p q | C122: what `close` needs on the sockets of the library: it can succeed exactly if the control socket is connected. |
| `c122_retry_partial` (CloseAgain) | c p q | C122, as far as it holds: if `close` throws because the request could not be sent, nothing has changed; if the control socket was connected, `close` can succeed when it is called again. |
| `c122_recovers_partial` (CloseAgain) | c p q | C122: the way out after the control socket failed to close: an `open` to a device that accepts the connection. It throws, because the I/O socket is still open, but afterwards `close` can succeed. |
| `c122_violated_occurs` (CloseAgain) | c p q | C122: this happens on a network where everything else works: a session on new sockets is opened, then `close` fails at either socket. The log says nevertheless that the session was closed (C97). |
| `c123_pieces` (Threads) | p q | C123. The pieces that a call is cut into are the call: done in a row they have the same result and the same effect; and without its value this is the call as the other properties know it. |
| `c123_exact_partial` (Threads) | c p q | C123 (partial: calls that read or write attributes or transfer I/O data, among calls that neither open nor close the session). However the threads take turns, such a call ends with the result it has alone, when its socket calls get the same answers, except that the bytes it has received are what remains of them in the buffer when it looks at them: other calls' receives store their bytes over them. Missing: that nothing is stored over them, which is false. |
| `c123_apart_partial` (Threads) | c p q | C123 (partial: when no other call receives anything between a call's receive and its end). However the threads take turns otherwise, in particular whatever the others send, a call that reads or writes an attribute or transfers I/O data ends with the result it has alone when its socket calls get the same answers. Missing: receives at that time, for which it is false. |
| `c123_violated` (Threads) | c p q | C123 is false. If a datagram arrives on the I/O socket and is received by another thread after this thread has received the reply to its command and before it has parsed it, the command fails, however good the reply: every datagram of at least two bytes does that, unless it begins with the command code of the reply. |
| `c123_violated_io` (Threads) | c p q | C123 is false in the other direction, too. If the reply to a command is received by another thread after this thread has received a datagram and before it has parsed it, `receiveIOPacket` fails, however good the datagram, if it has between 2 and 445 bytes: it is taken for a packet with 111 items. |
| `c124_control_partial` (ThreadControl) | c p q | C124 (partial: when the calls of the other threads, while this one is under way, are reading or writing attributes and transferring I/O data). However the threads take turns, a call that neither opens nor closes the session, such as creating or closing a connection, ends with the result and leaves the session in the state that it has and leaves alone, when it begins in the same state and its socket calls get the same answers, except that the bytes it has received are what remains of them in the buffer when it looks at them. Missing: other threads that create or close connections at the same time, for which it is false. |
| `c124_apart_partial` (ThreadControl) | c p q | C124 (partial: as before, and when no other call receives anything between the call's receive and its end). The call ends with the result and leaves the session in the state that it has and leaves alone, when it begins in the same state and its socket calls get the same answers. |
| `c124_violated` (ThreadControl) | p q | C124 is false. Two threads close two connections, each of which could be closed: if one is closed after the other thread has made up its request and before it has evaluated the reply, and the other connection was the last one, there is no such connection any more, and the behaviour is undefined. |
| `c124_violated_list` (ThreadControl) | c p q | C124 is false if it was not the last one, too: the reply is then compared with the next connection. It is rejected although the device has closed the connection, and a connection that no longer exists remains on the list. |
| `c125_determined` (Rehearsed) | c p q | C125: from every session, all sockets and every sequence of lines a test runs, in exactly one way: outcomes, socket calls, the session at the end and what the sockets have recorded are determined. |
| `c125_recorded` (Rehearsed) | p q | C125: if a test starts with a new socket and does not clear it, the socket has recorded everything the session has sent on it, in order, up to its capacity of 4096 bytes. |
| `c125_cleared` (Rehearsed) | p q | C125: the same holds from the last time a socket was cleared. |
| `c125_script` (Rehearsed) | p q | C125: if a test does not change the script of a socket, the session receives the bytes of the script, in order, and what it has not received is left. |
| `c125_rescripted` (Rehearsed) | p q | C125: the same holds from the last time the script was set. |
| `c125_parts` (Rehearsed) | p q | C125: a test can be cut anywhere: unless it has ended before, its second part goes on from the session and the sockets the first part has left. |
| `c125_real_partial` (Rehearsed) | c p q | C125 (partial: tests that open the session before they use it, do not open it twice, and whose scripts do not run out). What a test shows can happen on the sockets of the library: over new sockets of the library, with a suitable device, the same calls have the same outcomes and leave the session in the same state, and the session makes the same socket calls. Missing: other tests, for which it is false (`c125_violated`, `c125_violated_twice`). |
| `c125_violated` (Rehearsed) | c p q | C125 is false: a test that never opens the session passes, although on the sockets of the library the command throws whatever the network does. |
| `c125_violated_twice` (Rehearsed) | c p q | C125 is false also of tests that open the session before they use it: a test that opens it twice passes, although on the sockets of the library the second call always throws. |
| `c126_decimal` (Lines) | p q | C126 for numbers. A number that is not negative is written as its decimal digits, without leading zeros. |
| `c126_negative` (Lines) | p q | C126 for negative numbers: a minus sign and the digits. |
| `c126_hex` (Lines) | c p q | C126 for hexadecimal numbers: exactly eight digits. |
| `c126_unique` (Lines) | c p q | A number has only one numeral, and a numeral belongs to only one number: the log can be read back. |
| `c126_whole_partial` (Lines) | c p q | C126 (partial: objects whose exceptions have texts of at most 982 bytes). Every message of a call on a session reaches the output handler whole. Missing: data to be sent that throws a longer text while it is serialized. |
| `c126_lifecycle` (Lines) | c p q | C126 for the first and the last messages of a session. |
| `c126_seen_partial` (Lines) | c p q | C126 (partial: as `c126_whole_partial` and C96). A call that throws an exception the session makes up itself leaves an error in the log that is whole and that console_bridge passes on at every level but `none`. |
| `c126_levels` (Lines) | p | C126 for the levels: a message is passed on exactly if it is grave enough. |
| `c126_default` (Lines) | c p q | C126: reading or writing an attribute, if the device answers that it succeeded, shows at the default level what is odd about the reply and nothing else. |
| `c126_violated` (Lines) | c p q | C126 is false for objects of the user: the line about a `length_error` with a text of more than 982 bytes, thrown while the object is serialized, is cut off after 1023 characters. |
| `c126_scanner` (Lines) | c p q | C126 for the scanner: whatever arrives, every message reaches the output handler whole. |
| `c127_alone` (Ports) | c p q | C127: what happens to the sockets of a session is only what it does itself, the bytes of its own connection and datagrams; for its sockets it is as if there were no other session. |
| `c127_datagram` (Ports) | c p q | C127: a datagram never reaches two sessions. |
| `c127_ports` (Ports) | c p q | C127: at no time do two sessions use clashing ports. |
| `c127_violated_socket` (Ports) | c p q | C127 does not hold: from when a session has opened its I/O socket until it closes it, no other session with a clashing local endpoint can open its own, whatever the network does. |
| `c127_violated` (Ports) | c p q | C127 does not hold: as long as one session has its I/O socket open, every `open` of another session with a clashing local endpoint throws, whatever the devices and the network do. |
| `c127_together_partial` (Ports) | c p q | C127 (partial: sessions whose local endpoints do not clash). Whatever each session and its device can do alone, they can do together, in every order. Missing: sessions that are given the same local port. |
| `c127_histories_partial` (Ports) | c p q | C127 (partial: as above) for histories of calls: whatever sequences of calls, with whatever results, are possible for each session alone are possible for all sessions together, with the socket calls in every order. |
| `c127_violated_stuck` (Ports) | c p q | C127 does not hold, also after the other session is closed. On a network where everything works, two sessions that are given clashing local endpoints are opened: the second `open` throws, as every `open` would. Then the first session is closed: the second one still cannot be opened, until it is closed although it never was open. |
| `c128_code` (Races) | p q | C128. The accesses of a call, done in a row, are the call. |
| `c128_places` (Races) | p q | C128. The lists of places read and written by an access are right: it leaves all other places alone, and what it yields and what it leaves at the places it writes depends only on what is at the places it concerns and on the next answer of the sockets. |
| `c128_sockets` (Races) | p | C128. An access uses a socket only if that socket is among the places it writes: every other access makes no socket call. |
| `c128_no_race_partial` (Races) | c p q | C128 (partial: threads that only look at connections while no other makes or closes any, or that send I/O data while one other carries out commands). There is never a data race, however the threads are interleaved. Missing: all other combinations, for which it is false (`c128_exact`). |
| `c128_results_partial` (Races) | c p q | C128 (partial: as above). The results of the calls of every thread are those it would get alone from sockets that answer the same. |
| `c128_effects_partial` (Races) | c p q | C128 (partial: as above). Between calls, the socket calls of a thread are those it would have made alone, and whatever its calls would have changed in the session is changed in that way. |
| `c128_unchanged_partial` (Races) | c p q | C128 (partial: as above). Between calls of all threads, what none of them would have changed alone is not changed. |
| `c128_ends` (Races) | p q | C128. No thread waits for another: whatever has happened, and whatever the calls are, a thread that goes on comes to the end of its calls. |
| `c128_violated_control` (Races) | c p q | C128 is false: two threads race for the control socket if both open, close or send commands, in every state of the session and whatever the sockets answer. |
| `c128_violated_io` (Races) | c p q | C128 is false: a thread that sends or receives I/O data races for the I/O socket with one that sends or receives I/O data, opens or closes the session, in every state of the session, if no socket call fails until then. |
| `c128_violated_buffer` (Races) | c p q | C128 is false: a command and the receiving of I/O data race for the receive buffer, which they share, in every state of the session, if the command can be sent. |
| `c128_violated_connections` (Races) | p q | C128 is false: a call that would alone make or close a connection races with one that looks at any connection. |
| `c128_violated_serials` (Races) | c p q | C128 is false, and this breaks what holds for one thread (C45): two threads that make a connection can send forward open requests with the same connection serial number, vendor id and originator serial number, whatever the state of the session. |
| `c128_exact` (Races) | c p q | C128. Which calls may be made together: two threads that make one call each never race, in any state, with any answers of the sockets and in any order, exactly if the two calls are listed in `Together`. |
| `c129_distinct` (Types) | c p q | Different values of a type have different bytes. |
| `c129_write` (Types) | c p q | C129 for writing. For every type, value and path, `setSingleAttribute` first sends exactly the set attribute single request for the path with the bytes of the value; if the socket calls work and the reply is good with status 0, it returns, and that was the only message. |
| `c129_read_partial` (Types) | c p q | C129 (partial: BOOL sent as 0 or 1). When the device answers with the bytes of a value, possibly followed by others, `getSingleAttribute` has sent exactly the get attribute single request for the path and returns the value, whatever the local variable contained. Missing: BOOL sent as another byte, for which it is false (`c129_violated`). |
| `c129_violated` (Types) | c p q | C129 is false for BOOL: if the device sends any other byte than 0 and 1, such as 255 for true, the `bool` that is returned has no value, and to return it is undefined behaviour. |
| `c129_exact` (Types) | c p q | C129: what exactly can come of the data of a good reply. If there are enough bytes, then `getSingleAttribute` returns a value exactly if its first bytes are those of the value, which for every type but BOOL some value has; the only other case is BOOL with a byte above 1. If there are too few, it throws `length_error`. |
| `c129_codes` (Types) | none | C129. The codes of the types are the numbers the protocol gives types of their kind and size, and no two types have the same. |
| `c130_kept_partial` (Held) | c p q | C130. Parsing from a buffer, whatever the bytes and whatever the object held before: a frame, a raw buffer, a CPF item, a CPF packet, a message router response, a send-RR-data response and the two connection replies keep at most as many more bytes as they took from the reader, and no more than that if the parse returns. For an identity the same holds of a parse that returns, and one that fails keeps at most 255 bytes more. Missing: streams, and a failed parse of an identity. |
| `c130_received` (Held) | c p q | C130. So an I/O packet a session has received keeps at most the 4096 bytes of the receive buffer in all, and has at most 1024 items, whatever the number of items the datagram announces. |
| `c130_violated` (Held) | c p q | C130 is false of streams: a frame of which only the header has arrived - 24 bytes - keeps as many bytes of unknown memory as the header announces, up to 65535, and the parse returns. |
| `c130_violated_identity` (Held) | none | C130 is false of an identity whose parse fails: 33 bytes that announce a name of 255 and end there leave 255 bytes in the product name, because the string is resized before it is filled. |
| `c131_exact` (Lan) | c p q | C131. What every scan does, on every network and whatever mail comes in. If a socket can be had, the host name resolves, the first address is not a broadcast address and the system takes the request, then exactly one request goes to port 44818 of that address, and a device is reported if and only if the first piece of mail is its identity; then the scan is over and the rest of the mail is not read. Without mail the scan waits. In all other cases `system_error` is thrown, nothing is sent and nothing is reported. |
| `c131_violated` (Lan) | c p q | C131 is false of networks as such: asked to scan a broadcast address, the scanner always throws and sends nothing, for the socket is never allowed to broadcast. So no device is found, however many would have heard the request. |
| `c131_violated_stranger` (Lan) | c p q | C131 is false when somebody else speaks first: an identity that comes from any host is reported, whoever was asked, and then the scanner does not listen any more, so the answer of the device that was asked is not seen. |
| `c131_found_partial` (Lan) | c p q | C131, as far as it holds: the scan of one address finds the device there, if nobody else sends anything. The scan sends one request and returns with nothing left unread; if there is no device at the address, it reports nothing and waits. Missing: broadcast addresses, and networks on which somebody else speaks. |
| `c131_one` (Lan) | c p q | C131. No scan reports more than one device: of the mail, at most the first piece is looked at. |
| `c132_follows` (Handed) | c p q | The vector holds what the list of the session model holds, whatever is called, and the calls behave as they do without the vector: the memory view changes nothing but what can be said about references. |
| `c132_given` (Handed) | p q | What `getConnection` hands out: for a number in range, a reference that shows the connection with that number; for any other number the behaviour is undefined. Asking changes nothing, so it leaves earlier references alone. |
| `c132_step` (Handed) | c p q | What becomes of a reference that shows a connection, call by call: a connection that is created leaves it alone if there was room for one more and otherwise leaves it dangling; closing a connection behind it leaves it alone; closing the one it shows or one before makes it show the next connection, or dangle if there is none; and nothing else touches it. |
| `c132_violated` (Handed) | c p q | Violated, by creating: whatever the growth policy of the vector, a connection created when the vector is full leaves every reference handed out before dangling. |
| `c132_violated_moved` (Handed) | c p q | Violated, by closing: after connection `k` is closed, the reference handed out for `k` or a later number silently shows the connection that came after its own, and the last one dangles. |
| `c132_gone` (Handed) | c p q | A reference whose allocation is gone is dangling for good. |
| `c132_kept_partial` (Handed) | c p q | The part that holds: over a history that closes only connections behind it, and tries to create no more connections than the vector has room for, a reference keeps showing the connection it was handed out for. Missing: other histories (see `c132_violated` and `c132_violated_moved`). |
| `c133_reports_partial` (Hub) | c p q | C133, the reports: on a service that no run has brought to its end yet, a run that returns (or waits for more) leaves every scanner, the one that runs and all others, as it would be had it been alone with its own mail: it has reported the same devices. Missing: a service that was run to its end (`c133_violated`), and when the run returns (`c133_violated_waits`). |
| `c133_returns` (Hub) | c p q | C133, the return: on a service that no run has brought to its end yet, a run comes back if and only if afterwards no scanner of the service waits for mail, whichever scanner was asked to run; the service is then at its end. The receives of scanners that were destroyed since the last run are each logged as an error. |
| `c133_violated` (Hub) | c p q | C133 is false for the next scan: once a run has come back, no scanner on this service, those made later included, ever reports anything again. A run sends its request and returns at once, whatever mail is there. |
| `c133_violated_waits` (Hub) | c p q | C133 is false while another scanner waits: the run of scanner `i` does not come back, although its own scan is over, as long as some other scanner of the service has not been answered. |
| `c133_alone_partial` (Hub) | p q | C133, the part that holds in full: on a service that no run has brought to its end yet, and while no other scanner waits for mail, a run ends exactly as that of a scanner with a service of its own. Missing: services with other scanners that wait (`c133_violated_waits`) and services that were run before (`c133_violated`). |
| `c133_first_partial` (Hub) | p q | C133, the first scan: on a new service, a scanner that is made and run ends as in C131, with a service of its own. |
| `c133_made` (Hub) | p q | Making a scanner adds one that waits, has sent and reported nothing, under a number that nobody had; it changes nothing about the service and the other scanners. If it throws, nothing has changed. |
| `c133_destroyed` (Hub) | p | Destroying a scanner that exists removes it and no other; the handler of its receive operation remains to be called. It does not restart the service. Destroying one that does not exist is undefined. |
| `c134_stream_partial` (Cyclic) | c p q | C134. A producer sends the values `x 0`, `x 1`, … with `sendIOPacket`, each in a packet with its number. The network delivers to a consumer any packets of these in any order: `pick i` is the number of the `i`-th packet that arrives, so packets may be lost, repeated and reordered. Then the consumer reads from the `i`-th packet the connection id, the number `pick i` and the value `x (pick i)`, provided that no value takes more than 4076 bytes. |
| `c134_recognised` (Cyclic) | p | C134. The number read tells the packets apart, and tells which was sent first, as long as fewer than 2³² have been sent; the number in the data item does so among 65536. |
| `c134_violated` (Cyclic) | c p q | C134 is violated: a value of more than 4076 bytes is sent, but the consumer gets a `length_error`. |
| `c135_model` (Width) | c p q | C135. With 64 bits the functions of Model/Width are those of the rest of the model. |
| `c135_response_partial` (Width) | c p q | C135. A message router response is parsed alike on 32-bit and 64-bit hosts, from buffers and from streams, whatever is in them and whatever length is announced, although the lengths are computed in `size_t` and wrap around. |
| `c135_reply_partial` (Width) | c p q | C135. So a session takes the same response out of every reply it receives: this is how it reads the item with the message (rr_data_response.h:130-133). |
| `c135_sequenced_partial` (Width) | p q | C135. A sequenced data item of any class is parsed alike, if it is said to have at least its two bytes of number. |
| `c135_number` (Width) | p q | C135. `createConnection` returns the same number. |
| `c135_send_partial` (Width) | p q | C135. An I/O packet of less than 4 GiB is sent alike. |
| `c135_violated` (Width) | c p q | C135 is violated: a packet of 65535 items that share one payload of 65535 bytes is well formed and takes little memory. On a 64-bit host it is handed to the socket. On a 32-bit host its length wraps around, the vector it is serialized into has 131071 bytes, and `length_error` is thrown. |
| `c136_call_partial` (Tight) | p q | C136 (every call but `open`): when the call does not run out of memory, it returns, throws or is undefined exactly as in a world with enough memory. When it does run out, some allocation has failed, `std::bad_alloc` comes out, the socket calls made are the first few of those it would have made, and neither the session id nor the list of connections has changed. Partial: that nothing has happened to the device or the sockets is false (`c136_violated_create`, `c136_violated_remove`, `c136_violated_close`), and `open` is different (`c136_open_partial`). |
| `c136_open_partial` (Tight) | p q | C136 (`open`): as for the other calls, except that `std::bad_alloc` may also come when all is done and the session is open. Partial: a caller who gets the exception cannot tell (`c136_violated_open`). |
| `c136_enough` (Tight) | p q | C136: with enough memory every call is the call of the rest of the model, and still has enough afterwards. |
| `c136_numbers` (Tight) | p q | C136 (numbers): whatever allocations fail, no call but `createConnection` uses up serial numbers or connection ids. `createConnection` has used up one serial number and two ids, or it has thrown `std::bad_alloc` before doing anything at all: a caller who tries again never sends the same numbers twice. |
| `c136_destroy` (Tight) | c p q | C136 (destructor): whatever allocations fail, the destructor does not throw. What it does to the sockets is the first part of what `close` does, and all of it when memory suffices; nothing when the session is not open. |
| `c136_violated_create` (Tight) | p q | The full claim for `createConnection` is false: whenever the call would succeed, there is an allocation - that of `push_back` - whose failure leaves the device with the new connection, all socket calls made, and the session without it. The connection can then not be closed by `closeConnection`. |
| `c136_violated_remove` (Tight) | p q | For `closeConnection`: whenever the call would succeed, there is an allocation whose failure leaves the session with a connection the device has closed. |
| `c136_violated_close` (Tight) | c p q | For `close`: whenever the call would succeed, there is an allocation - for the message of src/session.cpp:159 - whose failure leaves both sockets open and the session id set although the device has been told that the session is over. |
| `c136_violated_open` (Tight) | p q | For `open`: whenever the call would succeed, there are allocations whose failure makes it throw with both sockets open and the session registered at the device: one with the session open after all, and one with the session id as it was before, so that nothing will ever unregister it. |
| `c137_serials` (TightHistory) | c p q | C137 (serial numbers): in any history of calls, whichever of them run out of memory and wherever they do, with at most 65536 attempts to create a connection, all forward open requests sent carry different connection serial numbers. |
| `c137_connections` (TightHistory) | c p q | C137 (connections): starting without connections, all connections in the list have different serial numbers. |
| `c137_ids` (TightHistory) | c p q | C137 (ids): with at most 2^31 attempts, all connection ids proposed in forward open requests are different. |
| `c137_handle` (TightHistory) | c p q | C137 (handle): whatever a command sends before it runs out of memory goes over the control socket and carries the handle of the session. |
| `c137_session_id` (TightHistory) | c p q | C137 (session id): in any history, whichever calls run out of memory, the session id is the one it started with, 0, or the handle of a registration response received in that history. |
| `c137_enough_partial` (TightHistory) | p q | C137 (enough memory): a history in which no allocation fails is a history of the rest of the model. Partial: when a command has run out of memory after sending, the next one reads the reply meant for it (`c137_violated_pairing`). |
| `c137_violated_pairing` (TightHistory) | c p q | The full claim - the caller can go on as if the call had not been made - is false: whenever a read request can be sent, there is an allocation whose failure leaves its reply unread. The next read request is sent, and what it receives is the first thing received since both requests, so that over TCP it takes the reply to the first for its own. |
| `c138_run_partial` (TightScan) | c p q | C138: when a scan does not run out of memory, it returns, throws or is undefined exactly as otherwise, with the same messages. When it does, some allocation has failed, `std::bad_alloc` leaves `run`, and what it has sent, reported and logged is the first part of what it would have. Partial: the report of a device may be cut off anywhere, and no other device is reported (`c138_violated`). |
| `c138_enough` (TightScan) | c p q | C138: with enough memory the scan is that of C107, and memory still suffices afterwards. |
| `c138_violated` (TightScan) | c p q | The full claim - a device is reported as a whole or not at all, and the scan goes on - is false: for every datagram the handler looks at to its end, and every one of the messages it logs about it, there is an allocation whose failure makes `run` throw with just the messages before that one logged. Nothing is waiting for another datagram then, so that running again finds no device either (`c64_violated_again`). |
| `c139_own_partial` (Backlog) | c p q | C139 as far as it holds: when nothing is on its way and no receive fails, every command of a history receives the answer to its own request, whatever it makes of it, and nothing is left over. Missing: commands whose receive fails. |
| `c139_violated` (Backlog) | c p q | C139 is violated from the first receive that fails: the answer to that command stays on its way. |
| `c139_violated_ever_after` (Backlog) | c p q | C139 is violated ever after: once an answer has been left over, no command of whatever history receives the answer to its own request. What is received is, in order, first what was left over and then the answers to the requests of this history, and at least as much is left over at the end as at the beginning, so that each command that receives something gets the answer to an earlier one. |
| `c139_violated_next` (Backlog) | c p q | The same for one command: whatever it receives is the oldest of what was left over. |
| `c139_reopen` (Backlog) | c p q | C139, the way out: a close that returns leaves nothing on its way, and neither does an open that returns and whose answer was the device's. |
| `c139_recovers` (Backlog) | c p q | C139, the way out in full: whatever is on its way, close the session, open it, and go on with any commands. If closing and opening return and no receive fails, then from the registration on every request gets its own answer, and nothing is left over; only the request to unregister, the first one sent, gets none. |
| `c139_violated_values` (Backlog) | c p q | C139 is violated, what the caller sees: read any attributes one after the other from a device that answers every read with the value of the attribute asked for, over a network that works but for the first receive. The first read throws; every later one returns, as the value of its attribute, the value of the attribute read before it. |
| `c139_violated_write` (Backlog) | c p q | C139 is violated, for writes: when the receive of a read has failed and the device had a good answer to it, the next write returns normally whatever the device answers to it, even that it refuses; that answer is then on its way. |
| `c139_violated_connect` (Backlog) | c p q | C139 is violated, for connections: ask for connections one after the other from a device that grants every one, over a network that works but for the first receive. Every one of the calls throws and the session has none of the connections, although all the requests were sent and so the device has opened all of them. |

