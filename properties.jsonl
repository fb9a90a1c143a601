{"id": "C01", "title": "A buffer reader never reads outside its buffer", "statement": "Over any sequence of read, copy and skip calls, a reader built on a byte buffer hands out exactly the buffer's bytes in order, its byte count equals the number of bytes handed out or skipped, and a call that asks for more than what is left throws std::length_error and consumes nothing.", "quantifier": "every buffer content and every finite sequence of reads and skips of any sizes, including after failures", "why_tests_cant": "The number of call sequences and sizes is unbounded; the tests read one fixed struct out of one fixed buffer.", "anchors": ["include/odva_ethernetip/serialization/buffer_reader.h: BufferReader::readBytes, readBuffer, skip, getByteCount"]}
{"id": "C02", "title": "A buffer writer never writes outside its buffer", "statement": "Over any sequence of writes, a writer built on a byte buffer stores exactly the concatenation of the accepted chunks at the start of the buffer, leaves every later byte untouched, reports the number of stored bytes, and a write that does not fit throws std::length_error and changes nothing.", "quantifier": "every buffer and every finite sequence of chunks of any sizes, including after failures", "why_tests_cant": "Memory safety for all chunk sequences cannot be sampled.", "anchors": ["include/odva_ethernetip/serialization/buffer_writer.h: BufferWriter::writeBytes, writeBuffer, getByteCount"]}
{"id": "C03", "title": "Integers are little-endian on the wire and survive a round trip", "statement": "Writing an unsigned 8, 16 or 32 bit integer produces its bytes least significant first (on the little-endian hosts the library targets), and reading them back yields the same integer; every byte string of the right size is the encoding of exactly one integer.", "quantifier": "all 2^8, 2^16 and 2^32 values and all byte strings of matching size", "why_tests_cant": "2^32 values; tests use three or four literals.", "anchors": ["include/odva_ethernetip/serialization/reader.h: Reader::read", "include/odva_ethernetip/serialization/writer.h: Writer::write", "include/odva_ethernetip/serialization/serializable_primitive.h: SerializablePrimitive"]}
{"id": "C04", "title": "getLength equals the number of bytes serialize writes", "statement": "For every encapsulation header, encapsulation packet, register-session payload, path, message router request, RR data request, forward open request, forward close request built by the library, sequenced address item and primitive, serialize writes exactly getLength() bytes, so sending it neither throws nor pads.", "quantifier": "all field values, all path lengths, all payloads whose own length is exact", "why_tests_cant": "Composite objects have unboundedly many shapes (path lengths, nested payloads).", "anchors": ["include/odva_ethernetip/socket/socket.h: Socket::send(const Serializable&)", "src/path.cpp: Path::getLength", "include/odva_ethernetip/rr_data.h: RRData::getLength", "include/odva_ethernetip/message_router_request.h", "include/odva_ethernetip/forward_open_request.h", "include/odva_ethernetip/forward_close_request.h", "include/odva_ethernetip/encap_packet.h: EncapPacket::getLength"]}
{"id": "C05", "title": "CPF items and packets report their true serialized length", "statement": "CPFItem::getLength and CPFPacket::getLength equal the number of bytes their serialize writes, and sending a CPF packet never fails for lack of buffer space.", "quantifier": "all item lists and all item payload sizes", "why_tests_cant": "Fails only for payloads of 64 KiB and more, which no test builds.", "anchors": ["include/odva_ethernetip/cpf_item.h: CPFItem::getDataLength, getLength", "src/cpf_packet.cpp: CPFPacket::getLength, serialize"]}
{"id": "C06", "title": "Encapsulation headers round-trip, and every 24-byte string is a header", "statement": "Deserializing the serialization of any header gives the header back and consumes exactly 24 bytes; conversely every 24-byte string deserializes and reserializes to itself.", "quantifier": "all header field values; all 24-byte strings; any trailing bytes", "why_tests_cant": "2^192 headers.", "anchors": ["src/encap_header.cpp: EncapHeader::serialize, deserialize"]}
{"id": "C07", "title": "Encapsulation packets round-trip", "statement": "A packet built with any payload, serialized and parsed again, yields the same header fields, a length field equal to the payload's size and a payload with exactly the payload's bytes, leaving trailing input untouched; and any byte string that parses reserializes to exactly the bytes consumed.", "quantifier": "all header fields, all payloads (the round trip needs payload < 65536 bytes), all trailing bytes", "why_tests_cant": "Payload contents and lengths are unbounded.", "anchors": ["src/encap_packet.cpp: EncapPacket::serialize, deserialize", "include/odva_ethernetip/encap_packet.h: EncapPacket::setPayload, updateLength"]}
{"id": "C08", "title": "CPF packets round-trip with items in order", "statement": "A CPF packet of up to 65535 items, each with under 65536 bytes of data, serialized and parsed again yields the same number of items, in the same order, with the same types and data bytes; and any byte string that parses reserializes to exactly the bytes consumed.", "quantifier": "all item lists, types and data within the stated sizes, all trailing bytes", "why_tests_cant": "Induction over the number of items; tests use one or two items.", "anchors": ["src/cpf_packet.cpp: CPFPacket::serialize, deserialize", "src/cpf_item.cpp: CPFItem::serialize, deserialize"]}
{"id": "C09", "title": "Unconnected requests have the standard wire layout", "statement": "For every service code, path and request data the RR data request serializes to interface handle 0, timeout 0, item count 2, a null address item, and an unconnected-message item (0x00B2) whose length field is the length of what follows: service code, path size in words, path bytes, request data.", "quantifier": "all service codes, all paths, all request data under the 16-bit limit", "why_tests_cant": "Unbounded data and path; tests compare two literal packets.", "anchors": ["src/rr_data.cpp: RRData::serialize", "include/odva_ethernetip/rr_data_request.h: RRDataRequest", "include/odva_ethernetip/message_router_request.h: MessageRouterRequest::serialize"]}
{"id": "C10", "title": "Paths encode the added segments in order", "statement": "After any sequence of add-class, add-instance, add-attribute, add-connection-point and reset calls, the path serializes to the number of segments since the last reset, an optional zero pad byte, then for each such segment its type byte (0x20, 0x24, 0x30, 0x2C) and id in call order; the announced count is right as long as there are fewer than 256 segments.", "quantifier": "all finite call sequences", "why_tests_cant": "History-quantified; tests add at most three segments.", "anchors": ["src/path.cpp: Path::addSegment, addLogical*, serialize", "include/odva_ethernetip/path.h: Path::reset, setPadAfterLength"]}
{"id": "C11", "title": "Connection parameters pack without interference", "statement": "The packed connection parameter word carries the low 15 bits of the size, the variable flag, the 2-bit priority, the 2-bit type and the shared flag in separate bit positions: each can be read back whatever the others are, and no other bit is set.", "quantifier": "all sizes, flags, priorities and types", "why_tests_cant": "2^34 argument combinations.", "anchors": ["include/odva_ethernetip/forward_open_request.h: ForwardOpenRequest::calcConnectionParams"]}
{"id": "C12", "title": "Identity items round-trip", "statement": "An identity record whose product name has at most 255 characters serializes to exactly getLength() bytes and parses back to the same record.", "quantifier": "all field values, all names up to 255 bytes, all trailing bytes", "why_tests_cant": "Unbounded content; one literal is tested.", "anchors": ["src/identity_item_data.cpp: IdentityItemData::serialize, deserialize, getLength"]}
{"id": "C13", "title": "Long identity names keep the record well formed", "statement": "For a product name of any length the identity record serializes to getLength() bytes and parses back to the same record.", "quantifier": "all names, including longer than 255 bytes", "why_tests_cant": "The failing region starts at 256 characters.", "anchors": ["src/identity_item_data.cpp: IdentityItemData::serialize, getLength"]}
{"id": "C14", "title": "Sequenced address items and register data round-trip", "statement": "Sequenced address items (connection id, sequence number) and register-session payloads (version, options) serialize to their fields in order and parse back unchanged, ignoring trailing bytes.", "quantifier": "all field values and all trailing bytes", "why_tests_cant": "2^64 and 2^32 values.", "anchors": ["include/odva_ethernetip/sequenced_address_item.h: SequencedAddressItem", "include/odva_ethernetip/register_session_data.h: RegisterSessionData"]}
{"id": "C15", "title": "A sequenced data item is the sequence number followed by the item", "statement": "For any item type whose sized deserialize delegates to the unsized one, a SequencedDataItem serializes as its 16-bit sequence number followed by the item, and a fresh one parses exactly that back, whether or not a length is given.", "quantifier": "all wrapped item classes of that kind, all sequence numbers, all contents", "why_tests_cant": "Quantifies over the wrapped class.", "anchors": ["include/odva_ethernetip/sequenced_data_item.h: SequencedDataItem"]}
{"id": "C16", "title": "A sequenced data item can be reused after a failed parse", "statement": "After a deserialize call on a SequencedDataItem throws, the next deserialize call on the same object parses a good input correctly.", "quantifier": "all failing inputs followed by any good input", "why_tests_cant": "Needs failure histories on one object.", "anchors": ["include/odva_ethernetip/sequenced_data_item.h: SequencedDataItem::deserialize, already_deserializing"]}
{"id": "C17", "title": "getDataAs into a sequenced raw buffer separates the sequence number", "statement": "Copying received item data into a SequencedDataItem of raw buffer sets its sequence number from the first two bytes and its data from the rest.", "quantifier": "all received item data of at least two bytes", "why_tests_cant": "Depends on a run-time type test inside the copy helper.", "anchors": ["src/copy_serializable.cpp: copy_serializable", "include/odva_ethernetip/sequenced_data_item.h", "src/cpf_item.cpp: CPFItem::getDataAs"]}
{"id": "C18", "title": "Message router responses split into status and data exactly", "statement": "Parsing a message router response from its own buffer of n bytes yields service, general status, 2*k bytes of additional status (k the fourth byte, none if k=0) and all remaining n-4-2k bytes as response data (none if zero), and fails with std::length_error exactly when n < 4 + 2k.", "quantifier": "all byte strings of any length up to 2^31", "why_tests_cant": "All lengths and all k; tests use four literals.", "anchors": ["src/message_router_response.cpp: MessageRouterResponse::deserialize, readData"]}
{"id": "C19", "title": "A message router response can be parsed in the middle of a stream", "statement": "Parsing a message router response of length n from a reader that has already consumed other bytes gives the same result as parsing it from its own buffer.", "quantifier": "all amounts already consumed", "why_tests_cant": "The discrepancy only shows at non-zero reader offsets.", "anchors": ["src/message_router_response.cpp: MessageRouterResponse::deserialize"]}
{"id": "C20", "title": "Truncated messages are rejected", "statement": "Parsing any strict prefix of a valid header, packet, CPF packet, register payload, sequenced address item, identity record or forward open/close reply from a byte buffer throws std::length_error: no truncated message is ever accepted.", "quantifier": "all messages and all truncation points", "why_tests_cant": "All truncation points of all messages.", "anchors": ["src/encap_packet.cpp", "src/cpf_packet.cpp", "src/encap_header.cpp", "src/identity_item_data.cpp", "include/odva_ethernetip/forward_open_success.h", "include/odva_ethernetip/forward_close_success.h"]}
{"id": "C21", "title": "Parsing depends only on the bytes it consumes", "statement": "If a deserializer succeeds on a buffer, it succeeds with the same result and consumption on that buffer followed by any other bytes, and the consumed bytes are a prefix of the input whose length is the growth of the byte count.", "quantifier": "every library message type with an unsized deserialize, all inputs, all trailing bytes", "why_tests_cant": "Two-run (relational) property over all inputs.", "anchors": ["include/odva_ethernetip/serialization/buffer_reader.h", "src/encap_packet.cpp", "src/cpf_packet.cpp", "src/identity_item_data.cpp"]}
{"id": "C22", "title": "Deserializers never crash on hostile bytes", "statement": "For every byte string, deserializing it as any library message from a byte buffer either succeeds or throws std::length_error or std::logic_error; it never dereferences a null pointer or reads indeterminate data.", "quantifier": "all byte strings, all library message types with a deserializer", "why_tests_cant": "Totality over all inputs; fuzzing samples.", "anchors": ["src/rr_data.cpp: RRData::deserialize", "include/odva_ethernetip/rr_data_response.h: RRDataResponse::setData", "src/cpf_item.cpp: CPFItem::getDataAs"]}
{"id": "C23", "title": "Forward open and close replies parse field by field", "statement": "A successful forward open (close) reply parses into its connection ids, serial number, vendor id, originator serial number, packet intervals and application data of 2*k bytes, fields in wire order, consuming exactly 26+2k (10+2k) bytes.", "quantifier": "all field values, all application data, all trailing bytes", "why_tests_cant": "Field space is 2^208 and more.", "anchors": ["include/odva_ethernetip/forward_open_success.h: ForwardOpenSuccess::deserialize", "include/odva_ethernetip/forward_close_success.h: ForwardCloseSuccess::deserialize"]}
{"id": "C24", "title": "RR data replies are accepted only with a null address item and an unconnected message item", "statement": "Parsing RR data succeeds only if there are at least two items, the first has type 0 and no data, and the second has type 0x00B2; otherwise it throws std::logic_error (or std::length_error when the bytes run out).", "quantifier": "all byte strings", "why_tests_cant": "All item layouts.", "anchors": ["src/rr_data.cpp: RRData::deserialize"]}
{"id": "C25", "title": "Opening a session sends the standard registration request and nothing else", "statement": "Session::open opens the control socket then the IO socket with the given host and ports, sends exactly one message on the control socket, the 28-byte register-session request (command 0x65, length 4, handle 0, version 1, options 0), and receives exactly once.", "quantifier": "all hosts, ports, prior session states and socket behaviours", "why_tests_cant": "All socket failure points.", "anchors": ["src/session.cpp: Session::open, sendCommand", "include/odva_ethernetip/register_session_data.h"]}
{"id": "C26", "title": "A successful open adopts the non-zero session handle from the reply", "statement": "If open returns normally, getSessionID() is non-zero and equals the session handle in the bytes received, whose command field is 0x65 and whose version, if four or more payload bytes were given, is 1.", "quantifier": "all replies, all socket behaviours, all prior states", "why_tests_cant": "All replies.", "anchors": ["src/session.cpp: Session::open, check_packet"]}
{"id": "C27", "title": "A rejected registration closes both sockets and opens no session", "statement": "If the sockets work but the reply is too short, has the wrong command, a zero handle, a handle other than the current session, or a wrong protocol version, open throws std::runtime_error, both sockets have been closed and getSessionID() is unchanged (0 if the session was not open).", "quantifier": "all invalid replies, all prior states", "why_tests_cant": "All invalid replies.", "anchors": ["src/session.cpp: Session::open, sendCommand, check_packet"]}
{"id": "C28", "title": "Open has exactly one outcome for every reply", "statement": "With working sockets the outcome of open on a fresh session is determined by the reply alone, and is success exactly when the reply holds a complete frame with command 0x65, non-zero handle, non-empty payload, and (payload shorter than 4 bytes or version 1).", "quantifier": "all replies up to the 4096-byte receive buffer", "why_tests_cant": "Exact acceptance set over all byte strings.", "anchors": ["src/session.cpp: Session::open"]}
{"id": "C29", "title": "Open survives every reply", "statement": "Whatever bytes the device answers, open either returns or throws a C++ exception; it never has undefined behaviour.", "quantifier": "all replies", "why_tests_cant": "The crash needs a registration reply with an empty payload; not in the test suite.", "anchors": ["src/session.cpp: Session::open", "src/encap_packet.cpp: EncapPacket::getPayloadAs"]}
{"id": "C30", "title": "A failed open leaves no socket open", "statement": "If open throws, both sockets have been closed (or were never opened).", "quantifier": "all failure causes, including socket errors while sending and receiving", "why_tests_cant": "Crash-point quantification over every socket call.", "anchors": ["src/session.cpp: Session::open"]}
{"id": "C31", "title": "A failed open leaves the session closed", "statement": "If open throws, getSessionID() is 0 afterwards.", "quantifier": "all failure causes and all prior states, including re-opening an open session", "why_tests_cant": "History-dependent.", "anchors": ["src/session.cpp: Session::open, check_packet"]}
{"id": "C32", "title": "Every request carries the current session handle", "statement": "Every message sent on the control socket by getSingleAttribute, setSingleAttribute, createConnection and closeConnection is a send-RR-data frame (0x6F) whose handle is getSessionID(), with zero status, context and options; close sends an unregister frame (0x66) with that handle and no payload.", "quantifier": "all operation histories and all socket behaviours", "why_tests_cant": "Histories.", "anchors": ["src/session.cpp: Session::sendRRDataCommand, close", "include/odva_ethernetip/encap_packet.h"]}
{"id": "C33", "title": "Replies for another session or command are never accepted", "statement": "On an open session, a command that returns normally received a frame with command 0x6F and a handle equal to getSessionID(); any other reply makes the command throw std::runtime_error.", "quantifier": "all replies, all sessions", "why_tests_cant": "All replies.", "anchors": ["src/session.cpp: Session::check_packet, sendCommand, sendRRDataCommand"]}
{"id": "C34", "title": "A command on a session that is not open fails", "statement": "While no session is registered, attribute access and connection management throw instead of succeeding.", "quantifier": "all replies", "why_tests_cant": "Depends on adversarial replies.", "anchors": ["src/session.cpp: Session::check_packet, sendRRDataCommand"]}
{"id": "C35", "title": "A non-zero CIP general status is always reported", "statement": "If a reply carries a non-zero general status, the command throws std::runtime_error and has no other effect on session id or connection list; it never returns a value.", "quantifier": "all replies with non-zero general status, all commands", "why_tests_cant": "255 status codes times all payloads.", "anchors": ["src/session.cpp: Session::sendRRDataCommand"]}
{"id": "C36", "title": "A non-zero encapsulation status is reported as a failure", "statement": "If the encapsulation header of a reply has a non-zero status, the command throws.", "quantifier": "all replies with non-zero encapsulation status", "why_tests_cant": "2^32-1 status values.", "anchors": ["src/session.cpp: Session::check_packet"]}
{"id": "C37", "title": "A reply to a different service is rejected", "statement": "A command only succeeds on a reply whose service code is the request's service code with the reply bit set.", "quantifier": "all replies", "why_tests_cant": "All service codes.", "anchors": ["src/session.cpp: Session::sendRRDataCommand"]}
{"id": "C38", "title": "Reading an attribute returns what the device sent", "statement": "For every class, instance and attribute id, getSingleAttribute sends the get-attribute-single request for exactly that path and, when the device answers with a good reply carrying data d, deserializes exactly d into the result; for a 32-bit attribute it returns the little-endian value of d's first four bytes.", "quantifier": "all ids, all good replies fitting the receive buffer", "why_tests_cant": "All ids and values.", "anchors": ["src/session.cpp: Session::getSingleAttributeSerializable, sendRRDataCommand", "include/odva_ethernetip/session.h: Session::getSingleAttribute"]}
{"id": "C39", "title": "Writing an attribute sends exactly the value", "statement": "For every path and every value, setSingleAttribute sends the set-attribute-single request (0x10) for that path followed by exactly the value's serialized bytes, and succeeds on every good reply with status 0.", "quantifier": "all ids, all data whose size fits 16-bit lengths, all good replies", "why_tests_cant": "All values.", "anchors": ["src/session.cpp: Session::setSingleAttributeSerializable"]}
{"id": "C40", "title": "Attribute access and connection setup survive every reply", "statement": "Whatever bytes the device answers, the commands either return or throw; they never have undefined behaviour.", "quantifier": "all replies, all commands", "why_tests_cant": "Crash needs an empty payload, an empty unconnected item or an empty response-data section.", "anchors": ["src/session.cpp: Session::sendRRDataCommand, getSingleAttributeSerializable, createConnection, closeConnection", "include/odva_ethernetip/rr_data_response.h: getResponseDataAs"]}
{"id": "C41", "title": "createConnection adds exactly one connection at the end or changes nothing", "statement": "If createConnection returns i then the connection list is the old list with one connection appended at position i; if it throws, the connection list and the session id are unchanged.", "quantifier": "all histories (of fewer than 2^31 open connections), replies and socket behaviours", "why_tests_cant": "All failure points.", "anchors": ["src/session.cpp: Session::createConnection"]}
{"id": "C42", "title": "closeConnection removes exactly the named connection or changes nothing", "statement": "If closeConnection(n) returns, the connection at position n has been removed and all others are kept in order; if it throws, the connection list is unchanged.", "quantifier": "all n in range, all histories, replies and socket behaviours", "why_tests_cant": "All failure points.", "anchors": ["src/session.cpp: Session::closeConnection"]}
{"id": "C43", "title": "Connection numbers stay valid", "statement": "A number returned by createConnection keeps naming the same connection until that connection is closed.", "quantifier": "all histories of creates and closes", "why_tests_cant": "History-quantified.", "anchors": ["src/session.cpp: Session::createConnection, closeConnection", "include/odva_ethernetip/session.h: Session::getConnection"]}
{"id": "C44", "title": "closeConnection and getConnection reject bad numbers", "statement": "Passing a connection number that does not name a connection makes closeConnection throw without undefined behaviour.", "quantifier": "all numbers out of range", "why_tests_cant": "UB is not observable by tests.", "anchors": ["src/session.cpp: Session::closeConnection", "include/odva_ethernetip/session.h: Session::getConnection"]}
{"id": "C45", "title": "Connection serial numbers are never reused early", "statement": "In any history with at most 65536 connection attempts, no two forward open requests sent by the session carry the same connection serial number, whether or not the attempts succeeded; hence all connections in the list have distinct serial numbers.", "quantifier": "all histories with at most 2^16 creation attempts, all starting values", "why_tests_cant": "Wrap-around after 65536 attempts with any start.", "anchors": ["src/session.cpp: Session::Session, createConnection"]}
{"id": "C46", "title": "Requested connection ids are distinct", "statement": "In any history with at most 2^31 connection attempts, all originator-to-target and target-to-originator connection ids proposed in forward open requests are pairwise distinct.", "quantifier": "all histories with at most 2^31 attempts, all starting values", "why_tests_cant": "2^31 attempts.", "anchors": ["src/session.cpp: Session::createConnection"]}
{"id": "C47", "title": "The forward open request describes the requested connection", "statement": "createConnection sends a large forward open (service 0x5B to class 6 instance 1) carrying the session's vendor id and serial number, the connection's serial number and ids, the requested packet intervals, sizes, fixed-size O->T / variable-size T->O scheduled point-to-point parameters, and the path to assembly class 4 instance 1 with both connection points, exactly as laid out by the protocol.", "quantifier": "all connection parameters, vendor ids, serial numbers and counters", "why_tests_cant": "All parameter values.", "anchors": ["src/connection.cpp: Connection::Connection, setConnectionPoints, createForwardOpenRequest", "src/session.cpp: Session::createConnection"]}
{"id": "C48", "title": "The forward close request names the connection that was opened", "statement": "closeConnection(n) sends a forward close (service 0x4E to class 6 instance 1) carrying the same connection serial number, vendor id and originator serial number that the forward open request of that connection carried.", "quantifier": "all histories, all connections in the list", "why_tests_cant": "History-quantified.", "anchors": ["src/connection.cpp: Connection::createForwardCloseRequest", "src/session.cpp: Session::closeConnection"]}
{"id": "C49", "title": "A forward open reply for another connection is refused", "statement": "createConnection only succeeds if the reply repeats the request's connection serial number, vendor id and originator serial number; otherwise it throws std::logic_error and adds nothing. On success the stored connection ids and actual packet intervals are those of the reply.", "quantifier": "all replies", "why_tests_cant": "All replies.", "anchors": ["src/connection.cpp: Connection::verifyForwardOpenResult", "src/session.cpp: Session::createConnection"]}
{"id": "C50", "title": "A forward close reply for another connection is refused", "statement": "closeConnection only removes the connection if the reply repeats its serial number, vendor id and originator serial number; otherwise it throws std::logic_error.", "quantifier": "all replies", "why_tests_cant": "All replies.", "anchors": ["src/connection.cpp: Connection::verifyForwardCloseResult", "src/session.cpp: Session::closeConnection"]}
{"id": "C51", "title": "Closing a session unregisters it and closes both sockets", "statement": "If close returns, exactly one unregister-session message with the session's handle was sent on the control socket, then both sockets were closed, and getSessionID() is 0.", "quantifier": "all states and socket behaviours", "why_tests_cant": "All failure points.", "anchors": ["src/session.cpp: Session::close"]}
{"id": "C52", "title": "A failed close can be retried", "statement": "If close throws because of a socket error, getSessionID() is unchanged, so close can be called again and the destructor will try again.", "quantifier": "all socket failure points", "why_tests_cant": "Crash points.", "anchors": ["src/session.cpp: Session::close, ~Session"]}
{"id": "C53", "title": "The destructor never throws and unregisters exactly the open sessions", "statement": "Destroying a session never throws; it attempts to send the unregister message if and only if getSessionID() is non-zero, and touches no socket otherwise.", "quantifier": "all histories and socket behaviours", "why_tests_cant": "Histories and failure points.", "anchors": ["src/session.cpp: Session::~Session"]}
{"id": "C54", "title": "Closing a session closes its connections", "statement": "After close returns, no connection of the old session remains in the connection list.", "quantifier": "all histories", "why_tests_cant": "Histories.", "anchors": ["src/session.cpp: Session::close"]}
{"id": "C55", "title": "Each command is one request and at most one receive", "statement": "Each attribute or connection command performs on the control socket at most one send followed by at most one receive, never retries, never closes sockets, and does not touch the IO socket; receiveIOPacket and sendIOPacket touch only the IO socket.", "quantifier": "all commands, states, replies and socket behaviours", "why_tests_cant": "Trace property over all behaviours.", "anchors": ["src/session.cpp: Session::sendCommand, receiveIOPacket, sendIOPacket"]}
{"id": "C56", "title": "Commands change only what they must", "statement": "Attribute access and IO never change the session id, the connection list, the identity of the originator or the connection counters; createConnection and closeConnection never change the session id; vendor id and serial number never change.", "quantifier": "all histories", "why_tests_cant": "Frame property over histories.", "anchors": ["src/session.cpp", "include/odva_ethernetip/session.h"]}
{"id": "C57", "title": "Old receive-buffer contents never leak into a result", "statement": "The outcome of every command, of receiveIOPacket and of open depends only on the bytes received by this call, not on bytes left in the receive buffer by earlier calls.", "quantifier": "all previous buffer contents, all replies shorter than the previous ones", "why_tests_cant": "Two-run property.", "anchors": ["src/session.cpp: Session::sendCommand, receiveIOPacket"]}
{"id": "C58", "title": "Receiving an IO packet yields the datagram's items", "statement": "receiveIOPacket returns exactly the CPF items encoded in the received datagram, and throws std::length_error if the datagram is truncated.", "quantifier": "all datagrams up to 4096 bytes", "why_tests_cant": "All datagrams.", "anchors": ["src/session.cpp: Session::receiveIOPacket"]}
{"id": "C59", "title": "A received IO packet keeps its contents", "statement": "The items of a packet returned by receiveIOPacket keep their data bytes for as long as the caller keeps the packet.", "quantifier": "all later operations on the session", "why_tests_cant": "Aliasing; a test that checks the packet at once cannot see it.", "anchors": ["src/session.cpp: Session::receiveIOPacket", "include/odva_ethernetip/serialization/serializable_buffer.h: SerializableBuffer::deserialize", "include/odva_ethernetip/serialization/buffer_reader.h: readBuffer(size_t)"]}
{"id": "C60", "title": "Sending an IO packet puts exactly its encoding on the wire", "statement": "sendIOPacket sends one datagram on the IO socket whose bytes are the packet's encoding, from which the items can be parsed back.", "quantifier": "all packets within 16-bit item sizes and counts", "why_tests_cant": "All packets.", "anchors": ["src/session.cpp: Session::sendIOPacket", "include/odva_ethernetip/socket/socket.h: Socket::send"]}
{"id": "C61", "title": "Oversized requests are never put on the wire malformed", "statement": "If a payload does not fit the 16-bit length fields of the protocol, sending it throws; a frame whose length fields disagree with its contents is never sent.", "quantifier": "all payload sizes", "why_tests_cant": "Needs payloads of 64 KiB and more.", "anchors": ["include/odva_ethernetip/encap_packet.h: EncapPacket::updateLength", "include/odva_ethernetip/cpf_item.h: CPFItem::getDataLength", "src/rr_data.cpp: RRData::serialize", "include/odva_ethernetip/socket/socket.h: Socket::send"]}
{"id": "C62", "title": "The list-identity request is the standard 24-byte datagram", "statement": "The scanner sends exactly one datagram: a 24-byte encapsulation header with command 0x63 and all other fields zero.", "quantifier": "all hostnames and socket behaviours", "why_tests_cant": "Fixed output; included as the protocol contract.", "anchors": ["src/io_scanner.cpp: IOScanner::sendListIdentityRequest"]}
{"id": "C63", "title": "The scanner never lets an exception escape and prints only valid identities", "statement": "For every datagram the response handler neither throws nor has undefined behaviour, and it reports a device only for a complete list-identity reply whose first item is a list-identity item, with the fields of that item.", "quantifier": "all datagrams", "why_tests_cant": "All datagrams.", "anchors": ["src/io_scanner.cpp: IOScanner::handleListIdentityResponse"]}
{"id": "C64", "title": "The scanner keeps listening", "statement": "Running the scanner processes every list-identity response that arrives.", "quantifier": "all sequences of arriving datagrams", "why_tests_cant": "Needs unbounded event histories.", "anchors": ["src/io_scanner.cpp: IOScanner::IOScanner, handleListIdentityResponse, run"]}
{"id": "C65", "title": "Copying a serializable is serialize-then-parse", "statement": "copy_serializable from a raw buffer parses that buffer's bytes, from any other exact-length object parses its serialization, between raw buffers copies the bytes, and from a structured object to a raw buffer throws std::logic_error and changes nothing.", "quantifier": "all sources and destination classes", "why_tests_cant": "Quantifies over classes.", "anchors": ["src/copy_serializable.cpp: copy_serializable"]}
{"id": "C66", "title": "Raw buffers own or borrow memory safely", "statement": "Any sequence of constructing, filling, copying and destroying raw serializable buffers neither frees memory twice nor uses freed memory.", "quantifier": "all operation sequences, buffer and stream readers", "why_tests_cant": "Double free needs a stream-filled buffer that is then copied.", "anchors": ["include/odva_ethernetip/serialization/serializable_buffer.h: SerializableBuffer", "src/copy_serializable.cpp"]}
{"id": "C67", "title": "getPayloadAs yields a usable object", "statement": "After copying a payload into a structured object, the object's raw buffers refer to live memory.", "quantifier": "all payload kinds, all destination classes holding raw buffers", "why_tests_cant": "Dangling pointers are invisible to passing tests.", "anchors": ["src/copy_serializable.cpp: copy_serializable (third branch)"]}
{"id": "C68", "title": "Stream and buffer writers produce the same bytes", "statement": "Serializing any object to a stream produces the same bytes as serializing it to a large enough buffer.", "quantifier": "all objects", "why_tests_cant": "All objects.", "anchors": ["include/odva_ethernetip/serialization/stream_writer.h", "include/odva_ethernetip/serialization/buffer_writer.h"]}
{"id": "C69", "title": "Stream and buffer readers agree on complete input", "statement": "Deserializing from a stream that holds enough bytes gives the same object and position as deserializing from a buffer with those bytes.", "quantifier": "all message types and inputs that are long enough", "why_tests_cant": "All inputs.", "anchors": ["include/odva_ethernetip/serialization/stream_reader.h", "include/odva_ethernetip/serialization/buffer_reader.h"]}
{"id": "C70", "title": "Short streams are reported", "statement": "Deserializing from a stream that ends early throws std::length_error.", "quantifier": "all inputs that are too short", "why_tests_cant": "All truncations.", "anchors": ["include/odva_ethernetip/serialization/stream_reader.h: StreamReader::readBytes, skip"]}
{"id": "C71", "title": "Each caller gets the reply to its own request", "statement": "When commands are issued one at a time and every reply arrives whole, the reply a command parses is the device's answer to that command's own request; this also holds when several threads share the session.", "quantifier": "all sequences of commands; all interleavings of threads", "why_tests_cant": "Schedules.", "anchors": ["src/session.cpp: Session::sendCommand"]}
{"id": "C72", "title": "A reply split by TCP is reassembled or the connection is resynchronised", "statement": "However TCP splits the byte stream of replies, a command either returns its own reply or fails without affecting later commands.", "quantifier": "all segmentations of the reply stream", "why_tests_cant": "All segmentations.", "anchors": ["src/session.cpp: Session::sendCommand", "include/odva_ethernetip/socket/tcp_socket.h: TCPSocket::receive"]}
{"id": "C73", "title": "A partially sent request is detected", "statement": "If the socket accepts fewer bytes of a request than given, the command fails or sends the rest.", "quantifier": "all partial send counts", "why_tests_cant": "Partial sends are load dependent.", "anchors": ["src/session.cpp: Session::sendCommand, close, sendIOPacket", "include/odva_ethernetip/socket/socket.h: Socket::send", "include/odva_ethernetip/socket/tcp_socket.h: TCPSocket::send"]}
{"id": "C74", "title": "The header length field matches the payload", "statement": "After construction with a payload, setPayload or updateLength, the header length field equals the payload's length modulo 65536, and a packet parsed from bytes carries a payload of exactly its length field, or none if it is zero.", "quantifier": "all payloads, all histories of setPayload/updateLength/deserialize on one packet", "why_tests_cant": "Histories.", "anchors": ["include/odva_ethernetip/encap_packet.h: EncapPacket", "src/encap_packet.cpp"]}
{"id": "C75", "title": "Errors reach the caller as documented exception types", "statement": "Errors caused by replies reach callers of the attribute commands as std::runtime_error, errors in connection replies as std::runtime_error or std::logic_error, and socket errors unchanged.", "quantifier": "all replies and socket failures", "why_tests_cant": "All failures.", "anchors": ["src/session.cpp: Session::sendRRDataCommand, getSingleAttributeSerializable, createConnection"]}
{"id": "C76", "title": "Session ids are only acquired by registration and only dropped by close", "statement": "In every history, the session id changes only in a successful open (to the handle of that open's reply) or a successful close or destruction (to 0).", "quantifier": "all operation histories", "why_tests_cant": "Histories.", "anchors": ["src/session.cpp"]}
{"id": "C77", "title": "Copying an open session does not disturb it", "statement": "Destroying a copy of an open session leaves the original usable: its registration and sockets stay open.", "quantifier": "all open sessions", "why_tests_cant": "Object-lifetime property.", "anchors": ["src/session.cpp: Session::~Session", "include/odva_ethernetip/session.h: Session (implicit copy)"]}
{"id": "C78", "title": "The test socket is a faithful byte pipe", "statement": "The library's test socket records the concatenation of everything sent up to 4096 bytes, and returns the scripted receive bytes in order, each receive giving at most the requested number of bytes.", "quantifier": "all sequences of sends and receives", "why_tests_cant": "Histories.", "anchors": ["include/odva_ethernetip/socket/test_socket.h: TestSocket"]}
{"id": "C79", "title": "The wire format does not depend on the host", "statement": "Integers are written least significant byte first on every host.", "quantifier": "little- and big-endian hosts, all values", "why_tests_cant": "Tests run on one host.", "anchors": ["include/odva_ethernetip/serialization/writer.h: Writer::write"]}
{"id": "C80", "title": "A failed parse does not corrupt the object", "statement": "If deserializing into an encapsulation packet, CPF packet or other object throws, the object keeps its previous value.", "quantifier": "all failing inputs, all prior object values", "why_tests_cant": "All failure points.", "anchors": ["src/encap_packet.cpp: EncapPacket::deserialize", "src/cpf_packet.cpp: CPFPacket::deserialize", "src/encap_header.cpp"]}
{"id": "C81", "title": "Clearing the test socket erases what was sent", "statement": "After clearTxBuffer the recorded bytes are gone: the transmit buffer is zeroed and the next send starts at its beginning.", "quantifier": "all prior contents", "why_tests_cant": "A test only sees the bytes it looks at; stale bytes beyond them can satisfy later assertions.", "anchors": ["include/odva_ethernetip/socket/test_socket.h: TestSocket::clearTxBuffer"]}
{"id": "C82", "title": "The IO socket delivers only the device's datagrams", "statement": "A receive on an open UDP socket returns only datagrams that come from the endpoint the socket was opened to.", "quantifier": "all sequences of datagrams from all senders", "why_tests_cant": "Needs hostile or stray senders on the network.", "anchors": ["include/odva_ethernetip/socket/udp_socket.h: UDPSocket::receive"]}
{"id": "C83", "title": "A failed open can be repeated", "statement": "If opening a socket fails, a later open succeeds as soon as the name resolves and the network or the local port is available.", "quantifier": "all failure points of open, all later environments, TCP and UDP", "why_tests_cant": "Failure injection at every system call.", "anchors": ["include/odva_ethernetip/socket/udp_socket.h: UDPSocket::open", "include/odva_ethernetip/socket/tcp_socket.h: TCPSocket::open"]}
{"id": "C84", "title": "A failed open does not redirect traffic", "statement": "If open throws, sends on a socket that was already open keep going where they went before, or fail.", "quantifier": "all prior socket states, all failure points", "why_tests_cant": "Failure injection at every system call.", "anchors": ["include/odva_ethernetip/socket/udp_socket.h: UDPSocket::open, send", "include/odva_ethernetip/socket/tcp_socket.h: TCPSocket::open, send"]}
{"id": "C85", "title": "A sized parse accepts exactly frames of that size", "statement": "Parsing an encapsulation packet with a given length succeeds exactly when the input starts with a packet of that total length; a CPF item exactly when it fits in the length; a header exactly for length 24. Everything else is rejected with length_error.", "quantifier": "all inputs, all lengths, all prior object values", "why_tests_cant": "Unbounded combinations of input, length field and given length.", "anchors": ["src/encap_packet.cpp: EncapPacket::deserialize(Reader&, size_t)", "src/cpf_item.cpp: CPFItem::deserialize(Reader&, size_t)", "include/odva_ethernetip/encap_header.h: EncapHeader::deserialize(Reader&, size_t)"]}
{"id": "C86", "title": "A parsed object reports the length it was parsed from", "statement": "After a successful parse getLength returns the number of bytes the parse consumed.", "quantifier": "all inputs, all prior object values, all classes that can be parsed", "why_tests_cant": "All inputs; the counterexample needs an object used as base class.", "anchors": ["include/odva_ethernetip/rr_data.h: RRData::getLength", "src/message_router_response.cpp: MessageRouterResponse::getLength", "include/odva_ethernetip/forward_open_success.h: getLength", "include/odva_ethernetip/forward_close_success.h: getLength"]}
{"id": "C87", "title": "Any item can be carried with a sequence number", "statement": "A CPF item holding a sequence number followed by the encoding of a T is read through getDataAs into a SequencedDataItem<T> as that sequence number and that T, for every serializable class T of the library.", "quantifier": "all classes T, all values, all sequence numbers", "why_tests_cant": "The interaction of virtual calls, lengths and reader positions has to be right for every T; tests cover one.", "anchors": ["include/odva_ethernetip/sequenced_data_item.h: SequencedDataItem::deserialize", "include/odva_ethernetip/encap_header.h: EncapHeader::deserialize(Reader&, size_t)", "src/message_router_response.cpp: MessageRouterResponse::deserialize", "src/copy_serializable.cpp: copy_serializable"]}
{"id": "C88", "title": "Requests made from a connection object describe it", "statement": "The forward open request created from a connection object carries the object's current field values and its current path; setConnectionPoints replaces the path by class 4, instance 1 and the two points; the forward close request carries the object's numbers and the connection manager path.", "quantifier": "all field values, all sequences of calls on the object and its path", "why_tests_cant": "Unbounded call sequences and field values.", "anchors": ["src/connection.cpp: Connection::setConnectionPoints, createForwardOpenRequest, createForwardCloseRequest", "include/odva_ethernetip/connection.h: Connection::getPath"]}
{"id": "C89", "title": "A forward close request reports its true length", "statement": "getLength of a forward close request equals the number of bytes it writes, whatever path it has been given.", "quantifier": "all field values, all paths with and without the pad flag", "why_tests_cant": "All paths; the counterexample needs the pad flag on a path that is always padded.", "anchors": ["include/odva_ethernetip/forward_close_request.h: ForwardCloseRequest::getLength, serialize", "src/path.cpp: Path::getLength, serialize"]}
{"id": "C90", "title": "The device is asked for the buffer size the caller gave", "statement": "The connection size in the forward open request is the buffer size of the connection info.", "quantifier": "all buffer sizes, both directions", "why_tests_cant": "Sizes from 32768 on behave differently.", "anchors": ["include/odva_ethernetip/forward_open_request.h: ForwardOpenRequest::calcConnectionParams", "src/connection.cpp: Connection::createForwardOpenRequest"]}
{"id": "C91", "title": "With a conforming device the session follows the device's state", "statement": "If the control connection works and leads to a device that answers as the protocol prescribes, every call has the outcome prescribed by the state of the device (reads give the stored value, a written value is read back, refused requests throw runtime_error), no call crashes or throws anything else, and session and device always agree on the session handle and the list of open connections.", "quantifier": "all conforming devices, all sequences of opening, closing, reading, writing, connecting, disconnecting and IO by a user who closes connections before the session and uses valid connection numbers", "why_tests_cant": "Unbounded call sequences against an unbounded family of devices; a refinement claim between two state machines.", "anchors": ["src/session.cpp: open, close, sendRRDataCommand, getSingleAttributeSerializable, setSingleAttributeSerializable, createConnection, closeConnection", "src/connection.cpp: verifyForwardOpenResult, verifyForwardCloseResult"]}
{"id": "C92", "title": "Attributes of every size can be read", "statement": "If the device answers a read with a complete frame as large as the protocol allows, the read returns the attribute.", "quantifier": "all attribute values up to the size the length field allows", "why_tests_cant": "The bound is only visible with replies of more than 4096 bytes.", "anchors": ["src/session.cpp: Session::sendCommand", "include/odva_ethernetip/session.h: recv_buffer_"]}
{"id": "C93", "title": "A stream reader delivers its stream in order and stays failed once it has run dry", "statement": "As long as the stream has what is asked for, calls on a stream reader deliver what the same calls on a buffer deliver and the byte count is the number of bytes asked for; the first call that asks for too much delivers what is left, and after it every call leaves its target alone and the byte count is the largest size_t. A stream writer appends every chunk and counts the bytes.", "quantifier": "all stream contents, all sequences of reads, skips and writes of any sizes", "why_tests_cant": "Unbounded call sequences; tests never exhaust a stream.", "anchors": ["include/odva_ethernetip/serialization/stream_reader.h: StreamReader::readBytes, skip, getByteCount", "include/odva_ethernetip/serialization/stream_writer.h: StreamWriter::writeBytes, getByteCount"]}
{"id": "C94", "title": "Raw buffers free what they allocate", "statement": "When all raw buffers have been destroyed, no memory is left that they allocated.", "quantifier": "all sequences of constructions, copies, assignments, reads from streams and buffers, and destructions", "why_tests_cant": "Leaks do not change any observable result; the counterexample needs an assignment to a buffer that was read from a stream.", "anchors": ["include/odva_ethernetip/serialization/serializable_buffer.h: SerializableBuffer::deserialize, deleteAllocatedBuffer, ~SerializableBuffer", "src/copy_serializable.cpp: copy_serializable"]}
{"id": "C95", "title": "Log messages show the values they are given", "statement": "Every log message shows the values passed to it, whatever the contents of registers and memory that the language leaves open.", "quantifier": "all messages of the library, all values, all contents of unused bits of variadic arguments", "why_tests_cant": "What a wrong conversion specification prints depends on bits no test controls.", "anchors": ["src/session.cpp: CONSOLE_BRIDGE_log* calls", "src/connection.cpp: verifyForwardOpenResult", "src/io_scanner.cpp: CONSOLE_BRIDGE_log* calls"]}
{"id": "C96", "title": "Errors are logged exactly when a call fails", "statement": "A session call logs a message at level error exactly when it throws. Logging changes nothing else.", "quantifier": "all session calls, all sessions, all behaviours of the sockets and all bytes received", "why_tests_cant": "Every failure point of every call.", "anchors": ["src/session.cpp: open, close, sendCommand, check_packet, sendRRDataCommand, createConnection, closeConnection, receiveIOPacket, sendIOPacket"]}
{"id": "C97", "title": "The log says opened and closed exactly when that happened", "statement": "The message that a session was opened, with its id, is logged exactly when open returned normally with that id; the message that the session was closed exactly when it was closed.", "quantifier": "all sessions, all behaviours of the sockets and all bytes received", "why_tests_cant": "Failure injection at every socket call.", "anchors": ["src/session.cpp: Session::open, Session::close"]}
{"id": "C98", "title": "The log of a command tells what was wrong with the reply", "statement": "The messages a command logs are determined by what happened: not sent, no reply, no frame, a frame with the wrong command or handle (with the expected and the received value), data that ends early or has the wrong items (with what is wrong with them), a message too short to be a response, a reply with a non-zero status; and one warning for each oddity of the reply (bytes left over, non-zero header fields, more items, other service code).", "quantifier": "all commands, all sessions, all bytes received", "why_tests_cant": "Unbounded combinations of reply contents.", "anchors": ["src/session.cpp: sendCommand, check_packet, sendRRDataCommand", "src/rr_data.cpp: RRData::deserialize"]}
{"id": "C99", "title": "The library does not write to the standard output", "statement": "No session call writes to the standard output.", "quantifier": "all session calls, all sessions, all behaviours of the sockets and all bytes received", "why_tests_cant": "All code paths.", "anchors": ["src/connection.cpp: Connection::verifyForwardCloseResult", "src/session.cpp"]}
{"id": "C100", "title": "Replaced connection ids are logged", "statement": "When the device confirms a connection, the log names each connection id the device replaced, with the old and the new value, and no other; when the device answers about another connection, that is logged as an error and no replacement is logged.", "quantifier": "all sessions, all connection parameters, all replies", "why_tests_cant": "All combinations of replaced ids and counters.", "anchors": ["src/connection.cpp: Connection::verifyForwardOpenResult", "src/session.cpp: Session::createConnection"]}
{"id": "C101", "title": "A closed socket carries nothing", "statement": "After close, and until it is opened again, a socket throws on send and receive and sends nothing; what had arrived before the close is never received, not even after opening again.", "quantifier": "all sockets, all sequences of calls and arrivals after a close", "why_tests_cant": "Unbounded call sequences interleaved with arrivals.", "anchors": ["include/odva_ethernetip/socket/udp_socket.h: close, send, receive", "include/odva_ethernetip/socket/tcp_socket.h: close, send, receive"]}
{"id": "C102", "title": "Sessions of one originator name their connections differently", "statement": "Two sessions with the same vendor id and originator serial number never send forward open requests with the same connection serial number.", "quantifier": "all construction times, all histories of both sessions", "why_tests_cant": "Depends on the wall clock and on a random generator.", "anchors": ["src/session.cpp: Session::Session, createConnection", "include/odva_ethernetip/session.h: DEFAULT_VENDOR_ID, DEFAULT_SERIAL_NUM"]}
{"id": "C103", "title": "Items can be read back before they are sent", "statement": "getDataAs gives the same result on an item built by the user as on the item parsed from its bytes.", "quantifier": "all item data, all destination classes", "why_tests_cant": "Quantifies over classes and contents; depends on run-time type tests.", "anchors": ["src/cpf_item.cpp: CPFItem::getDataAs", "src/copy_serializable.cpp: copy_serializable", "include/odva_ethernetip/sequenced_data_item.h"]}
{"id": "C104", "title": "The accessors of a response return what the reply said", "statement": "After a reply has been parsed, getServiceCode, getGeneralStatus, getAdditionalStatus(As) and getResponseData(As) return exactly the fields of the reply, and the pointers are null exactly if the reply has no such field.", "quantifier": "all well-formed replies, all destination classes", "why_tests_cant": "All replies and all destination classes.", "anchors": ["include/odva_ethernetip/rr_data_response.h", "src/message_router_response.cpp: MessageRouterResponse::deserialize"]}
{"id": "C105", "title": "Classes that go one way refuse the other way and change nothing", "statement": "Serializing a class that is only received, or parsing a class that is only sent, throws std::logic_error and leaves object, reader and writer unchanged.", "quantifier": "all objects, readers and writers", "why_tests_cant": "All inputs.", "anchors": ["include/odva_ethernetip/path.h", "include/odva_ethernetip/message_router_request.h", "include/odva_ethernetip/message_router_response.h", "include/odva_ethernetip/forward_open_request.h", "include/odva_ethernetip/forward_open_success.h", "include/odva_ethernetip/forward_close_request.h", "include/odva_ethernetip/forward_close_success.h", "include/odva_ethernetip/rr_data_request.h", "include/odva_ethernetip/rr_data_response.h"]}
{"id": "C106", "title": "Parsing a raw buffer fills it with the next bytes, or throws", "statement": "Deserializing a SerializableBuffer takes exactly its size (or the given length) of bytes from the reader, in order; if there are fewer, it throws and keeps its bytes.", "quantifier": "all buffers, sizes and readers", "why_tests_cant": "All sizes and contents, two kinds of reader.", "anchors": ["include/odva_ethernetip/serialization/serializable_buffer.h: deserialize", "include/odva_ethernetip/serialization/stream_reader.h"]}
{"id": "C107", "title": "The scanner's log tells what came of every arrival", "statement": "For every arrival the log of the list identity scanner contains the warnings the datagram deserves (bytes after the frame, non-zero handle, status, context or options, more than one item), and then either the identity of the device or exactly one error. (False for datagrams that are undefined behaviour, and for datagrams that are cut off: the complaint about those is only printed.)", "quantifier": "for all datagrams and other arrivals, environments, states of the scanner and earlier logs", "why_tests_cant": "A test looks at the log of a few replies; which messages follow which datagram is a statement about all byte strings.", "anchors": ["src/io_scanner.cpp: IOScanner::sendListIdentityRequest, handleListIdentityResponse, run"]}
{"id": "C108", "title": "Opening, closing and I/O log exactly what happened", "statement": "The messages of open, close, the destructor, receiveIOPacket and sendIOPacket are determined by which socket calls fail and by the bytes received: the steps reached, the number of bytes received, the warnings the reply deserves and then the outcome (the session id, the two protocol versions, why the reply was refused or could not be parsed). The reason for a refused reply is missing exactly if closing the sockets fails as well.", "quantifier": "for all sessions, hosts, ports, environments, replies and earlier logs", "why_tests_cant": "Needs all combinations of failing calls and all replies, malformed ones included.", "anchors": ["src/session.cpp: Session::open, close, ~Session, receiveIOPacket, sendIOPacket"]}
{"id": "C109", "title": "A session can be opened again after a failed open", "statement": "After an open that failed, a later open of the same session succeeds as soon as nothing stands in its way any more. (False: if the I/O socket was left open, because the local port was in use or because the registration exchange failed on the socket, every further open throws until close has succeeded.)", "quantifier": "for all states of the two sockets, name servers, histories of calls and of arrivals", "why_tests_cant": "Needs a session on real sockets, failures at every step, and histories of any length after them.", "anchors": ["src/session.cpp: Session::open, close", "include/odva_ethernetip/socket/tcp_socket.h", "include/odva_ethernetip/socket/udp_socket.h: open, close"]}
{"id": "C110", "title": "A session talks to the device it was opened to", "statement": "All bytes and datagrams sent by a registered session go to the host and ports of the last open that returned normally. (False: an open of a session that is already open throws, but both sockets may then lead to the second device, while the handle is that of the first.)", "quantifier": "for all histories of calls and arrivals, name servers and answers of the system", "why_tests_cant": "Needs two devices, and all histories of calls.", "anchors": ["src/session.cpp: Session::open, sendCommand, sendIOPacket", "include/odva_ethernetip/socket/tcp_socket.h: open, send", "include/odva_ethernetip/socket/udp_socket.h: open, send"]}
{"id": "C111", "title": "Nothing that arrived before the connection was made is taken for an answer", "statement": "What is received over the control socket is a prefix of the bytes that arrived after the connection was made, and what is received over the I/O socket are the first datagrams that arrived after it was opened, in order, until it is closed; in particular the handle adopted by a successful open was sent over the new connection.", "quantifier": "for all sequences of calls, arrivals, failures and partial deliveries", "why_tests_cant": "Arrivals can be interleaved with the calls in any way, and can be cut into pieces of any size.", "anchors": ["src/session.cpp: Session::open, sendCommand, receiveIOPacket", "include/odva_ethernetip/socket/tcp_socket.h: open, receive", "include/odva_ethernetip/socket/udp_socket.h: open, receive, close"]}
{"id": "C112", "title": "A new session starts at the numbers of a generator seeded with the time", "statement": "The first connection of a session proposes the first output of mt19937, seeded with the time of construction, and the number after it as connection ids; its serial number is the upper half of the second output, its originator the one given to the constructor or 0x1234 and 0x6789. The constructor logs exactly these two numbers.", "quantifier": "for all times of construction, originators, calls before the first connection, environments and connection parameters", "why_tests_cant": "All times and all histories before the first connection; a test sees one time.", "anchors": ["src/session.cpp: Session::Session, createConnection", "include/odva_ethernetip/session.h: DEFAULT_VENDOR_ID, DEFAULT_SERIAL_NUM"]}
{"id": "C113", "title": "What a session does depends only on how its socket calls went", "statement": "Until a call of a session returns or throws, its next socket call is determined by the state of the session at the beginning and by what was seen of the socket calls since then, and so are the result and the state at the end. Two histories of the same calls on equal sessions are equal up to the first socket call that was answered differently. Against any party that reacts to what the session does there is exactly one run.", "quantifier": "for all functions of a session, histories of calls, sessions, and answers, chosen beforehand or in reaction", "why_tests_cant": "A statement about pairs of runs (no hidden input such as a clock, a random number or uninitialised memory), over all environments.", "anchors": ["src/session.cpp: Session::open, close, sendCommand, sendRRDataCommand, createConnection, closeConnection, receiveIOPacket, sendIOPacket", "include/odva_ethernetip/session.h"]}
{"id": "C114", "title": "Which outcomes of socket calls a session must be prepared for", "statement": "On the library's own sockets, starting from new ones, the outcomes of the socket calls follow simple rules: opening needs a name that resolves, the I/O socket can be opened only while closed, sending and receiving work only on a connected or open socket, a receive on the control socket delivers at least one byte, closing can report an error only for an open socket and closes it all the same; and conversely every sequence of outcomes that follows these rules occurs on some network. In particular the reply to a command can be any one to 4096 bytes.", "quantifier": "for all sequences of socket calls and outcomes, all histories of calls on a session, all networks", "why_tests_cant": "Both directions quantify over networks: that nothing else happens, and that each permitted outcome does.", "anchors": ["include/odva_ethernetip/socket/tcp_socket.h", "include/odva_ethernetip/socket/udp_socket.h", "src/session.cpp: Session::open, close, sendCommand, receiveIOPacket, sendIOPacket"]}
{"id": "C115", "title": "The headers of the library can be included in any combination", "statement": "A program that includes any headers of the library, in any order and any number of times, sees everything they declare, each declaration once and after everything it uses. (False: register_session_data.h and identity_item_data.h have the same include guard; whichever comes second declares nothing.)", "quantifier": "for all lists of headers, with repetitions, and all macros defined before that are not guards of the library", "why_tests_cant": "A compile-time matter: the project's tests include each of the two headers, but never both in one file; there are infinitely many lists of headers.", "anchors": ["include/odva_ethernetip/register_session_data.h", "include/odva_ethernetip/identity_item_data.h", "include/odva_ethernetip/session.h", "include/odva_ethernetip/rr_data_response.h", "src/io_scanner.cpp", "src/session.cpp"]}
{"id": "C116", "title": "A call comes back although the device is silent", "statement": "Every call of a session comes back after finitely many steps, with an exception if need be, even if nothing ever arrives from the device. (False: there are no time limits; open, every command and receiveIOPacket wait until something arrives or a socket call fails.) Closing, sending I/O data and the destructor never wait, and a call waits at most once: when something arrives, it comes back.", "quantifier": "for all states of the sockets, sessions, calls, arguments and answers of the system", "why_tests_cant": "That something never happens cannot be observed by a test; the waiting point has to be shown for every call.", "anchors": ["src/session.cpp: Session::open, sendCommand, receiveIOPacket, close", "include/odva_ethernetip/socket/tcp_socket.h: receive", "include/odva_ethernetip/socket/udp_socket.h: receive"]}
{"id": "C117", "title": "Raw buffers show the bytes they were given", "statement": "After constructing, copying, assigning, setting or reading into a raw buffer (SerializableBuffer), the memory it refers to holds exactly the bytes given: the memory handed over, the bytes of the copied buffer, the first n bytes a BufferReader had left, or what a stream provided with the rest of the destination as it was; reading from a BufferReader with too few bytes throws length_error and changes nothing; a raw buffer that exists always refers to as many live bytes as it reports.", "quantifier": "All histories of any length of allocating and freeing memory and of every operation of raw buffers, by a user who observes the rules of C66; all contents, lengths and offsets.", "why_tests_cant": "Whether the bytes are right depends on which memory is shared, owned or already freed after the whole history, not on one call.", "anchors": ["include/odva_ethernetip/serialization/serializable_buffer.h: SerializableBuffer::setData, deserialize, operator=", "include/odva_ethernetip/serialization/buffer_reader.h: BufferReader::readBuffer", "include/odva_ethernetip/serialization/stream_reader.h: StreamReader::readBuffer"]}
{"id": "C118", "title": "Working on one raw buffer leaves other raw buffers and lent memory alone", "statement": "No operation on one raw buffer changes the bytes another raw buffer shows, or memory the user has lent to raw buffers.", "quantifier": "All histories of any length by a user who observes the rules of C66, all operations, all other raw buffers and all lent memory.", "why_tests_cant": "Sharing of memory arises by copies, by references handed over and by coincidence of lengths; tests look at one buffer at a time.", "anchors": ["include/odva_ethernetip/serialization/serializable_buffer.h: SerializableBuffer::deserialize, operator=, implicit copy"]}
{"id": "C119", "title": "A stream writer reports what the stream did not take", "statement": "Writing an object to an output stream (StreamWriter) either puts all its bytes there or throws, as writer.h documents, and getByteCount is the number of bytes written through the writer. (False: ostream::write sets badbit and returns, so a stream that is full cuts the object off silently; the count is the position in the stream, and the largest size_t after a failure.) The stream always holds the bytes written to it in order, without a gap, up to the point where it was full.", "quantifier": "for all sequences of objects, streams with any contents, any room and any state", "why_tests_cant": "Failing streams are not tested at all; needs all objects and all points of failure.", "anchors": ["include/odva_ethernetip/serialization/stream_writer.h: StreamWriter", "include/odva_ethernetip/serialization/writer.h: Writer", "all serialize functions"]}
{"id": "C120", "title": "Packets that share a payload do not disturb one another", "statement": "Encapsulation and CPF packets hold pointers to their payloads, and copies share them. Working on one packet (copying, assigning, setting the payload, parsing, updating the length) never changes any other packet or any existing object, and does to the packet itself what it does to a packet that shares nothing; and every packet's length field is right. (The last part is false when the shared object changes its size: the packet and all copies take the new payload and keep the old length field, and updateLength repairs one of them only.)", "quantifier": "for all programs of any length with any number of packets, copies and objects, and all inputs parsed", "why_tests_cant": "Sharing arises from the history of copies and assignments; tests look at one packet at a time.", "anchors": ["include/odva_ethernetip/encap_packet.h: EncapPacket, setPayload, updateLength", "src/encap_packet.cpp: EncapPacket::deserialize", "include/odva_ethernetip/cpf_item.h", "src/cpf_item.cpp", "src/cpf_packet.cpp"]}
{"id": "C121", "title": "Nothing depends on uninitialised memory", "statement": "Several classes have no constructor for their members, or one that leaves some out (Connection, ForwardOpenRequest, ForwardCloseRequest, ForwardOpenSuccess, ForwardCloseSuccess, IdentityItemData, primitives). Whatever the memory contained in which such objects are built, sessions and scanners send, return, throw, keep and report the same. (False for objects a user builds: the forward open request of a new Connection has five fields from the memory, new identities and requests all their fields.)", "quantifier": "for all contents of the memory, all histories of calls and all answers of the network", "why_tests_cant": "Memory happens to be zero in tests; that every member is overwritten on every path, or an exception leaves, needs all paths.", "anchors": ["include/odva_ethernetip/connection.h", "src/connection.cpp: Connection::Connection, createForwardOpenRequest, createForwardCloseRequest", "src/session.cpp: Session::createConnection, closeConnection", "include/odva_ethernetip/session.h: getSingleAttribute", "src/io_scanner.cpp: IOScanner::handleListIdentityResponse", "include/odva_ethernetip/forward_open_request.h", "include/odva_ethernetip/forward_open_success.h", "include/odva_ethernetip/identity_item_data.h"]}
{"id": "C122", "title": "A close that failed can be repeated on the library's sockets", "statement": "If close throws, a later close of the same session succeeds as soon as nothing stands in its way any more. (False: if closing one of the sockets reports an error, the session keeps its id but its control socket is closed, so every further close throws before it sends anything; and open throws too, because the I/O socket is still open or because the device gives another session id.)", "quantifier": "for all states of the two sockets, all histories of calls and arrivals after the failed close", "why_tests_cant": "Needs an operating system that reports an error on close, and histories of any length after it.", "anchors": ["src/session.cpp: Session::close, open", "include/odva_ethernetip/socket/tcp_socket.h: close, send", "include/odva_ethernetip/socket/udp_socket.h: close, open"]}
{"id": "C123", "title": "Threads that share a session do not disturb one another's transfers", "statement": "When several threads read and write attributes and receive and send I/O data on one session, every call ends with the result that it would have had alone, given the same answers to its own socket calls. (False: all calls receive into the one recv_buffer_ and parse it after the socket call, so a datagram received by one thread at that moment destroys the reply another one is about to parse, and vice versa. What holds is that the rest of the session does not matter: the result is the one the call has alone on what is left of its bytes.)", "quantifier": "for all numbers of calls of all kinds except open and close, all orders in which the threads do the pieces between socket calls, all answers", "why_tests_cant": "Needs all schedules; a test runs into the bad moment by luck, if at all.", "anchors": ["src/session.cpp: Session::sendCommand, sendRRDataCommand, receiveIOPacket, sendIOPacket", "include/odva_ethernetip/session.h: recv_buffer_, getSingleAttribute, setSingleAttribute"]}
{"id": "C124", "title": "Connections can be created and closed while other threads use the session", "statement": "A call that creates, closes or looks up a connection ends with the result and the effect on the session that it has alone, given the same answers, whatever other threads do meanwhile. (False: closeConnection looks up the connection by its index once before and once after the exchange; if another thread closes a connection with a smaller index in between, the second look is out of range, or compares the reply with another connection, so that a closed connection stays on the list. It holds, up to C123, if the others transfer data only.)", "quantifier": "for all numbers of calls, all orders in which the threads do the pieces between socket calls, all states of the session, all answers", "why_tests_cant": "Needs all schedules and all states of the list of connections.", "anchors": ["src/session.cpp: Session::createConnection, closeConnection, getConnection", "include/odva_ethernetip/session.h: connections_, next_connection_id_, next_connection_sn_"]}
{"id": "C125", "title": "What a test on TestSockets shows happens on the library's sockets too", "statement": "A test that runs a session on two TestSockets (scripting what it receives, comparing what it has sent) has exactly one course; the sockets record what the session sends and hand out the script; and what it shows is what a session does on TCPSocket and UDPSocket when a device sends the scripted bytes. (The last part is false of tests that use a session that was never opened, or open it twice: they pass on TestSockets, while on the library's sockets the call always throws. It holds of tests that open before use, do not open twice and whose scripts do not run out.)", "quantifier": "for all sessions, all contents of the sockets, all sequences of calls of any length with any scripts and clears between them", "why_tests_cant": "It is a statement about what tests with the fake can show at all.", "anchors": ["include/odva_ethernetip/socket/test_socket.h: TestSocket", "src/session.cpp: all functions that use the sockets", "include/odva_ethernetip/socket/tcp_socket.h", "include/odva_ethernetip/socket/udp_socket.h", "test/session_test.cpp"]}
{"id": "C126", "title": "What the library logs arrives whole and can be read back", "statement": "Numbers in the log are written as their digits: decimal ones without leading zeros, a minus sign before negative ones, hexadecimal ones with exactly eight digits; no two numbers look alike. Every message of every call on a session and of the scanner reaches console_bridge's output handler whole, and the error that is logged for a failing call is passed on at the default level; of a successful access to an attribute only what is odd about the reply is. (False of messages that quote an exception thrown by an object of the user: with more than 982 characters it is cut off.)", "quantifier": "for all numbers, all calls, all sessions, all replies; for all arrivals at the scanner", "why_tests_cant": "Lengths of messages depend on all the texts and numbers that can occur in them; a test sees one message.", "anchors": ["src/session.cpp: all CONSOLE_BRIDGE_log* calls", "src/connection.cpp: Connection::verifyForwardOpenResult", "src/rr_data.cpp", "src/io_scanner.cpp"]}
{"id": "C127", "title": "Several sessions in one program do not disturb one another", "statement": "Sessions with sockets of their own do not notice one another: whatever each session and its device can do alone they can do together, in every order of the socket calls; nothing that is sent to one session arrives at another, and no datagram reaches two sessions. (False of sessions whose I/O sockets are given the same local port: while one has its I/O socket open, every open of the other throws, and goes on throwing after the first has been closed, until the second is closed although it was never open.)", "quantifier": "for any number of sessions, all local endpoints, all devices, all interleavings of all socket calls", "why_tests_cant": "Interference between objects depends on the order of the calls and on what the system shares between them; tests use one session on fake sockets.", "anchors": ["include/odva_ethernetip/socket/udp_socket.h: UDPSocket::UDPSocket, open, close", "include/odva_ethernetip/socket/tcp_socket.h", "src/session.cpp: Session::open, close"]}
{"id": "C128", "title": "Threads may use a session at the same time", "statement": "Two threads may call functions of one session at the same time: no member or socket is used by both while one of them changes it, the calls return what each thread would get alone, and the session ends up with the changes of both. (False: the class takes no lock. Opening, closing and commands race for the control socket with one another, I/O calls with one another and with opening and closing for the I/O socket, commands with receiving I/O data for the receive buffer, and making or closing connections with getConnection for the list; two createConnection calls may send the same connection serial number. True exactly of getConnection while no connection is made or closed, and of sendIOPacket during commands.)", "quantifier": "for all states of the session, all answers of the sockets, all plans of calls of any number of threads and all interleavings of their single accesses", "why_tests_cant": "A data race depends on the scheduling of single memory accesses; a test run almost never shows it, and cannot show its absence.", "anchors": ["include/odva_ethernetip/session.h: Session (members, getConnection)", "src/session.cpp: Session::open, close, sendCommand, createConnection, closeConnection, receiveIOPacket, sendIOPacket"]}
{"id": "C129", "title": "Attributes of the elementary types keep their values", "statement": "For every elementary type the library names (EIP_BOOL, EIP_BYTE, EIP_USINT, EIP_SINT, EIP_WORD, EIP_UINT, EIP_INT, EIP_DWORD, EIP_UDINT, EIP_DINT): setting an attribute sends the value as the protocol writes it (little-endian, two's complement for the signed types, one byte 0 or 1 for EIP_BOOL), distinct values are sent differently, and getting an attribute returns the value the device sent; a reply that is too short throws; the type codes are those of the protocol. (False of EIP_BOOL: the protocol lets a device send any non-zero byte for true, and every byte other than 0 and 1 is copied into a C++ bool, which is undefined behaviour to read.)", "quantifier": "for all ten types, all values, all attributes, all sessions, all replies", "why_tests_cant": "The claim is about every value of every type, and for EIP_BOOL about undefined behaviour that a test run does not show.", "anchors": ["include/odva_ethernetip/eip_types.h", "include/odva_ethernetip/session.h: Session::getSingleAttribute, setSingleAttribute", "include/odva_ethernetip/serialization/serializable_primitive.h"]}
{"id": "C130", "title": "Parsing keeps no more of a message than there is", "statement": "However hostile a message is - whatever lengths and counts it announces - an object that parses it keeps no more bytes of it than have arrived, whether the parse returns or throws; so a peer cannot make the library hold more memory than it sends. A received I/O packet keeps at most 4096 bytes and 1024 items. (False of streams: 24 bytes make a frame keep 65535. False of an identity whose parse fails: 33 bytes make it keep 255. It holds of every class that parses from a buffer, but for these 255 bytes.)", "quantifier": "for all byte strings, all previous contents of the objects, all announced lengths, all outcomes of the parse", "why_tests_cant": "A bound on memory for every possible message; a test measures one.", "anchors": ["src/encap_packet.cpp", "src/cpf_packet.cpp", "src/cpf_item.cpp", "src/message_router_response.cpp", "src/identity_item_data.cpp", "include/odva_ethernetip/serialization/buffer_reader.h", "include/odva_ethernetip/serialization/stream_reader.h", "include/odva_ethernetip/serialization/serializable_buffer.h"]}
{"id": "C131", "title": "A scan finds the devices of the network", "statement": "The scanner is documented to scan a network for devices: every device that hears the request it was told to send is reported, and nothing else is. (False: the socket is never allowed to broadcast, so scanning a broadcast address always throws and sends nothing; whoever sends an identity first is reported, whether asked or not, and then nobody else is heard, so no scan ever reports two devices. It holds for the address of one device on a network where nobody else speaks.)", "quantifier": "for all networks, all host names and addresses, all devices, all mail in any order from anybody", "why_tests_cant": "It depends on the network, on options of the socket and on who speaks first; the scanner has no tests, and its socket cannot be replaced by a fake.", "anchors": ["src/io_scanner.cpp: IOScanner::IOScanner, sendListIdentityRequest, handleListIdentityResponse, run", "include/odva_ethernetip/io_scanner.h: IOScanner, device_endpoint_"]}
{"id": "C132", "title": "A connection obtained from getConnection stays that connection", "statement": "Session::getConnection returns a reference. It keeps showing the connection it was asked for while the session goes on: creating and closing other connections, and every other call, leave it alone. The code violates this, because the reference points into a vector: a connection created when the vector is full moves all of them and leaves every earlier reference dangling, and closing a connection with the same or a smaller number makes the reference show the next connection, or dangle.", "quantifier": "for all sessions, all references handed out, all histories of calls, all answers of the device and all growth policies of the vector", "why_tests_cant": "whether a push_back reallocates depends on the library's growth policy and the history; a test with one or two connections that copies the result sees nothing, and reading a dangling reference usually still shows the old bytes", "anchors": ["include/odva_ethernetip/session.h: Session::getConnection", "include/odva_ethernetip/session.h: Session::connections_", "src/session.cpp: Session::createConnection", "src/session.cpp: Session::closeConnection"]}
{"id": "C133", "title": "Scanners that share an io_service do not disturb one another", "statement": "An IOScanner is given the io_service to work with, so several scanners, at the same time or one after the other, can use the same one. Each of them reports the devices and comes back from run() as it would with a service of its own. The code violates this: run() runs the whole service, so it does not come back while any other scanner waits, and once it has come back the service is stopped and nobody resets it, so every later scan sends its request, returns at once and reports nothing.", "quantifier": "for all services, all histories of making, running and destroying scanners, all networks and all mail in any order", "why_tests_cant": "a test program makes one service, runs one scan and ends; the failure needs a second scan in the same program, and looks like a network without devices", "anchors": ["src/io_scanner.cpp: IOScanner::IOScanner", "src/io_scanner.cpp: IOScanner::run", "src/io_scanner.cpp: IOScanner::handleListIdentityResponse", "include/odva_ethernetip/io_scanner.h: IOScanner::~IOScanner"]}
{"id": "C134", "title": "Cyclic I/O data arrive as sent, and lost, repeated and reordered packets can be told", "statement": "A producer sends values with sendIOPacket, each in a sequenced address item and a sequenced data item with its number. Over a network that loses, repeats and reorders datagrams, a consumer that reads every packet it gets from receiveIOPacket obtains the connection id, the number and the value that were sent together, so it can tell which packets are missing, old or repeated. The code violates this for values of more than 4076 bytes: they are sent, but the consumer's receive buffer cuts the datagram and the call throws.", "quantifier": "for all types of values with any encoding, all sequences of values, all connection ids, all ways to lose, repeat and reorder packets, any number of packets", "why_tests_cant": "a stream of unbounded length with arbitrary loss and reordering over two sessions; a test exchanges a few packets in order through a fake socket", "anchors": ["src/session.cpp: Session::receiveIOPacket", "src/session.cpp: Session::sendIOPacket", "include/odva_ethernetip/sequenced_address_item.h", "include/odva_ethernetip/sequenced_data_item.h", "src/cpf_packet.cpp", "src/cpf_item.cpp: CPFItem::getDataAs"]}
{"id": "C135", "title": "The library does the same on 32-bit and on 64-bit hosts", "statement": "The library computes lengths in size_t, and in places lets them wrap around and converts them to int. Parsing replies and sequenced items, numbering connections and sending I/O packets nevertheless give the same results whether size_t has 32 or 64 bits. The code violates this for well-formed I/O packets whose items share a payload and add up to 4 GiB or more: on a 32-bit host the length wraps around and sending throws length_error.", "quantifier": "for all replies, announced lengths and stream states; all classes of sequenced items; all numbers of connections; all packets of less than 4 GiB", "why_tests_cant": "tests run on one host; the wrap-around happens only for lengths that contradict the data, on failed streams, or for gigantic packets", "anchors": ["src/message_router_response.cpp: MessageRouterResponse::deserialize, readData", "include/odva_ethernetip/sequenced_data_item.h: SequencedDataItem::deserialize", "src/cpf_packet.cpp: CPFPacket::getLength", "include/odva_ethernetip/socket/socket.h: Socket::send", "src/session.cpp: Session::createConnection", "include/odva_ethernetip/serialization/stream_reader.h: StreamReader::getByteCount"]}
{"id": "C136", "title": "A call that runs out of memory leaves the session as if it had not been made, or as if it had been made", "statement": "If an allocation fails, std::bad_alloc comes out of the call. A call of Session that does not run out of memory does exactly what it does otherwise; one that does has made the first few of the socket calls it would have made, and has changed neither the session id nor the list of connections, so that the caller can retry. The destructor never throws. The code violates the stronger claim that session and device agree afterwards: push_back and the log messages allocate after the device has answered, so that a connection or session can be open at the device and unknown to the library, close can throw before it closes the sockets, and open can throw although the session is open.", "quantifier": "for all calls, all worlds, and all ways in which allocations succeed and fail", "why_tests_cant": "tests run with enough memory; each allocation of each call would have to be made to fail", "anchors": ["src/session.cpp: Session::open, close, sendCommand, sendRRDataCommand, createConnection, closeConnection, receiveIOPacket, sendIOPacket, ~Session"]}
{"id": "C137", "title": "A session can be used further after calls that ran out of memory", "statement": "A caller who catches std::bad_alloc and goes on calling the same Session gets an orderly session: over the whole history all forward open requests carry different serial numbers and connection ids, the connections in the list have different serial numbers, what a call sends before it fails carries the current handle, the session id is always one the device gave, and every reply is taken for the request it answers. The code violates the last point: a command that fails to allocate between sending and receiving leaves its reply unread, and the next command takes it for its own, since replies are not matched to requests.", "quantifier": "for all histories of calls, all worlds, and all ways in which allocations succeed and fail in any of the calls", "why_tests_cant": "tests run with enough memory and look at single calls; the damage shows in the call after the failed one", "anchors": ["src/session.cpp: Session::sendCommand, sendRRDataCommand, createConnection, closeConnection, open, close", "include/odva_ethernetip/session.h: Session::next_connection_sn_, next_connection_id_, connections_"]}
{"id": "C138", "title": "A scan that runs out of memory reports devices as a whole or not at all", "statement": "If an allocation fails during a scan, std::bad_alloc leaves run(). Up to then the scan has sent, reported and logged the first part of what it would have, and a scan that does not run out of memory is not changed in any way. A device is reported as a whole or not at all, and the scan goes on with the next. The code violates the last two points: handleListIdentityResponse catches only std::length_error, and each of the lines about a device allocates, so the report can end after any of its lines, and nothing waits for another reply afterwards.", "quantifier": "for all networks, all datagrams, all scanners, and all ways in which allocations succeed and fail", "why_tests_cant": "tests run with enough memory; every allocation of the handler would have to be made to fail", "anchors": ["src/io_scanner.cpp: IOScanner::sendListIdentityRequest, handleListIdentityResponse, run"]}
{"id": "C139", "title": "A command that failed does not spoil the commands after it", "statement": "A device answers every request in order, and the network delivers the answers whole. Whatever has happened to earlier commands, a command that receives something receives the answer to its own request. The code violates this: when the receive of a command fails, its answer stays on its way, the next command takes it, and so on: from then on no command of the session ever gets its own answer, since answers are not matched to requests (the sender context is always 0) and nothing is discarded. A read then returns the value of the attribute read before it, a write the device refuses is reported as done, and no connection can be opened although the device opens them all. Only closing and opening the session again helps.", "quantifier": "for all devices, all histories of commands, all worlds, all failures of socket calls", "why_tests_cant": "the damage shows only in the commands after the failed one and lasts as long as the session; a test socket returns what it is given for each call", "anchors": ["src/session.cpp: Session::sendCommand, sendRRDataCommand, open, close", "include/odva_ethernetip/session.h: Session::check_packet"]}
