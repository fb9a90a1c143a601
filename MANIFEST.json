{
 "claims": [
  {
   "property": "C01",
   "status": "proved",
   "theorems": [
    "Eip.c01_reader_stays_in_buffer"
   ],
   "note": "Proved in full."
  },
  {
   "property": "C02",
   "status": "proved",
   "theorems": [
    "Eip.c02_writer_stays_in_buffer",
    "Eip.c02_refused_write_changes_nothing"
   ],
   "note": "Proved in full."
  },
  {
   "property": "C03",
   "status": "proved",
   "theorems": [
    "Eip.c03_integers_little_endian",
    "Eip.c03_integers_round_trip",
    "Eip.c03_every_string_is_one_integer"
   ],
   "note": "Proved in full."
  },
  {
   "property": "C04",
   "status": "proved",
   "theorems": [
    "Eip.c04_reported_length_is_written_length",
    "Eip.c04_exact_buffer"
   ],
   "note": "Proved in full."
  },
  {
   "property": "C05",
   "status": "partial",
   "theorems": [
    "Eip.c05_violated",
    "Eip.c05_true_length_partial",
    "Eip.c05_item_true_length_partial",
    "Eip.c05_exact"
   ],
   "note": "C05 is false: any packet with one item of exactly 65536 bytes reports 6 bytes and cannot be sent from a buffer of that size. C05 (partial: every item under 65536 bytes). Missing: larger items, for which it is false. C05 (partial). The same for one item."
  },
  {
   "property": "C06",
   "status": "proved",
   "theorems": [
    "Eip.c06_header_round_trip",
    "Eip.c06_every_string_is_a_header"
   ],
   "note": "Proved in full."
  },
  {
   "property": "C07",
   "status": "proved",
   "theorems": [
    "Eip.c07_packet_round_trip",
    "Eip.c07_constructed_packet_round_trip",
    "Eip.c07_parse_then_serialize"
   ],
   "note": "Proved in full."
  },
  {
   "property": "C08",
   "status": "proved",
   "theorems": [
    "Eip.c08_cpf_round_trip",
    "Eip.c08_parse_then_serialize"
   ],
   "note": "Proved in full."
  },
  {
   "property": "C09",
   "status": "proved",
   "theorems": [
    "Eip.c09_request_layout",
    "Eip.c09_any_handle_and_timeout",
    "Eip.c09_announced_length",
    "Eip.c09_router_request"
   ],
   "note": "Proved in full."
  },
  {
   "property": "C10",
   "status": "proved",
   "theorems": [
    "Eip.c10_shortcuts",
    "Eip.c10_path_encodes_segments",
    "Eip.c10_count",
    "Eip.c10_count_sharp"
   ],
   "note": "Proved in full."
  },
  {
   "property": "C11",
   "status": "proved",
   "theorems": [
    "Eip.c11_packed_word",
    "Eip.c11_fields_do_not_interfere"
   ],
   "note": "Proved in full."
  },
  {
   "property": "C12",
   "status": "proved",
   "theorems": [
    "Eip.c12_identity_round_trip"
   ],
   "note": "Proved in full."
  },
  {
   "property": "C13",
   "status": "partial",
   "theorems": [
    "Eip.c13_violated",
    "Eip.c13_identity_round_trip_partial"
   ],
   "note": "C13 is false: a record with a name of 256 or more characters never reports the length it writes, and parses back as a record with a shorter name. C13 (partial: names up to 255 characters). Missing: longer names, for which it is false."
  },
  {
   "property": "C14",
   "status": "proved",
   "theorems": [
    "Eip.c14_round_trips"
   ],
   "note": "Proved in full."
  },
  {
   "property": "C15",
   "status": "proved",
   "theorems": [
    "Eip.c15_sequenced_item",
    "Eip.c15_sequenced_raw"
   ],
   "note": "Proved in full."
  },
  {
   "property": "C16",
   "status": "partial",
   "theorems": [
    "Eip.c16_violated_exact",
    "Eip.c16_violated",
    "Eip.c16_violated_sized",
    "Eip.c16_reuse_partial"
   ],
   "note": "C16 is false, for every class and every failure after the sequence number: the object stays in the middle of a parse, and the next input is read without its sequence number, shifted by two bytes. C16 is false for sequenced address items: a truncated input followed by a good one. C16 is false for raw data read with a length, for all data: after an input that is shorter than the length it was read with, the next input of n bytes with a correct length of n is read as n - 2 bytes of data: its sequence number is taken for data, its last two bytes are left over, and the sequence number is still that of the failed input. C16 (partial: failures before the sequence number is complete). Then the object is unchanged and can be reused. Missing: failures inside the item, for which it is false."
  },
  {
   "property": "C17",
   "status": "partial",
   "theorems": [
    "Eip.c17_violated",
    "Eip.c17_all_bytes_kept_partial"
   ],
   "note": "C17 is false for all data: the sequence number is left as it was and the two bytes of the sequence number stay in front of the data. C17 (partial): no byte is lost, the raw buffer holds all of the item's data. Missing: the separation of the sequence number, which does not happen."
  },
  {
   "property": "C18",
   "status": "proved",
   "theorems": [
    "Eip.c18_exact_split"
   ],
   "note": "Proved in full."
  },
  {
   "property": "C19",
   "status": "partial",
   "theorems": [
    "Eip.c19_violated",
    "Eip.c19_own_buffer_partial"
   ],
   "note": "C19 is false whenever other bytes were consumed before: the response data loses one byte for each of them. C19 (partial: nothing consumed before, fewer than 2^31 bytes). The full response is parsed and what follows is left alone. Missing: readers that have delivered bytes before, for which it is false."
  },
  {
   "property": "C20",
   "status": "proved",
   "theorems": [
    "Eip.c20_truncation_rejected"
   ],
   "note": "Proved in full."
  },
  {
   "property": "C21",
   "status": "proved",
   "theorems": [
    "Eip.c21_parsing_is_local"
   ],
   "note": "Proved in full."
  },
  {
   "property": "C22",
   "status": "partial",
   "theorems": [
    "Eip.c22_never_crash_partial",
    "Eip.c22_violated"
   ],
   "note": "C22 is false for RR data responses: a null pointer is dereferenced for every input whose message item is empty, and for no other input. C22 (partial: every class except RRDataResponse). Sized and unsized deserializers on any byte buffer."
  },
  {
   "property": "C23",
   "status": "proved",
   "theorems": [
    "Eip.c23_reply_fields"
   ],
   "note": "Proved in full."
  },
  {
   "property": "C24",
   "status": "proved",
   "theorems": [
    "Eip.c24_acceptance",
    "Eip.c24_response_acceptance",
    "Eip.c24_response_accepted"
   ],
   "note": "Proved in full."
  },
  {
   "property": "C25",
   "status": "proved",
   "theorems": [
    "Eip.c25_registration_bytes",
    "Eip.c25_open_calls"
   ],
   "note": "Proved in full."
  },
  {
   "property": "C26",
   "status": "proved",
   "theorems": [
    "Eip.c26_open_adopts_handle"
   ],
   "note": "Proved in full."
  },
  {
   "property": "C27",
   "status": "proved",
   "theorems": [
    "Eip.c27_rejected_closes"
   ],
   "note": "Proved in full."
  },
  {
   "property": "C28",
   "status": "proved",
   "theorems": [
    "Eip.c28_outcome",
    "Eip.c28_success_iff"
   ],
   "note": "Proved in full."
  },
  {
   "property": "C29",
   "status": "partial",
   "theorems": [
    "Eip.c29_violated",
    "Eip.c29_survives_partial"
   ],
   "note": "C29 is false on every session with working sockets: a registration reply with a good handle and no payload. C29 (partial). Undefined behaviour is hit only by a frame with the right command, an acceptable handle and no payload. Missing: that reply."
  },
  {
   "property": "C30",
   "status": "partial",
   "theorems": [
    "Eip.c30_violated",
    "Eip.c30_no_socket_left_partial"
   ],
   "note": "C30 is false: a socket error while sending the registration or receiving the reply leaves both sockets open, a failure to open the IO socket leaves the control socket open. C30 (partial). If open throws anything but a socket error, both sockets have been closed; if the very first call fails, nothing was opened. Missing: the other socket errors, for which it is false."
  },
  {
   "property": "C31",
   "status": "partial",
   "theorems": [
    "Eip.c31_failed_open_keeps_id",
    "Eip.c31_violated",
    "Eip.c31_stays_closed_partial",
    "Eip.c31_violated_sockets"
   ],
   "note": "C31 is false for every session that is open: when opening it again fails, it still counts as open, although after a rejected reply both its sockets are closed. C31 is false on the sockets of the library too: an open of a session that is open throws, whatever the network does, and the session still counts as open. C31 (partial: sessions that were not open). Missing: sessions that were open, for which it is false."
  },
  {
   "property": "C32",
   "status": "proved",
   "theorems": [
    "Eip.c32_command_handle",
    "Eip.c32_close_handle"
   ],
   "note": "Proved in full."
  },
  {
   "property": "C33",
   "status": "proved",
   "theorems": [
    "Eip.c33_accepts_only_own",
    "Eip.c33_rejects_others"
   ],
   "note": "Proved in full."
  },
  {
   "property": "C34",
   "status": "partial",
   "theorems": [
    "Eip.c34_violated",
    "Eip.c34_echoed_handle_partial",
    "Eip.c34_unconnected_partial",
    "Eip.c34_violated_sockets"
   ],
   "note": "C34 is false for every session that is not registered: if the device (or anyone in its place) answers with any non-zero handle, writing an attribute succeeds. C34 is false on the sockets of the library too: if the local port of the I/O socket is taken, open throws and leaves the control socket connected. A device that then answers with any non-zero handle makes writing an attribute succeed, although no session was ever registered. C34 (partial: devices that echo the handle of the request). If the reply carries the handle 0, as the request did, the command throws. Missing: replies with another handle, for which it is false. C34 (partial: while the control socket is not connected, as before open and after close). Over the sockets of the library a command does not succeed and sends nothing, whatever arrives. Missing: unregistered sessions whose control socket is connected, for which it is false (c34_violated_sockets)."
  },
  {
   "property": "C35",
   "status": "proved",
   "theorems": [
    "Eip.c35_status_reported"
   ],
   "note": "Proved in full."
  },
  {
   "property": "C36",
   "status": "partial",
   "theorems": [
    "Eip.c36_violated",
    "Eip.c36_status_with_no_body_partial"
   ],
   "note": "C36 is false: the status field of the encapsulation header is never looked at. Any otherwise good reply with a header status other than 0 makes a write succeed. C36 (partial: failures that are also visible in the message). A command that returns normally received a complete message router response with general status 0, so a header status is only missed on replies that carry a full successful response. In particular a reply consisting of the header alone never succeeds. Missing: the header status itself, which is ignored."
  },
  {
   "property": "C37",
   "status": "partial",
   "theorems": [
    "Eip.c37_violated",
    "Eip.c37_connection_replies_partial"
   ],
   "note": "C37 is false: whatever service code s the reply has, a write succeeds on it. C37 (partial: connection commands). createConnection and closeConnection succeed only on replies whose data has the form of a forward open or forward close reply for this very connection; the service code itself is not checked, so for attribute commands the property is false."
  },
  {
   "property": "C38",
   "status": "proved",
   "theorems": [
    "Eip.c38_get",
    "Eip.c38_get_raw",
    "Eip.c38_get_integers"
   ],
   "note": "Proved in full."
  },
  {
   "property": "C39",
   "status": "proved",
   "theorems": [
    "Eip.c39_set",
    "Eip.c39_set_integers"
   ],
   "note": "Proved in full."
  },
  {
   "property": "C40",
   "status": "partial",
   "theorems": [
    "Eip.c40_violated_hollow",
    "Eip.c40_violated_no_data",
    "Eip.c40_no_other_crash_partial",
    "Eip.c40_violated_sockets"
   ],
   "note": "C40 is false: a reply without payload, or with an empty unconnected message item, makes every command dereference a null pointer. C40 is false: a good response without data makes reading an attribute and opening or closing a connection dereference a null pointer. C40 is false on the sockets of the library too: a device that answers the first command with a packet without payload, or with an empty unconnected message item, makes every command dereference a null pointer. C40 (partial: all other replies). If a command with proper arguments has undefined behaviour, it is a null pointer dereference on a hollow reply or, except for writes, on a good response without data; for reads, provided the result class's own deserialize has no undefined behaviour. Missing: those replies, for which it is false."
  },
  {
   "property": "C41",
   "status": "proved",
   "theorems": [
    "Eip.c41_created",
    "Eip.c41_failed"
   ],
   "note": "Proved in full."
  },
  {
   "property": "C42",
   "status": "proved",
   "theorems": [
    "Eip.c42_closed"
   ],
   "note": "Proved in full."
  },
  {
   "property": "C43",
   "status": "partial",
   "theorems": [
    "Eip.c43_violated",
    "Eip.c43_stable_partial"
   ],
   "note": "C43 is false: whenever a connection that is not the last one is closed, the number of the last connection becomes invalid although that connection is still open, and using it is undefined behaviour. C43 (partial: no smaller number is closed). A connection keeps its number in every history that closes only connections with larger numbers; creating connections, commands and IO never matter. Missing: histories that close a connection with a smaller number, for which it is false."
  },
  {
   "property": "C44",
   "status": "partial",
   "theorems": [
    "Eip.c44_violated",
    "Eip.c44_in_range_partial"
   ],
   "note": "C44 is false: every number that does not name a connection is undefined behaviour in both functions. C44 (partial: numbers that do name a connection). For those there is no out of range access, and getConnection returns the connection. Missing: all other numbers, for which it is false."
  },
  {
   "property": "C45",
   "status": "proved",
   "theorems": [
    "Eip.c45_serials_distinct",
    "Eip.c45_connections_distinct"
   ],
   "note": "Proved in full."
  },
  {
   "property": "C46",
   "status": "proved",
   "theorems": [
    "Eip.c46_ids_distinct"
   ],
   "note": "Proved in full."
  },
  {
   "property": "C47",
   "status": "proved",
   "theorems": [
    "Eip.c47_forward_open"
   ],
   "note": "Proved in full."
  },
  {
   "property": "C48",
   "status": "proved",
   "theorems": [
    "Eip.c48_forward_close",
    "Eip.c48_stored_as_requested",
    "Eip.c48_histories"
   ],
   "note": "Proved in full."
  },
  {
   "property": "C49",
   "status": "proved",
   "theorems": [
    "Eip.c49_success",
    "Eip.c49_refused",
    "Eip.c49_accepted"
   ],
   "note": "Proved in full."
  },
  {
   "property": "C50",
   "status": "proved",
   "theorems": [
    "Eip.c50_success",
    "Eip.c50_refused",
    "Eip.c50_accepted"
   ],
   "note": "Proved in full."
  },
  {
   "property": "C51",
   "status": "proved",
   "theorems": [
    "Eip.c51_close",
    "Eip.c51_close_returns"
   ],
   "note": "Proved in full."
  },
  {
   "property": "C52",
   "status": "proved",
   "theorems": [
    "Eip.c52_failed_close"
   ],
   "note": "Proved in full."
  },
  {
   "property": "C53",
   "status": "proved",
   "theorems": [
    "Eip.c53_destroy",
    "Eip.c53_never_opened"
   ],
   "note": "Proved in full."
  },
  {
   "property": "C54",
   "status": "partial",
   "theorems": [
    "Eip.c54_violated",
    "Eip.c54_no_connections_partial"
   ],
   "note": "C54 is false for every session with connections: close keeps the connection list. C54 (partial: sessions without connections). Missing: all others, for which it is false."
  },
  {
   "property": "C55",
   "status": "proved",
   "theorems": [
    "Eip.c55_one_exchange",
    "Eip.c55_io"
   ],
   "note": "Proved in full."
  },
  {
   "property": "C56",
   "status": "proved",
   "theorems": [
    "Eip.c56_passive",
    "Eip.c56_connections",
    "Eip.c56_identity"
   ],
   "note": "Proved in full."
  },
  {
   "property": "C57",
   "status": "proved",
   "theorems": [
    "Eip.c57_oblivious",
    "Eip.c57_values",
    "Eip.c57_histories"
   ],
   "note": "Proved in full."
  },
  {
   "property": "C58",
   "status": "proved",
   "theorems": [
    "Eip.c58_items",
    "Eip.c58_truncated",
    "Eip.c58_failed"
   ],
   "note": "Proved in full."
  },
  {
   "property": "C59",
   "status": "partial",
   "theorems": [
    "Eip.c59_refines",
    "Eip.c59_violated",
    "Eip.c59_contents",
    "Eip.c59_no_receive_partial"
   ],
   "note": "C59 does not hold: let a packet with the items l1 be received, and later another datagram whose items l2 have the same types and lengths. The packet that was returned first then has the contents of the second one. C59, as far as it holds: a packet that was received keeps its contents during any history of calls in which nothing is successfully received on either socket. What is missing: histories with receives, for which it is false."
  },
  {
   "property": "C60",
   "status": "proved",
   "theorems": [
    "Eip.c60_sends",
    "Eip.c60_round_trip"
   ],
   "note": "Proved in full."
  },
  {
   "property": "C61",
   "status": "partial",
   "theorems": [
    "Eip.c61_violated",
    "Eip.c61_violated_io",
    "Eip.c61_fits_partial",
    "Eip.c61_io_refused_partial"
   ],
   "note": "C61 is false: every set attribute command with 65512 bytes or more sends a frame whose length field is wrong, and returns normally if the reply is good. C61 is also false for IO packets: one with 65536 items or more is sent with a wrong number of items. C61 (partial: the payload fits). As long as the data of the call is small, every frame sent on the control socket has length fields that agree with its contents, and every datagram sent on the IO socket is the encoding of a packet. Missing: larger set attribute data and IO packets with more items, for which it is false. C61 (partial). An IO packet with an item of 65536 bytes or more is refused with length_error; nothing is sent."
  },
  {
   "property": "C62",
   "status": "proved",
   "theorems": [
    "Eip.c62_request",
    "Eip.c62_failures"
   ],
   "note": "Proved in full."
  },
  {
   "property": "C63",
   "status": "partial",
   "theorems": [
    "Eip.c63_violated",
    "Eip.c63_violated_item",
    "Eip.c63_no_exception_partial",
    "Eip.c63_reports_partial",
    "Eip.c63_safe_partial"
   ],
   "note": "C63 does not hold: any list identity datagram without payload, such as a copy of the request itself, is undefined behaviour. C63 does not hold either for a list identity reply whose identity item is empty. C63, the part that always holds: whatever arrives, the handler throws nothing. C63, the part that always holds: the handler reports a device if and only if a complete list identity reply has arrived, and then reports the identity in it, once. Missing from C63: datagrams without payload and replies with an empty identity item, see c63_violated and c63_violated_item; all others return normally, see c63_safe_partial. C63, as far as it holds: every other datagram, however malformed, is handled without undefined behaviour."
  },
  {
   "property": "C64",
   "status": "partial",
   "theorems": [
    "Eip.c64_violated",
    "Eip.c64_violated_again",
    "Eip.c64_first_partial"
   ],
   "note": "C64 does not hold: after the first arrival no receive operation is left, so run returns (or leaves with undefined behaviour), and everything that arrives later is never looked at. C64 does not hold for a second call of run at all: it returns at once. C64, as far as it holds: the first arrival is handled; if it is the reply of a device, that device is reported. What is missing: every later arrival."
  },
  {
   "property": "C65",
   "status": "proved",
   "theorems": [
    "Eip.c65_copy"
   ],
   "note": "Proved in full."
  },
  {
   "property": "C66",
   "status": "partial",
   "theorems": [
    "Eip.c66_violated",
    "Eip.c66_violated_failed_read",
    "Eip.c66_careful_partial",
    "Eip.c66_no_streams_partial",
    "Eip.c66_accesses"
   ],
   "note": "C66 does not hold: a raw buffer filled from a stream that is then copied is freed twice, for every length and every content. C66 does not hold even without copies: when a raw buffer that has allocated memory is read from a BufferReader with too few bytes, length_error is thrown and data_ still refers to the memory that has just been freed. Here four bytes come from a stream, then two are asked of an empty buffer, then the buffer is serialized. C66, as far as it holds: a careful user — who besides the usual obligations neither copies a raw buffer that has allocated memory nor lets such a buffer read from too short a BufferReader — never causes a double free or an access to freed memory. What is missing: the two extra obligations, which c66_violated and c66_violated_failed_read show to be necessary. C66, as far as it holds: without sized reads from streams, any correct user is safe, whatever is copied."
  },
  {
   "property": "C67",
   "status": "partial",
   "theorems": [
    "Eip.c67_violated_everywhere",
    "Eip.c67_violated",
    "Eip.c67_packet_partial",
    "Eip.c67_encap_partial",
    "Eip.c67_response_partial"
   ],
   "note": "C67 does not hold: whatever is copied into whatever class, if the source is anything but a raw buffer, every non-empty reference in the resulting object is to freed memory. C67 does not hold, and nothing reports it: copying any common packet format packet into a CPFPacket succeeds, with a reference for every item that has data, and each of them is to freed memory. C67, as far as it holds, for CPFPacket: parsed from a raw buffer on live memory, the packet is what the value-level model says, and each of its references can be read, and yields what the memory contains then, for as long as that memory is live. What is missing: sources other than raw buffers, for which it is false. C67, as far as it holds, for EncapPacket. What is missing is as in c67_packet_partial. C67, as far as it holds, for MessageRouterResponse. What is missing is as in c67_packet_partial."
  },
  {
   "property": "C68",
   "status": "proved",
   "theorems": [
    "Eip.c68_writers_agree",
    "Eip.c68_counts"
   ],
   "note": "Proved in full."
  },
  {
   "property": "C69",
   "status": "proved",
   "theorems": [
    "Eip.c69_readers_agree"
   ],
   "note": "Proved in full."
  },
  {
   "property": "C70",
   "status": "partial",
   "theorems": [
    "Eip.c70_violated",
    "Eip.c70_violated_packet",
    "Eip.c70_violated_cpf",
    "Eip.c70_short_stream_flagged_partial",
    "Eip.c70_violated_response",
    "Eip.c70_violated_identity"
   ],
   "note": "C70 is false for every short input: headers, registration data and sequenced addresses are returned as if they had been received. C70 is false for packets: the missing part of the payload is unknown memory. C70 is false for common packets: an empty stream makes the number of items indeterminate. C70 is false for message router responses: if the stream ends within the additional status, the parse succeeds with one byte *more* of response data than the whole response was said to have, all of it unknown memory, because the byte count of the failed stream is the largest size_t. C70 is false for identities: if the stream ends within the product name, the parse succeeds, the missing characters are those the object had before at their places, or NUL if its name was shorter, and the state is the object's old one. C70 (partial). A short stream can be noticed afterwards: it is in a failed state exactly if bytes were missing. Missing: the exception, which is never thrown."
  },
  {
   "property": "C71",
   "status": "partial",
   "theorems": [
    "Eip.c71_serial_partial",
    "Eip.c71_violated",
    "Eip.c71_violated_buffer",
    "Eip.c71_steps_partial"
   ],
   "note": "C71 does not hold for callers that use the session at the same time: for any two commands, when the second caller gets to the socket first, each command takes the reply to the other one's request. C71 does not hold even if every caller gets the right bytes from the socket: recv_buffer_ is shared too. For any two commands with replies of equal length, a caller that receives between the other's receive and its parsing replaces the reply, and both commands take the second reply. C71 for commands issued one at a time, by any number of callers in any order: when replies arrive whole, what each command makes of the reply is what the device has answered to its own request. Missing from C71: callers that use the session at the same time. The executions in these theorems are made of the steps of sendCommand: done in a row, they are a call of it."
  },
  {
   "property": "C72",
   "status": "partial",
   "theorems": [
    "Eip.c72_violated",
    "Eip.c72_stream_partial",
    "Eip.c72_violated_always",
    "Eip.c72_first_partial",
    "Eip.c72_whole_partial"
   ],
   "note": "C72 does not hold: for any two commands and any split of the first reply, the first command takes the first part, and the second command takes the second part instead of the reply to its own request, which is left for the next one. C72 does not hold in any execution in which a command has received only part of its reply: whatever happens then, the bytes received by the next command start with the rest of that reply, or are part of it. C72, what holds for every segmentation: with commands issued one at a time, the bytes the commands receive are, in order and without loss or repetition, the replies of the device in the order of the requests, and each command makes of its own bytes what it should. Missing: that its own bytes are its own reply. C72, the part about the first command: if the device's reply is a frame and only part of it is received, the command fails; it does not return a wrong result. C72, as far as it holds: when replies arrive whole every command takes its own reply."
  },
  {
   "property": "C73",
   "status": "partial",
   "theorems": [
    "Eip.c73_violated",
    "Eip.c73_violated_nothing",
    "Eip.c73_violated_histories"
   ],
   "note": "C73 does not hold, for any call in any situation: how many bytes the socket accepts has no influence on the outcome, the session or the socket calls. C73 in particular: a call that succeeds when everything is accepted also \"succeeds\" when nothing is, and the rest is not sent. C73 over histories."
  },
  {
   "property": "C74",
   "status": "proved",
   "theorems": [
    "Eip.c74_length_field_after_any_history",
    "Eip.c74_constructed_and_parsed"
   ],
   "note": "Proved in full."
  },
  {
   "property": "C75",
   "status": "partial",
   "theorems": [
    "Eip.c75_set",
    "Eip.c75_connections",
    "Eip.c75_violated",
    "Eip.c75_get_partial"
   ],
   "note": "C75 is false for reads: a good response whose data is shorter than the integer asked for makes getSingleAttribute throw length_error, which is not a runtime_error. C75 (partial: reads). An exception from reading an attribute is a runtime_error if no good response with data was received, the unchanged socket error if a socket call failed, and otherwise one that the result object's own deserialize threw on the data received. Missing: that this last one is also a runtime_error, which is false."
  },
  {
   "property": "C76",
   "status": "proved",
   "theorems": [
    "Eip.c76_session_id",
    "Eip.c76_sets",
    "Eip.c76_destroy",
    "Eip.c76_histories"
   ],
   "note": "Proved in full."
  },
  {
   "property": "C77",
   "status": "partial",
   "theorems": [
    "Eip.c77_violated",
    "Eip.c77_copy_harmless_partial"
   ],
   "note": "C77 is false for every open session with working sockets: when a copy goes out of scope, the session is unregistered at the device and both sockets are closed, while the original still has its session id. C77 (partial: sessions that are not open). Missing: open sessions, for which it is false."
  },
  {
   "property": "C78",
   "status": "proved",
   "theorems": [
    "Eip.c78_sent",
    "Eip.c78_send_count",
    "Eip.c78_received",
    "Eip.c78_open"
   ],
   "note": "Proved in full."
  },
  {
   "property": "C79",
   "status": "partial",
   "theorems": [
    "Eip.c79_violated",
    "Eip.c79_little_endian_partial",
    "Eip.c79_reading_partial"
   ],
   "note": "C79 is false on big-endian hosts: they write the most significant byte first, for every value. C79 (partial: little-endian hosts). Integers are written least significant byte first, which is what the rest of the model assumes of write8, write16 and write32. Missing: big-endian hosts, for which it is false. C79 for reading. On a little-endian host the memory filled from the wire has the value the protocol means, for every width. What a host writes it reads back; and a big-endian host reads exactly what a little-endian one reads from the reversed bytes."
  },
  {
   "property": "C80",
   "status": "partial",
   "theorems": [
    "Eip.c80_violated",
    "Eip.c80_violated_cpf",
    "Eip.c80_unchanged_partial"
   ],
   "note": "C80 is false for headers: every input of 2 to 23 bytes is rejected, but its command is already in the object. C80 is false for common packets: the items are gone after any failed parse that did not read an item. C80 (partial). What does survive a failed parse: primitives, raw buffers, headers when not even the command was there, and the payload of a packet. Missing: the header of a packet, the items of a common packet and the other structured objects, for which it is false."
  },
  {
   "property": "C81",
   "status": "partial",
   "theorems": [
    "Eip.c81_violated",
    "Eip.c81_count_partial"
   ],
   "note": "C81 does not hold: clearTxBuffer clears only the first 8 bytes; all others keep what was sent before. C81, as far as it holds: the count is reset, so nothing counts as recorded any more and the next send starts at the beginning. Missing: the contents of the array."
  },
  {
   "property": "C82",
   "status": "partial",
   "theorems": [
    "Eip.c82_violated",
    "Eip.c82_violated_stranger",
    "Eip.c82_arrived_partial"
   ],
   "note": "C82 does not hold: what the receives return does not depend on who sent the datagrams. Replace the senders of all datagrams by any others, and every receive returns the same. C82 in particular: on an open socket, a datagram from any sender is returned to the caller. C82, as far as it holds: what is returned is the beginning of a datagram that has arrived, each datagram at most once, in the order of arrival. So if only the device sends to this port, only its datagrams are returned. Missing: any check of the sender."
  },
  {
   "property": "C83",
   "status": "partial",
   "theorems": [
    "Eip.c83_tcp_partial",
    "Eip.c83_violated",
    "Eip.c83_udp_partial"
   ],
   "note": "C83 does not hold for UDP: if the local port is in use, open throws, and from then on every open throws, whatever the system answers and whatever else is done, until the socket is closed. C83 for TCP: after any calls with any outcomes, open succeeds as soon as a socket can be created and some endpoint accepts the connection, and the socket is then connected to such an endpoint. Missing from C83: UDP. C83 for UDP, as far as it holds: a failure to resolve the name or to create the socket does not stand in the way of a later open; after close nothing does. Missing: a local port in use, after which open fails until close."
  },
  {
   "property": "C84",
   "status": "partial",
   "theorems": [
    "Eip.c84_violated",
    "Eip.c84_udp_partial",
    "Eip.c84_tcp_partial"
   ],
   "note": "C84 does not hold for UDP: opening a socket that is already open, for any name that resolves, throws, and everything sent afterwards goes to the new endpoint. C84 for UDP, as far as it holds: if the name cannot be resolved nothing changes. Missing: names that resolve. C84 for TCP: after a failed open of a connected socket, whatever is sent successfully goes to the endpoint it went to before. Missing from C84: UDP."
  },
  {
   "property": "C85",
   "status": "proved",
   "theorems": [
    "Eip.c85_packet",
    "Eip.c85_item",
    "Eip.c85_header"
   ],
   "note": "Proved in full."
  },
  {
   "property": "C86",
   "status": "partial",
   "theorems": [
    "Eip.c86_violated",
    "Eip.c86_reported_length_partial",
    "Eip.c86_primitive_partial",
    "Eip.c86_sequenced_partial",
    "Eip.c86_violated_sequenced"
   ],
   "note": "C86 is false for plain RR data: whenever the message is not empty or more items follow, the object reports 16 bytes although more were consumed. C86 is false for a sequenced item left behind by a failed parse: the next parse that returns consumes two bytes fewer than the object then reports, for every class T that itself reports what it was parsed from. C86 (partial: every class but plain RRData). An object that was parsed reports the number of bytes it was parsed from. Missing: plain RRData, for which it is false (RRDataRequest cannot be parsed and getLength of RRDataResponse throws); primitives and sequenced items are in c86_primitive_partial and c86_sequenced_partial. C86 (partial: primitives). Missing: as for c86_reported_length_partial. C86 (partial: sequenced items that are not in the middle of a parse). If T reports what it was parsed from, so does SequencedDataItem<T>. Missing: objects left behind by a failed parse, for which it is false (c86_violated_sequenced)."
  },
  {
   "property": "C87",
   "status": "partial",
   "theorems": [
    "Eip.c87_violated_header",
    "Eip.c87_violated_response",
    "Eip.c87_violated",
    "Eip.c87_sequenced_partial"
   ],
   "note": "C87 is false for encapsulation headers: every one of them is rejected, and the object is left in the middle of a parse. C87 is false for message router responses: the last two bytes of the response data are lost. C87 is false. C87 (partial: every other class that can be parsed). Missing: headers and message router responses, for which it is false, and raw buffers, which are covered by C17."
  },
  {
   "property": "C88",
   "status": "proved",
   "theorems": [
    "Eip.c88_open_request",
    "Eip.c88_close_request",
    "Eip.c88_new"
   ],
   "note": "Proved in full."
  },
  {
   "property": "C89",
   "status": "partial",
   "theorems": [
    "Eip.c89_violated",
    "Eip.c89_unpadded_partial"
   ],
   "note": "C89 is false for every path with the pad flag: the pad byte is counted twice, so the request reports one byte more than it writes, and the data sent ends with a byte that is not part of the request. C89 (partial: paths without the pad flag). Missing: paths with it, for which it is false."
  },
  {
   "property": "C90",
   "status": "partial",
   "theorems": [
    "Eip.c90_violated",
    "Eip.c90_small_partial"
   ],
   "note": "C90 is false for every size from 32768 on: the device is asked for 32768 bytes less. C90 (partial: sizes below 32768). Missing: larger sizes, for which it is false."
  },
  {
   "property": "C91",
   "status": "proved",
   "theorems": [
    "Eip.c91_some_run",
    "Eip.c91_refines",
    "Eip.c91_no_surprise",
    "Eip.c91_read_back",
    "Eip.c91_network"
   ],
   "note": "Proved in full."
  },
  {
   "property": "C92",
   "status": "partial",
   "theorems": [
    "Eip.c92_violated",
    "Eip.c92_violated_attribute",
    "Eip.c92_small_partial"
   ],
   "note": "C92 is false: when the device answers with a frame of more than 4096 bytes - which the protocol allows - every command throws runtime_error, although the whole frame has arrived. C92. In particular an attribute of more than 4052 bytes cannot be read, although the device sends it. C92 (partial). Attributes of up to 4052 bytes are read as the device sends them. Missing: longer ones."
  },
  {
   "property": "C93",
   "status": "proved",
   "theorems": [
    "Eip.c93_complete",
    "Eip.c93_exhausted",
    "Eip.c93_writer"
   ],
   "note": "Proved in full."
  },
  {
   "property": "C94",
   "status": "partial",
   "theorems": [
    "Eip.c94_violated",
    "Eip.c94_no_leak_partial",
    "Eip.c94_accounted_partial"
   ],
   "note": "C94 does not hold: a raw buffer that was filled from a stream and is then assigned another raw buffer, as copy_serializable does, never frees its memory. All buffers are destroyed, the user has allocated nothing, and a block is still allocated; whatever was read. C94, as far as it holds: when a careful user never assigns to a raw buffer that has memory of its own and finally destroys all raw buffers, exactly the memory is left that the user has allocated and not freed; there is no undefined behaviour on the way. What is missing: assignment to a buffer that has memory of its own, which c94_violated shows to leak, and the two rules of C66. The same at any moment: apart from the memory the user has allocated and not freed, there is one allocated block for each raw buffer that has memory of its own, so that nothing has been lost. Missing: as for c94_no_leak_partial."
  },
  {
   "property": "C95",
   "status": "partial",
   "theorems": [
    "Eip.c95_shown_right_partial",
    "Eip.c95_clean_partial",
    "Eip.c95_violated",
    "Eip.c95_violated_address"
   ],
   "note": "C95 is false: with a suitable content of the upper half of the argument slot, the message about an opened session shows a different number for every session id. C95 is false for the address line of the scanner even if nothing is left open: it prints the location of the text as a number. C95 (partial: which messages). A message shows its values, whatever the parts of the argument slots that the calling convention leaves open contain, exactly if it does not print a 32-bit number (or a 16-bit one) with %zu, is not the address line of the scanner, is not a serial number from 2^31 on, and is not a product name with a zero byte. Missing: these messages. C95 (partial: the usual case). If numbers of 32 bits are passed with zeros in the upper half of their slots, which the calling convention does not promise, the only messages that do not show their values are the address line of the scanner, serial numbers from 2^31 on and product names with a zero byte. Missing: these messages."
  },
  {
   "property": "C96",
   "status": "partial",
   "theorems": [
    "Eip.c96_log_only_grows",
    "Eip.c96_error_means_failure",
    "Eip.c96_violated",
    "Eip.c96_failure_is_logged_partial",
    "Eip.c96_violated_short"
   ],
   "note": "C96 is false: if the socket cannot be opened, open throws and no error is logged. C96 is false also for replies that arrive: if the device answers a read request with a single byte, where the result takes two, the call throws and no error is logged. C96 (partial: the exceptions a session makes up itself). A call with ordinary arguments that throws a runtime error, or the logic error about a reply that does not match the connection, has logged an error. Missing: exceptions of the sockets, and length_error for result data that is too short."
  },
  {
   "property": "C97",
   "status": "partial",
   "theorems": [
    "Eip.c97_opened",
    "Eip.c97_violated",
    "Eip.c97_closed_partial",
    "Eip.c97_sockets_partial"
   ],
   "note": "C97 is false for closing: if the control socket cannot be closed after the unregister message was sent, close throws, the session keeps its id and its sockets, and the log says \"Session closed\". C97 (partial: what \"Session closed\" means). close logs \"Session closed\" exactly if the unregister message was handed to the control socket, in particular whenever it returns normally. Missing: it is logged before the sockets are closed, so it may be logged although they are not. C97 (partial: as long as closing a socket does not fail). Over the sockets of the library the log says that the session was closed exactly when close returned normally; then it is no longer registered. Missing: closing a socket may fail, then it is false (c97_violated)."
  },
  {
   "property": "C98",
   "status": "proved",
   "theorems": [
    "Eip.c98_unsent",
    "Eip.c98_unreceived",
    "Eip.c98_unreadable",
    "Eip.c98_refused",
    "Eip.c98_truncated",
    "Eip.c98_wrong_items",
    "Eip.c98_short_message",
    "Eip.c98_all_cases",
    "Eip.c98_failed",
    "Eip.c98_set_succeeds",
    "Eip.c98_get_answered"
   ],
   "note": "Proved in full."
  },
  {
   "property": "C99",
   "status": "partial",
   "theorems": [
    "Eip.c99_no_output_partial",
    "Eip.c99_violated"
   ],
   "note": "C99 is false: closeConnection writes a line to the standard output whenever the device answers with a forward close reply, also if the reply is right. C99 (partial: all calls but one). No call except closeConnection writes to the standard output. Missing: closeConnection."
  },
  {
   "property": "C100",
   "status": "proved",
   "theorems": [
    "Eip.c100_replaced",
    "Eip.c100_mismatch"
   ],
   "note": "Proved in full."
  },
  {
   "property": "C101",
   "status": "proved",
   "theorems": [
    "Eip.c101_udp",
    "Eip.c101_tcp",
    "Eip.c101_udp_fresh",
    "Eip.c101_tcp_fresh"
   ],
   "note": "Proved in full."
  },
  {
   "property": "C102",
   "status": "partial",
   "theorems": [
    "Eip.c102_violated",
    "Eip.c102_violated_twins",
    "Eip.c102_apart_partial"
   ],
   "note": "C102 is false: two sessions of the same originator constructed in the same second, whatever happens to them before, name their first connections by the same three numbers, and propose the same connection ids for them. C102 is false in the strongest way: two such sessions that get the same calls, and whose sockets give the same answers, cannot be told apart. All their messages are the same. C102 (partial: sessions with different originators, or whose ranges of serial numbers do not overlap). In any two histories the connections are named differently. Missing: sessions whose ranges overlap, for which it is false."
  },
  {
   "property": "C103",
   "status": "partial",
   "theorems": [
    "Eip.c103_violated_sequenced",
    "Eip.c103_violated_structured",
    "Eip.c103_violated_empty",
    "Eip.c103_same_partial",
    "Eip.c103_sequenced_partial"
   ],
   "note": "C103 is false for items that hold a sequenced raw buffer. Before the item is sent, a raw buffer taken from it lacks the sequence number; after it has been received, the sequence number is part of the data. C103 is false for structured data taken as a raw buffer: an exception before the item is sent, the bytes after it has been received. C103 is false for data without bytes: it can be read before the item is sent; reading it from the received item is undefined behaviour. C103 (partial: raw buffers, and structured data read as structured data; not empty). What getDataAs makes of the item before it is sent is what it makes of the item parsed from its bytes, for every destination. Missing: the cases above, for which it is false. C103 (partial), the exact result for a sequenced raw buffer read into structured data before it is sent: the sequence number is not seen, and the destination is told two bytes more than there are."
  },
  {
   "property": "C104",
   "status": "proved",
   "theorems": [
    "Eip.c104_accessors",
    "Eip.c104_fresh",
    "Eip.c104_as"
   ],
   "note": "Proved in full."
  },
  {
   "property": "C105",
   "status": "partial",
   "theorems": [
    "Eip.c105_replies",
    "Eip.c105_requests",
    "Eip.c105_violated_response",
    "Eip.c105_violated_request",
    "Eip.c105_rr_partial"
   ],
   "note": "C105 is false for RR data responses as sources: six bytes are written before the exception. C105 is false for RR data requests as destinations: every well-formed RR data message is refused, but only after it has replaced the interface handle and the timeout. C105 (partial: what still holds for the two classes of RR data). Serializing an RR data response never returns normally, nor does asking for its length; parsing into an RR data request never returns normally and never touches the message router request. Missing: that nothing at all is changed, which is false."
  },
  {
   "property": "C106",
   "status": "partial",
   "theorems": [
    "Eip.c106_fill_partial",
    "Eip.c106_fill_sized_partial",
    "Eip.c106_violated"
   ],
   "note": "C106 is false for streams that end early: nothing is thrown. The raw buffer gets the bytes that are there; the others are the old ones if the size is the same, and the contents of fresh memory if it is not. C106 for deserialize(reader) (partial: not streams that end early). A raw buffer of a given size takes as many bytes from the reader, in order, and leaves the rest unread. A buffer reader without enough bytes throws length_error, and the raw buffer keeps its bytes. Missing: streams that end early, for which it is false. C106 for deserialize(reader, n) (partial: not streams that end early). Whatever its size before, the raw buffer becomes the next n bytes, in order. A buffer reader without enough bytes throws length_error, and the raw buffer keeps its bytes, if they are not in memory of its own (those are freed: C66). Missing: streams that end early, for which it is false, and memory of its own."
  },
  {
   "property": "C107",
   "status": "partial",
   "theorems": [
    "Eip.c107_same",
    "Eip.c107_violated",
    "Eip.c107_violated_short",
    "Eip.c107_says_partial",
    "Eip.c107_levels_partial",
    "Eip.c107_all_partial",
    "Eip.c107_run_partial",
    "Eip.c107_unsent"
   ],
   "note": "C107 does not hold: a list identity datagram without payload, such as the scanner's own request, or with an empty identity item is undefined behaviour, and nothing but warnings has been logged about it. C107 does not hold either for datagrams that are cut off: nothing is logged, the complaint is only printed. C107, as far as it holds: the exact messages about every datagram for which the handler is defined. They are the warnings the datagram deserves, and after them either the identity of the device or one complaint (an error, or for cut off datagrams the printed message). C107: the levels of the messages of c107_says_partial. First there are only warnings; then there is one error, or the printed message about a datagram that is cut off, or the description of the device, all of it information. C107: c107_says_partial speaks about all datagrams but those of c107_violated. C107 for the whole of a scan: the messages up to the first arrival, and then those about the first arrival, if it is a datagram the handler is defined for. Later arrivals are not looked at (C64)."
  },
  {
   "property": "C108",
   "status": "proved",
   "theorems": [
    "Eip.c108_unconnected",
    "Eip.c108_unsent",
    "Eip.c108_unreceived",
    "Eip.c108_unreadable",
    "Eip.c108_refused",
    "Eip.c108_opened",
    "Eip.c108_version",
    "Eip.c108_hollow",
    "Eip.c108_cases",
    "Eip.c108_close",
    "Eip.c108_destroy",
    "Eip.c108_send",
    "Eip.c108_receive"
   ],
   "note": "Proved in full."
  },
  {
   "property": "C109",
   "status": "partial",
   "theorems": [
    "Eip.c109_violated",
    "Eip.c109_violated_exchange",
    "Eip.c109_violated_port",
    "Eip.c109_closed_partial",
    "Eip.c109_close_partial",
    "Eip.c109_opens_partial"
   ],
   "note": "C109 does not hold: while the I/O socket is open, every call to open throws, whatever the network does, and the session id stays what it is. Only close helps. C109: how one gets there. First: if the I/O socket was opened and the registration then broke off with an error of the control socket, also with one on closing it, the I/O socket stays open. C109: the other way: if the local port is taken, open throws and the I/O socket stays open, bound to nothing. C109, as far as it holds: these failures leave the I/O socket closed: a registration that is answered but refused; a control socket that cannot be opened; an I/O name that cannot be resolved. C109: a close that returns normally closes the I/O socket and the control socket, whatever state they were in. C109: as long as the I/O socket is closed, opening works if nothing stands in its way: both names resolve, one of the control endpoints accepts, the local port is free, and the device answers with a registration."
  },
  {
   "property": "C110",
   "status": "partial",
   "theorems": [
    "Eip.c110_route_partial",
    "Eip.c110_violated",
    "Eip.c110_violated_request"
   ],
   "note": "C110 does not hold: open an open session to another device that accepts the connection: the call throws, but from then on the session, with its old handle, talks to the other device on both sockets. C110: what then happens to the next request: with the handle of the first device it arrives at the second. This is so for every session whose I/O socket is open, every second device that accepts the connection, and every attribute. C110, as far as it holds: if the caller opens the session only when it is closed, then as long as it is open, its control socket is connected to an endpoint of the device named in the last successful open and its I/O socket sends to the first endpoint of that device, unless closing a socket has failed. Even then, whatever the next call sends, it sends there."
  },
  {
   "property": "C111",
   "status": "proved",
   "theorems": [
    "Eip.c111_tcp",
    "Eip.c111_udp",
    "Eip.c111_registration"
   ],
   "note": "Proved in full."
  },
  {
   "property": "C112",
   "status": "proved",
   "theorems": [
    "Eip.c112_construct",
    "Eip.c112_first_request",
    "Eip.c112_log"
   ],
   "note": "Proved in full."
  },
  {
   "property": "C113",
   "status": "proved",
   "theorems": [
    "Eip.c113_strategy",
    "Eip.c113_first_difference",
    "Eip.c113_seen",
    "Eip.c113_reactive",
    "Eip.c113_one_run"
   ],
   "note": "Proved in full."
  },
  {
   "property": "C114",
   "status": "proved",
   "theorems": [
    "Eip.c114_exactly",
    "Eip.c114_histories",
    "Eip.c114_any_reply"
   ],
   "note": "Proved in full."
  },
  {
   "property": "C115",
   "status": "partial",
   "theorems": [
    "Eip.c115_violated",
    "Eip.c115_once_partial",
    "Eip.c115_all_partial",
    "Eip.c115_violated_second",
    "Eip.c115_own_partial"
   ],
   "note": "C115 does not hold: whatever else is included and in whatever order, no translation unit sees both IdentityItemData and RegisterSessionData: the headers that declare them have the same include guard. C115, which of the two is missing: the one that is included second. Both headers are included directly, since no header of the library includes either. C115, what always holds: preprocessing comes to an end, with one result, and no header is in it twice. C115 (partial: not both of the headers that share a guard). Everything the included headers declare is declared in the translation unit, and every header in it finds the names it uses declared before it. Missing: the two headers together. C115 for the library itself: every source file and every test sees all names of the library it uses."
  },
  {
   "property": "C116",
   "status": "partial",
   "theorems": [
    "Eip.c116_violated",
    "Eip.c116_violated_open",
    "Eip.c116_violated_io",
    "Eip.c116_no_wait_partial",
    "Eip.c116_once_partial"
   ],
   "note": "C116 is violated by the commands: over a connected control socket on which nothing waits, each command with proper arguments comes to a point where it waits for the device, and as long as nothing arrives it cannot end without a socket call failing: no time limit ends it. The same for open, whatever the sockets were like: once connected it waits for the device, and as long as nothing arrives it cannot end without a socket call failing. The same for receiveIOPacket: it waits at an open I/O socket on which nothing waits, and as long as nothing arrives it does not come back at all. C116 as far as it holds: close, sendIOPacket, getConnection and the destructor never wait for the device, and the calls come back from any state of the sockets without anything arriving. C116 as far as it holds: a call waits at most once. When one to 4096 bytes arrive at the control socket it waits at, or a datagram at a bound I/O socket, then it can receive them and come back; it then closes at most the sockets, and needs nothing more from the network."
  },
  {
   "property": "C117",
   "status": "proved",
   "theorems": [
    "Eip.c117_contents",
    "Eip.c117_always_shows"
   ],
   "note": "Proved in full."
  },
  {
   "property": "C118",
   "status": "partial",
   "theorems": [
    "Eip.c118_violated_lent",
    "Eip.c118_violated",
    "Eip.c118_lent_partial",
    "Eip.c118_others_partial",
    "Eip.c118_in_place_partial"
   ],
   "note": "C118 does not hold for memory lent by the user: a read of n bytes from a stream into a raw buffer on n bytes of the user's memory overwrites that memory, whatever it held, while a read of any other number of bytes from the same stream leaves it alone. C118 does not hold: neither for lent memory nor for the other raw buffers (a copy changes with the original). C118, as far as it holds, for memory lent by the user: an operation leaves it alone unless it stores through a raw buffer that refers to bytes of it. What is missing: reads without a length and reads from a stream with just the length the raw buffer has. C118, as far as it holds, for the other raw buffers: each shows what it showed, unless the operation stores through a raw buffer that has bytes in common with it. What is missing: buffers that share memory with the one read into. C118, as far as it holds: constructing, copying, assigning, reading with a length from a buffer, serializing and destroying raw buffers changes no byte of lent memory and nothing any other raw buffer shows. What is missing: the reads that fill memory in place."
  },
  {
   "property": "C119",
   "status": "partial",
   "theorems": [
    "Eip.c119_violated",
    "Eip.c119_violated_count",
    "Eip.c119_prefix_partial"
   ],
   "note": "C119 does not hold: an object written to a stream that has room for only a part of it is cut off, and the call returns normally, where a buffer writer throws length_error for the same room. The byte count is no number of bytes written either: it includes what was on the stream before, and after a failure it is the largest size_t. C119, as far as it holds: whatever objects are written to a stream one after the other, no call throws, and the stream gets their bytes in order, without a gap, up to the point where it is full. If there is room, it gets them all. What is missing: an exception if there is none."
  },
  {
   "property": "C120",
   "status": "partial",
   "theorems": [
    "Eip.c120_others_partial",
    "Eip.c120_as_alone_partial",
    "Eip.c120_made_partial",
    "Eip.c120_violated",
    "Eip.c120_violated_all",
    "Eip.c120_length_partial"
   ],
   "note": "C120 does not hold when an object is changed: a packet and its copy both get the new payload and keep the old length field, for any two objects whose sizes differ; after updateLength on one of them, the other is still wrong. What a change of an object does: every packet with a pointer to it has it as its payload from then on, and keeps its header; all other packets are as they were. C120, as far as it holds: in every program, a step that does not change an object itself leaves every object that exists, every encapsulation packet and every CPF packet other than the one it works on exactly as they were, also those that share objects with it. What is missing: nothing for these steps; see c120_violated for changes of an object. C120, as far as it holds: sharing makes no difference for the packet a function is called on. In every program, each function has the result and the effect on its packet that it has on a packet that shares nothing. C120, as far as it holds: what constructors and direct assignments make. Whatever exists already, new objects and packets get the contents they are constructed with, and a packet gets the header or the items assigned to it and keeps the rest. C120, as far as it holds, for the length field: if a program changes objects only without changing their size, does not assign length fields and its parses return, then all its packets have the right length field. And whatever it has done, updateLength makes the field right. What is missing: changes of the size."
  },
  {
   "property": "C121",
   "status": "partial",
   "theorems": [
    "Eip.c121_violated",
    "Eip.c121_violated_messages",
    "Eip.c121_session_partial",
    "Eip.c121_attribute_partial",
    "Eip.c121_scanner_partial"
   ],
   "note": "C121 does not hold for connections a user builds: the forward open request of a new Connection has five fields from whatever the memory contained, and requests from different memory differ. C121 does not hold for requests and identities a user builds: serialised as they are constructed, all their fields but the path and the name are what the memory contained. C121, as far as it holds, for sessions: nothing a session sends, returns, throws or keeps depends on what the memory of the objects contains that its calls build, in all histories. What is missing: objects a user builds, see c121_violated and c121_violated_messages. C121, as far as it holds, for attributes: what getSingleAttribute returns or throws does not depend on what its local variable contained, for all types of a fixed size. C121, as far as it holds, for the scanner: what it sends and reports does not depend on what its buffer and the identity it parses into contained, whatever arrives."
  },
  {
   "property": "C122",
   "status": "partial",
   "theorems": [
    "Eip.c122_violated",
    "Eip.c122_violated_reopen",
    "Eip.c122_connected_partial",
    "Eip.c122_retry_partial",
    "Eip.c122_recovers_partial",
    "Eip.c122_violated_occurs"
   ],
   "note": "C122 does not hold: if a close fails because closing one of the sockets reports an error, the session keeps its id, but its control socket is closed. From then on, until the session is opened again, every close throws and no request leaves. C122: opening the session again does not help either, unless the device happens to give it the id it had: if it was the control socket that failed to close, the I/O socket is still open and open throws; otherwise open throws if the device gives another id. C122: this happens on a network where everything else works: a session on new sockets is opened, then close fails at either socket. The log says nevertheless that the session was closed (C97). C122: what close needs on the sockets of the library: it can succeed exactly if the control socket is connected. C122, as far as it holds: if close throws because the request could not be sent, nothing has changed; if the control socket was connected, close can succeed when it is called again. C122: the way out after the control socket failed to close: an open to a device that accepts the connection. It throws, because the I/O socket is still open, but afterwards close can succeed."
  },
  {
   "property": "C123",
   "status": "partial",
   "theorems": [
    "Eip.c123_pieces",
    "Eip.c123_exact_partial",
    "Eip.c123_apart_partial",
    "Eip.c123_violated",
    "Eip.c123_violated_io"
   ],
   "note": "C123 is false. If a datagram arrives on the I/O socket and is received by another thread after this thread has received the reply to its command and before it has parsed it, the command fails, however good the reply: every datagram of at least two bytes does that, unless it begins with the command code of the reply. C123 is false in the other direction, too. If the reply to a command is received by another thread after this thread has received a datagram and before it has parsed it, receiveIOPacket fails, however good the datagram, if it has between 2 and 445 bytes: it is taken for a packet with 111 items. C123 (partial: calls that read or write attributes or transfer I/O data, among calls that neither open nor close the session). However the threads take turns, such a call ends with the result it has alone, when its socket calls get the same answers, except that the bytes it has received are what remains of them in the buffer when it looks at them: other calls' receives store their bytes over them. Missing: that nothing is stored over them, which is false. C123 (partial: when no other call receives anything between a call's receive and its end). However the threads take turns otherwise, in particular whatever the others send, a call that reads or writes an attribute or transfers I/O data ends with the result it has alone when its socket calls get the same answers. Missing: receives at that time, for which it is false."
  },
  {
   "property": "C124",
   "status": "partial",
   "theorems": [
    "Eip.c124_control_partial",
    "Eip.c124_apart_partial",
    "Eip.c124_violated",
    "Eip.c124_violated_list"
   ],
   "note": "C124 is false. Two threads close two connections, each of which could be closed: if one is closed after the other thread has made up its request and before it has evaluated the reply, and the other connection was the last one, there is no such connection any more, and the behaviour is undefined. C124 is false if it was not the last one, too: the reply is then compared with the next connection. It is rejected although the device has closed the connection, and a connection that no longer exists remains on the list. C124 (partial: when the calls of the other threads, while this one is under way, are reading or writing attributes and transferring I/O data). However the threads take turns, a call that neither opens nor closes the session, such as creating or closing a connection, ends with the result and leaves the session in the state that it has and leaves alone, when it begins in the same state and its socket calls get the same answers, except that the bytes it has received are what remains of them in the buffer when it looks at them. Missing: other threads that create or close connections at the same time, for which it is false. C124 (partial: as before, and when no other call receives anything between the call's receive and its end). The call ends with the result and leaves the session in the state that it has and leaves alone, when it begins in the same state and its socket calls get the same answers."
  },
  {
   "property": "C125",
   "status": "partial",
   "theorems": [
    "Eip.c125_determined",
    "Eip.c125_recorded",
    "Eip.c125_cleared",
    "Eip.c125_script",
    "Eip.c125_rescripted",
    "Eip.c125_parts",
    "Eip.c125_real_partial",
    "Eip.c125_violated",
    "Eip.c125_violated_twice"
   ],
   "note": "C125 is false: a test that never opens the session passes, although on the sockets of the library the command throws whatever the network does. C125 is false also of tests that open the session before they use it: a test that opens it twice passes, although on the sockets of the library the second call always throws. C125 (partial: tests that open the session before they use it, do not open it twice, and whose scripts do not run out). What a test shows can happen on the sockets of the library: over new sockets of the library, with a suitable device, the same calls have the same outcomes and leave the session in the same state, and the session makes the same socket calls. Missing: other tests, for which it is false (c125_violated, c125_violated_twice)."
  },
  {
   "property": "C126",
   "status": "partial",
   "theorems": [
    "Eip.c126_decimal",
    "Eip.c126_negative",
    "Eip.c126_hex",
    "Eip.c126_unique",
    "Eip.c126_whole_partial",
    "Eip.c126_lifecycle",
    "Eip.c126_seen_partial",
    "Eip.c126_levels",
    "Eip.c126_default",
    "Eip.c126_violated",
    "Eip.c126_scanner"
   ],
   "note": "C126 is false for objects of the user: the line about a length_error with a text of more than 982 bytes, thrown while the object is serialized, is cut off after 1023 characters. C126 (partial: objects whose exceptions have texts of at most 982 bytes). Every message of a call on a session reaches the output handler whole. Missing: data to be sent that throws a longer text while it is serialized. C126 (partial: as c126_whole_partial and C96). A call that throws an exception the session makes up itself leaves an error in the log that is whole and that console_bridge passes on at every level but none."
  },
  {
   "property": "C127",
   "status": "partial",
   "theorems": [
    "Eip.c127_alone",
    "Eip.c127_datagram",
    "Eip.c127_ports",
    "Eip.c127_violated_socket",
    "Eip.c127_violated",
    "Eip.c127_together_partial",
    "Eip.c127_histories_partial",
    "Eip.c127_violated_stuck"
   ],
   "note": "C127 does not hold: from when a session has opened its I/O socket until it closes it, no other session with a clashing local endpoint can open its own, whatever the network does. C127 does not hold: as long as one session has its I/O socket open, every open of another session with a clashing local endpoint throws, whatever the devices and the network do. C127 does not hold, also after the other session is closed. On a network where everything works, two sessions that are given clashing local endpoints are opened: the second open throws, as every open would. Then the first session is closed: the second one still cannot be opened, until it is closed although it never was open. C127 (partial: sessions whose local endpoints do not clash). Whatever each session and its device can do alone, they can do together, in every order. Missing: sessions that are given the same local port. C127 (partial: as above) for histories of calls: whatever sequences of calls, with whatever results, are possible for each session alone are possible for all sessions together, with the socket calls in every order."
  },
  {
   "property": "C128",
   "status": "partial",
   "theorems": [
    "Eip.c128_code",
    "Eip.c128_places",
    "Eip.c128_sockets",
    "Eip.c128_no_race_partial",
    "Eip.c128_results_partial",
    "Eip.c128_effects_partial",
    "Eip.c128_unchanged_partial",
    "Eip.c128_ends",
    "Eip.c128_violated_control",
    "Eip.c128_violated_io",
    "Eip.c128_violated_buffer",
    "Eip.c128_violated_connections",
    "Eip.c128_violated_serials",
    "Eip.c128_exact"
   ],
   "note": "C128 is false: two threads race for the control socket if both open, close or send commands, in every state of the session and whatever the sockets answer. C128 is false: a thread that sends or receives I/O data races for the I/O socket with one that sends or receives I/O data, opens or closes the session, in every state of the session, if no socket call fails until then. C128 is false: a command and the receiving of I/O data race for the receive buffer, which they share, in every state of the session, if the command can be sent. C128 is false: a call that would alone make or close a connection races with one that looks at any connection. C128 is false, and this breaks what holds for one thread (C45): two threads that make a connection can send forward open requests with the same connection serial number, vendor id and originator serial number, whatever the state of the session. C128 (partial: threads that only look at connections while no other makes or closes any, or that send I/O data while one other carries out commands). There is never a data race, however the threads are interleaved. Missing: all other combinations, for which it is false (c128_exact). C128 (partial: as above). The results of the calls of every thread are those it would get alone from sockets that answer the same. C128 (partial: as above). Between calls, the socket calls of a thread are those it would have made alone, and whatever its calls would have changed in the session is changed in that way. C128 (partial: as above). Between calls of all threads, what none of them would have changed alone is not changed."
  },
  {
   "property": "C129",
   "status": "partial",
   "theorems": [
    "Eip.c129_distinct",
    "Eip.c129_write",
    "Eip.c129_read_partial",
    "Eip.c129_violated",
    "Eip.c129_exact",
    "Eip.c129_codes"
   ],
   "note": "C129 is false for BOOL: if the device sends any other byte than 0 and 1, such as 255 for true, the bool that is returned has no value, and to return it is undefined behaviour. C129 (partial: BOOL sent as 0 or 1). When the device answers with the bytes of a value, possibly followed by others, getSingleAttribute has sent exactly the get attribute single request for the path and returns the value, whatever the local variable contained. Missing: BOOL sent as another byte, for which it is false (c129_violated)."
  },
  {
   "property": "C130",
   "status": "partial",
   "theorems": [
    "Eip.c130_kept_partial",
    "Eip.c130_received",
    "Eip.c130_violated",
    "Eip.c130_violated_identity"
   ],
   "note": "C130 is false of streams: a frame of which only the header has arrived - 24 bytes - keeps as many bytes of unknown memory as the header announces, up to 65535, and the parse returns. C130 is false of an identity whose parse fails: 33 bytes that announce a name of 255 and end there leave 255 bytes in the product name, because the string is resized before it is filled. C130. Parsing from a buffer, whatever the bytes and whatever the object held before: a frame, a raw buffer, a CPF item, a CPF packet, a message router response, a send-RR-data response and the two connection replies keep at most as many more bytes as they took from the reader, and no more than that if the parse returns. For an identity the same holds of a parse that returns, and one that fails keeps at most 255 bytes more. Missing: streams, and a failed parse of an identity."
  },
  {
   "property": "C131",
   "status": "partial",
   "theorems": [
    "Eip.c131_exact",
    "Eip.c131_violated",
    "Eip.c131_violated_stranger",
    "Eip.c131_found_partial",
    "Eip.c131_one"
   ],
   "note": "C131 is false of networks as such: asked to scan a broadcast address, the scanner always throws and sends nothing, for the socket is never allowed to broadcast. So no device is found, however many would have heard the request. C131 is false when somebody else speaks first: an identity that comes from any host is reported, whoever was asked, and then the scanner does not listen any more, so the answer of the device that was asked is not seen. C131, as far as it holds: the scan of one address finds the device there, if nobody else sends anything. The scan sends one request and returns with nothing left unread; if there is no device at the address, it reports nothing and waits. Missing: broadcast addresses, and networks on which somebody else speaks."
  },
  {
   "property": "C132",
   "status": "partial",
   "theorems": [
    "Eip.c132_follows",
    "Eip.c132_given",
    "Eip.c132_step",
    "Eip.c132_violated",
    "Eip.c132_violated_moved",
    "Eip.c132_gone",
    "Eip.c132_kept_partial"
   ],
   "note": "Violated, by creating: whatever the growth policy of the vector, a connection created when the vector is full leaves every reference handed out before dangling. Violated, by closing: after connection k is closed, the reference handed out for k or a later number silently shows the connection that came after its own, and the last one dangles. The part that holds: over a history that closes only connections behind it, and tries to create no more connections than the vector has room for, a reference keeps showing the connection it was handed out for. Missing: other histories (see c132_violated and c132_violated_moved)."
  },
  {
   "property": "C133",
   "status": "partial",
   "theorems": [
    "Eip.c133_reports_partial",
    "Eip.c133_returns",
    "Eip.c133_violated",
    "Eip.c133_violated_waits",
    "Eip.c133_alone_partial",
    "Eip.c133_first_partial",
    "Eip.c133_made",
    "Eip.c133_destroyed"
   ],
   "note": "C133 is false for the next scan: once a run has come back, no scanner on this service, those made later included, ever reports anything again. A run sends its request and returns at once, whatever mail is there. C133 is false while another scanner waits: the run of scanner i does not come back, although its own scan is over, as long as some other scanner of the service has not been answered. C133, the reports: on a service that no run has brought to its end yet, a run that returns (or waits for more) leaves every scanner, the one that runs and all others, as it would be had it been alone with its own mail: it has reported the same devices. Missing: a service that was run to its end (c133_violated), and when the run returns (c133_violated_waits). C133, the part that holds in full: on a service that no run has brought to its end yet, and while no other scanner waits for mail, a run ends exactly as that of a scanner with a service of its own. Missing: services with other scanners that wait (c133_violated_waits) and services that were run before (c133_violated). C133, the first scan: on a new service, a scanner that is made and run ends as in C131, with a service of its own."
  },
  {
   "property": "C134",
   "status": "partial",
   "theorems": [
    "Eip.c134_stream_partial",
    "Eip.c134_recognised",
    "Eip.c134_violated"
   ],
   "note": "C134 is violated: a value of more than 4076 bytes is sent, but the consumer gets a length_error. C134. A producer sends the values x 0, x 1, … with sendIOPacket, each in a packet with its number. The network delivers to a consumer any packets of these in any order: pick i is the number of the i-th packet that arrives, so packets may be lost, repeated and reordered. Then the consumer reads from the i-th packet the connection id, the number pick i and the value x (pick i), provided that no value takes more than 4076 bytes."
  },
  {
   "property": "C135",
   "status": "partial",
   "theorems": [
    "Eip.c135_model",
    "Eip.c135_response_partial",
    "Eip.c135_reply_partial",
    "Eip.c135_sequenced_partial",
    "Eip.c135_number",
    "Eip.c135_send_partial",
    "Eip.c135_violated"
   ],
   "note": "C135 is violated: a packet of 65535 items that share one payload of 65535 bytes is well formed and takes little memory. On a 64-bit host it is handed to the socket. On a 32-bit host its length wraps around, the vector it is serialized into has 131071 bytes, and length_error is thrown. C135. A message router response is parsed alike on 32-bit and 64-bit hosts, from buffers and from streams, whatever is in them and whatever length is announced, although the lengths are computed in size_t and wrap around. C135. So a session takes the same response out of every reply it receives: this is how it reads the item with the message (rr_data_response.h:130-133). C135. A sequenced data item of any class is parsed alike, if it is said to have at least its two bytes of number. C135. An I/O packet of less than 4 GiB is sent alike."
  },
  {
   "property": "C136",
   "status": "partial",
   "theorems": [
    "Eip.c136_call_partial",
    "Eip.c136_open_partial",
    "Eip.c136_enough",
    "Eip.c136_numbers",
    "Eip.c136_destroy",
    "Eip.c136_violated_create",
    "Eip.c136_violated_remove",
    "Eip.c136_violated_close",
    "Eip.c136_violated_open"
   ],
   "note": "The full claim for createConnection is false: whenever the call would succeed, there is an allocation - that of push_back - whose failure leaves the device with the new connection, all socket calls made, and the session without it. The connection can then not be closed by closeConnection. For closeConnection: whenever the call would succeed, there is an allocation whose failure leaves the session with a connection the device has closed. For close: whenever the call would succeed, there is an allocation - for the message of src/session.cpp:159 - whose failure leaves both sockets open and the session id set although the device has been told that the session is over. For open: whenever the call would succeed, there are allocations whose failure makes it throw with both sockets open and the session registered at the device: one with the session open after all, and one with the session id as it was before, so that nothing will ever unregister it. C136 (every call but open): when the call does not run out of memory, it returns, throws or is undefined exactly as in a world with enough memory. When it does run out, some allocation has failed, std::bad_alloc comes out, the socket calls made are the first few of those it would have made, and neither the session id nor the list of connections has changed. Partial: that nothing has happened to the device or the sockets is false (c136_violated_create, c136_violated_remove, c136_violated_close), and open is different (c136_open_partial). C136 (open): as for the other calls, except that std::bad_alloc may also come when all is done and the session is open. Partial: a caller who gets the exception cannot tell (c136_violated_open)."
  },
  {
   "property": "C137",
   "status": "partial",
   "theorems": [
    "Eip.c137_serials",
    "Eip.c137_connections",
    "Eip.c137_ids",
    "Eip.c137_handle",
    "Eip.c137_session_id",
    "Eip.c137_enough_partial",
    "Eip.c137_violated_pairing"
   ],
   "note": "The full claim - the caller can go on as if the call had not been made - is false: whenever a read request can be sent, there is an allocation whose failure leaves its reply unread. The next read request is sent, and what it receives is the first thing received since both requests, so that over TCP it takes the reply to the first for its own. C137 (enough memory): a history in which no allocation fails is a history of the rest of the model. Partial: when a command has run out of memory after sending, the next one reads the reply meant for it (c137_violated_pairing)."
  },
  {
   "property": "C138",
   "status": "partial",
   "theorems": [
    "Eip.c138_run_partial",
    "Eip.c138_enough",
    "Eip.c138_violated"
   ],
   "note": "The full claim - a device is reported as a whole or not at all, and the scan goes on - is false: for every datagram the handler looks at to its end, and every one of the messages it logs about it, there is an allocation whose failure makes run throw with just the messages before that one logged. Nothing is waiting for another datagram then, so that running again finds no device either (c64_violated_again). C138: when a scan does not run out of memory, it returns, throws or is undefined exactly as otherwise, with the same messages. When it does, some allocation has failed, std::bad_alloc leaves run, and what it has sent, reported and logged is the first part of what it would have. Partial: the report of a device may be cut off anywhere, and no other device is reported (c138_violated)."
  },
  {
   "property": "C139",
   "status": "partial",
   "theorems": [
    "Eip.c139_own_partial",
    "Eip.c139_violated",
    "Eip.c139_violated_ever_after",
    "Eip.c139_violated_next",
    "Eip.c139_reopen",
    "Eip.c139_recovers",
    "Eip.c139_violated_values",
    "Eip.c139_violated_write",
    "Eip.c139_violated_connect"
   ],
   "note": "C139 is violated from the first receive that fails: the answer to that command stays on its way. C139 is violated ever after: once an answer has been left over, no command of whatever history receives the answer to its own request. What is received is, in order, first what was left over and then the answers to the requests of this history, and at least as much is left over at the end as at the beginning, so that each command that receives something gets the answer to an earlier one. The same for one command: whatever it receives is the oldest of what was left over. C139 is violated, what the caller sees: read any attributes one after the other from a device that answers every read with the value of the attribute asked for, over a network that works but for the first receive. The first read throws; every later one returns, as the value of its attribute, the value of the attribute read before it. C139 is violated, for writes: when the receive of a read has failed and the device had a good answer to it, the next write returns normally whatever the device answers to it, even that it refuses; that answer is then on its way. C139 is violated, for connections: ask for connections one after the other from a device that grants every one, over a network that works but for the first receive. Every one of the calls throws and the session has none of the connections, although all the requests were sent and so the device has opened all of them. C139 as far as it holds: when nothing is on its way and no receive fails, every command of a history receives the answer to its own request, whatever it makes of it, and nothing is left over. Missing: commands whose receive fails."
  }
 ]
}