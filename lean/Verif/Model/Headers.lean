/-
The preprocessor on the headers of the library: include guards, and which classes a translation unit gets to see. The tables
are transcribed from the include directives and declarations of the headers. Headers of Boost and of the standard library are
left out.
-/
namespace Eip

/-- The headers of the library (include/odva_ethernetip/**/*.h, one constructor per file). -/
inductive Header
  /-- `connection.h` -/
  | connection
  /-- `cpf_item.h` -/
  | cpfItem
  /-- `cpf_packet.h` -/
  | cpfPacket
  /-- `eip_types.h` -/
  | eipTypes
  /-- `encap_header.h` -/
  | encapHeader
  /-- `encap_packet.h` -/
  | encapPacket
  /-- `forward_close_request.h` -/
  | forwardCloseRequest
  /-- `forward_close_success.h` -/
  | forwardCloseSuccess
  /-- `forward_open_request.h` -/
  | forwardOpenRequest
  /-- `forward_open_success.h` -/
  | forwardOpenSuccess
  /-- `identity_item_data.h` -/
  | identityItemData
  /-- `io_scanner.h` -/
  | ioScanner
  /-- `message_router_request.h` -/
  | messageRouterRequest
  /-- `message_router_response.h` -/
  | messageRouterResponse
  /-- `path.h` -/
  | path
  /-- `register_session_data.h` -/
  | registerSessionData
  /-- `rr_data.h` -/
  | rrData
  /-- `rr_data_request.h` -/
  | rrDataRequest
  /-- `rr_data_response.h` -/
  | rrDataResponse
  /-- `sequenced_address_item.h` -/
  | sequencedAddressItem
  /-- `sequenced_data_item.h` -/
  | sequencedDataItem
  /-- `serialization/buffer_reader.h` -/
  | bufferReader
  /-- `serialization/buffer_writer.h` -/
  | bufferWriter
  /-- `serialization/copy_serializable.h` -/
  | copySerializable
  /-- `serialization/reader.h` -/
  | reader
  /-- `serialization/serializable.h` -/
  | serializable
  /-- `serialization/serializable_buffer.h` -/
  | serializableBuffer
  /-- `serialization/serializable_primitive.h` -/
  | serializablePrimitive
  /-- `serialization/stream_reader.h` -/
  | streamReader
  /-- `serialization/stream_writer.h` -/
  | streamWriter
  /-- `serialization/writer.h` -/
  | writer
  /-- `session.h` -/
  | session
  /-- `socket/socket.h` -/
  | socket
  /-- `socket/tcp_socket.h` -/
  | tcpSocket
  /-- `socket/test_socket.h` -/
  | testSocket
  /-- `socket/udp_socket.h` -/
  | udpSocket
  deriving DecidableEq, Repr

namespace Header

/-- All of them (include/odva_ethernetip/**/*.h). -/
def all : List Header := [
    .connection, .cpfItem, .cpfPacket, .eipTypes, .encapHeader, .encapPacket, .forwardCloseRequest,
  .forwardCloseSuccess, .forwardOpenRequest, .forwardOpenSuccess, .identityItemData, .ioScanner,
  .messageRouterRequest, .messageRouterResponse, .path, .registerSessionData, .rrData, .rrDataRequest,
  .rrDataResponse, .sequencedAddressItem, .sequencedDataItem, .bufferReader, .bufferWriter, .copySerializable,
  .reader, .serializable, .serializableBuffer, .serializablePrimitive, .streamReader, .streamWriter, .writer,
  .session, .socket, .tcpSocket, .testSocket, .udpSocket]

/-- The macro that guards the header, tested with `#ifndef` and then defined (encap_header.h:26-27, and lines 26-27 of every
other header; register_session_data.h:26-27 and identity_item_data.h:26-27 have the same). -/
def guard : Header → String
  | .connection => "ODVA_ETHERNETIP_CONNECTION_H"
  | .cpfItem => "ODVA_ETHERNETIP_CPF_ITEM_H"
  | .cpfPacket => "ODVA_ETHERNETIP_CPF_PACKET_H"
  | .eipTypes => "ODVA_ETHERNETIP_EIP_TYPES_H"
  | .encapHeader => "ODVA_ETHERNETIP_ENCAP_HEADER_H"
  | .encapPacket => "ODVA_ETHERNETIP_ENCAP_PACKET_H"
  | .forwardCloseRequest => "ODVA_ETHERNETIP_FORWARD_CLOSE_REQUEST_H"
  | .forwardCloseSuccess => "ODVA_ETHERNETIP_FORWARD_CLOSE_SUCCESS_H"
  | .forwardOpenRequest => "ODVA_ETHERNETIP_FORWARD_OPEN_REQUEST_H"
  | .forwardOpenSuccess => "ODVA_ETHERNETIP_FORWARD_OPEN_SUCCESS_H"
  | .identityItemData => "ODVA_ETHERNETIP_IDENTITY_ITEM_DATA_H"
  | .ioScanner => "ODVA_ETHERNETIP_IO_SCANNER_H"
  | .messageRouterRequest => "ODVA_ETHERNETIP_MESSAGE_ROUTER_REQUEST_H"
  | .messageRouterResponse => "ODVA_ETHERNETIP_MESSAGE_ROUTER_RESPONSE_H"
  | .path => "ODVA_ETHERNETIP_PATH_H"
  | .registerSessionData => "ODVA_ETHERNETIP_IDENTITY_ITEM_DATA_H"
  | .rrData => "ODVA_ETHERNETIP_RR_DATA_H"
  | .rrDataRequest => "ODVA_ETHERNETIP_RR_DATA_REQUEST_H"
  | .rrDataResponse => "ODVA_ETHERNETIP_RR_DATA_RESPONSE_H"
  | .sequencedAddressItem => "ODVA_ETHERNETIP_SEQUENCED_ADDRESS_ITEM_H"
  | .sequencedDataItem => "ODVA_ETHERNETIP_SEQUENCED_DATA_ITEM_H"
  | .bufferReader => "ODVA_ETHERNETIP_SERIALIZATION_BUFFER_READER_H"
  | .bufferWriter => "ODVA_ETHERNETIP_SERIALIZATION_BUFFER_WRITER_H"
  | .copySerializable => "ODVA_ETHERNETIP_SERIALIZATION_COPY_SERIALIZABLE_H"
  | .reader => "ODVA_ETHERNETIP_SERIALIZATION_READER_H"
  | .serializable => "ODVA_ETHERNETIP_SERIALIZATION_SERIALIZABLE_H"
  | .serializableBuffer => "ODVA_ETHERNETIP_SERIALIZATION_SERIALIZABLE_BUFFER_H"
  | .serializablePrimitive => "ODVA_ETHERNETIP_SERIALIZATION_SERIALIZABLE_PRIMITIVE_H"
  | .streamReader => "ODVA_ETHERNETIP_SERIALIZATION_STREAM_READER_H"
  | .streamWriter => "ODVA_ETHERNETIP_SERIALIZATION_STREAM_WRITER_H"
  | .writer => "ODVA_ETHERNETIP_SERIALIZATION_WRITER_H"
  | .session => "ODVA_ETHERNETIP_SESSION_H"
  | .socket => "ODVA_ETHERNETIP_SOCKET_SOCKET_H"
  | .tcpSocket => "ODVA_ETHERNETIP_SOCKET_TCP_SOCKET_H"
  | .testSocket => "ODVA_ETHERNETIP_SOCKET_TEST_SOCKET_H"
  | .udpSocket => "ODVA_ETHERNETIP_SOCKET_UDP_SOCKET_H"

/-- The headers of the library it includes, in order (the `#include "odva_ethernetip/…"` lines given with each). -/
def includes : Header → List Header
  | .connection => [.eipTypes, .path, .forwardOpenRequest, .forwardOpenSuccess, .forwardCloseRequest,
      .forwardCloseSuccess] -- connection.h:32-37
  | .cpfItem => [.eipTypes, .reader, .writer, .serializable] -- cpf_item.h:31-34
  | .cpfPacket => [.eipTypes, .cpfItem, .reader, .writer, .serializable] -- cpf_packet.h:32-36
  | .eipTypes => [] -- eip_types.h:none
  | .encapHeader => [.eipTypes, .reader, .writer, .serializable] -- encap_header.h:30-33
  | .encapPacket => [.eipTypes, .encapHeader, .reader, .writer, .serializable] -- encap_packet.h:31-36
  | .forwardCloseRequest => [.eipTypes, .serializable, .reader, .writer, .path] -- forward_close_request.h:32-36
  | .forwardCloseSuccess => [.eipTypes, .serializable, .serializableBuffer, .reader, .writer] -- forward_close_success.h:33-37
  | .forwardOpenRequest => [.eipTypes, .serializable, .reader, .writer, .path] -- forward_open_request.h:32-36
  | .forwardOpenSuccess => [.eipTypes, .serializable, .serializableBuffer, .reader, .writer] -- forward_open_success.h:33-37
  | .identityItemData => [.eipTypes, .reader, .writer, .serializable] -- identity_item_data.h:31-34
  | .ioScanner => [.eipTypes] -- io_scanner.h:33
  | .messageRouterRequest => [.eipTypes, .serializable, .reader, .writer, .path] -- message_router_request.h:32-36
  | .messageRouterResponse => [.eipTypes, .serializable, .reader, .writer] -- message_router_response.h:32-35
  | .path => [.eipTypes, .reader, .writer, .serializable] -- path.h:31-34
  | .registerSessionData => [.eipTypes, .reader, .writer, .serializable] -- register_session_data.h:31-34
  | .rrData => [.eipTypes, .cpfItem, .serializable, .reader, .writer] -- rr_data.h:33-37
  | .rrDataRequest => [.eipTypes, .cpfItem, .serializable, .reader, .writer, .rrData, .messageRouterRequest] -- rr_data_request.h:34-40
  | .rrDataResponse => [.eipTypes, .cpfItem, .serializable, .reader, .writer, .copySerializable, .rrData,
      .messageRouterResponse] -- rr_data_response.h:34-41
  | .sequencedAddressItem => [.eipTypes, .reader, .writer, .serializable] -- sequenced_address_item.h:31-34
  | .sequencedDataItem => [.eipTypes, .reader, .writer, .serializable] -- sequenced_data_item.h:31-34
  | .bufferReader => [.eipTypes, .reader] -- serialization/buffer_reader.h:32-33
  | .bufferWriter => [.eipTypes, .writer] -- serialization/buffer_writer.h:32-33
  | .copySerializable => [.serializable] -- serialization/copy_serializable.h:29
  | .reader => [.eipTypes] -- serialization/reader.h:32
  | .serializable => [.writer, .reader] -- serialization/serializable.h:29-30
  | .serializableBuffer => [.serializable, .writer, .reader, .bufferReader] -- serialization/serializable_buffer.h:31-34
  | .serializablePrimitive => [.serializable, .writer, .reader] -- serialization/serializable_primitive.h:29-31
  | .streamReader => [.reader] -- serialization/stream_reader.h:33
  | .streamWriter => [.writer] -- serialization/stream_writer.h:32
  | .writer => [.eipTypes] -- serialization/writer.h:31
  | .session => [.eipTypes, .socket, .serializable, .serializablePrimitive, .encapPacket, .cpfPacket, .rrDataResponse,
      .path, .connection] -- session.h:35-43
  | .socket => [.serializable, .bufferWriter] -- socket/socket.h:38-39
  | .tcpSocket => [.socket] -- socket/tcp_socket.h:32
  | .testSocket => [.socket] -- socket/test_socket.h:32
  | .udpSocket => [.socket] -- socket/udp_socket.h:32

/-- The classes, types and functions of the library it declares (the line of each declaration is given; eip_types.h:34-105). -/
def declares : Header → List String
  | .connection => ["Connection"] -- connection.h:46
  | .cpfItem => ["CPFItem"] -- cpf_item.h:48
  | .cpfPacket => ["CPFPacket"] -- cpf_packet.h:49
  | .eipTypes => ["EIP_TYPE_CODE", "EIP_CMD_T", "EIP_STATUS_T", "EIP_ITEM_T", "EIP_CONNECTION_INFO_T", "EIP_BOOL",
      "EIP_BYTE", "EIP_USINT", "EIP_SINT", "EIP_WORD", "EIP_UINT", "EIP_INT", "EIP_DWORD", "EIP_UDINT", "EIP_DINT"] -- eip_types.h:34-105
  | .encapHeader => ["EncapHeader"] -- encap_header.h:44
  | .encapPacket => ["EncapPacket"] -- encap_packet.h:50
  | .forwardCloseRequest => ["ForwardCloseRequest"] -- forward_close_request.h:49
  | .forwardCloseSuccess => ["ForwardCloseSuccess"] -- forward_close_success.h:53
  | .forwardOpenRequest => ["ForwardOpenRequest", "CONN_PRIORITY_T", "CONN_TYPE_T"] -- forward_open_request.h:52-66
  | .forwardOpenSuccess => ["ForwardOpenSuccess"] -- forward_open_success.h:53
  | .identityItemData => ["IdentityItemData"] -- identity_item_data.h:46
  | .ioScanner => ["IOScanner"] -- io_scanner.h:43
  | .messageRouterRequest => ["MessageRouterRequest"] -- message_router_request.h:49
  | .messageRouterResponse => ["MessageRouterResponse"] -- message_router_response.h:48
  | .path => ["Path"] -- path.h:50
  | .registerSessionData => ["RegisterSessionData"] -- register_session_data.h:46
  | .rrData => ["RRData"] -- rr_data.h:51
  | .rrDataRequest => ["RRDataRequest"] -- rr_data_request.h:54
  | .rrDataResponse => ["RRDataResponse"] -- rr_data_response.h:56
  | .sequencedAddressItem => ["SequencedAddressItem"] -- sequenced_address_item.h:46
  | .sequencedDataItem => ["SequencedDataItem"] -- sequenced_data_item.h:49
  | .bufferReader => ["BufferReader"] -- serialization/buffer_reader.h:45
  | .bufferWriter => ["BufferWriter"] -- serialization/buffer_writer.h:44
  | .copySerializable => ["copy_serializable"] -- serialization/copy_serializable.h:34
  | .reader => ["Reader"] -- serialization/reader.h:42
  | .serializable => ["Serializable"] -- serialization/serializable.h:38
  | .serializableBuffer => ["SerializableBuffer"] -- serialization/serializable_buffer.h:45
  | .serializablePrimitive => ["SerializablePrimitive"] -- serialization/serializable_primitive.h:41
  | .streamReader => ["StreamReader"] -- serialization/stream_reader.h:49
  | .streamWriter => ["StreamWriter"] -- serialization/stream_writer.h:47
  | .writer => ["Writer"] -- serialization/writer.h:41
  | .session => ["Session"] -- session.h:61
  | .socket => ["Socket"] -- socket/socket.h:58
  | .tcpSocket => ["TCPSocket"] -- socket/tcp_socket.h:45
  | .testSocket => ["TestSocket"] -- socket/test_socket.h:44
  | .udpSocket => ["UDPSocket"] -- socket/udp_socket.h:45

/-- The names of the library its own text uses (in the whole header after the `#include` lines). -/
def uses : Header → List String
  | .connection => ["EIP_UINT", "EIP_UDINT", "EIP_BYTE", "EIP_USINT", "EIP_CONNECTION_INFO_T", "Path",
      "ForwardOpenRequest", "ForwardCloseRequest", "ForwardOpenSuccess", "ForwardCloseSuccess"]
  | .cpfItem => ["Serializable", "Reader", "Writer", "EIP_UINT"]
  | .cpfPacket => ["Serializable", "Reader", "Writer", "EIP_UINT", "CPFItem"]
  | .eipTypes => []
  | .encapHeader => ["Serializable", "Reader", "Writer", "EIP_UINT", "EIP_UDINT", "EIP_DWORD"]
  | .encapPacket => ["Serializable", "Reader", "Writer", "EIP_UINT", "EIP_UDINT", "EncapHeader"]
  | .forwardCloseRequest => ["Serializable", "Reader", "Writer", "EIP_BYTE", "EIP_USINT", "EIP_UINT", "EIP_UDINT", "Path"]
  | .forwardCloseSuccess => ["Serializable", "SerializableBuffer", "Reader", "Writer", "EIP_UINT", "EIP_UDINT", "EIP_USINT"]
  | .forwardOpenRequest => ["Serializable", "Reader", "Writer", "EIP_BYTE", "EIP_USINT", "EIP_UDINT", "EIP_UINT",
      "EIP_DWORD", "Path"]
  | .forwardOpenSuccess => ["Serializable", "SerializableBuffer", "Reader", "Writer", "EIP_UDINT", "EIP_UINT", "EIP_USINT"]
  | .identityItemData => ["Serializable", "Reader", "Writer", "EIP_UINT", "EIP_USINT", "EIP_WORD", "EIP_UDINT"]
  | .ioScanner => ["EIP_BYTE"]
  | .messageRouterRequest => ["Serializable", "Reader", "Writer", "EIP_USINT", "Path"]
  | .messageRouterResponse => ["Serializable", "Reader", "Writer", "EIP_USINT"]
  | .path => ["Serializable", "Reader", "Writer", "EIP_USINT"]
  | .registerSessionData => ["Serializable", "Reader", "Writer", "EIP_UINT"]
  | .rrData => ["Serializable", "Reader", "Writer", "EIP_UDINT", "EIP_UINT", "CPFItem"]
  | .rrDataRequest => ["Serializable", "Reader", "Writer", "RRData", "EIP_USINT", "MessageRouterRequest", "Path", "CPFItem"]
  | .rrDataResponse => ["Serializable", "Reader", "Writer", "copy_serializable", "RRData", "EIP_USINT", "CPFItem",
      "MessageRouterResponse"]
  | .sequencedAddressItem => ["Serializable", "Reader", "Writer", "EIP_UDINT"]
  | .sequencedDataItem => ["Serializable", "Reader", "Writer", "EIP_UINT"]
  | .bufferReader => ["Reader"]
  | .bufferWriter => ["Writer"]
  | .copySerializable => ["Serializable"]
  | .reader => []
  | .serializable => ["Writer", "Reader"]
  | .serializableBuffer => ["Serializable", "Writer", "Reader", "BufferReader"]
  | .serializablePrimitive => ["Serializable", "Writer", "Reader"]
  | .streamReader => ["Reader"]
  | .streamWriter => ["Writer"]
  | .writer => []
  | .session => ["Serializable", "SerializablePrimitive", "Socket", "EIP_UINT", "EIP_UDINT", "EIP_USINT",
      "EIP_CONNECTION_INFO_T", "Connection", "CPFPacket", "EIP_BYTE", "EncapPacket", "RRDataResponse", "Path"]
  | .socket => ["Serializable", "BufferWriter"]
  | .tcpSocket => ["Socket"]
  | .testSocket => ["Socket"]
  | .udpSocket => ["Socket"]

end Header

/-- A translation unit while it is preprocessed: the macros that are defined, and the headers whose text it contains so far, in
the order of the text (encap_header.h:26-110 and the other headers). Simplification: of the text only its headers matter. -/
structure Text where
  macros : List String
  text : List Header
  deriving DecidableEq, Repr

/-- Preprocessing a list of `#include` directives (encap_header.h:26-110 and the other headers): if the guard of the header is
defined, nothing is left of it; otherwise the guard is defined, then the headers it includes are preprocessed, then its own
text follows. -/
inductive Expands : List Header → Text → Text → Prop
  | nil (u : Text) : Expands [] u u
  | skip {h : Header} {hs : List Header} {u u' : Text} (defined : h.guard ∈ u.macros) (t : Expands hs u u') : Expands (h :: hs) u u'
  | enter {h : Header} {hs : List Header} {u u1 u' : Text} (undefined : h.guard ∉ u.macros)
      (inner : Expands h.includes { u with macros := h.guard :: u.macros } u1)
      (t : Expands hs { u1 with text := u1.text ++ [h] } u') : Expands (h :: hs) u u'

/-- The library's own sources and tests: file, the headers of the library it includes, and the names of the library it uses
(src/*.cpp and test/**/*.cpp). -/
def ownUnits : List (String × List Header × List String) := [
  ("src/connection.cpp", [.connection],
    ["Connection", "EIP_CONNECTION_INFO_T", "EIP_USINT", "ForwardOpenRequest", "ForwardCloseRequest", "Path",
      "ForwardOpenSuccess", "ForwardCloseSuccess"]),
  ("src/copy_serializable.cpp", [.copySerializable, .serializableBuffer, .bufferReader, .bufferWriter],
    ["copy_serializable", "Serializable", "SerializableBuffer", "BufferReader", "BufferWriter"]),
  ("src/cpf_item.cpp", [.cpfItem, .serializableBuffer, .copySerializable],
    ["SerializableBuffer", "Writer", "CPFItem", "Reader", "EIP_UINT", "Serializable", "copy_serializable"]),
  ("src/cpf_packet.cpp", [.cpfPacket],
    ["CPFPacket", "CPFItem", "Writer", "Reader", "EIP_UINT"]),
  ("src/encap_header.cpp", [.encapHeader],
    ["Reader", "Writer", "EncapHeader"]),
  ("src/encap_packet.cpp", [.encapPacket, .serializableBuffer, .bufferReader, .bufferWriter, .copySerializable],
    ["SerializableBuffer", "BufferReader", "BufferWriter", "EncapPacket", "Serializable", "copy_serializable",
      "Writer", "Reader"]),
  ("src/identity_item_data.cpp", [.identityItemData],
    ["IdentityItemData", "EIP_USINT", "Writer", "Reader"]),
  ("src/io_scanner.cpp", [.ioScanner, .eipTypes, .bufferReader, .bufferWriter, .encapPacket, .cpfPacket, .cpfItem,
      .identityItemData, .socket],
    ["BufferReader", "BufferWriter", "IOScanner", "EncapPacket", "CPFPacket", "IdentityItemData"]),
  ("src/message_router_response.cpp", [.messageRouterResponse, .serializableBuffer],
    ["SerializableBuffer", "MessageRouterResponse", "EIP_USINT", "Reader", "Serializable"]),
  ("src/path.cpp", [.path],
    ["Path", "EIP_USINT", "Writer", "EIP_BYTE"]),
  ("src/rr_data.cpp", [.rrData, .cpfPacket, .cpfItem],
    ["Writer", "RRData", "CPFPacket", "CPFItem", "Reader"]),
  ("src/session.cpp", [.bufferReader, .bufferWriter, .session, .eipTypes, .encapPacket, .registerSessionData,
      .rrDataRequest, .rrDataResponse],
    ["BufferReader", "BufferWriter", "Session", "Socket", "EIP_UINT", "EIP_UDINT", "RegisterSessionData",
      "EncapPacket", "EIP_USINT", "Serializable", "RRDataResponse", "Path", "RRDataRequest", "EIP_CONNECTION_INFO_T",
      "Connection", "ForwardOpenRequest", "ForwardOpenSuccess", "ForwardCloseRequest", "ForwardCloseSuccess",
      "CPFPacket"]),
  ("test/cpf_item_test.cpp", [.cpfItem, .serializableBuffer, .bufferWriter, .bufferReader],
    ["CPFItem", "SerializableBuffer", "BufferWriter", "BufferReader"]),
  ("test/cpf_packet_test.cpp", [.cpfPacket, .serializableBuffer, .bufferWriter, .bufferReader],
    ["CPFPacket", "EIP_BYTE", "BufferWriter", "EIP_UDINT", "SerializableBuffer", "CPFItem"]),
  ("test/encap_header_test.cpp", [.bufferWriter, .bufferReader, .encapHeader],
    ["EncapHeader", "BufferWriter", "EIP_USINT", "BufferReader"]),
  ("test/encap_packet_test.cpp", [.encapPacket, .serializableBuffer, .bufferWriter, .bufferReader],
    ["Serializable", "Writer", "Reader", "EncapPacket", "SerializableBuffer", "EIP_USINT", "BufferWriter", "BufferReader"]),
  ("test/forward_close_request_test.cpp", [.forwardCloseRequest, .serializableBuffer, .bufferReader, .bufferWriter],
    ["SerializableBuffer", "BufferReader", "BufferWriter", "EIP_BYTE", "ForwardCloseRequest"]),
  ("test/forward_close_success_test.cpp", [.forwardCloseSuccess, .serializableBuffer, .bufferReader, .bufferWriter],
    ["ForwardCloseSuccess", "SerializableBuffer", "BufferReader", "BufferWriter", "EIP_BYTE"]),
  ("test/forward_open_request_test.cpp", [.forwardOpenRequest, .serializableBuffer, .bufferReader, .bufferWriter],
    ["SerializableBuffer", "BufferReader", "BufferWriter", "ForwardOpenRequest", "EIP_BYTE"]),
  ("test/forward_open_success_test.cpp", [.forwardOpenSuccess, .serializableBuffer, .bufferReader, .bufferWriter],
    ["ForwardOpenSuccess", "SerializableBuffer", "BufferReader", "BufferWriter", "EIP_BYTE"]),
  ("test/identity_item_data_test.cpp", [.identityItemData, .serializableBuffer, .bufferWriter, .bufferReader],
    ["EIP_BYTE", "BufferReader", "IdentityItemData", "BufferWriter"]),
  ("test/message_router_request_test.cpp", [.messageRouterRequest, .serializableBuffer, .bufferReader, .bufferWriter],
    ["MessageRouterRequest", "SerializableBuffer", "BufferReader", "BufferWriter", "EIP_BYTE"]),
  ("test/message_router_response_test.cpp", [.messageRouterResponse, .serializableBuffer, .bufferReader, .bufferWriter],
    ["MessageRouterResponse", "SerializableBuffer", "BufferReader", "BufferWriter", "EIP_BYTE"]),
  ("test/path_test.cpp", [.path, .bufferWriter],
    ["Path", "BufferWriter", "EIP_BYTE"]),
  ("test/rr_data_request_test.cpp", [.rrDataRequest, .path, .serializableBuffer, .bufferReader, .bufferWriter],
    ["RRDataRequest", "Path", "SerializableBuffer", "BufferReader", "BufferWriter", "EIP_BYTE"]),
  ("test/rr_data_response_test.cpp", [.rrDataResponse, .serializableBuffer, .bufferReader, .bufferWriter],
    ["RRDataResponse", "SerializableBuffer", "BufferReader", "BufferWriter", "EIP_BYTE"]),
  ("test/rr_data_test.cpp", [.rrData, .bufferReader, .bufferWriter],
    ["RRData", "BufferReader", "BufferWriter", "EIP_BYTE"]),
  ("test/sequenced_address_item_test.cpp", [.sequencedAddressItem, .serializableBuffer, .bufferWriter, .bufferReader],
    ["EIP_BYTE", "BufferReader", "SequencedAddressItem", "BufferWriter"]),
  ("test/serialization/buffer_reader_test.cpp", [.bufferReader],
    ["Reader", "BufferReader", "EIP_UDINT"]),
  ("test/serialization/buffer_writer_test.cpp", [.bufferWriter],
    ["Writer", "BufferWriter", "EIP_UDINT"]),
  ("test/serialization/serializable_buffer_test.cpp", [.bufferWriter, .bufferReader, .streamReader, .serializableBuffer],
    ["Serializable", "SerializableBuffer", "BufferWriter", "BufferReader", "StreamReader"]),
  ("test/serialization/serializable_primitive_test.cpp", [.bufferWriter, .bufferReader, .serializablePrimitive],
    ["Serializable", "SerializablePrimitive", "EIP_UDINT", "BufferWriter", "EIP_INT", "BufferReader"]),
  ("test/serialization/stream_reader_test.cpp", [.streamReader],
    ["Reader", "StreamReader", "EIP_UDINT"]),
  ("test/serialization/stream_writer_test.cpp", [.streamWriter],
    ["Writer", "StreamWriter", "EIP_UDINT"]),
  ("test/session_test.cpp", [.session, .testSocket, .rrDataResponse, .sequencedAddressItem, .sequencedDataItem,
      .serializableBuffer, .serializablePrimitive],
    ["TestSocket", "Session", "EIP_UDINT", "EIP_UINT", "EIP_CONNECTION_INFO_T", "CPFPacket", "SequencedAddressItem"]),
  ("test/test_main.cpp", [],
    []),
  ("test/test_socket_test.cpp", [.testSocket, .bufferReader],
    ["TestSocket", "Socket"])]

end Eip
