{"id": "C01", "title": "Unsigned integers encode big-endian or are refused, never wrapped", "statement": "For UBInt8/16/32/64, pack(v) of an int (or enum member, or another UBInt holding an int) n with 0 <= n < 2^bits returns exactly bits/8 bytes, the big-endian representation of n; every other value (negative, too large, None without a default, str, bytes, bitmask object) raises PackException. Nothing is ever truncated or wrapped. (UBInt128, which no structure of the library uses, refuses every value.)", "quantifier": "every width, every Python value passed to pack, every default value of the attribute", "why_tests_cant": "The value range is unbounded on both sides (all ints) and up to 2^64 inside; tests sample a few.", "anchors": ["pyof/foundation/basic_types.py:UBInt8", "pyof/foundation/basic_types.py:UBInt16", "pyof/foundation/basic_types.py:UBInt32", "pyof/foundation/basic_types.py:UBInt64", "pyof/foundation/base.py:GenericType.pack"]}
{"id": "C02", "title": "Unsigned integers decode what is on the wire at any offset", "statement": "UBIntN().unpack(buff, offset) either raises UnpackException or leaves a value equal to the big-endian number in the N/8 bytes at that offset; it raises exactly when the buffer is too short there or the number is not a member of the attribute's enum. Packing the result gives back the same bytes, and bytes outside the window do not matter. (For N = 8, 16, 32, 64; UBInt128 decodes only the first two of its 16 bytes.)", "quantifier": "every buffer, every offset, every enum_ref (none, enum with any member set, bitmask)", "why_tests_cant": "Quantifies over all byte strings and offsets.", "anchors": ["pyof/foundation/base.py:GenericType.unpack", "pyof/foundation/basic_types.py:UBInt8"]}
{"id": "C03", "title": "MAC addresses survive the wire", "statement": "For HWAddress: unpack of any 6 bytes gives lower-case colon-separated hex whose pack is those 6 bytes; whenever pack(s) succeeds the result has 6 bytes and unpacking it yields the canonical spelling of the same address (equal to s under ==), at any offset; shorter input raises UnpackException. A decoded address is_broadcast() exactly when its six bytes are ff. (An address the user wrote with other spelling of ff is not, which is shown by a counterexample.) pack succeeds exactly for six hexadecimal numbers from 0 to 255 separated by colons, which are the bytes, and for a zero.", "quantifier": "all 2^48 addresses, all strings accepted by pack, all buffers and offsets", "why_tests_cant": "2^48 addresses and unboundedly many spellings.", "anchors": ["pyof/foundation/basic_types.py:HWAddress"]}
{"id": "C04", "title": "IPv4 addresses survive the wire", "statement": "For IPAddress: unpack of any 4 bytes gives dotted decimal whose pack is those bytes; whenever pack(s) succeeds (with or without a /prefix) the result has 4 bytes and unpacking it gives the canonical dotted decimal of the same address; shorter input raises UnpackException. The constructor splits off a /prefix; a prefix that is not a number or a second slash is refused with ValueError. pack succeeds exactly when what is before the first slash is four decimal numbers from 0 to 255 separated by dots, which are the bytes; it raises ValueError if a part is no number and PackException if there are not four or one does not fit.", "quantifier": "all 2^32 addresses, all strings accepted by pack, all buffers and offsets", "why_tests_cant": "2^32 addresses, unbounded spellings.", "anchors": ["pyof/foundation/basic_types.py:IPAddress"]}
{"id": "C05", "title": "IPv6 addresses survive the wire and '::' means the right zeros", "statement": "For IPv6Address: unpack of any 16 bytes gives eight 4-digit hex groups whose pack is those bytes; the constructor expands '::' (leading, trailing, middle or alone) to the address with exactly 8 groups in which the missing groups are zero, in the right place. It splits off a /prefix like that of IPAddress. pack succeeds exactly when the text before the first slash is eight hexadecimal numbers below 65536 separated by colons; it raises ValueError if a part is no number (as in an abbreviated text that has not gone through the constructor) and PackException if there are not eight or one does not fit.", "quantifier": "all 2^128 addresses, all positions and lengths of the zero run, all groups", "why_tests_cant": "2^128 addresses and all abbreviations.", "anchors": ["pyof/foundation/basic_types.py:IPv6Address"]}
{"id": "C06", "title": "Datapath ids survive the wire", "statement": "For DPID: unpack of any 8 bytes gives colon-separated lower-case hex that packs to the same bytes; whenever pack(s) succeeds it yields 8 bytes and unpack gives the canonical spelling of the same id. pack succeeds exactly for eight hexadecimal numbers from 0 to 255 separated by colons; it raises ValueError if a part is no number and struct.error if there are not eight or one does not fit.", "quantifier": "all 2^64 ids, all strings accepted by pack, all buffers and offsets", "why_tests_cant": "2^64 ids.", "anchors": ["pyof/foundation/basic_types.py:DPID"]}
{"id": "C07", "title": "Fixed-length strings are NUL-terminated, zero padded and recovered", "statement": "For Char(length=n), n>0: pack of any ASCII string gives exactly n bytes, the last one NUL: the first min(len, n-1) characters followed by NULs. Unpacking returns that prefix without its trailing NULs, so every string of at most n-1 characters not ending in NUL comes back unchanged.", "quantifier": "all n>0, all ASCII strings, all buffers and offsets", "why_tests_cant": "Unbounded strings and lengths.", "anchors": ["pyof/foundation/basic_types.py:Char"]}
{"id": "C08", "title": "get_size() equals the number of bytes pack() produces", "statement": "For every attribute type, every struct built from them (nested to any depth), every list, every message class and every network packet class, whenever pack() succeeds its result has exactly get_size() bytes. Exceptions of the code are listed explicitly: VLAN without tag fields, bare v0x04 ActionHeader, v0x04 ActionExperimenter with an unaligned body, Bucket with a wrong user length, Char(length=0) or a Char of another length assigned to a Char attribute, attributes declared as a bare FixedTypeList (MeterMod.bands, GroupDescStats.buckets, Bucket.actions), a multipart message whose body is a plain Python list (get_size() raises ValueError).", "quantifier": "all values, all struct declarations over library types, all lists", "why_tests_cant": "Ranges over all declarations and all values.", "anchors": ["pyof/foundation/base.py:GenericStruct.get_size", "pyof/foundation/basic_types.py:TypeList.get_size", "pyof/v0x04/common/action.py:ActionHeader.get_size", "pyof/foundation/network_types.py:VLAN.get_size"]}
{"id": "C09", "title": "A struct's encoding is its attributes' encodings in declaration order", "statement": "pack() of a struct is the concatenation, in class declaration order, of the encodings of its attribute values; it fails with the first failing attribute's error. In particular changing one attribute changes no byte outside that attribute's slot when slot sizes are unchanged.", "quantifier": "every struct class (any attribute list), every instance", "why_tests_cant": "All class declarations and values.", "anchors": ["pyof/foundation/base.py:GenericStruct.pack", "pyof/foundation/base.py:GenericStruct._get_named_attributes"]}
{"id": "C10", "title": "The wire layout does not depend on the order of assignments", "statement": "After constructing a struct and then performing any sequence of attribute assignments and deletions-free updates (including attributes that are not declared fields), pack() encodes, for each declared field, the last value assigned to it, in declaration order.", "quantifier": "every class, every finite history of setattr calls", "why_tests_cant": "Unbounded histories; the code zips two ordered dicts positionally.", "anchors": ["pyof/foundation/base.py:GenericStruct._get_instance_attributes", "pyof/foundation/base.py:GenericStruct._get_named_attributes", "pyof/foundation/base.py:GenericStruct.__init__"]}
{"id": "C11", "title": "Struct round trip is compositional", "statement": "If every attribute of a struct class decodes what it encodes and knows its own size (is self-delimiting; the last may extend to the end of the buffer), then so does the struct: unpack(prefix + pack(x) + suffix, len(prefix)) yields a struct all of whose attributes hold the same content as x. This covers user-defined structs nested to any depth.", "quantifier": "every struct declaration, every instance, every prefix and suffix", "why_tests_cant": "Ranges over all declarations, including user-defined ones.", "anchors": ["pyof/foundation/base.py:GenericStruct.unpack", "pyof/foundation/base.py:GenericStruct._unpack_attribute"]}
{"id": "C12", "title": "Truncated structs are detected", "statement": "For a fixed-size struct of UBInt/HWAddress/IPAddress/IPv6Address/Pad attributes, unpack of a non-empty buffer that ends before the end of the last non-pad attribute raises UnpackException. (The empty buffer is accepted and leaves class defaults: stated and proved as the code's behaviour.)", "quantifier": "every fixed-size struct, every buffer, every truncation point", "why_tests_cant": "All truncation points of all structs.", "anchors": ["pyof/foundation/base.py:GenericStruct._unpack_attribute"]}
{"id": "C13", "title": "Decoding any list terminates", "statement": "For every list class of the library, every input buffer and every offset, unpack of the list terminates: each decoded item advances the read position by at least one byte, so at most one item per byte is decoded. pyof.utils.unpack terminates on every argument.", "quantifier": "all buffers, all offsets, all list classes", "why_tests_cant": "Termination on all inputs is not testable.", "anchors": ["pyof/foundation/basic_types.py:TypeList.unpack", "pyof/foundation/basic_types.py:FixedTypeList.unpack"]}
{"id": "C14", "title": "Lists round trip", "statement": "For a list whose items are self-delimiting with positive size, unpack(pack(l)) gives a list of the same length with the same contents in the same order, and nothing before the offset is read.", "quantifier": "lists of any length, any item class meeting the contract, any prefix", "why_tests_cant": "Unbounded length.", "anchors": ["pyof/foundation/basic_types.py:TypeList.pack", "pyof/foundation/basic_types.py:TypeList.unpack"]}
{"id": "C15", "title": "FixedTypeList holds only instances of its class", "statement": "Starting from any constructor call and after any sequence of append, extend, insert and unpack operations (including failed ones), every element is an instance of the declared class; an offending operation raises WrongListItemType. The constructor takes a list (flattening nested ones), one item, or a value that counts as false for the empty list. Item assignment, += and other inherited list mutators are not checked (shown by a counterexample).", "quantifier": "every finite history of operations with arbitrary arguments, nested list arguments to any depth", "why_tests_cant": "Unbounded histories and nesting.", "anchors": ["pyof/foundation/basic_types.py:FixedTypeList.append", "pyof/foundation/basic_types.py:FixedTypeList.insert", "pyof/foundation/basic_types.py:TypeList.extend"]}
{"id": "C16", "title": "ConstantTypeList is homogeneous", "statement": "After any sequence of append, extend and insert, all elements have the same class as the first element, or the operation raised WrongListItemType; elements added before the failure stay.", "quantifier": "every finite history of operations", "why_tests_cant": "Unbounded histories.", "anchors": ["pyof/foundation/basic_types.py:ConstantTypeList.append", "pyof/foundation/basic_types.py:ConstantTypeList.insert"]}
{"id": "C17", "title": "Every packed message starts with a truthful header", "statement": "For every message object that packs, whatever the user wrote in header.length before: byte 0 is the version, byte 1 the message type, bytes 2-3 the big-endian total length of the packet, bytes 4-7 the xid. The length is right for any attribute values, except where get_size() is wrong (C08); the classes that pack their body first are right even then. A message longer than 65535 bytes raises PackException. Violated by MeterMod with bands, whose bare FixedTypeList is counted as zero bytes, by a bucket with a wrong length and by a bare v0x04 ActionHeader (shown with witnesses).", "quantifier": "all message classes of both versions, all field values, all previous header.length values", "why_tests_cant": "All message contents.", "anchors": ["pyof/foundation/base.py:GenericMessage.pack", "pyof/foundation/base.py:GenericMessage.update_header_length"]}
{"id": "C18", "title": "validate_packet accepts exactly well-framed packets", "statement": "validate_packet(p) returns iff p is bytes, 8 <= len(p) <= 65535, the big-endian number in bytes 2-3 equals len(p), and 1 <= p[0] <= 127; otherwise it raises UnpackException. (The code's own bound 2^16 is unreachable because of the length field.)", "quantifier": "all Python values", "why_tests_cant": "All byte strings.", "anchors": ["pyof/utils.py:validate_packet"]}
{"id": "C19", "title": "OpenFlow 1.0 messages survive pack and unpack", "statement": "For every v0x01 message class and every message object that packs, pyof.utils.unpack(m.pack()) succeeds and yields a message of the same class, with the same xid and the same content in every attribute, provided that the enumerated fields (among them some port numbers) hold enum members, structures that announce their own length announce the right one, a StatsRequest or StatsReply body belongs to the body_type, and a QueueGetConfigReply has at most one queue. Without these provisos the code violates it (shown with witnesses: a FlowMod or queue request whose port number is no member is refused, all but the last queue are swallowed).", "quantifier": "all 22 message classes, all field values, all list lengths", "why_tests_cant": "All messages.", "anchors": ["pyof/utils.py:unpack", "pyof/v0x01/common/utils.py:unpack_message"]}
{"id": "C20", "title": "OpenFlow 1.3 messages survive pack and unpack", "statement": "For the 28 v0x04 message classes whose header carries their own number and every message object that packs, pyof.utils.unpack(m.pack()) succeeds and yields a message of the same class, with the same xid and the same content in every attribute, provided that the enumerated fields (among them some port numbers) hold enum members, structures that announce their own length announce the right one, an OXM has one of the four classes, a multipart body belongs to the multipart_type, and masks declared with an enumeration hold one of its members. For QueueGetConfigRequest and QueueGetConfigReply, whose header carries the number of another message, it holds once the caller corrects header.message_type, except that the decoded header has the wrong number again. Violations are shown with witnesses: SetAsync with two reasons in a mask, the two queue messages as constructed, ordinary ports in them.", "quantifier": "all 30 message classes, all field values, all list lengths", "why_tests_cant": "All messages.", "anchors": ["pyof/utils.py:unpack", "pyof/v0x04/common/utils.py:unpack_message"]}
{"id": "C21", "title": "Message type dispatch is total and faithful", "statement": "For each version, every value of the Type enumeration selects one message class, every non-member is rejected with UnpackException by pyof.utils.unpack, and the class selected by the type code that a message object packs is the object's own class (violated by the v0x04 QueueGetConfig pair, which pack the GetConfig codes).", "quantifier": "all 256 type codes, both versions", "why_tests_cant": "Exhaustive over codes combined with all messages.", "anchors": ["pyof/v0x01/common/utils.py:MESSAGE_TYPES", "pyof/v0x04/common/utils.py:MESSAGE_TYPES"]}
{"id": "C22", "title": "The exceptions of pyof.utils.unpack", "statement": "pyof.utils.unpack applied to any argument either returns a message, raises UnpackException, or, for ten message types, raises one of a fixed list of other exceptions: v0x01 FeaturesReply (struct.error, Exception), PortStatus (Exception), StatsRequest (TypeError), StatsReply (Exception); v0x04 FeaturesReply (struct.error), PortStatus (Exception), FlowMod (TypeError), MultipartRequest (Exception, TypeError), MultipartReply (Exception, TypeError, KeyError), MeterMod (KeyError). So the intended contract (only UnpackException) holds for every other type, and is refuted by a witness packet for every entry of the list.", "quantifier": "all byte strings", "why_tests_cant": "All inputs, including adversarial ones.", "anchors": ["pyof/utils.py:unpack", "pyof/foundation/basic_types.py:DPID.unpack", "pyof/foundation/basic_types.py:Char.unpack"]}
{"id": "C23", "title": "Packing twice gives the same bytes", "statement": "For every struct and message, if pack() succeeds then calling pack() again on the same object (whose length fields the first call updated) returns the same bytes, and so does every further call. Violated by network_types.IPv4 with options (proved: with at least four bytes of options two packs never agree), proved for the messages and structures of both versions, the other packet classes and IPv4 without options.", "quantifier": "all objects", "why_tests_cant": "All objects and states.", "anchors": ["pyof/foundation/base.py:GenericMessage.pack", "pyof/foundation/network_types.py:IPv4.pack", "pyof/v0x04/common/flow_match.py:Match.pack"]}
{"id": "C24", "title": "v0x01 Match: wildcards agree with the fields after any assignments", "statement": "After creating a Match with any arguments and any sequence of assignments to its fields (raising ones included), for each of the ten flag fields the wildcard bit is clear iff the value last assigned differs from the field's default, a field never assigned stays wildcarded, and the 6-bit nw_src/nw_dst counters equal 32 minus the netmask of the address last assigned. Assigning wildcards directly only affects the fields not assigned afterwards. Counterexamples of the code, outside these values: a non-canonical spelling of the zero MAC toggles the bit at each assignment, None clears the bit although it packs as the default, a netmask outside 0..32 spills into other fields' bits.", "quantifier": "all finite assignment histories, all values", "why_tests_cant": "Unbounded histories.", "anchors": ["pyof/v0x01/common/flow_match.py:Match.__setattr__", "pyof/v0x01/common/flow_match.py:Match.fill_wildcards"]}
{"id": "C25", "title": "v0x01 Match decode keeps the wire's wildcards", "statement": "Match().unpack of any 40 bytes yields exactly the wildcards value present in the first four bytes, whatever the other fields contain, and re-packing gives the same bytes up to padding.", "quantifier": "all 40-byte windows of all buffers", "why_tests_cant": "2^320 inputs.", "anchors": ["pyof/v0x01/common/flow_match.py:Match.unpack"]}
{"id": "C26", "title": "OXM TLVs encode class, field, mask bit and length and come back", "statement": "For an OxmTLV with class member, a field allowed for the class, mask flag and a value of at most 255 bytes, pack() gives class (2 bytes), field*2+mask (1), len(value) (1), value; unpack at any offset recovers all four; longer values or fields out of range raise PackException.", "quantifier": "all classes, fields, masks, values", "why_tests_cant": "Unbounded value content.", "anchors": ["pyof/v0x04/common/flow_match.py:OxmTLV"]}
{"id": "C27", "title": "v0x04 Match is padded to 8 bytes and round trips", "statement": "Match.pack() has length a multiple of 8 equal to get_size(), its length field is the length without padding, the padding is zero, and unpack in any context yields the same match type and the same OXM list.", "quantifier": "all OXM lists of any length", "why_tests_cant": "Unbounded lists.", "anchors": ["pyof/v0x04/common/flow_match.py:Match"]}
{"id": "C28", "title": "Match.get_field returns the first TLV of that field", "statement": "get_field(f) returns the value of the first TLV in the match whose field equals f, and None iff there is none. (It ignores the OXM class: shown. PacketIn.in_port relies on it and raises TypeError when the match has no IN_PORT field: shown.)", "quantifier": "all matches, all fields", "why_tests_cant": "Unbounded lists.", "anchors": ["pyof/v0x04/common/flow_match.py:Match.get_field"]}
{"id": "C29", "title": "v0x01 action lists round trip", "statement": "A list of v0x01 actions (of the 10 concrete classes with a type allowed for the class) packs to the concatenation of the actions and unpacks to the same classes and fields in order.", "quantifier": "action lists of any length and content", "why_tests_cant": "Unbounded lists.", "anchors": ["pyof/v0x01/common/action.py"]}
{"id": "C30", "title": "v0x04 action lists round trip and stay 8-byte aligned", "statement": "Every concrete v0x04 action that packs with its declared length packs to a multiple of 8 bytes equal to its length field; lists of them unpack to the same classes and fields in order.", "quantifier": "action lists of any length and content", "why_tests_cant": "Unbounded lists.", "anchors": ["pyof/v0x04/common/action.py"]}
{"id": "C31", "title": "v0x04 instruction lists round trip", "statement": "Every instruction packs with a length field equal to its encoded size; lists of instructions, with nested action lists, unpack to the same classes, fields and nested actions.", "quantifier": "instruction lists of any length with action lists of any length", "why_tests_cant": "Unbounded nested lists.", "anchors": ["pyof/v0x04/common/flow_instructions.py"]}
{"id": "C32", "title": "Hello elements round trip", "statement": "A v0x04 Hello with any list of elements (any type, any content) packs with element length fields equal to the element sizes and unpacks to the same elements.", "quantifier": "all element lists", "why_tests_cant": "Unbounded lists.", "anchors": ["pyof/v0x04/symmetric/hello.py"]}
{"id": "C33", "title": "PacketOut separates actions from data", "statement": "PacketOut.pack() writes in actions_len the encoded size of the actions; unpack splits the body at exactly that point: actions decode to the actions and the rest is the data, byte for byte. pack() is refused exactly when in_port is not a valid ingress port: with ValidationError for a number, with TypeError for a missing or non-numeric port.", "quantifier": "all action lists, all data, all in_port values", "why_tests_cant": "Unbounded.", "anchors": ["pyof/v0x01/controller2switch/packet_out.py", "pyof/v0x04/controller2switch/packet_out.py"]}
{"id": "C34", "title": "Error messages decode to the right code enumeration", "statement": "Unpacking an error message yields a code that is a member of the enumeration belonging to its error type; a (type, code) pair not in the tables is rejected; accepted pairs re-encode to the same bytes with the same data.", "quantifier": "all type and code values, all data", "why_tests_cant": "2^32 pairs and unbounded data.", "anchors": ["pyof/v0x01/asynchronous/error_msg.py", "pyof/v0x04/asynchronous/error_msg.py"]}
{"id": "C35", "title": "802.1Q tags carry pcp, cfi and vid", "statement": "For pcp<8, cfi<2, vid<4096 (any of them may be None, read as 0, but not all) VLAN.pack() gives the TPID (0x8100 by default) followed by the 16-bit TCI pcp:3 cfi:1 vid:12. unpack of 4 bytes with TPID 0x8100 or 0x88a8 recovers all three at any offset; TPID 0 gives a tag without parts; any other TPID, and fewer than 4 bytes of a non-empty buffer, raise UnpackException.", "quantifier": "all field values, all buffers", "why_tests_cant": "All combinations and buffers.", "anchors": ["pyof/foundation/network_types.py:VLAN"]}
{"id": "C36", "title": "Ethernet frames round trip through any number of VLAN tags", "statement": "An Ethernet frame with any list of VLAN tags, any non-VLAN ether type and any payload unpacks (at offset 0) to the same addresses, tags, type and payload. Every buffer that holds the addresses, complete tags and a type unpacks to an object that packs to exactly that buffer; every other buffer raises UnpackException. At non-zero offsets the code reads the tags at the wrong place (shown).", "quantifier": "any number of tags, any payload", "why_tests_cant": "Unbounded.", "anchors": ["pyof/foundation/network_types.py:Ethernet"]}
{"id": "C37", "title": "IPv4 headers carry a valid checksum", "statement": "For an IPv4 packet without options the 16-bit one's-complement sum over the packed header is 0xffff, total length is 20+len(data), and unpack recovers every field. With options the code's checksum omits them and the second pack changes the header length, so that a packet that was packed and decoded never packs to the same bytes again (shown).", "quantifier": "all field values, all payloads", "why_tests_cant": "Arithmetic over all values.", "anchors": ["pyof/foundation/network_types.py:IPv4"]}
{"id": "C38", "title": "IPv6 headers round trip", "statement": "For an IPv6 packet with fields in range, pack() gives version/traffic class/flow label packed in 32 bits, payload length equal to len(data), and unpack recovers every field and the data.", "quantifier": "all field values, all payloads", "why_tests_cant": "All values.", "anchors": ["pyof/foundation/network_types.py:IPv6"]}
{"id": "C39", "title": "LLDP TLVs carry type and length faithfully up to 511 bytes", "statement": "For type<128 and a value of at most 511 bytes, GenericTLV.pack() gives type:7 length:9 then the value, and unpack recovers both in any context; a longer value is encoded with a wrong length (shown). An LLDP packet refuses attributes that are not TLVs of the right kind with PackException.", "quantifier": "all types, all values", "why_tests_cant": "Unbounded value.", "anchors": ["pyof/foundation/network_types.py:GenericTLV", "pyof/foundation/network_types.py:TLVWithSubType", "pyof/foundation/network_types.py:LLDP"]}
{"id": "C40", "title": "ARP packets round trip", "statement": "An ARP object that packs unpacks to the same fields; get_size is 28 bytes; unpack refuses other hardware/protocol types than the library supports.", "quantifier": "all field values", "why_tests_cant": "All values.", "anchors": ["pyof/foundation/network_types.py:ARP"]}
{"id": "C41", "title": "v0x01 statistics bodies decode to the class of their type", "statement": "For StatsRequest and StatsReply, packing a message whose body is the object (or list of objects) belonging to body_type and unpacking it yields the same objects; the in-memory body is unchanged by a successful pack(). A pack() that raises leaves the body replaced by its bytes (shown).", "quantifier": "all body types, all list lengths and contents", "why_tests_cant": "Unbounded.", "anchors": ["pyof/v0x01/controller2switch/stats_request.py", "pyof/v0x01/controller2switch/stats_reply.py"]}
{"id": "C42", "title": "v0x04 multipart bodies decode to the class of their type", "statement": "For MultipartRequest and MultipartReply, packing a message whose body is the object (or list) belonging to multipart_type and unpacking it yields the same objects; the in-memory body is unchanged by a successful pack(). Types for which the code fails are shown, and a pack() that raises leaves the body replaced by its bytes (shown).", "quantifier": "all multipart types, list lengths and contents", "why_tests_cant": "Unbounded.", "anchors": ["pyof/v0x04/controller2switch/multipart_request.py", "pyof/v0x04/controller2switch/multipart_reply.py"]}
{"id": "C43", "title": "Comparisons of wrapped integers agree with the integers", "statement": "For UBInt values and ints (or IntEnum members) in the range of the UBInt, x == y and x != y agree with the integers in both operand orders, so do <, <=, >, >= and +, |, &, ^ for all integers (negative ones in two's complement), and UBInt << int, UBInt >> int (ValueError for a negative shift). Counterexamples of the code: with a UBInt on the right `-` always has its operands swapped (also UBInt - UBInt); shifting by a UBInt always raises TypeError; == of two UBInts of one class raises PackException when a value does not fit the width; == and != are both true for two spellings of one MAC address and for a decoded bit mask and its number.", "quantifier": "all integers, both operand orders", "why_tests_cant": "All integers.", "anchors": ["pyof/foundation/base.py:GenericType.__eq__", "pyof/foundation/base.py:GenericType.__rsub__"]}
{"id": "C44", "title": "Version inheritance keeps the field order and retargets versions", "statement": "A struct class derived from another version's class has exactly the parent's fields minus the removed ones, redefined fields in the parent's position, new fields after, in declaration order, and inherited version-specific types are replaced by the current version's; replacing a version in a module path changes only the version and is the identity or refused when there is none. Two limits are shown: a message type of value 0 is not carried over, and a version that is repeated in a module name is replaced at both places.", "quantifier": "all parent field lists, overrides, removals and module names", "why_tests_cant": "All class declarations.", "anchors": ["pyof/foundation/base.py:MetaStruct.__new__", "pyof/foundation/base.py:MetaStruct.replace_pyof_version", "pyof/foundation/base.py:MetaStruct.get_pyof_version"]}
{"id": "C45", "title": "Encoding is injective on content", "statement": "Two messages (or structs) of one class that pack to the same bytes have the same content; hence == on structs, which compares encodings, identifies exactly the objects with the same content.", "quantifier": "all pairs of objects", "why_tests_cant": "All pairs.", "anchors": ["pyof/foundation/base.py:GenericStruct.__eq__"]}
{"id": "C46", "title": "Accepted packets re-encode stably", "statement": "If pyof.utils.unpack(p) returns m for arbitrary bytes p, then m.pack() succeeds, unpacking its result gives a message with the same content (padding, unused bytes and announced lengths normalised), and that message packs to the same bytes. The code violates this for header-only packets of classes with a body, packet-outs with a forbidden input port, first elements announcing length 0, unaligned ActionExperimenter bodies, MeterMod bands, Bucket lengths that are not exact and empty single-structure statistics bodies; proved for all other accepted packets.", "quantifier": "all byte strings", "why_tests_cant": "All inputs.", "anchors": ["pyof/utils.py:unpack", "pyof/foundation/base.py:GenericStruct.pack"]}
{"id": "C47", "title": "Decoding reads only its own window", "statement": "Decoding an attribute, a struct or a list at an offset depends only on the bytes it consumes. Changing the bytes before the offset does not change the result, neither the object nor the exception. When the buffer goes on after the window of the decoded object (get_size() bytes from the offset), replacing what follows by anything, or cutting it off, does not change the object. So the bytes of the window give the same object wherever they are put. Two exceptions are proved to be such: at offset 0 a structure that announces length 0 leaves a new object instead of raising, and the size of GroupDescStats leaves its buckets out.", "quantifier": "all buffers, offsets, all struct declarations over fixed-size attributes, and all 70 structure and list classes of both versions with any content and any announced length", "why_tests_cant": "All pairs of buffers.", "anchors": ["pyof/foundation/base.py:GenericStruct.unpack", "pyof/foundation/basic_types.py:FixedTypeList.unpack", "pyof/v0x04/common/action.py:ActionHeader.unpack", "pyof/v0x04/common/flow_match.py:Match.unpack", "pyof/v0x04/common/flow_match.py:OxmTLV.unpack", "pyof/v0x04/controller2switch/common.py:Bucket.unpack"]}
{"id": "C48", "title": "The xid is preserved and random xids are valid", "statement": "A message constructed with xid x (0 <= x < 2^32) packs with x and unpacks with x; a message constructed without xid has an xid that packs.", "quantifier": "all xids, all outcomes of the random generator", "why_tests_cant": "2^32 values.", "anchors": ["pyof/foundation/base.py:GenericMessage.__init__"]}
{"id": "C49", "title": "is_valid of a wrapped value never reports an invalid value", "statement": "GenericType.is_valid() is documented to return whether pack() succeeds. The code never returns False: it returns True or lets PackException escape (proved as behaviour and as refutation of the documented contract).", "quantifier": "all values", "why_tests_cant": "All values.", "anchors": ["pyof/foundation/base.py:GenericType.is_valid"]}
{"id": "C50", "title": "Instances do not share state", "statement": "Constructing or unpacking an object (successfully or not) never changes the class attributes or an object of another instance: the attribute objects of an instance are fresh copies, two instances never have an object in common unless the caller hands one over to the other, and a new instance always has the content the class attributes had after the import. The exception is AggregateStatsRequest() of v0x01 called without match: all such instances share the one Match() that is the default value of the parameter.", "quantifier": "all interleavings of construction, unpacking and in-place updates of attributes", "why_tests_cant": "All histories.", "anchors": ["pyof/foundation/base.py:GenericStruct.__init__", "pyof/foundation/base.py:GenericStruct._unpack_attribute"]}
{"id": "C51", "title": "Length-delimited structures nest safely", "statement": "For structures that carry their own length (FlowStats, MeterStats, TableFeatures and its properties, Bucket, HelloElemHeader, Instruction), decoding consumes exactly the declared length, so sequences of such structures with variable-length tails decode element by element.", "quantifier": "all sequences", "why_tests_cant": "Unbounded sequences.", "anchors": ["pyof/v0x01/controller2switch/common.py:FlowStats", "pyof/v0x04/controller2switch/multipart_reply.py:FlowStats", "pyof/v0x04/controller2switch/common.py:TableFeatures"]}
{"id": "C52", "title": "Queue, group, meter replies with several variable-length entries", "statement": "A reply carrying a list of PacketQueue (v0x01/v0x04), GroupStats, GroupDescStats or MeterConfig entries decodes to the same list. The code violates this for two or more entries with non-empty tails (proved with witnesses); it holds for the last entry. Of GroupDescStats, no entry with a bucket and no second entry is ever decoded, whatever the bytes of the reply.", "quantifier": "all lists", "why_tests_cant": "Unbounded lists.", "anchors": ["pyof/v0x01/common/queue.py:PacketQueue", "pyof/v0x04/controller2switch/multipart_reply.py:GroupStats"]}
{"id": "C53", "title": "Packing leaves the message content unchanged", "statement": "A successful pack() changes nothing in the message except computed length fields: the content (every field a peer would read, apart from lengths) is the same before and after.", "quantifier": "all message classes of both versions, all field values", "why_tests_cant": "All message contents; pack() updates the object in place.", "anchors": ["pyof/foundation/base.py:GenericMessage.pack", "pyof/v0x04/controller2switch/multipart_reply.py:MultipartReply.pack"]}
{"id": "C54", "title": "Every structure survives the wire on its own, at any offset", "statement": "For every structure and list class of both versions (matches, OXM TLVs, ports, queues and queue properties, actions, instructions, buckets, bands, table-feature properties, hello elements, all statistics bodies): pack() of an instance, then unpack() of those bytes at any offset of any buffer, gives an instance with the same content that packs to the same bytes, and get_size() is the number of bytes. Classes that run to the end of their buffer need the bytes to be last.", "quantifier": "all structure and list classes, all contents, all offsets and surrounding bytes", "why_tests_cant": "Arbitrary contents of arbitrary nested structures in arbitrary buffers.", "anchors": ["pyof/foundation/base.py:GenericStruct.pack", "pyof/foundation/base.py:GenericStruct.unpack", "pyof/v0x01/common", "pyof/v0x04/common"]}
{"id": "C55", "title": "Queues carry their properties", "statement": "The properties of a queue (minimum rate, maximum rate, experimenter) that are put in PacketQueue.properties are packed with the queue, and a queue configuration reply that describes a queue with a rate is decoded.", "quantifier": "all queues, all rates, both versions", "why_tests_cant": "All rates; the outcome depends on whether the rate happens to be a property number.", "anchors": ["pyof/v0x01/common/queue.py:QueuePropMinRate", "pyof/v0x04/common/queue.py:QueuePropMinRate", "pyof/v0x04/common/queue.py:ListOfProperties"]}
{"id": "C56", "title": "Experimenter errors can be sent and received", "statement": "ErrorExperimenterMsg.pack() gives the packet of its content, and pyof.utils.unpack of that packet gives the experimenter error back.", "quantifier": "all experimenter types, ids, data and transaction ids", "why_tests_cant": "All experimenter types; only one of 65536 behaves differently.", "anchors": ["pyof/v0x04/asynchronous/error_msg.py:ErrorExperimenterMsg"]}
{"id": "C57", "title": "Bit mask classes know their flags", "statement": "For every GenericBitMask subclass: Class.NAME is the declared number of the flag, a name that is not declared is reported like a missing attribute, and the names of a mask are exactly the declared flags that share a bit with it, in order of declaration. Everything else in the class body stays what it was.", "quantifier": "all class bodies, all masks", "why_tests_cant": "Any set of flags with any values and any of 2^32 or more masks.", "anchors": ["pyof/foundation/base.py:MetaBitMask", "pyof/foundation/base.py:GenericBitMask.names", "pyof/foundation/base.py:GenericBitMask.iteritems"]}
{"id": "C58", "title": "A message made from a type or a header is of that type", "statement": "new_message_from_header and new_message_from_message_type give a message of the class of the type, however the type is written (member, number, name, UBInt8), carrying the transaction id and length of the header; an unknown type is a ValueError; and unpack_message decodes the header, makes the message from it and decodes the body from the rest.", "quantifier": "all types of both versions, all ways of writing them, all transaction ids and lengths, all packets", "why_tests_cant": "All headers and all packets; the several ways to write a type go through different branches.", "anchors": ["pyof/v0x01/common/utils.py:new_message_from_header", "pyof/v0x04/common/utils.py:new_message_from_header", "pyof/v0x01/common/utils.py:new_message_from_message_type", "pyof/v0x04/common/utils.py:unpack_message"]}
{"id": "C59", "title": "int() of a decoded number is the number on the wire", "statement": "int(x) of every wrapped integer, decoded from any bytes or made by the user, is the number its bytes encode.", "quantifier": "all widths, all bytes, all fields", "why_tests_cant": "All field contents; fields with flags behave differently.", "anchors": ["pyof/foundation/base.py:UBIntBase.__int__"]}
{"id": "C60", "title": "What a constructor is given is what is sent", "statement": "Every argument of a message or structure constructor, by position or by name, is stored in the attribute of the parameter's name, arguments left out take the documented default, wrong argument lists raise TypeError, and pack() of the new message is the packet with exactly those values in the fields of those names.", "quantifier": "all message and structure classes of both versions, all argument lists and values", "why_tests_cant": "Every combination of given and omitted arguments with any values.", "anchors": ["pyof/v0x01/*/*.py:__init__", "pyof/v0x04/*/*.py:__init__", "pyof/foundation/base.py:GenericMessage.__init__"]}
{"id": "C61", "title": "Actions, instructions, table properties and bands announce their length", "statement": "An action, instruction, table feature property or meter band made by its constructor can be packed when its arguments fit, and its length field is the number of bytes it packs to (for actions a multiple of 8).", "quantifier": "all classes of the four families in both versions, all arguments, any nested actions", "why_tests_cant": "All arguments and all contents of nested lists.", "anchors": ["pyof/v0x01/common/action.py", "pyof/v0x04/common/action.py", "pyof/v0x04/common/flow_instructions.py", "pyof/v0x04/controller2switch/meter_mod.py", "pyof/v0x04/controller2switch/common.py:Property"]}
{"id": "C62", "title": "A deep copy equals its original and is independent of it", "statement": "copy.deepcopy of an instance or of a part of it, whose fields hold plain values, changes no existing object and gives an object with the same content, none of whose parts existed before; from then on nothing that is done with the one changes the other. It succeeds for every object without cycles that is not deeper than the recursion limit. A basic object such as BinaryData that holds another object shares that object with its copy.", "quantifier": "all instances after any history of constructions, unpackings, updates, copies and handings over, including instances with shared parts and cycles", "why_tests_cant": "All histories and all object graphs.", "anchors": ["pyof/foundation/base.py:GenericType.__deepcopy__", "pyof/foundation/basic_types.py:FixedTypeList.__deepcopy__", "pyof/foundation/base.py:GenericStruct.__init__"]}
{"id": "C63", "title": "A stream of packets can be cut by the header length", "statement": "Any sequence of packed messages of one version, concatenated and delivered in pieces of any sizes, is recovered by decoding a Header from the first eight bytes and taking as many bytes as its length tells: exactly the packets that were sent are found, an incomplete last one remains in the buffer, and each packet found decodes to a message of the same class, transaction id and content.", "quantifier": "all sequences of messages, all ways of cutting the stream into pieces", "why_tests_cant": "Unbounded sequences and all segmentations.", "anchors": ["pyof/foundation/base.py:GenericMessage.pack", "pyof/foundation/base.py:GenericMessage.update_header_length", "pyof/v0x01/common/header.py:Header", "pyof/v0x04/common/header.py:Header", "pyof/utils.py:unpack"]}
{"id": "C64", "title": "A constructed action, instruction, property or band is decoded as its own class", "statement": "An action, instruction, table property or meter band made by its constructor, whatever the arguments, carries a type number that stands for its class: packed with a representable content it is decoded, at any place of any buffer, as an object of the same class with the same content. Classes whose type or length the caller gives are excluded unless the default is used.", "quantifier": "all classes with a type of their own, all arguments, all surrounding bytes", "why_tests_cant": "All argument values and surrounding bytes for every class; two classes may share a number without any single test noticing.", "anchors": ["pyof/v0x01/common/action.py", "pyof/v0x04/common/action.py", "pyof/v0x04/common/flow_instructions.py", "pyof/v0x04/controller2switch/meter_mod.py", "pyof/v0x04/controller2switch/common.py"]}
{"id": "C65", "title": "A link probe arrives with the switch and port it was made with", "statement": "The constructors of the network packets (ARP, VLAN, Ethernet, the TLV classes, LLDP) store each argument in its attribute, with the documented defaults. An LLDP packet with a DPID as chassis id and a port number as port id, put in an Ethernet frame, put as data in a PacketOut or PacketIn of either version, and packed, is read back by unpacking message, frame and LLDP packet: the same datapath id and the same port. get_hash of an Ethernet frame depends only on its content, and for a received frame it is the hash of its bytes.", "quantifier": "all addresses, datapath ids, ports of 1 to 8 bytes, all other contents of the message, all hash functions", "why_tests_cant": "The composition of five encoders and decoders over all identifiers and message contents; a test sees a handful of frames.", "anchors": ["pyof/foundation/network_types.py:60-448", "pyof/foundation/network_types.py:714-792", "pyof/v0x01/controller2switch/packet_out.py", "pyof/v0x04/asynchronous/packet_in.py"]}
{"id": "C66", "title": "What does not fit is refused with PackException and nothing else", "statement": "pack() of a message whose attributes are of the documented kinds either returns the packet or raises PackException; it returns exactly when the body can be encoded and the length and the transaction id fit in their fields. A PacketOut with an input port that is not allowed raises ValidationError instead, whatever else is wrong with it. The same holds for every structure and list class on its own, and their get_size() never raises. A structure class asked to pack a number, text, bytes or list raises PackException. (A v0x04 FlowMod whose match is not a Match raises ValueError.)", "quantifier": "all message, structure and list classes, all attribute values of the documented kinds with numbers of any size, all transaction ids", "why_tests_cant": "The set of values that do not fit is unbounded and spread over every attribute of every class; a test tries one bad value at a time and cannot exclude another exception or a silent truncation.", "anchors": ["pyof/foundation/base.py:148-177", "pyof/foundation/base.py:685-721", "pyof/foundation/base.py:800-836", "pyof/foundation/basic_types.py", "pyof/v0x01/controller2switch/packet_out.py:53-92", "pyof/v0x04/controller2switch/packet_out.py", "pyof/v0x04/common/flow_match.py"]}
{"id": "C67", "title": "An object can be decoded into again", "statement": "unpack() is a method and may be called on an object that has been used: filled by the user, decoded into before at any offset, or left half decoded by an exception. For every message class and every structure it ends as on a new object: the same exception or none, and if it returns, the attributes that pack() and get_size() see are those a new object would have (a message keeps its header). The same holds for OXM TLVs, the OpenFlow 1.3 match and the network packets (ARP, VLAN, Ethernet, IPv4, IPv6, LLDP TLVs), including the attributes that are not on the wire (vid, oxm_hasmask, ...). An action, instruction, meter band or table property constructed as some class may be decoded as others in between and is right again whenever the bytes hold its own class; an object of the base class is right the first time. After an exception the object is of the class of the type that was read, if that far it came; a v0x04 action keeps its class unless the length could be read too. (It fails when the class changes from one decoded class to another, because the dictionary keeps the old order; for types no class has; and lists append to what they hold.)", "quantifier": "all message classes, structures and network packets, all histories of assignments and decodings, all byte strings", "why_tests_cant": "Tests decode into new objects. The state an object can be in depends on its whole history, including attributes left behind by failed calls, and the order in which attributes were first created decides how pack() pairs them.", "anchors": ["pyof/foundation/base.py:595-658", "pyof/foundation/base.py:723-733", "pyof/foundation/base.py:828-844", "pyof/v0x01/common/action.py:75-101", "pyof/v0x04/common/action.py:120-145", "pyof/v0x04/common/flow_instructions.py:98-119", "pyof/v0x01/controller2switch/stats_request.py:58-79", "pyof/foundation/basic_types.py:688-703", "pyof/foundation/network_types.py:193-221", "pyof/foundation/network_types.py:306-335", "pyof/v0x04/common/flow_match.py:214-252"]}
{"id": "C68", "title": "Several threads may pack the same message at once, and an interrupted pack() does no damage", "statement": "pack() stores lengths in the message and in the matches, TLVs, actions, instructions and hello elements inside it. Threads that pack the same message at the same time nevertheless all get the packet (or exception) that pack() gives alone, none is ever stuck, each ends after finitely many steps, and at every moment in between the message packs to that same packet. A pack() that is interrupted at any moment, by an exception of its own or from outside, does not change what the next pack() returns. (It fails for several threads if an ActionSetField needs padding, whose length is assigned twice; and for the messages that put the packed body in place of the body while packing: StatsRequest, StatsReply, MultipartRequest, MultipartReply and the v0x01 ErrorMsg.)", "quantifier": "all message classes, all attribute values, any number of threads, all interleavings of their attribute reads and assignments, all points of interruption", "why_tests_cant": "The number of interleavings grows exponentially with the steps of pack(); a race shows up once in millions of runs, and a test cannot stop pack() between two given assignments.", "anchors": ["pyof/foundation/base.py:699-718", "pyof/foundation/base.py:800-852", "pyof/v0x04/common/flow_match.py:254-281", "pyof/v0x04/common/flow_match.py:364-384", "pyof/v0x04/common/action.py:398-418", "pyof/v0x04/common/flow_instructions.py:76-96", "pyof/v0x04/symmetric/hello.py:49-69", "pyof/v0x01/controller2switch/stats_reply.py:35-55", "pyof/v0x04/controller2switch/multipart_request.py:74-104", "pyof/v0x01/asynchronous/error_msg.py:204-229"]}
{"id": "C69", "title": "is_valid() tells whether a message is ready to pack", "statement": "is_valid() of a message answers True if pack() would return a packet; if it answers False or raises, pack() raises, so an invalid message is never sent. PacketOut answers True exactly for the input ports the specification allows. (The other direction fails: every other class always answers True, also for messages pack() refuses, and PacketOut raises TypeError instead of answering when it has no input port.)", "quantifier": "all message classes, all attribute values of any Python type", "why_tests_cant": "It relates two methods over all values of all attributes of 52 classes.", "anchors": ["pyof/foundation/base.py:784-798", "pyof/v0x01/controller2switch/packet_out.py:53-65", "pyof/v0x01/controller2switch/packet_out.py:112-129", "pyof/v0x04/controller2switch/packet_out.py:62-75"]}
{"id": "C70", "title": "pack(value) packs the value", "statement": "Like every other pack method, m.pack(x) of a message returns x.pack() if x is a message of the class of m, raises PackException if x is anything else, and is m.pack() if x is None. (It fails for StatsRequest, StatsReply, MultipartRequest and MultipartReply: they take x for a body, so that a message x ends up whole inside the packet of m. If x is a body, the packet is that of m with x as its body.)", "quantifier": "all message classes, all pairs of messages, all other arguments", "why_tests_cant": "It quantifies over pairs of messages with arbitrary content; the classes that override pack() treat the argument differently and no test calls them with one.", "anchors": ["pyof/foundation/base.py:800-826", "pyof/v0x01/controller2switch/stats_request.py:41-57", "pyof/v0x01/controller2switch/stats_reply.py:35-55", "pyof/v0x04/controller2switch/multipart_request.py:74-104", "pyof/v0x04/controller2switch/multipart_reply.py:88-114"]}
{"id": "C71", "title": "Messages may share objects", "statement": "Values given to a message are stored, not copied, so the same match, instruction, list of actions or action may be in several messages, and pack() of one of them assigns lengths in all of them. Each message nevertheless packs to the packet (or raises the exception) that it would give with objects of its own: whether the messages are packed one after the other, in any order, any number of times and with interruptions, or by several threads at once; no thread gets stuck and all end. (It fails for several threads if a shared ActionSetField needs padding.)", "quantifier": "all lists of messages of the classes that keep their attributes while packing, all sets of shared objects at places of the same kind, any number of threads, all interleavings, all orders of packing and points of interruption", "why_tests_cant": "The ways of sharing objects between messages, the orders of packing and the interleavings are unbounded; a test has one arrangement and one order.", "anchors": ["pyof/v0x04/controller2switch/flow_mod.py:120-121", "pyof/v0x04/controller2switch/packet_out.py:60", "pyof/v0x04/common/flow_instructions.py:76-83", "pyof/v0x04/common/flow_match.py:254-281", "pyof/v0x04/common/flow_match.py:364-384", "pyof/v0x04/common/action.py:398-418", "pyof/foundation/basic_types.py:647-659"]}
{"id": "C72", "title": "What is decoded is not out of proportion to the packet", "statement": "Whatever the bytes of a packet, and whatever lengths it announces inside, the message that unpack returns holds at most five objects, text characters and data bytes for each byte of the packet, plus 120. The same holds for every structure and list on its own, measured by the size it reports: at most five per byte of its size, plus a constant. (Only GroupDescStats reports a size that leaves out what it holds.)", "quantifier": "all byte strings", "why_tests_cant": "A packet that makes the decoder build far more than it carries has to be found by someone who looks for it among all byte strings; lengths nested in lengths, overlapping lists and elements of size zero are the places where it would be.", "anchors": ["pyof/utils.py:unpack", "pyof/foundation/basic_types.py:687-717", "pyof/foundation/base.py:720-750", "pyof/v0x04/common/flow_match.py:387-394", "pyof/v0x04/controller2switch/multipart_reply.py:116-139"]}
{"id": "C73", "title": "Packing between changes leaves no trace", "statement": "A program may change a message (assign attributes anywhere in it, append to, insert into, delete from and reorder its lists) and call pack() any number of times in between. Each pack() gives the packet (or exception) that the message would give if it had been changed in the same way but never packed before: the lengths that earlier calls stored in the header, in PacketOut, in matches, match fields, instructions, actions and hello elements are never used. This holds also when earlier calls raised, were given up at any moment, or were made by several threads. (It fails for StatsRequest, StatsReply, MultipartRequest, MultipartReply and the ErrorMsg of 1.0 once a pack() has raised: the packed body stays in place of the body. Several threads at once only while no ActionSetField needs padding.)", "quantifier": "all messages of the classes that keep their attributes, all sequences of changes and calls of pack(), all points of interruption, any number of threads and all interleavings", "why_tests_cant": "The histories of a message are unbounded; a test that packs, changes and packs again has one history, and a stale length only shows for the change that follows.", "anchors": ["pyof/foundation/base.py:800-852", "pyof/v0x04/common/flow_match.py:254-281", "pyof/v0x04/common/flow_match.py:364-384", "pyof/v0x04/common/action.py:398-418", "pyof/v0x04/common/flow_instructions.py:76-96", "pyof/v0x04/symmetric/hello.py:49-69", "pyof/v0x04/controller2switch/packet_out.py:115-127", "pyof/v0x01/controller2switch/packet_out.py:105-129", "pyof/v0x04/controller2switch/multipart_request.py:88-104"]}
{"id": "C74", "title": "A packet that a controller changes and sends on arrives with the changes and nothing else", "statement": "A controller unpacks a PacketIn or PacketOut (either version), the Ethernet frame in its data (with any VLAN tags) and the IPv4 or IPv6 packet in the frame, assigns attributes of the packet and the addresses and tags of the frame, packs packet and frame and sends the result in another message. What arrives is the frame with the new addresses and tags around the packet with the new values, with the length of its data and (IPv4) a valid checksum; all else is as received, and if nothing is changed and the checksum was right the frame goes out byte for byte as it came in. A controller that answers an ARP request sends a reply to the sender that names the address asked for, its own MAC address and the one that asked. (It fails for IPv4 packets with options, see C37, and for packets that are followed by the padding of a short Ethernet frame: the padding is taken for data and the length grows.)", "quantifier": "all frames, VLAN tags, packets, assignments and carrying messages", "why_tests_cant": "The composition of message, frame and packet codecs over all contents and all changes; a test replays a few captured packets.", "anchors": ["pyof/foundation/network_types.py:60-132", "pyof/foundation/network_types.py:135-222", "pyof/foundation/network_types.py:240-334", "pyof/foundation/network_types.py:531-612", "pyof/foundation/network_types.py:672-712", "pyof/utils.py:38-63"]}
{"id": "C75", "title": "Network packets may be packed by several threads, interrupted, and changed between packs", "statement": "An Ethernet frame, VLAN tag, ARP, IPv4, IPv6, LLDP or TLV object that several threads pack at once gives each of them the bytes (or exception) that pack() gives on its own; no thread gets stuck, and at every moment, also if some threads never finish, the object packs to the same bytes. Between such packs the object may be changed in any way (assignments to any attribute at any depth, changes of the list of VLANs): it packs to the bytes it would give had it only been changed and never packed. (It fails for IPv4 packets with options, where each pack() adds to ihl and two threads can send a header of the wrong length, and for VLAN tags with some but not all of pcp, cfi and vid, where pack() replaces None by 0 for good: a tag whose only value is later reset to None is then sent as four bytes instead of none.)", "quantifier": "all packets of the eight classes, any number of threads, all interleavings and points of interruption, all sequences of changes and packs", "why_tests_cant": "Interleavings of attribute reads and assignments of threads, interrupted at any point, combined with arbitrary changes in between.", "anchors": ["pyof/foundation/network_types.py:111-113", "pyof/foundation/network_types.py:164-186", "pyof/foundation/network_types.py:224-334", "pyof/foundation/network_types.py:398-415", "pyof/foundation/network_types.py:531-575", "pyof/foundation/network_types.py:672-687", "pyof/foundation/base.py:685-715"]}
{"id": "C76", "title": "pack() and get_size() of messages and of structures on their own may be called by several threads between changes", "statement": "Threads that call get_size() on a message while another thread packs it get the size that get_size() gives on its own, at whatever moments they run, and the packing thread gets the right packet. The same holds for matches, TLVs, actions, instructions, buckets, hello elements, table properties, table features, flow and meter statistics and the other structures that update their own length fields, when they are used on their own and not inside a message. No thread gets stuck, calls may be given up at any moment, and between such uses the object may be changed in any way at any depth: every later pack() or get_size() returns (or raises) what it would if the object had only been changed and never packed or measured. (Several threads may also pack at once, unless an ActionSetField needs padding; the messages that replace their body while packing are excepted.)", "quantifier": "all objects of 47 message classes and of the structures that assign while packing, any number of threads, all interleavings and points of interruption, all sequences of changes and uses", "why_tests_cant": "Interleavings of single attribute reads and assignments, interrupted anywhere and combined with arbitrary changes, cannot be enumerated; a test sees one schedule.", "anchors": ["pyof/foundation/base.py:660-715", "pyof/foundation/base.py:800-852", "pyof/v0x04/common/flow_match.py:254-281", "pyof/v0x04/common/flow_match.py:356-384", "pyof/v0x04/common/action.py:111-118", "pyof/v0x04/common/action.py:398-418", "pyof/v0x04/common/flow_instructions.py:76-96", "pyof/v0x04/controller2switch/common.py:193-249", "pyof/v0x04/controller2switch/common.py:449-483", "pyof/v0x04/controller2switch/common.py:676-688", "pyof/v0x04/controller2switch/multipart_reply.py:687-699", "pyof/v0x04/symmetric/hello.py:49-69"]}
{"id": "C77", "title": "str() of a decoded value names what was on the wire", "statement": "str() of a decoded HWAddress, IPAddress, IPv6Address or DPID is a name of the address: it never raises, the constructor of the class makes of it an object that packs to the bytes that were decoded, and two decoded addresses have the same text exactly if they are the same on the wire. The text of a decoded number is the number (int(str(x)) packs to the same bytes), and so is that of any number a program has given to a UBInt, also a negative one; the texts of two decoded members of an enumeration differ exactly if the numbers do; the text of decoded binary data tells all its bytes. str(message.header) of every accepted OpenFlow 1.0 packet, and of every new OpenFlow 1.0 message before and after packing, is the name of the message type. Counterexamples of the code: str() of an OpenFlow 1.0 Header that was decoded on its own always raises AttributeError; str() of a DPID without value raises TypeError; str() of an IPAddress loses the prefix length; two spellings of one address have different texts.", "quantifier": "all buffers and offsets, all packets, all message classes of OpenFlow 1.0", "why_tests_cant": "There are 2^48 to 2^128 addresses and arbitrary binary data; that no two share a text, and that every text leads back to the same bytes, cannot be enumerated.", "anchors": ["pyof/foundation/base.py:GenericType.__str__", "pyof/foundation/basic_types.py:DPID.__str__", "pyof/foundation/basic_types.py:Pad.__str__", "pyof/v0x01/common/header.py:Header.__str__", "pyof/foundation/base.py:GenericBitMask.__str__"]}
{"id": "C78", "title": "Attributes assigned by other threads while a message is packed", "statement": "While threads pack a message or ask for its get_size(), others may assign attributes of it at any moment (version, type and xid in the header, and attributes whose value pack() does not change itself), by values of the same size, with any code that reads what it likes. Then pack() returns the packet, or raises the exception, of a message each of whose attributes had the value it has there at some moment during the call: no attribute is torn, and if get_size() is right for all states of the message (as in C17, not for MeterMod), the length in the header is the number of bytes of the packet. get_size() returns the size the message had before all this. If only one attribute is assigned, the result is that of the message with one of the values this attribute had during the call, so calls and assignments are atomic. pack() and get_size() always return when they are let run. Counterexamples of the code: if two attributes are assigned, the packet may be that of no state the message was ever in; if the size changes, the length in the header may be wrong; a PacketOut may be sent with an in_port that pack() refuses; an IPv4 packet whose TTL is assigned may have a wrong checksum.", "quantifier": "all messages of the classes that keep their attributes while packing, all programs of the other threads that assign only such values, all schedules, all lengths of runs", "why_tests_cant": "The number of interleavings of reads and assignments is unbounded, and the other threads run arbitrary code; a test sees the few schedules that the interpreter happens to choose.", "anchors": ["pyof/foundation/base.py:GenericMessage.pack", "pyof/foundation/base.py:GenericStruct.pack", "pyof/foundation/base.py:GenericStruct.get_size", "pyof/foundation/base.py:GenericMessage.update_header_length", "pyof/v0x01/controller2switch/packet_out.py:PacketOut.validate", "pyof/foundation/network_types.py:IPv4.pack"]}
{"id": "C79", "title": "Objects that several threads decode into at once", "statement": "Any number of threads call unpack() at once, on messages of any classes, structures that inherit unpack or are cut at their own length, OXM TLVs, OpenFlow 1.3 matches and network packets (ARP, VLAN, Ethernet, IPv4, IPv6, LLDP TLVs), with any packets and offsets, on new objects or used ones. However their steps are mixed, each call returns, or raises the exception, as it would on its own; an object that only one call decodes into is afterwards, attribute by attribute, what that call makes of it on its own; other objects do not change, even if they hold attributes in common; every call can go on until it ends. If several calls decode into the same object (classes whose unpack only stores into the object: those that inherit it, Ethernet and the LLDP TLVs), or assign attributes of it meanwhile, then afterwards every attribute is as one of the calls that overwrite it leaves it on its own, and as before if none does: no attribute is torn or lost. Counterexamples of the code: the object may have attributes of different packets, which is neither of them; ErrorMsg reads its type and code from the object again, so that a valid packet may be refused with ValueError.", "quantifier": "all lists of calls (class, object, packet, offset), all memories in which the objects have their attributes, all schedules, all values an attribute goes through while it is decoded", "why_tests_cant": "The interleavings are unbounded, and a shared class attribute or a reference kept too long shows only in few of them; tests decode in one thread.", "anchors": ["pyof/foundation/base.py:GenericStruct._unpack_attribute", "pyof/foundation/base.py:GenericStruct.unpack", "pyof/foundation/base.py:GenericMessage.unpack", "pyof/v0x04/asynchronous/error_msg.py:ErrorMsg.unpack", "pyof/v0x01/controller2switch/packet_out.py:PacketOut.unpack", "pyof/v0x01/controller2switch/stats_reply.py:StatsReply.unpack", "pyof/v0x04/controller2switch/multipart_reply.py:MultipartReply.unpack", "pyof/foundation/network_types.py:Ethernet.unpack", "pyof/foundation/network_types.py:IPv4.unpack", "pyof/v0x04/common/flow_match.py:Match.unpack"]}
{"id": "C80", "title": "Attributes read, and objects packed, while the object is decoded into", "statement": "One thread calls unpack() on an object; other threads read attributes of it meanwhile, or decode into other objects. Every attribute that is read is the one the object had before the call or the one the call leaves in it, even if the call raises an exception in the middle; reading raises nothing. This is so for PacketOut, Ethernet frames and LLDP TLVs, which store an attribute when it is complete. For the other classes whose unpack only stores into the object (all that inherit it), also when several threads decode into the same object or assign attributes of it, an attribute that is read is the old one, the one that one of the calls leaves, or in passing the copy of the class attribute or what that becomes while it is decoded; nothing else, and reading raises nothing. For all classes, with one decoding thread: what a thread reads, attribute by attribute, is what would be seen by somebody who looks at each attribute in one go, in this order, while the call goes on without other threads. The same holds for pack() and get_size() of a GenericStruct called meanwhile: the result, or the exception, is that of packing (measuring) such attribute values; pack() of a message takes them twice, once for the length in the header and once for the bytes, and pack() of an ARP takes htype and ptype once more for its check. pack() and get_size() of an object nobody decodes into give what they give in a single thread, whatever is decoded into other objects meanwhile. Counterexamples of the code: an object that packs before and after the call may raise a PackException meanwhile, or pack to bytes of neither packet; a message packed meanwhile may have a length in its header that is not the number of its bytes; an ARP packed meanwhile may be one its check rejects; the inherited unpack stores a copy of the class attribute and decodes into it afterwards, so that a reader may get an attribute without a value, neither the old nor the new one; two attributes read one after the other may be of different packets.", "quantifier": "all packets and offsets, all objects of these classes in any state, all numbers of reading, packing and measuring threads and lists of attributes, all other decoding threads, all schedules, all values an attribute goes through while it is decoded", "why_tests_cant": "The half-decoded attribute is visible only between two steps of unpack; tests decode in one thread.", "anchors": ["pyof/foundation/base.py:GenericStruct._unpack_attribute", "pyof/v0x01/controller2switch/packet_out.py:PacketOut.unpack", "pyof/v0x04/controller2switch/packet_out.py:PacketOut.unpack", "pyof/foundation/network_types.py:Ethernet.unpack", "pyof/foundation/network_types.py:GenericTLV.unpack", "pyof/foundation/base.py:GenericStruct.pack", "pyof/foundation/base.py:GenericStruct.get_size", "pyof/foundation/base.py:GenericMessage.pack", "pyof/foundation/network_types.py:ARP.is_valid"]}
