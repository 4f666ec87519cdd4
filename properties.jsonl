{"id": "C01", "title": "Feeding the parser never panics", "statement": "Whatever bytes are passed to `Parser::consume`, in whatever chunks, and however many times `next()` is called on each returned iterator before it is dropped, no call panics: there is no index or slice out of bounds, no arithmetic overflow or underflow, no failed explicit assertion, for the Vec-backed parser and for a FixedLinearBuffer of any capacity (zero included).", "quantifier": "every byte stream, every split into chunks, every number of next() calls per chunk, every buffer kind and capacity, every word size of at least 16 bits", "why_tests_cant": "the panicking branches depend on the relation between buffered length, offset, chunk length, declared payload length and capacity; tests and fuzzers only sample that space", "anchors": ["ublox/src/parser.rs: Parser::consume, ParserIter::next, ParserIter::extract_packet, DualBuffer::{index,drain,len,can_drain_and_take,peek_raw,take}, Drop for DualBuffer, FixedLinearBuffer"]}
{"id": "C02", "title": "Every next() call makes progress and iteration is finite and fused", "statement": "`next()` always terminates; each `Some` it returns has consumed at least two pending bytes, so one chunk can produce at most (pending bytes)/2 results; once `next()` returned None every further call on the same iterator returns None and leaves the pending bytes unchanged.", "quantifier": "every pending buffer content, chunk, capacity and number of calls", "why_tests_cant": "a livelock needs a specific adversarial byte pattern; tests cannot show that none exists", "anchors": ["ublox/src/parser.rs: ParserIter::next, ParserIter::extract_packet"]}
{"id": "C03", "title": "Returned packets are exactly well-formed frames of the stream, in order", "statement": "Every `Ok` packet corresponds to a contiguous piece of the bytes fed so far of the form b5 62 class id len_lo len_hi payload ckA ckB, where the length field equals the payload length, the length is at most the maximum payload length and ckA,ckB are the 8-bit Fletcher checksum of class..payload; class, id and payload of the packet are the ones in that piece; the pieces of successive packets are disjoint and appear in stream order.", "quantifier": "every byte stream and chunking; Vec buffer: every call pattern; fixed buffers of at least 5 bytes: iterators used until None (see C49 for the rest)", "why_tests_cant": "an off-by-one in offsets across the buffer boundary only shows for particular splits; soundness is a statement on all streams", "anchors": ["ublox/src/parser.rs: ParserIter::next, ParserIter::extract_packet, DualBuffer::take, DualBuffer::peek_raw"]}
{"id": "C04", "title": "A clean stream is decoded completely", "statement": "If the input is a concatenation of well-formed frames (payload up to the maximum payload length), with arbitrary bytes other than 0xb5 in between, then fully iterating returns exactly these frames, each once and in order, no error, and afterwards the parser buffer is empty.", "quantifier": "every list of frames and every list of separators, every chunking, Vec buffer or any buffer able to hold the largest frame", "why_tests_cant": "the number of frames, payload sizes and contents (which may contain sync bytes) is unbounded", "anchors": ["ublox/src/parser.rs: Parser::consume, ParserIter::next"]}
{"id": "C05", "title": "Corrupted input is resynchronised deterministically", "statement": "The result sequence for any stream is the one of a simple reference decoder: skip to b5 62; wait for a complete header and frame; a length above the maximum is skipped by two bytes without a result; a checksum mismatch gives InvalidChecksum carrying the received and the computed checksum and decoding resumes two bytes after the sync position, so that a valid frame contained in or following the broken one is still found.", "quantifier": "every byte stream (valid or not), every chunking with every chunk iterated until None, Vec buffer or fixed buffers of at least 5 bytes in which every announced frame of the stream fits", "why_tests_cant": "recovery behaviour depends on what follows the corruption, an infinite space of cases", "anchors": ["ublox/src/parser.rs: ParserIter::next, ParserIter::extract_packet"]}
{"id": "C06", "title": "Chunk boundaries do not matter", "statement": "For the Vec-backed parser, feeding the same bytes in any way split into chunks (empty chunks included), iterating each chunk to exhaustion, returns the same sequence of results and leaves the same bytes pending as feeding all bytes in one call.", "quantifier": "every byte stream and every way to split it", "why_tests_cant": "2^(n-1) splits for a stream of n bytes", "anchors": ["ublox/src/parser.rs: Parser::consume, Drop for DualBuffer, DualBuffer::take"]}
{"id": "C07", "title": "A fixed buffer that is large enough behaves like the growable one", "statement": "A parser over a FixedLinearBuffer whose capacity is at least the largest possible frame minus one byte returns, for every stream and chunking with every chunk iterated until None, the same results and keeps the same pending bytes as the Vec-backed parser.", "quantifier": "every capacity from that bound on, every stream, every chunking", "why_tests_cant": "the two implementations take different branches (slice, extend, compact); equivalence is needed on all inputs", "anchors": ["ublox/src/parser.rs: FixedLinearBuffer, DualBuffer::can_drain_and_take, DualBuffer::take, DualBuffer::potential_lost_bytes"]}
{"id": "C08", "title": "OutOfMemory is reported only for packets that do not fit", "statement": "`next()` returns OutOfMemory{required_size} only if the frame announced at the current position has payload length required_size-2 and the whole frame is larger than the buffer's capacity; the parser then continues two bytes further; with a Vec it is never returned, and a frame that fits in the buffer and is completely available is the next result whenever only bytes other than 0xb5 stand before it.", "quantifier": "every capacity, stream, chunking and call pattern", "why_tests_cant": "needs the relation between three lengths and the capacity for all values", "anchors": ["ublox/src/parser.rs: ParserIter::extract_packet, DualBuffer::can_drain_and_take, DualBuffer::potential_lost_bytes, DualBuffer::take"]}
{"id": "C09", "title": "Only framing errors come out of next()", "statement": "The only errors `next()` can return are InvalidChecksum and OutOfMemory: a checksummed frame whose contents fail the packet-specific validation is delivered as `PacketRef::Unknown` with its class, id and payload intact, never as InvalidField or InvalidPacketLen and never dropped.", "quantifier": "every stream, every packet type and every payload", "why_tests_cant": "quantifies over all payloads of all message types", "anchors": ["ublox/src/parser.rs: ParserIter::extract_packet", "ublox_derive/src/output.rs: generate_code_for_parse (match_packet)"]}
{"id": "C10", "title": "Abandoning an iterator loses nothing with a growable buffer", "statement": "With the Vec-backed parser the iterator may be dropped after any number of `next()` calls; results already returned plus what later calls return is always a prefix-consistent run of the one-shot result sequence: nothing is lost, duplicated or reordered, and after finally iterating to the end the complete sequence has been returned.", "quantifier": "every history of consume calls, each with any number of next() calls", "why_tests_cant": "histories are unbounded sequences", "anchors": ["ublox/src/parser.rs: Drop for DualBuffer, Parser::consume, DualBuffer::take"]}
{"id": "C11", "title": "A fixed buffer never overflows and exhausting the iterator loses no byte", "statement": "With a FixedLinearBuffer of the documented minimum of 4 bytes or more, `buffer_len()` never exceeds the capacity, and if each chunk is iterated until None the pending bytes all fit, so no byte is silently dropped.", "quantifier": "every capacity >= 4, every stream and chunking", "why_tests_cant": "needs all capacities and all pending lengths at once", "anchors": ["ublox/src/parser.rs: FixedLinearBuffer::extend_from_slice, Drop for DualBuffer, ParserIter::next, Parser (doc: at least 4 bytes)"]}
{"id": "C12", "title": "Memory use is bounded", "statement": "After iterating to None the number of bytes kept by the parser is smaller than the size of the largest possible frame (maximum payload length + 8), however long and however malformed the stream was.", "quantifier": "every stream of any length, every chunking", "why_tests_cant": "unbounded histories; a leak might need gigabytes of specific input", "anchors": ["ublox/src/parser.rs: ParserIter::next, Drop for DualBuffer, Parser::buffer_len"]}
{"id": "C13", "title": "buffer_len and is_buffer_empty report the undecoded tail", "statement": "`is_buffer_empty()` is true exactly when `buffer_len()` is 0; after iterating to None the buffer is exactly the undecoded suffix of everything fed so far, which is empty or begins with 0xb5; if the iterator is dropped without calling next() the buffer is the old content plus the chunk minus the leading bytes before the first 0xb5 (nothing is removed when there is no 0xb5).", "quantifier": "every stream, chunking and call pattern (Vec buffer)", "why_tests_cant": "depends on all histories", "anchors": ["ublox/src/parser.rs: Parser::is_buffer_empty, Parser::buffer_len, Parser::consume, Drop for DualBuffer"]}
{"id": "C14", "title": "FixedLinearBuffer is a faithful bounded byte queue", "statement": "Any sequence of clear/extend_from_slice/drain/find/index operations on a FixedLinearBuffer observably equals the same operations on a list with the given capacity: extend appends the longest prefix that fits and returns the number of bytes left out, drain(n) removes the first min(n,len) bytes, find returns the first position, range indexing returns the bytes or panics exactly when the range is not within the length; the unsafe memory move always stays inside the backing slice.", "quantifier": "every backing slice and content, every operation sequence", "why_tests_cant": "operation sequences are unbounded and unsafe code has no runtime check that a test would trip", "anchors": ["ublox/src/parser.rs: FixedLinearBuffer, impl UnderlyingBuffer for FixedLinearBuffer"]}
{"id": "C15", "title": "The checksum is the UBX Fletcher-8 sum and can be computed piecewise", "statement": "The one-shot checksum and the incremental checksum agree for every way to cut the data into pieces, and equal (sum of bytes, sum of prefix sums) modulo 256.", "quantifier": "every byte string and every partition of it", "why_tests_cant": "all byte strings", "anchors": ["ublox/src/ubx_packets.rs: ubx_checksum, UbxChecksumCalc", "ublox/src/parser.rs: UbxChecksumCalc"]}
{"id": "C16", "title": "Corruption of one byte or a swap of neighbours in a frame is always detected", "statement": "If exactly one byte of the class, id, payload or checksum of a well-formed frame is changed, or two adjacent different bytes of class..payload other than the length field are exchanged, the first result of parsing that frame is InvalidChecksum; it is never delivered as a packet.", "quantifier": "every frame, every position, every replacement byte", "why_tests_cant": "256 * length * all frames cases", "anchors": ["ublox/src/ubx_packets.rs: ubx_checksum", "ublox/src/parser.rs: ParserIter::extract_packet"]}
{"id": "C17", "title": "Built packets are accepted by the parser unchanged", "statement": "The bytes produced by any fixed-length builder's into_packet_bytes are one well-formed frame; feeding them to the parser (alone, or embedded in a clean stream) yields exactly one packet with the builder's class, id and payload and no error.", "quantifier": "every packet type that can be sent, every value of every field", "why_tests_cant": "all field values of all builders", "anchors": ["ublox_derive/src/output.rs: generate_send_code_for_packet", "ublox/src/parser.rs: ParserIter::next"]}
{"id": "C18", "title": "Builder output has the documented frame layout", "statement": "into_packet_bytes returns exactly PACKET_LEN = payload length + 8 bytes: sync bytes, class, id, little-endian payload length, the fields in declaration order in little-endian, then the checksum over class..payload; every byte of the payload comes from exactly one field.", "quantifier": "every fixed-length packet description and every field value", "why_tests_cant": "all descriptions (the generator is generic) and all values", "anchors": ["ublox_derive/src/output.rs: generate_send_code_for_packet (into_packet_bytes)", "ublox/src/ubx_packets.rs: ubx_checksum"]}
{"id": "C19", "title": "create_packet writes the same bytes as into_packet_bytes, or a prefix and the error", "statement": "For every MemWriter, create_packet asks for PACKET_LEN bytes once and then writes exactly the bytes of into_packet_bytes in order; if the writer fails at some write the error is returned and what was accepted before is a prefix of these bytes.", "quantifier": "every packet, every field value, every writer and failure point", "why_tests_cant": "all failure points and all writers", "anchors": ["ublox_derive/src/output.rs: generate_send_code_for_packet (create_packet)", "ublox/src/ubx_packets.rs: MemWriter, impl MemWriter for Vec<u8>"]}
{"id": "C20", "title": "Field accessors return what the builder was given", "statement": "For every packet type that can both be built and received, building a packet and reading it back gives for every field the raw value that was put in, and for enum and bit-flag fields the very same enum value or flag set.", "quantifier": "every send+receive packet type and every field value", "why_tests_cant": "all field values", "anchors": ["ublox_derive/src/output.rs: generate_send_code_for_packet, generate_recv_code_for_packet, get_raw_field_code", "ublox/src/ubx_packets/packets.rs: recv_send packets"]}
{"id": "C21", "title": "Accessors read disjoint ranges that tile the payload", "statement": "For every receivable packet type the accessors read consecutive, non-overlapping byte ranges in declaration order starting at payload offset 0 and covering the fixed part completely; an accessor's value does not depend on bytes outside its range.", "quantifier": "every packet description, every payload", "why_tests_cant": "all payload contents", "anchors": ["ublox_derive/src/output.rs: generate_recv_code_for_packet, get_raw_field_code", "ublox_derive/src/input.rs: parse_packet_description"]}
{"id": "C22", "title": "A payload is accepted as a typed packet exactly when it is valid for it", "statement": "validate accepts a payload iff its length is the fixed length (or at least the minimum for a variable-length packet, including the sizes announced inside the packet) and all enum/array/string fields marked fallible decode; otherwise it reports which check failed first.", "quantifier": "every packet type and every payload of every length", "why_tests_cant": "all payloads", "anchors": ["ublox_derive/src/output.rs: generate_recv_code_for_packet (validate)"]}
{"id": "C23", "title": "Dispatch is deterministic, total and keeps identity", "statement": "Every checksummed frame is delivered as exactly one PacketRef variant: the first listed packet type with that class and id whose validation accepts the payload, else Unknown; class_and_msg_id() of the delivered packet equals class and id of the frame and as_bytes()/payload equals the frame payload.", "quantifier": "every class, id and payload", "why_tests_cant": "65536 class/id pairs times all payloads", "anchors": ["ublox_derive/src/output.rs: generate_code_for_parse (match_packet, class_and_msg_id)", "ublox/src/ubx_packets/packets.rs: define_recv_packets!"]}
{"id": "C24", "title": "CFG-PRT variants are told apart by port id", "statement": "A 20-byte CFG-PRT payload is delivered as CfgPrtI2c iff its port id byte is 0, as CfgPrtSpi iff it is 4, as CfgPrtUart iff it is 1, 2 or 3 and as Unknown otherwise.", "quantifier": "every 20-byte payload", "why_tests_cant": "2^160 payloads", "anchors": ["ublox/src/ubx_packets/packets.rs: CfgPrtI2c, CfgPrtSpi, CfgPrtUart, I2cPortId, SpiPortId, UartPortId, define_recv_packets!"]}
{"id": "C25", "title": "Accessors of a delivered packet never panic", "statement": "For every packet delivered by the parser, calling any of its accessors (and formatting it with Debug or serialising it, which calls all of them) does not panic.", "quantifier": "every packet type, every accepted payload, every accessor", "why_tests_cant": "all accepted payloads", "anchors": ["ublox_derive/src/output.rs: generate_recv_code_for_packet, generate_debug_impl", "ublox/src/ubx_packets/packets.rs: UartMode, DataBits, Parity, StopBits, FixStatusInfo, NavSatSvFlags, mon_ver, iterators"]}
{"id": "C26", "title": "Interpretation methods of flag wrappers never panic and decode the documented bits", "statement": "The methods of FixStatusInfo, NavSatSvFlags, TimTpFlags, TimTpRefInfo and TimTm2Flags return, for every raw value, the value of the bits documented in the protocol specification, without panicking.", "quantifier": "every raw value of each wrapper", "why_tests_cant": "the wrappers have no tests; u32 has 2^32 values", "anchors": ["ublox/src/ubx_packets/packets.rs: FixStatusInfo, NavSatSvFlags, TimTpFlags, TimTpRefInfo, TimTm2Flags"]}
{"id": "C27", "title": "Open enums lose no information", "statement": "For every enum declared with rest_reserved, decoding is total and injective: each raw byte maps to exactly one variant, whose numeric value is that byte.", "quantifier": "every such enum and every byte", "why_tests_cant": "stated for the generator, i.e. for all variant lists with distinct values, not only the existing ones", "anchors": ["ublox_derive/src/output.rs: generate_code_to_extend_enum"]}
{"id": "C28", "title": "Closed enums are decoded only after validation", "statement": "For every enum declared with rest_error, is_valid(x) holds exactly if from_unchecked(x) does not panic, from_unchecked(x) has numeric value x, and into_raw followed by is_valid/from_unchecked returns the original variant.", "quantifier": "every such enum, every byte, every variant", "why_tests_cant": "stated for all variant lists", "anchors": ["ublox_derive/src/output.rs: generate_code_to_extend_enum"]}
{"id": "C29", "title": "Bit-flag types keep every bit", "statement": "For every bit-flag type, from(raw).bits() == raw for every raw value (undeclared bits are kept as reserved flags), a declared flag is contained iff its bit is set, and into_raw(from(raw)) == raw.", "quantifier": "every declared flag type of every width and every raw value", "why_tests_cant": "up to 2^32 raw values per type", "anchors": ["ublox_derive/src/output.rs: generate_code_to_extend_bitflags"]}
{"id": "C30", "title": "UartMode survives the wire format", "statement": "Encoding any UartMode (data bits, parity, stop bits) to the mode word and decoding it gives the same three settings, and the decoder ignores all unrelated bits.", "quantifier": "every combination of settings and every value of the unrelated bits", "why_tests_cant": "all 2^32 words", "anchors": ["ublox/src/ubx_packets/packets.rs: UartMode, DataBits, Parity, StopBits"]}
{"id": "C31", "title": "CFG-ITFM configuration survives a read-modify-write cycle", "statement": "Decoding the CfgItfm config words received from a device and encoding them again yields the same documented bits (enable, thresholds, algorithm bits, antenna setting, auxiliary band scan); and building a config from its parts places each part in its documented bit range.", "quantifier": "every 32-bit word; every threshold, antenna setting and flag", "why_tests_cant": "2^32 words", "anchors": ["ublox/src/ubx_packets/packets.rs: CfgItfmConfig, CfgItfmConfig2, CfgItfmBbThreshold, CfgItfmCwThreshold, CfgItfmAlgoBits, CfgItfmGeneralBits, CfgItfmAntennaSettings"]}
{"id": "C32", "title": "Block iterators of delivered packets visit every block exactly once", "statement": "Iterating NavSat::svs, MonVer::extension, EsfMeas::data, EsfRaw::data, RxmRawx::measurements and RxmSfrbx::dwrd of a delivered packet never panics, yields exactly (length of the repeated part)/(block size) items, the i-th item is decoded from the i-th block, the blocks together are the whole repeated part, and the iterator is then fused.", "quantifier": "every delivered payload of these types", "why_tests_cant": "all payload lengths and contents", "anchors": ["ublox/src/ubx_packets/packets.rs: NavSatIter, MonVerExtensionIter, EsfMeasDataIter, EsfRawDataIter, RxmRawxInfoIter, DwrdIter"]}
{"id": "C33", "title": "MON-VER strings are the text before the first NUL", "statement": "For a delivered MonVer packet software_version, hardware_version and each extension string are the bytes before the first NUL of their fixed-size slot, which are valid UTF-8; a payload with a slot without NUL or with invalid UTF-8 is not delivered as MonVer.", "quantifier": "every MON-VER payload", "why_tests_cant": "all byte contents", "anchors": ["ublox/src/ubx_packets/packets.rs: mon_ver::convert_to_str_unchecked, mon_ver::is_cstr_valid, MonVerExtensionIter"]}
{"id": "C34", "title": "ESF-MEAS optional parts follow the flags", "statement": "For a delivered EsfMeas packet data yields exactly numMeas (flags bits 11..15) measurements and calib_tag is Some(value of the following four bytes) iff flag bit 3 is set; a payload too short for what its flags announce is not delivered as EsfMeas.", "quantifier": "every ESF-MEAS payload", "why_tests_cant": "all flags and lengths", "anchors": ["ublox/src/ubx_packets/packets.rs: EsfMeas, EsfMeasRef::data_len, EsfMeasRef::calib_tag_len, EsfMeasDataIter", "ublox_derive/src/output.rs: generate_recv_code_for_packet (size_fn)"]}
{"id": "C35", "title": "Configuration values round-trip", "statement": "For every CfgVal, extend_to and write_to produce the same bytes, len() is their number, and CfgVal::parse applied to these bytes followed by anything returns the same value.", "quantifier": "every configuration item, every value, every trailing bytes", "why_tests_cant": "all items times all values", "anchors": ["ublox/src/ubx_packets/cfg_val.rs: cfg_val!, CfgVal::{len,parse,extend_to,write_to}, from_cfg_v_bytes!, into_cfg_kv_bytes!"]}
{"id": "C36", "title": "Configuration keys are unique and self-describing", "statement": "No two configuration items share a key id, and the size bits of every key equal the number of value bytes its type is encoded in.", "quantifier": "every item of the table", "why_tests_cant": "about 390 hand-typed constants; a duplicate key would silently shadow an item in parse", "anchors": ["ublox/src/ubx_packets/cfg_val.rs: cfg_val! table, KeyId::value_size, StorageSize::to_usize"]}
{"id": "C37", "title": "CfgValIter returns exactly the values it was created from", "statement": "For every list of configuration values and every large enough scratch buffer, CfgValIter::new followed by iteration yields exactly that list and then None; a too small buffer panics and never truncates silently.", "quantifier": "every list of values, every buffer", "why_tests_cant": "lists are unbounded", "anchors": ["ublox/src/ubx_packets/packets.rs: CfgValIter::new, CfgValIter::next", "ublox/src/ubx_packets/cfg_val.rs: CfgVal::write_to, CfgVal::parse"]}
{"id": "C38", "title": "CFG-VALSET packets are well-formed", "statement": "CfgValSetBuilder::into_packet_vec returns a well-formed frame whose payload is version, layers, reserved, then the encoded key/value pairs in order.", "quantifier": "every builder value, i.e. every list of configuration values", "why_tests_cant": "lists are unbounded; the length field is only 16 bits", "anchors": ["ublox_derive/src/output.rs: generate_send_code_for_packet (extend_to, into_packet_vec)", "ublox/src/ubx_packets/packets.rs: CfgValSet"]}
{"id": "C39", "title": "extend_to appends a well-formed frame", "statement": "extend_to(&mut out) leaves the previous content of `out` unchanged and appends the same bytes as into_packet_vec.", "quantifier": "every builder value and every previous content of out", "why_tests_cant": "all previous contents", "anchors": ["ublox_derive/src/output.rs: generate_send_code_for_packet (extend_to)"]}
{"id": "C40", "title": "Poll requests are well-formed", "statement": "UbxPacketRequest for any class and id gives an 8-byte well-formed frame with empty payload, which a parser returns as one packet with that class and id and empty payload.", "quantifier": "every class and id", "why_tests_cant": "65536 combinations through the complete parser", "anchors": ["ublox/src/ubx_packets.rs: UbxPacketRequest"]}
{"id": "C41", "title": "NAV-PVT time conversion is exact and rejects exactly the invalid fields", "statement": "Converting NavPvt to DateTime succeeds iff year/month/day is a real calendar date, hour<=23, min<=59, sec<=59 and |nanosecond| < 10^9; the result equals that instant plus the signed nanoseconds exactly; otherwise the error names the first invalid group in the order date, time, nanoseconds.", "quantifier": "every NAV-PVT payload", "why_tests_cant": "all field combinations including leap years and i32::MIN", "anchors": ["ublox/src/ubx_packets/types.rs: TryFrom<&NavPvtRef> for DateTime<Utc>"]}
{"id": "C42", "title": "Scaled fields survive building and reading", "statement": "For every scaled numeric field of a packet that can be both built and received, reading the raw integer as a scaled float and putting that float into a builder produces the same raw integer.", "quantifier": "every raw value of the field's integer type, every scale used", "why_tests_cant": "2^32 raw values per field and floating-point rounding", "anchors": ["ublox/src/ubx_packets/packets.rs: ScaleBack, CfgTp5, CfgTmode2, CfgTmode3, CfgNav5", "ublox_derive/src/types.rs: PackFieldMapDesc::new"]}
{"id": "C43", "title": "Scaling to raw integers saturates and never panics", "statement": "Putting any float (including infinities and NaN) into a scaled field of a builder never panics; finite values are rounded to the nearest raw integer and values out of range give the nearest representable bound.", "quantifier": "every float value, every integer width, every scale", "why_tests_cant": "all float values", "anchors": ["ublox/src/ubx_packets/packets.rs: ScaleBack"]}
{"id": "C44", "title": "Position conversions use the documented units", "statement": "Position/Velocity/PositionECEF obtained from NavPosLlh, NavPvt, NavVelNed, NavHpPosLlh and NavHpPosEcef equal the raw fields in the units documented for these structs (degrees, metres, metres per second), up to floating-point rounding.", "quantifier": "every payload of these packets", "why_tests_cant": "all payloads; needs an exact reference over the rationals", "anchors": ["ublox/src/ubx_packets/types.rs: From<&NavPosLlhRef> for Position, From<&NavHpPosLlhRef> for Position, From<&NavHpPosEcefRef> for PositionECEF, From<&NavPvtRef>, From<&NavVelNedRef> for Velocity"]}
{"id": "C45", "title": "Acknowledge matching is exact", "statement": "is_ack_for::<T>() (is_nak_for::<T>()) on a delivered AckAck (AckNak) packet is true iff the two payload bytes are T's class and id; if T and U differ in class or id an ack is never for both; set_rate_for::<T> produces a CFG-MSG frame naming exactly T's class and id and the given rates.", "quantifier": "every payload and every packet type pair", "why_tests_cant": "all type pairs and payloads", "anchors": ["ublox/src/ubx_packets/packets.rs: AckAckRef::is_ack_for, AckNakRef::is_nak_for, CfgMsgSinglePortBuilder::set_rate_for, CfgMsgAllPortsBuilder::set_rate_for"]}
{"id": "C46", "title": "Every packet type is deliverable", "statement": "The global payload limit of the parser is at least the maximum payload length of every receivable packet type, frames above the limit are never delivered, and for every PacketRef variant there is a payload that is delivered as that variant.", "quantifier": "every receivable packet type", "why_tests_cant": "shadowing between arms of the dispatch depends on all payloads", "anchors": ["ublox/src/ubx_packets/packets.rs: define_recv_packets!, MgaGpsEph, MgaGpsEPH, CfgInf, CfgNavX5", "ublox_derive/src/output.rs: generate_code_for_parse (MAX_PAYLOAD_LEN)"]}
{"id": "C47", "title": "Serialised packets are maps with distinct keys", "statement": "Serialising a delivered packet yields a map that starts with class and msg_id of the packet followed by one entry per field in declaration order, and no key occurs twice.", "quantifier": "every packet type", "why_tests_cant": "holds for every packet description the generator accepts except those with clashing names; must be checked on all", "anchors": ["ublox_derive/src/output.rs: generate_serialize_impl, generate_code_for_parse (PacketSerializer)"]}
{"id": "C48", "title": "AID-INI time and position setters encode their argument", "statement": "set_time never panics for dates from year 2000 on and stores the calendar date and time as the AID-INI message defines them: YYMM (year since 2000 and month 1..12) and DDHHMMSS, plus the nanoseconds; set_position stores latitude, longitude (1e-7 degrees) and altitude (cm), truncated toward zero and saturated; each sets its own flag bits and leaves all other builder fields unchanged.", "quantifier": "every date-time from 2000 on, every position, every previous builder state", "why_tests_cant": "all dates", "anchors": ["ublox/src/ubx_packets/packets.rs: AidIniBuilder::set_time, AidIniBuilder::set_position"]}
{"id": "C49", "title": "Fixed buffers deliver only contiguous frames whatever the call pattern", "statement": "With a FixedLinearBuffer, even if iterators are dropped before they returned None, every Ok packet corresponds to a contiguous piece of the bytes fed so far.", "quantifier": "every capacity, stream, chunking and call pattern", "why_tests_cant": "needs a frame that is completed by bytes after a gap; depends on capacity, chunking and call pattern together", "anchors": ["ublox/src/parser.rs: Drop for DualBuffer, FixedLinearBuffer::extend_from_slice, ParserIter::next"]}
{"id": "C50", "title": "Scaled accessors return raw value times scale", "statement": "Every accessor of a field declared with a scale returns, for every payload, the little-endian integer in the field's slot times the declared scale, up to one rounding of the literal and one of the product (relative error at most 2^-51 for f64, 2^-22 for f32); an accessor that maps an integer to f64 without scale is exact.", "quantifier": "every readable packet type, every scaled field, every payload", "why_tests_cant": "2^32 raw values per field; the error bound needs an exact reference over the rationals", "anchors": ["ublox_derive/src/output.rs: generate_recv_code_for_packet (get_raw, scale)", "ublox/src/ubx_packets/packets.rs: all fields with scale"]}
{"id": "C51", "title": "A received position can be handed back unchanged", "statement": "The latitude and longitude of a Position obtained from NavPosLlh or NavPvt, given to AidIniBuilder::set_position, are encoded as the same 1e-7 degree integers that were received.", "quantifier": "every payload of these packets", "why_tests_cant": "depends on the rounding of two products for each of 2^32 integers", "anchors": ["ublox/src/ubx_packets/types.rs: From<&NavPosLlhRef> for Position, From<&NavPvtRef> for Position", "ublox/src/ubx_packets/packets.rs: AidIniBuilder::set_position"]}
{"id": "C52", "title": "Serialised repeated groups are complete", "statement": "With the serde feature, serialising a delivered packet terminates without panic (except for an undefined UART mode word) and gives class, msg_id and then one entry per field in declaration order with the value that the field's accessor returns; a field with repeated blocks gives a sequence with exactly one element per block in payload order, each with the block's own fields.", "quantifier": "every packet type, every delivered payload", "why_tests_cant": "any number of blocks with any contents", "anchors": ["ublox_derive/src/output.rs: generate_serialize_impl, generate_code_for_parse (PacketSerializer)", "ublox/src/ubx_packets/types.rs: FieldIter, field_is_iter serialization"]}
{"id": "C53", "title": "Read, modify, write keeps the rest of a configuration", "statement": "For a received packet that can also be sent: a builder in which some fields have the values returned by the accessors and the others anything produces a frame of the same class, id and length whose payload has the received bytes in the slots of the former fields; if all fields are copied the frame is the received one.", "quantifier": "every packet type with builder and accessors, every delivered payload, every choice of modified fields", "why_tests_cant": "all payloads, including reserved bits and floating-point conversion both ways", "anchors": ["ublox_derive/src/output.rs: generate_recv_code_for_packet, generate_send_code_for_packet", "ublox/src/ubx_packets/packets.rs: CfgNav5, CfgPrtUart, CfgItfm, CfgOdo, CfgTmode2, CfgTmode3, CfgTp5, CfgAnt"]}
{"id": "C54", "title": "Cartesian velocities are signed", "statement": "The accessors ecef_vx, ecef_vy and ecef_vz of a delivered NAV-VELECEF packet return the signed 32-bit numbers (cm/s) in the payload.", "quantifier": "every payload", "why_tests_cant": "2^32 values per component; tests have none with motion toward the south", "anchors": ["ublox/src/ubx_packets/packets.rs: NavVelECEF"]}
{"id": "C55", "title": "Accepted declarations are laid out as declared", "statement": "For every packet declaration that the derive macros accept: the generated validate never panics, and for every payload that it accepts every generated accessor returns the conversion of exactly the bytes at the field's position, that is after the bytes of all fields before it (fixed sizes, or what their size functions return).", "quantifier": "every accepted declaration, every payload", "why_tests_cant": "quantifies over declarations; the crate's own declarations exercise only a few shapes", "anchors": ["ublox_derive/src/input.rs: parse_packet_description", "ublox_derive/src/output.rs: generate_recv_code_for_packet", "ublox_derive/src/types.rs: PackDesc"]}
{"id": "C56", "title": "Default builders are neutral and sendable", "statement": "For every packet whose builder implements Default: Default::default().into_packet_bytes() never panics and gives one frame of the packet, in which every field is zero except the port id of CFG-PRT for SPI (4) and dynamic model (8) and fix mode (3) of CFG-NAV5; in a builder with only some fields set every other field is still sent with these bytes; and the default frame is received back as a packet of the same type whose accessors return the defaults.", "quantifier": "every packet type with a default builder, every choice and value of the fields that are set", "why_tests_cant": "all combinations of set fields and values", "anchors": ["ublox_derive/src/output.rs: generate_send_code_for_packet (default_for_builder)", "ublox/src/ubx_packets/packets.rs: OdoProfile, SpiPortId, I2cPortId, CfgNav5DynModel, CfgNav5FixMode, CfgNav5UtcStandard, CfgTp5TimePulseMode, CfgTmode2TimeXferModes"]}
{"id": "C57", "title": "Messages are read and written as the interface description says", "statement": "Whenever the parser hands out a packet of a known type, class, id and payload length are those that the u-blox interface description gives for that message, and every accessor returns the number, code, float or byte array that the description places at that offset with that format, multiplied with the unit that the accessor promises. What a builder returns is a frame with the class, id and length of the description whose payload has the wire form of each builder value at the offset of the description.", "quantifier": "every message that the crate implements, every field, every payload, every builder value", "why_tests_cant": "a test pins one payload per message at best; wrong offsets, signedness or units stay invisible for small or zero values", "anchors": ["ublox/src/ubx_packets/packets.rs: all #[ubx_packet_recv], #[ubx_packet_send] and #[ubx_packet_recv_send] declarations", "ublox_derive/src/output.rs: generate_recv_code_for_packet, generate_send_code_for_packet"]}
{"id": "C58", "title": "Named values and flags mean what the interface description says", "statement": "For every flag type, a flag is contained in the value that an accessor returns exactly when the number in the payload says so according to the u-blox interface description (the bit is set, or the bit field has that value); for every enumeration, the accessor returns the variant of a given name exactly when the bit field has the code that the description gives for it; and the codes that are sent for variants and flags are those of the description.", "quantifier": "every enumeration and flag type, every variant and flag, every raw number with a meaning", "why_tests_cant": "a test would repeat the constants of the code; a wrong code shows only on a receiver", "anchors": ["ublox/src/ubx_packets/packets.rs: all #[ubx_extend] and #[ubx_extend_bitflags] types", "ublox_derive/src/output.rs: generate_code_to_extend_enum, generate_code_to_extend_bitflags"]}
{"id": "C59", "title": "Accepted enumerations and flag types are faithful", "statement": "For every enumeration declaration that #[ubx_extend] and the compiler accept: from converts every byte to a variant with that number and gives back every variant, the declared ones under their names; with from_unchecked, is_valid accepts exactly the declared numbers, for which the conversion gives the declared variant. #[ubx_extend_bitflags] accepts exactly the declarations with an 8, 16 or 32-bit type, rest_reserved and constants that are different single bits of the type; the types it generates keep every bit of every raw value and contain a flag exactly when its bit is set.", "quantifier": "every declaration that is accepted, every raw value", "why_tests_cant": "quantifies over declarations; the macro tests pin the generated text of two", "anchors": ["ublox_derive/src/output.rs: generate_code_to_extend_enum, generate_code_to_extend_bitflags", "ublox_derive/src/input.rs: parse_ubx_enum_type, parse_bitflags, parse_ubx_extend_attrs"]}
{"id": "C60", "title": "Other bytes between frames neither hide nor damage a frame", "statement": "If arbitrary bytes in which no well-formed frame begins (possibly with sync characters, false headers or truncated frames) stand before and between the well-formed frames of a stream, every one of these frames is returned, in order, and no other packet before them: at any moment the packets returned are the first of these frames. A false header delays what follows at most until the length it announces has been received. If b5 62 does not occur between the frames, nothing is delayed and no error is reported.", "quantifier": "every such stream, every chunking; growable buffer with any call pattern, fixed buffer of at least 5 bytes in which the frames fit with iterators used until None", "why_tests_cant": "all junk, including overlapping false headers of every length at every position relative to the chunk boundaries", "anchors": ["ublox/src/parser.rs: ParserIter::next, ParserIter::find_sync, ParserIter::extract_packet, DualBuffer"]}
{"id": "C61", "title": "Information messages give their text", "statement": "Every frame with class 0x04 and id 0 to 4 is delivered as InfError, InfWarning, InfNotice, InfTest, InfDebug respectively, whatever its payload, and message() returns Some of exactly the payload if the payload is valid UTF-8 and None otherwise.", "quantifier": "every payload", "why_tests_cant": "UTF-8 validity over all byte strings", "anchors": ["ublox/src/ubx_packets/packets.rs: InfError, InfWarning, InfNotice, InfTest, InfDebug, inf::convert_to_str, inf::is_valid"]}
{"id": "C62", "title": "Device::update hands every received packet to the callback once", "statement": "Whatever the serial port answers (any pieces of at most 1240 bytes, time-outs, empty reads, errors), Device::update calls the callback with exactly the packets of the bytes received so far, each once and in stream order, over any number of calls; it keeps the bytes of an incomplete frame for the next call, returns Ok when the port has nothing more, returns the port's error after handing out what had arrived, panics only if the callback does, and does not return as long as every read delivers bytes.", "quantifier": "every sequence of answers of the port, every callback, every number of calls", "why_tests_cant": "all ways in which the operating system can cut the byte stream into reads, time-outs and errors", "anchors": ["examples/ublox-cli/src/main.rs: Device::new, Device::update, Device::read_port", "ublox/src/parser.rs: Parser::consume, ParserIter::next"]}
{"id": "C63", "title": "wait_for_ack ends when the acknowledgement has arrived and the line is quiet", "statement": "Device::wait_for_ack::<T>() returns Ok exactly if at the end of one of its calls of update, which is the first such, an ACK-ACK for the class and id of T was among the packets received since the call; it returns the port's error if the port fails first; it never panics. It does not return if the message is refused (ACK-NAK) and no ACK-ACK comes, nor while the line is never quiet, even if the acknowledgement has arrived.", "quantifier": "every sequence of answers of the port, every message type, every state of the device", "why_tests_cant": "executions without end and all interleavings of other traffic with the acknowledgement", "anchors": ["examples/ublox-cli/src/main.rs: Device::wait_for_ack, Device::update", "ublox/src/ubx_packets/packets.rs: AckAckRef::is_ack_for"]}
{"id": "C64", "title": "The example program shows every packet and stops only for known reasons", "statement": "The main loop of ublox-cli prints, for every packet of the received byte stream in stream order, exactly what its handler prescribes: for NAV-PVT with a fix the position, velocity, time and all fields, for MON-VER both versions and all extensions, for every other packet all fields with the values of the accessors, for an unknown packet class, id and payload. It runs for ever unless the port fails, or a NAV-PVT with a fix with time but an impossible date or time arrives, or a CFG-PRT of a UART or USB port with a meaningless mode word arrives; then it panics.", "quantifier": "every sequence of answers of the port, every state of the device", "why_tests_cant": "all byte streams, all ways to cut them into reads, and executions without end", "anchors": ["examples/ublox-cli/src/main.rs: main (main loop, lines 330-377)", "ublox/src/ubx_packets/packets.rs: NavPvtRef, MonVerRef, CfgPrtUartRef"]}
{"id": "C65", "title": "The example program configures the receiver as asked", "statement": "When the main loop is reached, ublox-cli has written, after the CFG-PRT frame if the subcommand configure was given for a known port, the CFG-MSG frame that enables NAV-PVT on UART 1, UART 2 and USB and, after its acknowledgement, the request for MON-VER, and nothing else; the CFG-PRT frame was acknowledged before. The CFG-PRT frame contains the port, data bits, stop bits, parity, baud rate and protocols that were asked for; if both versions of RTCM or a wrong number of data bits are asked for the program ends without sending anything. The serial port is opened with the settings that were asked for.", "quantifier": "all arguments, every sequence of answers of the port", "why_tests_cant": "all combinations of 12 arguments; needs a receiver", "anchors": ["examples/ublox-cli/src/main.rs: main (lines 157-328), ublox_stopbits, ublox_databits, ublox_parity", "ublox/src/ubx_packets/packets.rs: CfgPrtUartBuilder, CfgMsgAllPortsBuilder"]}
{"id": "C66", "title": "Configuration items are those of the interface description", "statement": "Every variant of CfgVal has the name of exactly one item of the u-blox configuration interface. Writing it produces the 32-bit key of that item (storage size, group, number) and the encoding of the value that the interface prescribes for the item's type (for enumerations the prescribed constants); the key of an item followed by an encoded value is read as the variant of that name with that value.", "quantifier": "all 434 variants, all values of their types", "why_tests_cant": "a test would repeat the constants of the code; a wrong key configures something else on a receiver", "anchors": ["ublox/src/ubx_packets/cfg_val.rs: cfg_val! and its table, into_cfg_kv_bytes!, from_cfg_v_bytes!, KeyId"]}
{"id": "C67", "title": "The macros read a packet declaration exactly as it is written", "statement": "A packet declaration with #[ubx_packet_recv], #[ubx_packet_send] or both is accepted exactly if it is a struct with named fields, a documentation comment and attributes of the documented form: #[ubx(key = literal, ...)] with class and id once each and below 256, exactly one of fixed_payload_len and max_payload_len and below 65536, and optional flags; fields of sized types with optional #[ubx(...)] arguments in any order, with or without commas, none mapped to its own type; only the last field without size; the sizes of the fields add up to the fixed length. The code is generated from exactly the names, types, numbers, scales and functions written there; the order of the header keys does not matter; for every packet declaration of the crate this is the description all other properties are about.", "quantifier": "all token sequences in the place of the attributes, all field lists; all packet declarations of the crate", "why_tests_cant": "an unbounded set of inputs to a macro; a test of the macro compares single token streams", "anchors": ["ublox_derive/src/input.rs: parse_packet_description, parse_ubx_attr, parse_fields, PackFieldMap::parse, PackField, field_size_bytes", "ublox/src/ubx_packets/packets.rs: all struct declarations"]}
{"id": "C68", "title": "Nothing written in a declaration is silently ignored", "statement": "If the macros accept a packet declaration then everything that is written in the attributes of the struct and of its fields is in effect: each key, function, scale, alias and flag is the one used in the generated code.", "quantifier": "all declarations that are accepted", "why_tests_cant": "an unbounded set of inputs to a macro; the compiler does not report what a macro drops", "anchors": ["ublox_derive/src/input.rs: parse_ubx_attr, parse_fields, PackFieldMap::parse"]}
{"id": "C69", "title": "The macros read enumerations, flags and the list of packets exactly as written", "statement": "An enumeration with #[ubx_extend] is accepted exactly if it has repr(u8), attributes of the documented form and only variants with an explicit number below 256; flags with #[ubx_extend_bitflags] exactly if they are a struct with a type u8, u16 or u32 and constants written as integer literals below 2^64; the list of define_recv_packets! exactly if it is the name of the union, the name of the unknown packet and the names of the packets. All names and numbers, in this order, are what the code is generated from; for the crate these are the types all other properties are about, and all of them pass the checks of the code generators.", "quantifier": "all token sequences in the place of attributes, variants, constants and names; all enumerations, flags and the list of the crate", "why_tests_cant": "an unbounded set of inputs to a macro; a test of the macro compares single token streams", "anchors": ["ublox_derive/src/input.rs: parse_ubx_enum_type, parse_ubx_extend_attrs, parse_bitflags, parse_idents_list", "ublox/src/ubx_packets/packets.rs: all enumerations, flags, define_recv_packets!"]}
{"id": "C70", "title": "Resetting the receiver sends the documented mask and mode", "statement": "CFG-RST built with NavBbrPredefinedMask::HOT_START, WARM_START or COLD_START converted to NavBbrMask is the frame with the value that the interface description has for this start (0x0000, 0x0001, 0xFFFF, all sixteen bits), and the code of the reset mode; with any other mask of sections it is the frame with exactly these bits.", "quantifier": "all starts, all masks, all reset modes, all values of the reserved byte", "why_tests_cant": "all 65536 masks; which bits survive depends on constants that a macro adds to the flags type", "anchors": ["ublox/src/ubx_packets/packets.rs: NavBbrPredefinedMask, impl From<NavBbrPredefinedMask> for NavBbrMask, CfgRstBuilder, ResetMode"]}
{"id": "C71", "title": "Messages of a receiver arrive under their type and with their values", "statement": "If a receiver sends messages that conform to the interface description, of types in the list of the parser, with other bytes in between in which no frame begins, then the packets handed out by the parser are those of the messages: each once, in order, as the packet of that message with exactly the payload sent, and the accessors return what the description says is at that place (except for the fields named in C57). Conforming means: the length, the codes of enumerations without reserved values, zero-terminated UTF-8 texts in MON-VER, and the announced number of words in ESF-MEAS are as described. If no b5 62 occurs in between, there are no other results and no errors.", "quantifier": "all sequences of conforming messages, all bytes in between, all ways to split the stream into calls, growable and fixed buffers, and the example program's update loop", "why_tests_cant": "all payloads of all messages in all combinations and all ways to cut them; a test has a few recorded messages", "anchors": ["ublox/src/parser.rs: Parser, ParserIter::next", "ublox/src/ubx_packets/packets.rs: define_recv_packets!, all packets that are received", "examples/ublox-cli/src/main.rs: Device::update"]}
{"id": "C72", "title": "The generated code for receiving computes what the declaration says", "statement": "For every accepted packet declaration whose methods have different names, the macro generates code for the type NameRef; run on any payload, every generated accessor, raw accessor, as_bytes and validate returns what the declaration says (offsets, lengths, conversions, checks in order of the fields) and panics exactly where the declaration says. This holds in every program in which the functions that the declaration names are those generated for its enumerations and flags or written by hand, in particular for all packets of the crate: their generated validate accepts exactly the valid payloads.", "quantifier": "all accepted declarations, all payloads, all programs that define the named functions; all packets of the crate", "why_tests_cant": "the tests of the macro compare the text of the generated code for a few declarations; what the text computes is not tested, and there are unboundedly many declarations", "anchors": ["ublox_derive/src/output.rs: generate_recv_code_for_packet, get_raw_field_code", "ublox/src/ubx_packets/packets.rs: all packets that are received"]}
{"id": "C73", "title": "The generated code for sending computes what the declaration says", "statement": "For every packet declaration with a builder: if a field other than the last has no known size the macro refuses it; otherwise it generates a builder with one field per declared field, and into_packet_bytes, From<Builder> and create_packet (or into_packet_vec and extend_to if the length is not fixed), run on any builder whose values have the types of the fields and any writer, return and write what the declaration says and panic exactly where the declaration says, in every program in which the named functions are generated or written by hand, in particular for all packets of the crate.", "quantifier": "all declarations with a builder, all values of the fields, all writers, all programs that define the named functions; all packets of the crate", "why_tests_cant": "the tests of the macro compare the text of the generated code for a few declarations; what the text computes is not tested", "anchors": ["ublox_derive/src/output.rs: generate_send_code_for_packet", "ublox/src/ubx_packets/packets.rs: all packets that are sent"]}
{"id": "C74", "title": "The generated code of enumerations and flags computes what the declaration says", "statement": "The macro generates code for an enumeration unless from is asked for together with rest_error or from_unchecked with rest_reserved, and for flags exactly if the rest is reserved, from_unchecked is not asked for and the constants are different single bits. The generated functions are those that were asked for. from, from_unchecked, is_valid and into_raw, run on any byte or variant, return the variant with that number, the check whether there is one, and the number of the variant, and panic exactly for numbers without variant; the constants of generated flags have the values of the bits, from keeps the bits of the constants, into_raw and serialization hand out the bits.", "quantifier": "all enumerations and flags, all numbers and variants; all enumerations and flags of the crate", "why_tests_cant": "the tests of the macro compare the text of the generated code for a few declarations; what the text computes is not tested", "anchors": ["ublox_derive/src/output.rs: generate_code_to_extend_enum, generate_code_to_extend_bitflags", "ublox/src/ubx_packets/packets.rs: all enumerations and flags"]}
{"id": "C75", "title": "The generated code for the list of packets dispatches in the order of the list", "statement": "For any list of packets, the generated match_packet returns the first packet of the list that has the given class and id and whose generated validate accepts the payload, and the unknown packet with payload, class and id if there is none; class_and_msg_id of a packet is its class and id; MAX_PAYLOAD_LEN is the largest of the packets' constants. In the crate this is the dispatch that the parser works with: it always returns a packet, and class_and_msg_id of that packet is what was given.", "quantifier": "all lists of packets, all classes, ids and payloads; the list of the crate", "why_tests_cant": "the test of the macro compares the text of the generated code for one list; what it computes for a payload is not tested", "anchors": ["ublox_derive/src/output.rs: generate_code_for_parse, generate_types_for_packet", "ublox/src/ubx_packets/packets.rs: define_recv_packets!"]}
{"id": "C76", "title": "The generated code for debug output and serialization shows every field", "statement": "The generated fmt of a packet writes its name and, in the order of the declaration, one entry per field with the name of the field and the value of the accessor; the generated serialize_fields gives the same entries to the serializer, iterators wrapped as FieldIter, after what it was given before; serialize of PacketRef gives class, id and these entries, and payload, class and id for an unknown packet. They panic exactly if an accessor does; for a delivered packet of the crate (except CFG-PRT with reserved parity or stop bits, see C25) they return.", "quantifier": "all accepted declarations, all lists of packets, all payloads; all delivered packets of the crate", "why_tests_cant": "the tests of the macro compare the text of the generated code; what it writes for a payload is tested for single packets", "anchors": ["ublox_derive/src/output.rs: generate_debug_impl, generate_serialize_impl, generate_code_for_parse", "ublox/src/ubx_packets/types.rs: FieldIter"]}
{"id": "C77", "title": "The text of an error tells which error it is", "statement": "The text of a ParserError starts with words for the kind of the error and contains its numbers (checksums in hexadecimal, lengths in decimal, without leading zeros) and names; two errors reported by any parsers, or by any validate functions of the crate, that have the same text are equal. The same holds for DateTimeError, and for MemWriterError if it holds for the error of the writer.", "quantifier": "all errors; all runs of parsers with growable and fixed buffers; all payloads given to validate", "why_tests_cant": "all pairs of errors with all numbers in them; a test compares single texts", "anchors": ["ublox/src/error.rs: impl Display for ParserError, DateTimeError, MemWriterError"]}
{"id": "C78", "title": "A packet comes out as soon as its last byte has arrived", "statement": "While a stream of frames arrives, with other bytes in between that do not contain b5 62, at every moment at which the iterator has been run to the end exactly those packets have been returned whose last byte has been fed, each once and in order, and the parser keeps just the bytes of the frame that has begun to arrive.", "quantifier": "all streams of frames and other bytes, all places to cut the stream, all ways to split what has arrived into calls, growable buffers and fixed buffers that hold the frames", "why_tests_cant": "all cuts of all streams; a test feeds whole frames or a few cuts", "anchors": ["ublox/src/parser.rs: Parser::consume, ParserIter::next, DualBuffer"]}
{"id": "C79", "title": "The debug texts of status words name every part and tell its bits", "statement": "Printing a satellite's flags of NAV-SAT or the fix status of NAV-STATUS with {:?} never panics and shows, under the name of every part, the value of the bits that the interface description gives to it; two words are printed alike exactly if they agree in all documented bits (the quality indicators 5, 6 and 7 being shown alike).", "quantifier": "all 2^32 flags and all 2^8 status bytes", "why_tests_cant": "a swapped label or a wrong bit shows up only for particular words; no test prints them", "anchors": ["ublox/src/ubx_packets/packets.rs: impl Debug for FixStatusInfo, NavSatSvFlags"]}
{"id": "C80", "title": "The capacity that a frame needs is its length minus one", "statement": "A frame arrives through a fixed buffer however it is cut into pieces exactly if the buffer has room for all of it but the last byte; no packet is ever returned whose frame is longer than the buffer and the longest piece together. In particular the 36 bytes that the documentation calls the smallest recommended size are enough for NAV-POSLLH: each such message arrives with the position that was sent, among other bytes and messages.", "quantifier": "all frames, all capacities from 5 bytes on, all ways to cut the stream, all streams", "why_tests_cant": "the necessary size depends on how the bytes are cut; tests use large buffers and a few cuts", "anchors": ["ublox/src/lib.rs: documentation of no_std support", "ublox/src/parser.rs: FixedLinearBuffer, DualBuffer, ParserIter::next"]}
{"id": "C81", "title": "Messages arrive whatever else is sent in between", "statement": "Among any other bytes and messages, also ones too long for a fixed buffer or with a wrong checksum, the messages one is interested in are returned, in order and with the values sent, as long as no other well-formed frame reaches into one of them and enough bytes follow; for a fixed buffer only these messages have to fit.", "quantifier": "all streams, all selections of messages in them, all ways to split the stream, growable and fixed buffers, and the update loop of the example program", "why_tests_cant": "all interleavings of messages with other traffic; tests parse one message at a time", "anchors": ["ublox/src/parser.rs: Parser::consume, ParserIter::next, FixedLinearBuffer", "examples/ublox-cli/src/main.rs: Device::update"]}
{"id": "C82", "title": "Which damage of two bytes goes unnoticed", "statement": "If two bytes among class, id and payload of a frame are damaged, the parser reports InvalidChecksum exactly unless the two changes cancel: their sum is 0 modulo 256 and so is the change of one multiplied with their distance; then the damaged bytes are a well-formed frame and are delivered. So damage confined to two neighbouring bytes, or to any two bytes at an odd distance, is always detected.", "quantifier": "all frames, all pairs of positions, all replacement bytes, every buffer that holds the frame, every position in the stream", "why_tests_cant": "2^16 replacements for every pair of positions of every frame", "anchors": ["ublox/src/parser.rs: UbxChecksumCalc, ParserIter::next, try_next", "ublox/src/ubx_packets.rs: ubx_checksum"]}
{"id": "C83", "title": "Printed and serialized values stand under the right name", "statement": "In the map that serializing a delivered packet gives, and in its debug output, the value of every accessor stands under the short name of that value in the interface description (lon for lon_degrees, head_mot for heading_motion, acc_roll for vehicle_roll_accuracy, ...), or under the name of the accessor if there is no shorter one; nothing else stands under that name (in serialized acknowledgements only as far as C47 says). So what is found under the name is the number, code, float or byte array that the description places there.", "quantifier": "all packets and blocks, all fields, all delivered payloads", "why_tests_cant": "the names come from the identifiers in the declaration; a name at the wrong field shows only when somebody compares values under keys with the document", "anchors": ["ublox/src/ubx_packets/packets.rs: packet declarations with alias", "ublox_derive/src/output.rs: generate_debug_impl, generate_serialize_impl"]}
{"id": "C84", "title": "The order of the list of packets does not matter", "statement": "No payload is valid for two of the packet types listed for one class and id, apart from the two types MgaGpsEph and MgaGpsEPH for the same message. Therefore every list with the same packet types delivers every frame as the same type, whatever the order, exactly as long as MgaGpsEph stands before MgaGpsEPH.", "quantifier": "all permutations of the list in define_recv_packets!, all classes, ids and payloads", "why_tests_cant": "the number of orders is the factorial of the length of the list; an overlap shows only with a payload that fits two types", "anchors": ["ublox/src/ubx_packets/packets.rs: define_recv_packets!", "ublox_derive/src/output.rs: generate_code_for_parse"]}
{"id": "C85", "title": "A packet is held back by a bounded number of bytes", "statement": "Whatever was received before (false headers, damaged lengths, truncated frames), when the iterator has been run to the end every packet that will be returned later begins in the last bytes received, at most maximum payload length + 7 of them and no more than a fixed buffer has room for, or behind them: everything earlier is settled. The bound is reached: behind a header that announces the longest payload nothing comes out until that length has arrived.", "quantifier": "all streams, all divisions into chunks, all dispatch tables, growable buffers and fixed buffers of at least 5 bytes", "why_tests_cant": "depends on everything received before and on everything that follows", "anchors": ["ublox/src/parser.rs: ParserIter::next, Parser::consume"]}
{"id": "C86", "title": "A buffer of one's own serves as well as the provided ones", "statement": "The documentation of UnderlyingBuffer invites users to write their own buffer and says what it has to do: keep bytes in order, report their number, index, slice, drain and find them, and copy what it is given, refusing bytes only when it holds at least max_capacity. With every such buffer the parser never panics, and whatever is fed, in whatever chunks and with however many calls of next, it returns what it returns with a FixedLinearBuffer of that capacity and holds the same bytes afterwards.", "quantifier": "all buffer types that do what the documentation asks for, all their states, all histories of chunks and calls, all dispatch tables", "why_tests_cant": "quantifies over implementations of a trait that are not part of the crate", "anchors": ["ublox/src/parser.rs: trait UnderlyingBuffer, DualBuffer, Parser::consume, ParserIter::next"]}
{"id": "C87", "title": "Exactly which damage of a frame goes unnoticed", "statement": "Whatever bytes of a frame are damaged except the sync characters and the length field, the parser reports InvalidChecksum exactly unless, modulo 256, the changes before the checksum add up to the change of the first checksum byte and, weighted with the distance to the checksum, to the change of the second one; then the damaged bytes are a well-formed frame of the same length and are delivered. So damage confined to two neighbouring bytes (checksum bytes included), or to one byte and the second checksum byte, is always detected.", "quantifier": "all frames, all sets of damaged bytes outside sync and length, all replacement bytes, every buffer that holds the frame, every position in the stream", "why_tests_cant": "exponentially many damaged forms of every frame", "anchors": ["ublox/src/parser.rs: UbxChecksumCalc, ParserIter::next, try_next", "ublox/src/ubx_packets.rs: ubx_checksum"]}
{"id": "C88", "title": "What a buffer held before has no influence", "statement": "What the slice given to FixedLinearBuffer::new contains, for example the remains of an earlier parser over the same memory, has no influence on anything: two parsers whose buffers have the same length and hold the same received bytes give the same answers from then on and go on to hold the same bytes, and no stale byte ever becomes part of a packet; the slice keeps its length and can be used again at any time, even after iterators were leaked with mem::forget.", "quantifier": "all lengths and contents of the slices, all histories of chunks and calls, iterators dropped or leaked, all dispatch tables", "why_tests_cant": "a stale byte shows only if the memory happens to contain it; tests start with zeroed buffers", "anchors": ["ublox/src/parser.rs: FixedLinearBuffer, DualBuffer, Parser::new, Parser::consume"]}
{"id": "C89", "title": "The interface is the one written in the source files", "statement": "Every struct, enum, bitflags! and list in packets.rs that carries one of the macros' attributes, and every row of cfg_val!, takes part in the interface with exactly the names, attributes, types and numbers that stand in the characters of the file, in the same order, and there are no others: read from the text, the declarations expand to the packets, enumerations, flags and configuration items that all other properties are about. Comments, blanks and empty lines between items mean nothing, the items of a file are those of its parts, words and decimal, hexadecimal and scientific numbers mean what they say.", "quantifier": "the complete text of packets.rs and of the argument of cfg_val!; for the reading all texts, tokens and numbers", "why_tests_cant": "a field or attribute that is dropped or misread on the way from the text to the code shows only in the one message that uses it", "anchors": ["ublox/src/ubx_packets/packets.rs", "ublox/src/ubx_packets/cfg_val.rs: cfg_val!", "ublox_derive/src/lib.rs"]}
{"id": "C90", "title": "Physical values are correctly rounded at every step", "statement": "A scaled accessor of a readable packet returns, in the declared float type, the product of the integer in the slot of the field and the scale of the declaration, where both the scale and the product are rounded to the nearest number of the IEEE 754 format, ties to even; the result is finite and never a negative zero. Positions and velocities are made of such readings, and sums of two readings are rounded in the same way. In the other direction a builder rounds the scale, the inverse of it and the product with the given float, rounds the result to an integer with halves away from zero, and clamps it to the range of the integer type; set_position of AID-INI rounds the product, truncates it towards zero and clamps. So the results are determined to the last bit.", "quantifier": "all payloads of all readable packets with scaled fields; all finite floats given to builders with scaled fields; all finite positions", "why_tests_cant": "Whether every one of 2^32 integers in each of the scaled fields, and each float given to a builder, comes out with the last bit right cannot be tried out; tests compare a few values, often with a tolerance.", "anchors": ["ublox_derive/src/output.rs: generate_recv_code_for_packet", "ublox/src/ubx_packets/packets.rs: ScaleBack, AidIniBuilder::set_position", "ublox/src/ubx_packets/types.rs: Position, PositionECEF, Velocity", "ublox_derive/src/types.rs: PackFieldMapDesc::new"]}
{"id": "C91", "title": "The parser is the one written in parser.rs", "statement": "The functions that stand in the characters of parser.rs (the two provided buffers, the default methods of the trait UnderlyingBuffer, DualBuffer with its drop handler, UbxChecksumCalc, Parser, ParserIter) do, when they are executed statement by statement, what the other properties say of the parser: each of them yields for all arguments the same result, the same new state or the same panic as the model of it, next ends exactly if the model ends, and any history of chunks, calls of next, dropped or leaked iterators is answered alike. In particular the text, used with a Vec, answers exactly what the reference decoder makes of the received bytes, and used with a fixed buffer it neither panics nor loops.", "quantifier": "all arguments and states of all functions of the file, all underlying buffers, all dispatch tables, all histories", "why_tests_cant": "that every branch of every function behaves as specified for all states of all buffers cannot be tried out", "anchors": ["ublox/src/parser.rs"]}
{"id": "C92", "title": "The hand-written functions of the packets are those in the text", "statement": "Every function that is written by hand in ubx_packets.rs, ubx_packets/types.rs, ubx_packets/packets.rs and the part of ubx_packets/cfg_val.rs before the macros (flags and bit fields with their constants and conversions, Debug texts, iterators over repeated blocks, strings, configuration values, positions, velocities and times, acknowledgements, ScaleBack, AID-INI setters, checksums, the writer for Vec, requests) does, when the characters of the file are executed statement by statement, what the other properties say of it: for all arguments the same result, the same new receiver or the same panic as the model. The list of the functions of these files is complete; only Debug and Serialize of FieldIter, which hand the call on, are not executed.", "quantifier": "all arguments of all these functions, all pointer widths, both float types of ScaleBack", "why_tests_cant": "that every function behaves as specified for all of its arguments cannot be tried out", "anchors": ["ublox/src/ubx_packets/packets.rs", "ublox/src/ubx_packets/types.rs", "ublox/src/ubx_packets.rs", "ublox/src/ubx_packets/cfg_val.rs: StorageSize, KeyId"]}
{"id": "C93", "title": "The configuration items are what the macros in cfg_val.rs make of its table", "statement": "The characters of cfg_val.rs, read with the rules that its three macro_rules! definitions state, give exactly these functions and declarations: StorageSize and KeyId, the enumeration CfgVal with one variant per row of the table and the functions len, is_empty, parse, extend_to and write_to with one arm per row, and for each of the rows one structure with its own KEY, SIZE and into_cfg_kv_bytes, the value being read and written by the rule for the type of the row; and TpPulse and TpPulseLength. The same holds for every other table that is written for these macros: no row is lost, none gets the rule of another type.", "quantifier": "all rows of the table of the file; all tables of rows whose types have a rule", "why_tests_cant": "the result of a macro is not written anywhere; a test sees the variants it uses, not the rest of several hundred", "anchors": ["ublox/src/ubx_packets/cfg_val.rs: from_cfg_v_bytes!, into_cfg_kv_bytes!, cfg_val!, CfgVal"]}
{"id": "C94", "title": "The functions that the macros of cfg_val.rs make do what their documentation says", "statement": "The functions that cfg_val.rs has after expansion of its macros, executed: for each configuration item and each value of its type, KEY is the key of the table, SIZE is the number of bytes of key and value, into_cfg_kv_bytes returns the key and then the value, lowest byte first. CfgVal::len is that number and is_empty is false. extend_to appends exactly those bytes and returns their number; write_to replaces the first bytes of a long enough buffer, leaves the rest, and panics for a shorter buffer. parse returns the item and value whose bytes the buffer begins with, whatever follows, and returns nothing else; CfgValIter built on these functions steps from value to value.", "quantifier": "all items of the table, all values of their types, all buffers, all pointer widths of at least 4 bits", "why_tests_cant": "some hundred items with two functions each, and five functions with an arm per item, none of which is written in the file; tests use a few", "anchors": ["ublox/src/ubx_packets/cfg_val.rs: cfg_val!, CfgVal, from_cfg_v_bytes!, into_cfg_kv_bytes!", "ublox/src/ubx_packets/packets.rs: CfgValIter"]}
{"id": "C95", "title": "The code for receiving a packet is what the generators in output.rs emit", "statement": "The functions generate_recv_code_for_packet, generate_types_for_packet, generate_debug_impl, generate_serialize_impl and get_raw_field_code, as they stand in the characters of output.rs, executed on the description of a packet, emit token for token the code that the other properties describe: the constants of the packet, as_bytes, one accessor per field with its documentation, name and type, one raw accessor per converted field of known size, validate, Debug and Serialize; the bodies are those of the model of the generated code, nothing is lost and nothing added. They panic exactly for the descriptions for which the model of the macro has an error. For every packet of the crate they emit the code whose accessors and validator are proved to do what the declaration says.", "quantifier": "all descriptions of packets (any number, types, sizes, conversions, scales and documentation of fields) whose names are names; all packets of the crate", "why_tests_cant": "a test sees the code generated for the packets it uses, not that every combination of attributes gives the right text", "anchors": ["ublox_derive/src/output.rs: generate_recv_code_for_packet, generate_types_for_packet, generate_debug_impl, generate_serialize_impl, get_raw_field_code"]}
{"id": "C96", "title": "The code for sending, for the list of packets, for enumerations and for flags is what the generators in output.rs emit", "statement": "The functions generate_send_code_for_packet, generate_code_for_parse, generate_code_to_extend_enum and generate_code_to_extend_bitflags, as they stand in the characters of output.rs, executed on any description, emit token for token the code that the other properties describe: the builder with its documentation, its Default and its into_packet_bytes, extend_to or into_packet_vec; the enumeration of packets with class_and_msg_id, match_packet, MAX_PAYLOAD_LEN and Serialize; the enumeration with all its variants, from or from_unchecked and is_valid, into_raw and Serialize; the bitflags with one constant per bit, from, into_raw and Serialize. They panic or return an error exactly where the model of the macro has an error. For every declaration of the crate they emit the code whose behaviour is proved elsewhere.", "quantifier": "all descriptions of packets, lists of packets, enumerations and flags of at most 64 bits whose names are names; all declarations of the crate", "why_tests_cant": "a test sees the code generated for the types it uses, not that every combination of attributes gives the right text", "anchors": ["ublox_derive/src/output.rs: generate_send_code_for_packet, generate_code_for_parse, generate_code_to_extend_enum, generate_code_to_extend_bitflags"]}
{"id": "C97", "title": "The methods of a description are those in types.rs", "statement": "The functions in the characters of types.rs, with type_is_option and path_is_option of lib.rs, executed, do what the model of the macros says. packet_payload_size, packet_payload_size_except_last_field and packet_payload_size_except_size_fn are the sums of the sizes of all fields, of all but the last and of those without a size function, None if one of these has no size, and a panic if the sum of known sizes does not fit into a usize. PayloadLen::fixed is the length if it is fixed. size_fn, is_optional, has_intermediate_type, intermediate_type, intermediate_field_name and is_field_raw_ty_byte_array are those of the model for every field. PackFieldMapDesc::new completes the attributes of a field as in the model: from or from_unchecked, is_valid, into_raw or the conversion back from a scaled value, unless the attribute names a function. Every method that a generator of output.rs calls on a packet, a field or a length returns what the method of this name in types.rs returns.", "quantifier": "all descriptions of packets, fields, attributes and types; all sizes of usize; all packets of the crate", "why_tests_cant": "the methods run inside the compiler while the crate is built; tests see only the code that results for the packets they use", "anchors": ["ublox_derive/src/types.rs: PackDesc, PayloadLen, PackField, PackFieldMapDesc::new", "ublox_derive/src/lib.rs: type_is_option, path_is_option"]}
{"id": "C98", "title": "The macros in lib.rs emit the code of a declaration, or a compile error", "statement": "The macros ubx_packet_recv, ubx_packet_send, ubx_packet_recv_send, ubx_extend, ubx_extend_bitflags and define_recv_packets, as they stand in the characters of lib.rs, executed on a declaration: if the parser of input.rs rejects the declaration the expansion is a compile error and no code (a panic of the macro where the parser itself panics, for an enumeration whose representation is not u8); otherwise it is exactly the code that the generators of output.rs emit for the parsed description - for a packet its constants followed by the code for receiving, for sending, or for sending and then receiving - the macro panics exactly where a generator panics, and gives a compile error where the generator for flags returns an error. On a declaration of another kind (a packet macro on an enumeration, ubx_extend on a struct, ubx_extend_bitflags on another macro than bitflags!) the expansion is a compile error. For every declaration of the crate the macro before it expands to the code whose behaviour the other properties describe.", "quantifier": "all declarations of structs, enumerations, unions, bitflags and lists of packets whose names are names, with any attributes, documentation and visibility; all declarations of the crate", "why_tests_cant": "the macros run inside the compiler; a test sees the expansion of the declarations that compile, never the outcome for the others", "anchors": ["ublox_derive/src/lib.rs: ubx_packet_recv, ubx_packet_send, ubx_packet_recv_send, ubx_extend, ubx_extend_bitflags, define_recv_packets", "ublox_derive/src/lib.rs: generate_code_for_recv_packet, generate_code_for_send_packet, generate_code_for_recv_send_packet, extend_enum, extend_bitflags, do_define_recv_packets"]}
{"id": "C99", "title": "From the characters of the source files to the behaviour of the packets", "statement": "Read the declarations out of the characters of packets.rs, expand each with the macro that stands before it, executed from the characters of lib.rs and output.rs, and execute the functions of the code that comes out. For every packet that can be received the expansion contains a view whose accessors, raw accessors and as_bytes return what the declaration says for every payload, and whose validate accepts exactly the valid payloads and never panics. For every packet that can be sent the expansion contains a builder whose default and whose functions are, for all values of the fields, those of the model of its declaration, with the same bytes and the same panics (the frames are described by other properties). The expansion of the one list of packets contains match_packet, which for every class, id and payload returns the first packet of the list with this class and id for which the payload is valid, and the unknown packet if there is none. The expansions of the enumerations and flags contain conversions that lose no code and no bit.", "quantifier": "all declarations in packets.rs; all payloads, classes, ids and field values; any documentation, attributes and visibility; every usize of at least 16 bits", "why_tests_cant": "no test covers the way from the source text through the macros to the behaviour for all 66 packets and all payloads", "anchors": ["ublox/src/ubx_packets/packets.rs", "ublox_derive/src/lib.rs", "ublox_derive/src/output.rs"]}
{"id": "C100", "title": "The texts of errors are those in error.rs", "statement": "The enumerations in the characters of error.rs have exactly the variants and members of the errors that the other properties are about. The implementations of Display in these characters, executed: for every error of the parser the text names its kind and contains its numbers (checksums in hexadecimal, lengths and sizes in decimal, without leading zeros) and its names, each in its place; errors with the same text are the same, if their names are identifiers. The errors of the conversion to date and time and of a writer have the texts that are stated for them, the latter with the text of the error that the writer gave.", "quantifier": "all errors, with all numbers and names; all texts of the errors of a writer", "why_tests_cant": "a test compares the texts of single errors", "anchors": ["ublox/src/error.rs: ParserError, MemWriterError, DateTimeError"]}
