{"id": "C01", "title": "Fixed-width strings occupy exactly their width", "statement": "writeFixedString(buf, value, len, pad, padLeft) appends exactly len bytes: the UTF-8 bytes of value cut to the first len bytes, with the pad byte filling the remaining positions on the chosen side; bytes already in the buffer and the reader index are untouched. This must hold for every value. (The code breaks it for one family: a null or empty value with padLeft = true appends nothing.)", "quantifier": "every string (including null, empty, non-ASCII, lone surrogates), every len >= 0, every pad character, both sides, every prior buffer content", "why_tests_cant": "the value space is unbounded; the unit test uses a handful of ASCII literals and never a null left-padded one", "anchors": ["codec/src/main/java/com/finproto/codec/BinaryCodec.java: writeFixedString, padChar"]}
{"id": "C02", "title": "Fixed-width string round trip", "statement": "Reading back a fixed-width field that was just written with the same len, pad and side returns the original string whenever it fits in len bytes, contains no unpaired surrogate and does not start (padLeft) / end (padRight) with the pad character; in general it returns exactly the pad-trimmed UTF-8 decoding of the written bytes.", "quantifier": "every string, len, pad character (ASCII), side and following buffer content", "why_tests_cant": "the claim ranges over all Unicode strings and widths", "anchors": ["codec/src/main/java/com/finproto/codec/BinaryCodec.java: writeFixedString, readFixedString, trimByChar"]}
{"id": "C03", "title": "Over-long fixed strings are cut to a prefix", "statement": "When the UTF-8 form of a value is longer than len the field holds exactly the first len bytes; for single-byte (ASCII) text reading back gives the first len characters minus trailing pad characters, and a multi-byte character that is cut never yields a longer string than len characters.", "quantifier": "every string and every len", "why_tests_cant": "truncation behaviour depends on arbitrary byte positions inside arbitrary characters", "anchors": ["codec/src/main/java/com/finproto/codec/BinaryCodec.java: writeFixedString, readFixedString"]}
{"id": "C04", "title": "null and empty are the same on the wire", "statement": "null and \"\" written through any string field (fixed or length-prefixed) produce identical bytes, so a decoder can never distinguish them.", "quantifier": "every width, pad, side, buffer and every message class with string fields", "why_tests_cant": "universal over all messages and buffer states", "anchors": ["codec/src/main/java/com/finproto/codec/BinaryCodec.java: writeFixedString", "sample-bin/src/main/java/com/finproto/sample/messages/*.java: encode, decode", "sse-bin/src/main/java/com/finproto/sse/bin/messages/*.java: encode, decode", "szse-bin/src/main/java/com/finproto/szse/bin/messages/*.java: encode, decode", "bjse-bin/src/main/java/com/finproto/bjse/trade/messages/*.java: encode, decode", "risk-bin/src/main/java/com/finproto/risk/bin/messages/*.java: encode, decode"]}
{"id": "C05", "title": "trimByChar removes exactly the padding run", "statement": "trimByChar(s, ch, left) returns the longest suffix (left) / prefix (right) of s that does not start / end with ch; what was removed consists only of ch; it is idempotent and leaves the other end untouched.", "quantifier": "every string, character and side", "why_tests_cant": "infinite input space", "anchors": ["codec/src/main/java/com/finproto/codec/BinaryCodec.java: trimByChar"]}
{"id": "C06", "title": "readFixedString consumes exactly len bytes", "statement": "readFixedString(buf, len, pad, side) on a buffer with at least len readable bytes advances the reader index by exactly len, leaves the bytes alone, depends only on those len bytes, and returns at most len characters.", "quantifier": "every buffer, len, pad, side", "why_tests_cant": "must hold for arbitrary, also malformed UTF-8, bytes", "anchors": ["codec/src/main/java/com/finproto/codec/BinaryCodec.java: readFixedString"]}
{"id": "C07", "title": "CRC16 service computes CRC-16/MODBUS", "statement": "Crc16ChecksumService.calc equals the bit-by-bit reflected CRC with polynomial 0x8005 (0xA001), initial value 0xFFFF and no final xor over the readable bytes, is in 0..0xFFFF, and leaves the buffer indices and bytes unchanged.", "quantifier": "every byte sequence of any length and every reader index", "why_tests_cant": "one test vector cannot establish agreement on all byte strings", "anchors": ["codec/src/main/java/com/finproto/codec/Crc16ChecksumService.java: calc, CRC_TABLE"]}
{"id": "C08", "title": "CRC32 service computes CRC-32/ISO-HDLC", "statement": "Crc32ChecksumService.calc equals the bit-by-bit reflected CRC with polynomial 0x04C11DB7 (0xEDB88320), initial value and final xor 0xFFFFFFFF over the readable bytes.", "quantifier": "every byte sequence of any length and every reader index", "why_tests_cant": "one test vector cannot establish agreement on all byte strings", "anchors": ["codec/src/main/java/com/finproto/codec/Crc32ChecksumService.java: calc, CRC_TABLE"]}
{"id": "C09", "title": "CRCs detect every short error burst", "statement": "If two equally long messages differ only inside a window of at most 16 (CRC16) / 32 (CRC32) consecutive bits, counted in the order in which the CRC consumes them (bytes in order, least significant bit of each byte first), in particular in any single bit, any single byte or any two (CRC16) / four (CRC32) adjacent bytes, their checksums differ.", "quantifier": "every message, every error pattern within such a window, every window position", "why_tests_cant": "2^32 patterns times unbounded messages", "anchors": ["codec/src/main/java/com/finproto/codec/Crc16ChecksumService.java: calc", "codec/src/main/java/com/finproto/codec/Crc32ChecksumService.java: calc"]}
{"id": "C10", "title": "SSE checksum is the byte sum modulo 256", "statement": "SseBinChecksumService.calc returns the sum of the unsigned readable bytes modulo 256, a number in 0..255.", "quantifier": "every byte sequence and reader index", "why_tests_cant": "unbounded input length", "anchors": ["codec/src/main/java/com/finproto/codec/SseBinChecksumService.java: calc"]}
{"id": "C11", "title": "SZSE checksum is the byte sum modulo 256 and never overflows", "statement": "SzseBinChecksumService.calc returns the sum of the unsigned readable bytes modulo 256, hence always the same value as the SSE service, and the 64-bit accumulator never overflows for any buffer a JVM can hold.", "quantifier": "every byte sequence shorter than 2^31 bytes", "why_tests_cant": "overflow would only show on giant buffers", "anchors": ["codec/src/main/java/com/finproto/codec/SzseBinChecksumService.java: calc"]}
{"id": "C12", "title": "Sum checksums detect any single changed byte but no reordering", "statement": "Changing exactly one byte of a message changes its SSE/SZSE checksum; permuting the bytes never changes it.", "quantifier": "every message, position, replacement byte, and every permutation", "why_tests_cant": "universal over messages and permutations", "anchors": ["codec/src/main/java/com/finproto/codec/SseBinChecksumService.java: calc", "codec/src/main/java/com/finproto/codec/SzseBinChecksumService.java: calc"]}
{"id": "C13", "title": "Checksums of concatenations compose", "statement": "The checksum of a concatenation is determined by the checksum of the first part and the bytes of the second: for the sum services it is the sum of the parts' checksums modulo 256; for the CRCs two prefixes with the same checksum stay equal under any common suffix.", "quantifier": "every pair of byte sequences", "why_tests_cant": "universal over pairs of sequences", "anchors": ["codec/src/main/java/com/finproto/codec/Crc16ChecksumService.java: calc", "codec/src/main/java/com/finproto/codec/Crc32ChecksumService.java: calc", "codec/src/main/java/com/finproto/codec/SseBinChecksumService.java: calc", "codec/src/main/java/com/finproto/codec/SzseBinChecksumService.java: calc"]}
{"id": "C14", "title": "verify accepts exactly the calculated checksum", "statement": "verify(buf, expected) is true iff expected equals calc(buf) (false for null), has no effect on the buffer and accepts exactly one expected value per buffer.", "quantifier": "every service, buffer and expected value", "why_tests_cant": "universal over buffers and values", "anchors": ["codec/src/main/java/com/finproto/codec/ChecksumService.java: verify"]}
{"id": "C15", "title": "Checksum registry: first registration wins until removed", "statement": "After any history of registry/remove/clear calls, getChecksumService(name) returns the service of the earliest successful registration since the last remove(name)/clear, registry returns true exactly when the name was free, and operations on one name never affect another.", "quantifier": "every sequence of registry operations", "why_tests_cant": "histories are unbounded", "anchors": ["codec/src/main/java/com/finproto/codec/ChecksumServiceFactory.java: registry, removeChecksumService, clearAllChecksumService, getChecksumService"]}
{"id": "C16", "title": "Default registry offers only CRC16 and CRC32", "statement": "In a fresh process getChecksumService returns a service exactly for \"CRC16\" and \"CRC32\"; therefore SSE and SZSE frames encoded without an explicit registration carry the caller's checksum value unchanged, whatever the body is.", "quantifier": "every service name; every SSE/SZSE frame and buffer", "why_tests_cant": "the negative claim ranges over all names and frames", "anchors": ["codec/src/main/java/com/finproto/codec/ChecksumServiceFactory.java: ChecksumServiceFactory()", "sse-bin/src/main/java/com/finproto/sse/bin/messages/SseBinary.java: encode", "szse-bin/src/main/java/com/finproto/szse/bin/messages/SzseBinary.java: encode"]}
{"id": "C17", "title": "Byte and short bitmaps behave as sets of positions", "statement": "After any sequence of set/clear calls with in-range positions on a ByteBitMap or ShortBitMap, get(p) is true iff the last operation on p was set.", "quantifier": "every operation sequence, every in-range position", "why_tests_cant": "unbounded histories", "anchors": ["codec/src/main/java/com/finproto/bitmap/ByteBitMap.java: set, clear, get", "codec/src/main/java/com/finproto/bitmap/ShortBitMap.java: set, clear, get"]}
{"id": "C18", "title": "Int and long bitmaps: set works, clear must clear", "statement": "For IntBitMap and LongBitMap set(p) makes get(p) true and leaves other positions alone, and clear(p) must make get(p) false. The clear half is false of the code: clear sets the bit.", "quantifier": "every operation sequence, every in-range position", "why_tests_cant": "no test exists for them and the claim is over all positions and histories", "anchors": ["codec/src/main/java/com/finproto/bitmap/IntBitMap.java: set, clear, get", "codec/src/main/java/com/finproto/bitmap/LongBitMap.java: set, clear, get"]}
{"id": "C19", "title": "Bitmap write/read round trip", "statement": "Writing a bitmap and reading it into a fresh one reproduces every position. True for ByteBitMap; for Short/Int/Long maps the code loses or moves bits: the exact surviving positions are characterised.", "quantifier": "every bitmap content", "why_tests_cant": "2^64 contents", "anchors": ["codec/src/main/java/com/finproto/bitmap/ByteBitMap.java: write, read", "codec/src/main/java/com/finproto/bitmap/ShortBitMap.java: write, read", "codec/src/main/java/com/finproto/bitmap/IntBitMap.java: write, read", "codec/src/main/java/com/finproto/bitmap/LongBitMap.java: write, read"]}
{"id": "C20", "title": "Bitmap positions outside the range", "statement": "get/set/clear never throw for any int position; out-of-range positions alias an in-range bit or none, in the exact way given by Java's shift masking.", "quantifier": "every int position, every content", "why_tests_cant": "2^32 positions", "anchors": ["codec/src/main/java/com/finproto/bitmap/ByteBitMap.java", "codec/src/main/java/com/finproto/bitmap/ShortBitMap.java", "codec/src/main/java/com/finproto/bitmap/IntBitMap.java", "codec/src/main/java/com/finproto/bitmap/LongBitMap.java"]}
{"id": "C21", "title": "Bitmap reads terminate and consume a bounded number of bytes", "statement": "read consumes exactly 1 (byte) or 2 (short) bytes; for int/long maps it consumes up to and including the first byte below 0x80 and fails with an index error exactly when no such byte exists in the readable region.", "quantifier": "every buffer content", "why_tests_cant": "unbounded inputs, potential non-termination", "anchors": ["codec/src/main/java/com/finproto/bitmap/IntBitMap.java: read", "codec/src/main/java/com/finproto/bitmap/LongBitMap.java: read", "codec/src/main/java/com/finproto/bitmap/ShortBitMap.java: read", "codec/src/main/java/com/finproto/bitmap/ByteBitMap.java: read"]}
{"id": "C22", "title": "encode appends exactly the documented wire image", "statement": "For every message class, a successful encode(buf) appends precisely the concatenation of the field images in declaration order (integers in the protocol's byte order, fixed-width strings, length-prefixed strings and lists, nested messages), and nothing already in the buffer, nor the reader index, changes.", "quantifier": "every message class, every object state (all field values, list lengths, nestings), every prior buffer", "why_tests_cant": "value space and nesting are unbounded; tests cover one literal per class", "anchors": ["sample-bin/src/main/java/com/finproto/sample/messages/*.java: encode, decode", "sse-bin/src/main/java/com/finproto/sse/bin/messages/*.java: encode, decode", "szse-bin/src/main/java/com/finproto/szse/bin/messages/*.java: encode, decode", "bjse-bin/src/main/java/com/finproto/bjse/trade/messages/*.java: encode, decode", "risk-bin/src/main/java/com/finproto/risk/bin/messages/*.java: encode, decode"]}
{"id": "C23", "title": "decode inverts encode", "statement": "Decoding the bytes produced by encode into a fresh object of the same class gives an object equal to the original, for every canonical object (strings valid and unpadded, fitting their width; lists/strings non-empty or null, below the count limit; extension/body class matching its key in the factory).", "quantifier": "every message class and every canonical object", "why_tests_cant": "infinitely many objects", "anchors": ["sample-bin/src/main/java/com/finproto/sample/messages/*.java: encode, decode", "sse-bin/src/main/java/com/finproto/sse/bin/messages/*.java: encode, decode", "szse-bin/src/main/java/com/finproto/szse/bin/messages/*.java: encode, decode", "bjse-bin/src/main/java/com/finproto/bjse/trade/messages/*.java: encode, decode", "risk-bin/src/main/java/com/finproto/risk/bin/messages/*.java: encode, decode"]}
{"id": "C24", "title": "Messages are self-delimiting in a stream", "statement": "Encoding any sequence of messages back to back into one buffer and decoding with the same class sequence yields the same objects in order and leaves the reader index exactly at the end; bytes following a message never influence its decoding.", "quantifier": "every finite sequence of canonical messages of any classes, any trailing bytes", "why_tests_cant": "unbounded sequences", "anchors": ["sample-bin/src/main/java/com/finproto/sample/messages/*.java: encode, decode", "sse-bin/src/main/java/com/finproto/sse/bin/messages/*.java: encode, decode", "szse-bin/src/main/java/com/finproto/szse/bin/messages/*.java: encode, decode", "bjse-bin/src/main/java/com/finproto/bjse/trade/messages/*.java: encode, decode", "risk-bin/src/main/java/com/finproto/risk/bin/messages/*.java: encode, decode"]}
{"id": "C25", "title": "Fixed-layout classes always have the same size", "statement": "For each class without lists, length-prefixed strings or polymorphic parts, every successful encode writes the same number of bytes, namely the sum of its field widths (for classes with left-padded fields: provided those are non-empty).", "quantifier": "every object of each fixed-layout class", "why_tests_cant": "all field values", "anchors": ["sample-bin/src/main/java/com/finproto/sample/messages/*.java: encode, decode", "sse-bin/src/main/java/com/finproto/sse/bin/messages/*.java: encode, decode", "szse-bin/src/main/java/com/finproto/szse/bin/messages/*.java: encode, decode", "bjse-bin/src/main/java/com/finproto/bjse/trade/messages/*.java: encode, decode", "risk-bin/src/main/java/com/finproto/risk/bin/messages/*.java: encode, decode"]}
{"id": "C26", "title": "A truncated message is reported, never silently accepted", "statement": "Decoding a strict prefix of an encoded message from a buffer holding only those bytes fails with an index-out-of-bounds error.", "quantifier": "every message object and every cut position", "why_tests_cant": "every cut of every message", "anchors": ["sample-bin/src/main/java/com/finproto/sample/messages/*.java: encode, decode", "sse-bin/src/main/java/com/finproto/sse/bin/messages/*.java: encode, decode", "szse-bin/src/main/java/com/finproto/szse/bin/messages/*.java: encode, decode", "bjse-bin/src/main/java/com/finproto/bjse/trade/messages/*.java: encode, decode", "risk-bin/src/main/java/com/finproto/risk/bin/messages/*.java: encode, decode"]}
{"id": "C27", "title": "decode is deterministic and sees only the bytes it consumes", "statement": "A successful decode depends only on the bytes between the old and the new reader index (and the registries): replacing everything else in the buffer, before or after, gives the same object and the same consumption. decode never modifies the buffer content or the writer index.", "quantifier": "every buffer, class, registry state", "why_tests_cant": "universal over buffer pairs", "anchors": ["sample-bin/src/main/java/com/finproto/sample/messages/*.java: encode, decode", "sse-bin/src/main/java/com/finproto/sse/bin/messages/*.java: encode, decode", "szse-bin/src/main/java/com/finproto/szse/bin/messages/*.java: encode, decode", "bjse-bin/src/main/java/com/finproto/bjse/trade/messages/*.java: encode, decode", "risk-bin/src/main/java/com/finproto/risk/bin/messages/*.java: encode, decode"]}
{"id": "C28", "title": "decode fails only with documented exceptions and always terminates", "statement": "For any byte sequence, decode into a well-formed object terminates, and either succeeds or throws IndexOutOfBoundsException or IllegalArgumentException (unknown message type/extension); in a default process the recursion depth is at most 3 levels.", "quantifier": "every byte sequence (hostile input), every class", "why_tests_cant": "hostile inputs are unbounded", "anchors": ["sample-bin/src/main/java/com/finproto/sample/messages/*.java: encode, decode", "sse-bin/src/main/java/com/finproto/sse/bin/messages/*.java: encode, decode", "szse-bin/src/main/java/com/finproto/szse/bin/messages/*.java: encode, decode", "bjse-bin/src/main/java/com/finproto/bjse/trade/messages/*.java: encode, decode", "risk-bin/src/main/java/com/finproto/risk/bin/messages/*.java: encode, decode"]}
{"id": "C29", "title": "What a reused object keeps", "statement": "Decoding into an object that already holds data overwrites every field except length-prefixed strings and lists whose encoded length is not positive: these keep their old content. Consequently decode into a reused object equals decode into a fresh one iff no such field is empty on the wire or the old object had null there.", "quantifier": "every prior object state and every message", "why_tests_cant": "history dependence over all states", "anchors": ["sample-bin/src/main/java/com/finproto/sample/messages/*.java: encode, decode", "sse-bin/src/main/java/com/finproto/sse/bin/messages/*.java: encode, decode", "szse-bin/src/main/java/com/finproto/szse/bin/messages/*.java: encode, decode", "bjse-bin/src/main/java/com/finproto/bjse/trade/messages/*.java: encode, decode", "risk-bin/src/main/java/com/finproto/risk/bin/messages/*.java: encode, decode"]}
{"id": "C30", "title": "encode fails only for missing mandatory parts or a full buffer", "statement": "encode succeeds exactly when no mandatory nested message and no list element is null and the wire image fits below the buffer's maximum capacity. If everything fits it throws NullPointerException exactly when such a part is null; if no part is missing it throws IndexOutOfBoundsException exactly when the image does not fit; if both apply it throws one of the two. Null strings, null lists and null bodies are accepted.", "quantifier": "every object and buffer capacity", "why_tests_cant": "all combinations of null and capacity", "anchors": ["sample-bin/src/main/java/com/finproto/sample/messages/*.java: encode, decode", "sse-bin/src/main/java/com/finproto/sse/bin/messages/*.java: encode, decode", "szse-bin/src/main/java/com/finproto/szse/bin/messages/*.java: encode, decode", "bjse-bin/src/main/java/com/finproto/bjse/trade/messages/*.java: encode, decode", "risk-bin/src/main/java/com/finproto/risk/bin/messages/*.java: encode, decode"]}
{"id": "C31", "title": "Counts beyond 32767 are not representable", "statement": "Lists and strings with 16-bit length prefix round-trip exactly up to 32767 elements/bytes; from 32768 on the decoder sees a negative or smaller count, so the element data are misparsed: no object with 32768..65535 elements round-trips.", "quantifier": "every list/string of each length", "why_tests_cant": "requires reasoning on arbitrarily large lists", "anchors": ["sample-bin/src/main/java/com/finproto/sample/messages/BasicPacket.java: encode, decode", "sample-bin/src/main/java/com/finproto/sample/messages/StringPacket.java: encode, decode", "sse-bin/src/main/java/com/finproto/sse/bin/messages/ExecRptInfo.java: encode, decode"]}
{"id": "C32", "title": "Empty strings inside string lists must survive", "statement": "A list of length-prefixed strings decodes to the same list. The code violates this: elements that are null or empty are dropped by decode, all others keep their order.", "quantifier": "every list of strings", "why_tests_cant": "all lists", "anchors": ["sample-bin/src/main/java/com/finproto/sample/messages/StringPacket.java: encode, decode"]}
{"id": "C33", "title": "Frame length field equals the body length", "statement": "After encoding a RootPacket, SseBinary, SzseBinary or RcBinary frame, both the object's length field and the length bytes in the buffer equal the number of body bytes written, whatever value was set before and wherever in the buffer the frame starts.", "quantifier": "every frame, body (any message class or null), previous length value, buffer", "why_tests_cant": "all bodies and positions", "anchors": ["sample-bin/src/main/java/com/finproto/sample/messages/RootPacket.java: encode, decode", "sse-bin/src/main/java/com/finproto/sse/bin/messages/SseBinary.java: encode, decode", "szse-bin/src/main/java/com/finproto/szse/bin/messages/SzseBinary.java: encode, decode", "risk-bin/src/main/java/com/finproto/risk/bin/messages/RcBinary.java: encode, decode"]}
{"id": "C34", "title": "Frame checksum covers the readable bytes before it", "statement": "When a checksum service is registered under the frame's algorithm the trailing checksum equals calc over all readable bytes preceding it (from the reader index to the checksum field) and the object's checksum field is updated; when none is registered the caller's value is sent. If the frame is the first thing in the readable region, the checksum covers exactly the frame; otherwise it also covers the earlier unread bytes.", "quantifier": "every registry state, frame, body and prior buffer content", "why_tests_cant": "all combinations", "anchors": ["sample-bin/src/main/java/com/finproto/sample/messages/RootPacket.java: encode, decode", "sse-bin/src/main/java/com/finproto/sse/bin/messages/SseBinary.java: encode, decode", "szse-bin/src/main/java/com/finproto/szse/bin/messages/SzseBinary.java: encode, decode"]}
{"id": "C35", "title": "Frames dispatch on the key field", "statement": "decode of a frame or of a message with an extension constructs the body/extension by the class registered for the key just read (message type or application id) and throws IllegalArgumentException exactly when none is registered, having consumed only the header.", "quantifier": "every key value, every registry state, every buffer", "why_tests_cant": "2^32 message types, unbounded application ids", "anchors": ["sample-bin/src/main/java/com/finproto/sample/messages/RootPacket.java: encode, decode", "sse-bin/src/main/java/com/finproto/sse/bin/messages/SseBinary.java: encode, decode", "szse-bin/src/main/java/com/finproto/szse/bin/messages/SzseBinary.java: encode, decode", "risk-bin/src/main/java/com/finproto/risk/bin/messages/RcBinary.java: encode, decode", "bjse-bin/src/main/java/com/finproto/bjse/trade/messages/BjseBinary.java: encode, decode", "szse-bin/src/main/java/com/finproto/szse/bin/messages/NewOrder.java: decode", "bjse-bin/src/main/java/com/finproto/bjse/trade/messages/NewOrder.java: decode"]}
{"id": "C36", "title": "Received frames are not validated", "statement": "One would expect decode to reject frames whose length field or checksum is wrong. It does not: for every encoded frame, replacing length and checksum by any other values still decodes successfully to the same header and the same body.", "quantifier": "every frame and every forged length/checksum", "why_tests_cant": "a universally quantified negative", "anchors": ["sample-bin/src/main/java/com/finproto/sample/messages/RootPacket.java: encode, decode", "sse-bin/src/main/java/com/finproto/sse/bin/messages/SseBinary.java: encode, decode", "szse-bin/src/main/java/com/finproto/szse/bin/messages/SzseBinary.java: encode, decode", "risk-bin/src/main/java/com/finproto/risk/bin/messages/RcBinary.java: encode, decode", "bjse-bin/src/main/java/com/finproto/bjse/trade/messages/BjseBinary.java: encode, decode"]}
{"id": "C37", "title": "Encoding is idempotent and does not disturb the message", "statement": "encode changes nothing in the message except the computed length and checksum fields of frames; encoding the same object again into an equal buffer gives identical bytes.", "quantifier": "every object, buffer", "why_tests_cant": "all objects", "anchors": ["sample-bin/src/main/java/com/finproto/sample/messages/*.java: encode, decode", "sse-bin/src/main/java/com/finproto/sse/bin/messages/*.java: encode, decode", "szse-bin/src/main/java/com/finproto/szse/bin/messages/*.java: encode, decode", "bjse-bin/src/main/java/com/finproto/bjse/trade/messages/*.java: encode, decode", "risk-bin/src/main/java/com/finproto/risk/bin/messages/*.java: encode, decode"]}
{"id": "C38", "title": "Factories are independent maps with last-registration-wins", "statement": "After any sequence of register/remove calls on the message factories, create(key) builds a new object from the supplier of the last register(key) not followed by remove(key), throws IllegalArgumentException if there is none, remove returns whether a mapping existed, and operations on one factory or key never affect another.", "quantifier": "every operation history over all factories and keys", "why_tests_cant": "unbounded histories", "anchors": ["sample-bin/src/main/java/com/finproto/sample/messages/RootPacket.java: PayloadMessageFactory", "sse-bin/src/main/java/com/finproto/sse/bin/messages/SseBinary.java: BodyMessageFactory", "szse-bin/src/main/java/com/finproto/szse/bin/messages/SzseBinary.java: BodyMessageFactory", "bjse-bin/src/main/java/com/finproto/bjse/trade/messages/BjseBinary.java: BodyMessageFactory", "risk-bin/src/main/java/com/finproto/risk/bin/messages/RcBinary.java: BodyMessageFactory", "szse-bin/src/main/java/com/finproto/szse/bin/messages/NewOrder.java: ApplExtendMessageFactory", "bjse-bin/src/main/java/com/finproto/bjse/trade/messages/NewOrder.java: ApplExtendMessageFactory"]}
{"id": "C39", "title": "SSE type lookup by class is the inverse of creation", "statement": "In a fresh process getMsgType(c) is the type t for which create(t) builds a c, for every registered body class, and vice versa. After arbitrary register calls getMsgType(c) is the last type registered for c. remove does not undo getMsgType (stale answer).", "quantifier": "every class, every key, every history", "why_tests_cant": "unbounded histories", "anchors": ["sse-bin/src/main/java/com/finproto/sse/bin/messages/SseBinary.java: BodyMessageFactory.register, getMsgType, remove, create"]}
{"id": "C40", "title": "MessageType values are a bijection", "statement": "fromValue(v) returns the constant whose value is v and throws for every other int; getValue/fromValue are mutually inverse and the values are pairwise distinct.", "quantifier": "every int value and every constant", "why_tests_cant": "2^32 ints", "anchors": ["sse-bin/src/main/java/com/finproto/sse/bin/messages/SseBinary.java: MessageType"]}
{"id": "C41", "title": "Every default registration is consistent", "statement": "For each default factory the keys are pairwise distinct, create(key) succeeds exactly for the protocol's message types and application identifiers (IllegalArgumentException for all others) and yields a fresh object of the class announced, and a frame built with each registered type and a canonical body of that class round-trips.", "quantifier": "every registered (factory, key) pair, every body", "why_tests_cant": "all bodies of all 230+ registrations", "anchors": ["sample-bin/src/main/java/com/finproto/sample/messages/RootPacket.java: encode, decode", "sse-bin/src/main/java/com/finproto/sse/bin/messages/SseBinary.java: encode, decode", "szse-bin/src/main/java/com/finproto/szse/bin/messages/SzseBinary.java: encode, decode", "risk-bin/src/main/java/com/finproto/risk/bin/messages/RcBinary.java: encode, decode", "bjse-bin/src/main/java/com/finproto/bjse/trade/messages/BjseBinary.java: encode, decode"]}
{"id": "C42", "title": "equals is an equivalence relation", "statement": "equals on message objects is reflexive, symmetric and transitive, false for null and for objects of other classes.", "quantifier": "every pair/triple of objects", "why_tests_cant": "all triples", "anchors": ["sample-bin/src/main/java/com/finproto/sample/messages/BasicPacket.java: equals", "szse-bin/src/main/java/com/finproto/szse/bin/messages/NewOrder.java: equals"]}
{"id": "C43", "title": "Equal objects have equal hash codes", "statement": "If a.equals(b) and both hash codes exist then a.hashCode() == b.hashCode().", "quantifier": "every pair of objects of any classes", "why_tests_cant": "all pairs", "anchors": ["sample-bin/src/main/java/com/finproto/sample/messages/BasicPacket.java: hashCode, equals", "szse-bin/src/main/java/com/finproto/szse/bin/messages/NewOrder.java: hashCode, equals"]}
{"id": "C44", "title": "hashCode terminates", "statement": "hashCode returns for every object. Violated: on the field-less classes it calls itself without end (StackOverflowError), and so it does for every frame or order that contains one of them; it terminates for exactly the other objects.", "quantifier": "every object, every stack size", "why_tests_cant": "non-termination at every stack depth", "anchors": ["sample-bin/src/main/java/com/finproto/sample/messages/EmptyPacket.java: hashCode", "sse-bin/src/main/java/com/finproto/sse/bin/messages/Heartbeat.java: hashCode", "szse-bin/src/main/java/com/finproto/szse/bin/messages/Heartbeat.java: hashCode", "bjse-bin/src/main/java/com/finproto/bjse/trade/messages/NewOrderExtend041.java: hashCode"]}
{"id": "C45", "title": "equals observes every field", "statement": "Two objects of the same class are equal iff all their fields are equal; changing any single field to a non-equal value makes them unequal.", "quantifier": "every class, field and values", "why_tests_cant": "all fields of all classes", "anchors": ["sample-bin/src/main/java/com/finproto/sample/messages/*.java: encode, decode", "sse-bin/src/main/java/com/finproto/sse/bin/messages/*.java: encode, decode", "szse-bin/src/main/java/com/finproto/szse/bin/messages/*.java: encode, decode", "bjse-bin/src/main/java/com/finproto/bjse/trade/messages/*.java: encode, decode", "risk-bin/src/main/java/com/finproto/risk/bin/messages/*.java: encode, decode"]}
{"id": "C46", "title": "Equal objects have equal encodings", "statement": "a.equals(b) implies both encode to the same bytes or fail alike (apart from floating-point NaN payloads, for which a counterexample exists; even then both append equally many bytes and end with the same exception or none).", "quantifier": "every pair of objects and buffer", "why_tests_cant": "all pairs", "anchors": ["sample-bin/src/main/java/com/finproto/sample/messages/*.java: encode, decode", "sse-bin/src/main/java/com/finproto/sse/bin/messages/*.java: encode, decode", "szse-bin/src/main/java/com/finproto/szse/bin/messages/*.java: encode, decode", "bjse-bin/src/main/java/com/finproto/bjse/trade/messages/*.java: encode, decode", "risk-bin/src/main/java/com/finproto/risk/bin/messages/*.java: encode, decode"]}
{"id": "C47", "title": "Encodings are injective on canonical objects", "statement": "Two canonical objects of the same class that differ in anything other than the length and checksum fields which encode itself fills in never have the same encoding, and neither encoding is a proper prefix of the other; objects without such fields that differ at all have different encodings.", "quantifier": "every pair of canonical objects", "why_tests_cant": "all pairs", "anchors": ["sample-bin/src/main/java/com/finproto/sample/messages/*.java: encode, decode", "sse-bin/src/main/java/com/finproto/sse/bin/messages/*.java: encode, decode", "szse-bin/src/main/java/com/finproto/szse/bin/messages/*.java: encode, decode", "bjse-bin/src/main/java/com/finproto/bjse/trade/messages/*.java: encode, decode", "risk-bin/src/main/java/com/finproto/risk/bin/messages/*.java: encode, decode"]}
{"id": "C48", "title": "Field offsets and byte order are fixed by the protocol", "statement": "In SSE, SZSE and risk messages integers appear most significant byte first, in BJSE and sample messages least significant first; each field that follows only fixed-width fields starts at a fixed offset.", "quantifier": "every class and every object", "why_tests_cant": "all values", "anchors": ["sample-bin/src/main/java/com/finproto/sample/messages/*.java: encode, decode", "sse-bin/src/main/java/com/finproto/sse/bin/messages/*.java: encode, decode", "szse-bin/src/main/java/com/finproto/szse/bin/messages/*.java: encode, decode", "bjse-bin/src/main/java/com/finproto/bjse/trade/messages/*.java: encode, decode", "risk-bin/src/main/java/com/finproto/risk/bin/messages/*.java: encode, decode"]}
{"id": "C49", "title": "Accepted bytes are reproduced", "statement": "For classes built from integers and fixed-width strings: decoding any byte sequence whose text fields are in normal form and re-encoding reproduces the consumed bytes exactly.", "quantifier": "every byte sequence of the class's size", "why_tests_cant": "256^n byte strings", "anchors": ["sample-bin/src/main/java/com/finproto/sample/messages/*.java: encode, decode", "sse-bin/src/main/java/com/finproto/sse/bin/messages/*.java: encode, decode", "szse-bin/src/main/java/com/finproto/szse/bin/messages/*.java: encode, decode", "bjse-bin/src/main/java/com/finproto/bjse/trade/messages/*.java: encode, decode", "risk-bin/src/main/java/com/finproto/risk/bin/messages/*.java: encode, decode"]}
{"id": "C50", "title": "toString shows every field", "statement": "toString never throws, and consists of the class name and name=value for every field in declaration order.", "quantifier": "every object", "why_tests_cant": "all objects", "anchors": ["sample-bin/src/main/java/com/finproto/sample/messages/BasicPacket.java: toString", "szse-bin/src/main/java/com/finproto/szse/bin/messages/NewOrder.java: toString"]}
{"id": "C51", "title": "Accessors are independent", "statement": "After setX(v), getX() returns v and every other getter returns what it returned before; a history of setter calls leaves each field at the last value set.", "quantifier": "every class, property, value, history of setter calls", "why_tests_cant": "all classes and histories", "anchors": ["sample-bin/src/main/java/com/finproto/sample/messages/*.java: encode, decode", "sse-bin/src/main/java/com/finproto/sse/bin/messages/*.java: encode, decode", "szse-bin/src/main/java/com/finproto/szse/bin/messages/*.java: encode, decode", "bjse-bin/src/main/java/com/finproto/bjse/trade/messages/*.java: encode, decode", "risk-bin/src/main/java/com/finproto/risk/bin/messages/*.java: encode, decode"]}
{"id": "C52", "title": "Reading past the written region is impossible", "statement": "decode never yields data from beyond the writer index. Violated: text reads are checked against the buffer's allocated array only, so a truncated message can succeed with stale bytes and move the reader index beyond the writer index; it holds when the array has no spare bytes, and it holds for numeric fields always. A successful decode of a class can end beyond the writer index exactly if messages of the class can end with text.", "quantifier": "every buffer, message, cut position", "why_tests_cant": "depends on arbitrary stale memory", "anchors": ["codec/src/main/java/com/finproto/codec/BinaryCodec.java: readFixedString", "sample-bin/src/main/java/com/finproto/sample/messages/*.java: encode, decode", "sse-bin/src/main/java/com/finproto/sse/bin/messages/*.java: encode, decode", "szse-bin/src/main/java/com/finproto/szse/bin/messages/*.java: encode, decode", "bjse-bin/src/main/java/com/finproto/bjse/trade/messages/*.java: encode, decode", "risk-bin/src/main/java/com/finproto/risk/bin/messages/*.java: encode, decode"]}
{"id": "C53", "title": "A failed encode does no harm", "statement": "However encode ends - normally, or with an exception at any point (buffer full, missing part, stack exhausted) - the message keeps its content: only length fields and checksum fields of registered algorithms may have changed. Encoding it again, into any buffer and after any number of earlier attempts, writes exactly the bytes (and throws exactly the exception) the first attempt would have, as long as the checksum registry is the same. A failed encode of a message without computed fields leaves the object untouched and has appended a prefix of the message's wire image.", "quantifier": "every well-typed message of every class, every registry state, buffer, capacity (crash point), stack depth, and every sequence of earlier attempts", "why_tests_cant": "the exception can strike at any byte of any message; a test picks one capacity", "anchors": ["sample-bin/src/main/java/com/finproto/sample/messages/*.java: encode", "sse-bin/src/main/java/com/finproto/sse/bin/messages/*.java: encode", "szse-bin/src/main/java/com/finproto/szse/bin/messages/*.java: encode", "bjse-bin/src/main/java/com/finproto/bjse/trade/messages/*.java: encode", "risk-bin/src/main/java/com/finproto/risk/bin/messages/*.java: encode"]}
{"id": "C54", "title": "decode can be retried when more bytes arrive", "statement": "If decode was tried on one or several prefixes of a message (each time from the start, whatever the outcome) and is then called on the same object with the whole message, the result is exactly that of a single decode of the whole message into the original object: nothing of the failed attempts stays visible.", "quantifier": "every class, object state, byte string, sequence of cut points, stale bytes behind the writer index, factory state", "why_tests_cant": "all cut points of all messages, in any sequence", "anchors": ["sample-bin/src/main/java/com/finproto/sample/messages/*.java: decode", "sse-bin/src/main/java/com/finproto/sse/bin/messages/*.java: decode", "szse-bin/src/main/java/com/finproto/szse/bin/messages/*.java: decode", "bjse-bin/src/main/java/com/finproto/bjse/trade/messages/*.java: decode", "risk-bin/src/main/java/com/finproto/risk/bin/messages/*.java: decode"]}
{"id": "C55", "title": "What was decoded can be relayed without loss", "statement": "Take any bytes that decode accepted into a new message object. Encoding that object never throws for a missing part: it succeeds in any process and in any buffer with room. If no text in it contains U+FFFD (bytes that were not UTF-8) and, in the sample protocol only, no left-padded text is blank and no list consists of empty strings only, then decoding the relayed bytes succeeds, consumes exactly them and gives a message with the same fields, except the length and checksum fields that encode computes anew. For all exchange protocols U+FFFD is the only condition. Each condition is needed.", "quantifier": "all message classes, all input byte sequences and reader positions accepted by decode, all states of both processes' registries whose factories supply new objects, all output buffers", "why_tests_cant": "The tests encode hand-made objects; which of the objects that arbitrary network bytes decode to can be written and read again ranges over all byte sequences.", "anchors": ["sample-bin/src/main/java/com/finproto/sample/messages/*.java: decode, encode", "sse-bin/src/main/java/com/finproto/sse/bin/messages/*.java: decode, encode", "szse-bin/src/main/java/com/finproto/szse/bin/messages/*.java: decode, encode", "bjse-bin/src/main/java/com/finproto/bjse/trade/messages/*.java: decode, encode", "risk-bin/src/main/java/com/finproto/risk/bin/messages/*.java: decode, encode"]}
{"id": "C56", "title": "Decoded messages determine the bytes they came from", "statement": "If decode accepted some bytes into a new object, none of whose texts contains U+FFFD and none of whose optional parts (length-prefixed strings, lists) is absent (and without blank left-padded texts or lists of length-prefixed strings), then the wire image of that object is exactly the bytes decode consumed. So two inputs that decode to the same such message are identical, and encoding the message again reproduces the received bytes whenever encode has no length or checksum to correct. An absent list or string, in contrast, has many encodings (any non-positive count).", "quantifier": "all message classes, all input byte sequences and reader positions accepted by decode, all factories that supply new objects, all output buffers", "why_tests_cant": "Uniqueness of the encoding compares all pairs of byte sequences; tests see one encoding per message.", "anchors": ["sample-bin/src/main/java/com/finproto/sample/messages/*.java: decode, encode", "sse-bin/src/main/java/com/finproto/sse/bin/messages/*.java: decode, encode", "szse-bin/src/main/java/com/finproto/szse/bin/messages/*.java: decode, encode", "bjse-bin/src/main/java/com/finproto/bjse/trade/messages/*.java: decode, encode", "risk-bin/src/main/java/com/finproto/risk/bin/messages/*.java: decode, encode"]}
{"id": "C57", "title": "A decoded message is complete and of one protocol", "statement": "After a successful decode into a new object every mandatory nested message is present at every level and no list contains null, and (if each factory supplies only classes that are registered with it by default) all nested messages belong to the protocol of the outer message, whatever the bytes were.", "quantifier": "all message classes, all input byte sequences accepted by decode, all call-stack depths, all such registry states", "why_tests_cant": "Message bodies are chosen by the type field of untrusted input; the claim is about every choice at every level.", "anchors": ["sample-bin/src/main/java/com/finproto/sample/messages/*.java: decode", "sse-bin/src/main/java/com/finproto/sse/bin/messages/*.java: decode", "szse-bin/src/main/java/com/finproto/szse/bin/messages/*.java: decode", "bjse-bin/src/main/java/com/finproto/bjse/trade/messages/*.java: decode", "risk-bin/src/main/java/com/finproto/risk/bin/messages/*.java: decode"]}
{"id": "C58", "title": "Threads sharing the checksum registry", "statement": "If no algorithm is registered by two different threads, then whatever the interleaving, every call on ChecksumServiceFactory (registry, removeChecksumService, clearAllChecksumService, getChecksumService) answers as if all calls had been made one after the other in the order in which they returned; later lookups agree with that order; no call waits for another. In any case a lookup yields null or a service of exactly the requested name that is a default one or was passed to registry; and if nobody removes services, once registry(s) has returned (with either answer) every later lookup of the name finds a service and the same thread is never told true again for it. (When two threads register the same algorithm the first part fails: both can be told true and the service found first is replaced; shown as a violation.)", "quantifier": "all thread programs, any number of threads and calls, all schedules of the individual map operations", "why_tests_cant": "the outcome depends on where one thread's check and put fall between the steps of the others; a test runs a few schedules and the bad ones are rare", "anchors": ["codec/src/main/java/com/finproto/codec/ChecksumServiceFactory.java: registry, removeChecksumService, clearAllChecksumService, getChecksumService"]}
{"id": "C59", "title": "Threads sharing the message factories", "statement": "While threads register SSE message types and nobody removes a type or registers null, once any thread was told that a class has message type t, every later create(t) in any thread gives an object. If changes made by different threads concern different keys and classes, every call on the factories answers as if the calls that returned before it had been made one after the other, except that create(t) may already see a register call for t that has not returned yet; and when all threads have finished, lookups answer as after the calls in order of return. (register is not atomic for other threads: create(t) can succeed while getMsgType of the class is still null afterwards; shown as a violation.)", "quantifier": "all thread programs, any number of threads and calls, all schedules of the individual map operations", "why_tests_cant": "the two puts of register can be separated by any number of steps of other threads; tests see a few interleavings only", "anchors": ["sse-bin/src/main/java/com/finproto/sse/bin/messages/SseBinary.java: BodyMessageFactory.register, create, remove, getMsgType", "sample-bin/src/main/java/com/finproto/sample/messages/RootPacket.java: PayloadMessageFactory.register, create, remove"]}
{"id": "C60", "title": "Threads encoding the same message", "statement": "When several threads call encode on the same message object at the same time, each with its own buffer, and the parts of the message compute no fields themselves, then whatever the interleaving each call writes exactly the bytes (or throws exactly the exception) it would have alone, and the object is left as one of the calls alone would leave it, provided the message itself has no length or checksum field or all buffers start with the same readable bytes. Every call finishes. (With a registered checksum and buffers of different content a thread can send the checksum of the other thread's buffer; shown as a violation.)", "quantifier": "all messages, all numbers of threads, all buffers, all schedules of the statements of encode", "why_tests_cant": "the outcome depends on how the assignments to the length and checksum fields interleave with the writes of other threads", "anchors": ["sse-bin/src/main/java/com/finproto/sse/bin/messages/SseBinary.java: encode", "szse-bin/src/main/java/com/finproto/szse/bin/messages/SzseBinary.java: encode", "sample-bin/src/main/java/com/finproto/sample/messages/RootPacket.java: encode"]}
{"id": "C61", "title": "Registry changes elsewhere do not disturb a running call", "statement": "While one thread decodes, other threads may register and remove checksum services and message types at any moment. The outcome of the decode (object built, reader index, exception) is the one it has with unchanging registries as long as the factory entries for the keys the message itself carries are not changed; likewise an encode is only affected by changes to the checksum algorithms the message uses. With no changes at all the call is the ordinary one.", "quantifier": "all classes, all bytes or objects, all sequences of registry contents seen during the call", "why_tests_cant": "the moment of a registry change relative to the running call and the contents of the registries are unbounded choices", "anchors": ["sse-bin/src/main/java/com/finproto/sse/bin/messages/SseBinary.java: decode, encode, BodyMessageFactory.create", "codec/src/main/java/com/finproto/codec/ChecksumServiceFactory.java: getChecksumService, register, remove"]}
{"id": "C62", "title": "decode builds no more than it reads", "statement": "Whatever the bytes and whether or not decode throws, the object it leaves behind holds at most as many characters of text and at most as many list elements as bytes were consumed; a successful decode builds at most three values per byte consumed, plus one. A length or count field in hostile input therefore cannot make decode build a large object from few bytes.", "quantifier": "all classes, all byte strings, all registries, all call depths", "why_tests_cant": "concerns every possible (hostile) input, not chosen samples", "anchors": ["codec/src/main/java/com/finproto/codec/BinaryCodec.java", "*/src/main/java/**/messages/*.java: decode"]}
{"id": "C63", "title": "Negative widths", "statement": "The width of a fixed string is a Java int. With a negative width, writing a non-empty text throws IllegalArgumentException and writes nothing, writing null or empty text writes nothing and does not throw, and reading throws IndexOutOfBoundsException without moving the reader index; with every other width both behave as stated for C01 to C06.", "quantifier": "all 32-bit widths, texts, pad characters, sides and buffers", "why_tests_cant": "2^32 widths times all texts and buffers", "anchors": ["codec/src/main/java/com/finproto/codec/BinaryCodec.java: writeFixedString, readFixedString, padChar"]}
{"id": "C64", "title": "Encoding messages that share parts", "statement": "Encoding a message whose parts are shared (one object used in several fields, several times in one list, or in other messages too) writes the same bytes, or throws the same exception after the same bytes, as encoding an equal message built from separate objects. Whatever objects exist and however they refer to each other, cycles included, an encode call changes no list, and no field other than byte counts and checksums.", "quantifier": "all object graphs, messages, registries, buffers and stack depths", "why_tests_cant": "unboundedly many ways of sharing objects, times all messages", "anchors": ["*/messages/*.java: encode", "sample-bin NestedPacket.java, RootPacket.java"]}
{"id": "C65", "title": "Decoded messages own their parts", "statement": "Decoding into a new object creates a message made only of objects that did not exist before, none of them used twice; no object that existed before is changed, and the content and outcome depend only on the bytes and the registries. Hence two messages decoded one after the other share nothing and the second decode does not alter the first message. (With factories whose suppliers make new objects, like C::new; a supplier handing out one instance breaks it.)", "quantifier": "all message types, buffers (truncated and hostile ones included), pre-existing object graphs, registries and stack depths", "why_tests_cant": "a test sees a few buffers; aliasing shows only when two messages are kept at the same time", "anchors": ["*/messages/*.java: decode", "codec MessageFactory: create, register"]}
{"id": "C66", "title": "Decoding into an object in use", "statement": "Decoding into a message without internal sharing that is already in use has the outcome and content of decoding into an equal stand-alone message, and it stays without internal sharing. Other objects are unaffected unless they use the message itself or one of its nested (non-list) messages: in particular lists taken from the message before, and the elements in them, stay as they were.", "quantifier": "all messages without internal sharing, all other objects in the heap, buffers, registries and stack depths", "why_tests_cant": "unboundedly many object graphs and buffers", "anchors": ["*/messages/*.java: decode"]}
{"id": "C67", "title": "Relaying settles after one hop", "statement": "A message that is sent on from receiver to receiver (decode, encode, decode, ...) may lose something on the first hop (text that is too long for its field or not UTF-8), but nothing after that: every later receiver gets the same message as the first one, apart from length and checksum fields computed anew, and every later hop succeeds if the output buffer has room. For bytes accepted by decode: the second receiver can always decode what the first one sends on, and from there on the message is settled.", "quantifier": "all message classes, all messages in which no left-padded text consists of padding only and no list of length-prefixed strings of empty strings only (for all protocols but the sample protocol: all messages decoded from fewer than 715827883 bytes), all chains of hops of any length, all senders' registries, buffers and buffer positions", "why_tests_cant": "Texts, nesting, malformed UTF-8 cut at arbitrary places and the number of hops are unbounded.", "anchors": ["codec BinaryCodec.java: writeFixedString, readFixedString, writeString, readString", "*/messages/*.java: encode, decode"]}
{"id": "C68", "title": "CRC services see scattered bit errors", "statement": "If two messages of the same length differ in an odd number of bits, wherever they are, CRC16 gives different values for them. If they differ in exactly two bits, CRC16 gives the same value exactly when the distance of the two bits is a multiple of 32767, and CRC32 exactly when it is a multiple of 2^32-1. So CRC16 sees every error of one to three bits in a message of at most 4095 bytes, and CRC32 every error of one to four bits in a message of at most 375 bytes, every error of one to three bits in a message of at most 11454 bytes and every two-bit error in a message of at most 512 MB. (The limits for two bits and CRC16, and for three and four bits and CRC32, are exact: CRC32 misses some four-bit error in messages of 376 bytes and some three-bit error in messages of 11455 bytes, CRC16 some four-bit error in messages of 3 bytes; shown as violations.)", "quantifier": "all pairs of buffers (any data, any reader position) with equally many readable bytes, all sets of flipped bits with an odd number of elements, all pairs and triples of bit positions", "why_tests_cant": "Messages, lengths and positions of errors are unbounded; the distance at which two errors cancel (2^32-1) is out of reach of any test.", "anchors": ["codec Crc16ChecksumService.java: calc, TABLE", "codec Crc32ChecksumService.java: calc, TABLE"]}
{"id": "C69", "title": "Text on the wire is standard UTF-8", "statement": "Text fields, fixed-width or length-prefixed, carry the standard UTF-8 form of the text: any other UTF-8 implementation reads them, and reads the same characters. Received bytes are read as the text any UTF-8 implementation reads; bytes that are not UTF-8 are replaced by U+FFFD by one fixed rule (one per longest possible beginning of a character, one per encoded surrogate). An unpaired surrogate is sent as a question mark. Bytes survive being read as text and written again exactly if they are standard UTF-8.", "quantifier": "all texts (every list of Unicode characters), all Java strings including those with unpaired surrogates, all byte sequences, all widths, pad characters, prefix widths and byte orders, all buffers", "why_tests_cant": "There are infinitely many texts and malformed byte sequences; interoperability has to hold for each.", "anchors": ["codec BinaryCodec.java: writeFixedString, readFixedString", "*/messages/*.java: length-prefixed strings in encode, decode"]}
{"id": "C70", "title": "Frames treat parts supplied by the application correctly", "statement": "Bodies, extensions, suppliers and checksum services may be the application's own code. Whatever bytes a body appends, the encoded frame is header, number of those bytes, those bytes, checksum; the checksum service sees the frame with the true length in place. A throwable of a body, supplier or service reaches the caller unchanged: after a failing body no field of the frame has changed, after a failing service the length is set and the checksum is not. A supplier or service that returns null gives NullPointerException. On decode the body starts right behind the length, the checksum right behind what the body consumed; a missing, failing or null supplier leaves header and reader index behind the length. If the body reads back what it wrote, the frame round-trips. A message with an extension writes its own fields first, and reads them before it asks for the extension.", "quantifier": "all implementations of BinaryCodec, Supplier and ChecksumService (any outcome, any effect on the buffer), all five frames and all messages with an extension field, all header values, buffers and old contents", "why_tests_cant": "The application's code is unknown; tests can only try a few bodies and services.", "anchors": ["codec BinaryCodec.java: BinaryCodec", "codec ChecksumServiceFactory.java: getChecksumService", "sse SseBinary.java, szse SzseBinary.java, sample RootPacket.java, risk RcBinary.java, bjse BjseBinary.java: encode, decode, create", "bjse, szse messages with applExtend: encode, decode"]}
{"id": "C71", "title": "Exactly which bytes decode accepts", "statement": "The byte strings a message class accepts, and the field values it makes of each, are given by a grammar that follows the wire layout: numbers of any value, texts of the fixed width with the run of pad characters removed, strings and lists with a count and as many bytes or elements, counts of zero or below read as nothing (the old value stays; empty strings vanish from lists), embedded messages read into the one that is there or into a new one, bodies of the class registered for the key. Decode succeeds with these values and this number of bytes consumed exactly if the grammar says so; it throws IllegalArgumentException exactly if the bytes lead to an unregistered key; it throws an index error exactly if neither holds of any beginning of the bytes. No byte string has two readings, and no message is the beginning of another.", "quantifier": "all message classes, all byte strings, all old field values of the right types, all positions in the buffer, all registries with well-typed suppliers", "why_tests_cant": "Almost every byte string is malformed in some way; tests feed decode little but the output of encode.", "anchors": ["*/messages/*.java: decode", "codec BinaryCodec.java: readFixedString"]}
{"id": "C72", "title": "Messages can be received from a byte stream", "statement": "Every outcome of decode other than an index error is final: more bytes behind those it had do not change the object, the bytes consumed or the exception. An index error means bytes are missing: some continuation makes decode succeed or reach an unknown key. So a receiver that collects bytes, tries decode, waits on index errors and gives up on other exceptions gets the same messages however the stream is cut into chunks, and it gets exactly the canonical messages that were encoded, in order, with nothing left over.", "quantifier": "all message classes, byte streams and cuts into chunks, all lists of canonical messages, all registries", "why_tests_cant": "There are exponentially many ways to cut a stream and infinitely many streams.", "anchors": ["*/messages/*.java: decode, encode", "codec BinaryCodec.java: readFixedString"]}
{"id": "C73", "title": "A reused receive buffer does no harm to frames that end with a checksum", "statement": "Take a class whose messages never end with text (every frame with a checksum is one). A stream receiver whose buffer has arbitrary old bytes behind the writer index, different ones at each attempt, delivers exactly the messages and keeps exactly the unused bytes of a receiver whose buffer has none, however the stream is cut. It gives up only if the unused bytes cannot become a message any more whatever follows. Canonical messages sent one after the other all arrive. (For all other classes, the frame without a checksum among them, this is false, save for messages of a single byte.)", "quantifier": "all classes whose messages never end with text, all streams, all cuts into chunks, all contents of the buffer behind the writer index at each attempt, all registries whose suppliers give the default classes", "why_tests_cant": "The old bytes are arbitrary and so are the cuts; a wrong reading needs a particular combination of both.", "anchors": ["*/messages/*Binary.java: decode", "codec BinaryCodec.java: readFixedString, readString"]}
{"id": "C74", "title": "Messages with common parts can be encoded at the same time", "statement": "Threads encode messages at the same time, each into its own buffer. The messages may have any parts in common (one body in many frames, lists, nested messages, cyclic structures), except objects of classes that compute fields while encoding. In every interleaving of their statements, loop iterations, nested calls and returns, each call that has ended wrote the bytes and ended with the exception it would have alone, and left the objects it can reach as it would have alone. All other objects stay as they are, and every call ends after a number of its own steps that does not depend on the schedule. (With a common frame this is false.)", "quantifier": "all numbers of threads, messages on the heap with any sharing outside frames, buffers, schedules, registries, call stack sizes", "why_tests_cant": "The number of interleavings grows exponentially; a test sees a handful of them.", "anchors": ["*/messages/*.java: encode", "sse-bin SseBinary.java: encode"]}
{"id": "C75", "title": "A receiver that recomputes the checksum takes genuine frames and notices corrupted bytes", "statement": "A frame with a checksum is encoded into a buffer without unread bytes while its service is registered. A receiver, possibly another process, decodes the frame's bytes, requires that all are used, and has the same service verify the decoded checksum against all bytes but the last four. Every genuine frame the receiver can follow passes. If any one byte of an SSE or SZSE frame is changed (header, body or checksum), or bits of a sample root packet within any 32 consecutive ones (also across the border between body and checksum), or any two bits of it (three, if it has at most 11454 bytes; four, if it has at most 375), the receiver refuses the result, whatever decode makes of it. (Exchanged bytes in an SSE frame are not noticed. A frame written behind unread bytes is refused although genuine.)", "quantifier": "all frames, bodies, buffers, registries and call stack sizes of sender and receiver, all corruptions of the stated kinds at all positions", "why_tests_cant": "There are 255 ways to change each byte of each of infinitely many frames, and 2^32 bursts at each position.", "anchors": ["sse-bin SseBinary.java: encode, decode", "szse-bin SzseBinary.java: encode, decode", "sample RootPacket.java: encode, decode", "codec ChecksumService.java: verify, calc"]}
{"id": "C76", "title": "equals, hashCode and toString see values only, whatever is shared; cyclic messages have no hash code and no printed form", "statement": "Messages live on a heap: fields and list elements may be the same object in several places. For messages that are finite (no object refers back to itself) equals returns and says whether both show the same values, also if they are one object, share parts or one contains the other. hashCode depends on the values only: messages with the same values have the same hash code even if one shares objects where the other has copies. toString prints the values. Every object equals itself at once, even a cyclic one. If a cycle can be reached from a message, hashCode and toString never return, whatever the size of the stack; nor does equals on two cyclic messages with the same values.", "quantifier": "all heaps, all pairs of objects with any sharing, all call stack sizes", "why_tests_cant": "Heaps and patterns of sharing are unbounded, and that a call never returns cannot be observed.", "anchors": ["all message classes: equals, hashCode, toString (e.g. sse-bin SseBinary.java:91-127)"]}
{"id": "C77", "title": "Threads can decode and encode different messages at the same time", "statement": "Threads call decode and encode at the same time, each on its own message and with its own buffer, interleaved statement by statement, and new objects come from one heap. If no object is reached from two of the messages at the start and the registered suppliers build new objects, then in every schedule each call that has ended did what it would have done alone: same buffer and indices, same exception, and its message shows the same values; also while other threads go on. At any moment the messages of different threads have no object in common and all other objects are untouched. Every call ends after a number of steps that does not depend on the schedule. In particular any number of receivers can decode into new objects at once. (A supplier that hands out one object again and again makes receivers mix up fields of different messages.)", "quantifier": "all heaps, messages, buffers, registries with suppliers that build new objects, all numbers of threads, all schedules", "why_tests_cant": "The number of interleavings is unbounded, and a test sees only a few of them.", "anchors": ["all message classes: decode, encode", "codec MessageFactory.java: create", "sse-bin SseBinary.java: decode, encode"]}
{"id": "C78", "title": "Whatever an application does, the library never meets a value of a wrong type", "statement": "An application creates messages and lists, calls setters, changes lists, registers and removes checksum services and suppliers, and lets any number of threads call encode and decode, all in any order and also while calls are in progress, with objects shared or cyclic. If every single operation is one the Java compiler accepts, then at any time every field has a value of its declared type, objects keep their class, and no call of encode has thrown anything but IndexOutOfBoundsException, NullPointerException or StackOverflowError, no call of decode anything but these and IllegalArgumentException; equals and hashCode give a result or StackOverflowError. (Messages changed while they are being encoded can silently give bytes that announce more elements than they have.)", "quantifier": "all finite histories of application operations and thread steps, all numbers of threads, all heaps, suppliers and services, all call-stack sizes", "why_tests_cant": "a test runs one history with one interleaving; the claim is about every history and every shape of the object graph", "anchors": ["codec/src/main/java/com/finproto/codec/BinaryCodec.java: BinaryCodec.encode, decode", "*-bin/src/main/java/**/messages/*.java: setters, encode, decode, equals, hashCode", "codec/src/main/java/com/finproto/codec/ChecksumServiceFactory.java"]}
{"id": "C79", "title": "Every call ends, after work in proportion to the bytes it can read or write", "statement": "Once a thread has called decode on a buffer, the call returns or throws after at most 99 steps per byte that the buffer still offers, plus 114 (a step is a statement of decode, an iteration of a loop, a call or a return). This holds for all bytes, and whatever the application and other threads do before, between and after these steps: changes of the objects, other calls, registrations. Likewise a call of encode with the bytes that the buffer can still take. So no input and no other thread makes a call loop, wait or work out of proportion. Exception: null or empty texts in the lists of left-padded texts of the two sample classes BasicPacket and StringPacket occupy no bytes, so the length of these lists enters the bound for encode.", "quantifier": "all histories of application operations and thread steps, all numbers of threads, all input bytes, messages (shared and cyclic), suppliers and services, all call-stack sizes", "why_tests_cant": "a test measures a few inputs in one schedule; the claim is a bound for every hostile input and every interleaving, including counts in the input that announce up to 65535 elements per list at each level of nesting", "anchors": ["*-bin/src/main/java/**/messages/*.java: encode, decode", "codec/src/main/java/com/finproto/codec/BinaryCodec.java: BinaryCodec.encode, decode", "sample-bin/src/main/java/com/finproto/sample/messages/StringPacket.java: StringPacket.encode"]}
{"id": "C80", "title": "Threads that share only what they read have no data races", "statement": "Threads call encode and decode at the same time, each with its own buffer, while the registrations do not change and suppliers build new objects. If a message or list that two threads can reach is reached by calls of encode only and is not a frame (a class that computes fields while encoding), then in every schedule no access of one thread to a field or list conflicts with an access of another thread, at whatever moments the two happen. So the calls are correctly synchronised in the sense of the Java memory model without any locking, every Java machine shows only results of interleavings, and in all of these each call that ends did what it would have done alone: same bytes, same exception, same message. Two threads that encode one frame do have a data race, and so do a thread that decodes into a message and one that encodes it.", "quantifier": "all numbers of threads, all heaps with any sharing that meets the condition, all input bytes, all schedules, all pairs of moments, all call-stack sizes", "why_tests_cant": "data races are a property of pairs of accesses in all interleavings; a test runs one interleaving on one machine, and the effects of a race may show on other machines only", "anchors": ["*-bin/src/main/java/**/messages/*.java: encode, decode", "codec/src/main/java/com/finproto/codec/BinaryCodec.java: BinaryCodec.encode, decode"]}
{"id": "C81", "title": "A setter or a list operation changes exactly the messages that contain the object", "statement": "Messages and lists are held by reference. After o.setF(y) (y not containing o) every message shows what it showed before, with the new value of o in every place where o occurs; the same for any operation on a list. Messages that do not contain o show, and encode to, what they did before, whatever y is. getF returns the very object given to setF and no other getter of any object changes. new C() and new ArrayList() disturb nothing. If y does contain o, no message containing o has a finite content any more.", "quantifier": "all heaps with any sharing, all objects, fields, new values, lists, all messages on the heap", "why_tests_cant": "Aliasing patterns are unbounded: a test sees one sharing pattern, the claim is about every message on the heap.", "anchors": ["*/messages/*.java: getters and setters", "e.g. sample-bin/src/main/java/com/finproto/sample/messages/NestedPacket.java: getSubPacket, setSubPacket, getSubPacketList"]}
{"id": "C82", "title": "The statements of every encode and decode, run one by one, end and do what the messages' layout says", "statement": "Take the Java statements of the encode and decode methods exactly as they stand in the files (conditions, blocks, loops whose bound is evaluated each round, local variables, calls, the checks of the call stack) and run them one by one on any heap a Java program can have built, cycles and sharing included. The run always comes to an end; heap, buffer and exception afterwards are those the other properties are about. In particular running the statements of encode on a canonical message and those of decode on a new object gives that object the content of the message and consumes exactly the bytes that were written.", "quantifier": "all 182 classes, all typed heaps, references, call-stack depths, registered suppliers and services, all buffers and byte sequences", "why_tests_cant": "That a loop whose bound and elements are re-evaluated every round, on shared and cyclic objects, always ends with the bytes of the layout concerns every heap and every exception point, not sample messages.", "anchors": ["*/messages/*.java: encode, decode"]}
{"id": "C83", "title": "The statements of the codec module, run one by one, always end and do what the field, checksum and bit map properties say", "statement": "Run the Java statements of BinaryCodec's methods, of the CRC tables' static initialisers, of the four calc methods and of all methods of the four bit maps exactly as they stand in the files (compound assignments, int arithmetic with wrap-around, shifts by the low bits of the distance, casts, loops, byte arrays, an exception ending the method). Every run ends. Fixed-width writing appends the padded or truncated field and reading gives the text back, for every width, pad character and side, the cases of negative width included; the CRC services return CRC-16/MODBUS and CRC-32/ISO-HDLC of the readable bytes and the two sum services their sum modulo 256, without moving the reader index; the bit maps set, clear, test, write and read the bits their other properties speak of, and a failing read or write leaves the fields and buffer those properties state.", "quantifier": "all buffers shorter than 2^31 bytes, all texts (null and unpaired surrogates included), all int widths and positions, all pad characters, all contents of the maps", "why_tests_cant": "That loops over arrays and compound int arithmetic end and agree with the polynomial or the bit positions concerns all contents and all int values; tests run a few.", "anchors": ["codec/src/main/java: BinaryCodec.java, *ChecksumService.java, bitmap/*BitMap.java"]}
{"id": "C84", "title": "The statements of equals, hashCode, toString, accessors, factories and the checksum registry, run one by one, do what the properties of these methods say", "statement": "Run the Java statements of these methods exactly as they stand in the files (short-circuit || and &&, reference comparison, string concatenation, casts, null keys and null values in HashMaps, an exception ending the method). equals returns, on a large enough stack, and says whether two messages show the same values, whatever objects they share; equal messages have equal hash codes; toString prints the fields; a getter returns and a setter replaces exactly the field it is named for. The static initialisers, in any order, leave the default suppliers; after any history of register and remove, create returns a new message from the last supplier registered under the key or throws IllegalArgumentException, remove says whether there was one, getMsgType and fromValue answer as recorded. The registry starts with CRC16 and CRC32, keeps the first service of a name until it is removed, rejects null with NullPointerException without change, and verify compares the checksum of the readable bytes with the expected value.", "quantifier": "all heaps, messages and classes, all stack depths, all keys (null included), suppliers, services, histories of calls, all orders of initialisation", "why_tests_cant": "182 classes have their own generated equals, hashCode, toString and accessors, and the maps can be in any state left by any history; tests compare a few messages in the initial state.", "anchors": ["*/messages/*.java: equals, hashCode, toString, get*, set*, *MessageFactory", "SseBinary.java: MessageType.fromValue", "codec/src/main/java: ChecksumServiceFactory.java, ChecksumService.verify"]}
{"id": "C85", "title": "It does not matter when factories and the checksum registry are initialised", "statement": "Java initialises a factory, or the checksum registry, at its first use, which may be a call by the application or the inside of an encode or decode. Whatever is used when: create, getMsgType and getChecksumService find the supplier stored last or the default one, the type recorded last or the default one, and the first service offered since the name was reset (CRC16 and CRC32 being offered at the start). Programs that make the same calls on the factories and the same calls on the checksum registry find the same, however the two are interleaved; a first use changes nothing that later calls find. Two programs with any such histories exchange every message that is canonical for the receiver: what decode shows is what the message has after encode.", "quantifier": "all histories of registrations, removals and other uses of all factories and of the checksum registry, in all orders; all messages, buffers and stack depths", "why_tests_cant": "Tests run in one process in which the classes are initialised in whatever order the test runner happens to touch them; a registration lost because an initialiser runs after it would only show for particular orders.", "anchors": ["RootPacket.java, SseBinary.java, SzseBinary.java etc.: *MessageFactory static initialisers, getInstance", "codec/src/main/java: ChecksumServiceFactory constructor, getInstance"]}
{"id": "C86", "title": "Calls between the parts of the library do what the called statements do", "statement": "Wherever encode or decode of a message calls into another class - writeFixedString, readFixedString, getChecksumService, calc - the effect that the other properties assume for the call (bytes written or read, value returned, exception thrown, buffer otherwise untouched) is exactly the effect of running the statements of the called method on the same arguments; for calc, after the static initialiser of the service class has filled the table. The same holds for the call of calc inside verify. Every width in the text of the message classes is positive and an int, so the hypotheses on the width hold at every call.", "quantifier": "all texts whose UTF-8 form has less than 2^31 bytes, all buffers, pad characters, sides, widths below 2^31, registries, all four services, all messages with their calls", "why_tests_cant": "A test exercises caller and callee together on a few values; that the contract the caller relies on is the behaviour of the callee for every argument is a statement about all pairs of states.", "anchors": ["codec/src/main/java: BinaryCodec.writeFixedString, BinaryCodec.readFixedString, ChecksumServiceFactory.getChecksumService, ChecksumService.verify, *ChecksumService.calc", "all message classes: encode, decode"]}
{"id": "C87", "title": "The size of an encoding depends on the shape of the message only", "statement": "How many bytes encode appends, and whether and with which exception it fails, depends only on the message's shape: the classes of its parts, the lengths of its lists, the UTF-8 lengths of its texts, and what is null; and on the room in the buffer and the stack depth. No value of any number, no character, no registered checksum service or message type, and nothing that is already in the buffer has any influence.", "quantifier": "all pairs of messages of the same shape, all registries, factories, buffers with the same room (fitting or not) and stack depths", "why_tests_cant": "A value-dependent size or failure could hide at any of the 2^64 values of a field; tests try a handful per class.", "anchors": ["all message classes: encode", "codec/src/main/java: BinaryCodec.writeFixedString"]}
{"id": "C88", "title": "Encoding a message does not affect other messages that share its parts", "statement": "Messages may share nested messages and lists in any way. Whatever messages have been encoded before, successfully or not, a message without cycles encodes to the same bytes, with the same outcome, as if none of these calls had been made. encode changes only objects reachable from the message it is called on; afterwards that message shows what an equal message built from separate objects would show, also after any number of earlier attempts; any other message shows what it showed before unless the two have a frame (a message with computed fields) in common; encoding a message without frames changes nothing at all. Where a frame is shared, the frame around it shows new byte counts and checksums.", "quantifier": "all object graphs, all sequences of encode calls on any objects, buffers, capacities and stack depths", "why_tests_cant": "unboundedly many ways of sharing, and of failing, in every order", "anchors": ["*/messages/*.java: encode", "sample-bin RootPacket.java, sse-bin SseBinary.java, szse-bin SzseBinary.java, bjse-bin BjseBinary.java, risk-bin RcBinary.java: encode"]}
{"id": "C89", "title": "Threads that start up together never see a registry half filled and never wait for ever", "statement": "The message factories and the checksum registry are filled by the thread that happens to use them first, while other threads may already be calling them. Whatever the threads do and however they are scheduled, all calls return with the same answers and in the same order as in a program whose registries were filled before any thread ran. As long as nobody changes a factory every lookup, the very first included, answers from the complete default registrations; threads that only ask for checksum services find CRC16 and CRC32 and no others. If every thread keeps getting steps, all of them finish all their calls after a number of rounds known in advance.", "quantifier": "all numbers of threads, all programs of calls, all schedules", "why_tests_cant": "a race at start-up happens once per process and depends on the schedule; there are infinitely many programs and schedules", "anchors": ["sse-bin SseBinary.java: BodyMessageFactory (static initialiser, getInstance)", "sample-bin RootPacket.java: PayloadMessageFactory (static initialiser, getInstance)", "codec ChecksumServiceFactory.java: INSTANCE, constructor"]}
{"id": "C90", "title": "It does not matter what kind of buffer a message is written to", "statement": "Whatever capacity the buffer has, whatever bytes its memory held before, and however it grows when it is full: encode gives the same message, the same exception and the same bytes, and leaves the reader index alone; only the bytes below the writer index, the reader index and the maximum capacity matter. A message can be decoded from the very buffer it was written to, whatever stands behind it. A buffer that has been released takes nothing: neither the buffer nor the message is changed, and every message of at least one byte is refused with the buffer's exception.", "quantifier": "all messages of all classes, all buffers (capacity, old content, indices, limit), all ways of growing, all registries and stack depths", "why_tests_cant": "the capacity may be reached at any byte of any message and the old content is arbitrary", "anchors": ["*/messages/*.java: encode", "codec BinaryCodec.java: writeFixedString", "Netty AbstractByteBuf: ensureWritable0, writeXxx, setXxx; AbstractByteBufAllocator: calculateNewCapacity"]}
{"id": "C91", "title": "The length field cuts a stream into its frames", "statement": "Every frame that encode produced carries in its length field the number of bytes of its body, so that a receiver which knows only where the length field is, its byte order and the size of the trailer (such as a length-field frame decoder in front of decode) cuts the concatenation of any frames, delivered in any chunks, into exactly these frames; at any moment it holds exactly the complete frames and the beginning of the next. Each piece alone decodes to its message, and a message the receiver does not know, or damage outside the length fields, affects no other frame. (Bytes that no encode produced: decode ignores the length field and can disagree with such a receiver.)", "quantifier": "all sequences of frames of each of the four kinds, all contents and buffers below the Java limit, all chunkings, all prefixes, all damage outside the length fields, all sender and receiver registries", "why_tests_cant": "the cut depends on every frame before it and on every way of splitting the bytes", "anchors": ["sse-bin SseBinary.java: encode", "szse-bin SzseBinary.java: encode", "sample-bin RootPacket.java: encode", "risk-bin RcBinary.java: encode"]}
{"id": "C92", "title": "A buffer can be used as a queue of messages", "statement": "An application that puts messages of one class into a Netty buffer with encode (restoring the writer index on an exception), takes them out with decode (restoring the reader index on an exception) and calls discardReadBytes now and then sees a queue: messages come out in the order in which they went in, each exactly once and with its content, take reports nothing exactly when nothing is waiting, and a message is refused only for a missing part, lack of stack or lack of room - after discardReadBytes, room next to the messages still waiting. This is independent of the buffer's capacity, earlier contents and way of growing. It holds for every class that has a field other than fixed-width texts; for the 65 classes without such a field take on an empty buffer invents messages from memory behind the writer index. decode from a released buffer changes nothing in it.", "quantifier": "all histories of send/take/discard of any length, all message contents that arrive unchanged, all message classes, all buffers (capacity, contents, limit) and ways of growing, all registries", "why_tests_cant": "the buffer's state depends on the whole history of operations, failures and growth", "anchors": ["every generated message class: encode, decode", "core BinaryCodec.java: readFixedString, readString, writeFixedString", "Netty AbstractByteBuf (library)"]}
{"id": "C93", "title": "An encode that is cut short at any moment does no harm", "statement": "Threads may stop for good in the middle of encode (an Error such as OutOfMemoryError or ThreadDeath, a thread that is never resumed), at any moment and however many of them, whatever the messages have in common. Afterwards (1) encode of any message writes the bytes and throws the exception it would have without the abandoned calls; (2) nothing but length and checksum fields has changed, and messages without frames show what they showed; (3) each buffer still begins with the bytes it held before the call, with the same reader index and limit; (4) every byte in it is the byte that the complete call puts at that place, or a zero that is not filled in yet; for messages without frames the bytes are a piece of the wire image from its beginning. A byte other than zero never changes once it is written. But a reader cannot always tell: just before the last statement a risk control frame can be decoded without an exception, with length 0.", "quantifier": "all worlds, all heaps (any sharing between messages), all numbers of threads and schedules, all moments at which they stop, any number of such episodes, all later encode calls", "why_tests_cant": "the moment of the interruption is arbitrary; tests run calls to their end", "anchors": ["every generated message class: encode", "sample RootPacket.java, SseBinary.java, SzseBinary.java, RcBinary.java: encode (length placeholder and setInt)"]}
{"id": "C94", "title": "A buffer that runs out of memory does no harm", "statement": "When the buffer has to grow during encode and the allocator has no memory (OutOfMemoryError), the call has done exactly what it would have done on a buffer whose limit is the capacity at that point: the bytes before the call, the reader index and the limit are untouched, the buffer stays in order, the message keeps its content (only length and checksum fields may have changed), and a message without frames has left a piece of its wire image from its beginning. Without that error nothing differs from a buffer that always grows. A complete message for which the array has room is never refused; so if ensureWritable(size of the message) returned, encode cannot run out of memory. After any number of failed attempts encode writes what the first attempt would have written. A buffer used as a queue of messages stays a queue, whichever calls run out of memory.", "quantifier": "all messages, worlds, stack depths, buffers in order, all allocators (which may fail at any growth, and differently in each call), all lists of earlier attempts, all histories of queue operations", "why_tests_cant": "The error can come at any write of any message; tests cannot make each allocation fail and compare with every later behaviour.", "anchors": ["fin-proto-codec BinaryCodec.java:writeFixedString/putStringWithLength", "generated message classes: encode(ByteBuf)"]}
{"id": "C95", "title": "A decode that is cut short at any moment leaves a message in order and can be repeated", "statement": "Threads may stop for good in the middle of decode or encode (an Error such as OutOfMemoryError or StackOverflowError, a thread given up), at any moment and however many of them, if they work on different messages. (1) A message that was being decoded into is partly filled: up to some field its fields hold what the complete call would leave there, this field may be in between (a list with its first elements, a message that is partly filled itself), all fields behind it are as they were; every field has its declared type and no object occurs in the message twice. (2) The bytes in the buffer are as they were, the reader index is not before the place where the call started. (3) After any number of such events, each with any part of a message's bytes received, decoding the complete message into the same object has the outcome of a call that had never been disturbed and leaves the same content. (4) Decoding other bytes into it consumes the same bytes and throws the same exception as with a new object. But its fields may differ then: a list of the message given up can show up in a next message that has none.", "quantifier": "all worlds whose suppliers give well-typed objects, all heaps, messages, numbers of threads, schedules, moments at which they stop, stack depths, any number of such events, all bytes", "why_tests_cant": "the moment of the interruption is arbitrary; tests run calls to their end", "anchors": ["every generated message class: decode"]}
{"id": "C96", "title": "Messages work as keys of hash maps and elements of hash sets, as long as they are not changed", "statement": "A HashMap with messages as keys, used in any order of put, get and remove, while the application creates messages and lists, calls setters and changes lists of other messages, encodes any messages and decodes into other messages, answers every call as if the messages were compared by class and field values: get, put and remove with any object that has the same values as a key give the value stored last under these values, and nothing if there is none or it was removed. The map has exactly one entry per message value stored in it (so a HashSet holds each message once). Encoding a key, or a message that contains it, does no harm unless the two share a frame. But a frame that is put into a map and then encoded is not found any more, not even with the same object, because encode sets its length and checksum; and every operation with a message that contains one without fields throws StackOverflowError and leaves the map as it was.", "quantifier": "all histories of map operations and operations on messages, all messages of all classes with any sharing, all values, buffers, registries and suppliers", "why_tests_cant": "it relates equals, hashCode, encode and decode over all histories and all pairs of objects with the same values; hash collisions cannot be enumerated", "anchors": ["every generated message class: equals, hashCode, encode, decode", "java.util.HashMap (used by the application)"]}
{"id": "C97", "title": "Decoding into a frame again leaves the bodies taken from it alone", "statement": "decode writes only to new objects, to the message it is called on, to its nested messages (the objects in fields declared with a message class, and theirs), and to objects that a supplier hands out again; every other object is as before, whatever is shared, whatever the bytes, and whether the call returns or throws. So the body obtained from a frame object keeps its values however often the frame object is decoded into again, and no list that exists before a call is changed by it. But a nested message (a field declared with a message class) taken from a message has other values after the next decode into the message.", "quantifier": "all heaps with any sharing (also cycles), all classes, suppliers, stack depths, buffers and numbers of further decode calls, successful or not", "why_tests_cant": "it is about every object of every heap and any number of later calls; tests look at a few objects after one call", "anchors": ["every generated message class: decode", "com.finproto.sample.messages.RootPacket.decode", "com.finproto.sample.messages.NestedPacket.decode"]}
{"id": "C98", "title": "A journal of messages survives crashes", "statement": "A process encodes messages of one class (any class that starts with a fixed-width field, such as every frame) into new buffers and appends the bytes to a file. It may crash at any moment, so that of the bytes written since its start only the first ones are in the file; when it starts again it decodes one message after the other from the file, cuts off the bytes behind the last whole message and goes on. After any number of such lives, decoding the file gives exactly the messages whose bytes are all in it, in order, and the torn one is reported as incomplete, never taken for a message; nothing recovered once is lost later. Zeros behind the last whole frame are not taken for messages while message type 0 is not registered. But a torn frame followed by zeros, or by further messages when the torn end was not cut off, is taken for a message nobody has written.", "quantifier": "all sequences of lives, all lists of messages, all crash points (bytes), all registries of the writing and the reading process, all numbers of zeros", "why_tests_cant": "the crash can happen at every byte of every message of every life, and the lives build on each other", "anchors": ["every generated message class: encode, decode", "com.finproto.sse.bin.messages.SseBinary.decode", "com.finproto.codec.BinaryCodec"]}
{"id": "C99", "title": "Threads sharing a bit map", "statement": "As long as only one thread calls set and clear on a bit map, any number of threads may call get: every answer, and the bit map at the end, are as if the calls had been made one after the other in the order in which they returned. Whatever several threads change at the same time, a position of a byte or short bit map that is set and that nobody clears stays set, and one that is clear and that nobody sets stays clear (int and long bit maps, whose clear sets: a set position stays set and one nobody mentions keeps its value). But bit maps are not thread-safe: of two threads that set different positions at the same time one can lose its change although its call has returned.", "quantifier": "all four bit map classes, all contents, all programs of all threads, all interleavings of the loads and stores of the field", "why_tests_cant": "lost updates depend on the schedule; tests see a few schedules of a few threads", "anchors": ["com.finproto.bitmap.ByteBitMap", "com.finproto.bitmap.ShortBitMap", "com.finproto.bitmap.IntBitMap", "com.finproto.bitmap.LongBitMap"]}
{"id": "C100", "title": "Exceptions about unknown message types name them", "statement": "When a factory has no supplier for a key, create throws an IllegalArgumentException whose text says what kind of key it is (MsgType for the five kinds of frames, ApplID for the application extensions) and ends with the key itself, integers in decimal and texts as they are; it throws such an exception only then. For two keys of one type the texts differ, so the log tells which one it was. MessageType.fromValue for a value without constant throws one that gives the value in decimal. The only collision is between a null application id and the application id \"null\".", "quantifier": "every factory, every key, every history of register and remove calls before; every int value", "why_tests_cant": "A test looks at a few keys; that no two of the 2^32 message types (negative ones, the smallest int) or of the unboundedly many application ids share a text, after any history of registrations, needs a proof.", "anchors": ["sse-bin/src/main/java/com/finproto/sse/bin/messages/SseBinary.java: BodyMessageFactory.create", "sse-bin/src/main/java/com/finproto/sse/bin/messages/SseBinary.java: MessageType.fromValue", "szse-bin/src/main/java/com/finproto/szse/bin/messages/NewOrder.java: ApplExtendMessageFactory.create", "bjse-bin/src/main/java/com/finproto/bjse/trade/messages/TradeCaptureCofirm.java: createApplExtend"]}
{"id": "C101", "title": "The bytes of a bit map, bit by bit", "statement": "write of each bit map appends exactly the bytes of its format: ByteBitMap one byte with one bit per position; ShortBitMap two bytes with one bit per position, the first bit always set; IntBitMap and LongBitMap four and eight bytes whose first bit says whether another byte follows and whose other seven bits are seven consecutive positions (the positions that are left out are named). In a buffer that is too small exactly the bytes that fit are appended and an index error is thrown. read of each map is characterised for any bytes, of any number and also if they end too early: which position comes out set because of which bit of which byte, with Java's wrapped shifts.", "quantifier": "every content of a map, every buffer, every byte sequence of any length", "why_tests_cant": "2^64 contents, unboundedly long byte sequences, every remaining capacity", "anchors": ["codec/src/main/java/com/finproto/bitmap/ByteBitMap.java: write", "codec/src/main/java/com/finproto/bitmap/ShortBitMap.java: write, read", "codec/src/main/java/com/finproto/bitmap/IntBitMap.java: write, read", "codec/src/main/java/com/finproto/bitmap/LongBitMap.java: write, read"]}
{"id": "C102", "title": "A receiver that checks lengths and checksums delivers exactly the intact frames", "statement": "A sender encodes any number of frames of one kind (SSE, SZSE, sample root packet), each into a buffer without unread bytes, with the checksum service registered. On the way any of them may be damaged outside the length field in a way the checksum is made for (one changed byte for the two sums; 32 consecutive bits, three flipped bits in 11454 bytes or four in 375 bytes for CRC32). In whatever chunks the bytes arrive, a receiver that cuts the stream by the length fields, decodes each piece and has the checksum service verify it stays in step, delivers the messages of exactly the intact frames in order, and drops the damaged ones; at any moment it has delivered the intact ones among those that have arrived completely. One changed byte in a length field can cost an intact frame as well.", "quantifier": "all messages, all buffers without unread bytes, all choices of damaged frames and damages, all ways the stream is cut into chunks, all moments", "why_tests_cant": "unbounded streams, exponentially many damage patterns and chunkings", "anchors": ["sse-bin/src/main/java/com/finproto/sse/bin/messages/SseBinary.java: encode, decode", "szse-bin/src/main/java/com/finproto/szse/bin/messages/SzseBinary.java: encode, decode", "sample-bin/src/main/java/com/finproto/sample/messages/RootPacket.java: encode, decode", "codec/src/main/java/com/finproto/codec/ChecksumService.java: calc, verify"]}
{"id": "C103", "title": "Setters called during an encode: each field is written as it was at some moment", "statement": "While one thread is in encode of a message, other threads call setters of that message, any number of times and at any moment between two accesses of its fields, but not of list fields and not of the length and checksum fields encode computes. Then encode writes, and throws, exactly what it would alone on a mixture: the message with every field as it was at some moment during the call, where fields further back on the wire are never from an earlier moment than fields in front of them. If encode throws nothing, each field has a moment of its own: later than those of the fields in front of it, and not before the first access of encode, so what was set until then is not missed. The only other outcome is a NullPointerException, and only if some setter was called with null during the call. If only one field is set, the outcome is that of the message as it really was at one moment; if nothing is set, that of the message. It does not hold for null (encode may throw although the message can be encoded before and after), for lists (the count may not fit the elements that follow) and for length fields (the frame may carry the length the setter set). No setter is lost: whatever other threads set, and whatever is thrown, a field encode does not compute holds afterwards the value set last during the call, or its old value if none was set.", "quantifier": "all messages of all classes, registries, buffers, and all sequences of setter calls interleaved with the field accesses of encode", "why_tests_cant": "the outcome depends on where between the field accesses of encode the setter calls fall; tests meet a few of the interleavings", "anchors": ["sse-bin/src/main/java/com/finproto/sse/bin/messages/SseBinary.java: encode, setters", "risk-bin/src/main/java/com/finproto/risk/bin/messages/RiskResult.java: encode", "sample-bin/src/main/java/com/finproto/sample/messages/NestedPacket.java: encode", "all message classes: encode and setters"]}
{"id": "C104", "title": "hashCode is the documented number, the same in every process", "statement": "Whenever hashCode of a message returns, it returns the number that follows from the contents by the documentation of the JDK: 31 to the power of the number of fields, plus each field's hash code times 31 to the power of the number of fields behind it, modulo 2^32; the same for lists; for strings without the first summand and with the UTF-16 units as summands; integers of up to 32 bits are their own hash code, a long the exclusive or of its halves, floating-point numbers the same of their bits with one bit pattern for all NaNs, null is 0. So it depends on nothing but the contents, and is the same in all processes. Two messages that differ in one field have different hash codes whenever the hash codes of the two values differ, in particular always if it is an int, short or byte field (but not always for long and String fields).", "quantifier": "all messages of all classes (that contain no object of a field-less class), all values of all fields", "why_tests_cant": "the number depends on all fields of all classes, on the sign extension of every integer type, on the order of the fields and on overflow", "anchors": ["all message classes: hashCode, for instance risk-bin/src/main/java/com/finproto/risk/bin/messages/RiskResult.java, sse-bin/src/main/java/com/finproto/sse/bin/messages/SseBinary.java"]}
{"id": "C105", "title": "A new message is blank, and setters make any message of it", "statement": "Right after construction every getter of a message returns zero (numbers) or null (strings, lists, parts); two new messages are equal exactly if they are of one class; every message of the class can be made from a new one by setter calls in any order, any number of times, as long as the last call for each property passes its value. A new message can be encoded at once, with exactly these bytes: zeros for each number, count and length, padding for each text of fixed width (nothing if padded on the left), nothing for absent parts, and for frames with a checksum the checksum of everything readable in front if the algorithm is registered, else zero; only NestedPacket, which has mandatory parts, throws NullPointerException instead.", "quantifier": "all classes, all properties, all sequences of setter calls, all buffers and contents in front, all registries", "why_tests_cant": "182 classes with all their properties, every order and repetition of setter calls and every buffer content in front of a frame; tests construct a few messages", "anchors": ["all message classes: constructors, getters, setters, encode, for instance sse-bin/src/main/java/com/finproto/sse/bin/messages/SseBinary.java, sample-bin/src/main/java/com/finproto/sample/messages/NestedPacket.java"]}
{"id": "C106", "title": "A field can be changed in the bytes of a message", "statement": "Encoding a message before and after one setter call (messages without computed fields) gives the same bytes in front of the field and behind it and the field's own bytes in between; so overwriting the bytes of a number in the buffer with setInt, setLongLE and so on gives exactly the buffer that encoding the changed message would have given. In a frame a setter of a number in front of the length changes the bytes of this number and the checksum at most. For received bytes, whatever they are: if decode succeeds, then replacing the bytes of any number or fixed-width text (other than a message type or application identifier that selects the class of a part) by any other bytes gives, on decoding, the same message but for this field, and consumes as much.", "quantifier": "all classes, messages, fields, new values, buffers, byte sequences that decode accepts, worlds", "why_tests_cant": "every field of every class against every content of all other fields, and for decoding every accepted byte sequence, canonical or not", "anchors": ["all message classes: encode, decode, setters, for instance sse-bin/src/main/java/com/finproto/sse/bin/messages/SseBinary.java"]}
{"id": "C107", "title": "equals, hashCode and toString of messages that hold objects of the application", "statement": "A message's body, payload or extension may be any object of the application that implements the codec interface. Two messages of one class are then equal exactly if all other fields have the same values and these objects are the same object or equal as the first one's equals method sees it; equals throws exactly if the fields in front agree and that method is called and throws, and the caller gets what it threw; an object compared with itself and objects of different classes never ask it. If the application's objects keep the contract of Object.equals (and hashCode), so do the messages; without it symmetry fails. hashCode and toString are those of the message with the object's hash code or text in its place (0 and null for no object; null for an object whose toString returns null), and throw what the object throws. If the object is a message of the library, all three agree with what is proved about those.", "quantifier": "all classes with a field of interface type, all contents, all behaviours of the application's equals, hashCode and toString including exceptions, all call-stack depths", "why_tests_cant": "the application's classes are not in the repository: the claim is about every implementation of the interface", "anchors": ["sse-bin/src/main/java/com/finproto/sse/bin/messages/SseBinary.java: equals, hashCode, toString", "codec/src/main/java/com/finproto/codec/BinaryCodec.java"]}
{"id": "C108", "title": "Setters called while bytes are decoded into a message", "statement": "While a thread decodes bytes into a message, other threads may call setters of it at any moment. If they spare the fields decode reads again (lists, parts, and the message type or application identifier that selects the class of a part: 70 of 1052 fields), the call consumes the same bytes and throws the same exception as alone; a field nobody set holds what decode alone leaves in it. The message and the bytes alone, not the other threads, fix a moment for each field, increasing in the order of the layout: the field then holds the value set last after its moment, or what decode alone leaves in it if there is none, so no later setter is lost and no earlier one has an effect. Some fields may have no moment: decode alone leaves these unchanged, and they hold the value set last during the call. If they do not spare them, a heartbeat may silently be decoded as a logon made of the following bytes, received list elements may silently be lost, or decode throws a NullPointerException.", "quantifier": "all classes, contents, bytes, worlds, call-stack depths and all interleavings of any number of setter calls with the accesses of decode", "why_tests_cant": "all interleavings of all setter calls with all accesses, for all classes and bytes", "anchors": ["all message classes: decode and setters, for instance sse-bin/src/main/java/com/finproto/sse/bin/messages/SseBinary.java and the sample NestedPacket.java"]}
{"id": "C109", "title": "Getters called while bytes are decoded into a message", "statement": "While a thread decodes bytes into a message and other threads work on other messages, observers may call its getters at any moment. What they see goes forward through the fields in the order of the layout: there is a front that never goes back; fields before it already hold what the complete call will leave in them, fields behind it, and a number or text at it, still hold what they held at the start. So the getter of a number or text changes its result at most once, and an observer who has seen the new value of one finds, at this and any later moment, the new contents of all fields before it. At every moment the message is of its declared types and no object occurs in it twice. Observers can see fields of the new message next to fields of the old one, and a list before all its elements are there.", "quantifier": "all classes, contents, bytes, call-stack depths, registries with well-typed suppliers, numbers of threads, schedules, and all pairs of moments of a schedule", "why_tests_cant": "all moments of all schedules, for all classes and bytes", "anchors": ["all message classes: decode and getters, for instance sse-bin/src/main/java/com/finproto/sse/bin/messages/SseBinary.java: decode, getMsgType, getChecksum"]}
{"id": "C110", "title": "equals, hashCode and toString called while setters run", "statement": "While a thread compares two messages with equals, or calls hashCode or toString of one, other threads may call setters of these messages whenever and as often as they like. The result is the one for mixtures: each message with each field as it was at some moment during the call, later fields at later moments; with equals, a field of the other message is taken after that field of this one and before the next. An answer 'equal' has looked at every field, each at a moment of its own. A message always equals itself. If only one field is set, the result is that of the message as it really was at some moment. If nobody sets anything it is as alone. But equals may answer 'equal' for two messages that were equal at no moment, and hashCode and toString may give the value of a message that never existed.", "quantifier": "all classes, contents (also with nulls and ill-typed ones), call-stack depths, and all sequences of setter calls between any two accesses", "why_tests_cant": "all interleavings of the field reads with any number of setter calls, for all classes", "anchors": ["all message classes: equals, hashCode, toString and setters, for instance sse-bin/src/main/java/com/finproto/sse/bin/messages/SseBinary.java: equals, hashCode, toString"]}
{"id": "C111", "title": "Setters called on a message and its parts, at any depth, while it is encoded", "statement": "While a thread encodes a message, other threads may call setters of it and of any other message - its body, parts of the body, elements of its lists, parts that occur several times - whenever and as often as they like, except setters of list fields and of lengths and checksums. If the call throws nothing, it has written exactly what it writes, alone, for some message that was seen during the call: each field at every depth is as it was at a moment of its own during the call, what is further back in the bytes is from later moments, and the inside of a part is from the interval in which the part was read. If values are of their declared types the bytes are the wire form of a well-typed message of that class. A frame stays consistent: its length is the number of body bytes really written, its checksum that of the bytes really in front of it. No setter is lost, also when the call throws or lists and computed fields are set. Without other threads it is as alone. But a part that occurs several times may be written differently each time, so the bytes may be those of the message at no moment. And a list set to null meanwhile may make the call throw, although the message can be encoded before and after.", "quantifier": "all classes, heaps (shared and cyclic references included), registries, buffers, call-stack depths, and all sequences of setter calls on any objects between any two accesses", "why_tests_cant": "all interleavings of accesses at all depths with any number of setter calls on any object, for all classes", "anchors": ["all message classes: encode and setters, for instance sample-bin/src/main/java/com/finproto/sample/messages/NestedPacket.java: encode", "sse-bin/src/main/java/com/finproto/sse/bin/messages/SseBinary.java: encode", "szse-bin/src/main/java/com/finproto/szse/bin/messages/SzseBinary.java: encode"]}
{"id": "C112", "title": "Encoding while other threads call setters, with the reads the Java memory model allows", "statement": "Message fields are plain (not volatile, no locks), so while other threads call setters a read may return any value the field had before or is ever given, may go back to an older one, and for long and double fields may return the halves of two of them. Setters of list fields and of lengths and checksums are not called. If an encode throws nothing, it has still written exactly what it writes, alone, for some message each field of which, at every depth, is such a value; if values are of their declared types the bytes are the wire form of a well-typed message of that class, and a frame is consistent: its length is the number of body bytes really written, its checksum that of the bytes really in front of it. The encoding thread stores nothing but lengths and checksums. If reads return what memory holds it is as alone. But a frame may carry a sequence number nobody ever set, and what is further back in the bytes may be older than what is in front.", "quantifier": "all classes, heaps (shared and cyclic references included), registries, buffers, call-stack depths, all sets of assigned values, and all results of reads among those", "why_tests_cant": "stale and torn reads depend on the hardware and the JIT compiler, and a test sees them rarely if ever; all classes and all results of reads", "anchors": ["all message classes: private non-volatile fields, getters, setters, encode, for instance sse-bin/src/main/java/com/finproto/sse/bin/messages/SseBinary.java: msgSeqNum, encode", "sample-bin/src/main/java/com/finproto/sample/messages/NestedPacket.java: encode", "szse-bin/src/main/java/com/finproto/szse/bin/messages/SzseBinary.java: encode"]}
{"id": "C113", "title": "Encoding while anything happens to the objects in memory", "statement": "While a thread encodes a message, other threads may do anything to messages and lists: call setters, of lists and computed fields too, add elements to lists and take them out, create objects; reads may be stale or torn. Whatever the call throws, what was in the buffer stays, and so do reader index and maximum capacity. If encoding a frame throws nothing and nobody else changes its length and checksum, the frame is consistent: header, then a length that is the number of body bytes really written, the body, and the checksum of the bytes really in front of it (if the algorithm is registered). With setters only it is the same as C111. But if elements are added to a list meanwhile, the count in front of it may be wrong, so that a reader gets another list and finds bytes left over, although nothing was thrown; and if elements are taken out, the call may throw with half of the message written; and if somebody else sets the length of the frame meanwhile, the frame may say a wrong one.", "quantifier": "all classes, heaps, registries, buffers, call-stack depths, and all changes of the heap between any two accesses (as functions of the heap and the number of accesses)", "why_tests_cant": "all interleavings of arbitrary changes with all accesses of all classes at all depths", "anchors": ["all message classes: encode, for instance sample-bin/src/main/java/com/finproto/sample/messages/SubPacket.java: encode (fieldI16List.size() is called again in each round)", "sse-bin/src/main/java/com/finproto/sse/bin/messages/SseBinary.java: encode", "szse-bin/src/main/java/com/finproto/szse/bin/messages/SzseBinary.java: encode", "sample-bin/src/main/java/com/finproto/sample/messages/RootPacket.java: encode", "risk-bin/src/main/java/com/finproto/risk/bin/messages/RcBinary.java: encode"]}
{"id": "C114", "title": "Decoding while anything happens to the objects in memory", "statement": "While a thread decodes bytes into a message, other threads may do anything to messages and lists in memory. Whatever they do and whatever the call throws, the bytes of the buffer stay and the reader index only moves forward, up to the end of the buffer. If nothing happens meanwhile, the call does what it does alone. If the others may set any fields, change any lists and create objects, but do not set message types (or application identifiers) and bodies, then a call that returns has consumed exactly the bytes it consumes alone into a new message, its message type is the decoded one and its body is of the class registered for it; message types and bodies of all other messages stay as they were. If they do not set lists and parts either, the call ends as it ends alone, with the same exception or none; so bytes that encode has written are decoded completely and without an exception. But what is decoded may be lost: if the list is changed, elements may be missing or foreign; if it is set to null, the call may throw although the bytes are in order; if the message type is set, the body may be read as another class, past the end of the frame; if the body is set, bytes are decoded into a message that has nothing to do with the frame.", "quantifier": "all classes, heaps with parts of the declared classes, buffers, call-stack depths, message factories whose suppliers create new messages, and all changes of the heap between any two accesses (as functions of the heap and the number of accesses)", "why_tests_cant": "all interleavings of arbitrary changes with all accesses of all classes at all depths, for all bytes", "anchors": ["all message classes: decode, for instance sample-bin/src/main/java/com/finproto/sample/messages/SubPacket.java: decode", "sse-bin/src/main/java/com/finproto/sse/bin/messages/SseBinary.java: decode", "szse-bin/src/main/java/com/finproto/szse/bin/messages/SzseBinary.java: decode", "sample-bin/src/main/java/com/finproto/sample/messages/RootPacket.java: decode", "risk-bin/src/main/java/com/finproto/risk/bin/messages/RcBinary.java: decode"]}
{"id": "C115", "title": "Comparing, hashing and printing messages while anything happens to the objects in memory", "statement": "While a thread calls equals, hashCode or toString on messages, other threads may do anything to the messages and parts in memory, at any depth, and reads may return older values. If hashCode or toString returns, the result is the one for what the thread saw: each field of each part as it was at a moment of its own during the call, in the order of declaration; hashCode reads all fields of a message before it looks into the first of them, toString prints each before it reads the next. If equals answers true, each field of the one message at its moment was equal to that of the other at the next moment; if it answers false, some field was different. A message is equal to itself. As long as lists keep their size, hashCode and equals throw nothing but StackOverflowError. What is done to objects the messages do not consist of makes no difference. But a single call of a setter is enough to get the hash or text of a message that never existed, or true for messages that are never equal, if a part occurs twice; and a message that shows the same value all the time may still have another hash and text and be different from an equal one, if a part is replaced by an equal one and the old one is put to another use.", "quantifier": "all heaps (shared parts, cycles), all sequences of memories that the accesses find, all call-stack depths, all classes", "why_tests_cant": "all interleavings of arbitrary changes with all accesses of the three methods, at all depths", "anchors": ["all message classes: equals, hashCode, toString, for instance sample-bin/src/main/java/com/finproto/sample/messages/NestedPacket.java: hashCode, equals, toString", "sse-bin/src/main/java/com/finproto/sse/bin/messages/SseBinary.java: hashCode, equals, toString"]}
{"id": "C116", "title": "Encoding and decoding messages one has for oneself, whatever other threads do elsewhere", "statement": "A thread that encodes a message, or decodes into one, gets exactly what it gets when no other thread does anything, as long as the others do not change the objects the message consists of (itself, its parts, lists and their elements) or those that the call makes: the same bytes or reader index, the same exception if any, and the same in the objects of the message and in the new ones. So encode writes the bytes of the value the message shows, and decode leaves the decoded value; a message encoded in one program and decoded into a new message in another, both with other busy threads, arrives unchanged. During an encode, or a decode into a message without lists, parts and body, the others may make any number of new objects as well. To all other objects the others may do anything at any time, and the call does nothing to them: whatever the others keep true of their objects stays true. It is not enough that the others work on other messages, if these have a list or part in common with mine.", "quantifier": "all heaps (shared parts and cycles for the comparison with the undisturbed call), all that others may do to other objects before each access, all messages, bytes, buffers and call-stack depths, all classes and factories that make new objects", "why_tests_cant": "all interleavings of arbitrary changes with all accesses of all classes at all depths, for all messages and bytes", "anchors": ["all message classes: encode, decode, for instance sample-bin/src/main/java/com/finproto/sample/messages/NestedPacket.java: encode, decode", "sse-bin/src/main/java/com/finproto/sse/bin/messages/SseBinary.java: encode, decode", "sample-bin/src/main/java/com/finproto/sample/messages/SubPacket.java: encode, decode"]}
{"id": "C117", "title": "Decoding into a message while other threads set its numbers and texts", "statement": "A thread decodes bytes into a message. Other threads may at any time set numbers and texts of the message, of its parts and of its elements, old and new, as long as these are not message types (or application identifiers) that select a body; to objects that do not belong to the message they may do anything. Then decode reads the same bytes and throws the same exception, if any, as when nobody does anything, and the message shows the decoded value in everything but the fields the others set: all other numbers and texts have the decoded values, all lists the decoded lengths and elements, and all bodies and parts the decoded classes and, but for fields set, contents. A field the others set has the decoded value or one they set it to, and need not have the decoded one.", "quantifier": "all heaps, all that others may do before each access within these limits, all messages, bytes, buffers and call-stack depths, all classes and factories that make new objects", "why_tests_cant": "all interleavings of setter calls with all accesses of all classes at all depths, for all bytes and all other threads", "anchors": ["all message classes: decode and the setters, for instance sample-bin/src/main/java/com/finproto/sample/messages/SubPacket.java: decode, setFieldU32", "sse-bin/src/main/java/com/finproto/sse/bin/messages/SseBinary.java: decode, setMsgSeqNum"]}
{"id": "C118", "title": "A program that keeps its messages to itself, whatever other threads do", "statement": "A program makes messages and lists, sets and reads fields, adds to lists and reads them, compares, hashes and prints messages, encodes messages and decodes into messages, in any order and number, and decides what to do next from all that it has seen. As long as the other threads do not change the objects that belong to the program (those it knew at the start, directly or through others, and those it makes), the program sees exactly what it sees when there is nobody else: the same values, bytes, reader indices, texts, hash codes and exceptions at every operation, and its messages show the same. The program does nothing to objects that do not belong to it: whatever the others keep true of theirs stays true. It is not enough that the others leave alone the messages the program knows directly, if they change lists or parts of these.", "quantifier": "all programs (any decision from what was seen), any number of operations, all heaps and starting values, all that others may do to other objects before each access, all buffers and call-stack depths, all classes and factories that make new objects", "why_tests_cant": "all programs and all interleavings of arbitrary changes with all their accesses", "anchors": ["all message classes: constructors, getters, setters, encode, decode, equals, hashCode, toString, for instance sample-bin/src/main/java/com/finproto/sample/messages/SubPacket.java: setFieldU32, getFieldI16List, encode, decode", "sample-bin/src/main/java/com/finproto/sample/messages/NestedPacket.java: encode, decode"]}
{"id": "C119", "title": "Encoding and decoding a message that other threads cannot reach, while they make and link objects of their own", "statement": "A thread encodes a message or decodes into one. The other threads have references to some objects; from these no object of the message can be reached. At any time they may change every object they can reach, make any number of new objects, and put references to what they can reach or have made into each other. Then the call gives the same bytes or reader index and the same exception, if any, as when no other thread does anything; encode writes the bytes of the value the message shows, and decode leaves the decoded value, wherever in memory its new objects are put. Afterwards the others still cannot reach the message or what decode has made for it. The call does nothing to objects the others can reach, whether they had them before or made them meanwhile. So a message encoded in one program and decoded into a new message in another, both with such other threads, arrives unchanged. It is not enough that the others have no reference to the message itself, if they have one to its list. A message that a thread keeps, letting the others work, decoding into it and encoding it any number of times and in any order, whether the calls end normally or throw, goes through the same values, with the same outcome of every call, as without the others.", "quantifier": "all heaps, all sets of references the others start with, all that the others may do before each access with objects they can reach or make, all messages, bytes, buffers and call-stack depths, all classes and factories that make new objects", "why_tests_cant": "all interleavings of arbitrary changes and allocations with all accesses and allocations of all classes at all depths, for all messages and bytes", "anchors": ["all message classes: encode, decode, for instance sample-bin/src/main/java/com/finproto/sample/messages/NestedPacket.java: encode, decode", "sse-bin/src/main/java/com/finproto/sse/bin/messages/SseBinary.java: encode, decode", "sample-bin/src/main/java/com/finproto/sample/messages/SubPacket.java: encode, decode"]}
