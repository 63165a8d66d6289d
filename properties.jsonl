{"id": "C01", "title": "Reading a MAC header is total", "statement": "Reading a Header from any byte slice either returns a header or an error; it never panics, and on success the number of octets consumed is at least 3 and never exceeds the slice.", "quantifier": "every byte slice of every length, on little- and big-endian hosts", "why_tests_cant": "the slice is attacker controlled radio input of unbounded length; tests use a handful of frames", "anchors": ["src/mac/frame/header.rs: Header::try_read"]}
{"id": "C02", "title": "Header write/read round trip", "statement": "For every header the encoder accepts (with a context when it is secured), reading back the octets that were written, followed by anything at all, returns the same header up to exactly these changes: seq_no_suppress and ie_present come back false, a compressed source takes the destination's PAN identifier, and the auxiliary header comes back with the context's frame counter (its octets reversed when the writing host is big-endian, see C33) and the key-id mode of its key identifier. The octets consumed equal the octets written.", "quantifier": "all headers, all buffers, all contexts, all trailing octets", "why_tests_cant": "product of all field values (several 64-bit addresses) cannot be enumerated", "anchors": ["src/mac/frame/header.rs: Header::try_write, Header::try_read"]}
{"id": "C03", "title": "Header wire layout", "statement": "The octets written for a header are: little-endian frame control field (type in bits 0-2, security 3, pending 4, ack request 5, PAN compression 6, destination mode 10-11, version 12-13, source mode 14-15, all other bits zero), sequence number, destination PAN and address, source PAN (omitted when compressed) and address, auxiliary security header.", "quantifier": "all headers the encoder accepts", "why_tests_cant": "a writer and a reader that agree with each other but not with the standard pass every round-trip test", "anchors": ["src/mac/frame/header.rs: Header::try_write", "src/mac/frame/frame_control.rs: offset, mask"]}
{"id": "C04", "title": "seq_no_suppress and ie_present are not preserved", "statement": "A user would expect the header flags seq_no_suppress and ie_present to survive writing and reading. They do so exactly when both are false; the two flags have no effect on the octets written at all.", "quantifier": "all headers the encoder accepts", "why_tests_cant": "tests only ever set both flags to false", "anchors": ["src/mac/frame/header.rs: Header::try_write"]}
{"id": "C05", "title": "PAN id compression", "statement": "Writing a header with PAN id compression set fails with DisallowedPanIdCompress exactly when the source or the destination is missing (given room for the first three octets); otherwise exactly one PAN identifier is on the wire, two octets fewer than uncompressed. Reading a compressed header yields a source PAN equal to the destination PAN, and fails with InvalidAddressMode when the destination is absent. The pair of addresses round-trips exactly iff both PAN identifiers are equal.", "quantifier": "all headers and all byte slices", "why_tests_cant": "address pairs range over 2^160 values", "anchors": ["src/mac/frame/header.rs: Header::try_write, Header::try_read, Address"]}
{"id": "C06", "title": "Header reading is local", "statement": "If reading a header succeeds consuming n octets, then the result depends only on those n octets: any slice that starts with the same n octets reads as the same header; and no proper prefix of those n octets reads as any header (it fails with Incomplete).", "quantifier": "every byte slice and every replacement of its tail", "why_tests_cant": "needs all tails of all slices", "anchors": ["src/mac/frame/header.rs: Header::try_read"]}
{"id": "C07", "title": "Exact acceptance of headers", "statement": "Which slices read as a header is determined by the frame control field and the length alone: shorter than 3 octets gives Incomplete; version bits 3 give InvalidFrameVersion; otherwise type bits 4 give InvalidFrameType; otherwise address mode 1 gives InvalidAddressMode; otherwise compression without destination gives InvalidAddressMode (or Incomplete is impossible there); otherwise the read succeeds iff the octets demanded by the modes (and by the auxiliary header's key-id mode) are present, and fails with Incomplete if not.", "quantifier": "every byte slice", "why_tests_cant": "requires all 65536 control fields times all lengths and contents", "anchors": ["src/mac/frame/header.rs: Header::try_read", "src/mac/frame/frame_control.rs: FrameType::from_bits, FrameVersion::from_bits, AddressMode::from_bits"]}
{"id": "C08", "title": "Re-encoding a decoded header", "statement": "If a slice reads as an unsecured header that the encoder accepts, writing that header again reproduces the octets consumed, except that bits 7, 8 and 9 of the frame control field are cleared. The only decodable headers the encoder refuses are the compressed ones without a source.", "quantifier": "every byte slice", "why_tests_cant": "ranges over all received frames", "anchors": ["src/mac/frame/header.rs: Header::try_read, Header::try_write"]}
{"id": "C09", "title": "Header::get_octet_size versus octets written", "statement": "For every header the encoder accepts, the octets written plus 2 when PAN compression is set equal get_octet_size plus the auxiliary header's get_octet_size. So get_octet_size is exact only for unsecured uncompressed headers.", "quantifier": "all headers the encoder accepts", "why_tests_cant": "infinitely many headers; the 127-octet check relies on it", "anchors": ["src/mac/frame/header.rs: Header::get_octet_size", "src/mac/frame/security/auxiliary_security_header.rs: AuxiliarySecurityHeader::get_octet_size"]}
{"id": "C10", "title": "Writers touch only what they report", "statement": "Writing any header, beacon, command, frame content, auxiliary header or frame never changes the length of the buffer; on success with n octets reported everything from octet n on is unchanged; and writing at offset o through the buffer leaves the first o octets unchanged, whether it succeeds or fails.", "quantifier": "all values, all buffers, all offsets, success and failure alike", "why_tests_cant": "memory safety of the surrounding buffer must hold for every value and buffer size", "anchors": ["src/mac/frame/header.rs: Header::try_write", "src/mac/beacon.rs: Beacon::try_write", "src/mac/command.rs: Command::try_write", "src/mac/frame/mod.rs: Frame::try_write"]}
{"id": "C11", "title": "Writers succeed exactly when the buffer is large enough", "statement": "Writing a value that has an encoding of n octets succeeds iff the buffer has at least n octets, reports n, and the octets written do not depend on the buffer's previous content or on its spare room; with less room it fails with Incomplete and never panics.", "quantifier": "all values and all buffers", "why_tests_cant": "needs all buffer sizes including every boundary for every value", "anchors": ["src/mac/frame/header.rs: Header::try_write", "src/mac/beacon.rs: Beacon::try_write", "src/mac/command.rs: Command::try_write", "src/mac/frame/mod.rs: FrameContent::try_write"]}
{"id": "C12", "title": "Superframe specification round trip", "statement": "Superframe specifications with beacon and superframe order at most 14 (or OnDemand/Inactive) and final CAP slot at most 15 round-trip exactly in two octets with the standard's layout; orders and slots beyond that are truncated to 4 bits, order 15 reading back as OnDemand/Inactive. Conversely any two octets read and written again are unchanged except that bit 5 of the second is cleared.", "quantifier": "all specifications, all byte pairs", "why_tests_cant": "the order fields take any u8", "anchors": ["src/mac/beacon.rs: SuperframeSpecification, BeaconOrder, SuperframeOrder"]}
{"id": "C13", "title": "Guaranteed-time-slot information round trip inside a buffer with room", "statement": "Every GTS information value obtainable through the API round-trips exactly (permit, count, every slot's address, start, length and direction) when at least one more octet follows it in the slice.", "quantifier": "all API-obtainable GTS values, all trailing octets of length at least one", "why_tests_cant": "7 slots of arbitrary addresses, all direction masks", "anchors": ["src/mac/beacon.rs: GuaranteedTimeSlotInformation, GuaranteedTimeSlotDescriptor"]}
{"id": "C14", "title": "GTS information needs a spare octet to be read", "statement": "A user expects the octets written for GTS information to read back on their own. With a non-empty slot list the exact octets written are refused with Incomplete: the reader demands one octet more than it consumes. With zero slots they are accepted.", "quantifier": "all API-obtainable GTS values", "why_tests_cant": "tests always read GTS fields followed by pending addresses", "anchors": ["src/mac/beacon.rs: GuaranteedTimeSlotInformation::try_read"]}
{"id": "C15", "title": "Pending address list round trip", "statement": "Every pending-address value obtainable through the API round-trips exactly, in 1 + 2s + 8e octets, short addresses first, followed by anything; reading rejects with Incomplete exactly the slices shorter than the count octet demands.", "quantifier": "all API-obtainable pending-address values, all slices", "why_tests_cant": "up to 14 addresses of 16/64 bits", "anchors": ["src/mac/beacon.rs: PendingAddress"]}
{"id": "C16", "title": "Beacon round trip", "statement": "Every beacon obtainable through the API whose superframe specification is in range round-trips exactly, and the octets consumed equal the octets written, even when nothing follows.", "quantifier": "all API-obtainable beacons with in-range superframe specification, all trailing octets", "why_tests_cant": "product of all slots and addresses", "anchors": ["src/mac/beacon.rs: Beacon"]}
{"id": "C17", "title": "Beacon reading is total and yields consistent values", "statement": "Reading a beacon from any slice never panics; every value obtainable by reading or constructing has at most 7 slots, 7 short and 7 extended addresses; its accessors return exactly that many entries and never panic, and writing it never trips an assertion.", "quantifier": "every byte slice; every value obtainable by any sequence of public constructors, reads and public field updates", "why_tests_cant": "requires all inputs and all histories of API use", "anchors": ["src/mac/beacon.rs: Beacon::try_read, GuaranteedTimeSlotInformation::slots, PendingAddress::short_addresses, PendingAddress::extended_addresses"]}
{"id": "C18", "title": "Command round trip", "statement": "Every MAC command with in-range fields (GTS count at most 15, and coordinator realignment only with a channel page) round-trips exactly followed by anything; a realignment without channel page round-trips exactly when nothing follows.", "quantifier": "all commands, all trailing octets", "why_tests_cant": "address and status products", "anchors": ["src/mac/command.rs: Command::try_write, Command::try_read"]}
{"id": "C19", "title": "Command wire layout", "statement": "The octets of each command are its identifier 1..9 followed by its little-endian fields, capability bits 1,2,3,6,7, GTS characteristics count in bits 0-3, direction bit 4, type bit 5.", "quantifier": "all commands", "why_tests_cant": "symmetric writer/reader errors pass round-trip tests", "anchors": ["src/mac/command.rs: CommandId, CapabilityInformation, GuaranteedTimeSlotCharacteristics, CoordinatorRealignmentData"]}
{"id": "C20", "title": "Coordinator realignment swallows a following octet", "statement": "A user expects a realignment command without channel page to read back without one. When any octet follows (payload or footer) it is taken as channel page.", "quantifier": "all realignment data, all non-empty tails", "why_tests_cant": "tests read the command with nothing after it", "anchors": ["src/mac/command.rs: CoordinatorRealignmentData::try_read"]}
{"id": "C21", "title": "Exact acceptance of commands", "statement": "Reading a command never panics; it fails with InvalidValue exactly when the identifier is not 1..9, or the association status or disassociation reason is not a defined value; it fails with Incomplete exactly when octets are missing.", "quantifier": "every byte slice", "why_tests_cant": "all slices", "anchors": ["src/mac/command.rs: Command::try_read", "src/utils.rs: extended_enum"]}
{"id": "C22", "title": "Enumeration conversions are inverse and total", "statement": "For frame types, frame versions, address modes, security levels, key-id modes, command ids, association statuses and disassociation reasons: converting to bits and back is the identity, distinct values have distinct bits, and the fallible conversion accepts exactly the bits of some value. The infallible conversion from an integer panics exactly on the others.", "quantifier": "all values of each enumeration and all 256 octets", "why_tests_cant": "a table error for one value is invisible unless that value is tested", "anchors": ["src/mac/frame/frame_control.rs: FrameType, FrameVersion, AddressMode", "src/mac/frame/security/security_control.rs: SecurityLevel, KeyIdentifierMode", "src/utils.rs: extended_enum"]}
{"id": "C23", "title": "Unsecured frame round trip, no footer", "statement": "A frame without auxiliary header whose content matches its frame type, whose header the encoder accepts, and whose content is readable in front of its payload, written with FooterMode::None and read back from exactly the octets written, is the same frame (seq_no_suppress/ie_present cleared, footer zero).", "quantifier": "all such frames, all buffers", "why_tests_cant": "unbounded payloads and field products", "anchors": ["src/mac/frame/mod.rs: Frame::try_write, Frame::try_read"]}
{"id": "C24", "title": "Unsecured frame round trip, explicit footer", "statement": "The same with FooterMode::Explicit: payload and footer come back exactly as they were given.", "quantifier": "all such frames, all buffers", "why_tests_cant": "unbounded payloads and field products", "anchors": ["src/mac/frame/mod.rs: Frame::try_write, Frame::try_read"]}
{"id": "C25", "title": "Reading a frame without footer never panics", "statement": "Frame reading with FooterMode::None never panics on any slice; with FooterMode::Explicit it panics exactly when arithmetic overflow checks are on, header and content are readable, the frame is not secured, and fewer than two octets follow the content. Without overflow checks that case is Incomplete.", "quantifier": "every byte slice, both build profiles", "why_tests_cant": "panic freedom on attacker-controlled input", "anchors": ["src/mac/frame/mod.rs: Frame::try_read"]}
{"id": "C26", "title": "Reading a frame accounts for every octet", "statement": "On success Frame reading consumes the whole slice, and the slice is exactly header octets, content octets, payload and (explicit mode) footer in order.", "quantifier": "every byte slice", "why_tests_cant": "unbounded slices", "anchors": ["src/mac/frame/mod.rs: Frame::try_read"]}
{"id": "C27", "title": "Plain reading never yields a secured frame", "statement": "Frame::try_read never returns a frame with security enabled; whenever header and content are readable and the security bit is set it fails with SecurityEnabled.", "quantifier": "every byte slice, both footer modes", "why_tests_cant": "all control fields and contents", "anchors": ["src/mac/frame/mod.rs: Frame::try_read"]}
{"id": "C28", "title": "Writing a secured frame requires a context", "statement": "Writing a frame whose header has an auxiliary security header without a security context never succeeds: no frame is emitted, whatever the buffer; given room it fails with MissingSecurityCtx.", "quantifier": "all frames, all buffers, both footer modes", "why_tests_cant": "silent plaintext emission must be impossible for every frame", "anchors": ["src/mac/frame/mod.rs: Frame::try_write", "src/mac/frame/header.rs: Header::try_write"]}
{"id": "C29", "title": "Content always matches the frame type", "statement": "The content of a frame read from any slice is the variant named by its frame type, and writing a frame never checks this: a mismatched content is written and becomes payload or a different content on reading.", "quantifier": "every byte slice; all frames", "why_tests_cant": "all slices", "anchors": ["src/mac/frame/mod.rs: FrameContent::try_read, FrameContent::try_write"]}
{"id": "C30", "title": "Nonces are unique per address, counter and level", "statement": "The 13-octet nonce is the little-endian EUI-64, the little-endian frame counter and the security level; different triples give different nonces.", "quantifier": "all addresses, counters and levels", "why_tests_cant": "2^99 triples", "anchors": ["src/mac/frame/security/mod.rs: calculate_nonce"]}
{"id": "C31", "title": "A frame counter is never used twice by one context", "statement": "Over any sequence of frame writes with one security context (successful or not, any frames, any buffers), the context's counter never decreases and never wraps, and no two invocations of the cipher for sending use the same counter, hence the same nonce.", "quantifier": "all histories of writes", "why_tests_cant": "nonce reuse is a property of histories", "anchors": ["src/mac/frame/security/mod.rs: secure_frame", "src/mac/frame/mod.rs: Frame::try_write"]}
{"id": "C32", "title": "Counter exhaustion is refused", "statement": "With the context's counter at 0xFFFFFFFF every secured write at a level other than None fails and leaves the counter there; a write consumes at most one counter value, exactly one when it gets as far as key lookup, also when it then fails.", "quantifier": "all frames, contexts and buffers", "why_tests_cant": "exhaustion happens after 2^32 frames", "anchors": ["src/mac/frame/security/mod.rs: secure_frame"]}
{"id": "C33", "title": "The frame counter on the wire is the one in the nonce", "statement": "On a little-endian host the auxiliary header written for a secured frame carries the counter that the nonce was computed with; on a big-endian host it carries the byte-reversed counter, so receivers compute another nonce.", "quantifier": "all counters, both host byte orders", "why_tests_cant": "tests run on little-endian hosts and use the palindromic counter 0x03030303", "anchors": ["src/mac/frame/security/auxiliary_security_header.rs: AuxiliarySecurityHeader::try_write", "src/mac/frame/security/mod.rs: secure_frame"]}
{"id": "C34", "title": "Secured frame round trip", "statement": "A data frame at an authenticating level (MIC-32/64/128, ENC-MIC-32/64/128) and not of version 2003, written with a context and read on a receiver whose key lookup returns the sender's key and EUI-64 and whose device counter does not exceed the frame's counter, is accepted on a little-endian host: the payload is the original, the header is the original (with the wire counter), and the device counter becomes the frame's counter plus one.", "quantifier": "all frames, keys, block ciphers, contexts, buffers", "why_tests_cant": "all payloads and keys; tests use one payload and a zero key", "anchors": ["src/mac/frame/mod.rs: Frame::try_write, Frame::try_read_and_unsecure", "src/mac/frame/security/mod.rs: secure_frame, unsecure_frame"]}
{"id": "C35", "title": "Replay protection over histories", "statement": "Over any sequence of received byte strings, the counters of frames accepted for one device are strictly increasing, so no frame is accepted twice - in builds with overflow checks always; without them as long as no accepted frame carries counter 0xFFFFFFFF.", "quantifier": "all histories of received slices, including forged, replayed and reordered ones", "why_tests_cant": "ranges over all interleavings an attacker can produce", "anchors": ["src/mac/frame/security/mod.rs: unsecure_frame"]}
{"id": "C36", "title": "Counter wrap on reception", "statement": "A user expects the stored device counter never to decrease. It can only decrease when a frame with valid tag and counter 0xFFFFFFFF is accepted without overflow checks (it then becomes 0, re-opening replay); with overflow checks the receiver panics instead.", "quantifier": "all devices, frames and build profiles", "why_tests_cant": "needs an authentic frame with the maximal counter in a release build", "anchors": ["src/mac/frame/security/mod.rs: unsecure_frame"]}
{"id": "C37", "title": "Rejected frames leave the receiver's state alone", "statement": "Whenever reading a secured frame returns an error, the device's stored counter is unchanged, and the security context (in particular its outgoing counter) is unchanged by reception in every case.", "quantifier": "all slices, contexts and device tables", "why_tests_cant": "forged traffic must not be able to desynchronise devices", "anchors": ["src/mac/frame/security/mod.rs: unsecure_frame"]}
{"id": "C38", "title": "Acceptance is exactly tag verification", "statement": "A secured data frame is accepted iff level, version, key, source, device and counter checks pass and the trailing tag is the tag the cipher computes for the nonce and payload; in particular any change of the tag octets alone, and any change of the payload of a MIC-only frame that changes the computed tag, is rejected.", "quantifier": "all slices, keys, ciphers", "why_tests_cant": "all tampered variants", "anchors": ["src/mac/frame/security/mod.rs: unsecure_frame"]}
{"id": "C39", "title": "Header fields are not authenticated", "statement": "A user expects the tag to protect the header. It does not: two secured data frames with the same source, key identifier, counter and level and the same trailing octets are accepted or rejected alike, so sequence number, destination, flags and version (2006 or later) can be altered freely.", "quantifier": "all pairs of headers", "why_tests_cant": "absence of protection shows only when comparing all header pairs", "anchors": ["src/mac/frame/security/mod.rs: secure_frame, unsecure_frame"]}
{"id": "C40", "title": "Secured frame wire format", "statement": "A successfully written secured frame is header, content, then for MIC levels the plain payload and for ENC-MIC levels an equally long ciphertext, then a tag of 4, 8 or 16 octets according to the level; the length reported is the sum.", "quantifier": "all frames, contexts, ciphers", "why_tests_cant": "all payloads and levels", "anchors": ["src/mac/frame/security/mod.rs: secure_frame", "src/mac/frame/security/security_control.rs: SecurityLevel::get_mic_octet_size"]}
{"id": "C41", "title": "Secured frames respect the PHY limit", "statement": "A secured write fails with FrameTooLong exactly when payload + header (uncompressed) + auxiliary header + tag exceed 125 octets, before touching the payload area or the counter; so a secured frame with matching content occupies at most 125 octets. Compressed frames are refused two octets early.", "quantifier": "all frames and contexts", "why_tests_cant": "boundary for every combination of address modes and levels", "anchors": ["src/mac/frame/security/mod.rs: secure_frame"]}
{"id": "C42", "title": "Security level None is write-only, ENC unsupported", "statement": "A frame with an auxiliary header at level None is written in clear without consuming a counter, and no receiver ever accepts it; level ENC is refused with NotImplemented on both sides, on the sending side after consuming a counter.", "quantifier": "all frames, contexts, slices", "why_tests_cant": "combinations of level and state", "anchors": ["src/mac/frame/security/mod.rs: secure_frame, unsecure_frame"]}
{"id": "C43", "title": "Panics of secured reading", "statement": "A user expects reading a secured frame never to panic. With FooterMode::None it panics exactly when all checks up to the counter pass and fewer octets than the tag length remain, or (overflow checks on) when an authentic frame has counter 0xFFFFFFFF; with FooterMode::Explicit and a context every secured frame panics.", "quantifier": "all slices, contexts, device tables, build profiles", "why_tests_cant": "remote denial of service on specially short frames", "anchors": ["src/mac/frame/mod.rs: Frame::try_read_and_unsecure", "src/mac/frame/security/mod.rs: unsecure_frame"]}
{"id": "C44", "title": "Panics of secured writing", "statement": "Writing with FooterMode::None never panics for API-obtainable frames. With FooterMode::Explicit and a security context present, every frame whose header and content fit panics, secured or not.", "quantifier": "all frames, buffers and contexts", "why_tests_cant": "configuration-dependent panic", "anchors": ["src/mac/frame/mod.rs: Frame::try_write", "src/mac/frame/security/mod.rs: secure_frame"]}
{"id": "C45", "title": "Unsecured frames are read alike with and without security", "statement": "Reading an unsecured frame with try_read_and_unsecure gives the same result as try_read without footer, whatever the context, and changes neither buffer nor device state; a secured frame without context gives InvalidSecContext.", "quantifier": "all slices, contexts, device tables", "why_tests_cant": "all inputs", "anchors": ["src/mac/frame/mod.rs: Frame::try_read_and_unsecure, Frame::try_read"]}
{"id": "C46", "title": "Unsupported security is refused", "statement": "A secured frame that is not a data frame is refused with NotImplemented in both directions, a secured version-2003 frame is refused on reception with UnsupportedLegacy, an unknown key with UnavailableKey, an unknown device with UnavailableDevice, each before any buffer octet or device state changes on reception.", "quantifier": "all frames and slices", "why_tests_cant": "all combinations", "anchors": ["src/mac/frame/security/mod.rs: secure_frame, unsecure_frame"]}
{"id": "C47", "title": "The no-security context cannot secure or unsecure", "statement": "With the provided Unimplemented key lookup no secured write at a level other than None succeeds and no secured frame is ever accepted.", "quantifier": "all frames, slices, buffers", "why_tests_cant": "all inputs", "anchors": ["src/mac/frame/security/default.rs: Unimplemented", "src/mac/frame/security/mod.rs: SecurityContext::no_security"]}
{"id": "C48", "title": "Auxiliary security header round trip", "statement": "Writing an auxiliary header and reading it back followed by anything yields the same level and key identifier, the context's counter (on a little-endian host) and the matching key-id mode, in get_octet_size octets; the frame counter stored in the header value itself is ignored by the writer.", "quantifier": "all auxiliary headers, contexts, tails", "why_tests_cant": "64-bit key sources", "anchors": ["src/mac/frame/security/auxiliary_security_header.rs: AuxiliarySecurityHeader", "src/mac/frame/security/security_control.rs: SecurityControl"]}
{"id": "C49", "title": "Delivery through a lossy, reordering, duplicating channel", "statement": "If one context writes any sequence of frames and the receiver is given, in any order, with any losses and repetitions, packets it put on the air, interleaved with anything else that is not accepted as coming from that device, then each delivered packet is accepted, returning the payload and header sent, exactly when it was sent after every packet of that sender delivered so far; every other delivery is refused with CounterError.", "quantifier": "all histories of writes, all delivery schedules, all other traffic, all ciphers satisfying the AEAD laws, all keys and device tables", "why_tests_cant": "history property of two parties", "anchors": ["src/mac/frame/mod.rs: Frame::try_write, Frame::try_read_and_unsecure", "src/mac/frame/security/mod.rs: secure_frame, unsecure_frame"]}
{"id": "C50", "title": "CCM decrypts what it encrypts, for every block cipher", "statement": "With the CCM mode (13-octet nonce, tag 4/8/16) over any 16-octet block cipher, decryption of an encryption under the same key, nonce and associated data succeeds and restores the plaintext, and decryption succeeds only for the tag computed by encryption.", "quantifier": "all block ciphers, keys, nonces, data", "why_tests_cant": "all data and keys", "anchors": ["src/mac/frame/security/mod.rs: secure_frame, unsecure_frame"]}
{"id": "C51", "title": "The octets decide every decoded value", "statement": "Reading a header, auxiliary security header, superframe specification, GTS descriptor, GTS information, pending-address list or beacon succeeds with value v after n octets exactly when the first n octets are an encoding of v with arbitrary values in the reserved bits; so every field of the value, and every slot and address returned by the accessors, is fixed by a stated bit of the input, and no accepted input is read any other way.", "quantifier": "all byte sequences and all values", "why_tests_cant": "soundness and completeness of decoding over all inputs", "anchors": ["src/mac/frame/header.rs: Header::try_read", "src/mac/beacon.rs: Beacon::try_read, GuaranteedTimeSlotInformation, PendingAddress, SuperframeSpecification", "src/mac/frame/security/auxiliary_security_header.rs: AuxiliarySecurityHeader::try_read"]}
{"id": "C52", "title": "Several values in one buffer", "statement": "Any number of headers (or beacons, commands, superframe specifications, pending-address lists, GTS informations) written one after the other through one shared offset read back one after the other as the same values and end at the same offset, whatever follows (GTS information: if something follows; commands: except a coordinator realignment without channel page).", "quantifier": "all lists of values, all buffers, all suffixes", "why_tests_cant": "lists of any length and arbitrary following data", "anchors": ["src/mac/frame/header.rs", "src/mac/beacon.rs", "src/mac/command.rs"]}
{"id": "C53", "title": "Unique decoding", "statement": "No header's or beacon's octets are a proper prefix of another's and equal octets mean equal values (headers: up to the two flags and the compressed source PAN that are not written); for commands the only exception is a coordinator realignment without channel page against the same one with; unsecured frames with the same octets have the same header, content and payload.", "quantifier": "all pairs of values", "why_tests_cant": "all pairs of values", "anchors": ["src/mac/frame/header.rs", "src/mac/beacon.rs", "src/mac/command.rs", "src/mac/frame/mod.rs"]}
{"id": "C55", "title": "A complete account of securing", "statement": "Writing a secured data frame without explicit footer into any buffer: the result, every octet of the buffer afterwards and the security context afterwards are given by one table - too long (more than 125 octets before the footer), no room for the payload, level None (sent in clear, counter kept), counter exhausted, no key, ENC (not implemented), cipher refusal, no room for the tag, success - decided in that order, the counter being consumed exactly from the key lookup on; and if header and content do not fit it is Incomplete with the counter unchanged.", "quantifier": "all frames, contexts, ciphers, key lookups, buffers, hosts and build profiles", "why_tests_cant": "quantifies over every buffer size and every caller-supplied cipher and lookup", "anchors": ["src/mac/frame/mod.rs: Frame::try_write", "src/mac/frame/security/mod.rs: secure_frame"]}
{"id": "C56", "title": "A complete account of unsecuring", "statement": "Receiving a frame whose secured header and content are readable: the result, every octet of the buffer afterwards and the device state afterwards are given by one table - not a data frame, legacy version, level None, no key, no source, unknown device, counter too old or exhausted, ENC, buffer shorter than the tag (panic), refused by the cipher, accepted with the device counter set to the frame's plus one - decided in that order.", "quantifier": "all buffers, contexts, ciphers, lookups, device states, hosts and build profiles", "why_tests_cant": "quantifies over every received buffer and every caller-supplied cipher, lookup and device state", "anchors": ["src/mac/frame/mod.rs: Frame::try_read_and_unsecure", "src/mac/frame/security/mod.rs: unsecure_frame"]}
{"id": "C54", "title": "Errors keep their meaning", "statement": "Converting a decode error to the error of the reading interface forgets only the offending value; encode errors and security errors convert to distinct errors except that a security error wrapping a reading error converts to that error; errors of different kinds are confused in exactly three listed cases; only \"not enough bytes\" becomes Incomplete.", "quantifier": "all pairs of errors", "why_tests_cant": "all pairs of errors, including wrapped ones of any depth", "anchors": ["src/mac/frame/mod.rs: DecodeError, EncodeError", "src/mac/frame/security/mod.rs: SecurityError"]}
{"id": "C57", "title": "Addresses, their modes and constructors", "statement": "The broadcast address of a mode has that mode and an encoding of FF octets only; an address has the mode written for it, and both conversions to a mode agree; PAN identifiers, addresses and security controls are read from exactly the octets of their layout and need 2, 2, 8 and 1 octets; constructors set the parts given, and the counter given to the unsafe constructor of an auxiliary header never reaches the air.", "quantifier": "all addresses, modes, levels, key identifiers, byte sequences", "why_tests_cant": "all 64-bit addresses and all byte sequences", "anchors": ["src/mac/frame/header.rs: Address, PanId, ShortAddress, ExtendedAddress", "src/mac/frame/frame_control.rs: AddressMode", "src/mac/frame/security/auxiliary_security_header.rs: AuxiliarySecurityHeader::new, new_unsafe", "src/mac/frame/security/security_control.rs: SecurityControl"]}
{"id": "C58", "title": "The placeholder cipher gives no security", "statement": "With the crate's placeholder block cipher (or any cipher that ignores its key) and a working key lookup, exchanging every key for any other changes no octet sent, no result and no device state, and no error is raised: a frame written under one key is accepted under any other.", "quantifier": "all frames, buffers, contexts, key exchanges, device states", "why_tests_cant": "quantifies over every pair of keys and every frame", "anchors": ["src/mac/frame/security/default.rs: Unimplemented"]}
{"id": "C59", "title": "Keystream is never reused", "statement": "Under CCM the cipher inputs of keystream blocks are different for different nonces or positions and different from the input that starts authentication; so in any history of writes with one context no two writes share a keystream block, and within a write positions do not wrap.", "quantifier": "all nonces, positions, histories of writes of any length", "why_tests_cant": "histories of arbitrary length", "anchors": ["src/mac/frame/security/mod.rs: calculate_nonce, secure_frame", "Cargo.toml: ccm"]}
{"id": "C60", "title": "Sizes", "statement": "Whatever is written successfully, a header takes 3 to 37 octets, an auxiliary header 5 to 14, a beacon 4 to 96, a command 1 to 9; nothing limits the length of an unsecured frame.", "quantifier": "all values, all buffers", "why_tests_cant": "all values", "anchors": ["src/mac/frame/header.rs", "src/mac/beacon.rs", "src/mac/command.rs", "src/mac/frame/mod.rs: Frame::try_write"]}
{"id": "C61", "title": "Hosts of different byte order", "statement": "A header written by one host and read by another of any byte orders reads back with the counter as it is on the air and the key source reversed exactly when the byte orders differ, all else as between equal hosts; a secured frame is then refused with UnavailableKey if the receiver has no key for the reversed key source. If the receiver does know a key and the device for what it finds, the frame is accepted with a payload exactly when protecting that payload under the nonce of the counter as found on the air gives the octets sent; so between any two hosts a frame whose counter is a palindrome, or from a little-endian sender, arrives with its payload.", "quantifier": "all headers, all pairs of hosts, all lookups", "why_tests_cant": "no test runs on two hosts of different byte order", "anchors": ["src/mac/frame/security/auxiliary_security_header.rs: try_read, try_write"]}
{"id": "C62", "title": "Exactly which octets are a frame", "statement": "An unsecured read of a slice succeeds if and only if the slice is a header, content of the header's type, a payload and (in explicit mode) a two-octet footer one after the other, and returns exactly these; commands and contents are accepted exactly on the octets of their layout with reserved bits free; a slice is at most one frame.", "quantifier": "all byte slices, both footer modes, all hosts", "why_tests_cant": "all slices of all lengths: both directions of an equivalence", "anchors": ["src/mac/frame/mod.rs: Frame::try_read, FrameContent::try_read", "src/mac/command.rs: Command::try_read"]}
{"id": "C63", "title": "Relaying", "statement": "A frame that was received and is written again gives as many octets as came in, the same ones except that bits 7-9 of the frame control field and the reserved bits of the content are cleared; sending the result on again changes nothing more; only frames with PAN compression and no source address cannot be sent on.", "quantifier": "all received slices, all sufficiently long buffers, both footer modes", "why_tests_cant": "every slice the reader accepts", "anchors": ["src/mac/frame/mod.rs: Frame::try_read, Frame::try_write", "src/mac/beacon.rs", "src/mac/command.rs"]}
{"id": "C64", "title": "Equality means what the accessors show", "statement": "Two GTS informations, pending-address lists or beacons built through the API or decoded are equal exactly when their flags and the slices their accessors return are equal: unused array entries never count.", "quantifier": "all pairs of values obtainable through the API", "why_tests_cant": "all pairs of values", "anchors": ["src/mac/beacon.rs: GuaranteedTimeSlotInformation, PendingAddress, Beacon"]}
{"id": "C65", "title": "Restarts of a sender", "statement": "If every security context of a device is created with a counter not below the one at which each earlier one stopped (wherever it stopped), no nonce is used in two sessions; storing ahead a counter as far above the start as calls are made suffices; and if a counter is reused under the same key, address and ENC-MIC level, the exclusive or of the two payloads is the exclusive or of the two ciphertexts, whatever the block cipher.", "quantifier": "all sequences of sessions, all stopping points, all frames, all block ciphers", "why_tests_cant": "quantifies over crash points and unbounded histories", "anchors": ["src/mac/frame/security/mod.rs: SecurityContext, secure_frame"]}
{"id": "C66", "title": "What a receiver must keep", "statement": "Whether a slice once accepted is accepted in another device state (say after a restart) depends only on the counter stored for its source: it must be known, with a counter not above the frame's and not the greatest; result and buffer are then the same. A table set back therefore accepts old frames again.", "quantifier": "all slices, all pairs of device states and of device tables", "why_tests_cant": "all pairs of states", "anchors": ["src/mac/frame/security/mod.rs: unsecure_frame, DeviceDescriptorLookup, DeviceDescriptor"]}
{"id": "C67", "title": "Replay protection is per address", "statement": "If the key lookups tell devices apart by EUI-64, each pair of EUI-64 and counter is accepted at most once in any history; otherwise a frame accepted once is accepted again when its header is rewritten to another known source address with the same EUI-64 and key.", "quantifier": "all histories of receptions, all device tables", "why_tests_cant": "unbounded histories", "anchors": ["src/mac/frame/security/mod.rs: unsecure_frame, KeyDescriptorLookup, DeviceDescriptorLookup"]}
{"id": "C68", "title": "An authenticated channel", "statement": "Whatever slices are delivered in whatever order, as long as none is a forgery (every slice that verifies under a key for the device was sent with that key and nonce), what a receiver accepts from a device is a subsequence of what that device sent, each with its counter and payload: nothing altered, nothing twice, nothing out of order, with overflow checks or without.", "quantifier": "all histories of writes of one context, all sequences of delivered slices, all device tables, all ciphers obeying the AEAD laws", "why_tests_cant": "quantifies over unbounded histories of sender, network and receiver together", "anchors": ["src/mac/frame/mod.rs: Frame::try_write, Frame::try_read_and_unsecure", "src/mac/frame/security/mod.rs: secure_frame, unsecure_frame"]}
{"id": "C69", "title": "The exported enum macro", "statement": "For every table given to the enum macro each variant converts to the value beside it, the checked conversion gives a variant only for its value and nothing exactly for values not listed, the unchecked one agrees and panics there (no variant serves as default), comparison with an integer is comparison with the variant's value; with distinct values every variant survives the round trip, and a variant repeating an earlier value never comes out of a conversion.", "quantifier": "all tables of variants and values, all values", "why_tests_cant": "all tables a user may give the exported macro", "anchors": ["src/utils.rs: extended_enum!, OptionalFrom", "src/mac/command.rs: CommandId, AssociationStatus, DisassociationReason"]}
{"id": "C70", "title": "Copies of a security context", "statement": "A security context can be copied, and each copy counts on its own: after any calls with either copy, two successful writes of secured data frames, one with each, use a common nonce exactly when the copies' counters then agree and the frames' levels do. So the first writes with a context and with a copy reveal, under CCM with any block cipher, the exclusive or of their payloads.", "quantifier": "all contexts, all histories of writes with either copy, all frames and buffers, all block ciphers for the leak", "why_tests_cant": "quantifies over unbounded histories on two copies and all ciphers", "anchors": ["src/mac/frame/security/mod.rs: SecurityContext, secure_frame, calculate_nonce", "src/mac/frame/mod.rs: Frame::try_write"]}
{"id": "C71", "title": "Replay protection while the application changes the table", "statement": "Between two secured frames accepted from one device the application may add, remove and replace devices, as long as each change leaving the device known does not lower its counter or sets it above the first frame's counter: then the second frame's counter is greater than the first's (short of the wrap without overflow checks).", "quantifier": "all device tables, all sequences of receptions interleaved with changes of the table by the application", "why_tests_cant": "unbounded interleavings of receptions and arbitrary changes", "anchors": ["src/mac/frame/security/mod.rs: unsecure_frame, DeviceDescriptor, DeviceDescriptorLookup", "src/mac/frame/mod.rs: Frame::try_read_and_unsecure"]}
{"id": "C72", "title": "Only counters of devices count", "statement": "Two receivers whose tables know the same devices with the same counters, whatever the exempt flags and however the tables are stored, show the same results, buffers and contexts for every history of calls and agree on the counters after it: a device's exempt flag has no effect.", "quantifier": "all pairs of device tables agreeing on counters, all histories of calls, all ciphers", "why_tests_cant": "relational property over all pairs of tables and unbounded histories", "anchors": ["src/mac/frame/security/mod.rs: unsecure_frame, DeviceDescriptor", "src/mac/frame/mod.rs: Frame::try_read_and_unsecure"]}
{"id": "C73", "title": "Nonces while the application changes the context", "statement": "The fields of a security context are public. Between two writes the application may exchange the key lookup, switch to other EUI-64s and back and raise the counter, as long as every change after which the address is that of the first write does not lower the counter of that address or sets it above the first write's counter: then the two writes use no common nonce. The condition is tight: coming back to that address and counter, a successful write at the same level uses the same nonce.", "quantifier": "all contexts, all sequences of writes interleaved with arbitrary changes of the context, all frames, buffers and ciphers", "why_tests_cant": "unbounded interleavings of calls and arbitrary changes", "anchors": ["src/mac/frame/security/mod.rs: SecurityContext, secure_frame, calculate_nonce", "src/mac/frame/mod.rs: Frame::try_write"]}
{"id": "C74", "title": "Sending and receiving with one context do not interfere", "statement": "In any interleaving of frame writes and receptions that use one context, every write returns and writes what it would without the receptions, every reception returns and leaves in its buffer what it would without the writes, the context ends as after the writes alone and the device table as after the receptions alone; a reception uses of its context only the key lookup, not the address or the counter.", "quantifier": "all interleavings of writes and receptions, all contexts, device lookups, frames, slices, footer modes and ciphers", "why_tests_cant": "relational property over unbounded interleavings", "anchors": ["src/mac/frame/security/mod.rs: secure_frame, unsecure_frame, SecurityContext", "src/mac/frame/mod.rs: Frame::try_write, Frame::try_read_and_unsecure"]}
{"id": "C75", "title": "What a refused reception or write leaves in the buffer", "statement": "When a reception with CCM is refused, every octet of the buffer is as received or zero, and zeros appear only when the tag did not verify: no unauthenticated plaintext is released. When a write is refused because the counter is exhausted, the key is missing or the level is ENC, the buffer holds the payload in clear behind the header; when a write at an ENC-MIC level is refused for any other reason, the buffer holds only header octets in front of its old contents, or header and the encrypted payload.", "quantifier": "all slices up to 65535 octets, all block ciphers, keys, contexts, device lookups, frames and buffers", "why_tests_cant": "quantifies over every way a call can fail, for every input and cipher", "anchors": ["src/mac/frame/security/mod.rs: secure_frame, unsecure_frame", "src/mac/frame/mod.rs: Frame::try_write, Frame::try_read_and_unsecure"]}
{"id": "C76", "title": "One table for every frame write", "statement": "For every frame with API-obtainable content, every context (with or without security, either footer mode) and every buffer, the result, the buffer and the context afterwards are a row of one table: PAN compression without both addresses gives DisallowedPanIdCompress behind frame control and sequence number; a secured frame without context gives MissingSecurityCtx behind the plain header; a context with an explicit footer panics behind header and content; an unsecured frame is written as header, content, payload and footer; a secured frame that is not a data frame gives NotImplemented; a secured data frame follows the sending table of C55; and whenever the octets of the row do not fit, the result is Incomplete, at most a first part of them is in the buffer, and the context is unchanged.", "quantifier": "all frames, contexts, footer modes, ciphers, key lookups, buffers, hosts", "why_tests_cant": "a complete case analysis over unbounded inputs", "anchors": ["src/mac/frame/mod.rs: Frame::try_write", "src/mac/frame/security/mod.rs: secure_frame", "src/mac/frame/header.rs: Header::try_write"]}
{"id": "C77", "title": "One table for every frame read", "statement": "For every slice the outcome of a plain read (octets consumed, which error, or panic) is decided by a table of the octets, the footer mode and the build profile: the header's verdict, the content's verdict, the security bit, the room for a footer. For every slice, context, footer mode and device lookup the outcome of a secured read (result, buffer, context, device state) is a row of one table: the same error as the plain read if header or content are unreadable, the unsecured frame, InvalidSecContext, a panic with an explicit footer, or the receiving table of C56.", "quantifier": "all byte slices, contexts, footer modes, ciphers, device lookups, hosts and build profiles", "why_tests_cant": "a complete case analysis over unbounded inputs", "anchors": ["src/mac/frame/mod.rs: Frame::try_read, Frame::try_read_and_unsecure, FrameContent::try_read", "src/mac/frame/security/mod.rs: unsecure_frame", "src/mac/frame/header.rs: Header::try_read"]}
{"id": "C78", "title": "A network of nodes", "statement": "Any number of nodes, each with its own build, security context and device table, send and receive in any order; what they receive is arbitrary octets; and at any point a node's application may change its state (exchange the key lookup, raise the counter, add devices) or the node may stop and restart from stored state. Then (1) a node behaves as after what happened at it alone; (2) if the nodes' EUI-64s differ and no change or restart lowers a counter, no nonce is used twice in the whole network; (3) if the cipher is not forged (whatever verifies at a reception was put on the air by an earlier write under that key and nonce), every secured frame a node accepts has an origin: an earlier successful write by a node that bore the EUI-64 the receiver's key lookup gave, under the same key, with the same counter, level and payload; (4) if its device table is not set back, what a node accepts from one device has strictly increasing counters; (5) if moreover its key lookups tell devices apart by EUI-64, no write is accepted twice by it, and the frames of one sender are accepted in the order they were sent.", "quantifier": "every number of nodes, every schedule of writes, receptions, changes and restarts, every delivered octet string, every cipher satisfying the AEAD laws, hosts of mixed byte order and build profile", "why_tests_cant": "ranges over all interleavings and all adversarial deliveries; tests run a few exchanges", "anchors": ["src/mac/frame/mod.rs: Frame::try_write, Frame::try_read_and_unsecure", "src/mac/frame/security/mod.rs: secure_frame, unsecure_frame, SecurityContext"]}
{"id": "C79", "title": "Secured frames carry CCM as RFC 3610 defines it", "statement": "With CCM over any block cipher, the octets a secured data frame carries behind its header are those RFC 3610 defines (first block with flags, nonce and message length, zero-padded blocks, chained encryption, counter blocks, authentication value cut to 4, 8 or 16 octets) for the 13-octet nonce of sender address, counter and level: at the MIC levels the payload is the additional data and the message is empty, at the ENC-MIC levels the payload is the message and there is no additional data. A received frame that passes the other checks is accepted with a payload exactly when its octets are those for that payload.", "quantifier": "every block cipher, key, nonce, payload, frame and received octet string", "why_tests_cant": "test vectors fix one cipher and a few messages; the claim is about every cipher and length, including block boundaries", "anchors": ["src/mac/frame/security/mod.rs: secure_frame, unsecure_frame, calculate_nonce", "src/mac/frame/mod.rs: Frame::try_write, Frame::try_read_and_unsecure"]}
{"id": "C80", "title": "Field conversions and empty lists", "statement": "The public conversions between an octet and a field value are total and mean what they say: BeaconOrder and SuperframeOrder keep 0..14 and map everything beyond to on-demand / inactive (a constructed order beyond 14 therefore does not survive the way to an octet and back), CapabilityInformation is bits 1, 2, 3, 6, 7 and always survives, GuaranteedTimeSlotCharacteristics is the low six bits and survives exactly when its count is at most 15. CoordinatorRealignmentData on its own reads seven octets and takes an eighth as channel page if there is one. GuaranteedTimeSlotInformation::new and PendingAddress::new are empty, written as one octet zero, and are what an octet zero is read as; Header::has_security says whether an auxiliary security header is present.", "quantifier": "every octet, every field value, every octet string", "why_tests_cant": "256 octets times all field values (including those out of range) and octet strings of every length", "anchors": ["src/mac/beacon.rs: BeaconOrder, SuperframeOrder (From), GuaranteedTimeSlotInformation::new, PendingAddress::new", "src/mac/command.rs: CapabilityInformation, GuaranteedTimeSlotCharacteristics (From), CoordinatorRealignmentData (TryRead, TryWrite)", "src/mac/frame/header.rs: Header::has_security"]}
{"id": "C81", "title": "Nonces stay unique when writes are cut short", "statement": "If a write may stop at any point between two of its effects outside the buffer - reset with the security context in retained memory, or a caught panic of the application's key lookup or cipher - the counter in the context is moved on before the key is looked up and before the cipher is called, so over any history of writes and receptions, each cut short anywhere or not at all, whatever key lookup and cipher answer, the cipher is never called to encrypt twice under one nonce, the counter never goes back and advances by at most one per attempt. Run to its end the step-by-step program is the write.", "quantifier": "every frame, buffer, counter, every point at which a call stops, every answer of key lookup and cipher, every history of such attempts", "why_tests_cant": "crash points and histories of them; unit tests run every call to its end", "anchors": ["src/mac/frame/security/mod.rs: secure_frame, do_secure!", "src/mac/frame/mod.rs: Frame (TryWrite)"]}
{"id": "C82", "title": "Replay protection when receptions are cut short", "statement": "If a reception may stop at any such point: a secured frame reaches the caller only after key lookup, device lookup, tag check and the store of the frame's counter plus one in the device's descriptor, in this order and nothing after; a reception that stops before the store leaves every descriptor as it was, so later receptions (of the same frame too) go as if it had not happened; one that stops after it has changed that descriptor only. Over any history of writes and receptions cut short anywhere, no device's counter goes back and no secured frame is given to the caller twice - in builds with overflow checks always, without them unless a counter wrapped round. Run to its end the step-by-step program is the reception.", "quantifier": "every slice, device table, every point at which a call stops, every answer of key lookup and cipher, every history of such attempts", "why_tests_cant": "crash points and histories of them; unit tests run every call to its end", "anchors": ["src/mac/frame/security/mod.rs: unsecure_frame, do_unsecure!", "src/mac/frame/mod.rs: Frame::try_read_and_unsecure"]}
{"id": "C83", "title": "Length arithmetic never overflows", "statement": "On hosts of every pointer width, with and without overflow checks: for every payload a slice can hold, the frame size that securing compares with the PHY limit is computed exactly, so no payload makes it panic or pass the limit by wrapping round; get_octet_size of a header and an auxiliary header, and the lengths asked for by guaranteed-time-slot information and pending-address lists, are computed exactly; no reader or writer advances an offset past what usize holds.", "quantifier": "every pointer width, profile, frame, slice, offset and count octet", "why_tests_cant": "tests run on one host and with short slices; the claim concerns slices up to isize::MAX octets", "anchors": ["src/mac/frame/security/mod.rs: secure_frame", "src/mac/frame/header.rs: Header::get_octet_size", "src/mac/frame/security/auxiliary_security_header.rs: AuxiliarySecurityHeader::get_octet_size", "src/mac/beacon.rs: GuaranteedTimeSlotInformation (TryRead), PendingAddress (TryRead)", "src/mac/frame/mod.rs: Frame"]}
{"id": "C84", "title": "Reading from a growing slice", "statement": "For a caller that tries to read what has arrived so far: a header, auxiliary header, beacon or part of one that was read stays the same value when more octets are appended; a refusal other than Incomplete stays that refusal; a proper part of the octets of a value is Incomplete, never another value; and Incomplete goes away when enough octets come. The same holds of commands and of frames read without footer (whose payload grows by the octets appended), except that a coordinator realignment without channel page takes the next octet for its page, and loses the page when cut before it; any 133 octets settle a frame, and a frame cut short is Incomplete or the same frame with a shorter payload.", "quantifier": "every slice, every octets appended to it, every place to cut it", "why_tests_cant": "all slices and all their extensions and prefixes", "anchors": ["src/mac/frame/header.rs: Header (TryRead)", "src/mac/beacon.rs: Beacon (TryRead)", "src/mac/command.rs: Command (TryRead)", "src/mac/frame/mod.rs: Frame::try_read"]}
{"id": "C85", "title": "Secrecy of payloads on the air", "statement": "Take any number of sending devices with pairwise different addresses, and two versions of their histories of frame writes that are alike: same frames, buffers and modes except that payloads of frames at an ENC-MIC level may differ, at equal length. With the block cipher taken as any function (a random function), (a) the ciphers can be paired one to one so that with the partner of a cipher the second version puts on the air, up to the tags, the octets the first puts there with the cipher; (b) pairing the ciphers that are never given, while authenticating, a counter block of a frame sent among themselves, the same holds of all octets, tags included. So an observer of all devices who does not know the cipher learns nothing about encrypted payloads but their length, over any number of frames, failing writes and keys, also keys shared by devices.", "quantifier": "every set of devices with different addresses, every pair of alike histories of any length, every block cipher", "why_tests_cant": "all histories and all ciphers; secrecy compares two executions under a bijection of ciphers", "anchors": ["src/mac/frame/security/mod.rs: secure_frame", "src/mac/frame/security/mod.rs: calculate_nonce", "src/mac/frame/mod.rs: Frame (TryWrite)"]}
{"id": "C86", "title": "Forging a frame under an unspent nonce", "statement": "A slice that passes the receiver's checks under a key and nonce no sender has used is accepted only by luck: the cipher's value for that nonce's first counter block shows in nothing any sender has put on the air (so any other value fits what was seen), and the receiver accepts exactly those values that begin with one particular string of the tag's length: a fraction 2^-32, 2^-64 or 2^-128. Nonces of other addresses and of counters a sender has not reached are unspent. (Condition: that block is not met while authenticating.)", "quantifier": "every forged slice, receiver, device table, every set of senders and histories, every cipher and value of the cipher", "why_tests_cant": "all ciphers, histories and forged slices", "anchors": ["src/mac/frame/security/mod.rs: unsecure_frame", "src/mac/frame/security/mod.rs: secure_frame", "src/mac/frame/mod.rs: Frame::try_read_and_unsecure"]}
{"id": "C87", "title": "How much an observer can learn", "statement": "Draw the block cipher uniformly among all functions (keys out of any finite set). For any number of devices with different addresses and any histories of frame writes, q writes in all, and any second fleet that is alike (payloads of encrypted frames replaced by others equally long): whatever an observer of all octets on the air concludes, the chances that he concludes it differ by at most 324 q²/2^128; without the tags they are equal. The chance that the cipher is given a counter block of a frame while authenticating (the condition of C85) is at most 162 q²/2^128.", "quantifier": "every pair of alike fleets of any size, every history, every observer (any predicate of all that is on the air), every finite set of keys", "why_tests_cant": "all histories, observers and ciphers; a bound on a count over all ciphers", "anchors": ["src/mac/frame/security/mod.rs: secure_frame", "src/mac/frame/security/mod.rs: calculate_nonce", "src/mac/frame/mod.rs: Frame (TryWrite)"]}
{"id": "C88", "title": "The chance of a forgery", "statement": "Draw the block cipher uniformly among all functions. An attacker who sees all octets that any fleet of devices (different addresses, q frame writes in all) puts on the air makes up a slice of at most L octets, and chooses the receiver's state (its context, keys, device table and counters) as well. The chance that the receiver accepts the slice as a secured frame with a tag of M octets or more, though no device sent a frame with that key, level, address, counter and payload, is at most 2^(-8M) + 4(9q + (L+33)/16)²/2^128; for v slices at most v times that.", "quantifier": "every fleet, history, attacker (any function of all that is on the air), receiver state, slice length below 65280, number of attempts, every finite set of keys", "why_tests_cant": "all attackers, histories and ciphers; a bound on a count over all ciphers", "anchors": ["src/mac/frame/security/mod.rs: unsecure_frame", "src/mac/frame/security/mod.rs: secure_frame", "src/mac/frame/security/mod.rs: calculate_nonce", "src/mac/frame/mod.rs: Frame::try_read_and_unsecure"]}
{"id": "C89", "title": "The chance of a forgery against a receiver that answers", "statement": "As C88, but the attacker makes up each slice (and the receiver's state for it) in view also of everything that came out of the calls before: results, revealed payloads, errors, buffers, contexts and device tables. The chance that one of v slices is a forgery is at most v (2^-32 + 4(9q + (L+33)/16)²/2^128), and with 8M in place of 32 if all slices are at levels with tags of at least M octets.", "quantifier": "every fleet, history, attacker (any function of the air and of the answers so far), every number of slices, every finite set of keys", "why_tests_cant": "all interactive attackers and all ciphers; a bound on a count over all ciphers", "anchors": ["src/mac/frame/security/mod.rs: unsecure_frame", "src/mac/frame/security/mod.rs: secure_frame", "src/mac/frame/mod.rs: Frame::try_read_and_unsecure"]}
{"id": "C90", "title": "An authenticated channel, without assumption on forgeries", "statement": "A receiver with a device table gets v slices, all made up by an attacker who sees everything on the air and everything the receiver answers; the receiver's keys for a device go with that device's address. Then, but for a chance of at most v (2^-32 + 4(9q + (L+33)/16)²/2^128) over the block cipher, the counters and payloads it accepts from the device are a subsequence of those the device sent: nothing made up, nothing twice, nothing out of order. (C68 with the assumption that nothing is forged discharged.)", "quantifier": "every fleet, sender in it, history, receiver, device table, interactive attacker, number of slices", "why_tests_cant": "all interactive attackers, histories and ciphers", "anchors": ["src/mac/frame/security/mod.rs: unsecure_frame", "src/mac/frame/security/mod.rs: secure_frame", "src/mac/frame/mod.rs: Frame::try_read_and_unsecure"]}
{"id": "C91", "title": "The chance of a forgery when the attacker also chooses what is sent", "statement": "An attacker controls the network step by step: in view of everything that went over the air and everything the receivers answered up to then he chooses which device writes which frame next, or which slice is handed to which receiver (in whatever state). With at most q writes and at most v slices of at most L octets, the chance over the block cipher that a receiver ever accepts a secured frame whose key, level, address, counter and payload no device has sent up to that moment is at most v (2^-32 + 4(9q + (L+33)/16)²/2^128), and with 8M in place of 32 if all slices offered are at levels with tags of at least M octets.", "quantifier": "every set of devices with different addresses, every attacker (any function of the history), every number of steps, writes and slices, every finite set of keys", "why_tests_cant": "all adaptive attackers and all ciphers; a bound on a count over all ciphers", "anchors": ["src/mac/frame/security/mod.rs: unsecure_frame", "src/mac/frame/security/mod.rs: secure_frame", "src/mac/frame/mod.rs: Frame::try_read_and_unsecure", "src/mac/frame/mod.rs: Frame::try_write"]}
{"id": "C92", "title": "An authenticated channel in a network under the attacker's control", "statement": "As C91, with one receiver whose device table is handed from call to call and whose keys for a device go with that device's address; other receivers are arbitrary. But for a chance of at most v (2^-32 + 4(9q + (L+33)/16)²/2^128), at every step the counters and payloads delivered by the receiver as coming from the device are a subsequence of those the device has sent up to then: nothing made up, nothing before it was sent, nothing twice, nothing out of order.", "quantifier": "every set of devices, sender among them, receiver, device table, adaptive attacker, number of steps", "why_tests_cant": "all adaptive attackers, interleavings of writes and reads, and ciphers", "anchors": ["src/mac/frame/security/mod.rs: unsecure_frame", "src/mac/frame/security/mod.rs: secure_frame", "src/mac/frame/mod.rs: Frame::try_read_and_unsecure", "src/mac/frame/mod.rs: Frame::try_write"]}
{"id": "C93", "title": "An attacker in control of the network cannot tell which of two payloads was encrypted", "statement": "A tester chooses step by step which device writes next, giving two frames that differ at most in an encrypted payload of the same length, or which slice is handed to which receiver (in whatever state); the devices are always given the left, or always the right, frame. He gets everything that goes over the air and the receivers' answers except the revealed payload and the buffer. With at most q writes and v slices of at most L octets, the chance (over the block cipher) of whatever he concludes differs between left and right by at most (324q² + 2v(2^96 + 4(9q + (L+33)/16)²))/2^128, with 2^(128-8M) for 2^96 if all slices are at levels with tags of at least M octets, and by at most 324q²/2^128 if he offers nothing.", "quantifier": "every set of devices with different addresses, every adaptive tester, every conclusion, every number of steps, every finite set of keys", "why_tests_cant": "all adaptive testers and all ciphers; a bound on a difference of counts over all ciphers", "anchors": ["src/mac/frame/security/mod.rs: unsecure_frame", "src/mac/frame/security/mod.rs: secure_frame", "src/mac/frame/mod.rs: Frame::try_read_and_unsecure", "src/mac/frame/mod.rs: Frame::try_write"]}
{"id": "C94", "title": "The bounds against an attacker in control of the network hold for block ciphers that are permutations", "statement": "When the block cipher is drawn uniformly among those that are, under every key, a permutation of the blocks, an attacker who chooses step by step what the devices send and what the receivers get, with at most q writes and v slices of at most L octets, gets a slice accepted that nobody has sent up to then with a chance of at most 2v(2^96 + 4(9q + (L+33)/16)²)/(2^129 - s²), where s = 18q + 2v·((L+33)/16); so does a receiver ever deliver, as coming from a device, something other than a part in order and without repetition of what that device has sent. The chances of whatever a tester concludes differ between left and right payloads by at most (2(324q² + 2v(2^96 + 4(9q + (L+33)/16)²)) + s²)/(2^129 - s²). With tags of at least M octets throughout, 2^(128-8M) goes for 2^96.", "quantifier": "every set of devices with different addresses, every adaptive attacker and tester, every conclusion, every finite set of keys", "why_tests_cant": "all adaptive attackers and all permutations; a bound on counts over all permutations", "anchors": ["src/mac/frame/security/mod.rs: unsecure_frame", "src/mac/frame/security/mod.rs: secure_frame", "src/mac/frame/mod.rs: Frame::try_read_and_unsecure", "src/mac/frame/mod.rs: Frame::try_write"]}
{"id": "C95", "title": "In a whole network nothing goes wrong, but for the chance of a single forgery", "statement": "However many devices and receivers a network has, the chance that an attacker who chooses step by step what the devices send and what the receivers get, with at most q writes and v slices of at most L octets, ever gets a slice accepted that nobody has sent up to then, or that at any step what any receiver has delivered as coming from any device is not a part, in order and without repetition, of what that device has sent up to then, is at most v(2^96 + 4(9q + (L+33)/16)²)/2^128 altogether: it does not grow with the numbers of receivers and devices. Among permutations it is at most 2v(2^96 + 4(9q + (L+33)/16)²)/(2^129 - s²), where s = 18q + 2v·((L+33)/16).", "quantifier": "every set of devices with different addresses, every set of receivers with device tables, every adaptive attacker, every finite set of keys", "why_tests_cant": "all networks and all adaptive attackers; a bound on counts over all ciphers", "anchors": ["src/mac/frame/security/mod.rs: unsecure_frame", "src/mac/frame/security/mod.rs: secure_frame", "src/mac/frame/mod.rs: Frame::try_read_and_unsecure", "src/mac/frame/mod.rs: Frame::try_write"]}
{"id": "C96", "title": "What a call that is cut short leaves in the caller's buffer", "statement": "When a write is cut short before its end - by a panic in the key lookup or the cipher that is caught, or a reset - the buffer holds header, content and the payload in clear and behind them what was there before; the cipher is handed the payload to authenticate only, or to encrypt in place, as the level says, so a cut in the cipher changes nothing outside the payload's place. When a reception is cut short, the buffer holds every octet as received up to the decryption; the cipher is handed what is between header and tag, to authenticate only or to decrypt in place, and the tag; between decryption and store of the counter all other octets are as received, and all octets at levels without encryption, and the buffer is the one the call will leave. A reception cut short before the decryption can be done again from the buffer: it and all after it show what they would have shown.", "quantifier": "all frames, buffers, slices, contexts, device tables, answers of key lookup and cipher, and every effect outside the buffer at which a call can stop", "why_tests_cant": "a panic or reset can come at every effect, with every answer of the lookups and the cipher before it", "anchors": ["src/mac/frame/security/mod.rs: unsecure_frame", "src/mac/frame/security/mod.rs: secure_frame", "src/mac/frame/security/mod.rs: KeyLookup", "src/mac/frame/security/mod.rs: DeviceDescriptorLookup", "src/mac/frame/mod.rs: Frame::try_read_and_unsecure", "src/mac/frame/mod.rs: Frame::try_write"]}
{"id": "C97", "title": "Exactly which errors each call can return", "statement": "For each of reading a header, a command, a beacon, an auxiliary security header, a frame, a secured frame, writing a frame without and with a security context, the errors that some input causes are exactly those of a list, on every host and in every build profile: header - Incomplete, InvalidFrameVersion, InvalidFrameType, InvalidAddressMode; command - Incomplete, InvalidValue; beacon and auxiliary header - Incomplete; try_read - these and SecurityEnabled; try_read_and_unsecure - these of header and content, InvalidSecContext, NotImplemented, UnsupportedLegacy, UnsupportedSecurity, UnavailableKey, NoSourceAddress, UnavailableDevice, CounterError, TransformationError; try_write without context - Incomplete, DisallowedPanIdCompress, MissingSecurityCtx; with context - Incomplete, DisallowedPanIdCompress, NotImplemented, FrameTooLong, CounterError, UnavailableKey, and TransformationError only over a cipher other than CCM. All other errors the crate declares never come.", "quantifier": "all inputs, contexts, lookups, block ciphers, hosts and build profiles; for each error of a list some input that causes it", "why_tests_cant": "that an error never comes is a claim about every input and every context", "anchors": ["src/mac/frame/mod.rs: Frame::try_read", "src/mac/frame/mod.rs: Frame::try_read_and_unsecure", "src/mac/frame/mod.rs: Frame::try_write", "src/mac/frame/mod.rs: DecodeError", "src/mac/frame/header.rs: Header::try_read", "src/mac/command.rs: Command::try_read", "src/mac/beacon.rs: Beacon::try_read", "src/mac/frame/security/auxiliary_security_header.rs: AuxiliarySecurityHeader::try_read", "src/mac/frame/security/mod.rs: SecurityError"]}
{"id": "C98", "title": "Hashing tells values apart exactly as equality does", "statement": "What a frame, header, address, beacon, command, error or any of their parts feeds to a hasher (derived Hash) is a sequence of octets that tells it from every other value of its type and that is not the beginning of another's: hashing two values, followed by whatever else, is the same to the hasher exactly when the values are equal and what follows is the same. So no field is left out, equal values hash equally, and two values are equal exactly when no hasher whatsoever tells them apart. Beacons feed also the unused entries of their arrays, but two beacons obtained from the API feed the same exactly when their accessors show the same. Hash32 of PAN identifiers, short and extended addresses tells them apart likewise.", "quantifier": "all values of each type (frames: content from the public API, payload as long as a slice can be), all hosts, all hashers and states of them, whatever is hashed afterwards", "why_tests_cant": "that no two different values feed the same octets is a claim about all pairs of values", "anchors": ["src/mac/frame/header.rs: Address, PanId, ShortAddress, ExtendedAddress, Header (derive Hash, Hash32)", "src/mac/frame/mod.rs: Frame, FrameContent, DecodeError, EncodeError (derive Hash)", "src/mac/beacon.rs: Beacon and parts (derive Hash)", "src/mac/command.rs: Command and parts (derive Hash)", "src/mac/frame/security/auxiliary_security_header.rs: AuxiliarySecurityHeader, KeyIdentifier, KeySource (derive Hash)", "src/utils.rs: extended_enum!"]}
{"id": "C99", "title": "Addresses stored with serde", "statement": "With the feature serde: an address, PAN identifier, short or extended address comes out of what a format shows exactly when the format shows that value - integers in range, wrapped as a newtype structure or first in a sequence, the variant by index, name or octets of the name, the two fields in order. So with every format that keeps what it is given a stored value is loaded as the same value, also if the format compares the names and widths it stored with those it is asked for and refuses others (which tells the four types apart); different addresses are stored differently, and nothing out of range, of another variant or with too few fields is taken for an address.", "quantifier": "all addresses, PAN identifiers, short and extended addresses, all formats, everything a format can show", "why_tests_cant": "it ranges over all formats, known or not, and everything they can show", "anchors": ["src/mac/frame/header.rs: PanId, ShortAddress, ExtendedAddress, Address (derive serde::Serialize, serde::Deserialize)"]}
{"id": "C100", "title": "What a call asks of the application", "statement": "Whatever the lookups and the cipher answer, and wherever a call is cut short: a write with a security context says nothing to the application, or - only for a data frame with an auxiliary header of a level other than None and a counter not used up - stores the next counter, then asks for the key of the frame's key identifier and destination, then has the payload (all of it encrypted, or all of it only authenticated, as the level says) encrypted under that key with the nonce of the old counter; a reception says nothing, or asks for the key of the frame's key identifier and source, then for that source's device, then - only with a counter not below the device's and not used up - has what is between header and tag checked under that key with the nonce of the key's owner and the frame's counter, then - only if the tag is right - stores the next counter. In this order, each at most once, nothing else; and success with a secured frame means that all of it was said.", "quantifier": "all frames, contexts, configurations, octets received, answers of lookups and cipher, cut points", "why_tests_cant": "it ranges over all answers (also of lookups with a memory, or random) and all points at which a call can end", "anchors": ["src/mac/frame/security/mod.rs: secure_frame, unsecure_frame, do_secure!, do_unsecure!", "src/mac/frame/mod.rs: Frame::try_write, Frame::try_read_and_unsecure"]}
{"id": "C101", "title": "Applications with a memory of their own", "statement": "Whatever key lookup, device lookup and cipher answer during a call - also if they answer the same question differently from one time to the next - the call ends as it does with some lookups and some cipher that always give the answers given: a write with the same result, the same octets and the same counter, a reception with the same result, the same octets and the same device descriptor stored. So what holds of single calls for all lookups and ciphers holds of calls into any application, also one whose lookup has interior mutability.", "quantifier": "all frames, contexts, configurations, octets received, all sequences of answers of lookups and cipher (of the lengths Rust's types give them)", "why_tests_cant": "a test uses one application; this is about every sequence of answers", "anchors": ["src/mac/frame/security/mod.rs: secure_frame, unsecure_frame, KeyDescriptorLookup, DeviceDescriptorLookup", "src/mac/frame/mod.rs: try_write, try_read_and_unsecure"]}
{"id": "C102", "title": "Writes cut short in the middle of a store", "statement": "Wherever the write of a frame is cut short - between two effects, in the middle of copying a field, the payload or the tag, or while the cipher works on the buffer - one of two things is found. Either the context's counter has not moved, and the buffer holds a first part of the frame's octets in the clear and behind it what was there before, with in between at most one field of up to eight octets or the payload, each octet of which is the old or the new one. Or the frame is a secured data frame written without a footer, the counter has moved by exactly one, the header is in place, the payload too unless it is to be encrypted, and nothing has changed behind the place of the tag. So whenever any octet of the buffer is neither an old one nor one of the frame in the clear, the counter has already moved. Without a security context the first is what is found. The other writers (headers, addresses, beacons, commands and their parts) leave a first part of their encoding and at most one field of up to eight octets torn. Carried out to the end these stores are the writes of the other properties.", "quantifier": "all frames with content built through the API, contexts, configurations, buffers, points of interruption, orders of copying within a store, answers of key lookup and cipher", "why_tests_cant": "a test sees the buffer after the call, not at every instant of it", "anchors": ["src/mac/frame/mod.rs: try_write", "src/mac/frame/security/mod.rs: secure_frame, do_secure!", "src/mac/frame/header.rs: try_write", "src/mac/beacon.rs: try_write", "src/mac/command.rs: try_write", "src/mac/frame/security/auxiliary_security_header.rs: try_write"]}
{"id": "C103", "title": "Everything at once", "statement": "Take the life of a node whose calls may each be cut short between any two of their effects, whose key lookup and cipher may answer anything, whose key lookup may change the device table while it is being asked, and whose application sets the address and the counter of its security context and changes its device table between calls as it likes. Of two secured frames of one device given to the caller, the second still has the greater counter, as long as no change in between (during a call or not) brings the device's counter to or below the first frame's by lowering it or by forgetting the device and taking it up again, and no counter wraps round - which with overflow checks none does. The cipher is still never called to encrypt under the same nonce twice, as long as each change in between after which the context has the address of the first nonce does not lower that address's counter or sets it above that nonce's. A reception during which the table is changed goes as the reception after the changes, a write as the write without them. Ordinary calls are such lives, and one life may follow another.", "quantifier": "all configurations, device tables, contexts, calls, points of interruption, answers, changes by the application and by the key lookup, and lengths of life", "why_tests_cant": "tests exercise one disturbance at a time; the combinations and orders are unbounded", "anchors": ["src/mac/frame/mod.rs: try_write, try_read_and_unsecure", "src/mac/frame/security/mod.rs: secure_frame, unsecure_frame, KeyDescriptorLookup, DeviceDescriptorLookup, SecurityContext"]}
{"id": "C104", "title": "Networks with a real block cipher", "statement": "Writing and reading depend on keys only through what the cipher does with them. So what happens in a network of devices that hold keys of a real block cipher (AES-128, say), under an adaptive attacker who makes at most q writes happen and offers at most v slices of at most a given length, is a computation that asks for at most 18q + 2v((limit+33)/16) encryptions of single blocks. If the keys are drawn independently and uniformly, the chance that a slice is accepted as a frame never sent, or that some receiver delivers anything other than a part, in order and without repetition, of what a device sent, is at most the bound of C95 plus the advantage of that computation in telling the block cipher from random functions (or, with the bound for permutations, from random permutations). Likewise the chances of anything a tester can see when one or the other of two payloads of his choice is always sent differ by at most the bound of C93 or C94 plus twice such an advantage. No assumption is made about the cipher: its strength enters as that advantage only.", "quantifier": "all block ciphers with finitely many keys, networks, attackers, testers, receivers and limits", "why_tests_cant": "statements about the chance over all keys and all strategies; no test can draw them all", "anchors": ["src/mac/frame/mod.rs: try_write, try_read_and_unsecure", "src/mac/frame/security/mod.rs: secure_frame, unsecure_frame, KeyDescriptorLookup, SecurityContext", "src/mac/frame/security/mod.rs: do_secure, do_unsecure"]}
{"id": "C105", "title": "Lost keys do not endanger the others", "statement": "Let some of the keys of a network be lost: an adaptive attacker knows, or has even chosen, all that the cipher does under them, while under the other (held) keys it is drawn at random. Whatever devices and receivers do with the lost keys (devices may write under them, receivers accept frames made up under them, and one device or receiver may use both kinds), the chance that a slice is ever accepted under a held key as a frame never sent, or that a receiver delivers, as coming from a device for which it has only held keys, anything other than a part, in order and without repetition, of what that device sent, is at most the bound of C95, as if no key had been lost; likewise with permutations; and for a real block cipher with any values of the lost keys and random held ones, plus the advantage of C104's kind. Likewise, what a tester who knows the lost keys sees depends on which of two payloads of the same length, written under held keys, were sent by no more than the bounds of C93 and C94 (and for a real cipher those plus the two advantages of C104), as long as his two frames are the same wherever a device writes under a lost key.", "quantifier": "all networks, attackers, receivers, limits, sets of lost keys, and behaviours of the cipher under them", "why_tests_cant": "a statement about the chance over all keys and all strategies of an attacker who holds some of the keys; no test can draw them all", "anchors": ["src/mac/frame/mod.rs: try_write, try_read_and_unsecure", "src/mac/frame/security/mod.rs: secure_frame, unsecure_frame, KeyDescriptorLookup, DeviceDescriptorLookup, SecurityContext"]}
{"id": "C106", "title": "Guessing tags: no minimum level, no limit to attempts, and C91's bound is reached", "statement": "A receiver takes secured frames at every level with a tag, also at levels none of the devices ever uses, and a frame whose tag is wrong leaves its device table as it is. So an attacker who knows only the octets of a head the receiver has a key, a device and a low enough counter for, and who offers that head with one tag after the other (different tags of the right length), has an empty payload that was never sent accepted with a chance of exactly the number of tags tried over 256 to the tag's length, over a cipher drawn at random; at a level that does not encrypt he has any payload of his choice accepted with that chance, less a share of at most 2((n+33)/16)^2 in 2^128 of it for a payload of n octets; at a level that encrypts he has, with the same chance, some payload accepted for any octets in its place; and with all tags he succeeds for every cipher and key. He is within the limits of C91 (nothing written, one slice read per tag), so with tags of four octets the bound of C91 cannot be improved beyond its second term. The condition that the frame was never sent holds for every level at which no device writes, for addresses no device has and for counters not reached.", "quantifier": "all receivers with a device table, heads passing the checks, devices and what they have sent, payloads (below 65280 octets for the chance), lists of tags, ciphers", "why_tests_cant": "an exact count over all ciphers and all lists of tags; a test tries a few tags under a few keys", "anchors": ["src/mac/frame/mod.rs: try_read_and_unsecure", "src/mac/frame/security/mod.rs: unsecure_frame, SecurityContext, DeviceDescriptorLookup"]}
{"id": "C107", "title": "An attacker in control of the network cannot shut a device out", "statement": "In the networks of C95 (an attacker chooses step by step what the devices send and what the receivers get), take a receiver that knows a device at first with a counter not above the one the device starts with, both on little-endian hosts. Whenever the attacker hands that receiver a packet of the device as it was sent (a secured data frame of version 2006 or later, level with a tag, for which the receiver has the sender's key and EUI-64), the receiver delivers its payload, unless it has already delivered something the device sent with the same or a later call, and then it answers CounterError: whatever else the attacker had devices send or receivers get before, he cannot push a receiver's counter past what the device has sent. The chance that this ever fails for any receiver, device, packet and step is at most the chance of a single forgery, v(2^96 + 4(9q + (L+33)/16)^2)/2^128; and it never fails, whatever the cipher, as long as what receivers have delivered is part of what was sent. If the attacker can add what he likes but cannot hold back what a device sends to a receiver (each packet reaches it in the next step), then but for the same chance the receiver has, whenever no packet is on its way, delivered all the device has sent, in order, and nothing else. The same among permutations, with C95's bound, and in networks with any real block cipher and independent random keys, with C104's bounds. (A reception that panics, C43, counts as an answer here: the application is taken to go on.)", "quantifier": "every set of devices with different addresses, every set of receivers with device tables, every adaptive attacker, every step, every packet", "why_tests_cant": "a count over all ciphers for every adaptive attacker and every schedule; a test delivers a few frames", "anchors": ["src/mac/frame/mod.rs: try_read_and_unsecure, Frame::try_write", "src/mac/frame/security/mod.rs: unsecure_frame, secure_frame, DeviceDescriptorLookup"]}
{"id": "C108", "title": "What is logged of a value tells which value it was", "statement": "What {:?} prints of a frame, header, address, beacon, command, error or any of their parts (derived Debug) tells it from every other value of its type, wherever it stands in a log: if what is printed after it does not run on a name or number (it starts with anything but a letter, digit or underscore, or there is nothing), two printed values with what follows are the same text exactly when the values are equal and what follows is the same. No field is left out, not even the unused entries of a beacon's arrays. So a log with a value on each line tells which values were logged, how many and in which order, and assert_eq! never fails with two sides that look the same. Whatever octets came off the air, what is printed of them is printable ASCII: no line break or control character gets into a log; SecurityError may carry a byte::Error with a message from outside the crate, which is quoted and escaped, so it cannot be taken for anything else, and is printable if the message is.", "quantifier": "every two values of every public type that derives Debug, every text after them, every log of any length", "why_tests_cant": "all pairs of values of types with up to 2^100s of values and payloads of any length; a test compares a few printed values", "anchors": ["src/mac/frame/mod.rs: Frame, FrameContent, DecodeError, EncodeError (derive Debug)", "src/mac/frame/header.rs: Header, Address, PanId, ShortAddress, ExtendedAddress (derive Debug)", "src/mac/beacon.rs, src/mac/command.rs, src/utils.rs: derive Debug", "src/mac/frame/security/mod.rs: SecurityError (derive Debug)", "src/mac/frame/security/auxiliary_security_header.rs, security_control.rs: derive Debug"]}
