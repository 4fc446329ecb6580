{"id": "C01", "title": "Escaping is undone exactly by unescaping", "statement": "For every packet, stripping the delimiters and un-escaping the frame produced by escaping gives back the same packet byte for byte.", "quantifier": "all byte strings of any length", "why_tests_cant": "The claim ranges over all byte strings, including every adjacency of 0x7d/0x7e/0x01/0x02; a test suite samples a handful.", "anchors": ["internal/protocol/packet_codec.go:escape", "internal/protocol/packet_codec.go:unescape"]}
{"id": "C02", "title": "Frames are self-delimiting", "statement": "Every frame the codec emits starts and ends with 0x7e and has no 0x7e in between, and reading from a connection whose stream starts with that frame returns exactly that frame and leaves exactly the bytes after it unread.", "quantifier": "all packets and all following stream contents", "why_tests_cant": "Needs every packet content and every continuation of the stream.", "anchors": ["internal/protocol/packet_codec.go:escape", "internal/protocol/packet_codec.go:Encode", "internal/protocol/frame_handler.go:Recv"]}
{"id": "C03", "title": "A stream of frames is cut into exactly those frames", "statement": "If a connection carries any number of frames, each preceded by any noise free of 0x7e, successive reads return exactly those frames in order and then the end-of-stream error.", "quantifier": "all lists of frames, all noise between them", "why_tests_cant": "Unbounded number of frames and arbitrary noise.", "anchors": ["internal/protocol/frame_handler.go:Recv"]}
{"id": "C04", "title": "Frame boundaries do not depend on how the transport splits the bytes", "statement": "For the same byte sequence, the frames returned and the position left in the stream are the same however the bytes are split over reads of the connection.", "quantifier": "all byte sequences and all splittings into chunks", "why_tests_cant": "All partitions of all streams; tests use one bytes.Reader.", "anchors": ["internal/protocol/frame_handler.go:Recv", "internal/protocol/frame_handler.go:NewJT808FrameHandler"]}
{"id": "C05", "title": "No partial frame is ever delivered", "statement": "A read returns a frame only after both delimiters arrived, the frame is a contiguous piece of the stream with no 0x7e inside, only 0x7e-free noise before it is skipped, and a stream that ends first gives an error and no frame.", "quantifier": "all streams", "why_tests_cant": "Every possible truncation point of every stream.", "anchors": ["internal/protocol/frame_handler.go:Recv"]}
{"id": "C06", "title": "A stray delimiter costs at most one frame", "statement": "After one stray 0x7e byte in front of back-to-back frames, the reader recovers: later frames are still delivered.", "quantifier": "all lists of frames following the stray byte", "why_tests_cant": "Needs all continuations of the stream, of any length.", "anchors": ["internal/protocol/frame_handler.go:Recv"]}
{"id": "C07", "title": "Sending writes the whole payload, in order, exactly once", "statement": "Whatever lengths the connection accepts per write, a successful send has put exactly the payload on the wire; a failed one has put a prefix of it.", "quantifier": "all payloads and all sequences of short writes and write errors", "why_tests_cant": "All write-length schedules.", "anchors": ["internal/protocol/frame_handler.go:Send"]}
{"id": "C08", "title": "The checksum catches every single-byte corruption", "statement": "A frame is decoded only if the XOR of all its unescaped bytes, checksum included, is zero; changing any one byte of an intact packet to any other value makes decoding fail with the verify error.", "quantifier": "all packets, all positions, all replacement values", "why_tests_cant": "All packets and positions.", "anchors": ["internal/protocol/packet_codec.go:verify", "internal/protocol/packet_codec.go:genVerifier", "internal/protocol/packet_codec.go:Decode"]}
{"id": "C09", "title": "Decoding a frame we encoded gives back the header and the body", "statement": "For every outgoing message, the frame the codec produces decodes without error to the same header (with the body length filled in) and the same body bytes.", "quantifier": "all headers with well-formed phone numbers, all bodies up to 1023 bytes", "why_tests_cant": "All headers and bodies.", "anchors": ["internal/protocol/packet_codec.go:Encode", "internal/protocol/packet_codec.go:Decode", "internal/protocol/model/msg.go:writeHeader"]}
{"id": "C10", "title": "The decoded packet reports the frame's checksum", "statement": "The checksum field of a decoded packet is the checksum byte of the received frame.", "quantifier": "all accepted frames", "why_tests_cant": "The single test case pins the wrong constant; the claim is over all frames.", "anchors": ["internal/protocol/packet_codec.go:Decode", "internal/protocol/model/session.go:PacketData.VerifyCode"]}
{"id": "C11", "title": "Integer fields round-trip and move the cursor by their width", "statement": "Reading back a BYTE, WORD, DWORD, BYTE[n] or string that was appended returns the same value from any position and advances the cursor by exactly the encoded width.", "quantifier": "all values, all surrounding bytes, all cursor positions", "why_tests_cant": "All 2^8/2^16/2^32 values in all contexts.", "anchors": ["internal/codec/hex/hex.go:ReadWord", "internal/codec/hex/hex.go:WriteWord", "internal/codec/hex/hex.go:ReadDoubleWord", "internal/codec/hex/hex.go:WriteDoubleWord", "internal/codec/hex/hex.go:ReadByte", "internal/codec/hex/hex.go:ReadBytes"]}
{"id": "C12", "title": "BCD numbers survive a write and a read", "statement": "Writing any decimal number string as BCD and reading it back yields the same string.", "quantifier": "all digit strings of any length", "why_tests_cant": "All lengths and digits; padding and odd-length cases are only visible in general.", "anchors": ["internal/codec/hex/hex.go:numberStr2BCD", "internal/codec/hex/hex.go:bcd2NumberStr", "internal/codec/hex/hex.go:ReadBCD", "internal/codec/hex/hex.go:WriteBCD"]}
{"id": "C13", "title": "Protocol timestamps round-trip", "statement": "A timestamp with second precision in the two-digit-year window, written in protocol format and read back, is the same instant; anything that is not twelve digits forming a calendar date is replaced by the current time.", "quantifier": "all calendar dates and times in the window; all six-byte inputs", "why_tests_cant": "All dates including leap years and all malformed inputs.", "anchors": ["internal/codec/hex/hex.go:ParseTime", "internal/codec/hex/hex.go:FormatTime", "internal/codec/hex/hex.go:ReadTime", "internal/codec/hex/hex.go:WriteTime"]}
{"id": "C14", "title": "The 16-bit body attribute word is decoded and re-encoded without loss", "statement": "For every 16-bit attribute word, decoding extracts length (bits 0-9), encryption (10-12), fragmentation (13), version (14) and reserved (15), and encoding the result gives the same word.", "quantifier": "all 65536 attribute words", "why_tests_cant": "Whole-domain claim tied to an independent bit-level specification.", "anchors": ["internal/protocol/model/header.go:MsgBodyAttr.Decode", "internal/protocol/model/header.go:MsgBodyAttr.Encode"]}
{"id": "C15", "title": "Headers round-trip for both header layouts", "statement": "For every header of the 2013 or 2019 layout, with or without the fragment item, decoding its encoding returns the same header and its exact length.", "quantifier": "all message ids, attribute words, phone numbers, serial numbers, fragment items", "why_tests_cant": "All field combinations.", "anchors": ["internal/protocol/model/header.go:MsgHeader.Decode", "internal/protocol/model/header.go:MsgHeader.Encode", "internal/protocol/model/header.go:MsgFragmentation"]}
{"id": "C16", "title": "A truncated header is never accepted", "statement": "A frame whose packet is shorter than its header layout requires never yields a decoded packet.", "quantifier": "all packets shorter than their declared header layout, all buffer capacities", "why_tests_cant": "Depends on Go slice capacity, which tests do not vary.", "anchors": ["internal/protocol/packet_codec.go:Decode", "internal/protocol/model/header.go:MsgHeader.Decode", "internal/codec/hex/hex.go:ReadWord"]}
{"id": "C17", "title": "A truncated body is never accepted", "statement": "A message whose body is shorter than its fixed layout is rejected; no field of the decoded message comes from bytes outside the body.", "quantifier": "all message types, all truncated bodies, all buffer capacities", "why_tests_cant": "Slice expressions are bounded by capacity, not length, so acceptance depends on allocator growth.", "anchors": ["internal/codec/hex/hex.go:ReadDoubleWord", "internal/codec/hex/hex.go:ReadBCD", "internal/protocol/model/msg_0200.go:Decode"]}
{"id": "C18", "title": "The body-length field is the body length", "statement": "Every encoded message carries its exact body length in the low ten bits of the attribute word and leaves the other attribute bits as set.", "quantifier": "all messages, all body lengths", "why_tests_cant": "Overflow into neighbouring bits only shows for long bodies.", "anchors": ["internal/protocol/model/msg.go:writeHeader", "internal/protocol/model/header.go:MsgBodyAttr.Encode"]}
{"id": "C19", "title": "Fixed-layout messages round-trip", "statement": "For each message type with a fixed layout, decoding the encoded body returns the same field values.", "quantifier": "all field values of 0001, 8001, 0200, 8100, 0102, 8004, 9205, 1205 and the empty messages", "why_tests_cant": "All field values.", "anchors": ["internal/protocol/model/msg_0001.go", "internal/protocol/model/msg_8001.go", "internal/protocol/model/msg_0200.go", "internal/protocol/model/msg_8100.go", "internal/protocol/model/msg_0102.go", "internal/protocol/model/msg_8004.go", "internal/protocol/model/msg_9205.go", "internal/protocol/model/msg_1205.go", "internal/protocol/model/device_media.go"]}
{"id": "C20", "title": "Registration messages round-trip in all three protocol versions", "statement": "Decoding an encoded registration of the 2011, 2013 or 2019 layout returns the same manufacturer, model, id, colour and plate.", "quantifier": "all field values within the layout's widths, all plate lengths", "why_tests_cant": "The 2011/2013 layouts are told apart by a length threshold; only a general proof covers the boundary.", "anchors": ["internal/protocol/model/msg_0100.go:Decode", "internal/protocol/model/msg_0100.go:Encode"]}
{"id": "C21", "title": "Location status bits are decoded to the documented fields", "statement": "Each field decoded from the 32-bit status word equals the bit or bits the protocol assigns to it.", "quantifier": "all 2^32 status words", "why_tests_cant": "2^32 inputs.", "anchors": ["internal/protocol/model/device.go:GeoMeta.Decode"]}
{"id": "C22", "title": "Location status encoding is the inverse of decoding", "statement": "Encoding decoded location status reproduces the status word's assigned bits.", "quantifier": "all status words / all status records with in-range fields", "why_tests_cant": "2^23 combinations.", "anchors": ["internal/protocol/model/device.go:GeoMeta.Encode", "internal/protocol/model/device.go:GeoMeta.Decode"]}
{"id": "C23", "title": "Each terminal parameter value round-trips", "statement": "For every supported parameter id and every value of its type, decoding the encoded item returns the same id and value and consumes exactly the item.", "quantifier": "all supported parameter ids, all values", "why_tests_cant": "All ids and values, including length-byte wrap.", "anchors": ["internal/protocol/model/device_params.go:ParamData.Decode", "internal/protocol/model/device_params.go:ParamData.Encode", "internal/protocol/model/device_params.go:argTable"]}
{"id": "C24", "title": "Terminal parameter lists round-trip", "statement": "Decoding an encoded parameter list returns the same list, and the count byte matches the items present.", "quantifier": "all lists of supported parameters, and lists containing unsupported ids", "why_tests_cant": "All list lengths and contents.", "anchors": ["internal/protocol/model/device_params.go:DeviceParams.Decode", "internal/protocol/model/device_params.go:DeviceParams.Encode", "internal/protocol/model/msg_8103.go", "internal/protocol/model/msg_0104.go"]}
{"id": "C25", "title": "Updating parameters overwrites by id and keeps the rest", "statement": "After an update every id present before holds the last new value given for it or else its old value, ids are unique and ascending, and the count equals the number of items.", "quantifier": "all parameter lists and all updates", "why_tests_cant": "All lists, duplicates included; map iteration order must not matter.", "anchors": ["internal/protocol/model/device_params.go:DeviceParams.Update"]}
{"id": "C26", "title": "A parameter that was set is the one later reported", "statement": "After a set-parameters message for a terminal is acknowledged, a query returns for each id set the value set.", "quantifier": "all stored parameter sets and all set messages", "why_tests_cant": "All histories of set messages.", "anchors": ["internal/protocol/msg_processor.go:processMsg8103", "internal/protocol/msg_processor.go:processMsg8104", "internal/protocol/model/device_params.go:DeviceParams.Update", "internal/storage/param_cache.go"]}
{"id": "C27", "title": "Unknown message ids are ignored", "statement": "A packet with an unsupported message id changes no stored state, produces no reply and leaves the connection open.", "quantifier": "all unfragmented packets with any unsupported id, all states", "why_tests_cant": "All ids and states.", "anchors": ["internal/protocol/msg_processor.go:Process", "internal/server/tcp_server.go:serve"]}
{"id": "C28", "title": "Corrupt frames are ignored", "statement": "A frame that fails the checksum changes no stored state, produces no reply, and leaves the connection open for the next frame.", "quantifier": "all frames with a wrong checksum, all states", "why_tests_cant": "All frames and states.", "anchors": ["internal/protocol/packet_codec.go:Decode", "internal/protocol/pipeline.go:ProcessConnRead", "internal/server/tcp_server.go:serve"]}
{"id": "C29", "title": "Every reply answers the request that caused it", "statement": "A reply frame carries the request's phone number, protocol version and serial number as answer serial (and its message id for general replies), with the reply id that the protocol prescribes.", "quantifier": "all requests and all server states", "why_tests_cant": "All requests and states, at the byte level.", "anchors": ["internal/protocol/model/msg_8001.go:GenOutgoing", "internal/protocol/model/msg_8100.go:GenOutgoing", "internal/protocol/model/msg_0001.go:GenOutgoing", "internal/protocol/model/msg_0104.go:GenOutgoing", "internal/protocol/model/msg_1205.go:GenOutgoing", "internal/protocol/msg_processor.go:Process"]}
{"id": "C30", "title": "At most one reply per frame, none on failure", "statement": "Handling one received frame sends at most one frame, and sends none when decoding, processing or encoding fails or panics.", "quantifier": "all frames, all states", "why_tests_cant": "All inputs.", "anchors": ["internal/protocol/pipeline.go:callWithBlocking", "internal/protocol/pipeline.go:ProcessConnRead"]}
{"id": "C31", "title": "Registered plates and phones are unique and the two indexes agree", "statement": "After any history of handled messages and keepalive checks, the plate index and the phone index hold the same devices, each under its own plate and phone, so no two registered devices share a plate or a phone.", "quantifier": "all histories in which handlers run one at a time", "why_tests_cant": "Unbounded histories.", "anchors": ["internal/storage/device_cache.go", "internal/protocol/msg_processor.go:processMsg0100", "internal/protocol/msg_processor.go:processMsg0003", "internal/protocol/keepalive.go:checkDeviceKeepalive"]}
{"id": "C32", "title": "Registration is refused exactly when plate or phone is taken, and refusal changes nothing", "statement": "A registration is answered with result 1 if the plate is registered, else 3 if the phone is, else 0 with the device stored offline; a refusal leaves every stored device untouched.", "quantifier": "all states and all registration messages", "why_tests_cant": "All states.", "anchors": ["internal/protocol/msg_processor.go:processMsg0100", "internal/storage/device_cache.go"]}
{"id": "C33", "title": "Registration stays unique under concurrent connections", "statement": "Two registrations handled concurrently never both succeed for the same plate.", "quantifier": "all interleavings of two registration handlers", "why_tests_cant": "Race: needs a particular schedule.", "anchors": ["internal/protocol/msg_processor.go:processMsg0100", "internal/storage/device_cache.go:HasPlate", "internal/storage/device_cache.go:CacheDevice"]}
{"id": "C34", "title": "Authentication succeeds exactly with the code issued at registration", "statement": "An authentication is answered with success and turns the device online iff its code is the one the server's registration reply carried for that device, after any history.", "quantifier": "all histories, all authentication messages", "why_tests_cant": "Unbounded histories between registration and authentication.", "anchors": ["internal/protocol/msg_processor.go:processMsg0102", "internal/protocol/msg_processor.go:genAuthCode", "internal/protocol/msg_processor.go:processMsg0100"]}
{"id": "C35", "title": "A failed authentication cannot disturb a registered terminal of another connection", "statement": "An authentication message with a wrong code, sent on a connection other than the one that registered the phone, leaves the registered terminal in place.", "quantifier": "all states and all authentication messages", "why_tests_cant": "All states and senders.", "anchors": ["internal/protocol/msg_processor.go:processMsg0102"]}
{"id": "C36", "title": "A terminal is online or sleeping only after a successful authentication", "statement": "After any history, a device whose status is not offline has authenticated successfully since it was registered.", "quantifier": "all histories of handled messages and keepalive checks", "why_tests_cant": "Unbounded histories over all message kinds.", "anchors": ["internal/protocol/msg_processor.go:processMsg0102", "internal/protocol/msg_processor.go:processMsg8001", "internal/protocol/msg_processor.go:processMsg0200"]}
{"id": "C37", "title": "Deregistration erases the terminal", "statement": "After a deregistration the phone and plate are free, its keepalive job is gone, and none of its data, including its last location, is served afterwards.", "quantifier": "all states, all later registrations", "why_tests_cant": "All states and continuations.", "anchors": ["internal/protocol/msg_processor.go:processMsg0003", "internal/storage/geo_cache.go:DelGeoByPhone", "internal/storage/device_cache.go:DelDeviceByPhone"]}
{"id": "C38", "title": "Messages for unregistered phones are refused and close the connection", "statement": "Heartbeat, deregistration, authentication and location messages whose phone is not registered change nothing, get no reply and close the connection.", "quantifier": "all states without that phone, all such messages", "why_tests_cant": "All states.", "anchors": ["internal/protocol/msg_processor.go:processMsg0002", "internal/protocol/msg_processor.go:processMsg0003", "internal/protocol/msg_processor.go:processMsg0102", "internal/protocol/msg_processor.go:processMsg0200", "internal/server/tcp_server.go:serve"]}
{"id": "C39", "title": "A location report is recorded for its phone and ACC-off puts the terminal to sleep", "statement": "Handling a location report of a registered phone stores exactly the reported position as that phone's newest entry, and changes the status only if the ACC bit is off, then to sleeping.", "quantifier": "all states and reports", "why_tests_cant": "All states and reports.", "anchors": ["internal/protocol/msg_processor.go:processMsg0200", "internal/protocol/model/device.go:DeviceGeo.Decode"]}
{"id": "C40", "title": "The latest-location query returns the newest report", "statement": "After any number of location reports for a phone, the latest-location lookup returns the last one.", "quantifier": "all report histories of any length", "why_tests_cant": "Fails only at particular counts; needs all lengths.", "anchors": ["internal/storage/geo_cache.go:GetGeoLatestByPhone", "pkg/container/ring_buffer.go:Latest", "internal/api/api.go"]}
{"id": "C41", "title": "Messages of one phone do not affect another", "statement": "Handling any message or keepalive check for one phone leaves the device, locations, parameters and keepalive job of every other phone unchanged.", "quantifier": "all states, messages and pairs of distinct phones", "why_tests_cant": "All pairs of phones and all messages.", "anchors": ["internal/protocol/msg_processor.go", "internal/protocol/keepalive.go", "internal/storage/device_cache.go", "internal/storage/geo_cache.go", "internal/storage/param_cache.go"]}
{"id": "C42", "title": "Only the connection that registered a phone can deregister it", "statement": "A deregistration received on a connection other than the one the phone registered on has no effect.", "quantifier": "all states and connections", "why_tests_cant": "All connections.", "anchors": ["internal/protocol/msg_processor.go:processMsg0003"]}
{"id": "C43", "title": "A terminal that keeps sending heartbeats is never taken offline", "statement": "A keepalive check made no later than the keepalive period after the last heartbeat changes nothing, in any history.", "quantifier": "all histories and check times", "why_tests_cant": "All timings.", "anchors": ["internal/protocol/keepalive.go:checkDeviceKeepalive", "internal/protocol/model/device.go:ShouleTurnOffline", "internal/protocol/model/device.go:ShouldClear", "internal/protocol/msg_processor.go:processMsg0002"]}
{"id": "C44", "title": "A silent terminal goes offline and is then removed", "statement": "If nothing refreshes a device for longer than its keepalive, the next check turns it offline and the one after that removes it from both indexes, drops its locations and job, and closes its connection.", "quantifier": "all states and check times after expiry", "why_tests_cant": "All timings.", "anchors": ["internal/protocol/keepalive.go:checkDeviceKeepalive"]}
{"id": "C45", "title": "Keepalive jobs and registered devices correspond one to one", "statement": "After any history every registered phone has exactly one keepalive job and every job belongs to a registered phone.", "quantifier": "all histories in which handlers run one at a time", "why_tests_cant": "Unbounded histories.", "anchors": ["internal/protocol/keepalive.go:Register", "internal/protocol/keepalive.go:Cancel", "internal/protocol/msg_processor.go"]}
{"id": "C46", "title": "A keepalive check never crashes the server", "statement": "No keepalive check dereferences a missing device, whatever runs concurrently.", "quantifier": "all interleavings of message handlers and keepalive checks", "why_tests_cant": "Race on schedule.", "anchors": ["internal/protocol/keepalive.go:checkDeviceKeepalive", "internal/protocol/keepalive.go:CheckDeviceJob.Run"]}
{"id": "C47", "title": "The ring buffer keeps exactly the last Size writes", "statement": "After any number of writes, the slots hold the last Size values, Oldest is the value written Size writes ago, and reads walk the slots cyclically.", "quantifier": "all capacities and all write/read sequences", "why_tests_cant": "Unbounded histories.", "anchors": ["pkg/container/ring_buffer.go:Write", "pkg/container/ring_buffer.go:Read", "pkg/container/ring_buffer.go:Oldest"]}
{"id": "C48", "title": "Latest and Overwrite act on the newest ring element", "statement": "Latest returns the newest written value and Overwrite replaces it.", "quantifier": "all capacities, all write sequences", "why_tests_cant": "Fails only at wrap-around.", "anchors": ["pkg/container/ring_buffer.go:Latest", "pkg/container/ring_buffer.go:Overwrite"]}
{"id": "C49", "title": "Serial numbers count up and do not repeat within a cycle", "statement": "Successive serial numbers of a session are 1,2,...,65535,0,1,..., so any 65536 consecutive ones are distinct; this also holds for concurrent callers.", "quantifier": "all numbers of calls, all interleavings of callers", "why_tests_cant": "Wrap-around after 65535 calls and races.", "anchors": ["internal/protocol/model/session.go:GetNextSerialNum"]}
{"id": "C50", "title": "A session is reachable exactly while its connection is open", "statement": "After any history of accepts and closes, looking up a session id returns the session of the open connection with that address, and an error if there is none.", "quantifier": "all histories of accepts and closes", "why_tests_cant": "Unbounded histories, address reuse.", "anchors": ["internal/server/tcp_server.go:accept", "internal/server/tcp_server.go:remove", "internal/storage/session_cache.go"]}
{"id": "C51", "title": "No received frame can crash the server or block other connections", "statement": "Whatever bytes a connection delivers, the handler either replies, ignores the frame, or closes that connection; the stores stay consistent and other connections keep being served.", "quantifier": "all byte frames, all states", "why_tests_cant": "All inputs, including those that panic.", "anchors": ["internal/server/tcp_server.go:serve", "pkg/routines/safe.go:RunSafe", "internal/codec/hex/hex.go"]}
{"id": "C52", "title": "A fragmented message is processed once, with its whole body", "statement": "When the fragments 1..n of a message arrive in order, the message is processed once after the last one with the concatenation of the fragment bodies, and each earlier fragment is acknowledged.", "quantifier": "all fragment counts and contents", "why_tests_cant": "All fragment counts and contents.", "anchors": ["internal/storage/segment_cache.go:CacheSegment", "internal/protocol/model/segment.go:Merge", "internal/protocol/packet_codec.go:Decode", "internal/protocol/msg_processor.go:processSegmentPacket"]}
{"id": "C53", "title": "Fragments of different terminals or messages are never mixed", "statement": "Two fragments are merged only if they come from the same phone and message id.", "quantifier": "all pairs of phones and message ids", "why_tests_cant": "Key construction is only injective outside the surrogate range.", "anchors": ["internal/storage/segment_cache.go:CacheSegment"]}
{"id": "C54", "title": "Server-initiated messages are decodable by the terminal", "statement": "A message the server sends on its own (parameter query, parameter setting, fragment acknowledgement) decodes at the terminal to the intended header for the terminal's protocol version.", "quantifier": "all devices of every protocol version, all serial numbers", "why_tests_cant": "All devices and versions.", "anchors": ["internal/protocol/model/header.go:GenMsgHeader", "internal/protocol/model/header.go:versionDecode", "internal/api/api.go", "internal/server/tcp_server.go:Send"]}
{"id": "C55", "title": "HTTP requests for unknown phones are refused without side effects", "statement": "Every HTTP request naming an unregistered phone answers 400, sends nothing to any terminal and changes no stored state.", "quantifier": "all states and phones", "why_tests_cant": "All states.", "anchors": ["internal/api/api.go:Run"]}
{"id": "C56", "title": "A malformed parameter-setting request sends nothing", "statement": "A PUT whose body does not parse is answered 400 and nothing is sent to the terminal.", "quantifier": "all states, all malformed bodies", "why_tests_cant": "All states.", "anchors": ["internal/api/api.go:Run"]}
{"id": "C57", "title": "A parameter-setting request reaches the terminal unchanged", "statement": "The frame sent for a PUT of supported parameters decodes at the terminal to the same parameter list.", "quantifier": "all devices, all supported parameter lists that fit", "why_tests_cant": "All lists and devices.", "anchors": ["internal/api/api.go:Run", "internal/protocol/model/msg_8103.go", "internal/server/tcp_server.go:Send"]}
{"id": "C58", "title": "Register-then-authenticate works end to end", "statement": "For every terminal whose plate and phone are free, the simulator's registration frame, the server's reply, the simulator's authentication frame and the server's second reply, exchanged as bytes, end with the device online on both sides.", "quantifier": "all server states, all devices within field widths, both header layouts", "why_tests_cant": "Composition of all codecs with both state machines.", "anchors": ["internal/protocol/msg_processor.go:processMsg0100", "internal/protocol/msg_processor.go:processMsg8100", "internal/protocol/msg_processor.go:processMsg0102", "internal/protocol/msg_processor.go:processMsg8001", "internal/protocol/packet_codec.go"]}
{"id": "C59", "title": "Authorisation codes are a function of the identity and cannot be the placeholder", "statement": "The code depends only on device id, plate and phone, is a decimal number below 2^32, and the placeholder sent with a refused registration never authenticates.", "quantifier": "all devices", "why_tests_cant": "All identities.", "anchors": ["internal/protocol/msg_processor.go:genAuthCode", "internal/codec/hash/hash.go:FNV32", "internal/protocol/model/msg_8100.go:GenOutgoing"]}
{"id": "C60", "title": "A connection's stream is handled frame by frame", "statement": "Serving a connection is the same as handling its frames one after another: noise and bad frames in between change nothing, and replies come in request order.", "quantifier": "all streams", "why_tests_cant": "Unbounded streams.", "anchors": ["internal/server/tcp_server.go:serve", "internal/protocol/pipeline.go", "internal/protocol/frame_handler.go:Recv"]}
{"id": "C61", "title": "Cache entries are always filed under their own keys", "statement": "Under any interleaving of handlers, whatever the phone index returns for a phone has that phone, and whatever the plate index returns has that plate.", "quantifier": "all interleavings of all handlers", "why_tests_cant": "All schedules.", "anchors": ["internal/storage/device_cache.go"]}
{"id": "C62", "title": "The device listing shows each registered device once", "statement": "The listing contains every registered device exactly once and nothing else, after any history.", "quantifier": "all histories in which handlers run one at a time", "why_tests_cant": "Unbounded histories.", "anchors": ["internal/storage/device_cache.go:ListDevice", "internal/api/api.go:Run"]}
{"id": "C63", "title": "Every documented log level is honoured", "statement": "Each of DEBUG, INFO, WARN, ERROR, FATAL selects that level.", "quantifier": "all configuration strings", "why_tests_cant": "All strings.", "anchors": ["internal/config/config.go:ParseLogConf"]}
{"id": "C64", "title": "A heartbeat refreshes the terminal and nothing else", "statement": "Handling a heartbeat of a registered phone sets its last-seen time to now and changes no other stored datum.", "quantifier": "all states and heartbeats", "why_tests_cant": "All states.", "anchors": ["internal/protocol/msg_processor.go:processMsg0002"]}
{"id": "C65", "title": "Authentication messages round-trip", "statement": "Decoding the frame of a terminal authentication message returns the authentication code, and in the 2019 format the IMEI and software version, that were encoded.", "quantifier": "all authentication codes, IMEIs and versions that fit their fields, both protocol versions", "why_tests_cant": "All strings at all lengths.", "anchors": ["internal/protocol/model/msg_0102.go:Decode", "internal/protocol/model/msg_0102.go:Encode"]}
{"id": "C66", "title": "A packet whose declared body length is not the length of its body is refused", "statement": "No packet whose body-length bits differ from the number of body bytes present reaches the message layer.", "quantifier": "all packets with a correct checksum", "why_tests_cant": "All lengths and all contents.", "anchors": ["internal/protocol/packet_codec.go:Decode", "internal/protocol/model/msg_header.go:Decode"]}
{"id": "C67", "title": "The declared length of a terminal parameter is honoured", "statement": "Reading a parameter item consumes exactly the declared number of value bytes, so that the next item is found at the right place.", "quantifier": "all items, all declared lengths", "why_tests_cant": "All lengths for all ids.", "anchors": ["internal/protocol/model/device_params.go:ParamData.Decode"]}
{"id": "C68", "title": "Concurrent handlers of one terminal never touch another", "statement": "In every interleaving, a step of a handler or keepalive check for one phone changes neither the device another phone resolves to, nor its stored locations, nor its keepalive job.", "quantifier": "all interleavings of any number of handlers and checks, all steps", "why_tests_cant": "All schedules.", "anchors": ["internal/protocol/msg_processor.go", "internal/protocol/keepalive.go", "internal/storage/device_cache.go", "internal/storage/geo_cache.go"]}
{"id": "C69", "title": "Concurrently accepted authentications used an issued code", "statement": "In every interleaving, an authentication answered with success presented exactly the code of some registration of the same phone, and a successful registration answers with the code of its own identity.", "quantifier": "all interleavings", "why_tests_cant": "All schedules.", "anchors": ["internal/protocol/msg_processor.go:processMsg0102", "internal/protocol/msg_processor.go:processMsg0100", "internal/protocol/model/device.go:genAuthCode"]}
{"id": "C70", "title": "A deregistered terminal stays unknown until it registers again", "statement": "Once a deregistration has been answered, no lookup finds the terminal until a new registration of its phone.", "quantifier": "all interleavings", "why_tests_cant": "All schedules.", "anchors": ["internal/protocol/msg_processor.go:processMsg0003", "internal/protocol/msg_processor.go:processMsg0002", "internal/storage/device_cache.go:CacheDevice"]}
{"id": "C71", "title": "Message handlers do not panic however they are scheduled", "statement": "In every interleaving no message handler panics: none dereferences a missing device or ring, and the built-in parameter table always decodes.", "quantifier": "all interleavings of any number of handlers and checks", "why_tests_cant": "All schedules.", "anchors": ["internal/protocol/msg_processor.go", "internal/protocol/keepalive.go"]}
{"id": "C72", "title": "Handlers of different terminals do not interfere", "statement": "The results, device record, locations and jobs that the goroutines of one terminal produce (anything but registration and parameter messages) are the same as if the goroutines of all other terminals had not run.", "quantifier": "all interleavings of any number of goroutines, all stores reached", "why_tests_cant": "Non-interference relates two executions.", "anchors": ["internal/protocol/msg_processor.go", "internal/protocol/keepalive.go", "internal/storage/device_cache.go", "internal/storage/geo_cache.go"]}
{"id": "C73", "title": "A sleeping terminal that reports ACC on is awake again", "statement": "After a location report with ACC on, a registered terminal that was sleeping is no longer shown as sleeping.", "quantifier": "all histories, all reports", "why_tests_cant": "Unbounded histories.", "anchors": ["internal/protocol/msg_processor.go:processMsg0200", "internal/protocol/msg_processor.go:processMsg0102"]}
{"id": "C74", "title": "An offline terminal that is heard of again is online", "statement": "When a registered terminal that was taken offline sends a heartbeat or a location report, it is shown as online again.", "quantifier": "all histories", "why_tests_cant": "Unbounded histories.", "anchors": ["internal/protocol/msg_processor.go:processMsg0002", "internal/protocol/msg_processor.go:processMsg0200", "internal/protocol/keepalive.go:checkDeviceKeepalive"]}
{"id": "C75", "title": "A silent terminal is removed within three keepalive periods, and not before", "statement": "With its check run every minute, a terminal that says nothing is removed at the latest three minutes after it was last heard of; until its second late check it stays registered.", "quantifier": "all histories of other events, all phases of the schedule, all states of the terminal", "why_tests_cant": "Unbounded histories and all schedules.", "anchors": ["internal/protocol/keepalive.go:checkDeviceKeepalive", "internal/protocol/keepalive.go:Register", "internal/protocol/model/device.go:ShouldClear", "internal/protocol/model/device.go:ShouleTurnOffline"]}
{"id": "C76", "title": "Keepalive expiry does what its comment says", "statement": "The check that takes a terminal offline closes its TCP connection, and the data of an offline terminal is kept for three keepalive periods (comment on checkDeviceKeepalive).", "quantifier": "all histories", "why_tests_cant": "Unbounded histories.", "anchors": ["internal/protocol/keepalive.go:checkDeviceKeepalive"]}
{"id": "C77", "title": "A terminal that lost its connection can register again", "statement": "When the connection a terminal registered on has ended, a new registration of that terminal is accepted.", "quantifier": "all histories", "why_tests_cant": "Unbounded histories.", "anchors": ["internal/protocol/msg_processor.go:processMsg0100", "internal/server/tcp_server.go:remove", "internal/protocol/keepalive.go:checkDeviceKeepalive"]}
{"id": "C78", "title": "Server-initiated messages follow the terminal to its current connection", "statement": "A parameter request over HTTP is sent on the connection on which the terminal last authenticated.", "quantifier": "all histories of registrations, authentications, disconnects and reconnects", "why_tests_cant": "Unbounded histories.", "anchors": ["internal/api/api.go:Run", "internal/protocol/model/device.go:NewDevice", "internal/protocol/msg_processor.go:processMsg0102", "internal/storage/session_cache.go:GetSession"]}
{"id": "C79", "title": "The server refines a table of registered terminals", "statement": "Seen from outside, the server is one table from phone numbers to terminals (device id, plate, address of the registration, time last heard of, presence) with one answer per message: registration is refused with 1 if somebody has the plate and with 3 if the phone is in the table, otherwise it enters the terminal and answers with its code; every other message and every keepalive check changes the entry of its own phone as the table says, and the listing shows exactly the table.", "quantifier": "all histories of connections, frames, read errors, keepalive checks and HTTP requests", "why_tests_cant": "A refinement: every event after every history, compared with an abstract machine.", "anchors": ["internal/protocol/msg_processor.go:ProcessPacket", "internal/storage/device_cache.go:DeviceCache", "internal/protocol/keepalive.go:checkDeviceKeepalive", "internal/server/tcp_server.go:serve", "internal/api/api.go:Run"]}
{"id": "C80", "title": "Location reports keep a terminal alive", "statement": "A registered terminal that reports its location at least once a minute is neither taken offline nor removed.", "quantifier": "all histories, all numbers and spacings of reports", "why_tests_cant": "Unbounded histories and all schedules.", "anchors": ["internal/protocol/msg_processor.go:processMsg0200", "internal/protocol/keepalive.go:checkDeviceKeepalive", "internal/protocol/model/device.go:ShouldClear"]}
{"id": "C81", "title": "Different terminals get different authorisation codes", "statement": "Two terminals that differ in device id, plate or phone are issued different authorisation codes, so that a code authenticates only the terminal it was issued to.", "quantifier": "all pairs of identities", "why_tests_cant": "Quantifies over all pairs of identities; a test compares a handful.", "anchors": ["internal/protocol/msg_processor.go:processMsg0100", "internal/protocol/msg_processor.go:genAuthCode", "internal/codec/hash/hash.go:FNV32"]}
{"id": "C82", "title": "A simulated position arrives as it was generated", "statement": "The location reports of the terminal simulator are always within the ranges of the protocol, and the server stores and serves exactly the generated position, speed, direction, time and status.", "quantifier": "all draws of the generator, all registered terminals, all server states", "why_tests_cant": "All numbers the generator can draw, including the undefined conversions of negative floats.", "anchors": ["test/datagen/datagen.go:GenMsg0200", "test/datagen/datagen.go:genMsgHeader", "internal/protocol/model/device.go:GeoMeta", "internal/protocol/msg_processor.go:processMsg0200"]}
{"id": "C83", "title": "Concurrent reports of one terminal are all kept", "statement": "When location reports of one terminal arrive on several connections at once, every one of them is in the ring, and Latest is the one that was written last.", "quantifier": "all interleavings of any number of writers", "why_tests_cant": "All interleavings; a race a test run almost never shows.", "anchors": ["pkg/container/ring_buffer.go:Write", "pkg/container/ring_buffer.go:Latest", "internal/storage/geo_cache.go:GetGeoRingByPhone", "internal/protocol/msg_processor.go:processMsg0200"]}
{"id": "C84", "title": "A connection is closed only for its own sake", "statement": "The server closes a connection only because of something that arrived on it, a failed read from it or write to it, or the removal of a terminal that registered on it; nothing that happens on other connections closes it. The end of the stream and reading from a closed connection do end its serving and give up its session; other failed reads change nothing.", "quantifier": "all histories after the connection was accepted", "why_tests_cant": "Unbounded histories over any number of connections.", "anchors": ["internal/server/tcp_server.go:serve", "internal/server/tcp_server.go:remove", "internal/server/tcp_server.go:Send", "internal/protocol/keepalive.go:checkDeviceKeepalive"]}
{"id": "C85", "title": "Removing a silent terminal leaves other terminals connected", "statement": "When a silent terminal is removed, the connections of terminals that are still alive stay open.", "quantifier": "all histories, all terminals", "why_tests_cant": "Unbounded histories.", "anchors": ["internal/protocol/keepalive.go:checkDeviceKeepalive", "internal/protocol/model/device.go:NewDevice"]}
{"id": "C86", "title": "Idle connections are closed", "statement": "A connection on which nothing arrives is eventually closed by the server.", "quantifier": "all histories, any amount of time", "why_tests_cant": "Unbounded time; absence of any closing event in all continuations.", "anchors": ["internal/server/tcp_server.go:serve", "internal/protocol/keepalive.go:checkDeviceKeepalive", "internal/protocol/frame_handler.go:Recv"]}
{"id": "C87", "title": "The simulator and the server keep talking", "statement": "A simulated terminal connects to a server on which its phone and plate are free. However reading, sending and the server's other business interleave, the server never closes the connection, the simulator never stops, each frame of the simulator is answered by exactly one frame, and whenever nothing is under way the simulator is online and the server has it registered on this connection and not offline; such a moment is always a finite number of reads away.", "quantifier": "all server histories before, all interleavings of both sides' reads, the sending goroutines and all other server events that leave this terminal alone (no frames with its phone or its plate from elsewhere, no parameter requests to it, keepalive checks in time), all generated devices (2013: with a plate)", "why_tests_cant": "All interleavings of two processes and unbounded conversations.", "anchors": ["test/client/main.go:dialAndSend", "test/client/main.go:keepalive", "test/client/main.go:reportLocation", "internal/client/tcp_client.go:Start", "internal/client/tcp_client.go:Send", "internal/server/tcp_server.go:serve", "internal/protocol/msg_processor.go:ProcessPacket"]}
{"id": "C88", "title": "Any number of simulators talk at once", "statement": "Simulated terminals with different phones and plates, all in one process, connect at any time to a server on which their phones and plates are free. However all reads, sends and other business of the server interleave, every conversation goes as in C87: no connection is closed, no simulator stops, each frame is answered by exactly one frame; whenever nothing is under way the server has every one of them registered on its own connection and not offline.", "quantifier": "all server histories before, all numbers of simulators, all times at which they join, all interleavings of everybody's reads and sends with server events that leave these terminals alone", "why_tests_cant": "Unboundedly many processes and all interleavings.", "anchors": ["test/client/main.go:main", "test/client/main.go:dialAndSend", "test/client/main.go:keepalive", "internal/client/tcp_client.go:Start", "internal/server/tcp_server.go:serve", "internal/protocol/msg_processor.go:ProcessPacket", "internal/storage/device_cache.go:cacheDevice"]}
{"id": "C89", "title": "A refused simulator leaves registered terminals alone", "statement": "A simulator whose registration is refused because its phone or plate is already registered leaves the registered terminal as it is.", "quantifier": "all server histories, all generated devices, all times", "why_tests_cant": "All reachable device caches and generated devices.", "anchors": ["test/client/main.go:dialAndSend", "internal/protocol/msg_processor.go:processMsg0100", "internal/protocol/msg_processor.go:processMsg8100", "internal/protocol/msg_processor.go:processMsg0102"]}
{"id": "C90", "title": "Listing devices is safe while terminals come and go", "statement": "Any number of goroutines may call the methods of the device cache at the same time without ending the process: lookups, registrations, deletions and the listing behind GET /device.", "quantifier": "all numbers of goroutines, all sequences of calls, all interleavings of their accesses", "why_tests_cant": "All interleavings of accesses to a shared map; the runtime detects misuse only when it happens.", "anchors": ["internal/storage/device_cache.go:ListDevice", "internal/storage/device_cache.go:CacheDevice", "internal/storage/device_cache.go:DelDeviceByPhone", "internal/storage/device_cache.go:GetDeviceByPhone", "internal/api/api.go:Run"]}
{"id": "C91", "title": "Frames sent at the same time on one connection stay whole", "statement": "Several goroutines may send on one connection at the same time (the serving goroutine and HTTP requests, or the goroutines of a simulator); the peer reads exactly the frames that were sent, each whole, each sender's in its order.", "quantifier": "all numbers of senders, all frames, all interleavings of their writes", "why_tests_cant": "All interleavings of writes and all answers of the transport.", "anchors": ["internal/protocol/frame_handler.go:Send", "internal/protocol/pipeline.go:NewPipeline", "internal/server/tcp_server.go:Send", "internal/client/tcp_client.go:Send"]}
{"id": "C92", "title": "Messages only a platform sends are ignored by the server", "statement": "Frames of the kinds that go from a platform to a terminal (8001, 8100, 8103, 8104, 9205) that arrive at the server change nothing on it and are not answered.", "quantifier": "all reachable server states, all frames of these kinds, all connections", "why_tests_cant": "All frames of a kind in all states.", "anchors": ["internal/protocol/msg_processor.go:NewJT808MsgProcessor", "internal/protocol/msg_processor.go:processMsg8103", "internal/protocol/msg_processor.go:processMsg9205", "internal/protocol/msg_processor.go:processMsg8001"]}
{"id": "C93", "title": "A frame that is sent again does no harm", "statement": "A terminal that got no answer may send its frame again: it is answered as the first time, and the server is as if the frame had arrived only once, the second time.", "quantifier": "all reachable server states, all registrations, authentications, heartbeats, deregistrations and location reports, any connections and times", "why_tests_cant": "All states and frames; unit tests send each message once.", "anchors": ["internal/protocol/msg_processor.go:processMsg0100", "internal/protocol/msg_processor.go:processMsg0102", "internal/protocol/msg_processor.go:processMsg0003", "internal/protocol/msg_processor.go:processMsg0200"]}
{"id": "C94", "title": "Which frames end a receive loop", "statement": "A frame that was received ends the serving of its connection exactly when it is a heartbeat, deregistration, authentication, location report or unfinished fragment of a phone that is not registered, or makes the handler panic. A frame received by the simulator stops it exactly when it is a positive general reply or a registration reply for a phone the simulator does not have, or makes the handler panic. No other frame, malformed or not, ends either loop, and no answer fails to be encoded.", "quantifier": "all states, all byte strings as frames, all connections and times", "why_tests_cant": "All byte strings in all states, and the absence of any other reason.", "anchors": ["internal/server/tcp_server.go:serve", "internal/client/tcp_client.go:Start", "internal/protocol/pipeline.go:NewPipeline", "internal/protocol/msg_processor.go:ProcessPacket", "internal/protocol/packet_codec.go:Decode", "internal/protocol/packet_codec.go:Encode"]}
{"id": "C95", "title": "A message of the proper size never makes the handler panic", "statement": "In every state the server can reach, a frame with a whole message whose body is as long as its kind demands (fixed part, declared length, length byte of the code, announced number of supported parameters) is handled without a panic; so is every message that could be decoded at all. The frames that do cause a panic are exactly those without a complete header, first fragments, bodies their decoder runs out of, and later fragments for a terminal whose session is gone.", "quantifier": "all reachable server states, all byte strings as frames", "why_tests_cant": "All byte strings in all reachable states; a fuzzer only samples them.", "anchors": ["internal/protocol/msg_processor.go:ProcessPacket", "internal/protocol/msg_processor.go:processMsg8104", "internal/protocol/packet_codec.go:Decode", "internal/codec/hex/hex.go:ReadBytes", "internal/protocol/model/device_params.go:Encode", "internal/storage/geo_cache.go:GetGeoRingByPhone", "internal/storage/segment_cache.go:CacheSegment"]}
{"id": "C96", "title": "Customers with their own phones, plates and addresses do not notice each other", "statement": "If the terminals of one customer use phones, plates and addresses nobody else uses, then whatever the terminals and API users of others do, the customer gets the same answers on the same connections, the same HTTP status, and finds the same devices, locations, tracks and parameters, as if the others had only opened their connections.", "quantifier": "all histories in which frames from the addresses of the customer, and no others, speak for its phones and plates; all groups of phones", "why_tests_cant": "A comparison of two whole histories (noninterference); no single run shows it.", "anchors": ["internal/protocol/msg_processor.go:ProcessPacket", "internal/protocol/msg_processor.go:processMsg0100", "internal/storage/device_cache.go:CacheDevice", "internal/storage/segment_cache.go:CacheSegment", "internal/storage/session_cache.go:GetSession", "internal/protocol/keepalive.go:checkDeviceKeepalive", "internal/api/api.go:Run", "internal/protocol/model/session.go:GetNextSerialNum"]}
{"id": "C97", "title": "The server reading bytes does what the server given frames does", "statement": "However the bytes of many connections arrive, in pieces of any size and in any order, the server behaves as if each connection had delivered whole frames: exactly the frames its byte stream is cut into, each at the moment its last byte arrives, together with exactly the read errors. States, replies, closings and HTTP answers are the same.", "quantifier": "all interleavings of single bytes, read errors and other events on any number of connections", "why_tests_cant": "All interleavings of byte streams of all connections.", "anchors": ["internal/protocol/frame_handler.go:Recv", "internal/protocol/frame_handler.go:Send", "internal/server/tcp_server.go:serve"]}
{"id": "C98", "title": "An encrypted message is not taken for plain text", "statement": "A message whose header says that its body is encrypted is not processed as plain text, and the answer does not claim to be encrypted.", "quantifier": "all states, all frames, all encryption marks", "why_tests_cant": "All frames in all states.", "anchors": ["internal/protocol/model/header.go:Decode", "internal/protocol/packet_codec.go:Decode", "internal/protocol/msg_processor.go:ProcessPacket"]}
{"id": "C99", "title": "The phone number identifies the terminal", "statement": "Frames with different phone numbers speak for different terminals, frames with the same number for the same terminal, whichever protocol version they use; an operator finds a terminal under its number.", "quantifier": "all frames, all histories", "why_tests_cant": "All pairs of frames and all histories.", "anchors": ["internal/protocol/model/header.go:Decode", "internal/codec/hex/hex.go:ReadBCD", "internal/codec/hex/hex.go:bcd2NumberStr", "internal/storage/device_cache.go:GetDeviceByPhone", "internal/api/api.go:Run"]}
{"id": "C100", "title": "A terminal that was never sent parameters reports its built-in list", "statement": "Asked for its parameters before any were set, a simulated terminal reports the built-in list of the program: the announced number of parameters, each with the value written in the source.", "quantifier": "all simulator states without parameters for the phone, all queries, all text codecs that leave ASCII alone", "why_tests_cant": "All states without stored parameters and every later state reached from them; a test compares with what the code printed.", "anchors": ["internal/protocol/msg_processor.go:processMsg8104", "internal/codec/hex/hex.go:Str2Byte", "internal/protocol/model/device_params.go:Decode", "internal/protocol/model/device_params.go:Encode"]}
{"id": "C101", "title": "What the server keeps is given back", "statement": "When a terminal has signed off and its connections are closed, the server no longer keeps anything for it: memory is bounded by the connections and the registered terminals, whoever sends what.", "quantifier": "all histories and all continuations; all lists of phones", "why_tests_cant": "An unbounded accumulation over all histories; no finite run shows that something is never released.", "anchors": ["internal/protocol/msg_processor.go:processMsg8104", "internal/storage/param_cache.go:CacheDeviceParams", "internal/storage/geo_cache.go:DelGeoByPhone", "internal/protocol/msg_processor.go:processMsg0003", "internal/storage/session_cache.go:StoreSession"]}
{"id": "C102", "title": "The position shown is the position reported", "statement": "Latitude, longitude and speed are stored as binary floating-point numbers and shown as decimal text; an operator who asks for the position of a terminal is shown exactly the millionths of a degree and tenths of a km/h of its latest report.", "quantifier": "all histories, all reported values; all numbers of at most fifteen digits", "why_tests_cant": "All 2^32 values of each coordinate, and the shortest text among all decimal texts.", "anchors": ["internal/protocol/model/device.go:Location.Decode", "internal/protocol/model/device.go:Drive.Decode", "internal/api/api.go:Run", "internal/protocol/model/device_params.go:any2uint32"]}
{"id": "C103", "title": "Only the connection of a terminal can speak for it", "statement": "A message is taken as coming from a terminal only if it arrives on a connection on which that terminal registered or authenticated, and only the terminal knows the code it authenticates with.", "quantifier": "all histories, all frames, all pairs of connections", "why_tests_cant": "A comparison of the effects of every frame on two connections in every reachable state.", "anchors": ["internal/protocol/msg_processor.go:ProcessPacket", "internal/protocol/msg_processor.go:processMsg0200", "internal/protocol/msg_processor.go:processMsg0102", "internal/protocol/msg_processor.go:genAuthCode", "internal/api/api.go:Run", "internal/protocol/model/device.go:Device", "internal/server/tcp_server.go:serve"]}
{"id": "C104", "title": "Nobody waits for somebody else's peer", "statement": "A terminal that is slow to send or does not read its answers, or an HTTP client that does the same, holds up nobody else: every other goroutine of the server can always go on to its own next operation on the network or to its end. In particular the mutexes of the server never deadlock.", "quantifier": "all numbers of goroutines, all sequences of connections, frames, checks and requests, all interleavings", "why_tests_cant": "All interleavings of any number of goroutines; a deadlock shows in a test only by chance.", "anchors": ["internal/server/tcp_server.go:accept", "internal/server/tcp_server.go:remove", "internal/server/tcp_server.go:Send", "internal/server/tcp_server.go:serve", "internal/storage/device_cache.go:CacheDevice", "internal/storage/session_cache.go:StoreSession", "internal/protocol/keepalive.go:Run", "internal/api/api.go:Run"]}
{"id": "C105", "title": "Hexadecimal text", "statement": "Byte2Str spells any bytes as two lower-case digits each, and Str2Byte reads them back; given any text, in either case of letters, Str2Byte returns exactly the bytes spelled before the first place where no two hexadecimal digits follow.", "quantifier": "all byte strings, all texts", "why_tests_cant": "All texts, including malformed ones; unit tests try a few.", "anchors": ["internal/codec/hex/hex.go:Str2Byte", "internal/codec/hex/hex.go:Byte2Str"]}
{"id": "C106", "title": "Trouble with one simulated terminal leaves the others running", "statement": "The simulators of one process are independent: if one of them cannot connect, or is told to go, the others go on; the process ends when all of them have ended, and a simulator that lost its connection connects again.", "quantifier": "all numbers of simulators, all sequences of dialling, frames, failures and rounds of the goroutines", "why_tests_cant": "All interleavings of any number of simulators.", "anchors": ["test/client/main.go:dialAndSend", "test/client/main.go:getDevice", "test/client/main.go:main", "internal/client/tcp_client.go:Start", "internal/protocol/msg_processor.go:processMsg0003"]}
{"id": "C107", "title": "The answer to a parameter request tells whether the message was sent", "statement": "GET and PUT /device/:phone/params for a registered terminal answer 200 exactly when the query or setting has been written to the terminal's connection; 400 means it has no session, 500 that a value has the wrong JSON type.", "quantifier": "all histories, all phones, all parameter lists with values from JSON, all outcomes of the write", "why_tests_cant": "The set of parameter lists and histories is infinite, and write failures are hard to provoke.", "anchors": ["internal/api/api.go:Run", "internal/server/tcp_server.go:Send", "internal/protocol/model/device_params.go:Encode"]}
{"id": "C108", "title": "The server shows a simulated terminal as it was configured", "statement": "After a simulator has registered and authenticated, the server's listing shows its device id, plate, phone, protocol version, IMEI and software version as the simulator has them.", "quantifier": "all server states in which plate and phone are free, all simulated devices within field widths, both layouts", "why_tests_cant": "Composition of registration and authentication codecs with both state machines for all texts.", "anchors": ["test/datagen/datagen.go:GenDevice", "internal/protocol/msg_processor.go:processMsg0100", "internal/protocol/msg_processor.go:processMsg0102", "internal/protocol/msg_processor.go:processMsg8100"]}
{"id": "C109", "title": "A terminal handled message by message sees a sequential server", "statement": "If the goroutines working for one terminal take turns, each returning before the next begins, then whatever goroutines of other terminals do in between, the terminal's record, locations, jobs and all replies are those of a server that handles only this terminal's messages, one after another.", "quantifier": "all interleavings with any number of goroutines of other terminals, all stores reached by interleaved goroutines, all sequences of heartbeats, authentications, deregistrations, location reports, replies and keepalive checks of the terminal", "why_tests_cant": "Interleavings cannot be enumerated, and the race detector sees only those that happen.", "anchors": ["internal/protocol/msg_processor.go", "internal/protocol/keepalive.go:checkDeviceKeepalive", "internal/storage/device_cache.go", "internal/storage/geo_cache.go"]}
{"id": "C110", "title": "The simulator works as shipped", "statement": "Started with the configuration file it comes with, against a server that does not know its plate and phone, the simulator registers, authenticates, is listed with the identity it drew and then reports undisturbed; so do as many simulators as `concurrency` says.", "quantifier": "all texts the shipped patterns can yield, all server histories, all schedules of the conversation", "why_tests_cant": "The patterns yield 10^22 identities, and the schedules are unbounded.", "anchors": ["test/client/configs/default.yaml", "test/datagen/datagen.go:GenDevice", "test/client/main.go:dialAndSend", "internal/protocol/msg_processor.go:processMsg0100", "internal/protocol/msg_processor.go:processMsg0102"]}
{"id": "C111", "title": "Serial numbers tell messages apart", "statement": "Each side numbers the messages it sends on a connection, so that two messages close to each other never carry the same number.", "quantifier": "all histories, all frames, all devices", "why_tests_cant": "All pairs of messages of all histories.", "anchors": ["internal/protocol/msg_processor.go:ProcessPacket", "internal/protocol/model/session.go:GetNextSerialNum", "test/datagen/datagen.go:genMsgHeader", "internal/protocol/model/header.go:MsgHeader"]}
{"id": "C112", "title": "The device cache is one set of devices under two keys", "statement": "Whatever devices are put into the device cache and dropped by plate or by phone, a device is found under its plate exactly if it is found under its phone, and exactly if it was put and not dropped since.", "quantifier": "all sequences of CacheDevice, DelDeviceByCarPlate and DelDeviceByPhone calls on a fresh cache, all devices", "why_tests_cant": "All call sequences; unit tests try a put and a delete.", "anchors": ["internal/storage/device_cache.go:CacheDevice", "internal/storage/device_cache.go:DelDeviceByCarPlate", "internal/storage/device_cache.go:DelDeviceByPhone", "internal/storage/device_cache.go:GetDeviceByPlate", "internal/storage/device_cache.go:GetDeviceByPhone"]}
{"id": "C113", "title": "A parameter request means what its body says", "statement": "The parameters sent to the terminal by PUT /device/:phone/params are exactly those the JSON body lists, with keys in any case and order; a body that lists none, lists another number than it announces or is no such object is refused and nothing is sent.", "quantifier": "all JSON bodies, all key spellings, all histories", "why_tests_cant": "Bodies are arbitrarily nested and large.", "anchors": ["internal/api/api.go:Run", "internal/protocol/model/device_params.go:DeviceParams", "internal/protocol/model/device_params.go:Encode"]}
{"id": "C114", "title": "Stop ends the service", "statement": "After Stop the server accepts no more connections, ends those it has, and Start returns; passing failures of Accept before that are harmless.", "quantifier": "all histories of Listen, Start, Stop, connections, failures of Accept and everything the peers do", "why_tests_cant": "All interleavings of the loop with the rest of the server.", "anchors": ["internal/server/tcp_server.go:Listen", "internal/server/tcp_server.go:Start", "internal/server/tcp_server.go:Stop", "internal/server/tcp_server.go:accept"]}
{"id": "C115", "title": "The listing of terminals is JSON that says what the cache holds", "statement": "The body of GET /device is one JSON list with an entry for every device in the cache; its members give the id, plate, phone, session, transport, keepalive, last time, status, version, authentication code, IMEI and software version of that device and can be read in one way only, whatever bytes terminals sent.", "quantifier": "all states of the cache, all bytes in ids, plates, codes and versions, all ways of writing times in plain characters", "why_tests_cant": "All byte strings have to be escaped so that the text stays JSON and means the same.", "anchors": ["internal/api/api.go:Run", "internal/protocol/model/device.go:Device", "internal/storage/device_cache.go:ListDevice"]}
{"id": "C116", "title": "What is shown of a terminal comes from its own messages", "statement": "After any history the device listed under a phone says what that phone's last accepted registration said (id, plate, version, and the connection it came over), and its authentication code, IMEI and software version are those of the last authentication of that phone since, or empty if there was none; the phone has been registered without interruption since that registration.", "quantifier": "all histories of connections, frames, read errors, keepalive checks and HTTP requests; all phones", "why_tests_cant": "Provenance over unbounded histories; a test sees one history.", "anchors": ["internal/protocol/msg_processor.go:processMsg0100", "internal/protocol/msg_processor.go:processMsg0102", "internal/storage/device_cache.go:CacheDevice", "internal/protocol/model/device.go:Device"]}
{"id": "C117", "title": "There is one cache of each kind", "statement": "However many goroutines ask for a cache (or the keepalive timer, the codec, the message processor) for the first time at once, all get the same one, never nil; none of them waits for ever, although making the session cache starts a goroutine that asks for it.", "quantifier": "any number of goroutines, all interleavings of their steps, all numbers of calls", "why_tests_cant": "Races at start-up; schedules cannot be enumerated.", "anchors": ["internal/storage/segment_cache.go:getSessionCache", "internal/storage/segment_cache.go:monitorSessionCnt", "internal/storage/device_cache.go:GetDeviceCache", "internal/storage/geo_cache.go:GetGeoCache", "internal/storage/param_cache.go:GetDeviceParamsCache", "internal/protocol/keepalive.go:NewKeepaliveTimer"]}
{"id": "C118", "title": "Starting the server succeeds or says why not", "statement": "Started with any configuration, the server comes up on the TCP and HTTP port the configuration names, or the process exits with status 1 after logging the reason, without having served anybody.", "quantifier": "all configurations (every section may be missing), all directories, all ports", "why_tests_cant": "All combinations of missing sections, log settings and ports.", "anchors": ["main.go:main", "internal/config/config.go:Load", "internal/config/config.go:ParseLogConf", "pkg/logger/logger.go:Configure", "pkg/logger/logger.go:newRollingFile", "internal/server/tcp_server.go:Listen", "internal/api/api.go:Run"]}
{"id": "C119", "title": "Load returns the configuration it is asked for", "statement": "Load returns the configuration its path stands for, and panics if there is none.", "quantifier": "all sequences of calls, all paths, all files at the time of each call", "why_tests_cant": "All call sequences; tests load one file per process.", "anchors": ["internal/config/config.go:Load"]}
{"id": "C120", "title": "The answer to a position query is JSON that says what was reported", "statement": "The body of GET /device/:phone/geo is one JSON object that can be read in one way only; it gives latitude and longitude in degrees and the speed in km/h as the numbers of the latest report divided by a million and by ten, exactly, with height, direction, time and the twenty switches of the report, and everything the listing says of the terminal.", "quantifier": "all histories, all phones, all reports, all bytes in the texts of the device; all ways strconv may choose among shortest decimals, all ways of writing times in plain characters", "why_tests_cant": "Numbers go through binary64 and back to decimal; 2^32 latitudes, and all texts.", "anchors": ["internal/api/api.go:Run", "internal/protocol/model/device.go:DeviceGeo", "internal/protocol/model/device.go:Location", "internal/protocol/model/device.go:GeoMeta"]}
{"id": "C121", "title": "What the server holds of an unfinished frame is bounded", "statement": "Between two frames the server holds nothing of what a terminal sent; inside a frame it holds what came since the opening 0x7e, and there is a bound on that for all connections.", "quantifier": "all histories of bytes of all connections, interleaved with each other and with everything else the server does", "why_tests_cant": "The absence of a bound shows only in unbounded histories.", "anchors": ["internal/protocol/frame_handler.go:Recv", "internal/server/tcp_server.go:serve"]}
{"id": "C122", "title": "Every message the README lists is handled", "statement": "Each message of a terminal that the README lists is answered with the listed message of the platform that the protocol has for it, if it calls for an answer: 0002, 0003, 0102 and 0200 by 8001, 0100 by 8100, 0004 by 8004; 0001 and 0104 get no answer.", "quantifier": "all reachable states of the server, all messages, all frames that carry them", "why_tests_cant": "All states; and the absence of a message in all histories.", "anchors": ["README.md", "internal/protocol/msg_processor.go:initProcessOption", "internal/protocol/msg_processor.go:Process"]}
{"id": "C123", "title": "A message is handled when it arrives", "statement": "A message that arrives on a connection is taken up at once, whatever came before it on that connection and whatever happens on others; so a terminal whose heartbeats arrive in time is not taken offline.", "quantifier": "all histories in which the frames of a connection arrive at any times and everything else happens in between; all frames", "why_tests_cant": "Depends on real time and on everything queued before; the loop sleeps a second after each error.", "anchors": ["internal/protocol/model/session.go:serve", "internal/protocol/pipeline.go:ProcessConnRead", "internal/protocol/keepalive.go:checkDeviceKeepalive"]}
{"id": "C124", "title": "A simulator speaks the protocol version it is configured with", "statement": "A simulator configured with protocolVersion 2011, 2013 or 2019 sends messages of that version; any other text is refused.", "quantifier": "all texts, all identities the patterns may generate, all messages", "why_tests_cant": "All texts and all phone numbers.", "anchors": ["test/datagen/datagen.go:GenDevice", "test/datagen/datagen.go:genMsgHeader", "README.md"]}
{"id": "C125", "title": "A simulated terminal stays where its configuration puts it", "statement": "Every location report of a simulator is within one degree of the configured latitude and longitude, within 5 m of the configured height, within 10 km/h of the configured speed, and has the configured direction, however long it runs and whatever other simulators run in the process.", "quantifier": "all configured numbers, all draws of the random generator, all histories of simulators of a process, all conversions of out-of-range floats", "why_tests_cant": "Depends on the draw (2^53 values each), on float rounding, and on the other simulators of the process.", "anchors": ["test/datagen/datagen.go:GenMsg0200", "test/datagen/datagen.go:GenDeviceGeo", "test/client/main.go:buildDeviceGeo", "test/client/main.go:reportLocation"]}
{"id": "C126", "title": "The numbers of the configuration shipped with the simulator take effect", "statement": "With the shipped configuration each flag of a report, the starting position and the province, city and plate colour of the registration are the numbers drawn from the pattern of their own key; a number of the configuration is used as it is or refused.", "quantifier": "all texts the patterns may generate, all spellings of the keys in upper and lower case, all texts", "why_tests_cant": "All texts of 25 patterns; a wrong key shows only as a constant 0.", "anchors": ["test/client/configs/default.yaml", "test/datagen/datagen.go:atoi", "test/datagen/datagen.go:genGeoMeta", "test/datagen/datagen.go:GenDeviceGeo", "test/datagen/datagen.go:GenMsg0100", "internal/config/config.go:Load"]}
{"id": "C127", "title": "The server does what a small reference server does", "statement": "For every history of connections, frames, read and write errors, keepalive checks and HTTP calls, the frames sent, the connections ended and the HTTP statuses are those of a reference server that keeps one record for each terminal, the list of its reports, its parameters and a serial number for each connection; the device listing and the position answer are computed from those records alone, and nothing else of the past has an effect.", "quantifier": "all histories of events, all byte strings as frames, all clocks and errors, all phones, all pairs of histories with the same records", "why_tests_cant": "A statement about all histories at once; hidden state (two indexes of shared pointers, rings that are made when asked for, jobs, ring slots) shows only in combinations of calls no test lists.", "anchors": ["internal/protocol/msg_processor.go:Process", "internal/protocol/pipeline.go:ProcessConnRead", "internal/protocol/keepalive.go:checkDeviceKeepalive", "internal/server/tcp_server.go:serve", "internal/server/tcp_server.go:Send", "internal/api/api.go:Run", "internal/storage/device_cache.go:CacheDevice", "internal/storage/geo_cache.go:GetGeoRingByPhone", "internal/protocol/model/segment.go:CacheSegment", "internal/protocol/model/session.go:GetNextSerialNum"]}
{"id": "C128", "title": "The order of unrelated events does not matter", "statement": "Two events about different phones, on connections of different peers, can come in either order after any history: each of them and everything afterwards looks the same. The exceptions are registrations that want the same plate or one the other phone has, and messages the server numbers itself (parameter requests, answers to fragments), which depend on the connection the terminal registered on.", "quantifier": "all histories before and after, all pairs of events (frames, read errors, checks, HTTP calls, new connections) that are apart in this sense", "why_tests_cant": "Which of two goroutines comes first is decided by the scheduler; a test sees one order.", "anchors": ["internal/server/tcp_server.go:serve", "internal/protocol/msg_processor.go:Process", "internal/protocol/keepalive.go:checkDeviceKeepalive", "internal/api/api.go:Run", "internal/storage/device_cache.go:CacheDevice", "internal/protocol/model/session.go:GetNextSerialNum"]}
{"id": "C129", "title": "The files built into the program are those of the repository", "statement": "Under the path of configs/banner.txt, configs/default.yaml and test/client/configs/default.yaml, written with slashes or backslashes, the program finds exactly the bytes of that file with their size, and under every other name nothing; a directory lists exactly what is in it. A server started without a configuration file comes up on ports 8080 and 8008 if they are free and ./logs/ can be made.", "quantifier": "all names (byte strings), all worlds a process may be started in, all regular expressions of the kind that occurs", "why_tests_cant": "The bytes are three compressed constants of a generated file; a stale copy shows only in a binary started without -c. Names are unbounded.", "anchors": ["internal/config/asset.go:Asset", "internal/config/asset.go:AssetInfo", "internal/config/asset.go:AssetNames", "internal/config/asset.go:AssetDir", "internal/config/asset.go:bindataRead", "configs/default.yaml", "configs/banner.txt", "test/client/configs/default.yaml", "internal/config/config.go:Load", "main.go:main"]}
{"id": "C130", "title": "A simulated terminal sends heartbeats and positions only after it was accepted", "statement": "A simulator registers once, and sends neither a heartbeat nor a position before the server has accepted its authentication; if it is refused it stops after a while.", "quantifier": "all numbers of simulators, all interleavings of dialling, building, frames from the server (any bytes), rounds of the goroutines and keepalive jobs", "why_tests_cant": "The sending goroutines are released by a device in a cache shared by all simulators and changed by whatever the server sends; the interleavings and the frames are unbounded.", "anchors": ["test/client/main.go:dialAndSend", "test/client/main.go:keepalive", "test/client/main.go:reportLocation", "test/client/main.go:register", "internal/protocol/msg_processor.go:processMsg8001", "internal/client/tcp_client.go:Start"]}
{"id": "C131", "title": "Additional data at the end of a message makes no difference", "statement": "A frame whose body is a complete message followed by additional data (the additional items of a location report, fields of a later version of the protocol) has exactly the effect and the answer of the frame without it.", "quantifier": "all states, all headers, all bodies of the right size, all additional data up to the largest body", "why_tests_cant": "Additional data is unbounded and of unknown form; equality of state and answer must hold in every state.", "anchors": ["internal/protocol/model/msg_0200.go:Decode", "internal/protocol/model/msg_0001.go:Decode", "internal/protocol/model/msg_0102.go:Decode", "internal/protocol/model/msg_0100.go:Decode", "internal/protocol/model/msg_8100.go:Decode", "internal/protocol/msg_processor.go:Process"]}
{"id": "C132", "title": "A parameter request is read as the JSON standard says", "statement": "The body of a parameter-setting request is read as the value that RFC 8259 gives its text, whatever its layout, its escapes and its way to write numbers, and the parameters it says are sent. A body that is no JSON text, for instance one that was cut off, is refused and nothing is sent.", "quantifier": "all byte strings, all JSON texts (up to 10000 lists and objects within each other), all places to cut a text off, all histories of the server", "why_tests_cant": "Texts of one value are unbounded in number and nested without a small bound; tests try a few.", "anchors": ["internal/api/api.go:Run", "internal/protocol/model/msg_8103.go:DeviceParams"]}
{"id": "C133", "title": "Starting the simulator registers its terminals or says why not", "statement": "A simulator started with a configuration connects and registers as many terminals as it says; if it cannot, it ends with status 1 and its last line says why.", "quantifier": "all configurations (any section may be missing), all paths, all worlds (directories that can be made), all patterns of refused and accepted attempts for any number of terminals", "why_tests_cant": "main reads the configuration section by section, dials in a loop with retries and starts goroutines that recover; which sections are missing and which attempts fail multiply, and main cannot be called twice in a test.", "anchors": ["test/client/main.go:main", "test/client/main.go:dialAndSend", "internal/client/tcp_client.go:Dial", "internal/config/config.go:Load", "pkg/logger/logger.go:Configure", "pkg/routines/safe.go:Recover", "test/datagen/datagen.go:GenDeviceGeo"]}
{"id": "C134", "title": "Every HTTP request reaches the operation and the terminal its path names", "statement": "A request is taken for the listing, for the position, or for reading or setting the parameters of a terminal exactly if its path says so, however the path is escaped and whatever query follows; every registered terminal can be named by its number as it is. Every other request changes nothing and is answered as an error or by a redirect.", "quantifier": "all methods and request targets (byte strings), all bodies, all states of the server, all histories for the terminals", "why_tests_cant": "Paths and ways to escape them are unbounded, and the routes share a tree in which one wrong node misdirects whole families of paths.", "anchors": ["internal/api/api.go:Run", "internal/protocol/model/device.go:GetDeviceByPhone"]}
{"id": "C135", "title": "A configuration file is read as it is written", "statement": "The settings a configuration file gives are those the program uses, whatever the indentation, comments, order of settings, case of keys and quotes around ports; a server started with it comes up on the two ports it says (TCP and HTTP). The port for UDP that can be set has no effect.", "quantifier": "all texts of the part of YAML the shipped files use (nested sections, words, numbers, quoted texts, comments), all worlds a process may be started in", "why_tests_cant": "Texts of one configuration are unbounded in number; the shipped file is one of them.", "anchors": ["internal/config/config.go:Load", "internal/config/config.go:Config", "main.go:main", "configs/default.yaml"]}
{"id": "C136", "title": "The terminals of the simulator are those its configuration file describes", "statement": "Started with a file, the simulator runs as many terminals as it says, against the address it says. Each terminal has an id, a plate, a phone number and an IMEI matched by the expressions of the file, the version it names and the keepalive it gives, and every such terminal may come about; the server then lists it as what the file describes. Positions and registrations are made of texts matched by the expressions as well. The transport protocol that can be set has no effect.", "quantifier": "all files of the part of YAML the shipped files use, all expressions of literals, classes with a count and alternatives, all worlds a process may be started in, all draws", "why_tests_cant": "The texts an expression matches and the files that give it are unbounded, and each run draws at random.", "anchors": ["internal/config/config.go:Load", "internal/config/config.go:DeviceConf", "test/client/main.go:main", "test/client/main.go:buildDevice", "test/datagen/datagen.go:GenDevice", "test/datagen/datagen.go:GenMsg0100", "test/datagen/datagen.go:GenDeviceGeo"]}
{"id": "C137", "title": "What is logged at the start goes where the configuration file says", "statement": "Every event server and simulator log while they start has at least the level of the file, is shown on the terminal exactly if the file says so, and is written to the log files exactly if the file says so and their directory can be made. A server that comes up has said which configuration it uses, the banner if the file says so, and the events its level lets through, nothing else.", "quantifier": "all files of the part of YAML the shipped files use with one of the four documented levels, all worlds a process may be started in, all answers to attempts to dial", "why_tests_cant": "Combinations of files, ports, directories and refusals are unbounded.", "anchors": ["internal/config/config.go:ParseLogConf", "pkg/logger/logger.go:Configure", "main.go:main", "test/client/main.go:main"]}
{"id": "C138", "title": "The answers of the HTTP API are what the server knows, as JSON", "statement": "After any history the answer to a request for one of the four operations has the status of the reference server, and its body is the JSON text of: the array of the terminals known; the position last reported with its terminal, nothing if there is none; \"device not found\" or \"session closed\" if it concerns a terminal that is not known or not connected; nothing for settings and queries that are sent; the complaint about a body that cannot be used. A complaint comes exactly with the status 400, and the body is empty or a JSON text.", "quantifier": "all histories of frames, accepts, disconnects, checks and requests; all requests whose target names an operation, in any escapes; all results of writing to the terminal", "why_tests_cant": "Bodies depend on all reports and registrations before and on the target in all its spellings.", "anchors": ["internal/api/api.go:Run", "internal/storage/device_cache.go:ErrDeviceNotFound", "internal/storage/session_cache.go:ErrSessionClosed", "internal/protocol/model/device.go:Device", "internal/protocol/model/device_geo.go:DeviceGeo"]}
{"id": "C139", "title": "Seen from outside the server is the reference server", "statement": "Whatever bytes arrive on whatever connections, whatever requests are made and whatever keepalive jobs run, in whatever order: every frame sent, every connection closed and every answer with its body is what the reference server and the JSON standard say, and the frames the server acts on are at any time exactly those the bytes so far consist of. What is sent to whom, and who is hung up on, is determined by this.", "quantifier": "all interleavings of bytes, failed reads, accepts, keepalive jobs and HTTP requests in any number, all results of writing to a terminal, all ways of writing times that are sound", "why_tests_cant": "Histories interleave single bytes of many connections with requests and are unbounded.", "anchors": ["internal/server/tcp_server.go:serve", "internal/protocol/frame_handler.go:Recv", "internal/api/api.go:Run", "main.go:main"]}
{"id": "C140", "title": "Simulators in one process do not influence each other", "statement": "What one simulated terminal sends, and the state it is in, depends on its own connection only: other simulators of the process may register, receive frames, fail and go on without making a difference to it.", "quantifier": "all numbers of simulators, all interleavings of their events", "why_tests_cant": "All interleavings of many terminals that share the caches of one process.", "anchors": ["test/client/main.go:dialAndSend", "test/client/main.go:getDevice", "internal/client/tcp_client.go:Start", "internal/storage/device_cache.go:GetDeviceCache", "internal/protocol/pipeline.go:ProcessConnRead"]}
{"id": "C141", "title": "The level of the log makes no difference but to the log, and the debug log is a true record", "statement": "The server keeps and sends the same whatever level is configured. At debug level the log file is lines of JSON that can be read in one way only and tell every frame received, with its connection, and every frame sent, byte for byte and in order, and every field of the messages that were understood and of the answers; nothing a terminal sends can cut or forge a line. At the other levels the file has the errors of connections only.", "quantifier": "all histories of frames, accepts, failed reads, checks and requests while the year has four digits; all bytes in frames and addresses; all texts of errors; all names of levels", "why_tests_cant": "Logging has side conditions of its own (a session in the context, json.Marshal that may fail) on the path of every message, and texts chosen by the other side end up in the log.", "anchors": ["internal/protocol/frame_handler.go:Recv", "internal/protocol/frame_handler.go:Send", "internal/protocol/msg_processor.go:Process", "internal/server/tcp_server.go:serve", "pkg/logger/logger.go:Configure", "pkg/logger/logger.go:init"]}
{"id": "C142", "title": "An accepted frame is the one encoding of what was read from it", "statement": "Header and body read from an accepted frame, encoded again, give the same frame byte for byte; so a relay that decodes and encodes changes nothing, and no two frames are read alike. The same holds of the bodies of messages.", "quantifier": "all byte sequences between two delimiters, all bodies and headers", "why_tests_cant": "The claim is about the inverse of decoding on all inputs that are accepted, including those no encoder writes.", "anchors": ["internal/protocol/packet_codec.go:Decode", "internal/protocol/packet_codec.go:Encode", "internal/protocol/packet_codec.go:unescape", "internal/protocol/model/header.go:Decode", "internal/protocol/model/header.go:Encode"]}
{"id": "C143", "title": "The log in text form, as shipped, can be read back line by line whatever terminals send", "statement": "With printAsJson off, which the shipped configuration chooses, every line about frames, messages and errors of connections is one line of the file: whatever bytes terminals send and whatever texts errors and addresses have, no line is cut, joined or made up, and each can be read back into time, level, place, text and fields in a fixed way. At debug level the lines tell every frame that arrived, with the address of its connection, and every frame that left, byte for byte and in order, and every message in JSON with all its fields, equal to what the JSON form of the log says up to the order of names. At the other levels there is no line but those of errors of connections. The report of a recovered panic is the exception: it takes as many more lines as there are line feeds in its text and stack.", "quantifier": "every configuration of the log, state, history of events with four-digit years, text of errors and addresses, and every notion of which characters above 0x7f are printable", "why_tests_cant": "Forged or broken log lines come from particular bytes at particular places; a test shows some strings that are printed well.", "anchors": ["pkg/logger/logger.go:newConsoleWriter", "pkg/logger/logger.go:Configure", "internal/protocol/frame_handler.go:Recv", "internal/protocol/frame_handler.go:Send", "internal/protocol/msg_processor.go:Process", "internal/server/tcp_server.go:serve", "pkg/routines/safe.go:Recover"]}
{"id": "C144", "title": "Texts keep their characters on the way through GBK", "statement": "A text is written exactly if it is UTF-8 and GBK has all its characters, in at most two bytes for a character, and is read again as it was; ASCII stays as it is. Whatever bytes are received as a text, they are read without an error and give UTF-8, so the plates the server has and shows are always texts. Registrations and whole conversations work with every plate of up to 473 characters that GBK has, the shipped plate among them.", "quantifier": "all texts and all byte sequences, all tables of codes that lead back to their character, all histories of frames, accepts, disconnects, checks and requests", "why_tests_cant": "Texts, byte sequences and histories are unbounded; tests try one character and one broken text.", "anchors": ["internal/codec/gbk/gbk.go:GBK2UTF8", "internal/codec/gbk/gbk.go:UTF82GBK", "internal/codec/hex/hex.go:ReadGBK", "internal/codec/hex/hex.go:WriteGBK", "internal/protocol/model/msg_0100.go:Decode"]}
{"id": "C145", "title": "The number of connections in the log is the number of open connections", "statement": "The log shows at most as many connections as the server serves, and at least those it serves and has not closed itself. If addresses are not used twice at a time and the server has closed none it still serves, the number is exactly that of the open connections, and nothing is left when all have gone.", "quantifier": "all histories of frames, accepts, disconnects, checks and requests; for the lower bound those in which no connection is accepted from an address that is still served", "why_tests_cant": "Histories are unbounded; a test counts after one connection.", "anchors": ["internal/storage/session_cache.go:countSession", "internal/storage/session_cache.go:monitorSessionCnt", "internal/storage/session_cache.go:StoreSession", "internal/storage/session_cache.go:ClearSession", "internal/server/tcp_server.go:remove"]}
{"id": "C146", "title": "The server sends little in answer to what it gets", "statement": "The server never answers a frame with more than 72 bytes, nor with more than five times its length, and over any history it sends in answer to the frames of a connection at most five times the bytes received there: the server cannot be used to multiply traffic.", "quantifier": "all histories, all connections and all frames decoded as messages a terminal may send (identifiers below 0x8000); other connections may send anything", "why_tests_cant": "The length of an answer depends on the phone number, on how many of its bytes need escaping and on the state; no set of samples bounds it.", "anchors": ["internal/protocol/packet_codec.go:Decode", "internal/protocol/packet_codec.go:Encode", "internal/protocol/msg_processor.go:processMsg0100", "internal/protocol/msg_processor.go:processMsg8104", "internal/protocol/msg_processor.go:processSegmentPacket", "internal/protocol/model/header.go:Encode"]}
{"id": "C147", "title": "The region shown for a registration is the one its codes say", "statement": "For every registration that is read, the description of the region in the log is the name of the division of GB/T 2260 whose code has the two digits of the province and the four of the city, and \"NotFound\" if there is none; numbers too large for the standard are never taken for the code of a division.", "quantifier": "all registrations and protocol versions, all tables of divisions with codes of six digits", "why_tests_cant": "There are 2^32 pairs of codes, and a test names three.", "anchors": ["internal/codec/region/region.go:Parse", "internal/protocol/model/msg_0100.go:Decode"]}
{"id": "C148", "title": "A terminal that keeps its code can go on after a restart of the server", "statement": "The authorisation code that a terminal was given stays good: after the server was restarted, or crashed and was started again, the terminal connects and authenticates with the code it has kept and goes on without registering again.", "quantifier": "every history over any number of lives of the server, all terminals, codes, connections and times", "why_tests_cant": "A test runs one process; the claim is about what one process must make of what another one promised.", "anchors": ["main.go:main", "internal/protocol/msg_processor.go:processMsg0102", "internal/protocol/msg_processor.go:processMsg0100", "internal/storage/device_cache.go:GetDeviceCache", "internal/protocol/msg_processor.go:genAuthCode"]}
{"id": "C149", "title": "A parameter request reaches the right terminal whatever happens at the same time", "statement": "A parameter request made over HTTP, however it interleaves with the handling of messages, keepalive checks, new connections, ending connections and other requests, sends at most one message: the one asked for, with the phone number asked for, in the protocol version in which that phone registered, on the connection on which it registered. A request for a phone of which no registration was received gets 400 and sends nothing. Every request is answered after at most seven steps of its own, and neither handlers nor checks nor any terminal data are different for it.", "quantifier": "all interleavings of any number of parameter requests, handlers and checks with accepts and disconnects, all registrations and messages", "why_tests_cant": "The number of interleavings is unbounded, and the interesting ones depend on what happens between two lookups of one request.", "anchors": ["internal/api/api.go:Run", "internal/server/tcp_server.go:Send", "internal/server/tcp_server.go:accept", "internal/server/tcp_server.go:remove", "internal/storage/session_cache.go:GetSession", "internal/storage/device_cache.go:GetDeviceByPhone", "internal/protocol/model/session.go:GetNextSerialNum", "internal/protocol/model/header.go:GenMsgHeader"]}
{"id": "C150", "title": "A heartbeat keeps a terminal alive also while checks run", "statement": "Once a heartbeat was acknowledged, no keepalive check takes the terminal offline, closes its connection or forgets it within the following minute, however the goroutine of the check interleaves with the handlers of this and of all other terminals.", "quantifier": "all interleavings of any number of handlers and checks for any number of terminals, all times", "why_tests_cant": "The outcome depends on which of its five reads and writes a check has made when the heartbeat arrives; tests run them one after the other.", "anchors": ["internal/protocol/keepalive.go:checkDeviceKeepalive", "internal/protocol/msg_processor.go:processMsg0002", "internal/protocol/model/device.go:ShouldTurnOffline", "internal/protocol/model/device.go:ShouldClear", "internal/storage/device_cache.go:CacheDevice"]}
{"id": "C151", "title": "A terminal that falls silent is let go whatever the other terminals do", "statement": "When a terminal has been silent for longer than its keepalive interval, its next check (if it is offline) or its next two checks (if not), one after the other, close its connection and remove it with its locations and its job, and neither check fails, whatever steps the goroutines of other terminals make before, between and during them.", "quantifier": "all states reached by interleaved goroutines, all interleavings of the checks of the terminal, in turns, with any number of goroutines of other terminals, all times", "why_tests_cant": "Any number of other goroutines may change the shared caches between any two steps of a check.", "anchors": ["internal/protocol/keepalive.go:checkDeviceKeepalive", "internal/protocol/keepalive.go:Register", "internal/protocol/model/device.go:ShouldTurnOffline", "internal/protocol/model/device.go:ShouldClear", "internal/storage/device_cache.go:DelDeviceByPhone", "internal/storage/geo_cache.go:DelGeoByPhone"]}
{"id": "C152", "title": "Registrations and parameter messages too are handled as by a sequential server, unless another terminal uses the plate", "statement": "If the goroutines working for one terminal, of whatever kind, take turns, and no other terminal has ever registered or registers with a plate it registers with, then whatever goroutines of other terminals do in between, its record (found by number or by plate), locations, jobs, parameters and all replies are those of a server that handles only this terminal's messages, one after another.", "quantifier": "all interleavings with any number of goroutines of other terminals (registrations included), all stores reached by interleaved goroutines, all sequences of messages and keepalive checks of the terminal", "why_tests_cant": "A registration consults and changes two tables that all terminals share; the interleavings cannot be enumerated.", "anchors": ["internal/protocol/msg_processor.go:processMsg0100", "internal/protocol/msg_processor.go:processMsg0102", "internal/protocol/msg_processor.go:processMsg8103", "internal/protocol/msg_processor.go:processMsg8104", "internal/storage/device_cache.go:CacheDevice", "internal/storage/device_cache.go:DelDeviceByPhone", "internal/storage/device_cache.go:GetDeviceByPlate", "internal/protocol/keepalive.go:Register"]}
{"id": "C153", "title": "Time may pass while a message is handled", "statement": "The sequential server of C152 need not stop the clock: if every step of a goroutine is made at its own time, there are moments, each during the turn it belongs to, such that the terminal's record, locations, jobs, parameters and replies are those of a server that handles each of its messages at once at that moment.", "quantifier": "all interleavings as in C152, with any time at each step", "why_tests_cant": "Handlers read the clock at different places, and the time between two steps is unbounded.", "anchors": ["internal/protocol/msg_processor.go", "internal/protocol/keepalive.go:checkDeviceKeepalive", "internal/protocol/model/device.go:ShouldTurnOffline", "internal/protocol/model/device.go:ShouldClear", "internal/protocol/model/device.go:NewDevice"]}
{"id": "C154", "title": "A terminal on one connection sees a sequential server", "statement": "However the goroutines of the connections interleave, each handling the messages of its connection one after another: a terminal whose messages come on one connection, and whose plate no other terminal uses, finds between two of its keepalive checks exactly what a sequential server would have made of its messages alone, in the order sent, each handled at a moment at which its goroutine was at work: record, locations, jobs, parameters and every reply.", "quantifier": "all numbers of connections and messages on them, all interleavings of their steps at any times, all stores reached before, at every point at which no message of the terminal is being handled", "why_tests_cant": "Users test one terminal at a time; that the answers stay the same with any number of others is a statement about all interleavings.", "anchors": ["internal/server/tcp_server.go:Start", "internal/server/tcp_server.go:serve", "internal/protocol/pipeline.go:ProcessConnRead", "internal/protocol/pipeline.go:ProcessConnWrite", "internal/protocol/msg_processor.go:Process", "internal/storage/device_cache.go", "internal/storage/geo_cache.go"]}
{"id": "C155", "title": "Every message is answered, whatever the other connections do", "statement": "However the goroutines of the connections and of keepalive checks interleave, a goroutine needs at most ten steps of its own for a message, waiting for nobody; then all messages of its connection have been handled once, in order, and each that asks for an answer has got one with its number. The only exception: after a message of a phone that is not registered serve ends.", "quantifier": "all numbers of connections, messages of all kinds, all stores reached before, all interleavings and times", "why_tests_cant": "Progress and order are statements about every schedule; a test sees one.", "anchors": ["internal/server/tcp_server.go:serve", "internal/server/tcp_server.go:Start", "internal/protocol/pipeline.go:ProcessConnRead", "internal/protocol/msg_processor.go"]}
{"id": "C156", "title": "Any number of terminals can come at once", "statement": "Any number of terminals with different phone numbers and plates connect at the same time, register, authenticate with the code they are told and send heartbeats and positions: every one of their messages succeeds, and the server then knows each by phone and by plate, not offline, with its connection, in every interleaving of the handling of their messages and whatever messages others send for other numbers and plates.", "quantifier": "all numbers of terminals and messages, all stores reached before, all interleavings of the steps at any times, all other traffic for other phones and plates", "why_tests_cant": "The number of interleavings of registrations is unbounded; a load test sees a handful.", "anchors": ["internal/server/tcp_server.go:Start", "internal/server/tcp_server.go:serve", "internal/protocol/msg_processor.go:processMsg0100", "internal/protocol/msg_processor.go:processMsg0102", "internal/protocol/msg_processor.go:processMsg0002", "internal/protocol/msg_processor.go:processMsg0200", "internal/storage/device_cache.go"]}
{"id": "C157", "title": "Keepalive checks leave newcomers alone", "statement": "While any number of terminals connect, register, authenticate and report as in C156, their keepalive checks run in between, as often as the scheduler likes and from the moment the job of a terminal is in the table: within a minute no check changes anything, none panics, and every terminal is served and known as if there were no checks.", "quantifier": "all numbers of terminals, messages and checks, all stores reached before, all interleavings of the steps at any times within a minute, all other traffic for other phones and plates", "why_tests_cant": "A check that begins between the creation of the job and the last step of the registration is a matter of microseconds; tests do not run a check in that window, let alone at every point of it.", "anchors": ["internal/server/tcp_server.go:serve", "internal/protocol/keepalive.go", "internal/protocol/msg_processor.go:processMsg0100", "internal/protocol/msg_processor.go:processMsg0102", "internal/protocol/msg_processor.go:processMsg0002", "internal/protocol/msg_processor.go:processMsg0200", "internal/storage/device_cache.go"]}
{"id": "C158", "title": "From bytes to bytes: any number of terminals at once", "statement": "Any number of terminals send, on their connections, the bytes of a registration, of an authentication with the code they are told and of heartbeats and positions, with noise between the frames; on other connections any bytes arrive that are not about these phones and plates; keepalive checks of other phones run. Whatever the order in which the server reads bytes, handles messages step by step and writes answers, each terminal is sent exactly the bytes of a successful registration and of the success of every later message, its connection is served on, and the server knows it by phone and by plate, not offline, with its connection.", "quantifier": "all numbers of terminals, messages and connections, all bytes of the others, all stores reached before, all interleavings of reading, handling and writing at any times", "why_tests_cant": "Interleavings of single bytes and steps of handlers of several connections cannot be enumerated, and the bytes of other connections are arbitrary.", "anchors": ["internal/server/tcp_server.go:serve", "internal/protocol/frame_handler.go:Recv", "internal/protocol/packet_codec.go:Decode", "internal/protocol/pipeline.go", "internal/protocol/msg_processor.go:Process", "internal/protocol/msg_processor.go:processMsg0100", "internal/protocol/msg_processor.go:processMsg0102", "internal/protocol/msg_processor.go:processMsg0200", "internal/storage/device_cache.go"]}
{"id": "C159", "title": "From bytes to bytes, with keepalive checks in between", "statement": "While the terminals of C158 send their bytes, the server runs keepalive checks of these very terminals, as many as it wants and at any point between the reading of two bytes or two steps of a handler, from the moment the job of a terminal is in the table: within a minute every terminal is still sent exactly the answers it wants, byte for byte, its connection is served on and the server knows it, and none of these checks panics (which would end the process).", "quantifier": "all numbers of terminals, messages, connections and checks, all bytes of the others, all stores reached before, all interleavings of reading, handling, checking and writing within a minute", "why_tests_cant": "A check between two bytes of a registration, or between two steps of its handler, is not something a test can bring about, and there are unboundedly many places for it.", "anchors": ["internal/server/tcp_server.go:serve", "internal/protocol/frame_handler.go:Recv", "internal/protocol/packet_codec.go:Decode", "internal/protocol/pipeline.go", "internal/protocol/msg_processor.go:Process", "internal/protocol/keepalive.go", "internal/storage/device_cache.go"]}
{"id": "C160", "title": "Whatever bytes a terminal sends, it is answered as by a sequential server", "statement": "On one connection any bytes arrive: noise, broken frames, messages of one terminal of any kind, good and bad ones, in any order. On other connections any bytes arrive that are about other phones and do not register with the plates of this terminal. The server reads bytes of all connections, handles messages step by step and writes answers in any order. At every point at which it is not in the middle of a message of this terminal, what it has written to the terminal byte for byte, whether it still serves the connection, and what it knows of the terminal (device, positions, keepalive job, parameters) are exactly what the server that does one thing at a time comes to, given only the frames of this terminal.", "quantifier": "all byte streams without fragments on any number of connections, all stores reached before, all interleavings of reading, handling and writing at any times", "why_tests_cant": "It is a statement about all byte streams and all interleavings, and it is what justifies testing the server one connection at a time at all.", "anchors": ["internal/server/tcp_server.go:serve", "internal/protocol/frame_handler.go:Recv", "internal/protocol/packet_codec.go:Decode", "internal/protocol/pipeline.go", "internal/protocol/msg_processor.go:Process", "internal/protocol/msg_processor.go:processMsg0100", "internal/protocol/msg_processor.go:processMsg0102", "internal/protocol/msg_processor.go:processMsg0200", "internal/storage/device_cache.go", "internal/storage/geo_cache.go"]}
{"id": "C161", "title": "Every frame on a connection is answered after a number of steps that depends only on its bytes", "statement": "On any number of connections any bytes arrive, of any phones and plates, and keepalive checks run. After one step of its own for each byte and nine for each frame, the goroutine of a connection has read all its bytes and has written, in order, exactly one answer for every message that asks for one, with the header and the number of the message, and nothing for frames that hold no message, whatever the other goroutines do in between. It can end before only at a frame on which the server that does one thing at a time ends too whatever it knows, or at a message of a phone that the server did not know at some point.", "quantifier": "all byte streams without fragments on the connection, all byte streams on the others, all stores reached before, all interleavings of reading, handling and writing at any times", "why_tests_cant": "No waiting, no lost and no doubled answer is a statement about all interleavings; a test that sees an answer in time says nothing of the next schedule.", "anchors": ["internal/server/tcp_server.go:serve", "internal/protocol/frame_handler.go:Recv", "internal/protocol/packet_codec.go:Decode", "internal/protocol/pipeline.go", "internal/protocol/msg_processor.go:Process", "internal/protocol/msg_processor.go:processMsg0100", "internal/protocol/msg_processor.go:processMsg0102", "internal/protocol/msg_processor.go:processMsg0200", "internal/storage/device_cache.go", "internal/storage/geo_cache.go"]}
{"id": "C162", "title": "A terminal that is not silent does not notice its own keepalive checks", "statement": "In the situation of C160 any number of keepalive checks of this very terminal run as well, at any point between two bytes or two steps of a handler. As long as the process lives, and if whenever such a check made a step nothing recorded of the terminal was older than its keepalive interval, then all that the terminal is sent byte for byte, whether it is still served and what the server knows of it are exactly what the server that does one thing at a time, and no checks, comes to; and no such check cancels anything. For a terminal that nobody has heard of before, the assumption on what is recorded holds of itself during the first minute, whatever bytes it sends.", "quantifier": "all byte streams without fragments on any number of connections, all numbers of checks, all stores reached before, all interleavings of reading, handling, checking and writing", "why_tests_cant": "A check reads the record in several steps and may meet any state of a handler in between; a test shows a handful of these meetings.", "anchors": ["internal/server/tcp_server.go:serve", "internal/protocol/frame_handler.go:Recv", "internal/protocol/packet_codec.go:Decode", "internal/protocol/pipeline.go", "internal/protocol/msg_processor.go:Process", "internal/protocol/keepalive.go", "internal/storage/device_cache.go", "internal/storage/geo_cache.go"]}
{"id": "C163", "title": "In the end a terminal has got all the answers of a sequential server", "statement": "In the situation of C160, as soon as the goroutine of the connection has made one step of its own for each byte and nine for each frame, whatever the other connections and checks have done or not done by then, the bytes written on the connection, whether it is still served and what the server knows of the terminal are exactly what the server that does one thing at a time comes to after all frames of this terminal and nothing else. During the first minute of a terminal this also holds with any number of keepalive checks of the terminal itself, as long as the process lives.", "quantifier": "all byte streams without fragments on any number of connections, all stores reached before, all interleavings of reading, handling, checking and writing in which the connection makes enough steps", "why_tests_cant": "That nothing of it is lost, delayed by others, or decided by a race is a statement about all interleavings.", "anchors": ["internal/server/tcp_server.go:serve", "internal/protocol/frame_handler.go:Recv", "internal/protocol/packet_codec.go:Decode", "internal/protocol/pipeline.go", "internal/protocol/msg_processor.go:Process", "internal/protocol/keepalive.go", "internal/storage/device_cache.go", "internal/storage/geo_cache.go"]}
{"id": "C164", "title": "What a terminal is sent is a function of what it sends", "statement": "A terminal sends some bytes to the server in two situations that may differ in everything else: in what happened before, in who else is connected and what they send, in the keepalive checks of others, in its own connection, in the order in which the server does things and in the time of day. If at the beginning the server knows the same of the terminal, of whether its plates are taken and of its parameters in both, then in the end it has been sent the same bytes in both, it is served on in both or in neither, and the server knows the same of it, up to the connection and the time it was last heard of.", "quantifier": "all byte streams without fragments and without 0x9205 of the terminal, all pairs of situations with any bytes of the others, all stores reached before, all interleavings, all times", "why_tests_cant": "It compares all pairs of executions; a test compares one with what its author expected.", "anchors": ["internal/server/tcp_server.go:serve", "internal/protocol/frame_handler.go:Recv", "internal/protocol/packet_codec.go:Decode", "internal/protocol/pipeline.go", "internal/protocol/msg_processor.go:Process", "internal/protocol/msg_processor.go:processMsg0100", "internal/protocol/msg_processor.go:processMsg0102", "internal/protocol/msg_processor.go:processMsg0200", "internal/storage/device_cache.go", "internal/storage/geo_cache.go"]}
{"id": "C165", "title": "Connections that break, at any moment, cost no other terminal anything", "statement": "Any connections other than that of a terminal break, at any moments of a run with any number of connections: nothing comes on them any more, or writing on them fails, after any number of bytes of a frame, with an error that ends their serve or with one after which it goes on. The terminal still gets, byte for byte, all the answers of the server that does one thing at a time and hears of nobody else, and the server knows of it what that server does. If the connection of the terminal itself breaks, then at every point at which it is not in the middle of a message the server knows of the terminal exactly what the sequential server knows after some first ones of its frames, and what the terminal has got are the first bytes of what that server writes: nothing is half done, doubled or out of order.", "quantifier": "all byte streams without fragments on any number of connections, all moments and ways in which connections break, all stores reached before, all interleavings of reading, handling and writing at any times", "why_tests_cant": "The moment of a failure multiplies the interleavings of C160; a test breaks a connection at one of them.", "anchors": ["internal/server/tcp_server.go:serve", "internal/protocol/frame_handler.go:Recv", "internal/protocol/frame_handler.go:Send", "internal/protocol/pipeline.go:send", "internal/protocol/msg_processor.go:Process", "internal/storage/device_cache.go", "internal/storage/geo_cache.go"]}
{"id": "C166", "title": "In its first minute a new terminal is answered as by a server just started for it alone", "statement": "A terminal of which the server has never heard, and whose plates nobody else has used, connects and sends any bytes. Whatever was before, whatever any number of other terminals send on their connections, however and whenever these break, whatever keepalive checks run, also of the terminal itself and at any points: if this happens within a minute and the process lives, then as soon as the connection has made one step for each byte and nine for each frame the terminal has been sent byte for byte what a server sends it that has just been started and serves nobody else, on any connection and at any times; it is served on exactly if it is there, and both servers know the same of it.", "quantifier": "all byte streams without fragments and without 0x9205 of the terminal, all byte streams of the others, all earlier histories, all numbers of connections and checks, all moments at which other connections break, all interleavings within a minute; all connections and times of the server it is compared with", "why_tests_cant": "It says that a test against a fresh server with one terminal speaks for all circumstances; no test can say that of itself.", "anchors": ["internal/server/tcp_server.go:serve", "internal/protocol/frame_handler.go:Recv", "internal/protocol/frame_handler.go:Send", "internal/protocol/packet_codec.go:Decode", "internal/protocol/pipeline.go", "internal/protocol/msg_processor.go:Process", "internal/protocol/keepalive.go", "internal/storage/device_cache.go", "internal/storage/geo_cache.go"]}
{"id": "C167", "title": "Terminals that share a connection are each answered as if alone", "statement": "Several terminals send their messages over one connection, as behind a gateway, mixed in any way with each other and with noise; on other connections any bytes arrive. What the server writes on the connection is a sequence of answers, each for one phone. For every phone all messages of which come on this connection, and with whose plates nobody else registers, at every point at which the server is not in the middle of a message of it: the answers for it are byte for byte, and what the server knows of it is, what the server that does one thing at a time comes to, given only those of the frames read so far that carry this phone. What can befall it from the others is only that the connection ends.", "quantifier": "all byte streams without fragments on any number of connections, all numbers of phones per connection, all stores reached before, all interleavings of reading, handling and writing at any times", "why_tests_cant": "The combinations of messages of several terminals on one connection with all interleavings of all connections are unbounded; C160 is about connections with one phone.", "anchors": ["internal/server/tcp_server.go:serve", "internal/protocol/frame_handler.go:Recv", "internal/protocol/packet_codec.go:Decode", "internal/protocol/pipeline.go", "internal/protocol/msg_processor.go:Process", "internal/protocol/msg_processor.go:processMsg0100", "internal/protocol/msg_processor.go:processMsg0102", "internal/protocol/msg_processor.go:processMsg0200", "internal/storage/device_cache.go", "internal/storage/geo_cache.go"]}
{"id": "C168", "title": "Behind a gateway every terminal gets all its answers in the end", "statement": "In the situation of C167, with several terminals on one connection, any other connections may also break at any moments. As soon as the goroutine of the connection has made one step of its own for each byte and nine for each frame, it is in the middle of no message; if the connection is still served all has been read, and for every phone all messages of which come on this connection, and with whose plates nobody else registers, the answers for it are byte for byte all that the server that does one thing at a time writes, given all frames that carry this phone and nothing else, and the server knows of the phone what that server knows. If the connection is not served any more, this is so with the frames up to the one that ended it, which is one on which the sequential server ends too whatever it knows, or a message of a phone that the server did not know at some point.", "quantifier": "all byte streams without fragments on any number of connections, all numbers of phones per connection, all moments at which other connections break, all stores reached before, all interleavings in which the connection makes enough steps", "why_tests_cant": "As C163 and C167 together: that nothing is lost or delayed for any of the terminals that share a connection is a statement about all interleavings.", "anchors": ["internal/server/tcp_server.go:serve", "internal/protocol/frame_handler.go:Recv", "internal/protocol/frame_handler.go:Send", "internal/protocol/packet_codec.go:Decode", "internal/protocol/pipeline.go", "internal/protocol/msg_processor.go:Process", "internal/storage/device_cache.go", "internal/storage/geo_cache.go"]}
{"id": "C169", "title": "Commands of the HTTP API and connections that come and go are unnoticed by every terminal", "statement": "Connections on which any bytes arrive, that may break at any moments, and keepalive checks run together with any number of parameter requests of the HTTP API and with any accepts and removes of connections, each step of each at any point. Take the requests, accepts and removes out with all their steps: then at the end every connection has read the same bytes, is at the same step of the same message, has been written the same answers and is served or not as before, and the registered terminals, their plates, positions, parameters and keepalive jobs are the same. So each terminal, also one to which commands are sent in the meantime, gets exactly the answers of C165.", "quantifier": "all stores, all byte streams without fragments, all numbers of connections, checks and requests, all breaks, all interleavings of all their steps", "why_tests_cant": "It compares all executions with commands to all executions without; C149 is about messages handed to the handlers, this is about bytes.", "anchors": ["internal/api/api.go", "internal/server/tcp_server.go:serve", "internal/storage/segment_cache.go", "internal/storage/session_cache.go", "internal/protocol/frame_handler.go:Recv", "internal/protocol/frame_handler.go:Send", "internal/protocol/msg_processor.go:Process", "internal/storage/device_cache.go", "internal/storage/geo_cache.go"]}
{"id": "C170", "title": "Fragments of other terminals do a terminal no harm", "statement": "In the situation of C163 other terminals also send fragments: whole messages of them or not, in any order, several with the same key, of phones that are registered or not, so that some connections end at them and some are acknowledged; and there are requests of the HTTP API and connections that come and go. A terminal that sends no fragments itself still gets in the end, byte for byte, all answers of the server that does one thing at a time and hears of nobody else, and that server knows the same of it.", "quantifier": "all byte streams on the other connections, all byte streams without fragments of the terminal, all stores reached before, all interleavings of reading, caching, handling, writing, requests, accepts and removes in which the connection makes enough steps", "why_tests_cant": "The segment cache is shared by all connections and fragments of one are mixed with those of others (C53); a test cannot exclude that a third party suffers from it.", "anchors": ["internal/server/tcp_server.go:serve", "internal/protocol/frame_handler.go:Recv", "internal/protocol/packet_codec.go:Decode", "internal/protocol/model/segment.go", "internal/protocol/pipeline.go", "internal/protocol/msg_processor.go:Process", "internal/protocol/msg_processor.go:processSegmentPacket", "internal/storage/device_cache.go", "internal/storage/geo_cache.go"]}
{"id": "C171", "title": "Fragments of others do no harm behind a gateway either", "statement": "Several terminals send whole messages over one connection, mixed with each other and with noise; on the other connections anything arrives, also fragments; there are requests of the HTTP API, keepalive checks of others, and connections that come and go. As soon as the goroutine of the connection has made one step of its own for each byte and nine for each frame, then, for every phone that is only on this connection and whose plates are its own, the answers for it are byte for byte all that the server that does one thing at a time writes, given all frames of this phone and nothing else, and the server knows of it what that server knows; unless the connection has ended before, which it does only at a frame on which the sequential server ends too whatever it knows, or at a message of a phone that the server did not know at some point.", "quantifier": "all byte streams on the other connections, all byte streams without fragments on this one, all numbers of phones, all stores reached before, all interleavings in which the connection makes enough steps", "why_tests_cant": "As C168 and C170 together; the combinations of what others send, in fragments and not, with all interleavings are unbounded.", "anchors": ["internal/server/tcp_server.go:serve", "internal/protocol/frame_handler.go:Recv", "internal/protocol/packet_codec.go:Decode", "internal/protocol/model/segment.go", "internal/protocol/pipeline.go", "internal/protocol/msg_processor.go:Process", "internal/protocol/msg_processor.go:processSegmentPacket", "internal/storage/device_cache.go", "internal/storage/geo_cache.go"]}
{"id": "C172", "title": "All at once: whatever others do, a terminal gets the answers of a server of its own", "statement": "On one connection a terminal, or several behind a gateway, sends any bytes without fragments. Around it everything the model has happens at once, each step at any point: any bytes on any number of other connections, whole messages, fragments and noise; other connections break at any moments, with nothing more to read or with writes that fail in the middle of an answer or of the acknowledgement of a fragment, with or without ending serve; requests of the HTTP API are taken up and write to terminals, also to this one; keepalive checks of others run; connections are accepted and removed. As soon as its connection has made one step of its own for each byte and nine for each frame, the terminal has been answered byte for byte as by the server that does one thing at a time and is given all its frames and nothing else, it is still served exactly if it is by that server, and both know the same of it; behind a gateway this holds for every phone as in C171.", "quantifier": "all byte streams on all connections (without fragments on that of the terminal), all numbers of connections, checks and requests, all moments and ways in which other connections break, all stores reached before, all interleavings of all steps in which the connection makes enough steps", "why_tests_cant": "It is the combination of C163, C165, C168, C169 and C170: a test sees one schedule of one combination.", "anchors": ["internal/api/api.go", "internal/server/tcp_server.go:serve", "internal/storage/segment_cache.go", "internal/storage/session_cache.go", "internal/protocol/frame_handler.go:Recv", "internal/protocol/frame_handler.go:Send", "internal/protocol/packet_codec.go:Decode", "internal/protocol/model/segment.go", "internal/protocol/pipeline.go", "internal/protocol/msg_processor.go:Process", "internal/protocol/msg_processor.go:processSegmentPacket", "internal/protocol/keepalive.go", "internal/storage/device_cache.go", "internal/storage/geo_cache.go"]}
{"id": "C173", "title": "In its first minute a new terminal is answered as by a server just started for it alone, whatever others do all at once", "statement": "A terminal of which the server has never heard sends any bytes (without fragments and 0x9205) on its connection. Whatever was before, and whatever goes on around it as in C172, whole messages and fragments of others on any number of connections, connections that break, come and go, requests of the HTTP API also for this terminal, checks of others, and besides any number of keepalive checks of the terminal itself, each at any point: if all that happens within some minute and the process lives, then as soon as its connection has made one step for each byte and nine for each frame the terminal has been sent exactly what a server sends it that has just been started and serves nobody else, on whatever connection and at whatever times; it is served on exactly if it is there, and both know the same of it. None of its own checks has cancelled anything.", "quantifier": "all byte streams on all connections (without fragments on that of the terminal), all numbers of connections, requests and checks, all moments at which other connections break, all that was handled before about others, all interleavings within any minute in which the connection makes enough steps", "why_tests_cant": "Whether a keepalive check, a request or a fragment of somebody else falls between two accesses of a handler to the caches is a matter of the schedule; a test sees one.", "anchors": ["internal/api/api.go", "internal/server/tcp_server.go:serve", "internal/storage/segment_cache.go", "internal/storage/session_cache.go", "internal/protocol/frame_handler.go:Recv", "internal/protocol/frame_handler.go:Send", "internal/protocol/packet_codec.go:Decode", "internal/protocol/model/segment.go", "internal/protocol/pipeline.go", "internal/protocol/msg_processor.go:Process", "internal/protocol/msg_processor.go:processSegmentPacket", "internal/protocol/keepalive.go", "internal/storage/device_cache.go", "internal/storage/geo_cache.go"]}
{"id": "C174", "title": "The checks of a terminal that is not silent go unnoticed, whatever others do all at once", "statement": "A terminal sends any bytes without fragments on one connection. On others anything arrives about other phones and plates, whole or in fragments; other connections break at any moments as in C172; connections come and go; requests of the HTTP API are under way, also for this terminal; checks of others run, and any number of keepalive checks of the terminal itself, each step at any point. If the process lives and whenever one of these checks makes a step nothing recorded of the phone is older than its keepalive interval, then the terminal gets all answers of a server that does one thing at a time, runs no checks and serves nobody else, both know the same of it, and none of its checks has cancelled anything. Other than in C173 there is no limit of a minute and the terminal need not be new.", "quantifier": "all byte streams on all connections (without fragments on that of the terminal), all numbers of connections, requests and checks, all stores reached before, all interleavings in which the connection makes enough steps", "why_tests_cant": "A check reads the store in several steps between which handlers, requests and fragments may change it; whether one of the many orders lets a check cancel a living terminal is not visible in one schedule.", "anchors": ["internal/api/api.go", "internal/server/tcp_server.go:serve", "internal/storage/session_cache.go", "internal/protocol/frame_handler.go:Recv", "internal/protocol/packet_codec.go:Decode", "internal/protocol/model/segment.go", "internal/protocol/pipeline.go", "internal/protocol/msg_processor.go:Process", "internal/protocol/msg_processor.go:processSegmentPacket", "internal/protocol/keepalive.go", "internal/storage/device_cache.go", "internal/storage/geo_cache.go"]}
