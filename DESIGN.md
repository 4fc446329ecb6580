# Formal model of jt808-server-go: design

Source: `/repo` (Go) at the pinned commit, read as text.  Model and proofs: `lean/` (Lean 4.33.0, core library only).

## Layout

- `Verif/Go/*`     Go semantics used by the model: result/panic type, slices with spare capacity, byte arithmetic.
- `Verif/Model/*`  the code, function by function, each definition citing file and lines.
- `Verif/Spec/*`   small specifications, written without the model's helpers.
- `Verif/Proof/*`  helper lemmas.
- `Verif/Props/*`  the property theorems (`C01_...`), each with a concrete instance (`example`) of its hypotheses.

A property that is false of the code has a theorem for its negation (general where possible, else a concrete witness)
and `_partial` theorems for the part that holds; its status is `partial`.

## Modelling decisions

- Go `string` and `[]byte` contents are `List UInt8`.
- A `[]byte` handed to a decoder is `Slice = {data, slack}`: `data` is `b[:len]`, `slack` is what lies between len and
  cap.  Go bounds a slice expression `b[i:j]` by **cap**, an index `b[i]` by **len**; the model follows this exactly.
  The amount of slack `append` leaves is a parameter (`Env.grow`), so theorems hold for every growth policy.
- Panics are values (`Res.panic`), `error` returns are values (`Res.err e`).  State-changing functions return the new
  state next to the result, since effects before a panic persist.
- Integers are Go's fixed-width ones (`UInt8`, `UInt16`, `UInt32`), wrapping as in Go.
- Devices shared between maps live on an explicit heap and are addressed by references, because handlers change a device
  through the pointer.
- Time is an input given with each event (`Clock`: Unix milliseconds and civil time).
- `Model/Server`: the process as a transition system, one event per handled frame, keepalive check, accept, read error or
  HTTP request; `Sys.run` is a history.
- `Model/Conc`: handlers and checks as programs of atomic steps (one cache call or one field access each), run by any
  number of goroutines in any order.
- `Model/Workers`, `Model/Lines`, `Model/Breaks`: goroutines that handle the messages of their connection one after another, that
  read and write its bytes themselves, and whose connections may break at any moment (C154-C168).  Fragments are not in `Lines`.
- `Model/Hub`, `Model/Mixed`, `Model/Full`: these together with HTTP requests, accepts and removes (C169), with fragments
  (C170, C171), and all at once (C172-C174).
- `Model/Client`: the terminal simulator, which runs the same codec and handlers on its own store.


## Properties: what is modelled and how it is proved

- **C01 Escaping is undone exactly by unescaping.** (proved) `escape`/`unescape` as list functions; induction on the packet. — escape then unescape is the identity; the wire format equals an independent byte-stuffing spec; escape is injective
- **C02 Frames are self-delimiting.** (proved) `recv` as a fold over the byte stream; induction on the frame body. — all packets, all following bytes
- **C03 A stream of frames is cut into exactly those frames.** (proved) `recvAll` iterates `recv`; induction on the list of frames. — all frame lists and 0x7e-free noise
- **C04 Frame boundaries do not depend on how the transport splits the bytes.** (partial) chunked reader (list of reads) refines the flat stream; induction on the reads. — false when a read returns 0 bytes with a nil error (C04_empty_read_changes_frame): the previous byte is taken twice; proved for every splitting into non-empty reads
- **C05 No partial frame is ever delivered.** (proved) characterisation of `recv` success/failure by induction on the stream. — exact characterisation of delivery and of the error case
- **C06 A stray delimiter costs at most one frame.** (partial) FALSE of the code: a stray 0x7e in front of back-to-back frames makes every later read return `[7e,7e]`. Negation proved for every list of frames; `_partial`: any 0x7e-free noise is survived, and one stray byte followed by noise before the next frame costs exactly one spurious frame. — false: after a stray 0x7e in front of back-to-back frames no frame is ever delivered again; the negation is proved for all frame lists; paired delimiters are survived
- **C07 Sending writes the whole payload, in order, exactly once.** (proved) `send` loop against a scripted writer (list of accepted lengths or errors); induction on the script. — all write scripts
- **C08 The checksum catches every single-byte corruption.** (proved) XOR fold; algebra of xor on UInt8. — acceptance implies XOR zero; every single-byte change is refused
- **C09 Decoding a frame we encoded gives back the header and the body.** (proved) composition of C01, the checksum and C15. — for every well-formed header and every body up to 1023 bytes
- **C10 The decoded packet reports the frame's checksum.** (partial) FALSE: Decode reads the last byte of the raw frame, the delimiter. Negation: the field is 0x7e for every accepted frame that `Recv` can deliver; witness where checksum differs. — false: the field always holds the closing delimiter 0x7e; negation and witness proved
- **C11 Integer fields round-trip and move the cursor by their width.** (proved) `ReadsAt` predicate on readers; shift/or arithmetic lemmas. — all values, positions and surroundings; BYTE reads are bounded by len, multi-byte reads by cap
- **C12 BCD numbers survive a write and a read.** (partial) exact characterisation by induction over the digit string. — false for odd lengths from nine digits on (last digit lost, proved for all such strings); proved for all other digit strings
- **C13 Protocol timestamps round-trip.** (proved) civil date model with leap years, digits parser; exact characterisation of acceptance. — round trip for all dates of the window and exact acceptance for all six-byte inputs
- **C14 The 16-bit body attribute word is decoded and re-encoded without loss.** (proved) all 65536 words through Nat div/mod arithmetic, against a bit-level spec. — all words; bit-level specification
- **C15 Headers round-trip for both header layouts.** (proved) `ReadsAt` composition. — both directions and the byte layout; phones that fill their field
- **C16 A truncated header is never accepted.** (proved) final slice expression `pkt[idx:]` is bounded by len; monotone cursor lemma. — exact acceptance condition for every packet and every capacity
- **C17 A truncated body is never accepted.** (partial) per message type: minimum length or independence of what lies behind the body, for every capacity. — false for 0x0102, 0x0200 and 0x1205 bodies (multi-byte reads are bounded by capacity: C17_truncated_location_accepted); minimum lengths proved for the other types, independence of outside bytes for every message that stays within its body
- **C18 The body-length field is the body length.** (partial) FALSE for bodies over 1023 bytes: witness; `_partial` for bodies up to 1023. — false for bodies of 1024 bytes and more (proved for all such lengths below 65536); proved up to 1023
- **C19 Fixed-layout messages round-trip.** (proved) `ReadsAt` composition per message. — all field values; body layouts proved equal to an independent byte specification
- **C20 Registration messages round-trip in all three protocol versions.** (partial) per version; exact plate-length condition for the 2011/2013 discrimination; FALSE witness for the empty plate in 2013 and long plates in 2011. — proved for 2019 registrations; for 2013/2011 only for plates of the lengths where the version guess by body length is right; empty plates and plates GBK cannot encode are lost (proved)
- **C21 Location status bits are decoded to the documented fields.** (proved) bit-vector to Nat arithmetic, spec by `Nat.testBit`. — all 32-bit status words
- **C22 Location status encoding is the inverse of decoding.** (partial) FALSE: Encode swaps the latitude and longitude type bits. Witness; `_partial` when both bits agree (exact: iff). — false: encoding exchanges the two hemisphere bits; exact condition for the round trip proved
- **C23 Each terminal parameter value round-trips.** (partial) per kind lemma, then over the whole argTable. — false for strings over 255 bytes and odd BCD values from nine digits (both proved); proved for every other value of all 93 ids; the id table equals an independent one
- **C24 Terminal parameter lists round-trip.** (partial) induction on the list; FALSE with unsupported ids (count byte keeps counting skipped items, decode panics). — false for lists with unsupported ids: they are counted but not written (proved for all such lists), and reading one panics; proved for all lists of supported items
- **C25 Updating parameters overwrites by id and keeps the rest.** (proved) insertion map + sort; permutation/sortedness lemmas. — for every map iteration order; ids unique, ascending, last value wins
- **C26 A parameter that was set is the one later reported.** (partial) FALSE for ids not already stored; `_partial` for ids already stored. — false for ids the terminal did not store before (general theorem and witness); exact description of what is kept and reported proved
- **C27 Unknown message ids are ignored.** (partial) case analysis of `process`. — false for fragments: the first fragment of any message ends the connection (proved); proved for unfragmented packets
- **C28 Corrupt frames are ignored.** (proved) case analysis of the pipeline. — every content with a wrong checksum, in canonical or other stuffing
- **C29 Every reply answers the request that caused it.** (partial) reply generation composed with the codec round trip. — proved for every reply of the server in every state, and of the simulator when the body fits 1023 bytes, provided the phone number fills its field; false for numbers with a digit F (witness)
- **C30 At most one reply per frame, none on failure.** (proved) case analysis of the pipeline. — every frame, store and write result
- **C31 Registered plates and phones are unique and the two indexes agree.** (proved) inductive invariant over histories of atomic events. — by induction over all histories of the sequential model
- **C32 Registration is refused exactly when plate or phone is taken, and refusal changes nothing.** (proved) case analysis on `process0100` against a relational spec. — all three cases, every store / every reachable store
- **C33 Registration stays unique under concurrent connections.** (partial) interleaving model (`Model/Conc`): a schedule for every suitable store, and an invariant for the rest. — false: for any store in which the plate and two phones are free there is an interleaving in which both registrations succeed (C33_both_succeed). Proved: a registration that looks when the plate is taken is refused, in every interleaving
- **C34 Authentication succeeds exactly with the code issued at registration.** (proved) invariant `authcode = FNV(id_plate_phone)` + history. — Whole histories: the code of the last successful registration reply is the only one that authenticates.
- **C35 A failed authentication cannot disturb a registered terminal of another connection.** (partial) FALSE: any connection can remove a terminal by a wrong code. Negation for every state; `_partial` on effects: exactly the addressed phone is removed. — false: any connection removes a terminal with a wrong code (proved for all such cases); other phones are unaffected
- **C36 A terminal is online or sleeping only after a successful authentication.** (partial) FALSE: a 8001 with result 0 or a location report with ACC off from anyone. Witness; `_partial`: invariant over histories without those two. — False: an ACC-off location report and a general reply sent by the terminal also wake an unauthenticated device (witnesses). Proved: one of the three kinds of event happened while registered; authentication if the other two are absent.
- **C37 Deregistration erases the terminal.** (partial) FALSE for locations: they survive deregistration. Witness; `_partial` for indexes and job. — false for the last location: tracks survive and are served to the next owner of the phone (proved); phone, plate and job are freed
- **C38 Messages for unregistered phones are refused and close the connection.** (proved) case analysis through the serve step. — all four message types
- **C39 A location report is recorded for its phone and ACC-off puts the terminal to sleep.** (proved) case analysis; ring lemma. — all reachable stores
- **C40 The latest-location query returns the newest report.** (partial) FALSE after every 100th report. Exact characterisation, witness, `_partial` otherwise. — False after every hundredth report (witness by induction). Proved: exact answer of the location query after any history.
- **C41 Messages of one phone do not affect another.** (proved) frame rule over all handlers, from the C31 invariant. — over arbitrary stretches of events
- **C42 Only the connection that registered a phone can deregister it.** (partial) FALSE: no handler looks at the connection. Theorem: result independent of connection. — false: a deregistration works from any connection (proved for all); other phones are unaffected
- **C43 A terminal that keeps sending heartbeats is never taken offline.** (proved) arithmetic on times + case analysis, with history version. — Whole histories with clocks that do not run backwards.
- **C44 A silent terminal goes offline and is then removed.** (proved) case analysis, two ticks. — One check and two checks in any history without frames of the phone in between.
- **C45 Keepalive jobs and registered devices correspond one to one.** (proved) inductive invariant. — by induction over all histories of the sequential model
- **C46 A keepalive check never crashes the server.** (partial) invariant over histories; schedules in the interleaving model. — false under concurrency in two ways, each shown from every suitable store: a check racing with a deregistration, and a job left behind by a deregistration racing with a registration. Proved: no crash when handlers and checks run one at a time (C46_sequential_partial); in every interleaving a check that finds its device does not panic (C46_found_partial)
- **C47 The ring buffer keeps exactly the last Size writes.** (proved) invariant of the ring by induction over operations. — all sizes and all operation sequences
- **C48 Latest and Overwrite act on the newest ring element.** (partial) FALSE at wrap-around; exact characterisations. — false as stated: Latest is nil whenever the number of writes is a multiple of the size, and Overwrite replaces the oldest element (both proved for all histories); Latest is proved otherwise
- **C49 Serial numbers count up and do not repeat within a cycle.** (partial) closed form by induction; step model of GetNextSerialNum with concurrent callers. — proved for successive calls (n-th number is n mod 65536, distinct within a cycle), for every server history one event at a time (each connection counts its own draws: C49_counts; the number is on the wire: C49_on_the_wire), and for all interleavings of up to 65535 concurrent calls; false for concurrent callers at the wrap-around (C49_concurrent_repeats)
- **C50 A session is reachable exactly while its connection is open.** (partial) invariant over histories of accepts and closes; witnesses with reused addresses. — False with reused addresses and after a keepalive close (witnesses). Proved: sessions found are of served connections; open connections are found when addresses are not reused.
- **C51 No received frame can crash the server or block other connections.** (proved) total classification of one pass of serve; invariant over histories.
- **C52 A fragmented message is processed once, with its whole body.** (partial) exact behaviour of CacheSegment and Process per fragment; witness. — false: first fragment closes the connection, only the last fragment is processed, collected data is never dropped (general theorems and witness); acknowledgement of later fragments proved
- **C53 Fragments of different terminals or messages are never mixed.** (partial) key injectivity outside surrogates; witness in the surrogate range. — false for ids in the surrogate range (witness); for all other ids the collected data of a message is exactly its own fragments, over all histories
- **C54 Server-initiated messages are decodable by the terminal.** (partial) FALSE for 2019 devices; `_partial` for 2011/2013 devices. — false for every 2019 terminal: the protocol version byte is never written; the query makes a decoder panic, other messages lose their first body byte (general theorems). Proved for all other terminals over all histories
- **C55 HTTP requests for unknown phones are refused without side effects.** (proved) case analysis of the routes.
- **C56 A malformed parameter-setting request sends nothing.** (partial) exact behaviour of the route; witness. — False: the handler goes on after the bind error and sends a parameter-setting message (witness). Proved: the answer is 400.
- **C57 A parameter-setting request reaches the terminal unchanged.** (partial) composition of C09, C24 and the header of GenMsgHeader. — false for every 2019 terminal, which decodes a setting of no parameters (general theorem). Proved for other terminals and lists that survive encoding; whole JSON numbers below 2^53 survive the detour through float64 (C57_json_number)
- **C58 Register-then-authenticate works end to end.** (partial) composition of byte codecs and both processors. — proved for every 2019 simulator and for every 2013/2011 simulator with a plate, all server and simulator states, texts cut to their fields; a 2013 simulator without a plate can be refused (C58_empty_plate_2013), because its registration is read in the 2011 layout
- **C59 Authorisation codes are a function of the identity and cannot be the placeholder.** (proved) FNV range; digits versus letters. — code = decimal FNV-1a of id_plate_phone against an arithmetic specification; same identity, same code; the placeholder never authenticates
- **C60 A connection's stream is handled frame by frame.** (partial) `serve` = fold; induction on the stream. — stream = frames one by one, noise and frames with a wrong checksum irrelevant, proved for all streams; false for other bad frames, which may end the connection (witness)
- **C61 Cache entries are always filed under their own keys.** (proved) invariant over the interleaving model. — all interleavings of all handlers and checks
- **C62 The device listing shows each registered device once.** (proved) from the C31 invariant. — all reachable stores
- **C63 Every documented log level is honoured.** (partial) FALSE for FATAL; exact characterisation. — false for FATAL (misspelt), proved for the other four names and for all other strings
- **C64 A heartbeat refreshes the terminal and nothing else.** (proved) frame property of process0002. — all reachable stores
- **C65 Authentication messages round-trip.** (partial) `ReadsAt` composition per version. — 2013 proved; 2019 proved for 15-character IMEIs and codes up to 255 bytes, shorter IMEIs come back NUL-padded (witness)
- **C66 A packet whose declared body length is not the length of its body is refused.** (partial) acceptance shown independent of the length bits. — false: acceptance is independent of the declared length (proved for every length and body); the packets we write ourselves declare the right length
- **C67 The declared length of a terminal parameter is honoured.** (partial) consumption of each kind computed from `PKind.decode`. — false for BYTE/WORD/DWORD parameters (witness); proved for texts; exact consumption proved for all
- **C68 Concurrent handlers of one terminal never touch another.** (proved) rely/guarantee invariant `CSys.OK` over interleavings; frame condition of every step. — all interleavings; every single step of every goroutine
- **C69 Concurrently accepted authentications used an issued code.** (proved) ghost history of registrations carried by the invariant. — all interleavings
- **C70 A deregistered terminal stays unknown until it registers again.** (partial) schedule from every store; invariant `Gone` for the rest. — false: a heartbeat racing with the deregistration brings the terminal back without a keepalive job, from every store (C70_resurrected). Proved for all interleavings when no handler of that phone is still running
- **C71 Message handlers do not panic however they are scheduled.** (proved) `Prog.Safe`: every reachable continuation ends without panic. — all interleavings; the built-in parameter table is shown to decode whatever the text converter does
- **C72 Handlers of different terminals do not interfere.** (proved) simulation `Twin` between the run with and without the other goroutines. — all interleavings of any number of goroutines
- **C73 A sleeping terminal that reports ACC on is awake again.** (partial) induction over histories with the per-event effect on a device. — false: heartbeats and ACC-on reports never change the status, over all histories (C73_reports_keep_status). Proved: an authentication with the issued code wakes it
- **C74 An offline terminal that is heard of again is online.** (partial) induction over histories. — false: heartbeats, ACC-on reports, registrations and checks keep an offline terminal offline, over all histories (C74_stays_offline). Proved: a heartbeat keeps it from being removed for a minute
- **C75 A silent terminal is removed within three keepalive periods, and not before.** (proved) exact formula by induction over histories, arithmetic for the schedule. — exact fate as a function of the number of late checks; the three-minute bound from a periodic schedule with any phase
- **C76 Keepalive expiry does what its comment says.** (partial) per-event effect over histories. — both promises are false: going offline leaves all connections and sessions alone (C76_offline_keeps_connection), and the next check removes the terminal however soon it comes (C76_removed_next). Proved: removal only after being offline and silent for a minute, closing the connection of the registration
- **C77 A terminal that lost its connection can register again.** (partial) composition of C75 and the registration decision over histories. — false: refused with 1 or 3 as long as the terminal is cached, whatever happened to the connection (C77_refused_while_cached). Proved: accepted after the late checks that remove it
- **C78 Server-initiated messages follow the terminal to its current connection.** (partial) invariant linking the device record to the last registration event. — false: a terminal stays tied to the connection of its registration (C78_tied_to_registration); when that is gone the request is answered 400 (C78_lost), or goes to whoever has the address now (C78_wrong_connection). Proved: what is sent goes to the address of the registration
- **C79 The server refines a table of registered terminals.** (proved) forward simulation: abstraction function from the two indexes and the heap to the table, one case per message and per check, using the store invariant. — forward simulation event by event, answers on the wire included (for writes that succeed); the tables that arise have no plate twice. Answers to parameter and query messages are not part of the table (C24, C29, C38)
- **C80 Location reports keep a terminal alive.** (partial) exact fate by induction over histories. — false: reports with ACC on do not count as signs of life, a terminal that sends nothing else is removed like a silent one (C80_reports_do_not_count). Proved: a report with ACC off keeps the terminal for a minute
- **C81 Different terminals get different authorisation codes.** (partial) FNV-1a steps are injective in the hash and in the byte (odd prime); decimal texts are injective. — false in three ways: the underscore may be part of id or plate (C81_boundary_moved), colliding ids collide for every plate and phone (C81_colliding_ids, with a concrete pair), and a code issued to one phone authenticates another in a concrete history (C81_borrowed_code). Proved: identities one byte apart get different codes
- **C82 A simulated position arrives as it was generated.** (partial) composition of the location codec, the handler and the ring buffer. — false for the hemispheres, which encoding exchanges (C82_mirrored). Proved: the ranges for every draw, and the exact record stored for draws in range and, as the message says it, for any draw (C82_any_recorded_partial)
- **C83 Concurrent reports of one terminal are all kept.** (partial) Write as three atomic steps, invariant over all schedules, explicit schedules for the failures. — false: two overlapping calls can leave one report only (C83_lost), and an interrupted call makes Latest go back behind any number of newer reports (C83_latest_goes_back). Proved in all interleavings: no index out of range, slots and Latest only ever show reports that were written; calls that do not overlap do what the sequential model says
- **C84 A connection is closed only for its own sake.** (proved) per-event lemma on the set of closed connections; connection numbers are never reused, by an invariant over histories. — exact list of reasons, each naming the very connection; the first three are also sufficient (for the write failure of an HTTP request the message must also be encodable)
- **C85 Removing a silent terminal leaves other terminals connected.** (partial) per-event lemma on closed connections. — false for terminals that registered on the same connection (C85_expiry_takes_others_along, with a concrete gateway). Proved: connections on which the removed terminal did not register stay open
- **C86 Idle connections are closed.** (partial) invariant over all continuations: still served, not closed, no device refers to it. — false: only terminals are checked, a connection nobody registers on is served forever (C86_idle_never_closed). Proved: the connection of a registered terminal is closed when the terminal is removed
- **C87 The simulator and the server keep talking.** (proved) product state machine of server and simulator, invariant with five phases, number of outstanding reads as variant. — server and simulator as two machines with queues of frames between them, and again with single bytes between them (C87_bytes, C87_bytes_settle: a refinement of the former); the interference excluded is listed in Ev.aside
- **C88 Any number of simulators talk at once.** (proved) parametric composition: the C87 invariant of each simulator is preserved by the steps of every other one. — simulators share one device cache, as in the simulator process; the server's steps for one simulator are other business for the rest
- **C89 A refused simulator leaves registered terminals alone.** (partial) runs of the product machine server x simulator from every reachable server state. — false when the phone is taken: the simulator does not look at the result of the registration, authenticates with the placeholder text the refusal carries, and the server deletes the terminal registered under the phone (C89_evicts); proved when only the plate is taken
- **C90 Listing devices is safe while terminals come and go.** (partial) accesses to the mutex and the two maps as steps of any number of goroutines, runtime marks as in the Go map implementation. — false: ListDevice iterates over the map without the mutex, and iterating while a device is being cached ends the process with a fatal error that recover does not catch (C90_listing_is_fatal, from every state with the mutex free). Proved: all other methods together never do and never deadlock; nor do listings and lookups without writers
- **C91 Frames sent at the same time on one connection stay whole.** (partial) one call of Write as a step (a network connection admits one at a time); stream segmentation by C03. — proved for all interleavings when each call of Write is all or nothing; false when a call fails half-way: nothing marks the connection as broken, and the next whole frame of another sender is lost (C91_cut_write_loses, for all frames and cuts)
- **C92 Messages only a platform sends are ignored by the server.** (partial) decision logic of the handlers over all states and frames of the kind. — false: server and simulator share one table of handlers, so anybody connected can set parameters for any phone (C92_anyone_sets_parameters) and is sent media lists (C92_server_reports_media). Proved: registered terminals, locations and sessions are kept, except that a general reply turns an offline terminal online
- **C93 A frame that is sent again does no harm.** (partial) two steps of the frame handler from every reachable state. — proved for heartbeats, authentications with the issued code, refused registrations and unanswered messages; false for registrations (refused without the code, C93_registration_again), deregistrations (the connection is closed, C93_deregistration_again) and locations (recorded twice, C93_location_again)
- **C94 Which frames end a receive loop.** (proved) no decoder or encoder returns an error the loops look for (closure lemmas over all readers), then case analysis over the handlers. — both directions, for frames whose answer can be written (write errors: C84); which frames make the handler panic is the subject of C95
- **C95 A message of the proper size never makes the handler panic.** (proved) weakest preconditions for the readers; invariant that stored parameters have the types of their ids, so that answers can be encoded; ring invariant. — equivalence for every frame; sufficient sizes per kind stated independently of the decoders. Whether a body that is too short panics or reads on into spare memory depends on the capacity of the buffer (C17)
- **C96 Customers with their own phones, plates and addresses do not notice each other.** (proved) unwinding: a relation between the two runs kept by every event of the customer and by every omitted event, with an ownership invariant for devices, sessions and connections. — handlers one at a time (interleaved ones: C72); opened connections are kept because they are numbered; C96_same_plate shows that the plates must differ
- **C97 The server reading bytes does what the server given frames does.** (proved) forward simulation with the per-connection receive buffer as extra state; every frame event can be spelled in bytes. — refinement between the byte-level and the frame-level server used in all other claims, in both directions; how a stream is cut is a relation of its own (Spec.Cut) that determines the frames (C97_cut_unique). One read returns one byte, as conn.Read on a one-byte buffer does
- **C98 An encrypted message is not taken for plain text.** (partial) the handlers commute with changing the mark of the header. — false: the three encryption bits are decoded and never looked at; a marked message has the same effect as an unmarked one and its answer is plain text under a header with the same mark (C98_marks_ignored). Proved: answers to unmarked messages are unmarked
- **C99 The phone number identifies the terminal.** (partial) the phone of a decoded header as a function of the packet; injectivity of the digit text; history invariant that a registered phone came in a registration. — proved for frames of one layout whose numbers are free of the hexadecimal digit F. False otherwise: the same number in the 2013 and the 2019 layout is two terminals (C99_layouts_differ), numbers that differ only before a digit F are one (C99_F_collides, C99_F_refused), and the HTTP interface knows a terminal only by the padded text of 12 or 20 digits (C99_dialled_number_unknown)
- **C100 A terminal that was never sent parameters reports its built-in list.** (partial) the built-in text decoded once and for all by the kernel, for every text codec that leaves ASCII alone; in-place hex decoding explains the stray bytes. — proved for every parameter of the list but 0x76. That one is announced with 35 bytes while 15 are left, and is reported with twenty bytes of the hexadecimal text the list was decoded from (C100_leftover_reported)
- **C101 What the server keeps is given back.** (partial) invariants over all histories; monotonicity of the parameter cache under every event; induction over the list of phones. — proved for sessions (never more than served connections) and, with C62_length, for terminals and keepalive jobs. False for parameters, which are never released (C101_parameters_kept): anybody who asks with frames of fifteen bytes for the parameters of any phones and hangs up leaves 39 parameters per phone behind for ever (C101_anyone_piles_up). The track of a terminal that signed off is kept until its phone is registered again (C101_track_lingers)
- **C102 The position shown is the position reported.** (proved) relative error of rounding, then two decimals of at most fifteen digits on a common grid cannot be rounded alike. — binary64 division modelled with round-to-nearest-even; the printed text is specified as the documentation of strconv.FormatFloat does (fewest digits that parse back). Which report is the latest is C40
- **C103 Only the connection of a terminal can speak for it.** (partial) the frame handler as a function of the connection; invariant over all histories for the listed code. — false: the connection plays no part except for registrations and when a connection ends (C103_any_connection), so any peer speaks for any phone without authenticating (C103_stranger_reports); the code is computed from what GET /device shows, and after an authentication GET /device shows the code itself (C103_code_computed, C103_code_listed). Proved: no event changes which connection, id, plate and session a registered terminal has (C103_registration_partial)
- **C104 Nobody waits for somebody else's peer.** (proved) a rank for each mutex, stack discipline of every piece of code, then release of held mutexes by induction over rank and remaining operations. — the goroutines as sequences of taking and releasing the six mutexes and of network operations, each released by defer. Not modelled: whether Go's mutex is fair (that a goroutine that can go on does), and mutexes inside the libraries
- **C105 Hexadecimal text.** (proved) induction over pairs of characters; the table of digits checked whole by the kernel. — the digits are given by a table of their own, the notation by an inductive relation; equivalence for every text
- **C106 Trouble with one simulated terminal leaves the others running.** (partial) the process as a state machine with the shared device cache; invariants over all runs. — false: seven failed attempts of one simulator to connect end the process whatever the others do (C106_dial_ends_all, and only that: C106_dial_only); a deregistration with the phone of one simulator ends it at the next report (C106_deregistration_ends_all); a connection that ended is never replaced (C106_no_reconnect); the first fragment of a message makes a simulator deaf for good while it goes on sending (C106_fragment_deafens). Proved: main returns exactly when all have connected and stopped reading (C106_finished), and a server that sends no registration, authentication or deregistration cannot make a simulator lose its device or end the process (C106_platform_partial)
- **C107 The answer to a parameter request tells whether the message was sent.** (partial) Sys.step on httpQuery/httpSet. The encoder panics exactly for supported ids with a wrongly typed value (induction over the list); the status then follows from session lookup and encoder. "params":[null] is outside the model (the list holds no nil pointers). — exact conditions of 400, 500 and 200 proved; 200 is answered although the write failed (C107_unsent_200) and for parameters nobody supports (C107_unsupported_200)
- **C108 The server shows a simulated terminal as it was configured.** (partial) The frames of the handshake (C58) followed through both stores; the record left by the authentication is computed from the decoded messages. — proved for 2019 simulators with ids of at most 30 bytes and 15-byte IMEIs; for 2013/2011 simulators IMEI and software are shown empty and ids cut to seven bytes (C108_id_cut)
- **C109 A terminal handled message by message sees a sequential server.** (proved) Non-interference (C72) reduces the run to the terminal's own steps; a goroutine's uninterrupted steps equal the sequential handler (alone_handle, alone_check); induction over the turns. — registrations and parameter messages of the terminal itself are not among the turns (registrations look at other terminals' plates)
- **C110 The simulator works as shipped.** (partial) the patterns of the file as a relation; C87, C89 and C108 applied to everything they can yield. — proved for one simulator and a text codec that knows the shipped plate. False for a concurrency above one: phone and plate are fixed texts, so every further simulator is refused and removes the one before it (C110_copies_evict). That regen.Generate returns a text matching its pattern is trusted
- **C111 Serial numbers tell messages apart.** (partial) the counter of a connection as a function of the history; the header of every answer. — proved for the messages that parameter requests make the server send (C111_own_partial, from C49). False otherwise: an answer carries the number of the request (C111_replies_copy), also where the server has just used that number for a message of its own (C111_collision), and everything the simulator sends of its own accord has number 1 (C111_simulator_one)
- **C112 The device cache is one set of devices under two keys.** (partial) refinement of the two maps by one set, by induction over the calls. — proved while no device is put beside another one with its plate or phone (C112_cache_partial); otherwise a device stays under its old plate for ever although another one took its phone (C112_overwrite). The message handlers keep to the condition (C31)
- **C113 A parameter request means what its body says.** (partial) encoding/json's binding of objects to DeviceParams as functions on JSON trees; induction over the list. JSON trees are taken as parsed: lexing, nesting limits, floats with exponents and the form binding of other content types are not modelled. — proved for bodies that name count and list once and give each parameter id and value once (C113_put_partial). False otherwise: a body that says nothing of parameters is answered 200 and an empty setting is sent (C113_nothing_said), a body that is no object is answered 400 and an empty setting is sent all the same (C113_no_object), the announced count goes out as it is (C113_wrong_count, C113_count_too_large), and a null in the list is answered 500 (C113_null); without the content type for JSON the body is not looked at (C113_no_content_type)
- **C114 Stop ends the service.** (partial) the listening sockets and accept loops around the server of the other properties; invariants over all histories. — proved that no connection is accepted after Stop if Listen succeeded at most once before (C114_closed_partial; otherwise one more is: C114_second_listen) and that failures of Accept do not show (C114_failures_partial). False for the rest: whoever is connected is served on as if nothing had happened (C114_served_on), Start never returns (C114_never_returns), and its loop goes round with errors for ever (C114_spins)
- **C115 The listing of terminals is JSON that says what the cache holds.** (partial) the grammar of JSON (RFC 8259) and UTF-8 (RFC 3629) as inductive relations, apart from the encoder; unambiguity by induction on the length. encoding/json and gin are modelled from their documented behaviour; time.Time is a parameter. — proved that the body is JSON with exactly one meaning and one entry per device, texts as a reader of UTF-8 sees them (C115_listing), and that devices with UTF-8 texts can be told from it (C115_faithful_partial). False otherwise: terminals with different ids are listed with the same text if the ids are not UTF-8 (C115_alike)
- **C116 What is shown of a terminal comes from its own messages.** (proved) induction over histories with the device under one phone as a function of the events that reach it. — C116_told; together with C79 (presence and time) every field of the listing is accounted for
- **C117 There is one cache of each kind.** (proved) sync.Once and its mutex as a transition system over single steps; inductive invariant over all schedules. Memory is sequentially consistent. — C117_one (safety) and C117_not_stuck (from every reachable state everybody can still be served)
- **C118 Starting the server succeeds or says why not.** (partial) main as a decision procedure over configurations and the outcomes of the system calls. — proved exactly when it comes up and on which ports (C118_up_iff), and that status 1 means a port could not be had and is logged at every level but FATAl (C118_exit_partial). False otherwise: a missing section (C118_no_ports) or a log directory that cannot be made (C118_no_directory) is a crash, the latter with a level above INFO only at the first warning (C118_lurking); status 1 can come without a word (C118_silent) and after terminals could connect (C118_http_taken)
- **C119 Load returns the configuration it is asked for.** (partial) the variable and its sync.Once as a state machine over calls. — proved for the first call (C119_first_partial). Later calls return what the first one left behind (C119_kept) and never panic (C119_never_again), also for another path (C119_other_path) and, with an empty configuration, after a panic (C119_after_panic)
- **C120 The answer to a position query is JSON that says what was reported.** (partial) the JSON grammar of C115 with decimal fractions, binary64 and the shortest-decimal contract of C102; encoding/json, gin and mapstructure 1.5.0 are modelled from their documented behaviour. — proved: the text is JSON with one meaning and has the numbers of the report to the last digit (C120_answer, C120_latest_partial). False: the time the terminal was last heard of is named but empty, so a heartbeat does not change the answer (C120_last_heard)
- **C121 What the server holds of an unfinished frame is bounded.** (partial) refinement of the byte-level server to the frame-level one; the receive buffer as a function of the bytes so far. — proved what is held (C121_held) and that it is at most 2091 bytes while a peer sends frames of packets of protocol size (C121_bounded_partial). False in general: after one 0x7e everything that is not 0x7e is kept, the connection is not closed (C121_flood), and no bound exists (C121_no_bound)
- **C122 Every message the README lists is handled.** (partial) the table of the README as a specification; replies by C29, and the message ids of everything that is ever sent by induction over histories. — proved for all but 0004 (C122_answered_partial, C122_unanswered), for registered terminals with phone numbers that fill their field. False for 0004: it is ignored in every state (C122_time_ignored) and no history has an 8004 in it (C122_time_never_sent)
- **C123 A message is handled when it arrives.** (partial) the serve loop as a queue in time on top of the transition system; the handlers themselves take no time. — proved: never before it arrived, at most one second later per earlier frame that made the loop pause, at once if there was none (C123_prompt_partial), and that handled messages do not make it pause (C123_handled_no_pause). False otherwise: every message without a handler and every corrupt frame makes the loop sleep for a second (C123_unknown_stalls, C123_corrupt_stalls; a written answer costs none, an answer that cannot be written one, unless the connection ends, C123_unwritten), so n of them hold back everything behind for n seconds (C123_lag), without bound (C123_no_bound), and a terminal that sends its heartbeats behind them is taken offline and removed as if it were silent (C123_as_if_silent)
- **C124 A simulator speaks the protocol version it is configured with.** (partial) GenDevice by the text of the configuration; the header reader run on the short header, for all bodies. — proved for 2019 and 2013 (C124_2019, C124_2013). False: with 2011 it sends exactly what it sends with 2013 (C124_2011_is_2013); any other text is accepted and leaves the phone number unpadded, so that with ten or eleven digits the server takes every frame for one of another number (C124_somebody_else) and the simulator gives up at the first answer (C124_gives_up)
- **C125 A simulated terminal stays where its configuration puts it.** (partial) strconv.Atoi, binary64 addition and multiplication with rounding (nearest, ties to even), rand.Float64 as any of its 2^53 values, the conversions to unsigned integers with an arbitrary result outside the range; the ring of each phone by the ring theorems (C48). — proved for latitude, longitude, height and speed of positions away from the edges and phones of their own, in the message (C125_near_partial) and as the server stores it (C125_shown_partial). False: at the equator a terminal is reported at the pole (C125_pole), at rest it is reported at 100 km/h (C125_rest), above 5005 m at 1000 m (C125_high); the configured direction is never used (C125_direction); simulators with one phone all report from the position built last (C125_shared), and a hundred of them report nothing (C125_hundred)
- **C126 The numbers of the configuration shipped with the simulator take effect.** (partial) the file as a table of patterns; viper lower-cases keys and mapstructure compares field names without case (trusted, documented); regen.Generate as any matching text. — proved for the shipped file: flags (C126_status), position (C126_position), registration (C126_registration), whatever the case of the keys (C126_any_case), and as the server stores it but for the hemispheres (C126_recorded_partial). False for other files: a key that is missing or misspelt (C126_missing), a text that is no number (C126_no_number) count as 0, and of a number too big only the low bits take effect (C126_cut), all without a complaint
- **C127 The server does what a small reference server does.** (proved) a step-by-step simulation between the store (heap, two indexes, rings, jobs, segments, sessions) and the records of the reference server, written apart in Verif/Spec/Reference.lean; the relation is an invariant of all histories. — C127_same (what is sent, ended and answered), C127_listing, C127_position, C127_no_other_memory, C127_asking_changes_nothing, and for bytes instead of frames C127_bytes. The reference server has the peculiarities found elsewhere on purpose: no position after every hundredth report (C48), the first fragment of a message ends the connection (C51), surrogate message ids share their fragments (C53). It uses the decoders and encoders of the model, whose properties are C01-C26; handlers run one at a time (C94 and others have them interleaved)
- **C128 The order of unrelated events does not matter.** (proved) the records of the reference server (C127) fall into one part for each phone and one for connections; what an event reads and changes is found by cases, and operations on different parts commute. — C128_order for any two such events, C128_frames for messages in plain terms, C128_late for an event put off past many others; that the exceptions are needed: C128_same_plate, C128_lost_line. Events are handled one at a time here; interleavings inside handlers are C72 and C109
- **C129 The files built into the program are those of the repository.** (proved) gzip and DEFLATE from RFC 1951/1952 as executable definitions evaluated by the kernel on the three constants (the checksum is checked too); the lookup for all names by cases; YAML and regular expressions for the part that occurs in the files, the latter proved against a separate meaning. — C129_found, C129_info, C129_names, C129_dir with C129_every_name, C129_starts, C129_ports. C129_tables proves that the tables C110 and C126 were stated with (copied by hand) are what the built-in file says; C129_patterns that reading an expression gives the texts it matches. C129_deflate_tables: the length and distance tables of the decompressor are those of RFC 1951. C129_dials: a simulator started with its built-in configuration dials 119.249.51.166:5080, not a server started with its own
- **C130 A simulated terminal sends heartbeats and positions only after it was accepted.** (partial) what is sent as a function of the steps of the process model of C106; an invariant over all runs: a device made offline and found online was put online by a message delivered since it was made. — C130_order: nothing of its own accord before the registration, one registration, then heartbeats and positions. C130_waits_partial: between the registration and the first of these some simulator of the process was handed a positive general reply (or an authentication, which no platform sends) for its phone. False beyond that: any positive reply releases it, also one to a message nobody sent (C130_any_reply) and one read by another simulator (C130_somebody_elses); C130_answered: what it sends on a frame is the answer to that frame. It answers frames before it has registered (C130_answers_first); refused, it is silent for ever and never stops (C130_refused_silent, C130_refused_for_ever)
- **C131 Additional data at the end of a message makes no difference.** (partial) locality of the readers (C17) and independence of the handlers of the declared length; witnesses for the three other kinds. — C131_same_partial for every kind whose layout says where it ends, e.g. the location report of the README with its two items. False for the others: what follows a registration becomes part of the plate (C131_plate), and a registration of 2011 that grows by twelve bytes is read in the layout of 2013 (C131_layout); an authentication of 2011/2013 with a byte more is refused and the terminal forgotten (C131_code); what follows a registration answer becomes part of the code (C131_answer)
- **C132 A parameter request is read as the JSON standard says.** (partial) a grammar of RFC 8259 as relations between texts and values; a reader in the manner of encoding/json, complete and sound for it by induction on the nesting, with inner inductions on lists and members, strings and digits. — C132_read: every JSON text; C132_exact: an object is read exactly if the body begins with its text (taking bytes that are no UTF-8 and single surrogates for U+FFFD); C132_one_meaning: no text has two values; C132_cut_off: refused wherever it is cut; C132_put_partial and, from the request line on, C132_request_partial: the effect, under the hypotheses of C113. False: whatever follows the object is not looked at (C132_trailing), and a body cut off is answered 400 but a setting without parameters is sent to the terminal (C132_cut_off_sent)
- **C133 Starting the simulator registers its terminals or says why not.** (partial) the start of the simulator as a function of the configuration, the file system and the answers to the attempts; iff by cases and induction on the attempts and on the terminals. — C133_connected_iff: when terminals are connected, how many, and whether they register; C133_gives_up and C133_exit_partial: status 1 exactly after seven refusals of one terminal (with a place for log files), with the error as last line; C133_as_shipped for the built-in configuration. False beyond that: a configuration without the section is a panic (C133_no_client), so is a negative number (C133_negative); with no number the process ends successfully without a word (C133_none); without the section about the position the terminals stay connected for ever and never register (C133_idle)
- **C134 Every HTTP request reaches the operation and the terminal its path names.** (proved) the radix tree of gin for the four routes and the unescaping of net/url as functions; a specification of written paths after RFC 3986; the text of a phone number is digits (and a letter of its hexadecimal digits) by the shape of the header. — C134_exact: which requests ask for what, both ways; C134_one_terminal: no request asks for two things; C134_request: the effect on the server; C134_every_terminal: after any history no number in the cache needs escapes; C134_other: the other answers, among them a redirect to a path that is answered 404 (C134_redirected_to_nothing)
- **C135 A configuration file is read as it is written.** (proved) a grammar of block mappings as an inductive relation, independent of the reader; induction over it with the stack of open sections; the conversions of viper/mapstructure (weakly typed) as a function. — C135_read and C135_one_meaning: every text is read as what it says; C135_alike: order and case make no difference; C135_comes_up and C135_ports: the server is on the ports of the file; C135_udp: whatever the UDP port, the process does the same; C135_ignored: so does a setting nobody reads, such as a misspelt one
- **C136 The terminals of the simulator are those its configuration file describes.** (proved) composition of the reader of C135, the expressions of C130 and the start of C133 with the sign-on of the simulator against the server. — C136_connected and C136_registers: number, address and whether they register; C136_terminal: exactly the terminals of the file (iff), C136_device_conf links this to the patterns; C136_registration, C136_position: the messages; C136_listed: what the server lists after the sign-on; C136_shown: what GET /device then answers, after any history of the server; C136_transport: the transport protocol makes no difference
- **C137 What is logged at the start goes where the configuration file says.** (proved) every event of the start was written by the configured logger (cases and induction on terminals and attempts); the logger writes to the configured places. — C137_events: level and place of every event; C137_output: all a server says that comes up; C137_first: the first two things either program says. The panic with a directory that cannot be made is C118, the misspelt fifth level C63 and C118_silent
- **C138 The answers of the HTTP API are what the server knows, as JSON.** (partial) the writes of c.JSON in order; the specification is a relation between the reference server of C127 and JSON values; composition of C127, C134, C115 and C120 with the invariant that reports are kept under the number they came from; JSON texts are prefix-free. — C138_answer: status and body of every request; C138_status: complaints and 400 go together; C138_json_partial: empty or one JSON text with one meaning, missing: settings with a body that cannot be used for a terminal that is not known or connected; C138_two_complaints: there the body is two objects one after the other, no JSON text, for every such request. The text of the complaint about a body is a parameter of the model
- **C139 Seen from outside the server is the reference server.** (proved) simulation by induction on the history from its end, composing the receiver of C97, the reference server of C127, the routes of C134 and the bodies of C138. — C139_outside: every history of the model shows what the relation allows; C139_determined: the relation fixes the frames, and what is sent and closed. Events are one step each; how the goroutines of one event interleave is C33, C68 to C72, C83, C90 and C109
- **C140 Simulators in one process do not influence each other.** (partial) noninterference: two runs in step, related by what the caches hold under one number. — C140_alone_partial: for every simulator whose number is its own, and frames of the kind a platform sends for the terminal of the connection, what it sends and its state are those of the run in which the others only connect, as long as the process runs. Missing: simulators that drew the same number, where the claim is false (C140_shared_phone: the answer to one makes the other send), and the end of the process, which is shared (C106)
- **C141 The level of the log makes no difference but to the log, and the debug log is a true record.** (proved) the pass of a frame with its log equals the pass without (cases); every line is a JSON text (grammar of C115, unique reading), hexadecimal inverts; induction on the history. — C141_level: same states and same observations as without a log; C141_replay: the file has one reading, and frames received and sent can be read from it; C141_content: the lines about a message and its answer show every field; C141_quiet: the other levels; C141_late: with a year of five digits json.Marshal fails for a media query without dates, and the message is answered at INFO and not at DEBUG. Lines that other places write are not modelled (list in the model), nor rotation (the console format: C143). The debug log has the authentication codes of registrations in the clear, and every level name that is not spelt as one of the four is debug level
- **C142 An accepted frame is the one encoding of what was read from it.** (partial) unescaping is inverted on its canonical inputs; lengths and the attribute word determine the rest. — C142_reencode: exactly the frames that are escaped as the standard says, whose phone number fills its field and whose declared length is right come out again; C142_unique: among these a reading has one frame; C142_lenient: a frame with a stray 0x7d is treated as the one with it escaped; C142_not_injective: different frames that are read alike. C142_body_partial: bodies of eight of the thirteen messages; C142_position: positions, exactly if no half of a byte of the time is F; C142_set_params and C142_params: parameter lists, exactly if each item has the length of its type and texts and numbers stand as they are written (C142_params_gbk: with GBK as the environment); C142_query and C142_media: media queries and lists, exactly if their times are dates; C142_register: registrations of 2013 and 2019, exactly if the plate is what GBK has for it; C142_register_2011: false for the layout of 2011; so it is settled for every message which bodies come out again, and the claim for all bodies is false
- **C143 The log in text form, as shipped, can be read back line by line whatever terminals send.** (partial) Model/ConsoleLog.lean: sorted fields, needsQuote, strconv.Quote, json.Marshal of decoded values, the formatters of logger.go. Spec/ConsoleLog.lean: a reader of lines written on its own (Go string literals, fields, parts). Proof: quoting is undone by the reader for every character; marshalling a decoded value denotes the same value up to the order of names; a line of readable fields is read as its parts; induction over the file; C141 for what the lines should say. — The claim for every line of the log is false: the report of GoSafe is printed as it is and spans several lines (C143_panic counts them). Lines of other places are not covered. The ConsoleWriter of zerolog v1.28.0, strconv.Quote and json.Marshal are modelled from knowledge of those libraries; the writer is given what the JSON line denotes (C141).
- **C144 Texts keep their characters on the way through GBK.** (proved) model of the two loops of golang.org/x/text with the tables as a parameter; GBK as an inductive relation between bytes and characters; induction on the loops; C116 for the plates. — C144_read: any bytes; C144_says: GBK is read as what it says; C144_write, C144_refused: exactly the texts of known characters are written; C144_survives: there and back, with the length; C144_ascii; C144_plates: all plates of all histories; C144_registers, C144_conversation, C144_shipped: the hypotheses about converters in C20, C87, C100 and C110 hold with these; C144_lost, C144_mistaken: bytes that mean nothing are all read as U+FFFD, so that two terminals with different such plates are taken for one. The entries of the tables are a parameter, that a code leads back to its character is assumed of them
- **C145 The number of connections in the log is the number of open connections.** (partial) sessions have different keys (invariant of C101), each belongs to a served connection (C50); served connections have different ids (induction); an injection each way bounds the lengths. — C145_at_most for all histories; C145_at_least_partial and C145_exact_partial without reused addresses; missing: reused addresses, where it is false (C145_too_few); C145_closed_counted: a connection closed by a keepalive check counts until its loop has noticed
- **C146 The server sends little in answer to what it gets.** (partial) a decoded frame has at least fifteen bytes and a phone number of at most twenty digits; headers are at most 21 bytes, bodies of answers at most 13, escaping at most doubles; sum by induction over the history. — C146_each_partial and C146_total_partial for messages of terminals; missing: messages only the platform should send, for which it is false (C146_query_amplified: 15 bytes from an unknown phone get more than 30 times as many)
- **C147 The region shown for a registration is the one its codes say.** (proved) six digits exactly if both numbers are in range; the value of the six digits is 10000 times the province plus the city. — C147_region for every table of six-digit codes (the table of the package GB2260 is not in the sandbox); C147_text_ambiguous: the text that is looked up is the same for different pairs of large numbers, so the theorem needs the length of the codes
- **C148 A terminal that keeps its code can go on after a restart of the server.** (partial) Model/Lives.lean: histories with restarts; a restart leaves the initial state. The events since the last restart determine the state; the code is a function of id, plate and phone. — False without a new registration: C148_refused shows that after a restart every message of a phone that has not registered again, authentications included, is not answered and ends the connection, C148_locked_out shows a terminal to which it happens. What holds: C148_saved_code (while a terminal is known exactly the code once given for its id, plate and phone is accepted, in whichever life it was given), C148_same_code_again (registering again gives the same code).
- **C149 A parameter request reaches the right terminal whatever happens at the same time.** (partial) Model/Commands.lean: each request a goroutine of seven steps beside those of Model/Conc.lean. Invariant over all interleavings: what a request has in hand belongs to a device of its phone, sessions are filed under their address, every device was made by a registration. Handlers are blind to sessions, serial numbers and closed connections (by induction on their programs), which gives the noninterference. — C149_once, C149_addressed (message, phone, version, address of a registration of that phone), C149_unregistered, C149_answered, C149_unnoticed and C149_alone (a request with nothing in between is that of C54-C57) for all interleavings; C149_own_connection_partial: the very connection if no address was used twice; missing: reused addresses, where it is false (C149_reused_address)
- **C150 A heartbeat keeps a terminal alive also while checks run.** (partial) invariant over all interleavings: whatever is filed under the phone was heard of since T, and every goroutine of the phone files only such devices (by going through each handler program); with it the test for expiry in a check fails. — C150_checks_still_partial (no step of a check changes any device, index or connection within the minute) and C150_stays_partial (a terminal with only heartbeats and checks stays registered, in its state, on its connection), for checks that begin after the heartbeat; missing: a check under way when the heartbeat arrives, for which it is false (C150_overtaken, C150_forgotten)
- **C151 A terminal that falls silent is let go whatever the other terminals do.** (proved) C109 reduces the checks to the sequential server; for the connection, which terminals may share, a second argument: a step of a goroutine closes a fixed set of connections and opens none (by going through all programs), so what is closed without the others is closed among them. — C151_offline (one check), C151_online (two checks); C151_overlapping shows that the checks must not overlap
- **C152 Registrations and parameter messages too are handled as by a sequential server, unless another terminal uses the plate.** (proved) A simulation: the store among others and the store of the terminal alone hold the same devices at different addresses, related by a growing one-to-one relation; each step of a goroutine of the terminal keeps the relation (a registration extends it), a step of another goroutine changes no entry for a plate none of its devices has and no parameters of others; induction over the schedule. Then as C109. — C152_no_interference (any interleaving, no turns), C152_one_by_one (turns); C152_same_plate shows that the condition on plates is needed; parameters are set under the number in the header, as Decode makes the message (decode_8103_phone)
- **C153 Time may pass while a message is handled.** (proved) Every handler reads the milliseconds at most once and the date at most once on any path (a keepalive check reads the time a second time only when the status it has just seen has changed, which nobody else does); a logic for programs that use each reading at most once, then induction over the turns. — the milliseconds and the calendar date of the moment may come from different steps of the turn (0200 reads the date for the position and later the time of the last message)
- **C154 A terminal on one connection sees a sequential server.** (proved) Model/Workers.lean: goroutines with their remaining messages, the one at hand and the results. Refinement: every run is mirrored by a run of single handlers (an invariant over the schedule) in which the messages of the terminal take turns; then C153. — C154_one_connection; a terminal's own check at the same time is left to C150 and C151, another terminal with its plate to C152_same_plate
- **C155 Every message is answered, whatever the other connections do.** (proved) A bound on the depth of each handler program together with its possible results (by going through them), a ranking function over the steps of the goroutine, and the invariant of C71 against panics. — C155_answered; that the reply reaches the terminal is C07 and C91; mutexes are C104
- **C156 Any number of terminals can come at once.** (proved) C154 and C155 reduce it to the sequential server, for which it is an induction over the messages. — C156_welcome; the checks of these terminals themselves are left out (C157 adds them, within a minute; C150 says what they do later)
- **C157 Keepalive checks leave newcomers alone.** (proved) Simulation: the run with the checks and the run without them have the same store and the same connections at every step; the checks change nothing as long as every record of the terminal is younger than a minute, which every step of every goroutine keeps; then C156. — C157_calm; the scheduler is taken to start checks only for jobs in its table (hypothesis FromTable). After a minute without a message C150 applies
- **C158 From bytes to bytes: any number of terminals at once.** (proved) Refinement: a schedule of goroutines that read bytes is one of goroutines that are given the messages (for the other connections: the messages they turn out to take up), with the same store; then C156, and C03 for the frames. — C158_bytes; frames that are fragments are left out (C52, C53 are about them), and so are write errors (C84)
- **C159 From bytes to bytes, with keepalive checks in between.** (proved) The refinement of C158 also carries the condition on the table from the goroutines that read bytes to those that are given messages; then C157. — C159_bytes_calm; the scheduler is taken to start checks only for jobs in its table (hypothesis LinesFromTable); fragments and write errors as in C158
- **C160 Whatever bytes a terminal sends, it is answered as by a sequential server.** (proved) Refinement twice: the goroutines that read bytes are mirrored by goroutines given the messages they turn out to take up (as for C158), and C154 orders these; an invariant over the steps records the frames read so far, and the sequential server of Model/Server.lean, given these frames at the moments of C154, is shown to store and write the same. — C160_bytes_sequential; fragments (C52, C53) and write errors (C84) are left out; checks of the terminal itself are C159
- **C161 Every frame on a connection is answered after a number of steps that depends only on its bytes.** (proved) An invariant with a bound: a connection is at rest after at most bytes + 9 x frames further steps; every handler is shown to return after at most eight, with the answer of the protocol or right after a lookup that failed. That no handler panics comes from the soundness of C155 over the refinement of C158; the frames read and answered come from the invariant of C160. — C161_bytes_answered; a query of parameters (0x8104, which terminals do not send) may also end serve; fragments and write errors are left out
- **C162 A terminal that is not silent does not notice its own keepalive checks.** (proved) Simulation: with and without the checks of the terminal the store and all other goroutines are the same after every step, since a check of a phone whose records are all young only reads, or panics; then C160. For the first minute an invariant over all programs: no step makes a record older than the run or changes its interval. — C162_awake_sequential, C162_first_minute; that the process lives is a hypothesis because a check of a phone that is not known panics (C46); fragments and write errors are left out as in C160
- **C163 In the end a terminal has got all the answers of a sequential server.** (proved) C161 says that the connection comes to rest, C160 and C162 that then it agrees with the sequential server on the frames read; a sequential server whose serve has ended changes nothing more, so these can be taken to be all frames. — C163_bytes_total, C163_minute_total; fragments and write errors are left out as in C160; that the process lives is a hypothesis of the second as in C162
- **C164 What a terminal is sent is a function of what it sends.** (proved) C163 for both, and a relation between two stores (alike records of the phone, agreement on the plates in question, same parameters, sound rings) that every frame of the phone preserves on the sequential server, with equal answers, at any two times and on any two connections. — C164_answers_are_a_function; 0x9205, which only platforms send, is left out because its answer repeats times that fall back to the clock when they are not times; fragments and write errors are left out as in C160
- **C165 Connections that break, at any moment, cost no other terminal anything.** (proved) Simulation: a run with connections that break is one without, in which broken connections make fewer steps (a serve that has ended, or that can read nothing, makes none) and in which what could not be written is written; the store is the same after every step, since nothing that is written is ever read back. Then C163 and C160. — C165_others_break, C165_own_breaks; fragments are left out as in C160
- **C166 In its first minute a new terminal is answered as by a server just started for it alone.** (proved) C165 and C163 reduce it to the sequential server; an invariant over all earlier histories shows that of a phone and plates nobody mentioned that server knows what an empty one does; then the relation of C164 between two servers. — C166_first_minute_alone; that the process lives is a hypothesis as in C162, fragments and 0x9205 are left out as in C164; the messages handled before are taken to be such as Decode makes (a setting of parameters carries the phone of its header)
- **C167 Terminals that share a connection are each answered as if alone.** (proved) As C160, with C154 for one phone at a time: the frames of the connection that carry the phone hold exactly its messages (by induction over what the invariant of C160 records), and the sequential server given these alone is shown to store and write the same, in each way a connection can be at rest or end. — C167_gateway; fragments, write errors and checks of the phone itself are left out as in C160
- **C168 Behind a gateway every terminal gets all its answers in the end.** (proved) C161 for the connection to come to rest, C167 for what it has written then, and the simulation of C165 for the breaks; the frames of C167 are shown to be all the frames the bytes contain. — C168_gateway_total; a query of parameters (0x8104, which terminals do not send) may also end serve as in C161; fragments and checks of the phone itself are left out as in C160
- **C169 Commands of the HTTP API and connections that come and go are unnoticed by every terminal.** (proved) Noninterference: handlers and checks never look at sessions, serial numbers or the segment cache (shown program by program for C149), so a simulation relates the run to the one without; then C165. — C169_unnoticed, C169_terminal; the bytes that a request writes to the terminal are kept apart from the answers, which may come between but not inside one another because each is one write
- **C170 Fragments of other terminals do a terminal no harm.** (proved) Two simulations: a run with fragments is one without in which the goroutines of the others are handed just those messages they turn out to begin to handle, the segment cache, the sessions and the serial numbers being invisible to all handlers (as for C169); then C160 and C161 for one connection that reads bytes among any such goroutines. — C170_fragments_of_others; what other terminals must not do is to say, in whole messages or fragments, that they are this phone or to register with its plates; write errors are left out here (C165), to cache and to acknowledge a fragment is taken as one step
- **C171 Fragments of others do no harm behind a gateway either.** (proved) The simulation of C170, which reduces the others to goroutines that are handed messages, also at all points in between; then the arguments of C167 and C161 for one connection among any such goroutines. — C171_gateway_among_fragments; a query of parameters (0x8104, which terminals do not send) may also end serve as in C161; write errors are left out here (C172)
- **C172 All at once: whatever others do, a terminal gets the answers of a server of its own.** (proved) Simulation: a run with connections that break is one of C170 without, in which broken connections make fewer steps, with the same store after every step; then C170 and C171. — C172_terminal, C172_gateway; what others must not do is to say that they are this phone or to register with its plates; checks of the terminal itself are in C173; to cache and to acknowledge a fragment is taken as one step
- **C173 In its first minute a new terminal is answered as by a server just started for it alone, whatever others do all at once.** (proved) Simulation of C172; in the system with fragments the goroutines of the checks of the terminal are dropped: an invariant (nothing recorded of the phone is older than the run) makes each of them harmless; then C170 and the comparison with a fresh server of C166. — C173_first_minute; that the process lives is a hypothesis as in C162; connections of others must not say that they are this phone or register with its plates; to cache and to acknowledge a fragment is taken as one step
- **C174 The checks of a terminal that is not silent go unnoticed, whatever others do all at once.** (proved) An invariant of the system with fragments and requests: every goroutine of a check of the terminal has left the store as it was; without these goroutines the run is one of C170. With breaks: the simulation of C172, which has the same store at every step of a check. — C174_awake_among_fragments, C174_awake_all_at_once (where other connections also break as in C172); that the process lives is a hypothesis as in C162

## Where the code disagrees with a property

Each line is backed by a theorem named after the property.

- C04: a read of `0, nil` makes Recv take the previous byte twice (frame_handler.go:52 drops the count).
- C06: after one stray 0x7e, Recv returns `7e 7e` and frame remainders out of phase for ever.
- C10: `VerifyCode` is always 0x7e, the closing delimiter.
- C12, C23: BCD strings of odd length from nine digits on lose their last digit.
- C17, C66, C67: multi-byte reads are bounded by capacity, and neither the body length nor a parameter's length is
  checked.
- C18: bodies over 1023 bytes overflow into the other attribute bits.
- C20, C58: the 2013/2011 layouts are told apart by the body length, wrongly for empty and for long plates.
- C22: Encode exchanges the hemisphere bits.
- C24, C57: unsupported parameters are counted but not written; reading one panics.
- C26: setting a parameter the terminal did not hold is acknowledged and forgotten.
- C27, C52: the first fragment of any message dereferences nil and ends the connection; collected data is never used.
- C33, C46, C70: registration, keepalive and deregistration race (check then act without a lock).
- C35, C42: any connection can remove any terminal.
- C36: an ACC-off report or an acknowledgement from the terminal makes an unauthenticated terminal sleeping or online.
- C37: locations survive deregistration and are served to the next owner of the phone.
- C40, C48: the latest location is missing after every hundredth report; Overwrite replaces the oldest element.
- C49: GetNextSerialNum repeats numbers when callers race at the wrap-around.
- C50: sessions are filed by remote address; a late close removes the session of a new connection.
- C53: message ids in the surrogate range share one segment key.
- C54, C57: messages to 2019 terminals lack the protocol version byte.
- C56: the PUT handler goes on after a bind error.
- C63: FATAL is misspelt.
- C73: only a new authentication ends sleeping; reports with ACC on do not.
- C74: a terminal taken offline stays offline although it sends heartbeats and reports.
- C76: going offline does not close the connection, and the next check already removes the terminal.
- C77: a terminal that lost its connection is refused until two keepalive checks have passed.
- C78: re-authentication on a new connection does not update the session the HTTP routes use.
- C80: a driving terminal that only reports its position is taken offline and removed.
- C81: authorisation codes are 32-bit hashes of an ambiguous text: different terminals can share a code.
- C82: simulated southern or western positions arrive mirrored.
- C83: concurrent reports of one terminal can overwrite each other, and the latest position can go back.
- C85: removing a silent terminal closes its connection under the other terminals that use it.
- C86: a connection that never sends anything is kept forever.
- C89: C89 fails: a second simulator with a phone in use is refused, answers the refusal as if it were an acceptance, and so removes the first terminal from the server.
- C90: C90 fails: GET /device during a heartbeat can end the whole server process.
- C91: C91 fails after a write error in the middle of a frame: later frames on the connection are cut wrongly by the peer.
- C92: the server handles the messages of a platform: an unregistered peer can set parameters for any phone.
- C93: a registration whose answer was lost cannot be repeated: the second answer is a refusal without the code.
- C98: a message marked as encrypted is processed as plain text, and answered in plain text marked as encrypted.
- C99: the same mobile number is another terminal in the other protocol version, and cannot be asked for without its padding zeros.
- C100: parameter 0x76 of the built-in list is reported with twenty bytes of leftover memory (length byte 35, 15 bytes left; hex.DecodeString of Go 1.19 decodes in place, so the spare capacity holds the source text).
- C101: the parameter cache has no way to release anything, and unregistered peers fill it.
- C103: C103 fails: whoever can connect can report positions for, and sign off, any registered phone.
- C106: C106 fails: os.Exit and log.Fatal in code shared by all simulators of the process.
- C107: A parameter request whose write to the terminal fails is answered 200, and so is the setting of a parameter the server does not support: api.go ignores the outcome of Send, and Send returns none.
- C108: The server shows a 2011/2013 simulator without IMEI and software version (the layout does not carry them), with its id cut to seven bytes, and a 2011 simulator as a 2013 terminal.
- C110: with the shipped patterns only one simulator can be used; a concurrency above one makes the simulators remove each other.
- C111: answers reuse the numbers of the requests, and the simulator numbers everything 1.
- C112: putting a device with the phone of another one and a different plate leaves the other one under its plate.
- C113: ShouldBind errors are answered but do not end the handler, and nothing checks paramCnt or the presence of params.
- C114: Stop closes only the listening socket; the accept loop spins and the connections are served on.
- C115: bytes of ids and codes that are no UTF-8 are all shown as U+FFFD.
- C118: missing sections are dereferenced as nil; newRollingFile returns a nil writer that is used all the same; Recover is called in main but not deferred.
- C119: sync.Once makes later calls ignore their path, and a panic in the first one leaves an empty configuration for them.
- C120: the answer has a member LastestComTime that is always an empty object, because mapstructure makes a map of the exported fields of time.Time; its names (ID, Plate) differ from those of the listing (id, plate).
- C121: after one 0x7e the receive buffer of a connection grows without limit; nothing checks the length before the closing delimiter.
- C122: the README lists 0x0004 and 0x8004, and both have codecs, but the handler table has no entry for 0x0004.
- C123: after every message it has no handler for, the server does not read the connection for a second; heartbeats that arrived in time are handled late, and the terminal is removed.
- C124: an unknown protocolVersion is not refused; the phone number is then not filled up and every header is one byte short.
- C125: offsets that make a number negative turn it into the largest value of its field (or another one Go leaves open), which is then replaced by the upper bound; the direction of the configuration has no effect.
- C126: mistakes in the numbers of the configuration are not reported; they become 0 or are reduced modulo 256 or 65536.
- C129: the configuration shipped with the simulator points at a host on the internet; the line for localhost is commented out.
- C130: C130 fails: the release looks at the status of the device only, processMsg8001 sets it whatever message the reply answers; the comment "stop after register failed for a while" (test/client/main.go:151) describes nothing that is there.
- C131: C131 fails for 0100, 8100 and the 0102 of the older layouts, whose last field is whatever is left of the body.
- C132: C132 fails: a body with anything after the object is accepted (the decoder reads one value only), and a body that cannot be read has an effect (api.go goes on after the error).
- C133: C133 fails: a missing section is a nil dereference, recovered or not depending on where it is read; concurrency is not checked.
- C134: a slash too many behind a number (/device/1/) is redirected to /device/1, which does not exist.
- C135: README shows terminals connecting over TCP/UDP and the configuration has udpPort; nothing listens there (main.go:36-47).
- C136: the configuration has transProto; the simulator always dials TCP.
- C138: a PUT of parameters with an unusable body goes on after its answer (api.go:74-76, no return): the body then has a second object if the terminal is not known or not connected, and settings are sent otherwise (C113).
- C140: numbers are drawn at random and not compared; two simulators with the same number share one device in the cache.
- C142: unescape leaves a 0x7d in front of other bytes than 0x01 and 0x02 as it is (packet_codec.go:110-122), bcd2NumberStr drops what stands before an F, and the declared length is not compared (C66).
- C144: bytes of a plate that are no GBK are replaced by U+FFFD without an error: a second terminal with other such bytes is refused as having a plate that is taken (C144_mistaken).
- C145: sessions are kept by remote address: a second connection from an address replaces the first in the count, and the end of the first removes the second (C145_too_few).
- C146: a parameter query (0x8104) received by the server is answered with the built-in list, registered or not, over thirty times the length of the query (C146_query_amplified).
- C148: Terminals are kept in memory only (device_cache.go:25-34), and processMsg0102 (msg_processor.go) closes the connection of an unknown phone instead of asking it to register.
- C149: Send looks the session up a second time by its address (tcp_server.go:114): if the connection has ended and another terminal connects from the same address in between, the message goes to the other terminal (C149_reused_address).
- C150: checkDeviceKeepalive reads the time of the last message and acts on it without holding a lock (keepalive.go:65-86): a heartbeat acknowledged in between does not save the terminal (C150_overtaken, C150_forgotten).
- C151: gron starts every check on a new goroutine without waiting for the one before (keepalive.go:31-44): a check delayed between its test and its write brings the terminal back after two later checks have removed it, and then no check is left to remove it (C151_overlapping).
- C152: When another terminal registers with the same plate in between, a registration that by itself succeeds is refused (C152_same_plate).

## Trusted base

- The Lean 4.33.0 kernel, and the axioms listed per theorem below.  No axioms of our own, no `sorry`, no
  `native_decide`.
- The transcription of the Go code into `Verif/Model`, checked by reading (every definition cites its lines) and by evaluating every test vector of the project's own unit tests on the model (`Verif/Props/Conformance.lean`); they all agree.
- Statements: that `Verif/Spec` and the theorem statements say what the properties mean.

Modelled: internal/codec/hex, internal/codec/hash, internal/protocol (frame handler, packet codec, pipeline, message
processor, keepalive) with all of its message types in the handler table, internal/storage, internal/server, the routes of
internal/api, pkg/container, pkg/routines, internal/config (built-in files, loading, log levels) and main.go.  Of the
simulator: device generation, headers, its messages, its receive loop, status checker and sending goroutines, its main, the
process that starts them, and its configuration.  Machines built from these: the server with its connections, caches and
jobs; the same reading bytes; a server with any number of simulators; a simulator process.  Concurrent handlers, and
concurrent calls of RingBuffer.Write, of the methods of the device cache (as accesses to its mutex and maps), of
GetNextSerialNum, of the singleton getters and of FrameHandler.Send on one connection are interleaved steps.

Of libraries, as far as the code uses them: strconv and fmt for integers, encoding/hex, hash/fnv (32 bit), time.Parse for
the layout "060102150405" (Go 1.19), encoding/json output of the listing and of positions and the binding of parsed JSON
to parameters, the radix tree of gin and paths of net/url, the regular expressions and YAML of the configuration files, gzip/DEFLATE for the built-in files,
sync.Once, float64 division.

Not modelled, and assumed:

- golang.org/x/text (GBK) and GB2260: parameters of the model (`Env.gbkEnc`, `gbkDec`, `region`); theorems that need a
  round trip assume it for the text in question. Model/Gbk.lean has the converters, from knowledge of the library; only
  the entries of its tables stay open, with the assumption that a code leads back to its character (C144). With these
  converters the assumptions of the other theorems hold. Model/Region.lean has region.Parse for any table of divisions (C147).
- gron: a list of job ids; `Cancel` removes every job with the id, a job runs only while it is in the list.
- net, bufio: a connection is a list of bytes or of reads; a write puts a prefix of its argument on the wire.
- gin: recovery and the choice of the JSON binding by content type, the text of a binding error (`Writing.bindErr`), that c.JSON appends to what was written before (C138); its routing (1.9.1) and the unescaping of net/url are modelled from knowledge of these libraries (C134). The decoder of encoding/json is modelled as a reader of bytes (C132), not its source; numbers are exact instead of binary64.
- viper, yaml.v3 and mapstructure: block mappings of words, numbers and quoted texts, key paths, defaults and weakly typed decoding (C135); other YAML is not read by the model.
- float64: latitude, longitude and speed are kept as the integers before the division; Model/Float.lean has the division
  (round to nearest, ties to even, below 2^53), and C102, C120 and C57_json_number show that no information is lost.
- The Go memory model: interleaving steps are sequentially consistent, except where a property is about unsynchronised
  access itself.
- lumberjack (rotation), log lines other than those of Model/DebugLog.lean and Model/ConsoleLog.lean and of the start
  (C137).  The wording of errors.


## Axioms per theorem

P = `propext`, C = `Classical.choice`, Q = `Quot.sound`, – = none; output of `#print axioms`.

- C01: `C01_wire_format` P, `C01_escape_roundtrip` P, `C01_escape_injective` P
- C02: `C02_frame_shape` PQ, `C02_recv_own_frame` PQ
- C03: `C03_stream_segmentation` P, `C03_deterministic` PCQ
- C04: `C04_chunking_partial` P, `C04_split_irrelevant_partial` P, `C04_empty_read_changes_frame` –
- C05: `C05_delivers_iff` PCQ, `C05_error_iff` PCQ, `C05_never_panics` PCQ
- C06: `C06_stray_delimiter_desynchronises` PCQ, `C06_paired_delimiters_partial` PQ
- C07: `C07_send` PCQ, `C07_send_progress` PCQ, `C07_send_error` P
- C08: `C08_accept_implies_xor_zero` PQ, `C08_single_byte_corruption` PQ, `C08_own_frames_intact` PQ
- C09: `C09_packet_roundtrip` PCQ
- C10: `C10_verify_code_is_delimiter` PQ, `C10_witness` PQ
- C11: `C11_byte` PQ, `C11_word` PQ, `C11_dword` PQ, `C11_bytes` P, `C11_string` P, `C11_big_endian` PQ, `C11_byte_bounded` P, `C11_bytes_bounded` PQ
- C12: `C12_bcd_partial` PCQ, `C12_odd_length_loses_digit` PCQ, `C12_bcd_bytes` PQ
- C13: `C13_time_roundtrip` PCQ, `C13_time_read` PCQ
- C14: `C14_decode_bits` PCQ, `C14_decode_descriptions` PCQ, `C14_reencode` PCQ, `C14_encode_word` PQ
- C15: `C15_header_roundtrip` PCQ, `C15_layout` PQ, `C15_reencode` PCQ
- C16: `C16_accepted_iff` PCQ, `C16_truncated_header` PCQ, `C16_header_from_packet` PCQ
- C17: `C17_min_length_partial` PQ, `C17_no_outside_bytes_partial` PCQ, `C17_truncated_location_accepted` PQ
- C18: `C18_body_length_partial` PQ, `C18_overlong_body` PQ
- C19: `C19_general_reply` PCQ, `C19_location` PCQ, `C19_register_reply` PCQ, `C19_media_query` PCQ, `C19_media_list` PCQ, `C19_server_time` PCQ, `C19_layouts` PQ
- C20: `C20_register_2019` PCQ, `C20_register_2013_partial` PCQ, `C20_register_2011_partial` PCQ, `C20_empty_plate_lost` PQ, `C20_long_plate_2011` PQ, `C20_unencodable_plate` P, `C20_layout` PQ
- C21: `C21_status_bits` PCQ, `C21_stored_status` PCQ
- C22: `C22_encode_swaps` PCQ, `C22_inverse_iff_partial` PCQ, `C22_not_inverse` PQ, `C22_hemispheres_exchanged` PCQ
- C23: `C23_table` PQ, `C23_byte` PCQ, `C23_word` PCQ, `C23_dword` PCQ, `C23_string_partial` PCQ, `C23_gbk_partial` PCQ, `C23_bcd_partial` PCQ, `C23_long_string` PQ, `C23_odd_bcd` PQ
- C24: `C24_set_message_partial` PCQ, `C24_report_partial` PCQ, `C24_count_exceeds_items` PQ, `C24_unsupported_item_panics` PQ, `C24_unsupported_roundtrip_fails` PQ
- C25: `C25_update` PQ, `C25_count` PQ, `C25_order_irrelevant` PQ
- C26: `C26_set_then_query_partial` PCQ, `C26_new_id_dropped` PCQ, `C26_new_id_dropped_witness` PQ
- C27: `C27_unknown_id_partial` PCQ, `C27_fragment_closes` PCQ
- C28: `C28_corrupt_ignored` PQ, `C28_corrupt_raw_ignored` PQ, `C28_empty_ignored` PQ
- C29: `C29_platform_replies_partial` PCQ, `C29_terminal_replies_partial` PCQ, `C29_no_reply_to_replies` PCQ, `C29_phone_with_F` PQ
- C30: `C30_reply_only_on_success` PQ, `C30_panic_sends_nothing` PQ
- C31: `C31_indexes_agree` PCQ, `C31_plates_unique` PCQ, `C31_same_devices` PCQ
- C32: `C32_plate_taken` PQ, `C32_phone_taken` PQ, `C32_free` PCQ, `C32_success_iff` PCQ
- C33: `C33_both_succeed` PCQ, `C33_late_refused_partial` PQ
- C34: `C34_auth_iff_issued` PCQ, `C34_replies_differ` PQ
- C35: `C35_wrong_code_removes` PCQ, `C35_foreign_guess` PQ, `C35_other_phones_partial` PCQ
- C36: `C36_woken_partial` PCQ, `C36_authenticated_partial` PCQ, `C36_location_wakes` PQ, `C36_general_reply_wakes` PQ
- C37: `C37_deregistered_partial` PCQ, `C37_locations_survive` PCQ, `C37_old_location_served` PQ
- C38: `C38_unregistered_refused` PQ, `C38_remove_effect` PCQ
- C39: `C39_location_recorded` PCQ
- C40: `C40_newest_partial` PCQ, `C40_track_exists_unique` PCQ, `C40_hundredth_report_lost` PCQ
- C41: `C41_isolation` PCQ, `C41_frame` PCQ, `C41_check` PCQ
- C42: `C42_any_connection_deregisters` PCQ, `C42_foreign_deregistration` PQ, `C42_other_phones_partial` PCQ
- C43: `C43_heartbeat_protects` PCQ, `C43_recent` PCQ
- C44: `C44_one_check` PCQ, `C44_two_checks` PCQ
- C45: `C45_jobs` PCQ
- C46: `C46_race_crashes` PCQ, `C46_orphan_job_crashes` PCQ, `C46_found_partial` PCQ, `C46_sequential_partial` PCQ
- C47: `C47_never_panics` PQ, `C47_slots` PQ, `C47_oldest` PQ, `C47_reads_cyclic` PQ, `C47_fifo` PQ
- C48: `C48_latest_partial` PQ, `C48_latest_nil_at_wrap` PQ, `C48_overwrite_hits_oldest` PQ, `C48_not_latest` P
- C49: `C49_sequential` PCQ, `C49_distinct` PCQ, `C49_concurrent_partial` PQ, `C49_concurrent_repeats` PQ, `C49_counts` PCQ, `C49_on_the_wire` PCQ
- C50: `C50_session_served` PCQ, `C50_open_found_partial` PCQ, `C50_absent` PCQ, `C50_reused_address_unreachable` PQ, `C50_closed_still_found` PQ
- C51: `C51_any_frame` PCQ
- C52: `C52_first_fragment_closes` PCQ, `C52_only_last_fragment` PCQ, `C52_wrong_position` PQ, `C52_never_cleared` PCQ, `C52_middle_acknowledged_partial` PCQ
- C53: `C53_only_own_fragments_partial` PCQ, `C53_supported_ids` –, `C53_surrogate_ids_mixed` PQ
- C54: `C54_2013_partial` PCQ, `C54_2019_query_panics` PCQ, `C54_2019_set_misread` PCQ, `C54_fragment_ack_partial` PCQ, `C54_2019_fragment_ack_misread` PCQ
- C55: `C55_unknown_phone` PCQ
- C56: `C56_answered_400_partial` PCQ, `C56_malformed_body_sent` PQ
- C57: `C57_json_number` PQ, `C57_put_partial` PCQ, `C57_2019_nothing_set` PCQ
- C58: `C58_handshake_2019` PCQ, `C58_handshake_2013_partial` PCQ, `C58_empty_plate_2013` PQ
- C59: `C59_code` PCQ, `C59_same_code` PQ, `C59_placeholder` PCQ
- C60: `C60_every_stream_decomposes` PCQ, `C60_frame_by_frame` PCQ, `C60_noise_irrelevant` PCQ, `C60_corrupt_skipped_partial` PCQ, `C60_short_frame_closes` PQ
- C61: `C61_keys` PCQ
- C62: `C62_listing` PCQ, `C62_length` PCQ
- C63: `C63_levels_partial` P, `C63_fatal_writes_everything` –, `C63_unknown_writes_everything` P, `C63_fatal_misspelt` P
- C64: `C64_heartbeat` PCQ
- C65: `C65_auth_2013` PCQ, `C65_auth_2019_partial` PCQ, `C65_short_imei` P, `C65_long_code` P
- C66: `C66_any_declared_length_accepted` PCQ, `C66_length_mismatch_accepted` PQ, `C66_own_packets_partial` PCQ
- C67: `C67_consumed` PQ, `C67_texts_partial` PQ, `C67_dword_ignores_length` PQ
- C68: `C68_isolation` PCQ
- C69: `C69_accepted_code_issued` PCQ, `C69_reply_code` PCQ
- C70: `C70_resurrected` PCQ, `C70_stays_gone_partial` PCQ
- C71: `C71_handlers_do_not_panic` PCQ
- C72: `C72_no_interference` PCQ
- C73: `C73_reports_keep_status` PCQ, `C73_auth_wakes_partial` PCQ
- C74: `C74_stays_offline` PCQ, `C74_heartbeat_keeps_partial` PCQ
- C75: `C75_fate` PCQ, `C75_gone_after_three_periods` PCQ, `C75_kept_two_periods` PCQ
- C76: `C76_offline_keeps_connection` PCQ, `C76_removed_next` PCQ, `C76_removal_partial` PCQ
- C77: `C77_refused_while_cached` PCQ, `C77_after_checks_partial` PCQ
- C78: `C78_tied_to_registration` PCQ, `C78_sent_to_registration_partial` PCQ, `C78_lost` PCQ, `C78_wrong_connection` PQ
- C79: `C79_start` –, `C79_step` PCQ, `C79_arises` PCQ, `C79_listing` PCQ
- C80: `C80_reports_do_not_count` PCQ, `C80_parked_reports_count_partial` PCQ
- C81: `C81_one_byte_partial` PCQ, `C81_boundary_moved` PQ, `C81_colliding_ids` PQ, `C81_borrowed_code` PQ
- C82: `C82_ranges` PQ, `C82_replaced` PQ, `C82_recorded_partial` PCQ, `C82_any_recorded_partial` PCQ, `C82_mirrored` PQ
- C83: `C83_safe_partial` PQ, `C83_alone` PQ, `C83_lost` PQ, `C83_latest_goes_back` PQ
- C84: `C84_closed_for_a_reason` PCQ, `C84_reasons_close` PCQ, `C84_read_fails` PCQ
- C85: `C85_expiry_takes_others_along` PCQ, `C85_gateway` PQ, `C85_own_connection_partial` PCQ
- C86: `C86_idle_never_closed` PCQ, `C86_registered_closed_partial` PCQ
- C87: `C87_bytes` PCQ, `C87_bytes_settle` PCQ, `C87_conversation` PCQ, `C87_settles` PCQ
- C88: `C88_fleet` PCQ, `C88_all_listed` PCQ
- C89: `C89_evicts` PCQ, `C89_plate_taken_partial` PCQ
- C90: `CacheLock.C90_locked_methods_partial` PQ, `CacheLock.C90_read_only_partial` PQ, `CacheLock.C90_listing_is_fatal` PQ
- C91: `C91_frames_stay_whole_partial` PQ, `C91_cut_write_loses` PCQ
- C92: `C92_anyone_sets_parameters` PCQ, `C92_server_reports_media` PQ, `C92_registry_kept_partial` PCQ
- C93: `C93_harmless_partial` PCQ, `C93_registration_again` PCQ, `C93_deregistration_again` PCQ, `C93_location_again` PCQ
- C94: `C94_server_exact` PQ, `C94_client_exact` PQ, `C94_encoding_never_fails` PQ
- C95: `C95_whole_message` PCQ, `C95_sized` PCQ, `C95_exact` PCQ
- C96: `C96_isolated` PCQ, `C96_unnoticed` PCQ, `C96_same_plate` PQ
- C97: `C97_bytes_are_frames` PQ, `C97_cut_unique` PCQ, `C97_frames_arise` PQ, `C97_reachable` PQ, `C97_replies_cut` PQ
- C98: `C98_marks_ignored` PQ, `C98_unmarked_partial` PCQ
- C99: `C99_same_layout_partial` PCQ, `C99_layouts_differ` PCQ, `C99_F_collides` PCQ, `C99_F_refused` PQ, `C99_dialled_number_unknown` PCQ
- C100: `C100_default_report_partial` PCQ, `C100_leftover_reported` PCQ
- C101: `C101_sessions_bounded` PCQ, `C101_parameters_kept` PCQ, `C101_track_lingers` PCQ, `C101_anyone_piles_up` PCQ
- C102: `C102_exact` PCQ, `C102_digits` PCQ, `C102_distinct` PCQ, `C102_shown` PCQ
- C103: `C103_any_connection` PCQ, `C103_code_computed` PCQ, `C103_code_listed` PCQ, `C103_registration_partial` PCQ, `C103_stranger_reports` PQ
- C104: `Locks.C104_never_held_up` PCQ, `Locks.C104_nothing_held_at_network` PQ, `Locks.C104_no_deadlock` PCQ
- C105: `C105_decode` PQ, `C105_encode` PQ
- C106: `C106_dial_ends_all` PQ, `C106_dial_only` PQ, `C106_no_reconnect` PQ, `C106_fragment_deafens` PQ, `C106_finished` PCQ, `C106_deregistration_ends_all` PCQ, `C106_platform_partial` PCQ
- C107: `C107_status_partial` PCQ, `C107_unsent_200` PQ, `C107_unsupported_200` PQ
- C108: `C108_2019` PCQ, `C108_2013_partial` PCQ, `C108_introduced` PCQ, `C108_id_cut` PQ
- C109: `C109_one_by_one` PCQ
- C110: `C110_shipped_partial` PCQ, `C110_copies_evict` PCQ
- C111: `C111_replies_copy` PCQ, `C111_simulator_one` PCQ, `C111_own_partial` PCQ, `C111_collision` PQ
- C112: `C112_cache_partial` PCQ, `C112_overwrite` PCQ
- C113: `C113_bound` PCQ, `C113_put_partial` PCQ, `C113_nothing_said` PCQ, `C113_no_object` PCQ, `C113_wrong_count` PCQ, `C113_null_member` PCQ, `C113_null` PCQ, `C113_count_too_large` PQ, `C113_no_content_type` PCQ
- C114: `C114_failures_partial` PQ, `C114_closed_partial` PQ, `C114_served_on` PQ, `C114_never_returns` PQ, `C114_spins` PQ, `C114_second_listen` PQ
- C115: `C115_listing` PCQ, `C115_faithful_partial` PCQ, `C115_alike` PCQ
- C116: `C116_told` PCQ
- C117: `Once.C117_one` PCQ, `Once.C117_not_stuck` PCQ
- C118: `Startup.C118_up_iff` PQ, `Startup.C118_exit_partial` PQ, `Startup.C118_no_ports` P, `Startup.C118_no_directory` P, `Startup.C118_lurking` P, `Startup.C118_http_taken` P, `Startup.C118_silent` P
- C119: `Startup.C119_first_partial` P, `Startup.C119_kept` PQ, `Startup.C119_never_again` PQ, `Startup.C119_other_path` –, `Startup.C119_after_panic` –
- C120: `C120_answer` PCQ, `C120_latest_partial` PCQ, `C120_last_heard` PCQ
- C121: `C121_held` PQ, `C121_bounded_partial` PQ, `C121_flood` PCQ, `C121_no_bound` PCQ
- C122: `C122_answered_partial` PCQ, `C122_unanswered` PCQ, `C122_time_ignored` PCQ, `C122_time_never_sent` PCQ
- C123: `C123_prompt_partial` PCQ, `C123_handled_no_pause` PCQ, `C123_unknown_stalls` PCQ, `C123_corrupt_stalls` PQ, `C123_unwritten` PQ, `C123_lag` PQ, `C123_as_if_silent` PCQ, `C123_no_bound` PCQ
- C124: `C124_2019` PQ, `C124_2013` PQ, `C124_2011_is_2013` PQ, `C124_somebody_else` PCQ, `C124_gives_up` PQ
- C125: `C125_position` PCQ, `C125_near_partial` PCQ, `C125_shown_partial` PCQ, `C125_pole` P, `C125_rest` P, `C125_high` PQ, `C125_direction` PCQ, `C125_shared` PCQ, `C125_hundred` PCQ
- C126: `C126_status` PCQ, `C126_position` PCQ, `C126_registration` PCQ, `C126_recorded_partial` PCQ, `C126_any_case` PCQ, `C126_missing` PCQ, `C126_cut` PCQ, `C126_no_number` PCQ
- C127: `C127_same` PCQ, `C127_listing` PCQ, `C127_position` PCQ, `C127_no_other_memory` PCQ, `C127_asking_changes_nothing` PCQ, `C127_bytes` PCQ
- C128: `C128_order` PCQ, `C128_frames` PCQ, `C128_late` PCQ, `C128_same_plate` PQ, `C128_lost_line` PQ
- C129: `C129_found` PCQ, `C129_info` PCQ, `C129_names` PCQ, `C129_dir` PCQ, `C129_every_name` PQ, `C129_starts` PCQ, `C129_ports` PCQ, `C129_deflate_tables` P, `C129_tables` PCQ, `C129_dials` PCQ, `C129_patterns` PCQ
- C130: `C130_waits_partial` PCQ, `C130_order` PCQ, `C130_answered` PQ, `C130_refused_silent` PCQ, `C130_any_reply` PQ, `C130_somebody_elses` PQ, `C130_answers_first` PQ, `C130_refused_for_ever` PQ
- C131: `C131_same_partial` PCQ, `C131_plate` PQ, `C131_layout` PQ, `C131_code` PQ, `C131_answer` PCQ
- C132: `C132_read` PCQ, `C132_one_meaning` PCQ, `C132_exact` PCQ, `C132_trailing` PCQ, `C132_cut_off` PCQ, `C132_put_partial` PCQ, `C132_cut_off_sent` PCQ, `C132_request_partial` PCQ
- C133: `Startup.C133_connected_iff` PCQ, `Startup.C133_exit_partial` PQ, `Startup.C133_gives_up` PCQ, `Startup.C133_no_client` PQ, `Startup.C133_negative` PQ, `Startup.C133_none` PQ, `Startup.C133_idle` P, `Startup.C133_as_shipped` PCQ
- C134: `C134_exact` PCQ, `C134_other` PQ, `C134_request` PCQ, `C134_every_terminal` PCQ, `C134_one_terminal` PCQ, `C134_redirected_to_nothing` P
- C135: `C135_ignored` PCQ, `C135_read` PCQ, `C135_one_meaning` PCQ, `C135_alike` PCQ, `C135_ports` PCQ, `C135_comes_up` PCQ, `C135_udp` PCQ
- C136: `C136_shown` PCQ, `C136_connected` PCQ, `C136_registers` PCQ, `C136_device_conf` PCQ, `C136_terminal` PCQ, `C136_registration` PCQ, `C136_position` PCQ, `C136_listed` PCQ, `C136_transport` PCQ
- C137: `C137_events` PCQ, `C137_output` PCQ, `C137_first` P
- C138: `C138_answer` PCQ, `C138_json_partial` PCQ, `C138_two_complaints` PCQ, `C138_status` PCQ
- C139: `C139_outside` PCQ, `C139_determined` PCQ
- C140: `C140_alone_partial` PCQ, `C140_shared_phone` PQ
- C141: `C141_level` PCQ, `C141_replay` PCQ, `C141_quiet` PCQ, `C141_content` PCQ, `C141_late` PCQ
- C142: `C142_query` PCQ, `C142_media` PCQ, `C142_register` PCQ, `C142_register_2011` PQ, `C142_reencode` PCQ, `C142_unique` PCQ, `C142_lenient` PQ, `C142_not_injective` PQ, `C142_body_partial` PCQ, `C142_set_params` PCQ, `C142_params` PCQ, `C142_params_gbk` PCQ, `C142_position` PCQ
- C143: `C143_replay` PCQ, `C143_quiet` PCQ, `C143_content` PCQ, `C143_panic` PCQ
- C144: `C144_read` PQ, `C144_says` PQ, `C144_write` PCQ, `C144_refused` PCQ, `C144_survives` PCQ, `C144_ascii` P, `C144_lost` PCQ, `C144_plates` PCQ, `C144_mistaken` PQ, `C144_registers` PCQ, `C144_conversation` PCQ, `C144_shipped` PCQ
- C145: `C145_at_most` PCQ, `C145_at_least_partial` PCQ, `C145_exact_partial` PCQ, `C145_too_few` PQ, `C145_closed_counted` PQ
- C146: `C146_each_partial` PCQ, `C146_total_partial` PCQ, `C146_query_amplified` PQ
- C147: `C147_region` PCQ, `C147_text_ambiguous` –
- C148: `C148_saved_code` PCQ, `C148_refused` PCQ, `C148_same_code_again` PCQ, `C148_locked_out` PQ
- C149: `C149_once` PCQ, `C149_addressed` PCQ, `C149_own_connection_partial` PCQ, `C149_reused_address` PQ, `C149_unregistered` PCQ, `C149_answered` PQ, `C149_alone` PQ, `C149_unnoticed` PCQ
- C150: `C150_overtaken` PCQ, `C150_forgotten` PCQ, `C150_checks_still_partial` PCQ, `C150_stays_partial` PCQ
- C151: `C151_offline` PCQ, `C151_online` PCQ, `C151_overlapping` PCQ
- C152: `C152_no_interference` PCQ, `C152_one_by_one` PCQ, `C152_same_plate` PQ
- C153: `C153_moments` PCQ
- C154: `C154_one_connection` PCQ
- C155: `C155_answered` PCQ
- C156: `C156_welcome` PCQ
- C157: `C157_calm` PCQ
- C158: `C158_bytes` PCQ
- C159: `C159_bytes_calm` PCQ
- C160: `C160_bytes_sequential` PCQ
- C161: `C161_bytes_answered` PCQ
- C162: `C162_awake_sequential` PCQ, `C162_first_minute` PCQ
- C163: `C163_bytes_total` PCQ, `C163_minute_total` PCQ
- C164: `C164_answers_are_a_function` PCQ
- C165: `C165_others_break` PCQ, `C165_own_breaks` PCQ
- C166: `C166_first_minute_alone` PCQ
- C167: `C167_gateway` PCQ
- C168: `C168_gateway_total` PCQ
- C169: `C169_unnoticed` PQ, `C169_terminal` PCQ
- C170: `C170_fragments_of_others` PCQ
- C171: `C171_gateway_among_fragments` PCQ
- C172: `C172_terminal` PCQ, `C172_gateway` PCQ
- C173: `C173_first_minute` PCQ
- C174: `C174_awake_all_at_once` PCQ, `C174_awake_among_fragments` PCQ
