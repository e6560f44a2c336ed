# Formal model of libnostr-c in Lean 4

## 1. Method

* The model lives in `lean/Verif/`. Each C function that matters to a property is
  rewritten as a small total Lean function; every definition cites the file and
  lines it models and says where it simplifies.
* Bytes are `UInt8`; a C string is the list of its bytes before the terminating NUL;
  `uint16_t/uint32_t/uint64_t` become `UInt16/UInt32/UInt64` (wrap-around kept) where
  wrap-around matters and bounded `Nat` otherwise (each definition says which).
* Undefined behaviour (out-of-bounds access, signed overflow, use after free) is a
  separate outcome `Res.ub`, never an error code and never assumed away.
* External code is a parameter of the model: SHA-256/HMAC/HKDF/ChaCha20, Schnorr,
  scrypt/AEAD, the clock, the random generator, the allocator, cJSON (as the parsed
  tree), the network. What is assumed of a parameter is a visible hypothesis of the
  theorem that uses it; there are no Lean axioms.
* For each area there are three kinds of file: `Verif/<Area>/Model.lean` (the code),
  `Verif/<Area>/Lemmas.lean` (helpers) and `Verif/<Area>/Props.lean` (property theorems,
  their small independent specification, and non-vacuity examples).
* Where the code violates a property the negation is proved with a concrete witness
  (`*_refuted`) and the part that does hold is proved as `*_partial`.

## 2. Plan per property

| Id | What is modelled | How it is proved |
|----|------------------|------------------|
| C01 | bech32.c encoder/decoder, convert_bits, polymod with UInt32 | checksum residue algebra (state is linear), regrouping 8->5->8 inverse by induction |
| C02 | same | the polymod step is injective and linear; double errors by a finite kernel-checked table of `x^k` multiples lifted by a lemma |
| C03 | same | checksum of given data unique; padding-zero check makes regrouping a bijection |
| C04 | three decoders | decision logic; refuted for public keys (prefix not checked) |
| C05 | decoders with buffer sizes, `Res.ub` on overflow | refuted by a witness text; partial: lengths for which no overflow happens |
| C06 | nip21.c build/parse TLV on byte lists | induction over relays |
| C07 | parse_tlv | strong induction on the input |
| C08 | uri parse/encode | prefixes are pairwise incompatible, plus C01/C06 |
| C09 | utils.c and relay_protocol.c hex | induction |
| C10 | constant_time_memcmp | OR accumulates: induction |
| C11 | calculate_difficulty | induction over bytes, spec = leading zeros of the bit expansion |
| C12 | add_nonce_tag, mine_event, hash as parameter | loop invariant |
| C13 | threaded miner as a transition system | invariant over all interleavings |
| C14 | calc_padded_len, pad, unpad | arithmetic on powers of two |
| C15 | encrypt/decrypt with abstract cipher | refuted at 65000 bytes; partial below the size limit |
| C16 | decrypt | decision logic over all payloads |
| C17 | escape + serialise | unambiguous parse: prefix-freeness of escaped strings |
| C18 | add_tag with arena offsets and relocation | invariant over additions with arbitrary allocator |
| C19 | sign/verify with abstract Schnorr/SHA | refinement + C17 |
| C20 | to_json/from_json over a JSON tree | round trip |
| C21 | kind predicates | arithmetic |
| C22 | compare_replaceable | order laws, fold over permutations |
| C23-C25, C30 | relay_filter.c | refinement to a first-order spec |
| C26-C29 | relay_protocol.c | decision logic |
| C31-C32 | relay_message.c | JSON tree parse; snprintf contract |
| C33-C36 | relay.c | scanner prefix property, induction over chunks; lifecycle automaton |
| C37-C43 | nip47*.c | string functions by induction; sessions as state machine / transition system |
| C44-C45 | config.c | invariant over call histories |
| C46-C48 | nip51.c | refinement to sequences; parser/printer round trip; size bound |
| C49-C51 | nip65.c | invariant; round trip |
| C52-C54 | nip10.c, nip18.c, nip25.c | decision logic over tag lists |
| C55-C56 | nip26.c | clause-list semantics; symbolic signature |
| C57-C58 | nip05.c | string functions |
| C59-C62 | nip17.c, nip59.c | decision logic with abstract crypto |
| C63 | nip49.c | byte layout + C01 machinery, abstract AEAD/KDF |
| C64-C67 | hd_key.c | bit packing; binary search on the real table; path folding |
| C68-C70 | zap.c | decision logic; UInt64 arithmetic; buffer model |
| C71 | nip46.c | round trip, truncation |
| C72 | relay_nip11.c | list refinement, snprintf contract |
| C73 | key.c | sscanf model; round trip |
| C74-C76 | nip21.c TLV build with its 4096-byte buffer; URI decoders with buffer sizes | induction over relays; length arithmetic; C02 |
| C77 | config.c with a lock and a callback | step semantics of the lock |
| C78, C80 | both builds of the id serialisation | comparison with a transcription of NIP-01; length bound by induction |
| C79, C116 | nostr_event_from_json over the cJSON model | member-order independent specification (`Says`), decision logic |
| C81, C82 | nip13.c verify and nonce update | decision logic; C82 also in the byte-level memory |
| C83 | nip44.c calc_padded_len against the NIP-44 formula | arithmetic on powers of two |
| C84-C87 | relay_protocol.c validators, iterators, serialisation | decision logic, induction over tags |
| C88, C89 | relay_filter.c | decision logic; allocator model of Verif/Heap.lean |
| C90-C93 | relay.c message handling, sending, subscription list | JSON tree, text of requests parses back; interleavings |
| C94-C97 | nip47_session.c | transition system, all schedules |
| C98-C103 | nip47.c, nip47_commands.c | printed text parses back to the intended tree; buffer arithmetic |
| C104, C105, C118 | nip51.c reading, metadata setters | induction over tags; independent grammar of JSON arrays of strings |
| C106, C117 | nip21.c + bech32.c | equivalence with a transcription of BIP-173; record grammar |
| C107 | nip18.c quotes | decision logic |
| C108 | nip05.c relay lists | text scanning lemmas |
| C109 | nip17.c end to end | composition of C15, C19, C20, C60 |
| C110, C111 | nip49.c | byte layout; HChaCha20 against a separate transcription; list of wiped buffers |
| C112 | hd_key.c NIP-06 | composition of C64-C67 |
| C113, C114 | zap.c | decision logic; induction over relays |
| C115 | relay_nip11.c | JSON tree of the document |
| C119 | nip13.c nonce update in the byte-level memory | invariant of C18 |
| C120, C121 | key.c keypair functions as a state machine | invariant over call histories; decision logic |
| C122, C123 | key.c generation, utils.c random bytes over arbitrary answers of the generator | induction over attempts and requests |
| C124 | key.c ECDH for both backends over an abstract curve; secp256k1 itself for the counterexample | algebra of the two parities |
| C125 | key.c initialisation and clean-up, any number of threads | transition system, invariant |
| C126-C128 | nip44.c NIP-04 part over an arbitrary block cipher and base64 | round trip by induction over blocks; outcome characterisation |
| C129 | features.c for every build configuration | finite tables, induction over the list |
| C132 | nip47.c connection parsing and release over a heap with a failing allocator | ownership invariant, induction over the parameters; exact number of lost blocks |
| C133 | nip47.c information event over the same heap | case analysis of the three arrays; two indistinguishable runs |
| C134 | nip59.c gift wrap with further tags | inversion of the constructor, NIP-44 round trip |
| C130 | relay.c address handling in connect | exact characterisation over a URL grammar |
| C131 | relay.c subscribe, unsubscribe and dispatch with a failure at every point | case analysis; agreement with the failure-free model |
| C135 | relay_protocol.c deletion parsing and release over the heap of C132 | ownership invariant, induction over the tags |
| C136 | event.c create, set_content, add_tag, destroy over a heap of blocks | histories with an ownership invariant; negations for a failed and an aliased set_content |
| C137 | event.c from_json with every release path over the heap | composition of steps, each of which fails cleanly or keeps the invariant; agreement with the values of C116 |
| C138 | nip21.c decoders, URI parsing and release over the heap | ownership invariant, induction over the records; agreement with the values of C07 and C08 |
| C139 | nip21.c `encode_bytes_to_bech32` over the heap | case analysis; negation for a refused checksum |
| C140 | relay_message.c client message parsing and release over the heap, composed of C89 (filters) and C137 (events) | ownership invariant, induction over the filters |
| C141 | nip05.c `nostr_nip05_parse_response`, `nostr_nip05_verify` and `nostr_nip05_free_relays` over the heap | ownership invariant, induction over the relays; agreement with the values of C57, C58 and C108 |
| C142 | the response as a block of bytes, with or without a NUL | case analysis; negation for every response without NUL |
| C143 | the transition system of C13, with memory failures | invariant with an account of each worker; a measure that every step decreases; case analysis for progress |
| C144, C146 | runs of that system with the list of events each worker has compared | invariant over runs; negations: memory failure before the first attempt, 1001 workers |
| C145 | which shared memory each stage of a worker uses, and whether the lock is held | mutual exclusion from the invariant; negation for the flag |
| C147, C148, C149 | the builders as lists of steps on an event, with the blocks of C136, temporary blocks and the caller's pointer; values as in the models of the same functions | one lemma on every list of steps, by induction; each builder's list gives the values of its value model; negations on an allocator that refuses one request, and for zap requests in every failing case |
| C150, C151 | the calls that send and open messages over the builders' steps of C147 and the event of C137; decrypted and serialised texts as blocks | each layer ends with only its own event and what lay beneath; the layers are composed; values as in the models of C59 to C62 |
| C152 | a relay list as blocks: structure, array of pointers, one text per entry; arguments as readers of memory | invariant by induction on the calls and on the tags; no reader sees a released block |
| C153, C154 | a list as blocks: structure, array, items with up to four texts each, four texts of its own; arguments as pointers to texts of the caller or of the list | invariant by induction on the calls, the tags and the decrypted items; simulation of the value model of C46 and C104; negation for every list with a text |
| C155 | the copying of the flagged addresses on the blocks of C152 | induction on the entries; the copies are an array of texts of their own |
| C156 | a delegation as blocks: the text of the conditions and the array of kinds; parsing grows the array step by step | induction on the pieces of the conditions, simulation of the value model of C55 and C56; negation on an allocator that refuses the second request |
| C157 | reading a request: the decrypted text and the printed parameters as blocks | case analysis; negation for every request with parameters |
| C158 | a document as blocks: the array of NIPs and the attached arrays with the pointers in them | invariant by induction on the calls; one lemma on releasing an array of pointers; negation on one document |
| C159 | the local buffers of signing with their content before the call, every write and every `secure_wipe`; what they hold at the return | case analysis over all steps that can fail; agreement with the value models of C19 and C56; negation for every failing signature |
| C160 | the same for the functions on keys | the same, with an induction over the attempts of the generator; negations on a failing generator and on one text |
| C161 | the same for the three functions on derived keys, with the buffers of the calls they make | induction over the components of the path; agreement with the value model of C66; negations for every refused step |
| C162 | the same for the four functions on mnemonics, with the released blocks | induction over the words; agreement with the value models of C64, C67 and C112; negations for every valid mnemonic and every generation |
| C163 | the functions of nip49.c with their buffers, each exit with its wipes | cases over the exits; agreement with the value model of NIP-49 |
| C164 | the four functions on messages with their buffers and released blocks | cases over the exits; agreement with the value models of NIP-44 and NIP-04; negations for every message |
| C165 | the functions on seals, wraps and direct messages with the copies of keys and released texts | cases over the exits; agreement with the value models of C133 and C134; negations for every message |
| C166 | the relay client on a heap with failing allocation: linked list of subscriptions, buffer, temporaries, callbacks that call the library again | simulation between the heap and a specification without blocks (`Verif/Own/RelaySpec.lean`), induction over messages, calls, events and connections; negations by witnesses |
| C167 | the accessors for tags by index, by name and by iteration; the buffer of the hexadecimal accessors | induction over the tags and over the calls; the events are those of any history of `addTag` and `fromJson` |
| C168 | the filter accessors meant for query planning | both directions between a query over the reported values and `nostr_filter_matches`; negations by parsed documents |
| C169 | the result structure as memory, `strncpy`, `snprintf` | case analysis of the validators over arbitrary previous contents; negations by witnesses |
| C170 | the two tables of descriptions | complete case analysis of the finite tables |
| C171 | nip47_session.c on the heap: table, connections, permission arrays and names, id texts; overtaken calls as separate operations | invariant "live blocks are exactly those referred to" by induction over histories, refinement to the session model without a heap; negations by concrete histories, the overtaken call also shown reachable in the locking model |
| C172 | the local buffers of the nsec functions, the blocks of the checksum helpers, the copy of the query, the released structures | computation; the negations hold for every key and every text |
| C173 | the blocks of the four functions of nip44.c, base64 by mbedTLS and by OpenSSL, each with a failing allocator | ownership of the blocks step by step, with the value functions as specification; negations by concrete runs |
| C174 | the accesses to shared memory of every relay call and callback, the mutex, thread creation and joining; the threads alternate after every access | invariant of reachable states (lock discipline, what may run beside the service thread); exact list of the memory with a race, with a schedule for each |
| C175 | as C174, with the values of `service_running` and `context` | the same invariant (flags are down when the join comes), a measure that every step of the service thread lowers |
| C176 | `serialize_for_id` item by item over cJSON's allocations, and without cJSON; compute, sign, verify | induction over the tree with ownership of the blocks of every item; `Part` describes what may be missing; negations by concrete runs |
| C177 | the eleven functions that write JSON with cJSON, as trees built under a failing allocator, printed and deleted | the same induction; texts compared with the value models of C04 ff. |
| C178 | as C177 | the same induction, for trees in which every add that fails deletes its item |
| C179 | `nostr_nip47_parse_response_event`, `…_notification_event`, `…_pay_invoice_response`, `…_info_response` with their allocations, in the builds with and without cJSON; the parsed tree is one block | ownership of the blocks through each copy; `Got` says what a variable may hold; induction over the list of methods; negations by concrete runs |
| C180 | the byte-level model of the tag memory (`Verif/Arena`), one nonce change per attempt of the mining loop | sizes followed through every step; induction over the attempts; a run of any length with an allocator that enlarges in place |
| C181 | `nostr_zap_parse_receipt` and `nostr_zap_verify` with their allocations, the caller's variables and the size of the preimage buffer | invariant of the loop over the tags: blocks held and lost, values as in `Verif/Zap`; exact counts of the lost blocks; negations in general form (any number of invoices, any address, any older invoice) |
| C182 | `nostr_quote_tags_from_content` with its copies of the quotes, the decoded relays and the tags, on the heap | induction over the text; the value model of C107 as the result when nothing is refused; a run that loses a quote |
| C183 | the lookups of nip10.c with their array of references, and the functions of hd_key.c that work on copies (path, mnemonic, normalised texts, salt) | ownership of each temporary block through loops and early returns; results equal those of the value models of C52 and C64–C67 |
| C184 | the text of `nostr_nip46_create_response` (nip46.c:82-104) built item by item on the heap, then encrypted and signed as in the value model | the members present are a part of those wanted (`Part`); equality with the value model when nothing is refused; runs with one refusal, for all keys and cryptography |
| C185 | `nostr_event_parse`, `nostr_filter_parse`, `nostr_client_msg_parse` on a caller's array with a length (`Verif/RelayProto/Length.lean`) | equality with the value models on the first bytes; an array without NUL and an incomplete text as counterexamples |
| C186 | config.c as threads that copy structures field by field under a lock (or none) | invariant over all schedules: the holder of the lock is between the states before and after its call; refutations by schedules |
| C187 | nip47_session.c call by call as programs of single reads, writes, locks and unlocks with the values that steer them; any number of threads | lockset invariant with the phase "the table is being made", over all schedules; refutations by schedules |
| C188 | relay.c:161-195 with the caller's variable, and the arrays of nip13.c:490-539, on the heap with failing allocation | ownership of blocks for every allocator; refutation with one refused allocation |
| C189 | the copies made by the checksum functions of bech32.c, on the heap with failing allocation | the result is that of the model without memory, or an encoding error, for every allocator |
| C190 | the conversions to and from double and `print_number` of cJSON, on integers (Double/Model.lean), put into the places where C17, C19 and C20 have parameters | rounding and printing analysed for all 64-bit times; refutations by times of 16 digits |
| C191 | `(int64_t)` and `(uint32_t)` of the double a number text is read as, undefined outside the range, in event.c:500, relay_filter.c:172, 177 and nip47_commands.c:489 | case analysis over all texts; limits from the spacing of doubles near 2^63; refutation by short texts |
| C192 | the doubles of C190 put into the places where C99 and C103 have parameters | as C190; refutation by two amounts one millisatoshi apart |
| C193 | nip47.c:647-656, 835-843 and nip47_commands.c:372-380, 414-439, 510-519: `strstr` for a quoted name and a colon, `strtoull`, the next quotation mark (Nip47/Bare.lean) | induction over documents: the searched text starts nowhere in the printed form of a document without such a key, strings and escapes included; refutations by short texts and, for replies, for every error reply |
| C194 | key.c:51-209 with the locks, the seeding, the loop over chunks, and the part of `nostr_init` that holds the other lock; drawing reads and writes the state of the generator in two steps (Keys/Rng.lean) | invariant over all executions (holder of each lock, state of the seeding, numbers delivered are below the state and distinct); progress by constructing an execution from every reachable state |
| C195 | utils.c:54-73, key.c:379-439, 520-601 and hd_key.c:101-279 over one memory that holds argument and result; `memcpy` of overlapping regions is undefined (Alias/Model.lean) | induction over the loops: what is still to be read lies behind what is written; refutations for every key where the code reads after writing |
| C196 | nip25.c:84-146, nip18.c:108-166, nip10.c:94-157 and nip05.c:102-127 with the caller's buffers as memory of the given size, writing outside is undefined (Outbuf/Model.lean); the tag scans are those of C52 to C54 | what `strncpy` and the terminator leave, then each call; the folds over the tags are shown to find the last tag of each name |
| C197 | bech32.c:117-151, 205-237, 276-308, nip21.c:60-98, 229-240, 279-291, 323-335, 373-385, 458-496, nip49.c:247-322, nip05.c:138-165 and hd_key.c:315-377 with the caller's buffer as memory of the given size, every write checked (Outbuf/Encode.lean) | writing from left to right keeps the form "written part, then old bytes"; induction over the symbols and over the words; bounds on the converted data by induction over `bech32_convert_bits` |
| C198 | no new code: the models of event.c, relay.c, relay_message.c and relay_filter.c joined by an application that plays the relay (Journey/Spec.lean) | the lemmas of C18, C31, C32, C33, C90 and C92 composed; an event read from any text is well formed by induction over its tags |
| C199 | CMakeLists.txt:3-60, 87-157, 377-390, 548-760 as a function from options and found libraries to variables; include/nostr_features.h.in:25-73; for all of src/*.c a table of every function (413 names), its definitions and its uses with the preprocessor conditions around them, generated from the text by tools/names.py (Build/Tables.lean); build.zig:19-38 with zig-include/nostr_features.h, and CMakePresets.json:3-103. Not modelled: how libraries are searched for, compiler and libc conditions, macros, types, include files | conditions as formulas, a sound test for implications by splitting on variables, evaluated by the kernel for every entry of the table; the facts every accepted configuration satisfies by case distinction |
| C200 | key.c:30-37, 211-280 in one thread, and for each of the 36 public functions that use a context (key.c, event.c, nip26.c, nip44.c, nip17.c, nip59.c, nip46.c, nip47.c, nip51.c, relay_protocol.c, zap.c, hd_key.c) the order of tests, initialisations and uses (Keys/First.lean) | invariants over all histories; a call may end at any step |
| C201 | relay.c:161-184, 197-326, 329-378, 380-424, 562-573, 700-730 as a state machine with the connection itself beside the relay object (Relay/State.lean). Whether the websocket library reports the end of a client connection as CLOSED, and whether it calls back while a context is destroyed, are parameters | invariant over all histories, with the service thread between the two halves of nostr_relay_connect |
| C202 | the models of NIP-17, NIP-44, event JSON, relay client and relay messages put together: sender, relay (an application of the library, as in C198) and recipient on three hosts with their own cJSON builds, platforms and limits (Journey/Mail.lean). Cryptography and base64 as in C109 | a message sent on one host is the message another host with wider limits would send; then C198 and C109. Lengths through the two encryptions and the JSON text between them |
| C203 | the history of one event under changing configurations (Config/Limits.lean), with the models of event.c and nip44.c, which take the configuration as an argument. That the six fields are read nowhere else was checked by searching /repo/src; the theorem is about the modelled functions | invariants over all histories; reading and printing as in C20 |
| C204 | the models of NIP-46, NIP-47, NIP-44, event JSON, relay client and relay messages put together on three hosts (Journey/Talk.lean). The library has no function for the request of a signer's client, nor for what a wallet sends: these are events an application makes with nostr_nip44_encrypt, nostr_event_add_tag and nostr_event_sign | delivery as in C198, reading as in C71, C98 and C101, lengths as in C202. That the wallet's answer is not readable assumes that a MAC under one conversation key is not one under the other |
| C205 | the models of the constructors and of all calls that change an event, as sequences that end at the first error (Journey/Post.lean), joined with C198. Mining in one thread as one of the calls, and in parallel (the transition system of C13) as the last step before signing | invariant over the calls: kind, tags and content are such as C strings allow; then C198, and the round trips C47, C50, C52, C53, C54, C56 and C12 |
| C206 | the calls that go through `long` once more, with the width of `long` as a parameter (Long/Model.lean); with 64 bits they are the other models (`C206_wide`). Only base-10 numbers; `size_t` keeps 64 bits | cases of the number read against 2^32; induction over tags, tokens and clauses |
| C207 | the value-level models of the calls, and the answer of `nostr_relay_connect` as a function of what fails (Codes/Model.lean); the documented codes as a table with the lines of the documents (Codes/Spec.lean) | cases of the code paths; inductions over the loops that read symbols, digits, tags and nonces |
| C208 | the buffers of C196 again, and the outputs of the zap calls with what they held before (Outbuf/Zap.lean) and of the wallet calls (Outbuf/Wallet.lean); allocation succeeds | two runs of a call on different memory compared step by step; induction over the tags of a receipt |
| C209 | for every public function its pointer arguments, its tests of them for NULL and its first uses, in the order of the text (Null/Table.lean, written by tools/nulls.py, the functions with tests in helpers by hand); the arguments the headers call optional (Null/Spec.lean). Other returns are left out | a check that follows what is known not to be NULL, proved sound by induction over the steps and run on the table; the table has exactly the declared functions of C199 |
| C210 | every function of src/*.c as a program of reads and writes of the library's variables, lock operations, calls and calls of the application (Shared/Library.lean for those that write a variable or use a lock; Shared/Table.lean, written by tools/shared.py, for all others, whose parts are taken in any order); any number of threads, values of flags only (Shared/Model.lean) | a discipline of locks that a function keeps, proved to be an invariant of every step of every thread; the functions of the table are checked against it; locks are taken in one order, which gives progress by induction on that order; schedules for the refutations |
| C211 | the memory of the tags of C18 (Arena/Model.lean), addresses handed out as what a reader finds in it, additions, settings of the nonce and other uses of memory after that (Arena/Borrow.lean, Arena/Mined.lean) | what an addition leaves unchanged, by cases of the code; induction over the additions; refuted where the memory moves |
| C212 | the programs of all functions of C210 (Shared/Library.lean, Shared/Table.lean); for each variable the public calls that may change it (`writers`, Shared/Writes.lean) | no function outside the list contains or calls an assignment, checked for all functions, and an invariant of what threads have still to do, by induction over all executions; for exactness an execution for each entry of the lists (Shared/Needs.lean) |
| C213 | the programs of all functions of C210; the lists of docs/THREAD_SAFETY.md (Shared/Promise.lean) | two more disciplines of locks (one with variables that are written with two locks and read with one of them), checked for all functions, and the invariant of C210; refuted by schedules for the pairs of calls that collide |
| C214 | the configuration calls with the notifications they make (Config/Doc.lean, on the functions of Config/Model.lean), nostr_init and nostr_cleanup as far as the configuration calls see them; beside them the bounds, defaults and variables of CONFIG.md | cases of validation against the documented bounds; induction over histories for the registered function and the log of notifications; refuted where code and document differ |
| C215 | the programs of docs/INTEGRATION.md as compositions of the models of the calls they make (Zap/Guide.lean), two hosts as in C198 | composition of C01, C19, C20, C68, C69 and C114 (Zap/GuideProps.lean); refuted where the programs do not check |
| C216 | examples/nip13_example.c as a composition of the models of the calls it makes (Nip13/Example.lean); mining alone or by threads is a relation between the event before and the result | C12 and C13 for what mining leaves, computing the id again changes nothing, C20 for reading back, C19 for signing; refuted where the program does not sign, and for its status without cJSON |
| C217 | examples/publish_note.c as a composition of the models of the calls it makes (Relay/Example.lean); each relay is the state of its connection at the two moments the program looks, and the chunks it sends | C19 for the signature, C92 for the text sent, C33 and C34 for what arrives, induction over texts and relays for the flag (Relay/ExampleProps.lean); refuted by concrete runs |
| C218 | the callbacks of examples/subscribe_events.c on top of the dispatch of relay.c (Relay/Watch.lean); the calendar of the host is a parameter | C90 (routing, at most one callback per text) and the shape of a line (Relay/WatchProps.lean); refuted by one message each |
| C219 | examples/zap_example.c as a composition of the models of the calls it makes (Zap/Example.lean), the loop over the options by recursion over the arguments | induction over the options, functional induction over the arguments for the bound; C114, C19, C20 and C68 for the rest (Zap/ExampleProps.lean); refuted by concrete arguments |

## 3. Trusted base

* Lean 4.33.0 kernel. Axioms used by theorems: at most `propext`, `Classical.choice`,
  `Quot.sound`. There are no other axioms, no `sorry`, no `native_decide`.
* The reading of the C code into Lean. The code is not compiled or run here. Every
  definition cites the lines it models.
* The C library as modelled next to its use: `strlen`, `strcmp`, `strchr`, `strstr`,
  `strtoul`, `strtol`, `atoi` (`Verif/Num.lean`), `sscanf("%2hhx")` (`Verif/Hex`),
  `snprintf` truncation, `strtok`/splitting (`Verif/Text.lean`), `memcpy`, `realloc`
  (`Verif/Arena/Model.lean`, `Verif/Heap.lean`). Pointers have eight bytes, `size_t` 64 bits.
* cJSON as modelled in `Verif/Json`: the parser and printer, character by character,
  including the nesting limit. Number conversion through `double` is a parameter
  (`Renum`/`GoodNum`) with the assumption that integers of at most 15 digits survive;
  this is the reason for the bound 10^15 in several theorems. For event times
  `Double/Model.lean` fills the parameters in with a model of IEEE doubles, `%1.15g`,
  `%1.17g` and `compare_double` on integers (C190, C191).
* Which blocks cJSON's functions allocate and release, and in which order, when memory is refused (`create` … `print` in
  `Verif/Own/Tree.lean`, after cJSON 1.7), and likewise OpenSSL's base64 (`Verif/Own/Crypt.lean`).
* Parameters without a model: SHA-256, HMAC, PBKDF2, HKDF, ChaCha20, AES, the NIP-44 cipher
  of noscrypt, scrypt, XChaCha20-Poly1305 (except HChaCha20, which nip49.c implements
  itself and which is modelled), Schnorr signatures, elliptic-curve arithmetic,
  utf8proc, base64 (a reference codec instantiates it in `Verif/Base64.lean`), the
  clock, the random generator, the allocator's answers, the websocket library's
  callbacks. What a theorem assumes of them (for example that decryption inverts
  encryption under the same conversation key) is a visible hypothesis.
* The table of names, definitions, uses and conditions in `Verif/Build/Tables.lean` was written by the script
  `tools/names.py` from the text of /repo; that the script reads C correctly is trusted (C199 only). The table of tests and uses of pointer arguments in `Verif/Null/Table.lean` was written by `tools/nulls.py`, which is trusted likewise, as are its entries made by hand (C209 only). `Verif/Shared/Table.lean` and `Ids.lean` were written by `tools/shared.py`, which finds the library's functions, the variables and functions they mention and the calls of the application in the text (C210 only); it stops if a function not written out in `Verif/Shared/Library.lean` writes one of the variables or mentions one of the locks.
* Concurrency is interleaving of atomic steps under locks; C data races appear as their
  own outcome (C93) or as atomic reads where the code reads a flag without the lock (C13).

### What is modelled

The files below, except the functions listed under "not modelled": bech32.c, config.c, event.c,
features.c, hd_key.c, key.c, nip05.c, nip10.c, nip13.c, nip17.c, nip18.c, nip21.c, nip25.c, nip26.c,
nip44.c (NIP-44 and NIP-04), nip46.c, nip47.c, nip47_commands.c, nip47_session.c, nip49.c, nip51.c, nip59.c,
nip65.c, relay_filter.c, relay_message.c, relay_nip11.c, relay_protocol.c, utils.c, zap.c; of relay.c
the address handling, message handling, request texts, subscription list, connection life cycle, memory and the two threads. A file in this list is modelled function by function, but not
every function has its own definition: some are inlined into their caller's definition, whose
comment then cites the lines of both.

### What is not modelled

* A few functions that only return a count or a constant text or release what they are given (`nostr_list_count`,
  `nostr_relay_list_count`, `nostr_version`, `nostr_free`).
* Platforms other than those with a `long`, `time_t` and `size_t` of 64 bits, an `int` of 32 bits and little-endian order, except for
  `long` in C206 (`Verif/Long`).
* The ESP32/mbedTLS and Windows variants of conditional code, unless a definition says
  so. The Windows mining worker and its starter (nip13.c:280-336, 435-491) take the same steps in the same order as the
  POSIX ones that are modelled, with critical sections in place of mutexes. Both JSON variants (with and without cJSON) of the event serialisation are modelled.
* The websocket library, TLS, DNS and HTTP; the examples, tests and language bindings.
* Timing. C10 states what the constant-time comparison computes, not how long it takes.
* What the compiler and the libraries leave behind: C159 and the following properties about secrets in memory are about
  the local buffers and blocks of the functions in /repo, each compared with its content before the call (`Verif/Wipe`).
  Registers, spilled copies, padding and the stack of the cryptographic libraries are not modelled, nor is the
  possibility that a compiler removes a wipe (utils.c uses calls made against that). A library function that fails is
  taken to leave its output buffer as it was, unless a definition says otherwise.
* Alignment of memory accesses (but see `C18_alignment_refuted`).

## 4. Disagreements between code and properties

Each line names the theorem that proves the disagreement; the part of the property that
does hold is the `*_partial` theorem of the same number.

| Property | What the code does | Theorem |
|----------|--------------------|---------|
| C04 | `nostr_key_from_bech32` never looks at the prefix: it reads an nsec as a public key | `C04_key_accepts_nsec_refuted` |
| C05, C75, C107 | texts of 87 to 90 characters (96 with `nostr:`) overrun the decoder's stack buffer | `C05_*_overflow_refuted`, `C75_uri_overflow_refuted`, `C138_uri_refuted`, `C107_overflow_refuted` |
| C15 | plaintexts of 61441 to 65535 bytes are encrypted but refused by decryption (payload limit) | `C15_long_refuted` |
| C17, C20, C32, C99 | with cJSON, numbers pass through `double`: times and amounts above 2^53 change | `C17_cjson_refuted`, `C20_large_time_refuted`, `C32_large_count_refuted`, `C99_large_refuted` |
| C17, C80 | without cJSON, the id buffer is too small for many empty tags: the text is cut, later writes overrun | `C17_plain_refuted`, `C80_overflow_refuted` |
| C18 | adding a tag whose values are those of a tag of the same event reads released memory when the arena grows | `C18_own_refuted` |
| C18 | arrays of pointers are placed at unaligned addresses | `C18_alignment_refuted` |
| C23 | a filter misses an event whose matching tag is the 257th of its name; negative times are ignored | `C23_crowded_refuted`, `C23_negative_refuted` |
| C25 | conditions of a wrong type are dropped, which widens a filter; upper-case tag names collide | `C25_widening_refuted`, `C25_case_refuted` |
| C26 | a deletion by address also deletes newer versions; addresses of 256 bytes and more never match | `C26_newer_refuted`, `C26_long_refuted` |
| C27 | an event is not expired in its expiration second, and never with expiration 0 | `C27_boundary_refuted` |
| C28 | now + allowance may overflow | `C28_overflow_refuted` |
| C31 | a non-object in the place of an event or filter is accepted | `C31_wrong_type_refuted` |
| C33 | beyond the 10 MB buffer, delivery depends on how the stream is cut | `C33_limit_refuted` |
| C35 | subscription ids of 256 characters are accepted | `C35_length_refuted` |
| C36 | destroy or reconnect after a failed or lost connection leaks or uses released memory | `C36_*_refuted` |
| C37, C73, C116 | hex digits are read with `sscanf("%2hhx")`: spaces, signs and single digits pass | `C37_lax_refuted`, `C73_strict_refuted`, `C116_hex_refuted` |
| C38 | the spent amount wraps modulo 2^64 | `C38_wrap_refuted` |
| C39 | a call that found a session before it was destroyed can report success, without a connection | `C39_get_refuted` |
| C95 | the connection a session call hands out can be released while the caller uses it | `C95_dangling_refuted` |
| C41 | raising the maximum number of permissions lets the table be overrun | `C41_raise_refuted` |
| C42 | responses as NIP-47 prescribes them (p tag with the client's key, no encryption tag) are decrypted with the wrong key | `C42_p_tag_refuted`, `C42_no_tag_refuted` |
| C45 | an empty environment variable counts as 0 | `C45_env_empty_refuted` |
| C47, C118 | private items with long fields, empty hints, `\b`, or quotes in a fifth field are not read back | `C47_*_refuted`, `C118_*_refuted` |
| C52 | events whose only e tags are mentions are reported as replies | `C52_mention_refuted` |
| C53 | with several e tags, the relay hint of an earlier one is reported | `C53_hint_refuted` |
| C55 | of repeated time bounds in a delegation the last one counts; negative kinds match modulo 65536 | `C55_*_refuted` |
| C58, C108 | names outside the `names` object are found; nested objects hide it; relays with escapes or brackets are lost | `C58_*_refuted`, `C108_*_refuted` |
| C59 | the NIP-59 calls publish the exact time when the random generator fails | `C59_gift_refuted` |
| C61 | the author of a direct message is not compared with the signer of its seal | `C61_impersonation_refuted` |
| C62 | the id of a sent message is computed before its tags are added | `C62_sent_refuted` |
| C66 | path components are reduced modulo 2^32; empty and negative ones are accepted | `C66_alias_refuted` |
| C67 | phrases with extra spaces give another seed | `C67_spaces_refuted` |
| C69, C70, C113 | invoices without a unit, amounts beyond 64 bits and long prefixes are misread; LNURL checksums are not checked | `C69_*_refuted`, `C70_overflow_refuted`, `C113_garbage_refuted` |
| C71 | ids over 64 and methods over 31 bytes are cut; results that look like JSON change their type; a result beside an error is dropped | `C71_*_refuted` |
| C72 | passing a document's own array to the setter uses released memory | `C72_own_refuted` |
| C74, C114 | relays beyond the buffer (NIP-19) or the fifteenth (zaps) are dropped | `C74_relay_dropped_refuted`, `C114_relays_refuted` |
| C77 | a configuration callback that reads the configuration deadlocks | `C77_callback_deadlock_refuted` |
| C78 | rare control characters are escaped where NIP-01 does not escape them | `C78_control_refuted` |
| C79 | a malformed id releases the event but leaves the caller's pointer | `C79_dangling_refuted` |
| C81 | proof of work is checked on the claimed id, which is not compared with the content | `C81_id_not_checked_refuted` |
| C82 | setting the nonce of a one-value nonce tag destroys the next tag | `C82_short_tag_refuted`, `C82_corrupts_refuted` |
| C83 | padding differs from NIP-44 from 257 bytes on | `C83_padding_refuted`, `C83_interop_refuted` |
| C91 | events are delivered without verification | `C91_unverified_refuted` |
| C198 | a subscription with an id of 65 to 256 characters is accepted by the client (relay.c:15-24) and refused by the library's relay side (relay_protocol.c) | `C198_long_id_refuted` |
| C198 | a time of 5·10^15 or more can be another one after the way through a relay | `C198_time_refuted` |
| C92, C98 | trailing text after a filter or after parameters is sent as it is | `C92_trailing_refuted`, `C98_inject_refuted` |
| C93 | the subscription list has no lock | `C93_race_refuted` |
| C94 | session ids are compared beyond their end | `C94_short_id_refuted` |
| C96 | an expired session can be extended | `C96_revived_refuted` |
| C98, C100 | long requests are cut; parameter builders overrun their buffers or do not escape | `C98_long_refuted`, `C100_*_refuted` |
| C102 | an info event without content is an access through NULL | `C102_null_refuted` |
| C103 | negative numbers and foreign values in command results are misread | `C103_*_refuted` |
| C105 | a setter that fails has lost the old text | `C105_set_refuted` |
| C115 | retention rules with time zero lose their time | `C115_zero_refuted` |
| C116 | kinds wrap modulo 65536, members may be missing, tag values of other types become empty texts | `C116_*_refuted` |
| C119 | running out of memory while setting the nonce leaves a changed tag with a NULL value | `C119_failure_refuted` |
| C120 | a failed import into a keypair that has keys leaves a wrong private key readable and exportable | `C120_failed_import_refuted`, `C120_failed_text_refuted` |
| C124 | with secp256k1, the shared secret depends on the parity of the peer's point, which x-only keys do not have; the builds do not interoperate | `C124_secp_refuted`, `C124_builds_refuted`, `C124_curve_refuted` |
| C125 | after a failed initialisation, calls that test only the pointer use an uninitialised context; clean-up does not wait for running calls | `C125_pointer_refuted`, `C125_cleanup_refuted` |
| C126 | the length of a text is passed to the cipher as an `int` (nip44.c:546): of a text of 2^32 + k bytes only the first k are encrypted, and success is reported | `C126_long_refuted` |
| C127 | NIP-04 messages can be altered without the key (a weakness of NIP-04 itself) | `C127_tamper_refuted` |
| C128 | an empty base64 part in a NIP-04 message is a double free | `C128_double_free_refuted` |
| C129 | NIP-18 and NIP-26 are never reported as supported | `C129_unreported_refuted` |
| C199 | NIP-17, NIP-47 or NIP-59 without NIP-44 and NIP-04 are accepted but call `nostr_nip44_encrypt`/`decrypt`, which are then not compiled (CMakeLists.txt:591-596, 714-716; nip17.c:108, nip47.c:524, nip59.c:111); HD keys without secp256k1 are accepted but hd_key.c:118-145 calls it; with the encodings off, nip18.c and nip49.c miss theirs; JSON asked for explicitly without cJSON gets relays accepted although relay.c needs it (CMakeLists.txt:615-632) | `C199_accepted_refuted` |
| C199 | functions of a feature that is off are not in the library, docs/FEATURE_FLAGS.md:101 promises NOT_SUPPORTED; the placeholders in the sources are never compiled; without cJSON the relay protocol answers INVALID_JSON | `C199_off_refuted`, `C199_placeholders` |
| C199 | NIP-04 is reported as supported with mbedTLS and is a placeholder (nip44.c:488-500); NIP-44 is reported as missing in a build with NIP-04 only and on the ESP32, and works; `encoding` is always listed (nostr_features.h.in:28); `threading` is listed on the ESP32 (CMakeLists.txt:53) | `C199_reported_refuted`, `C199_esp_refuted` |
| C199 | the Zig build reports the relay protocol as available and compiles only one of its four files (build.zig:29, zig-include/nostr_features.h:32-34); it switches NIP-18 and NIP-26 on and compiles neither (23-28) | `C199_zig_refuted` |
| C199 | the presets with cJSON are accepted on a machine without it, and relay.c then lacks it (CMakePresets.json:28-42, 80-102) | `C199_presets_refuted` |
| C200 | `nostr_nip17_send_dm` (nip17.c:315), `nostr_nip59_wrap_event` (nip59.c:78), `nostr_nip47_create_request_event` (nip47.c:438) and the HD functions (hd_key.c:61, 118, 145) use the context without initialising it; all others initialise lazily | `C200_first_refuted` |
| C200 | an initialisation that fails after `NCGetSharedContext` leaves `nc_ctx` set (key.c:221-236), and the functions that test only the pointer then use it (event.c:600, 701, nip44.c:268, 385) | `C200_half_refuted` |
| C130 | a port in a relay address is ignored; the copy of the address is not tested for NULL | `C130_port_refuted`, `C130_memory_refuted` |
| C131 | a subscribe or unsubscribe call that reports an error has taken effect locally; an id that could not be copied is read through NULL | `C131_registered_refuted`, `C131_removed_refuted`, `C131_null_refuted` |
| C136 | setting the content of an event releases the old content before the new one is copied: without memory the content is lost; with the event's own content as argument released memory is read | `C136_kept_refuted`, `C136_own_refuted` |
| C139 | encoding a pointer goes on with an unwritten checksum, used as an array index, when the checksum finds no memory (nip21.c:82; the other callers test it) | `C139_checksum_refuted` |
| C142 | verification checks the response length reported by the callback and then reads the response up to a NUL (nip05.c:313-325); the interface (nostr.h:1367-1371) asks for no NUL | `C142_unterminated_refuted` |
| C144 | an error in a mining worker (for example no memory) is reported as "target not reached" | `C144_memory_refuted` |
| C145 | mining workers read the shared flag without the lock while another writes it (nip13.c:360, 385) | `C145_flag_refuted` |
| C146 | with more than 1000 mining workers nonces are tried twice | `C146_crowd_refuted` |
| C148 | when memory for the arena is refused, `nostr_event_create` leaves the caller's pointer on the event it has released (event.c:98-101); every builder hands it on | `C148_create_refuted` |
| C148 | `nostr_zap_create_request` leaves a dangling pointer after every failure (zap.c:60-107) | `C148_zap_refuted` |
| C149 | a response of a remote signer is reported as created without its recipient tag when memory for the tag is refused (nip46.c:126-129) | `C149_memory_refuted` |
| C153 | setting a text of a list to the text it has already, `nostr_list_set_title(list, list->title)`, copies from the block it has just released (nip51.c) | `C153_itself_refuted` |
| C156 | when memory for the kinds of a delegation is refused, valid conditions are reported as invalid (nip26.c) | `C156_blame_refuted` |
| C157 | when memory for the parameters of a request is refused, the request is reported as read without parameters (nip46.c) | `C157_params_refuted` |
| C158 | `nostr_relay_info_free` releases the `kinds` of publication fees but not those of admission and subscription fees (relay_nip11.c:101-117) | `C158_kinds_refuted` |
| C159 | with noscrypt, `nostr_delegation_create` wipes the key but not `random32` when `NCSignDigest` fails (nip26.c:226-229) | `C159_randomness_refuted` |
| C160 | `nostr_key_generate` returns without wiping the buffer of the candidate when the random generator fails (key.c:303-305, 335-337) | `C160_generator_refuted` |
| C160 | `nostr_keypair_from_private_hex` with a malformed text fails with the bytes before the bad character in the key pair (key.c:520-532) | `C160_text_refuted` |
| C161 | with noscrypt, `nostr_hd_key_from_seed` does not wipe `nc_seckey` when `NCGetPublicKey` fails, for instance because the library is not initialised (hd_key.c:61-65) | `C161_seed_refuted` |
| C161 | `nostr_hd_key_derive` that fails leaves the chain code, and in some cases the private key, in `child` (hd_key.c:140-150, 152-196) | `C161_child_refuted`, `C161_childKey_refuted` |
| C161 | `nostr_hd_key_derive_path` does not wipe `next` when a step fails (hd_key.c:257-264) | `C161_path_refuted` |
| C162 | `nostr_mnemonic_validate` never wipes `indices`, from which the mnemonic can be read back (hd_key.c:391) | `C162_validate_refuted` |
| C162 | `nostr_mnemonic_generate` never wipes `hash`, the SHA-256 of the entropy (hd_key.c:331) | `C162_generate_refuted` |
| C162 | `nostr_mnemonic_to_seed` releases the normalised texts without wiping them when memory is refused (hd_key.c:498-512) | `C162_seed_refuted` |
| C164 | `nostr_nip44_encrypt` releases the padded plaintext without wiping it (nip44.c:311) | `C164_nip44_encrypt_refuted` |
| C164 | `nostr_nip44_decrypt` releases the deciphered text and its unpadded copy without wiping them (nip44.c:481-482) | `C164_nip44_decrypt_refuted` |
| C165 | `nostr_nip17_create_seal`, `nostr_nip59_create_seal` and `nostr_nip59_wrap_event` release the JSON text of the message without wiping it (nip17.c:109, nip59.c:347, 112) | `C165_message_refuted`, `C165_sent_refuted` |
| C166 | a connection that the websocket library refuses leaves its mutex; disconnecting inside a callback uses released memory (relay.c:691); a subscription whose id could not be copied is read through NULL by the next message | `C166_mutex_refuted`, `C166_disconnect_refuted`, `C166_nameless_refuted` |
| C168 | a filter document that names a tag letter twice reports only the first list, and an empty list looks like no condition | `C168_repeated_refuted`, `C168_empty_refuted` |
| C169 | validating a NULL filter does not write the texts of the result, so that formatting it reads what was there before, possibly without an end; a valid result is formatted as "invalid: " | `C169_missing_refuted`, `C169_valid_refuted` |
| C170 | NOSTR_ERR_NOT_SUPPORTED and NOSTR_RELAY_ERR_STORAGE are described as unknown errors | `C170_unknown_refuted` |
| C171 | a permission added by a call that found its session just before another call gave it up stays in the free slot, and its name is lost when the slot is used again | `C171_overtaken_refuted`, `C171_overtaken_reachable` |
| C171 | creating a session ignores that the table could not be allocated and uses NULL; adding a permission ignores that its name could not be copied, and the next check passes NULL to `strcmp`; creating a session ignores that the id could not be copied, and nobody can give the session up | `C171_table_refuted`, `C171_name_refuted`, `C171_text_refuted` |
| C171 | the connection that is handed out belongs to the session and dangles when the session expires and another one is created | `C171_borrowed_refuted` |
| C172 | writing and reading nsec leave the key in local buffers and in the released block of the checksum; reading a connection text releases a copy with the secret in it | `C172_out_refuted`, `C172_in_refuted`, `C172_conn_refuted` |
| C173 | `base64_encode` and `base64_decode` with OpenSSL check none of the BIO calls: without memory for a BIO, encryption follows a null pointer, or reports success with the raw payload or an empty text; NIP-04 decryption of a sound message releases the decoded block twice | `C173_crash_refuted`, `C173_success_refuted`, `C173_double_free_refuted` |
| C174 | the mutex protects `lws_write` only: the list of subscriptions, the state, the message callback, `service_running`, `context`, `reconnect_enabled` and the objects of the websocket library are used by both threads without order (libwebsockets allows `lws_write` on the service thread only) | `C174_exact`, `C174_refuted` |
| C176 | `serialize_for_id` looks at no result of cJSON: with memory refused once, `nostr_event_compute_id` reports success for the hash of a text without the content, the tags, … and `nostr_event_sign` signs it; without cJSON `strlen(NULL)` (event.c:324) | `C176_refuted`, `C176_sign_refuted`, `C176_plain_refuted` |
| C177 | results of `cJSON_Add…` are never looked at: a payment without its amount, an OK message without its verdict, an event without its kind are reported as success | `C177_refuted` |
| C178 | arrays and objects that cannot be added are lost, and the array of keysend records or payments when one of them is refused (nip47_commands.c:187-191, 271-275) | `C178_refuted` |
| C179 | without memory a response, notification or payment result is read with success and NULL in place of a text; the number of methods is stored before their array is there (nip47_commands.c:495-497); entries of `methods` that are no texts stay uninitialised (502-504), and releasing the array frees them | `C179_refuted`, `C179_methods_refuted`, `C179_bare_refuted` |
| C180 | every attempt of mining leaves the texts of the old nonce and difficulty in the event's memory (nip13.c:158-159 says so); a search of 2³⁰ attempts takes more than 4 GB | `C180_refuted`, `C180_attempts_partial` |
| C181 | a zap receipt with several `bolt11` or `description` tags loses the copy or the event of each but the last (zap.c:152, 165), also in `nostr_zap_verify` | `C181_lost_refuted` |
| C181 | a malformed description before any `bolt11` tag frees whatever the caller's `bolt11` variable held (zap.c:167-170) | `C181_unset_refuted` |
| C181 | a receipt without invoice reports the amount of the invoice the variable held before (zap.c:177) | `C181_stale_refuted` |
| C181 | the header asks for 64 bytes for the preimage, 65 are written (nostr.h:759, zap.c:158-162) | `C181_buffer_refuted` |
| C181 | when the copy of the invoice fails after the description, the error leaves the request allocated (zap.c:153-155) | `C181_memory_refuted` |
| C182 | when memory is short while a quote is decoded, the quote is passed over like an invalid one and success is reported (nip18.c:213-217) | `C182_refuted` |
| C183 | `nostr_event_is_reply` reports success and "no reply" for a reply when memory is refused (nip10.c:217-221) | `C183_reply_refuted` |
| C184 | with one allocation refused, `nostr_nip46_create_response` signs a response without its error, identifier or result, or with a JSON result turned into a string (nip46.c:87-97) | `C184_refuted` |
| C185 | `nostr_event_parse` ignores the length it is given (relay_protocol.c:291): a text that does not end with a NUL is read beyond its end; filters and messages do the same for length 0 (relay_filter.c:106, relay_message.c:91) | `C185_event_refuted`, `C185_zero_refuted` |
| C19 | without cJSON, the text of a signed event with 430 tags can be changed and it still verifies; with cJSON, the time 2^53 can be changed to 2^53+1 (event.c:283-364) | `C19_tamper_plain_refuted`, `C19_tamper_cjson_refuted` |
| C101 | a wallet notification of 61441 to 65535 bytes is encrypted but can never be read (nip44.c:400) | `C101_long_refuted` |
| C109 | with a small `max_content_size` a direct message of 400 bytes is sent but cannot be unwrapped: the limit is checked only when reading (event.c:511); times beyond 2^53 are changed | `C109_limit_refuted`, `C109_time_refuted` |
| C186 | without `NOSTR_FEATURE_THREADING` a thread can be handed half of the old and half of the new configuration; the structure handed out is overwritten by the next call in the same thread (config.c:184-190) | `C186_mixed_refuted`, `C186_pointer_refuted` |
| C187 | whether a session is in use is written under the lock of the session and read under the lock of the table (nip47_session.c:42, 68, 149 against 360); its end likewise (68 against 337); whether there is a table is read without a lock (121 against 108) | `C187_active_refuted`, `C187_expires_refuted`, `C187_first_refuted` |
| C188 | without memory for its address, creating a relay releases the structure and leaves its address in the caller's variable (relay.c:171-175) | `C188_relay_refuted` |
| C190 | times of 16 digits from 2^52 on that end in 1 or 9 are rounded by the printer of cJSON, which holds them for equal to their neighbour: the event read is another one, and its signature is one for the neighbour as well | `C190_roundtrip_refuted`, `C190_id_refuted`, `C190_messages_refuted`, `C190_overflow_refuted` |
| C191 | numbers outside the range of the integer type are converted from double (event.c:500, relay_filter.c:172 and 177, nip47_commands.c:489): undefined, and anyone can send them; the library's own text of an event of time 2^63 - 1 is one | `C191_refuted`, `C191_client_refuted`, `C191_own_refuted` |
| C192 | amounts from 2^52 millisatoshi on that end in 1 or 9 are rounded: the command carries another amount than the one given | `C192_amount_refuted` |
| C29 | the sum of the clock and the configured limit is computed in `int64_t` and overflows for a very large limit (relay_protocol.c:108-112) | `C29_overflow_refuted` |
| C134 | a seal of more than 61440 bytes of text is wrapped but the wrap cannot be decrypted (nip44.c:399-401) | `C134_large_refuted` |
| C193 | without cJSON every reply that can be opened is reported as a success of type `unknown` with result `{}` and no error, also a failed payment (nip47.c:647-656); notifications alike (nip47.c:835-843) | `C193_response_refuted`, `C193_notification_refuted` |
| C193 | without cJSON `nostr_nip47_parse_info_response` does not read its argument and invents a wallet (nip47_commands.c:510-519) | `C193_info_refuted` |
| C193 | without cJSON the first `"balance":` in the text is taken, also a nested one; negative and non-numeric ones are accepted (nip47_commands.c:372-380) | `C193_balance_refuted`, `C193_invalid_refuted` |
| C193 | without cJSON a preimage behind white space is not found and escapes are not undone (nip47_commands.c:416-428) | `C193_layout_refuted`, `C193_escaped_refuted` |
| C195 | `nostr_hd_key_derive` with the same key as parent and child clears it before reading it (hd_key.c:107): the call fails and the key is lost | `C195_derive_refuted` |
| C195 | `nostr_keypair_from_private_hex` passes the pair's own private key to `nostr_keypair_from_private_key`, whose `memcpy` then copies a region onto itself (key.c:531, 547), undefined in C for every valid text; so does the path `m` in place (hd_key.c:219) | `C195_import_refuted`, `C195_path_refuted` |
| C195 | a key written as hexadecimal over itself becomes another text (key.c:402-404, utils.c:69-71) | `C195_encode_refuted` |
| C195 | `nostr_hex_decode` into the inside of its own text overwrites digits before reading them (utils.c:58-63) | `C195_decodeInside_refuted` |
| C196 | reactions, reposts and thread references are reported as found although a text did not fit and was cut: an id loses digits, a relay hint becomes the address of another relay (nip25.c:92, nip18.c:116, nip10.c:22-25, 97-101) | `C196_cut_refuted` |
| C196 | a reaction or repost refused with NOT_FOUND has its content, author and kind handed out all the same (nip25.c:107, 143, nip18.c:160-163) | `C196_left_refuted` |
| C197 | `nostr_mnemonic_generate`, refused with INVALID_PARAM because the buffer is small, has already written the first words of the secret phrase into it, without an end (hd_key.c:345-371) | `C197_mnemonic_refuted` |
| C132 | a connection text with several `lud16` parameters loses one block for each but the last | `C132_leak_refuted` |
| C201 | a connection lost five seconds or more after `nostr_relay_connect` was called is reported as CONNECTING, but no attempt is begun, and `nostr_relay_connect` is refused until the application disconnects (relay.c:202-204, 716-725) | `C201_reconnect_refuted` |
| C201 | only `LWS_CALLBACK_CLOSED` is handled; libwebsockets reports the end of a client connection as `LWS_CALLBACK_CLIENT_CLOSED`, after which the relay stays CONNECTED and uses a connection that no longer exists (relay.c:353-355, 708, 729-730) | `C201_closed_refuted` |
| C201 | without threading nobody calls `lws_service`, so no connection is ever established though `nostr_relay_connect` returns NOSTR_OK (relay.c:99, 294-320) | `C201_unthreaded_refuted` |
| C201 | the report of CONNECTING may come after that of CONNECTED (relay.c:322-324) | `C201_order_refuted` |
| C202 | private messages whose JSON text has 32769 to 45056 bytes are sent and published without an error, but their gift wrap has more than 65536 bytes of content, which `nostr_event_from_json` refuses with the default configuration at the relay and at the recipient (config.c:64, event.c:511, nip17.c:292-392) | `C202_too_long_refuted`, `C202_long_text_refuted` |
| C203 | `nostr_event_set_content` takes content above `max_content_size` and `nostr_event_to_json` writes it, but the same library refuses to read it (event.c:119-132, 511); `max_tag_values` is checked nowhere; `nip44_min_plaintext_size` is not checked when decrypting (nip44.c:105-109); after `nostr_init` without a configuration no limit holds, not even the defaults (config.c:177-191); `relay_connect_timeout_ms`, `relay_response_timeout_ms`, `encryption_default_nip`, `secure_memory_lock` and `debug_mode` have no effect | `C203_content_refuted`, `C203_values_refuted`, `C203_min_refuted`, `C203_unconfigured_refuted`, `C203_lowered_refuted`, `C203_unused_refuted` |
| C204 | answers of a signer of more than 45056 bytes are made and published without an error, but no relay or client with the default content limit reads them (nip46.c:73-152, event.c:511); a wallet's answer whose `p` tag names the client, as NIP-47 demands, is decrypted with the client's own key as the peer and so refused with INVALID_SIGNATURE (nip47.c:566-577) | `C204_long_refuted`, `C204_wallet_answer_refuted` |
| C205 | an event that is mined with the zero key `nostr_event_create` leaves in it (nip13.c:200-245) gets another id in `nostr_event_sign`, which sets the key and computes the id again (event.c:593-692): the work is lost without an error | `C205_work_refuted` |
| C206 | where `long` has 32 bits: zap requests ask for the amount modulo 2^32 (zap.c:79) and invoices of 2^32 millisatoshi and more are read modulo 2^32 (zap.c:179-190), so that a valid receipt for 5 000 000 sat is refused and taken for one over 705 032 sat; `lnbc92233721` overflows a signed product (zap.c:195); `NOSTR_MAX_SESSIONS=4294967296` makes `nostr_init_with_config` fail, `-4294967295` means 1 (config.c:81-84); `kind=-4294967295` means kind 1 (nip26.c:94, nip18.c:153, nip25.c:135); the keysend record 5482373484 becomes 2147483647 (nip47_commands.c:194); a `time_t` of 64 bits is printed with `%ld` (nip47_commands.c:61, 67). A path component 4294967296 is refused there and means 0 elsewhere (hd_key.c:245) | `C206_request_refuted`, `C206_receipt_refuted`, `C206_verify_refuted`, `C206_verify_sample_refuted`, `C206_overflow_refuted`, `C206_env_refuted`, `C206_conditions_refuted`, `C206_kind_refuted`, `C206_keysend_refuted`, `C206_list_refuted`, `C206_path_refuted` |
| C207 | nostr_key_from_hex answers invalid hex with INVALID_KEY, never with the documented ENCODING (docs/API.md:94, key.c:378-394) | `C207_hex_refuted` |
| C207 | nostr_event_verify answers a wrong id with INVALID_EVENT and a bad key with INVALID_KEY; documented is INVALID_SIGNATURE (nostr.h:590, event.c:694-762) | `C207_verify_refuted` |
| C207 | nostr_event_sign also gives INVALID_KEY and MEMORY (docs/API.md:232, event.c:593-692) | `C207_sign_refuted` |
| C207 | nostr_event_from_json accepts a text that goes on behind the object (docs/API.md:267, event.c:464) | `C207_json_refuted` |
| C207 | nostr_ncryptsec_decrypt answers the empty password with INVALID_PARAM (nostr.h:1321, nip49.c:324-336) | `C207_ncryptsec_refuted` |
| C207 | the root or parent of a note that only mentions another one is reported as found (nostr.h:1079, nip10.c:105-145) | `C207_thread_refuted` |
| C207 | nostr_delegation_verify answers a bad key with INVALID_KEY (nostr.h:1433, nip26.c:281-317) | `C207_delegation_refuted` |
| C207 | a buffer of size 0 is answered with INVALID_JSON instead of BUFFER_TOO_SMALL (nostr_relay_protocol.h:352, 414, 427) | `C207_empty_refuted` |
| C207 | nostr_relay_connect gives INVALID_PARAM for a URL with another scheme and MEMORY when no thread can be started (docs/API.md:354, relay.c:233-236, 309-317) | `C207_connect_refuted` |
| C208 | nostr_zap_parse_receipt with a NULL invoice argument never writes the amount it documents as an output of its own (nostr.h:757, zap.c:177) | `C208_amount_refuted` |
| C208 | what a zap receipt lacks is left as the variable was, with success (zap.c:143-200) | `C208_receipt_refuted` |
| C208 | nostr_zap_validate_lnurl documents the server's key and a flag as outputs and writes neither (nostr.h:748-749, zap.c:112-135) | `C208_lnurl_refuted` |
| C208 | reading a wallet's response with a result leaves code and message of the error as they were, with success (nip47.c:629-645); fees that are not reported likewise (nip47_commands.c:405-410), and the type of a notification without one (nip47.c:823-828) | `C208_response_refuted`, `C208_paid_refuted`, `C208_notification_refuted` |
| C208 | reading the description of a wallet leaves the variable of every member that is missing as it was, with success, also the array of methods and its count (nip47_commands.c:456-507) | `C208_info_refuted` |
| C209 | nostr_random_bytes and nostr_constant_time_memcmp follow NULL (key.c:125-163, utils.c:14-24); so do the calls that make the parameters of a payment to a key, for a NULL record (nip47_commands.c:193-195), and of many payments without cJSON, for a NULL invoice (nip47_commands.c:314) | `C209_refuted` |
| C209 | a reply with neither root nor parent is refused though both are described as possibly NULL (nostr.h:1099-1102, nip10.c:179) | `C209_reply_refuted` |
| C210 | contexts, the flag that they are ready, the text and flag of the features, the flag of the session table, and the use and end of a session are touched by several threads without a common lock (key.c:211-300, features.c:105-188, nip47_session.c:115-185, 320-375) | `C210_refuted`, `C210_prepared_refuted` |
| C210 | the callback of the configuration runs with the lock taken: asking for the configuration in it waits for ever (config.c:260-262) | `C210_callback_refuted` |
| C211 | an addition that has to enlarge the memory of the tags may move it: every text and array of values handed out before is then in released memory, which the headers do not say (event.c:170-190, relay_protocol.c:191-254) | `C211_refuted`, `C211_moved` |
| C213 | docs/THREAD_SAFETY.md:11-25 calls nostr_init, nostr_cleanup, nostr_key_generate and all session calls safe; nostr_init or nostr_cleanup beside nostr_key_generate, and destroying or extending a session beside other session calls collide (key.c:211-300, nip47_session.c:39-84, 320-375) | `C213_refuted` |
| C214 | CONFIG.md allows timeouts up to 300000 ms; response timeouts above 60000 ms are refused (config.c:157-159) | `C214_timeout_refuted` |
| C214 | CONFIG.md says that nostr_init() initialises with defaults and environment variables; it leaves the library without a configuration, nostr_config_get_current() is NULL and nostr_config_update() fails (key.c:211-259, config.c:177-181, 246-249) | `C214_plain_refuted` |
| C214 | nostr_init_with_config() repeated after its failure, or after nostr_cleanup(), returns NOSTR_OK without initialising (config.c:196-199, 228-230) | `C214_retry_refuted` |
| C215 | the guide's `verify_zap_receipt` says "Zap verified!" for every readable event of kind 9735 with an invoice, whoever made it: no signature is looked at and `expected_amount` is not used (docs/INTEGRATION.md:126-154) | `C215_forged_refuted` |
| C215 | for a receipt without an invoice the same program prints a NULL text, also if `nostr_zap_verify` accepts the receipt (docs/INTEGRATION.md:145, zap.c:174-202) | `C215_no_invoice_refuted` |
| C215 | the guide's `send_zap` reads the recipient with `nostr_key_from_bech32`, which takes any prefix: an `nsec1…` is written as hex into the public request (docs/INTEGRATION.md:52-56, bech32.c:153-203) | `C215_secret_refuted` |
| C216 | the proof-of-work example never signs the event it mines, so the JSON it prints is refused by every verifier (examples/nip13_example.c:52-113) | `C216_unsigned_refuted` |
| C216 | without cJSON the same program ends with status 1 although mining and verification have succeeded, because the status of `nostr_event_to_json` is the last one (examples/nip13_example.c:109, 123) | `C216_exit_refuted` |
| C217 | the publishing example takes every OK message for a confirmation: it looks neither at the event id nor at the verdict, so a refused note is reported as published (examples/publish_note.c:33-35, 174-178) | `C217_refused_refuted` |
| C217 | the same when the note could not be sent and the message is about another event | `C217_unsent_refuted` |
| C217 | the program ends with status 0 although nothing was published (examples/publish_note.c:152, 180, 198) | `C217_status_refuted` |
| C218 | the subscribing example hands the result of `localtime` to `strftime` without looking at it: an event with a time stamp of 1e17, which needs no signature, is undefined behaviour (examples/subscribe_events.c:49-52) | `C218_crash_refuted` |
| C218 | the same program shows unsigned events, of kinds it has not asked for, as coming from the key they name (examples/subscribe_events.c:46-85) | `C218_forged_refuted` |
| C219 | the zap example does not check its amount: `ten` is 0 and `-1` is 2^64 - 1 (examples/zap_example.c:37) | `C219_amount_refuted` |
| C219 | the zap example ends with status 0 when it refuses a receipt (examples/zap_example.c:147, 160) | `C219_status_refuted` |
| C133 | after a failed reading of an information event the capabilities pointer is either owned or dangling, and the results are the same | `C133_ambiguous_refuted` |

NIP-49 asks for NFKC normalisation of the password. nip49.c uses the bytes as they are given and
never normalises, so the theorems on C63 and C110 speak about password bytes. This is a reading of
the code, not a theorem. (The NFKD normalisation in hd_key.c, when built with utf8proc, is a
parameter of C64 to C67.)
