# Formal model of rust-fuse in Lean 4: design

Subject: the Rust workspace in `/repo` (crates `fuse`, `fuse-std`, `fuse-libc`,
`fuse-linux`, `fuse-vfs`), read as text.  Nothing from it is compiled or run.
The model is a hand transcription; every model definition cites the file and
lines it transcribes and notes every simplification.

## Trusted base

* The Lean 4.33.0 kernel.
* The standard axioms `propext`, `Classical.choice`, `Quot.sound`, as printed by
  `#print axioms` (see "Axiom audit" below).  No other axiom is declared or used.
* The fidelity of the transcription (reviewable through the citations).
* The target is taken to be 64-bit little-endian, `usize = u64`.
* Models of the outside world that occur in statements: the kernel's mount option
  parser (`Kernel.parse` in `PropMount.lean`, for C38 and C53), the FreeBSD kernel's
  reading of `nmount` options (`Bsd.options`, for C54), and message descriptions of
  `fuse.h` (`Protocol.lean`, `Spec.lean`, constants in `PropServe.lean`).

## Modelling conventions

* Bytes are `List UInt8`; integers are Lean's fixed-width `UIntN`/`IntN`, so
  wrap-around and saturation are those of the code.
* `repr(C)` records are Lean structures with a `Wire` instance: `enc`, `dec`,
  their size, alignment, and round-trip proofs.  Padding fields are explicit.
* Unsafe code is modelled by *explicit failure values*: an out-of-bounds read, a
  misaligned reference, a panic, or an invalid `NonZero` is a `Fault`, separate
  from an ordinary `RequestError`.  "Memory safe" means: no `Fault` is reachable.
* The outside world is an arbitrary state type with arbitrary transition functions:
  sockets (`Socket σ ε`), systems (`Sys δ`), handlers, init closures, and the
  implementation of a VFS filesystem.  Theorems quantify over all of them.
* Loops that need not terminate are relations or streams of outcomes, not fuel.
* Concurrency: a thread is a resumption whose steps are the atomic actions of the
  code (a critical section, a call of user code, a system call).  An execution is
  any interleaving.  The memory model is sequential consistency; the code under
  study shares state only through mutexes, so nothing weaker is observable.
* `Protocol.lean` and `Spec.lean` describe protocol messages with concatenations of
  little-endian integers, independently of the model's records and decoders.
* Where the code violates a property, the negation is proved with a concrete
  witness (`..._violated`), and the part that holds is proved with `_partial`.
* Property theorems are in `Prop*.lean` and `Layout.lean`; everything else is model,
  specification vocabulary or lemmas.

## Modules

| module | content |
|--------|---------|
| `Wire`, `Kernel`, `Layout` | bytes, little-endian integers, all protocol records |
| `Spec`, `ReadAt`, `Protocol`, `InitMessage`, `RequestSpec` | specification vocabulary |
| `Types`, `Attr`, `Flags` | value types: node IDs and names, modes, times, locks, attributes, entries, flag sets |
| `Decode`, `Requests` | `Request`, `RequestDecoder`, every request type |
| `DecodeLemmas`, `DecodeRun`, `DecodeSafe`, `DecodeSim`, `DecodeSound` | program logics for decoders: success, absence of faults, two runs, what success implies |
| `RequestRun`, `RequestSafe`, `RequestSim`, `RequestSound`, `RequestMatch`, `RequestAll` | the logics applied to every request type |
| `Server`, `Handshake`, `SessionLemmas`, `Dispatch`, `Std` | send buffers, replies, connecting, serve loops, threads |
| `Dirent`, `Xattr`, `Ioctl`, `Notify` | reply bodies with their own structure |
| `Sys`, `Mount`, `MountCall` | device sockets, mount options, mounting |
| `Vfs` | `fuse-vfs`: handlers as resumptions, the shared maps, `StaticDirectory` |
| `VfsHom` | filesystems that differ only in what the methods do not look at dispatch alike |
| `VfsTrace`, `VfsRun`, `VfsFacts`, `VfsHist`, `VfsCount`, `VfsReport`, `VfsDemo` | event traces of handlers, executions, observations, counts, a sample filesystem |
| `VfsLocks`, `VfsLockRun`, `VfsLockErase`, `VfsLockFacts` | the VFS handlers at the level of lock operations and single map accesses, executions with waiting, panics and poisoned locks, reduction to `Vfs` |
| `Hello`, `ScriptPool` | the example program; the threads against a client with a fixed script |
| `Records` | records built by setters |
| `Debug` | the text of values printed with `{:?}` |
| `PropRadix` | node IDs and modes printed with `{:b}`, `{:x}`, `{:X}` and any options (C59) |
| `DebugReq`, `PropDebugReq`, `PropDebugSame`, `PropDebugLabel` | the text of requests, as trees (C70) |
| `DebugPretty`, `PropDebugPretty` | the indented form of the text (C70) |
| `PropEntry` | the copies of the node ID in an entry (C71) |
| `DebugResp`, `PropDuration`, `PropDebugResp`, `PropDebugSent`, `PropDebugRespLabel` | the text of responses and notifications, durations (C72) |
| `Names`, `Platform` | names and strings; constants chosen by target platform |
| `Buffers` | aligned slices and buffers, the heap |
| `Device` | the threads of `serve_fuse` and `serve_cuse`, one system call per step |
| `PropSharp` | the exact inputs on which the partial claims about decoding fail |
| `PropLanguage` | C67 (which byte strings decode, and to what), C14 and C15 for arbitrary messages |
| `PropLocks` | lock ranges from the `fcntl` call on (C31) |
| `PropZero` | the records made by `new()` are zero (C01) |
| `PropTime` | the order of Unix times (C33) |
| `PropIoctlRead` | typed reads of ioctl input (C51) |
| `PropStack` | a program using a served filesystem sees that filesystem (C75) |
| `PropWhole` | a whole mount: handshake, loop, end (C76) |
| `PropShare` | several programs at once on a mount (C77) |
| `Rpc` | operations, answers, a client for them, and a server for any function that answers operations |
| `RpcOp`, `RpcAns` | operations through requests, answers through replies |
| `PropRpc` | any filesystem is served as it is (C78) |
| `Conc` | programs that use a filesystem at the same time: directly, and through the threads of `serve_fuse` |
| `PropConc` | threads keep operations atomic (C79) |
| `Dev` | abstract character devices, programs that use them, and a server for them |
| `PropDev` | any character device is served as it is (C80) |
| `PropDevAll` | and what becomes of programs after a POLL with node ID 0 (C80) |
| `VfsMirror` | filesystems on sockets that cannot be told apart dispatch alike, step by step |
| `PropVfsDevice` | the VFS layer on a device (C89) |
| `PropVfsHostile` | clients that send anything to the VFS layer (C90) |
| `PropVfsHostileMany` | the same with threads, at the level of locks (C90) |
| `StdPanic`, `PropStdPanic`, `PropStdPanicCuse` | the threads of `serve_fuse` and `serve_cuse` with handlers that panic, and what `std::thread::scope` does then (C91) |
| `PropVfsReplyAll` | what becomes of every message that the VFS layer gets (C46) |
| `Note` | filesystems that send notifications, and programs that listen |
| `PropNote` | notifications reach the client beside the replies (C81) |
| `Old` | requests and replies as clients of older versions have them |
| `PropOld` | older clients are served as well (C82) |
| `Many` | programs that use a filesystem or a device at the same time through threads, with notifications and older clients |
| `PropMany` | threads keep operations atomic also with these (C83) |
| `Hostile` | clients that send any bytes: what a message asks for, how conversations are to go; a server that refuses what it cannot decode |
| `PropHostile` | such clients bring about only what they ask for (C84) |
| `HostileDev` | the same for clients of character devices |
| `PropHostileDev` | and these bring about only what they ask for (C85) |
| `HostileMany` | clients that send any bytes, served by several threads |
| `PropHostileMany` | what they ask for takes place one at a time, and nothing else does (C86) |
| `PropTransport` | a client at the other side of a device, whose calls may be interrupted: nothing changes (C87) |
| `PropTransportMany` | threads that read from a device, and programs at the other side of it (C88) |
| `PropHostileAll` | what is made of the two kinds of message that C84, C86 and C88 leave out |
| `PropTransportExact` | what C80_exact and C84_exact say, through whole mounts and on devices |
| `PropTransportNote` | filesystems that announce things, and old clients, on devices (C81, C82) |
| `PropManyLost` | what threads do after a request that no handler survives: nothing is sent any more, and nothing is seen that direct use could not show (C83, C86) |
| `PropTransportLost` | the same on devices (C88) |
| `PropManyEnds` | there is no infinite execution, and only the loss of what is served keeps serving from returning, with requests that no handler survives among what programs do (C83, C86) |
| `PropTransportEnds` | the same on devices (C88) |
| `PropHelloBsd` | mounting the example on FreeBSD (C57) |
| `PropVfsDefault` | methods of nodes and handles left to their defaults (C74) |
| `PropStatx` | structures passed to system calls (C53), the root mode of a mount (C73) |
| `PropVfsDrop` | destructors of forgotten nodes (C66) |
| `PropVfsTable` | the node and handle tables are linearizable (C69) |
| `PropHistory` | message forms of old protocol versions (C11, C12); C68 |
| `PropHelloAll` | C57 for every message the server accepts |
| `ScriptAll`, `PropHelloSession` | sessions with any messages: malformed ones, and ones on which handlers panic |
| `PropDeviceCuse` | C63 for CUSE, C26 at system call granularity |
| `Conform`, `ConformDebug`, `ConformDebugResp`, `ConformDebugInterop` | the library's unit tests, run on the model (tests, not proofs) |
| `Prop*` | the property theorems |

## Properties

Status `partial` means that the property as stated fails or is not covered in some
case; the `note` in `MANIFEST.json` and the findings below say which.

| id | property | status | theorems in | modelled by; method |
|----|----|----|----|----|
| C01 | Wire records round-trip | proved | Layout, PropZero | record layouts of `kernel.rs`, `compat.rs`; round trip over a generic record isomorphism, bytes given field by field |
| C02 | Request acceptance is exactly header validity | proved | PropRequest | `Request::new`; decision logic, iff |
| C03 | Accepted requests can be inspected without panicking | partial | PropRequest, PropSharp | `Request::body`, `request_len` with faults; witness for `len < 40`, proof for the rest; the failing inputs characterised exactly (`PropSharp`) |
| C04 | Decoding is memory safe | partial | PropRequest, PropSharp | decoder monad with faults; program logic `SafeAt`, one lemma per operation; two witnesses; the failing inputs characterised exactly (`PropSharp`) |
| C05 | Decoding ignores bytes beyond the request | partial | PropRequest, PropSharp | decoder monad; relational logic over two runs on two buffers; the failing inputs characterised exactly (`PropSharp`) |
| C06 | Requests of the wrong type are rejected | proved | PropRequest | `expect_opcode` first in every decoder; decision logic |
| C07 | Node IDs handed to a server are never zero | proved | PropLanguage | `decode::node_id`; decision logic per operation |
| C08 | Node names handed to a server are valid | proved | PropDecode, PropLanguage | `next_node_name`; soundness logic `Snd` |
| C09 | NodeName validation is exact | proved | PropRequest | `NodeName::from_bytes`; induction on bytes, iff |
| C10 | C-string arguments are consumed completely | partial | PropDecode, PropSharp | `next_cstr`; witnesses for the empty string, proof for the rest; the failing inputs characterised exactly (`PropSharp`) |
| C11 | Fixed-body requests decode to what the client sent | partial | PropDecode, PropHistory | all operation decoders against `Protocol.lean`; two directions, `Run` and `Snd`; witnesses for every lock of a 7.7 or 7.8 client |
| C12 | Named requests decode to what the client sent | partial | PropDecode, PropHistory, PropSharp | as C11; the failing requests characterised exactly (`PropSharp`) |
| C13 | Write payload is exactly the client's data | partial | PropDecode, PropSharp | as C11; the failing inputs characterised exactly (`PropSharp`) |
| C14 | Truncated requests are rejected | partial | PropDecode, PropLanguage | as C11, on prefixes of messages; what a cut message can still encode from C67 (`PropLanguage`); witness |
| C15 | Forget requests report exactly the client's items | partial | PropDecode, PropLanguage, PropRequest, PropSharp | forget decoder and iterator; induction; witness for forged counts; arbitrary messages by C67 (`PropLanguage`) |
| C16 | Timestamps in SETATTR are validated | proved | PropDecode | setattr decoder; decision logic |
| C17 | Every reply is correctly framed | proved | PropReply | `ReplySender::send_*` and every reply encoder; framing theorem per reply |
| C18 | Oversized replies are refused, not truncated | proved | PropReply | as C17; length bound |
| C19 | Replies use the layout of the negotiated version | proved | PropReply | version dependent reply structs; byte offsets for every minor version |
| C20 | Version negotiation picks a common version | proved | PropSession | connect loops of `FuseServer`, `FuseConnection`, `CuseServer`; induction on iterations |
| C21 | Client and server agree on the session | partial | PropSession | as C20; invariants of the session record; witness |
| C22 | Init flags are never granted unasked | proved | PropConfig, PropSession | as C20 |
| C23 | The receive buffer fits every permitted write | proved | PropSession | `recv_buf_len` and buffer allocation; arithmetic |
| C24 | The serve loop dispatches every request exactly once, in order | partial | PropServe | serve loops; induction on receive outcomes |
| C25 | Dispatch routes by opcode and unknown opcodes reach the fallback | proved | PropServe | dispatch tables; case analysis over opcodes |
| C26 | The threaded server keeps serving after malformed requests | partial | PropDevice, PropDeviceCuse, PropStd, ScriptAll | transition system of threads and bounded channel; invariants over all schedules; deadlock witnesses |
| C27 | Directory listings round-trip | partial | PropDirent | dirent writers and iterators; induction over push histories |
| C28 | Directory listings never overflow the buffer | partial | PropDirent | as C27; invariant |
| C29 | Directory entry types are reported in dirent encoding | partial | PropDirent | dirent type conversion; proof for READDIR, witness for READDIRPLUS |
| C30 | Extended attribute name lists round-trip | proved | PropXattr | name list writer and iterator; induction |
| C31 | Lock ranges mean what the client said | partial | PropLocks, PropTypes | lock ranges as sets of bytes; arithmetic |
| C32 | Cache timeouts survive encoding | proved | PropTypes | timestamp encoding over mutator sequences |
| C33 | Unix times round-trip through attributes | proved | PropTime, PropTypes | `UnixTime`, `NodeAttr` setters; refinement to a record of values |
| C34 | File modes and file types agree | proved | PropTypes | bit-vector algebra |
| C35 | Flag sets behave as sets | proved | PropTypes | generic `bitflags!` of any width; set refinement |
| C36 | Notifications are correctly framed | partial | PropNotify | `encode_notify`; framing; witnesses at 4 GiB |
| C37 | IOCTL retry lists respect the protocol limit | proved | PropIoctl | retry buffers; invariant over additions |
| C38 | Mount data round-trips and cannot be injected into | proved | PropMount | mount data writer; parser round trip, fits-iff |
| C39 | Errors are negative error codes | partial | PropIoctl | error conversions; arithmetic; witness |
| C40 | Sockets deliver each reply at most once and completely | proved | PropSocket | send loops over arbitrary systems; outcome sequences |
| C41 | Sockets retry only interrupted receives | proved | PropSocket | receive loops over arbitrary systems |
| C42 | Open handles are unique | proved | PropVfs | VFS threads as resumptions; invariant over all interleavings |
| C43 | Released handles are gone | proved | PropVfs | as C42; history facts |
| C44 | A looked-up node stays reachable until forgotten | partial | PropVfsNode | as C42; lookup-count sums over the history; witnesses |
| C45 | A looked-up node is usable as soon as the client learns of it | partial | PropVfsNode | as C42; interleaving witnesses |
| C46 | The VFS answers every request exactly once | partial | PropVfsReply, PropVfsReplyAll | as C42; termination and send counting |
| C47 | Paging through a static directory visits each entry exactly once | partial | PropVfsStatic | `StaticDirectoryHandle`; induction over paging sequences |
| C48 | Sendable buffers contain the concatenation of their chunks | proved | PropReply | `SendBuf`; case analysis |
| C49 | Device names are valid | proved | PropReply | device names; iff, parser round trip |
| C50 | CUSE requests never need a node ID | partial | PropDecode, PropSharp | CUSE decoders; relational logic; witness for POLL; the failing inputs characterised exactly (`PropSharp`) |
| C51 | Ioctl input reader partitions the input | proved | PropIoctl, PropIoctlRead | `IoctlInputReader`; induction over reads |
| C52 | Layouts from recorded init replies | proved | PropSession | layouts from recorded init replies; correspondence with C20 |
| C53 | Mounting on Linux is all or nothing | proved | PropMountCall, PropStatx | mount procedure over arbitrary systems; logs of effects |
| C54 | Mounting on FreeBSD is all or nothing | proved | PropMountCall | as C53 |
| C55 | The VFS reports what the implementation returned | proved | PropVfsReply | as C42; recorded results and messages |
| C56 | The VFS layer calls the right method, once, with the request's own header and contents | proved | PropVfsCall | as C42; recorded calls |
| C57 | The example program serves its file | partial | PropHello, PropHelloAll, PropHelloBsd, PropHelloSession | each handler by cases over the requests, on top of C05 (decoding), C17 (replies), C25 (dispatch); the session on top of C20 and an invariant over all schedules (`ScriptPool`) |
| C58 | Records report and transmit the last value set | proved | PropRecords | induction over the sequence of setter calls, on top of C19 (bytes of replies) |
| C59 | Debug output can be read back | partial | PropDebug, PropRadix | the printed text is parsed back by an independent reader, by induction over the bytes or digits |
| C60 | Debug output of flag sets names exactly the flags set | proved | PropDebug | cases over the 17 flag types for the names, induction over the entries for reading back |
| C61 | Receive buffers are aligned, large enough, exclusive and freed as allocated | partial | PropBuffers | invariant over all sequences of heap operations |
| C62 | Old contents of the receive buffer are never seen | proved | PropStale | simulation between two runs, step by step |
| C63 | A whole session on a FUSE or CUSE device, system call by system call | proved | PropDevice, PropDeviceCuse | measure for the retries, invariant over all interleavings of system calls, on top of C41, C20 and C57 |
| C64 | Names made of strings are those strings | proved | PropNames | UTF-8 decoder proved inverse to the encoder by arithmetic on code points; induction over strings |
| C65 | Constants mean the same to the library and to the kernel | partial | PropPlatform | case analysis over architectures; decimal printing read back |
| C66 | Locking in the VFS layer: atomic, free of deadlocks, and out of the way of user code | partial | PropVfsDrop, PropVfsLocks | simulation between lock-level and atomic configurations (a critical section takes place at its call of user code or at its end); invariants of lock-level executions; completion of critical sections by induction |
| C67 | Exactly the messages of the protocol decode | partial | PropLanguage | soundness and success logics combined into an iff against the encoding relation `Encodes`; unambiguity by an independent parser; witness |
| C68 | Offered and supported features are enabled | partial | PropHistory | from C22 and a reading of the reply with a client's eyes; witness session |
| C69 | The VFS tables are linearizable | proved | PropVfsTable | the node and handle maps abstracted to plain tables; every event of a thread's trace is an operation they allow; every prefix of every trace classified; lock level by C66_atomic |
| C70 | The Debug text of a request tells what the request is | proved | PropDebugLabel, PropDebugPretty, PropDebugSame | the texts are those of trees; a mutual induction shows that the text of a well-formed tree can be read back (word by word, quoted strings by C59, flags by C60); per request type the fields are injective; the indented form by a second mutual induction |
| C71 | An entry names one node everywhere | partial | PropEntry | an invariant of all sequences of operations on an entry; the replies read back by offset; witness for any two nodes |
| C72 | The Debug text of a response tells what is sent | partial | PropDebugRespLabel, PropDebugSent, PropDuration | trees of printed values; where the text of a tree ends, by induction; injectivity type by type; invariants of everything built through setters |
| C73 | The root mode of a mount is the mode of the mount point | partial | PropStatx | statx as a call that stores 256 bytes under its documented contract; mounting without a root mode is shown to be mounting with one; witness: a kernel that stores only what it is asked for |
| C74 | Methods left to their defaults give valid answers | partial | PropVfsDefault | classification of the traces of a handler (as for C55) with the meaning of each event; executions of any number of threads are interleavings of such traces |
| C75 | A program sees the filesystem that is served | proved | PropStack | each message is followed through decoder, dispatcher, handler and reply to the bytes the client reads; simulation between the state of client and library and the filesystem itself (contents, lookup counts at least what the client holds, handles of open descriptors distinct), kept by every call |
| C76 | A mount works from the handshake to the end | proved | PropWhole | the client is what the socket is connected to: every step of the connect loop is an offer answered, every step of the serve loop one message of the client answered as in C75; the world of C75 is carried over by a homomorphism of worlds (`VfsHom`); every message of the client is shown to fit into the buffer the handshake settled |
| C77 | Programs that use a mount at the same time see one filesystem | proved | PropShare | invariant over turns: client and library agree (as in C75) about the filesystem made by the calls that are over, every node an unfinished call has got to is known to the library, and the rest of the call's path leads from there where the whole path leads from the root; the interleaved conversation is a conversation, so the mount is that of C76 |
| C78 | Any filesystem is served as it is | proved | PropRpc | the request a client makes for an operation decodes (C01-C05) to a request whose accessors give the operation back, for each of the 39; the reply made for an answer parses (C17) to a payload the client reads the answer from, for each kind of answer; then induction over the program with the serving loop, the state of the filesystem being that of the function at each step; concrete cases run all operations and all kinds of answers through the model |
| C79 | Threads keep operations atomic | proved | PropConc | forward simulation from the threads (C66's model of `serve_fuse`) to direct use: an operation takes place when a thread handles its request; the invariant relates queue, threads and replies to what is pending and answered, with one number per waiting program; `C78`'s lemma about one request gives each step; progress by cases on what the programs wait for; termination by a lexicographic order of the programs (well-founded as trees) and the steps the threads have left; an executable scheduler, proved sound, runs concrete interleavings |
| C80 | Any character device is served as it is | partial | PropDev, PropDevAll, PropTransport, PropTransportExact | `C78`'s proof for CUSE: one lemma that the operation is taken from its request, one that the answer is read from its reply (through `C78`'s), then induction on the program; the handshake by induction on the offers; the violation by running the model on a POLL request with node ID 0 |
| C81 | Notifications reach the client beside the replies | proved | PropNote, PropTransportNote | C36 and C17 give each message; a notification has request ID 0 and a reply does not, so that reading tells them apart, by induction on what is sent; for programs, `C78`'s two lemmas (the operation is taken from its request, the answer is read from its reply) with the announcements around the reply, then induction on the program |
| C82 | Older clients are served as well | partial | PropOld, PropTransportNote | requests: the older forms reach their decoders (`request_in`), which give the operation with 0 for what is missing; replies: an older reply with zeros put in is the reply of 7.9 (`reply_widen`), to which `C78`'s reading lemma applies; then induction on the program. The violation by running the model on CREATE at 7.11 |
| C83 | Threads keep operations atomic, with notifications, older clients, and devices | partial | PropMany, PropManyEnds, PropManyLost, PropTransportMany | the forward simulation of C79, done once for an abstract wire: `Faithful` says of one request that it is received, dispatched and its messages read back as the object acts; `fuse_faithful` (from `C82`'s and `C81`'s lemmas) and `device_faithful` (from `C80`'s) give its instances; announcements are kept apart from replies by their number 0. The violations by running an executable scheduler, proved sound, on CREATE at 7.11 and on POLL with node 0 |
| C84 | A client that sends anything brings about only what it asks for | partial | PropHostile, PropHostileAll, PropTransport, PropTransportExact | `asked` reads an operation from the bytes by `meaning` of C67, `operation_of_matches` shows for all kinds of request that whatever matches the decoded request gives the same operation; `guard_handles` deals with one message: decoded (C67_only_partial, then the replies of C78), refused (C67_decodes_partial backwards), or a fault (C04_exact, excluded); then induction over the conversation. The violations by running the model |
| C85 | A client that sends anything to a character device brings about only what it asks for | proved | PropHostileDev | Induction on the conversation as for C84; the decoder is characterised by C67 and C04, and none of their exceptions is a request that devices know from version 7.9 on. |
| C86 | Threads keep operations atomic for clients that send anything | partial | PropHostileAll, PropHostileMany, PropManyEnds, PropManyLost, PropTransportMany | `any_faithful` shows that a server that deals with every message as C84 and C85 say is `Faithful` in the sense of C83, so that the simulation of C83 applies; that only the number of a message is changed when it is sent, and that this does not change what it asks for, is `renumber_asked`. The violations by running the model |
| C87 | What holds on a connection holds on a device, system call by system call | proved | PropTransport | simulation in both directions between a socket on a device and `Wired.socket` (`Mirrors`, `linux_mirrors`, `libc_mirrors`), carried through the handlers (`handlers_mirror` and its likes) and one turn of each loop (`fuseServe_mirror`, `fuseConnect_mirror`); the retries by a bound on the interruptions to come; C78, C84, C80 and C85 are then carried over |
| C88 | Threads keep operations atomic on a device, whichever system calls are interrupted | proved | PropTransportEnds, PropTransportLost, PropTransportMany | simulation in both directions, with stuttering: a step on the device is a step without it or an interrupted read (`worker_twin`, `reflects_step`, `reflects_back`); there is no endless run because between two steps there are finitely many interruptions (`reflects_ends`); C83 and C86 are then carried over (`Atomic.mounted`) |
| C89 | Filesystems behind the VFS layer work on a device, system call by system call | proved | PropVfsDevice | a simulation between programs of the VFS layer, step by step (`Prog.Alike`), for sockets that are related as in C87 (`Filesystem.Alike.dispatch`), carried through one turn of the loop (`serveStep_mirror`); C76 and C77 are then carried over |
| C90 | A client that sends anything to the VFS layer brings about only what it asks for | proved | PropVfsHostile, PropVfsHostileMany | the events of one message (`DispatchTrace`, C46) chained from state to state (`EvChain`): tables that hold only objects with a property keep holding such (`ev_fine`), each event touches the user's state as its method does (`ev_touch`), and the counters cannot run out (`Counted`); then induction over the conversation (`tours`), and C87/C89 to devices; with threads the same facts about events, for every thread's events so far (`Underway`), after the reduction of critical sections to atomic steps (C66) |
| C91 | A handler that panics costs the threaded server one thread, and its result | proved | PropStdPanic, PropStdPanicCuse | transition system of threads as for C26, with handlers that raise a flag; an invariant that counts threads against messages (`FrailInv`), a second one for the threads lost so far (`frail_losses`), and a counting argument where nothing moves |

## Findings: where the code departs from a property

Each is a theorem about the model with a concrete witness, or a remark where no
property speaks about it.

1. `Request::new` accepts a header whose `len` is below the header size; the `Debug`
   output and `body()` then panic (`C03_violated`).
2. `next_cstr` on an empty string does not consume the terminator, so the next
   argument starts at the terminator (`C10_violated_symlink`, `C10_violated_setxattr`).
   So a SETXATTR with an empty name is accepted even when its last byte is missing
   (`C14_violated`).
3. BATCH_FORGET: `count * 16` is computed in 32 bits; a forged count of 2^28 or more
   makes the iterator read past the message (`C04_violated_forget`).
4. WRITE from a client older than 7.9: an 80-byte reference is made to a 64-byte
   message (`C04_violated_write`, `C05_violated`).
5. READDIRPLUS entries carry the file type unshifted (`C29_violated`).
6. Directory listings are written through 8-byte-aligned pointers into arbitrary
   `&mut [u8]` (`C28_violated`); `StaticDirectoryHandle` passes a `Vec<u8>`
   (`C47_violated_misaligned`).
7. POLL decoded through CUSE requires a non-zero node ID (`C50_violated`), so that a device
   that can be polled cannot be served on Linux, which sends 0 (`C80_violated`).  Besides,
   `fuse_poll_out` does not implement `CuseReply` (fuse/kernel_traits.rs:54-55): a CUSE
   server has to put the reply together by hand.
8. Notifications of 4 GiB or more: the length is truncated (`C36_violated_length`),
   or a `NonZeroU32` of 0 is made, which is undefined (`C36_violated`).
9. The session's SETXATTR layout is taken from the configured flags even if the
   reply carries none (`C21_violated`).
10. `CuseConnection::recv` reports a closed connection as an error, so
    `cuse_serve_local` never returns `Ok` (`C24_violated_cuse`).
11. `fuse-std`: the bounded error channel is not drained while threads run, so
    malformed messages stop the server (`C26_violated`, `C26_violated_stall`,
    `C26_violated_cuse`).
12. FreeBSD: error numbers outside 1..65535 are not negated (`C39_violated_freebsd`).
13. CUSE sockets made from a descriptor treat ENODEV as a closed connection, those
    opened by the library do not (`C41_cuse`).
14. VFS: FORGET ignores `nlookup`, so nodes are never dropped
    (`C44_violated_dropped`); a FORGET of the root removes it (`C44_violated_root`).
15. VFS: LOOKUP replies before the node is registered (`C45_violated`); READDIRPLUS
    announces nodes that are never registered (`C45_violated_readdirplus`).
16. VFS: malformed requests get no reply (`C46_malformed`); a reply of 4 GiB or more
    is reported to the caller instead of being answered (exception in
    `C46_answered_partial`).
17. VFS: handles are global, not tied to the node they were opened on (visible in
    `C56_object`).
18. `StaticDirectory`: an entry that does not fit the client's buffer silently ends
    the listing (`C47_prefix_partial`).
19. `ReaddirplusEntries` has no `FuseReply` implementation; `FuseServer::connect`
    never sets `max_pages` or `map_alignment` even if the flags are granted;
    `NodeName` has no length limit although `NAME_MAX` exists.  No property.
20. The example program: READ ignores the offset and size (`C57_violated_read`),
    READDIR with a size below 40 panics (`C57_violated_readdir`); as many of these as there are threads
    stop the program (`C57_violated_session`).
21. `UnixTime`'s `Debug`: a time before the epoch with a fraction is printed as another
    time; half a second before the epoch reads -1.5 (`C59_violated_time`).
22. `AlignedBuf` makes slices of memory that was never initialised, against the
    requirement of `from_raw_parts` (`C61_violated_uninit`).
23. On 64-bit sparc `target_arch` is `sparc64`, which the lock constants do not list
    (`FUSE_DEV_IOC_CLONE` does): a shared lock looks like an exclusive one, an exclusive
    one like an unlock (`C65_violated_sparc64`).  Likewise `FUSE_DEV_IOC_CLONE` on
    `mips32r6` and `mips64r6` (`C65_violated_clone`).
24. VFS: `release` and `releasedir` methods are called with the handle map's lock held
    for writing.  While such a method has not returned, no OPEN, READ, WRITE, READDIR …
    of any file is answered (`C66_violated_release`); a method that waits for another
    request deadlocks.  If it panics, the lock is poisoned and every later request that
    needs the map panics too (`C66_violated_poison`).
25. GETLK, SETLK and SETLKW from 7.7 and 7.8 clients have no `lk_flags` (kernel.rs:82);
    all of them are refused as truncated (`C11_violated_lk`).
26. CREATE from clients older than 7.12: what `compat.rs` calls unused is the mode
    (7.12 added only the umask, kernel.rs:97); the request reports mode 0
    (`C12_violated_create`).
27. Flags of the upper half offered without `FUSE_INIT_EXT` are sent but not enabled in
    the client (`C68_violated`; how clients treat them is knowledge about Linux).
28. A lock request from FreeBSD with a negative length reaching back to the start of the
    file (`l_start = 50`, `l_len = -50`) has `end = -1`; it is decoded as a lock from
    `l_start` to the end of the file, exactly the wrong bytes (`C31_violated_negative`).
29. `NodeMap::forget` drops forgotten nodes with the lock of the node map held.  While the
    destructor of one node has not returned, no request about any node is answered
    (`C66_violated_drop`); if it panics, none ever is (`C66_violated_drop_panic`).
    Further remark: `PollRequest` has no accessor for the file handle.
30. `Entry::new` copies the node ID out of the attributes, and `attributes_mut()` gives
    access to all of the attributes.  `*entry.attributes_mut() = other` therefore leaves the
    copied ID behind: the entry reports the other node, and the client is told to use the
    first node's ID with the other's attributes (`C71_violated`).
31. The `Debug` text of `FuseInitResponse` leaves out the version, the value on which the
    meaning of all later messages depends (`C72_violated_version`); `CuseInitResponse`
    prints it.  The text of `Entry` leaves out the entry's own node ID, which finding 30 can
    make differ from the one printed (`C72_violated_entry`).  Remarks: `ReaddirplusEntry`
    prints itself as `ReaddirEntry`; `CreateRequest` prints the umask in decimal,
    `MkdirRequest` and `MknodRequest` in octal.
32. `get_root_mode` (fuse-linux and fuse-libc) asks `statx` for `STATX_MODE`, which stands
    for the permissions only, and takes the file type from the answer as well, for which
    `STATX_TYPE` would have to be asked.  A kernel that stores only what it is asked for gets
    a root mode without a type (`C73_violated`).  Linux itself fills in both for its own
    filesystems, so this is a reliance on more than is documented.
33. fuse-vfs: the default of `Node::listxattr` answers with an empty list of names even if the
    request has size 0, by which the client asks for the size of the list.  The client expects
    8 more bytes, `ListxattrResult::size(0)` (`C74_violated`, `C74_violated_always`); Linux
    reports EIO to the caller of `listxattr(2)` for a reply of the wrong size.
34. `serve_fuse` and `serve_cuse` are documented to panic if memory runs out.  They also panic if
    a handler did, but only after all threads have ended, and the errors that the threads reported are lost
    with the receiver (`C91_never_returns`).  Until then the server goes on with fewer threads
    and without a sign; after as many panics as threads nothing is received any more although
    the connection is open (`C91_exact`).

## Axiom audit

`#print axioms` on every theorem of `MANIFEST.json`:

* propext, Classical.choice, Quot.sound: 437 theorems
* propext: 18 theorems: `C06_opcodes_disjoint`, `C09_accepts_iff`, `C17_error`, `C31_lock`, `C34_codes`, `C34_code_round_trip`, `C38_subtype`, `C49_accepts`, `C49_rejects`, `C54_options`, `C61_truncate`, `C64_order`, `C65_clone_partial`, `C65_violated_clone`, `C66_blocked`, `C66_poisoned`, `C83_hangs`, `C88_hangs`
* propext, Quot.sound: 64 theorems
* none: 5 theorems: `C27_accessors`, `C32_vfs`, `C39_violated_freebsd`, `C48_new`, `C51_reader`

No module imports anything that adds axioms; no theorem rests on compiled code.

## Mutation tests

`seeded/LOG.jsonl` lists wrong programs: the model edited as a realistic bug would
change it, and the theorems that then fail to check.  Theorems that survived a wrong
program were tightened; the log names them.

## Not modelled

`client.rs`, `client/io.rs` and `io/decode` error formatting (error types only), the `Debug`
output of errors (that of requests, responses and their parts is modelled), memory
allocation other than that of `AlignedBuf`, the `#[cfg(test)]` utilities,
the FreeBSD error numbers of the example program.  System calls are modelled by their arguments and
results, not by what the kernel does inside, except where a kernel model is listed in
the trusted base.  Panics of user code are modelled for the VFS layer, with poisoned locks (C66), and
for the threads of `serve_fuse` and `serve_cuse` (C91); elsewhere a panic in user code ends the program (in the
example program: the thread).
Destructors that run when the VFS layer drops a node inside a critical section are modelled for
FORGET requests only (`PropVfsDrop`), those of handles and of several nodes in one BATCH_FORGET are not.
