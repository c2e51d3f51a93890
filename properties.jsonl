{"id": "C01", "title": "Wire records round-trip", "statement": "For every protocol record the library reads or writes, the bytes it puts on the wire have the documented fixed size and field order, and reading those bytes back yields the same record; conversely every byte string of the right size is the encoding of exactly one record.", "quantifier": "every value of every field of every protocol record, and every byte string of the record's size", "why_tests_cant": "The value space of each record is 2^64 or larger; a test samples a handful of field values.", "anchors": ["fuse/kernel.rs: fuse_in_header, fuse_out_header, fuse_attr, fuse_init_in, ... as_bytes", "fuse/internal/compat.rs"]}
{"id": "C02", "title": "Request acceptance is exactly header validity", "statement": "Wrapping a received buffer as a request succeeds iff the buffer holds a full request header, the request ID is non-zero and the length in the header does not exceed the received length; the resulting request exposes exactly the first `len` bytes of the buffer.", "quantifier": "every byte buffer of every length", "why_tests_cant": "Tests try a few hand-built buffers; the claim is an equivalence over all buffers.", "anchors": ["fuse/server.rs: Request::new, Request::as_bytes, FuseRequest::new, CuseRequest::new"]}
{"id": "C03", "title": "Accepted requests can be inspected without panicking", "statement": "Every accepted request can be inspected with header(), as_bytes(), body() and Debug without panicking or undefined behaviour.", "quantifier": "every byte buffer accepted as a request", "why_tests_cant": "A header length below 40 is accepted; no existing test uses one, and only a proof over all accepted buffers shows which ones break body()/request_len().", "anchors": ["fuse/server.rs: Request::new, Request::body", "fuse/fuse.rs: RequestHeader::request_len"]}
{"id": "C04", "title": "Decoding is memory safe", "statement": "Decoding an accepted request as any request type never reads outside the received bytes, never forms a misaligned reference, and never panics: it returns either a request or a RequestError.", "quantifier": "every accepted buffer, every request type, every negotiated protocol minor version and feature set", "why_tests_cant": "The decoders use unchecked pointer arithmetic; a test run without a crash says nothing about other lengths, counts or offsets.", "anchors": ["fuse/server/decode.rs: RequestDecoder", "fuse/operations/*.rs: TryFrom impls"]}
{"id": "C05", "title": "Decoding ignores bytes beyond the request", "statement": "The result of decoding a request depends only on the `len` bytes the header declares: two receive buffers that agree on those bytes decode identically, whatever stale data follows.", "quantifier": "every pair of buffers agreeing on the declared request, every request type", "why_tests_cant": "Receive buffers are reused without clearing, so leakage depends on earlier messages; tests use fresh buffers.", "anchors": ["fuse/server/decode.rs: RequestDecoder", "fuse/server.rs: FuseConnection::recv"]}
{"id": "C06", "title": "Requests of the wrong type are rejected", "statement": "Decoding a request as type T fails with OpcodeMismatch when the header's opcode is not one of T's opcodes, and no request ever decodes successfully as two unrelated types.", "quantifier": "every accepted buffer and every request type", "why_tests_cant": "The opcode space is 2^32 and there are more than forty decoders; tests check one mismatch each.", "anchors": ["fuse/server/decode.rs: expect_opcode", "fuse/operations/*.rs"]}
{"id": "C07", "title": "Node IDs handed to a server are never zero", "statement": "Every successfully decoded FUSE request whose API exposes a NodeId (primary or secondary) yields a non-zero ID equal to the one on the wire; a zero ID makes decoding fail.", "quantifier": "every accepted buffer, every FUSE request type exposing node IDs", "why_tests_cant": "NodeId is built with unchecked constructors; only an exhaustive argument shows zero cannot slip through.", "anchors": ["fuse/server/decode.rs: node_id", "fuse/node_id.rs"]}
{"id": "C08", "title": "Node names handed to a server are valid", "statement": "Every NodeName produced by decoding a request is non-empty and contains neither NUL nor '/', and consists of exactly the message bytes up to the next NUL.", "quantifier": "every accepted buffer, every request type carrying names", "why_tests_cant": "Names are attacker-chosen byte strings of any length; a directory-traversal name is a single missed byte pattern.", "anchors": ["fuse/server/decode.rs: next_node_name", "fuse/node_name.rs"]}
{"id": "C09", "title": "NodeName validation is exact", "statement": "NodeName construction from bytes succeeds iff the bytes are non-empty, contain no NUL and no '/', and otherwise reports the first offending kind in scan order.", "quantifier": "every byte string", "why_tests_cant": "Unbounded input space.", "anchors": ["fuse/node_name.rs: NodeName::from_bytes, NodeName::new"]}
{"id": "C10", "title": "C-string arguments are consumed completely", "statement": "Decoding a NUL-terminated string argument yields exactly the bytes before the NUL and continues with the byte after the NUL, also for the empty string, so following arguments are not shifted.", "quantifier": "every request containing a C string followed by other data (SYMLINK, SETXATTR)", "why_tests_cant": "Depends on the string contents and what follows; the empty string is the corner the code gets wrong.", "anchors": ["fuse/server/decode.rs: next_cstr", "fuse/operations/symlink.rs", "fuse/operations/setxattr.rs"]}
{"id": "C11", "title": "Fixed-body requests decode to what the client sent", "statement": "For every fixed-layout operation (ACCESS, BMAP, COPY_FILE_RANGE, FALLOCATE, FLUSH, FSYNC, FSYNCDIR, GETATTR, GETLK, SETLK, SETLKW, INTERRUPT, LSEEK, OPEN, OPENDIR, POLL, READ, READDIR, READDIRPLUS, READLINK, RELEASE, RELEASEDIR, STATFS, LISTXATTR) a message laid out as the protocol prescribes decodes to a request whose accessors return the values the client sent.", "quantifier": "every argument value, every negotiated minor version, every trailing buffer content", "why_tests_cant": "Each operation has several 64-bit fields and version-dependent layouts; tests check one vector per layout.", "anchors": ["fuse/operations/*.rs", "fuse/internal/compat.rs"]}
{"id": "C12", "title": "Named requests decode to what the client sent", "statement": "For every operation carrying names or strings (CREATE, LINK, LOOKUP, MKDIR, MKNOD, RENAME, RENAME2, RMDIR, SYMLINK, UNLINK, GETXATTR, REMOVEXATTR, SETXATTR) a well-formed message decodes to a request whose accessors return the names and values the client sent.", "quantifier": "every argument value, every name, every negotiated minor version and feature set", "why_tests_cant": "Names are unbounded and interact with fixed fields and version-dependent layouts.", "anchors": ["fuse/operations/create.rs", "fuse/operations/rename.rs", "fuse/operations/symlink.rs", "fuse/operations/setxattr.rs"]}
{"id": "C13", "title": "Write payload is exactly the client's data", "statement": "A WRITE request decodes to the handle, offset, flags and exactly the `size` data bytes the client sent, for both the pre-7.9 and current layout, for CUSE and FUSE.", "quantifier": "every payload, every handle/offset/flags value, every minor version", "why_tests_cant": "The payload position is recomputed from the layout by pointer arithmetic; every version/length combination matters for data integrity.", "anchors": ["fuse/operations/write.rs"]}
{"id": "C14", "title": "Truncated requests are rejected", "statement": "If a well-formed message is cut short anywhere in its required arguments, decoding fails (with UnexpectedEof) instead of returning a partially filled request.", "quantifier": "every well-formed message and every cut position", "why_tests_cant": "All prefixes of all messages.", "anchors": ["fuse/server/decode.rs: consume, next_node_name, next_cstr"]}
{"id": "C15", "title": "Forget requests report exactly the client's items", "statement": "FORGET and BATCH_FORGET decode to exactly the (node ID, lookup count) pairs sent by the client, in order, omitting entries with node ID zero, and never touch memory outside the message.", "quantifier": "every batch of every size and content", "why_tests_cant": "The count is a 32-bit number multiplied by 16 in 32-bit arithmetic; wrap-around needs counts no test sends.", "anchors": ["fuse/operations/forget.rs"]}
{"id": "C16", "title": "Timestamps in SETATTR are validated", "statement": "A SETATTR message decodes if and only if each timestamp selected by its valid mask has fewer than 10^9 nanoseconds; the accessors return a time exactly when the corresponding mask bit is set.", "quantifier": "every valid mask and every timestamp", "why_tests_cant": "2^32 masks times 2^96 timestamps; masks interact.", "anchors": ["fuse/operations/setattr.rs", "fuse/server/decode.rs: check_timespec_nanos"]}
{"id": "C17", "title": "Every reply is correctly framed", "statement": "Each reply passed to the socket is one message whose bytes are a 16-byte header followed by the payload; the header's length equals the total number of bytes, its ID equals the request's ID, and its error is 0 for success and the given error otherwise.", "quantifier": "every reply method, payload and request ID", "why_tests_cant": "Payloads are arbitrary; the length is computed separately from the chunks.", "anchors": ["fuse/server.rs: ReplySender::send_0..send_4, FuseReplySender, CuseReplySender", "fuse/io.rs: SendBuf"]}
{"id": "C18", "title": "Oversized replies are refused, not truncated", "statement": "A reply whose total size exceeds u32::MAX bytes yields ReplyTooBig with the true size and sends nothing; every other reply is handed to the socket exactly once.", "quantifier": "every payload size", "why_tests_cant": "No test can allocate 4 GiB payloads for each reply method.", "anchors": ["fuse/server.rs: ReplySender::send_1..send_4"]}
{"id": "C19", "title": "Replies use the layout of the negotiated version", "statement": "ATTR, ENTRY, CREATE, STATFS and INIT replies are sent with exactly the size the negotiated protocol minor version prescribes, and a client of that version reads back the fields the server set.", "quantifier": "every reply value and every minor version", "why_tests_cant": "37 minor versions times unbounded field values.", "anchors": ["fuse/kernel_traits.rs", "fuse/operations/create.rs: CreateResponse"]}
{"id": "C20", "title": "Version negotiation picks a common version", "statement": "If the client's major version matches, the handshake settles on the smaller of both minor versions, replies with it, and the connection's layout uses exactly the version in the reply; otherwise the server replies with its own latest version and keeps waiting for a new INIT.", "quantifier": "every sequence of INIT messages, every callback filling the reply", "why_tests_cant": "The handshake is a loop over unboundedly many client messages.", "anchors": ["fuse/server.rs: negotiate_version, fuse_handshake, cuse_handshake, FuseConnection::connect, CuseConnection::connect"]}
{"id": "C21", "title": "Client and server agree on the session", "statement": "After a successful handshake, the layout used by the server to decode later requests (minor version and extended SETXATTR) is the one a protocol-conforming client derives from the INIT reply it received.", "quantifier": "every INIT request, every server configuration", "why_tests_cant": "Needs reasoning over both endpoints for all flag and version combinations.", "anchors": ["fuse/server.rs: FuseLayout::new2, FuseConnection::connect, FuseServer::connect"]}
{"id": "C22", "title": "Init flags are never granted unasked", "statement": "A server built with FuseServer/CuseServer grants exactly the init flags that were both requested by the client and offered by the configuration.", "quantifier": "every requested and offered 64-bit flag set", "why_tests_cant": "2^128 combinations.", "anchors": ["fuse/server.rs: FuseServer::connect, CuseServer::connect", "fuse/operations/fuse_init.rs"]}
{"id": "C23", "title": "The receive buffer fits every permitted write", "statement": "The buffer length recommended by a connection is at least 8192 and large enough for the largest WRITE message the negotiated max_write permits.", "quantifier": "every negotiated max_write", "why_tests_cant": "Arithmetic near u32::MAX.", "anchors": ["fuse/server.rs: recv_buf_len", "fuse-std/fuse-std.rs: AlignedBuf"]}
{"id": "C24", "title": "The serve loop dispatches every request exactly once, in order", "statement": "The single-threaded serve loop hands each received well-formed request to the handler exactly once in arrival order, returns Ok exactly when the connection is closed, and stops with the corresponding error at the first receive failure or malformed request.", "quantifier": "every finite or infinite sequence of receive outcomes", "why_tests_cant": "Unbounded histories.", "anchors": ["fuse/server.rs: fuse_serve_local, cuse_serve_local, FuseConnection::recv"]}
{"id": "C25", "title": "Dispatch routes by opcode and unknown opcodes reach the fallback", "statement": "A handler table invokes exactly one method per request, the one of the request's opcode; every opcode without a method (and every method left at its default, other than FORGET/BATCH_FORGET/INTERRUPT) reaches `unimplemented`.", "quantifier": "every 32-bit opcode and every set of overridden handlers", "why_tests_cant": "2^32 opcodes; 2^43 override sets.", "anchors": ["fuse/server.rs: FuseHandlers::dispatch, CuseHandlers::dispatch"]}
{"id": "C26", "title": "The threaded server keeps serving after malformed requests", "statement": "The multi-threaded server keeps receiving requests as long as only malformed (non-fatal) requests occur, and returns once the connection closes.", "quantifier": "every schedule of the worker threads and every sequence of receive outcomes", "why_tests_cant": "A hang depends on the number of errors and the schedule; the error channel is bounded and nobody drains it while threads run.", "anchors": ["fuse-std/fuse-std.rs: serve_fuse, serve_cuse, is_fatal_error"]}
{"id": "C27", "title": "Directory listings round-trip", "statement": "Entries pushed to a directory listing are read back by iterating the produced bytes (and by a client parsing them as the protocol prescribes) as the same sequence of (node ID, offset, type, name).", "quantifier": "every sequence of entries that fit the buffer", "why_tests_cant": "Unbounded sequences of unbounded names with alignment padding.", "anchors": ["fuse/operations/readdir.rs", "fuse/operations/readdirplus.rs", "fuse/internal/dirent.rs"]}
{"id": "C28", "title": "Directory listings never overflow the buffer", "statement": "Pushing an entry either appends a record of 8-byte-aligned size that stays within the buffer (and the 65535-byte limit), or fails leaving buffer and position unchanged; it fails only if the record would not fit.", "quantifier": "every buffer size and every push history", "why_tests_cant": "Needs an invariant over push histories.", "anchors": ["fuse/operations/readdir.rs: ReaddirEntriesWriter", "fuse/operations/readdirplus.rs: ReaddirplusEntriesWriter"]}
{"id": "C29", "title": "Directory entry types are reported in dirent encoding", "statement": "The file type reported for an entry in READDIR and READDIRPLUS listings is the dirent type (DT_*) of the entry's file mode.", "quantifier": "every file mode", "why_tests_cant": "The two writers encode the type by different code paths; the difference only shows for particular type bits.", "anchors": ["fuse/operations/readdirplus.rs: ReaddirplusEntry::new", "fuse/operations/readdir.rs: ReaddirEntry::set_file_type"]}
{"id": "C30", "title": "Extended attribute name lists round-trip", "statement": "Names pushed to an xattr name list are returned, in order, by iterating the list; the list never exceeds its buffer or the platform limit and a failed push changes nothing.", "quantifier": "every sequence of names and every buffer size", "why_tests_cant": "Unbounded histories.", "anchors": ["fuse/operations/listxattr.rs"]}
{"id": "C31", "title": "Lock ranges mean what the client said", "statement": "Decoding a lock yields the byte range the client locked: [start, end] inclusive, unbounded when the end is the maximum offset; ranges given backwards (negative length) denote the bytes before the start, and an empty range is rejected.", "quantifier": "every pair of 64-bit start/end offsets", "why_tests_cant": "2^128 ranges with saturation corners.", "anchors": ["fuse/lock.rs: LockRange::decode, LockRange::end, Lock::decode"]}
{"id": "C32", "title": "Cache timeouts survive encoding", "statement": "A cache timeout set on an entry or attribute reply is read back unchanged if its seconds fit in i63 bits, and is clamped to the maximum otherwise; encoding never wraps.", "quantifier": "every Duration", "why_tests_cant": "2^94 durations.", "anchors": ["fuse/internal/timestamp.rs", "fuse/entry.rs", "fuse-vfs/fuse-vfs.rs: split_duration"]}
{"id": "C33", "title": "Unix times round-trip through attributes", "statement": "A UnixTime stored in node attributes is read back unchanged, including times before 1970, and invalid nanoseconds are rejected at construction. Comparing two times that can be constructed, or that were read from attributes, compares the instants they denote.", "quantifier": "every signed 64-bit second count and nanosecond value", "why_tests_cant": "2^96 values with sign conversion.", "anchors": ["fuse/unix_time.rs", "fuse/node_attr.rs"]}
{"id": "C34", "title": "File modes and file types agree", "statement": "Type bits and permission bits of a mode never overlap; converting a file type to a mode and back yields the same type, and only the seven defined type codes are recognised.", "quantifier": "every 32-bit mode", "why_tests_cant": "2^32 modes.", "anchors": ["fuse/file_mode.rs"]}
{"id": "C35", "title": "Flag sets behave as sets", "statement": "Setting, clearing, testing, uniting and intersecting flags obey set laws and affect no other flag.", "quantifier": "every bit pattern and every pair of flags", "why_tests_cant": "2^64 patterns times all flag pairs.", "anchors": ["fuse/internal/bitflags.rs"]}
{"id": "C36", "title": "Notifications are correctly framed", "statement": "Every notification message has request ID zero, a length equal to its total size, the notification's code in the error field, and a body from which a client recovers the notification, including NUL-terminated names.", "quantifier": "every notification value", "why_tests_cant": "Unbounded names; lengths are truncated to 32 bits by a cast.", "anchors": ["fuse/notify.rs", "fuse/server.rs: FuseConnection::notify"]}
{"id": "C37", "title": "IOCTL retry lists respect the protocol limit", "statement": "An ioctl retry reply never carries more than 256 iovecs in total, and the counts in the reply equal the number of in/out iovecs following it in that order.", "quantifier": "every sequence of pushed iovecs", "why_tests_cant": "Push histories over two lists sharing one buffer.", "anchors": ["fuse/operations/ioctl.rs: IoctlRetry, IoctlRetryBuf, IoctlResponse"]}
{"id": "C38", "title": "Mount data round-trips and cannot be injected into", "statement": "The mount option string produced for a set of options is a NUL-terminated comma-separated list which, parsed as the kernel parses it, yields exactly the configured options; a subtype string cannot add or alter options; the function returns nothing exactly when the data does not fit.", "quantifier": "every option combination, every accepted subtype string, every buffer size", "why_tests_cant": "Unbounded strings; injection is about the absence of any bad string.", "anchors": ["fuse/os/linux.rs: mount_data, FuseSubtype::new"]}
{"id": "C39", "title": "Errors are negative error codes", "statement": "Every OS error converted for a reply becomes the negated error number, strictly negative, on both Linux and FreeBSD.", "quantifier": "every error number representable by the platform error type", "why_tests_cant": "Sign conversions over the whole range.", "anchors": ["fuse/os/linux.rs: fuse_error", "fuse/os/freebsd.rs: fuse_error"]}
{"id": "C40", "title": "Sockets deliver each reply at most once and completely", "statement": "Sending a reply succeeds exactly when one write transferred the complete message; interrupted writes are retried, a vanished request is reported as NotFound, and any short write is reported as an error and never resent.", "quantifier": "every sequence of write outcomes", "why_tests_cant": "Outcome sequences are chosen by the kernel.", "anchors": ["fuse-libc/io/socket.rs: Socket::send", "fuse-linux/socket.rs: Socket::send"]}
{"id": "C41", "title": "Sockets retry only interrupted receives", "statement": "Receiving retries after ENOENT and EINTR and on no other error; ENODEV is reported as a closed connection for FUSE device sockets.", "quantifier": "every sequence of read outcomes", "why_tests_cant": "Outcome sequences are chosen by the kernel.", "anchors": ["fuse-libc/io/socket.rs: Socket::recv, check_recv_err", "fuse-linux/socket.rs"]}
{"id": "C42", "title": "Open handles are unique", "statement": "In the VFS layer every successful OPEN or OPENDIR returns a handle different from all handles returned before on that filesystem, and a request through a handle reaches exactly the object that OPEN/OPENDIR created it for.", "quantifier": "every history of opens and releases", "why_tests_cant": "Unbounded histories.", "anchors": ["fuse-vfs/fuse-vfs.rs: HandlesMap"]}
{"id": "C43", "title": "Released handles are gone", "statement": "After a successful RELEASE/RELEASEDIR the handle is rejected with EINVAL; releasing one handle does not affect another; a handle whose release handler fails stays usable.", "quantifier": "every history of opens and releases", "why_tests_cant": "Unbounded histories.", "anchors": ["fuse-vfs/fuse-vfs.rs: Filesystem::release, releasedir, HandlesMap"]}
{"id": "C44", "title": "A looked-up node stays reachable until forgotten", "statement": "A node whose lookup replies exceed the lookups the client has forgotten can be used by the client; once the client has forgotten all lookups the node is dropped; the root is always reachable.", "quantifier": "every history of lookups and forgets", "why_tests_cant": "Reference counts over unbounded histories; FORGET carries a count.", "anchors": ["fuse-vfs/fuse-vfs.rs: NodeMap::add, NodeMap::forget, Filesystem::lookup"]}
{"id": "C45", "title": "A looked-up node is usable as soon as the client learns of it", "statement": "From the moment the client receives a LOOKUP reply, requests for that node ID are answered by that node, whichever worker thread handles them.", "quantifier": "every interleaving of worker threads", "why_tests_cant": "A race window between sending the reply and registering the node.", "anchors": ["fuse-vfs/fuse-vfs.rs: Filesystem::lookup"]}
{"id": "C46", "title": "The VFS answers every request exactly once", "statement": "For every decodable request the VFS layer supports, exactly one reply with the request's ID is sent (none for FORGET), and unsupported opcodes are returned to the caller without a reply.", "quantifier": "every request and every filesystem implementation behaviour", "why_tests_cant": "Implementations are arbitrary user code; every branch must reply once.", "anchors": ["fuse-vfs/fuse-vfs.rs: Filesystem::dispatch"]}
{"id": "C47", "title": "Paging through a static directory visits each entry exactly once", "statement": "A client reading a static directory with successive READDIR (or READDIRPLUS) requests, each starting at the offset of the last entry received, sees every entry exactly once in order and then end-of-directory, provided each buffer can hold the next entry.", "quantifier": "every directory, every sequence of buffer sizes", "why_tests_cant": "Unbounded directories and adversarial buffer sizes.", "anchors": ["fuse-vfs/fuse-vfs.rs: StaticDirectoryHandle"]}
{"id": "C48", "title": "Sendable buffers contain the concatenation of their chunks", "statement": "A message buffer exposes at most five chunks, whose concatenation has the advertised length, and mapping chunks into storage visits them in order.", "quantifier": "every list of chunks produced by the library", "why_tests_cant": "Unbounded contents.", "anchors": ["fuse/io.rs: SendBuf"]}
{"id": "C49", "title": "Device names are valid", "statement": "A CUSE device name is accepted iff it is non-empty and free of NUL; the CUSE init reply carries it as DEVNAME=name NUL after the init record.", "quantifier": "every byte string and every server configuration", "why_tests_cant": "Unbounded input space.", "anchors": ["fuse/cuse.rs: CuseDeviceName", "fuse/operations/cuse_init.rs"]}
{"id": "C50", "title": "CUSE requests never need a node ID", "statement": "Every request type usable over CUSE decodes from a CUSE message irrespective of the header's node ID field.", "quantifier": "every CUSE request", "why_tests_cant": "One decoder in the family deviates; only comparing all of them over all node IDs shows it.", "anchors": ["fuse/operations/poll.rs", "fuse/operations/read.rs", "fuse/operations/flush.rs"]}
{"id": "C51", "title": "Ioctl input reader partitions the input", "statement": "Reading an ioctl's input in any sequence of sized reads yields consecutive pieces whose concatenation with the unread rest is the original input; a read longer than the rest fails and consumes nothing; array reads return exactly the announced number of bytes. Typed reads of consecutive records of one type, from the input of a decoded request, return the records in the message and never make an unaligned reference.", "quantifier": "every input and every sequence of read lengths", "why_tests_cant": "Arbitrary interleavings of read lengths over arbitrary inputs.", "anchors": ["fuse/operations/ioctl.rs: IoctlInputReader"]}
{"id": "C52", "title": "Layouts from recorded init replies", "statement": "A layout can be rebuilt from a recorded INIT reply exactly when the reply's version is 7.0 to 7.36, and then it has the reply's minor version and its SETXATTR_EXT flag; every other version is refused.", "quantifier": "every INIT reply", "why_tests_cant": "2^64 version pairs and every flag word.", "anchors": ["fuse/server.rs: FuseLayout::new, CuseLayout::new"]}
{"id": "C53", "title": "Mounting on Linux is all or nothing", "statement": "mount() either returns a socket for the very descriptor it opened and passed to the kernel, with mount data in which the kernel reads the configured options and the configured or queried root mode and owner (data it refuses altogether exactly if a block size is set for a type other than fuseblk), or it fails with the error of the call that failed, and any device it opened is closed again. Nothing but queries happens before the device is opened.", "quantifier": "every target and option set, every outcome of every system call", "why_tests_cant": "Requires privileges and a failing kernel; descriptor leaks are invisible in a unit test.", "anchors": ["fuse-linux/fuse-linux.rs: mount", "fuse-libc/os/linux.rs: mount"]}
{"id": "C54", "title": "Mounting on FreeBSD is all or nothing", "statement": "mount() on FreeBSD always builds a well-formed nmount option list, in which the kernel reads fstype=fusefs, from=/dev/fuse, the mount point, the decimal number of the descriptor that was opened, and exactly the configured options; on failure the device is closed and the error is the errno of the call.", "quantifier": "every target, option set, descriptor and outcome of system calls", "why_tests_cant": "Needs FreeBSD and privileges; option lists vary with every combination.", "anchors": ["fuse-libc/os/freebsd.rs: mount, fmt_raw_fd"]}
{"id": "C55", "title": "The VFS reports what the implementation returned", "statement": "The message the VFS layer sends for a request is exactly the result of the one implementation method called for it (data, attributes, timeouts capped at i64::MAX seconds, error codes), or the handle and flags for a successful open; if no method returned a result the message is 'invalid argument' (unknown node or handle, nothing was called), 'not a directory' (LOOKUP, OPENDIR) or 'not supported' (other kinds).", "quantifier": "every request, every implementation behaviour, every interleaving of handler threads", "why_tests_cant": "Sixteen handlers, each with several branches, running concurrently with arbitrary user code.", "anchors": ["fuse-vfs/fuse-vfs.rs: Filesystem::dispatch and the per-opcode handlers"]}
{"id": "C56", "title": "The VFS layer calls the right method, once, with the request's own header and contents", "statement": "For each request, whatever other requests are handled concurrently, at most one request method of the implementation is called. It is the method belonging to the request's operation; its arguments are the header of the request's message and the decoded request. It is called on the object registered for the request's node or handle, or, if the operation needs an object of a particular kind (directory, file, symlink, ...), on what this object returned when asked for that kind; if the object is not of the kind, no method is called.", "quantifier": "every message, every implementation (state and results arbitrary), every interleaving of any number of threads", "why_tests_cant": "Needs all operations, all interleavings and all behaviours of the implementation.", "anchors": ["fuse-vfs/fuse-vfs.rs: Filesystem::dispatch and the handlers"]}
{"id": "C57", "title": "The example program serves its file", "statement": "The example program mounts the filesystem at its target with the process's user and group or fails without mounting anything. Connected to a client, with any number of threads, it answers each request of the protocol once: LOOKUP of hello.txt in the root, GETATTR, OPEN, READ (the bytes asked for), OPENDIR, READDIR, RELEASEDIR with the documented contents and attributes or the documented error, all other operations with ENOSYS, and FORGET, BATCH_FORGET and INTERRUPT not at all. It ends when the client closes the connection, having answered everything, without a panic.", "quantifier": "every client message of the protocol in every negotiated version, every socket, every schedule of any number of threads, every behaviour of the system calls", "why_tests_cant": "The whole program is exercised with all interleavings of its threads, all requests and all failures of system calls.", "anchors": ["examples/helloworld/helloworld.rs: HelloWorldFS, mount, main", "fuse-std/fuse-std.rs: serve_fuse"]}
{"id": "C58", "title": "Records report and transmit the last value set", "statement": "After any sequence of setter calls on StatfsAttributes, CreateResponse, ResponseHeader or an InvalidateInode notification, each getter returns the value last set for its field, or the initial value if none was set, no other field is affected, no getter is undefined behaviour, and the bytes of the reply carry exactly these values at the offsets of the protocol. Offsets and sizes of InvalidateInode are clamped to the largest signed 64-bit number.", "quantifier": "every sequence of setter calls with every argument, every negotiated minor version", "why_tests_cant": "Swapped or aliased fields show only for particular orders of calls and distinct values; tests set each field once.", "anchors": ["fuse/operations/statfs.rs: StatfsAttributes", "fuse/operations/create.rs: CreateResponse", "fuse/fuse.rs: ResponseHeader", "fuse/notify.rs: InvalidateInode, Delete, InvalidateEntry, Poll"]}
{"id": "C59", "title": "Debug output can be read back", "statement": "The text that {:?} prints for byte strings (names, data, attribute values), hexadecimal numbers, file modes and Unix times denotes the value printed: a reader of quoted strings, hexadecimal, octal and decimal numbers gets the same value back, whatever follows in the text, and the text contains printable ASCII only. The same holds for node IDs and file modes printed in binary and in hexadecimal of either case, with any sign, prefix, zero padding, width and alignment the format string asks for, and the text is as wide as asked.", "quantifier": "every byte string, every number, every mode, every node ID, every Unix time, every following text, every formatter option with the fill character a space", "why_tests_cant": "Quoting fails for particular bytes (quotes, backslashes, control characters, invalid UTF-8) next to particular others; signs and fractions interact only before the epoch.", "anchors": ["fuse/internal/debug.rs", "fuse/unix_time.rs: UnixTime", "fuse/node_name.rs: NodeName", "fuse/file_mode.rs: FileMode", "fuse/node_id.rs: Binary, LowerHex, UpperHex for NodeId"]}
{"id": "C60", "title": "Debug output of flag sets names exactly the flags set", "statement": "The text that {:?} prints for a flag set is its type's name and, in braces, one entry per bit set, from the lowest to the highest: the flag's name if the protocol names the bit, otherwise the bit's mask in hexadecimal with all digits of the field. Two flag sets with the same text have the same type and the same bits.", "quantifier": "every flag type, every set of bits, named or not", "why_tests_cant": "There are 2^32 or 2^64 sets per type; tests print a few with one or two flags.", "anchors": ["fuse/internal/bitflags.rs: bitflags", "fuse/operations/fuse_init.rs: FuseInitFlags"]}
{"id": "C61", "title": "Receive buffers are aligned, large enough, exclusive and freed as allocated", "statement": "AlignedSlice accepts exactly the slices at multiples of 8, and truncating keeps address and prefix. Every AlignedBuf, through any sequence of allocations, stores and drops and any other use of the heap, is non-null, 8-aligned, at least max(capacity, 8192) bytes long and disjoint from all other allocations; dropping it frees live memory with the layout it was allocated with, and nothing leaks. Allocating panics only for impossible sizes, never for the size a connection asks for. Slices of a buffer show initialised memory only.", "quantifier": "every allocator that honours GlobalAlloc, every sequence of operations, every capacity and max_write", "why_tests_cant": "Overlap, misalignment and wrong layouts depend on the allocator's answers; uninitialised memory usually reads as some byte.", "anchors": ["fuse/io.rs: AlignedSlice, AlignedSliceMut, MinReadBuffer", "fuse-std/fuse-std.rs: AlignedBuf"]}
{"id": "C62", "title": "Old contents of the receive buffer are never seen", "statement": "Handshake, receiving, the serve loops and the multi-threaded server behave the same for any two contents of the receive buffers: same requests, replies, errors and effects in the same order. So a message never shows bytes of an earlier, longer one, or of uninitialised memory. The device sockets of fuse-linux and fuse-libc, including their retries, do not look at the buffer either.", "quantifier": "every socket that only writes to the buffer, every state, all buffer contents of the same length, every schedule", "why_tests_cant": "It is a property of pairs of runs; leaks show only when a short message follows a long one and a length field lies.", "anchors": ["fuse/server.rs: FuseConnection::recv, CuseConnection::recv, connect, fuse_serve_local, cuse_serve_local", "fuse-std/fuse-std.rs: serve_fuse, serve_cuse", "fuse-linux/socket.rs: Socket::recv", "fuse-libc/io/socket.rs: Socket::recv"]}
{"id": "C63", "title": "A whole session on a FUSE or CUSE device, system call by system call", "statement": "On a device whose reads deliver the client's messages and then ENODEV, and whose writes take whole messages, with any of the calls interrupted (EINTR, ENOENT) finitely often: connecting answers each unsupported INIT with version 7.36 and the first supported one with the negotiated version; then any number of threads, whatever the interleaving of their reads, come to an end after at most two steps per message, one per thread and one per interruption. No thread panics or reports an error, every message is handled by exactly one thread, and what was written to the device is the handshake's replies followed by the answers to all messages in some order. This holds for any handlers that answer each message, and for the example program over fuse-linux and over fuse-libc. On a CUSE device the same holds with the CUSE handshake and at most two steps per message and per thread and one per interruption, and each thread ends by reporting ENODEV.", "quantifier": "every device state and sequence of interruptions, every client script of the described kind, every number of threads, every interleaving", "why_tests_cant": "Interruptions and interleavings of system calls are chosen by the kernel and cannot be enumerated.", "anchors": ["fuse-linux/socket.rs: Socket::recv, Socket::send", "fuse-libc/io/socket.rs: Socket::recv, Socket::send", "fuse/server.rs: FuseServer::connect, CuseServer::connect, FuseConnection::recv, CuseConnection::recv, fuse_serve_local", "fuse-std/fuse-std.rs: serve_fuse, serve_cuse", "examples: helloworld"]}
{"id": "C64", "title": "Names made of strings are those strings", "statement": "NodeName::new accepts exactly the non-empty strings without the characters NUL and '/', and otherwise names the first forbidden character; DeviceName::new likewise for NUL only. as_str gives back the string a name was made of, and fails exactly for names whose bytes no string has. Comparing a name with a string, with bytes, or with the name made of them gives the same answer. Names are totally ordered, consistently with equality, and names made of strings are ordered by the strings' code points.", "quantifier": "every string of Unicode scalar values, every byte string, every pair and triple of names", "why_tests_cant": "Infinitely many strings; the interesting ones are multi-byte characters next to forbidden bytes, overlong encodings and surrogates.", "anchors": ["fuse/node_name.rs", "fuse/cuse.rs: DeviceName"]}
{"id": "C65", "title": "Constants mean the same to the library and to the kernel", "statement": "On every platform the library's F_RDLCK, F_WRLCK and F_UNLCK are the numbers the kernel puts into lock requests, so the lock a client asks for is the one the server sees and prints; different modes are printed differently. FUSE_DEV_IOC_CLONE is _IOR(229, 0, uint32_t) as the architecture encodes it.", "quantifier": "every target architecture of Linux and FreeBSD, every lock request, every mode", "why_tests_cant": "Tests run on one or two architectures; the constants differ on architectures nobody tests.", "anchors": ["fuse/os/linux.rs: fcntl_rdlck, fcntl_wrlck, fcntl_unlck, FUSE_DEV_IOC_CLONE", "fuse/os/freebsd.rs", "fuse/lock.rs: LockMode"]}
{"id": "C66", "title": "Locking in the VFS layer: atomic, free of deadlocks, and out of the way of user code", "statement": "When any number of threads handle requests, taking the two locks, accessing the maps and calling user code step by step in any interleaving the locks allow, everything that can be observed (messages, calls of user code, by which thread and in which order) can also be observed when each critical section is a single atomic step. Every thread can always be brought to its end if user code returns. User code that hangs or panics in one request does not keep the other requests from being answered.", "quantifier": "every filesystem implementation, any number of threads and messages, every interleaving of steps at the level of lock operations and single map accesses, every point at which user code hangs or panics", "why_tests_cant": "Interleavings are not under a test's control, and a test cannot establish that no schedule deadlocks.", "anchors": ["fuse-vfs/fuse-vfs.rs: Filesystem (nodes, handles), NodeMap, HandlesMap, release, releasedir"]}
{"id": "C67", "title": "Exactly the messages of the protocol decode", "statement": "A message decodes as a request of a given type if and only if it has an acceptable header and the encoding of a well-formed request of this type, possibly followed by other bytes inside the declared length; the decoded request then reports this request. No message encodes two different requests.", "quantifier": "every byte string, every request type, every negotiated minor version and feature set", "why_tests_cant": "The claim is about every byte string, well-formed or not; tests and fuzzers sample messages and cannot show that no malformed one is accepted.", "anchors": ["fuse/operations/*.rs: Request::try_from", "fuse/server/decode.rs"]}
{"id": "C68", "title": "Offered and supported features are enabled", "statement": "After a successful handshake by FuseServer, a feature is enabled in the client, going by the reply, exactly if the client requested it and the server offers it (FuseServer::update_flags: 'Init flags will be enabled if they are offered by the server and supported by the client').", "quantifier": "every server configuration, every client version and set of requested features, every connection; every feature of the 64 that the reply of the client's version has room for", "why_tests_cant": "There are 2^64 feature sets on either side, and the tests do not look at the reply with a client's eyes.", "anchors": ["fuse/server.rs: FuseServer::update_flags, FuseServer::connect", "fuse/operations/fuse_init.rs: FuseInitResponse"]}
{"id": "C69", "title": "The VFS tables are linearizable", "statement": "However the threads calling Filesystem::dispatch interleave, the node table and the handle tables behave as if every request used them at one moment within its own handling: there is a sequence of operations (find a node, register a found node, forget, find a handle, open, close) in the order of the threads' steps which plain sequential tables, starting with the root alone, allow; a request about an unknown node or handle is answered only with 'invalid argument'; every other request reaches exactly the object the tables hold at that moment; a LOOKUP that succeeds has registered what it found, an OPEN has registered its file under the next handle before the handle is announced, a RELEASE closes the handle in the same moment as it calls the file's release method; a FORGET takes all its items at once.", "quantifier": "every filesystem implementation, every set of accepted messages, every interleaving, complete or not; also at the level of individual lock operations", "why_tests_cant": "The number of interleavings is unbounded, and a lost update or a stale read shows only in some of them.", "anchors": ["fuse-vfs/fuse-vfs.rs: Filesystem::dispatch, NodeMap, HandlesMap"]}
{"id": "C70", "title": "The Debug text of a request tells what the request is", "statement": "Formatting a request that has been decoded with {:?} never panics, and gives printable ASCII text whatever bytes the names, values and ioctl data in the request contain. The text tells where it ends, the type of the request and the value of every public accessor: if two decoded requests, each followed by any bytes, give the same text, they are of the same type, all their accessors return the same values, and the same bytes follow; a log made of such texts one after another can be split in one way only. The value of each accessor stands behind the accessor's name, and opcodes, lock modes and seek modes are shown by the names of the constants. The indented form {:#?} consists of printable characters and line feeds and is as unambiguous. A request that has not been decoded can be formatted exactly if it declares at least the 40 bytes of a header, and its text determines the message byte for byte except for the four bytes of padding in the header.", "quantifier": "all buffers and request types, all protocol versions, all platforms, all logs", "why_tests_cant": "A text that is ambiguous is so for particular names (one containing quotes, commas or braces) or particular combinations of flags and numbers, out of unboundedly many.", "anchors": ["fuse/operations/*.rs: impl Debug for *Request", "fuse/server.rs: impl Debug for CuseRequest, FuseRequest", "fuse/fuse.rs: impl Debug for RequestHeader", "fuse/internal/debug.rs", "fuse/lock.rs: impl Debug for Lock", "fuse/kernel.rs: impl Debug for fuse_opcode"]}
{"id": "C71", "title": "An entry names one node everywhere", "statement": "An Entry carries the ID of its node twice on the wire, as the ID the client will use for the node and as the inode number in the attributes, and a READDIRPLUS record carries it a third time. Whatever the server does with an Entry through its public interface, a client reading any reply that carries it (LOOKUP, LINK, MKDIR, MKNOD, SYMLINK, CREATE, a record of a READDIRPLUS listing) finds the same ID in all places, and it is the ID the Entry itself reports through attributes().node_id().", "quantifier": "all attributes, all sequences of operations on an entry, all listings and buffer sizes, all protocol versions", "why_tests_cant": "The copies are made when the entry is created and disagree only after particular later mutations; a test would have to try that sequence and decode all copies.", "anchors": ["fuse/entry.rs: Entry::new, attributes_mut", "fuse/node_attr.rs: NodeAttr", "fuse/operations/readdirplus.rs: ReaddirplusEntry", "fuse/operations/create.rs: CreateResponse"]}
{"id": "C72", "title": "The Debug text of a response tells what is sent", "statement": "Formatting any response, notification, listing, or part of one (NodeAttr, Entry, CreateResponse, FuseInitResponse, CuseInitResponse, StatfsAttributes, ResponseHeader, Delete, InvalidateEntry, InvalidateInode, Poll, ReaddirEntry, ReaddirplusEntry, ReaddirEntries, ReaddirplusEntries, ListxattrNames, IoctlResponse, IoctlRetry, IoctlSlice) that a server made through the public interface returns without undefined behaviour. If two such values give the same text, with {:?} or {:#?} and whatever follows, then the bytes sent for them are the same for every client, so a log of responses determines what was sent. Behind the name of each accessor stands what that accessor returns. A printed Duration, read as a number with its unit, is the duration.", "quantifier": "all values reachable through the constructors and setters of the listed types, all names and listings, all texts following, all indentation depths, all protocol versions", "why_tests_cant": "It speaks about all pairs of values; tests compare single texts, and a missing field or an ambiguous list goes unnoticed there.", "anchors": ["fuse/entry.rs: Debug for Entry", "fuse/node_attr.rs: Debug for NodeAttr", "fuse/notify.rs", "fuse/operations/*.rs: Debug for responses", "fuse/fuse.rs: Debug for ResponseHeader"]}
{"id": "C73", "title": "The root mode of a mount is the mode of the mount point", "statement": "If no root mode is configured, mount() (fuse-linux, and fuse-libc on Linux) mounts with the mode of the mount point, permissions and file type, for every kernel whose statx behaves as documented: it stores what it is asked for, at the offsets of struct statx, and the rest may be anything. If the mount point cannot be examined, the error is returned and nothing is mounted.", "quantifier": "all kernels within the documented contract of statx, all mount points and options", "why_tests_cant": "Tests run on the kernel at hand, which stores more than it is asked for.", "anchors": ["fuse-linux/fuse-linux.rs: get_root_mode", "fuse-libc/os/linux.rs: get_root_mode", "fuse-linux/sys.rs: kernel_statx, STATX_MODE"]}
{"id": "C74", "title": "Methods left to their defaults give valid answers", "statement": "A filesystem built on fuse-vfs may leave out methods of nodes and handles. A client that asks about an object without the method gets an answer it can read: GETXATTR fails with ENODATA (ENOATTR), LISTXATTR says that there are no names (with size 0: that 0 bytes are needed, in a fuse_getxattr_out; otherwise: an empty list), STATFS gives zeros in the layout of the negotiated version, RELEASE and RELEASEDIR succeed, LOOKUP and OPENDIR fail with ENOTDIR, and OPEN, READ, WRITE, READDIR, READDIRPLUS and READLINK with 'not supported'.", "quantifier": "every execution with any number of threads, every implementation that leaves out the method for the object in question, every protocol version", "why_tests_cant": "A test would have to try each default method with each form of the request; the two forms of LISTXATTR look alike to the method.", "anchors": ["fuse-vfs/fuse-vfs.rs: trait Node, DirectoryHandle, FileHandle (default methods)", "fuse-vfs/fuse-vfs.rs: ListxattrResult"]}
{"id": "C75", "title": "A program sees the filesystem that is served", "statement": "Let a filesystem be implemented on fuse-vfs in the obvious way (nodes and handles are node numbers, the methods read and write the contents and report links, attributes and statistics). A program's calls (open by path, read, write, close, stat; open a directory, read the next entries that fit a buffer, close it; read a symbolic link; the value of an extended attribute, or its size; the names of all, or their size; the statistics of the filesystem) are turned by a client into messages as the protocol prescribes (a LOOKUP per name, then OPEN, GETATTR, READ, WRITE, RELEASE, OPENDIR, READDIR, RELEASEDIR, READLINK, GETXATTR, LISTXATTR, STATFS with the node and handle numbers and directory offsets it was given), the library decodes each message, dispatches it and replies, and the client reads the bytes of the reply. Then every call returns what it would return on the filesystem itself, without client and library, and the contents at the end are the same. The client may forget nodes it was told of whenever it likes.", "quantifier": "every tree of directories, files and symbolic links with extended attributes (any names valid on the wire, several names for a file, loops), all contents, every finite sequence of calls with forgets in between, every buffer size of a listing, every numbering of requests, both error tables, every minor version from 9 on, listing buffers allocated at multiples of eight", "why_tests_cant": "Tests of single operations do not show that node numbers, handle numbers, lookup counts, layouts and offsets fit together over a whole session; a session has unboundedly many shapes.", "anchors": ["fuse-vfs/fuse-vfs.rs: Filesystem::dispatch and the handlers of lookup, getattr, open, read, write, release, opendir, readdir, releasedir, readlink, getxattr, listxattr, statfs, forget", "fuse-vfs/fuse-vfs.rs: NodeMap, HandlesMap; StaticDirectoryHandle", "fuse/server.rs: FuseRequest::new, FuseReplySender", "fuse/operations: lookup, getattr, open, read, write, release, opendir, readdir, releasedir, readlink, getxattr, listxattr, statfs, forget"]}
{"id": "C76", "title": "A mount works from the handshake to the end", "statement": "A server is configured with the builder, connected with connect, and then receives and dispatches requests in a loop with a buffer of the length the connection asks for. At the other end of the socket is a client that first offers any number of other major versions, then version 7 with some minor version, checks the version in the reply, makes its calls (those of C75), and leaves. Then connect succeeds, the loop ends without an error, the client has been given the answers it would have been given using the filesystem directly, and the contents are as it would have left them.", "quantifier": "every tree of directories, all contents, every server configuration, every list of other versions offered first, every INIT message of version 7.9 or later (in particular versions newer than the library's), every finite sequence of calls that fit the announced write limit, every buffer of sufficient length", "why_tests_cant": "The handshake determines layouts and buffer lengths that every later request depends on; that they suffice for everything the client may then send is a statement about unboundedly many sessions.", "anchors": ["fuse/server.rs: FuseServer::connect, FuseConnection::recv, recv_buf_len, negotiate_version, fuse_serve_local", "fuse-vfs/fuse-vfs.rs: Filesystem::dispatch", "fuse/server.rs: ServerError, Request::new", "fuse/operations/fuse_init.rs"]}
{"id": "C77", "title": "Programs that use a mount at the same time see one filesystem", "statement": "Several programs make calls (those of C75) on a filesystem served through fuse-vfs, through one client and with one table of descriptors, each deciding about its next call by the answers so far; the messages of their calls (LOOKUPs on the way along a path, then the last one) are interleaved in any way, and the client forgets nodes in between. Then every call returns what it would return if the calls were made on the filesystem itself, one after the other, in the order in which they end; the contents at the end are those these calls leave; each program's calls come in its own order; and no program is held up by others: each of its turns takes its current call one message further. The same holds through a whole mount, from the handshake to the end of the loop.", "quantifier": "every tree of directories, all contents, every number of programs (finite or not, with choices that depend on answers), every order of turns, every numbering of requests, both error tables, every minor version from 9 on; for the mount also every server configuration and every list of versions offered first", "why_tests_cant": "The number of interleavings grows exponentially with the number of messages, and the failures of interest (a node dropped between two messages of a walk, a handle given to two programs) need particular ones.", "anchors": ["fuse-vfs/fuse-vfs.rs: Filesystem::dispatch, NodeMap, HandlesMap", "fuse/server.rs: FuseServer::connect, FuseConnection::recv, fuse_serve_local"]}
{"id": "C78", "title": "Any filesystem is served as it is", "statement": "Take any function that, for a caller, an operation (one of 39: lookup, create, read, setattr, setlk, ioctl, rename, ...) and a state, gives an answer and a new state. A server whose handlers take the caller and the operation from a request with the accessors of the library, and answer with its response types, served by the library's loop, is indistinguishable from the function: a program that uses it through FUSE messages, choosing each operation by the answers so far, gets the same answers in the same order, with every field of every operation and of every answer (also of each record of a listing) unchanged, and leaves the same state; the loop ends without an error when the program leaves. The same holds through a whole mount, from the handshake on, whichever form of SETXATTR requests has been agreed on.", "quantifier": "every filesystem function on every type of states, every adaptive program, every caller, every operation with all values of its fields, every answer, every numbering of requests, both forms of SETXATTR, every minor version from 12 on, debug assertions on or off, every receive buffer that is long enough; for the mount also every server configuration and every list of versions offered first", "why_tests_cant": "A test uses one filesystem and one script; a field that is dropped, swapped or truncated between a request and the handler, or between an answer and the client, shows only for particular values of that field, and only if the script looks at it.", "anchors": ["fuse/server.rs: FuseHandlers::dispatch, FuseReplySender, FuseServer::connect", "fuse/operations/*.rs: request accessors, responses", "fuse/node_attr.rs: NodeAttr", "fuse/entry.rs: Entry"]}
{"id": "C79", "title": "Threads keep operations atomic", "statement": "When several programs use a filesystem at the same time through the threads of fuse-std's serve_fuse, whatever they see (which calls they make and which answers they get, in which order) they could have seen using the filesystem directly, every operation taking place in one instant between its call and its return, and the filesystem is in the same state; no answer goes to another program than the one that asked, and no thread reports an error. When serve_fuse returns, all programs have ended, and every operation that was called for has been done exactly once. Until then something can always happen, and there is no infinite execution. A single program that waits for its answers gets the result it would get using the filesystem itself.", "quantifier": "every filesystem function, every number of programs and of threads, every adaptive program, every order of steps, every order in which requests are received and replies taken, every choice of request numbers that are not in use", "why_tests_cant": "The number of interleavings is unbounded; a reply sent to the wrong request, a request handled twice or lost, or a thread that stops early shows only under a particular order of steps of several threads.", "anchors": ["fuse-std/fuse-std.rs: serve_fuse, FuseServer", "fuse/server.rs: recv, FuseHandlers::dispatch, FuseReplySender"]}
{"id": "C80", "title": "Any character device is served as it is", "statement": "For every character device, given as a function from operation and state to answer and state, and for every program that uses it, a server made with CuseServer, CuseHandlers, the request accessors and the reply types gives the program, over messages, the result it would have had calling the device directly, and leaves the device in the same state: every operation (OPEN, READ, WRITE, IOCTL, POLL, FLUSH, FSYNC, RELEASE, INTERRUPT) arrives with the arguments and the caller it was sent with, exactly once and in order, and every answer is read as the answer that was given. This includes the handshake, after any number of offers of other major versions.", "quantifier": "every device function and state, every adaptive program of any length, every node ID in the headers, every protocol version from 7.9, every receive buffer that is large enough, every device name, number and limit", "why_tests_cant": "The device, the program and its length are arbitrary; a field lost, swapped or confused in one request or reply shows only for particular values, and with a state that depends on it.", "anchors": ["fuse/server.rs: CuseServer::connect, CuseHandlers::dispatch, CuseReplySender, cuse_serve_local", "fuse/operations/{flush,fsync,interrupt,ioctl,open,poll,read,release,write}.rs", "fuse/kernel_traits.rs: cuse_reply_sized"]}
{"id": "C81", "title": "Notifications reach the client beside the replies", "statement": "Replies and notifications go through the same socket. Whatever a server sends with FuseConnection::reply and FuseConnection::notify, in whatever order and for whatever requests, in messages below 4 GiB, a client that looks at nothing but the messages finds in each whether it is a notification and what it announces, or a reply, to which request, and whether it is an error or data and which, in the order in which they were sent. For every filesystem that announces things before and after its answers, and every program that uses it and listens, the program, over messages, is told exactly what the filesystem answers and announces, in that order, ends with the result it would have had calling the filesystem directly, and leaves the filesystem in the same state; this includes the handshake.", "quantifier": "every sequence of replies and notifications; every filesystem function and state with any number of announcements, every adaptive program of any length, every protocol version from 7.12, every receive buffer that is large enough, every set of server options", "why_tests_cant": "How many notifications come before or after which replies, for which requests, and what they say, is arbitrary; one that can be taken for a reply does harm only in some orders and for some request IDs.", "anchors": ["fuse/server.rs: FuseConnection::reply, FuseConnection::notify, FuseReplySender, serve_local, FuseServer::connect", "fuse/notify.rs: FuseNotification, Delete, InvalidateEntry, InvalidateInode, Poll"]}
{"id": "C82", "title": "Older clients are served as well", "statement": "For every version of the protocol from 7.7 on, every filesystem and every program: a client that uses the filesystem through messages in the form of that version (requests without the fields the version does not have, replies read with 0 for them), served by serve_local with the version agreed in the handshake, ends with the result it would have had calling the filesystem directly, and leaves the filesystem in the same state, as long as the program only asks, and the filesystem only answers, what the version can express.", "quantifier": "every filesystem function and state, every adaptive program of any length, every protocol version from 7.7 on, every receive buffer that is large enough, every set of server options, every version offered by the client", "why_tests_cant": "A client of 2006 is rarely at hand; which fields are missing depends on the request and on the version, and a field read from the wrong place shows only with values that differ from the padding.", "anchors": ["fuse/server/decode.rs",  "fuse/internal/compat.rs", "fuse/operations/create.rs: CreateRequest", "fuse/operations/mknod.rs: MknodRequest", "fuse/operations/getattr.rs: GetattrRequest, GetattrResponse", "fuse/operations/read.rs: ReadRequest", "fuse/operations/readdir.rs: ReaddirRequest", "fuse/operations/release.rs: ReleaseRequest", "fuse/operations/releasedir.rs: ReleasedirRequest", "fuse/operations/write.rs: WriteRequest", "fuse/server.rs: serve_local, FuseServer::connect, FuseConnection::reply"]}
{"id": "C83", "title": "Threads keep operations atomic, with notifications, older clients, and devices", "statement": "When several programs use a filesystem that sends notifications, through the threads of fuse-std's serve_fuse and with any version of the protocol from 7.7 on, or a character device through the threads of serve_cuse, whatever is seen (calls, answers and notifications, in their order) could have been seen using the filesystem or the device directly, every operation taking place in one instant between its call and its return and sending its notifications in that instant. No answer or notification is lost, doubled, or taken for one of the other kind. When serving returns, all programs have ended and the state is that after doing everything called for in some order, one after the other; threads of serve_fuse report nothing, and each thread of serve_cuse reports that the connection is closed. Until then something can always happen, and there is no infinite execution.", "quantifier": "every filesystem and device function and state, every number of programs and of threads, every adaptive program, every order of steps, every order in which requests are received and replies and notifications taken, every choice of request numbers that are not in use, every protocol version from 7.7 on", "why_tests_cant": "Interleavings of threads, replies and notifications are unbounded in number; a notification taken for a reply, or one lost between two replies, shows only in particular ones.", "anchors": ["fuse-std/fuse-std.rs: serve_fuse, FuseServer, serve_cuse, CuseServer", "fuse/server.rs: recv, FuseHandlers::dispatch, FuseReplySender, FuseConnection::notify", "fuse/server.rs: CuseConnection::recv, CuseHandlers::dispatch", "fuse/notify.rs"]}
{"id": "C84", "title": "A client that sends anything brings about only what it asks for", "statement": "Whatever bytes a client sends, and however it chooses them by what it has heard, a filesystem served by serve_local is only ever used for operations that are sound (node IDs that are not 0, names that are not empty and without NUL and slash, times with fewer than 10^9 nanoseconds, locks within 64 bits, data as long as it is said to be), each of them asked for by the bytes of one message, once, in the order of the messages, and for the user that the message says it is from. What an operation answers is sent as the only reply to its message, with its number. A message that asks for nothing leaves the filesystem alone and gets exactly one reply with an error, or none if it is a FORGET, BATCH_FORGET or INTERRUPT; serving goes on. Only what is not even a message (shorter than its header or than it claims, number 0, longer than the buffer) ends serving, with an error and the filesystem as it was. So whatever sound operations preserve holds at the end of every conversation. A message for a possible operation does ask for it.", "quantifier": "every filesystem function, invariant and state, every adaptive conversation of any byte strings, every buffer length, every layout from version 7.12 on, with and without overflow checks", "why_tests_cant": "The messages are arbitrary byte strings, chosen adaptively; a decoder that takes one malformed message for an operation lets a client do what the filesystem cannot expect, and fuzzing finds only some.", "anchors": ["fuse/server.rs: serve_local, FuseHandlers::dispatch, ServerRequest::new", "fuse/operations/*.rs: Server*Request::try_from", "fuse/server/decode.rs: RequestDecoder", "fuse/server.rs: FuseReplySender::ok, err"]}
{"id": "C85", "title": "A client that sends anything to a character device brings about only what it asks for", "statement": "Whatever bytes a client sends, and however it chooses them by what it has heard, a character device served by serve_local is only ever used for operations that the protocol has, each of them asked for by the bytes of one message, once, in the order of the messages, and for the user that the message says it is from. What an operation answers is sent as the only reply to its message, with its number. A message that asks for nothing leaves the device alone and gets exactly one reply, ENOSYS if devices have no such request and EIO otherwise, or none if it is an INTERRUPT; serving goes on. No message makes a handler panic. Only what is not even a message (shorter than its header or than it claims, number 0, longer than the buffer) ends serving early, with the device as it was. So whatever operations preserve holds at the end of every conversation. The same holds through whole sessions that begin with the handshake. A message for an operation does ask for it.", "quantifier": "every device function, invariant and state, every adaptive conversation of any byte strings, every buffer length, every layout from version 7.9 on; every server made with the builder, every series of offers", "why_tests_cant": "The messages are arbitrary byte strings, chosen adaptively; fuzzing finds only some of those that a decoder could take for an operation, or panic for.", "anchors": ["fuse/server.rs: serve_local, CuseHandlers::dispatch, ServerRequest::new", "fuse/operations/*.rs: Server*Request::try_from", "fuse/server/decode.rs: RequestDecoder", "fuse/server.rs: CuseReplySender::ok, err", "fuse/server.rs: CuseServer::connect"]}
{"id": "C86", "title": "Threads keep operations atomic for clients that send anything", "statement": "Any number of programs send messages with any contents to a filesystem or character device that is served by any number of threads of serve_fuse or serve_cuse; what they send next may depend on what they heard. Whatever they see could have been seen if each message had brought about, in one instant between being sent and being answered, exactly the operation its bytes ask for (once, for the user it names), or nothing but an error reply if they ask for none. Every message that is to be answered gets its own answer. What the operations rely upon holds at all times. When the threads have returned, the state is that after the operations asked for, all of them and no others, in some order. Nothing gets stuck, and nothing goes on forever.", "quantifier": "every filesystem or device function, invariant and state, every number of threads and programs, every program, every message that has a valid header, every interleaving, all buffers that are large enough, versions from 7.12 on (devices: 7.9)", "why_tests_cant": "All interleavings of all threads with arbitrary bytes as messages; neither can be enumerated, and a malformed message that disturbs another program's answer would only show in some of them.", "anchors": ["fuse-std/fuse-std.rs: serve_fuse, serve_cuse", "fuse/server.rs: FuseHandlers::dispatch, CuseHandlers::dispatch, ServerRequest::new", "fuse/operations/*.rs: Server*Request::try_from", "fuse/server/decode.rs: RequestDecoder"]}
{"id": "C87", "title": "What holds on a connection holds on a device, system call by system call", "statement": "A server talks to a client at the other side of a FUSE or CUSE device, through fuse-linux or fuse-libc. The client's next message may depend on what was written to the device, and reads and writes may be interrupted (EINTR, ENOENT) finitely often. The server behaves exactly as if connected to that client directly: the handshake and the serving loop return on the device if and only if they return without it, with the same result (up to what an error of the socket consists of), the same state of the filesystem and the same client, which has heard the same. So any program that uses any filesystem through a mount computes, system call by system call, what it computes by calling the filesystem, and serving ends with Ok; and whatever bytes a client of a character device sends, they bring about only what they ask for.", "quantifier": "every device that delivers messages, every client (a strategy), every sequence of interruptions, every server made with the builders, every handlers that use the socket only to send, every buffer, every filesystem or device function and state, in both directions", "why_tests_cant": "The client reacts to what is written and interruptions are chosen by the kernel; the equality is about all conversations, whether they end or not.", "anchors": ["fuse-linux/socket.rs: Socket::recv, Socket::send", "fuse-libc/io/socket.rs: Socket::recv, Socket::send", "fuse/server.rs: FuseServer::connect, CuseServer::connect", "fuse-std/fuse-std.rs: serve_fuse, serve_cuse", "fuse/server.rs: FuseHandlers::dispatch, CuseHandlers::dispatch"]}
{"id": "C88", "title": "Threads keep operations atomic on a device, whichever system calls are interrupted", "statement": "Threads of serve_fuse or serve_cuse read from one FUSE or CUSE device, through fuse-linux or fuse-libc; programs on the other side make requests at the same time. Reads may be interrupted (EINTR, ENOENT), and other threads and programs go on before they are repeated. What the programs see is exactly what they can see with threads that share a connection to them without a device, and the other way round: same calls, returns and announcements in the same order, same state of what is served, same messages on their way, and the threads have all returned in one if and only if they have in the other. So for any filesystem (from version 7.12 on) operations take place one at a time, each in an instant between its call and its return; nothing that is announced is lost or repeated; something can always happen until all programs have ended and all threads have returned, and that is reached after finitely many steps. The same is true of character devices whatever bytes are sent to them, and just what the bytes ask for is done.", "quantifier": "every device that delivers messages, every number of threads and buffers, every number of programs (strategies), every interleaving, every finite sequence of interruptions after each step of a program, every filesystem or device function and state", "why_tests_cant": "The interleavings of system calls that are repeated with the steps of other threads are without bound, and are chosen by the kernel.", "anchors": ["fuse-std/fuse-std.rs: serve_fuse, serve_cuse", "fuse-linux/socket.rs: Socket::recv, Socket::send", "fuse-libc/io/socket.rs: Socket::recv, Socket::send", "fuse/server.rs: FuseConnection::notify"]}
{"id": "C89", "title": "Filesystems behind the VFS layer work on a device, system call by system call", "statement": "A server receives requests from a FUSE device through fuse-linux or fuse-libc and hands them to fuse-vfs. The client at the other side of the device may let its next message depend on what was written, and reads and writes may be interrupted (EINTR, ENOENT) finitely often. The serving loop returns on the device if and only if it returns when connected to that client without the device, with the same result (up to what an error of the socket consists of), the same nodes and handles, the same state of the user's code, and a client that has heard the same. So a mounted tree of directories works from the handshake to the end: one client gets the answers it would get using the tree directly, several programs at the same time get those of their calls made one after the other, and the contents are as they leave them.", "quantifier": "every device that delivers messages, every client (a strategy), every sequence of interruptions, every user code with a state of its own, every layout, buffer and state of the two maps, in both directions; for the mount every tree, all contents, every server configuration, every list of versions offered first, every finite sequence of calls or every number of programs and order of turns", "why_tests_cant": "The client reacts to what is written, interruptions are chosen by the kernel, and node and handle tables grow with the conversation; the equality is about all conversations, whether they end or not.", "anchors": ["fuse-vfs/fuse-vfs.rs: Filesystem::dispatch, NodeMap, HandlesMap", "fuse-linux/socket.rs: Socket::recv, Socket::send", "fuse-libc/io/socket.rs: Socket::recv, Socket::send", "fuse/server.rs: FuseServer::connect, FuseConnection::recv"]}
{"id": "C90", "title": "A client that sends anything to the VFS layer brings about only what it asks for", "statement": "A client sends any bytes, which may depend on what it was sent, to a filesystem behind fuse-vfs. Serving ends. For every message that is accepted, the user's code is used for nothing, for one question whether an object is of the kind that the request needs, for the method of the request (with the decoded request and the header of the message), or for the question and then the method; the client hears at most one answer, with the ID of its message; and serving stops exactly at the first message that is too long, not acceptable, or cannot be decoded (also if decoding panics), and at a result that does not fit into a message, where the caller is told why. Methods are only ever called with objects that the user's code has handed out itself and, where a kind is needed, has said to be of that kind, so any invariant that it keeps on those is kept for every client. In a mounted tree of directories, on a device, nothing but files that have a name in the tree can be changed. When messages are handled by threads that take turns in any way, at the level of locks and accesses to the maps, the invariant holds at every moment, and every step of a thread does to the state of the user's code nothing, or one such question or method of that thread's own request.", "quantifier": "every client (a strategy) with fewer than 2^61 messages of any bytes, all user code with a state of its own and every invariant of it, every layout, buffer, server configuration and handshake; every device that delivers messages and every sequence of interruptions; every tree and all contents; with threads: any number of them, all messages and all executions", "why_tests_cant": "The messages are arbitrary bytes chosen after seeing the answers, and node and handle numbers may be made up, reused or forgotten too often; tests try some messages, while the claim is about all conversations.", "anchors": ["fuse-vfs/fuse-vfs.rs: Filesystem::dispatch, NodeMap, HandlesMap, Node, Directory, File, Symlink, DirectoryHandle, FileHandle", "fuse/server.rs: FuseServer::connect, FuseConnection::recv, FuseRequest::new", "fuse-linux/socket.rs: Socket::recv, Socket::send", "fuse-libc/io/socket.rs: Socket::recv, Socket::send"]}
{"id": "C91", "title": "A handler that panics costs the threaded server one thread, and its result", "statement": "When handlers panic while serve_fuse or serve_cuse serves a stream of messages with n threads, a message is received if and only if the messages before it have cost fewer than n threads: one for every panic, and one for every malformed message beyond the n-th (which blocks its thread). This does not depend on the schedule. Every well-formed message received is handled exactly once, whatever happens to the others. Nothing goes on forever. When all threads have ended, serve_fuse returns the errors of the malformed messages if no handler panicked; if one did, it never returns, and panics itself when the last thread has ended. serve_cuse, where each thread reports the closing of the connection as an error of its own, hangs if and only if there were more malformed messages than panics; otherwise it panics if a handler did, and returns n errors if none did.", "quantifier": "every finite stream of messages of any bytes, every number of threads and size of buffers that hold the messages, all handlers (whose panics may depend on everything they see), every interleaving of the threads", "why_tests_cant": "Which thread receives which message, and when a panic happens relative to the other threads, is up to the scheduler; a test sees a few schedules and a few streams.", "anchors": ["fuse-std/fuse-std.rs: serve_fuse, serve_cuse, is_fatal_error", "fuse/server.rs: fuse_serve_local, cuse_serve_local, FuseHandlers::dispatch, CuseHandlers::dispatch, FuseConnection::recv, CuseConnection::recv"]}
