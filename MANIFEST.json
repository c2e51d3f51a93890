{
 "claims": [
  {
   "property": "C01",
   "status": "proved",
   "theorems": [
    "Fuse.C01_fuse_attr",
    "Fuse.C01_fuse_kstatfs",
    "Fuse.C01_fuse_file_lock",
    "Fuse.C01_fuse_entry_out",
    "Fuse.C01_fuse_forget_in",
    "Fuse.C01_fuse_forget_one",
    "Fuse.C01_fuse_batch_forget_in",
    "Fuse.C01_fuse_getattr_in",
    "Fuse.C01_fuse_attr_out",
    "Fuse.C01_fuse_mknod_in",
    "Fuse.C01_fuse_mkdir_in",
    "Fuse.C01_fuse_rename_in",
    "Fuse.C01_fuse_rename2_in",
    "Fuse.C01_fuse_link_in",
    "Fuse.C01_fuse_setattr_in",
    "Fuse.C01_fuse_open_in",
    "Fuse.C01_fuse_create_in",
    "Fuse.C01_fuse_open_out",
    "Fuse.C01_fuse_release_in",
    "Fuse.C01_fuse_flush_in",
    "Fuse.C01_fuse_read_in",
    "Fuse.C01_fuse_write_in",
    "Fuse.C01_fuse_write_out",
    "Fuse.C01_fuse_statfs_out",
    "Fuse.C01_fuse_fsync_in",
    "Fuse.C01_fuse_setxattr_in",
    "Fuse.C01_fuse_getxattr_in",
    "Fuse.C01_fuse_getxattr_out",
    "Fuse.C01_fuse_lk_in",
    "Fuse.C01_fuse_lk_out",
    "Fuse.C01_fuse_access_in",
    "Fuse.C01_fuse_init_in",
    "Fuse.C01_fuse_init_out",
    "Fuse.C01_cuse_init_in",
    "Fuse.C01_cuse_init_out",
    "Fuse.C01_fuse_interrupt_in",
    "Fuse.C01_fuse_bmap_in",
    "Fuse.C01_fuse_bmap_out",
    "Fuse.C01_fuse_ioctl_in",
    "Fuse.C01_fuse_ioctl_iovec",
    "Fuse.C01_fuse_ioctl_out",
    "Fuse.C01_fuse_poll_in",
    "Fuse.C01_fuse_poll_out",
    "Fuse.C01_fuse_notify_poll_wakeup_out",
    "Fuse.C01_fuse_fallocate_in",
    "Fuse.C01_fuse_in_header",
    "Fuse.C01_fuse_out_header",
    "Fuse.C01_fuse_dirent",
    "Fuse.C01_fuse_direntplus",
    "Fuse.C01_fuse_notify_inval_inode_out",
    "Fuse.C01_fuse_notify_inval_entry_out",
    "Fuse.C01_fuse_notify_delete_out",
    "Fuse.C01_fuse_notify_store_out",
    "Fuse.C01_fuse_notify_retrieve_out",
    "Fuse.C01_fuse_notify_retrieve_in",
    "Fuse.C01_fuse_lseek_in",
    "Fuse.C01_fuse_lseek_out",
    "Fuse.C01_fuse_copy_file_range_in",
    "Fuse.C01_fuse_setupmapping_in",
    "Fuse.C01_fuse_removemapping_in",
    "Fuse.C01_fuse_removemapping_one",
    "Fuse.C01_fuse_syncfs_in",
    "Fuse.C01_fuse_secctx",
    "Fuse.C01_fuse_secctx_header",
    "Fuse.C01_fuse_create_in_v7p1",
    "Fuse.C01_fuse_mknod_in_v7p1",
    "Fuse.C01_fuse_setxattr_in_v7p1",
    "Fuse.C01_fuse_read_in_v7p1",
    "Fuse.C01_fuse_release_in_v7p1",
    "Fuse.C01_fuse_write_in_v7p1",
    "Fuse.C01_new_zeroed"
   ],
   "note": "one theorem per wire record; C01_new_zeroed: the records made by new() are all zero on the wire"
  },
  {
   "property": "C02",
   "status": "proved",
   "theorems": [
    "Fuse.C02_accepted_iff",
    "Fuse.C02_exposes",
    "Fuse.C02_error"
   ],
   "note": ""
  },
  {
   "property": "C03",
   "status": "partial",
   "theorems": [
    "Fuse.C03_inspect_partial",
    "Fuse.C03_violated",
    "Fuse.C03_header",
    "Fuse.C03_exact"
   ],
   "note": "fails for header.len < 40, which Request::new accepts; C03_exact: and for no other header"
  },
  {
   "property": "C04",
   "status": "partial",
   "theorems": [
    "Fuse.C04_memory_safe_partial",
    "Fuse.C04_violated_forget",
    "Fuse.C04_violated_write",
    "Fuse.C04_exact"
   ],
   "note": "two memory-safety defects, witnessed; C04_exact: the inputs concerned, exactly"
  },
  {
   "property": "C05",
   "status": "partial",
   "theorems": [
    "Fuse.C05_ignores_trailing_partial",
    "Fuse.C05_violated",
    "Fuse.C05_exact"
   ],
   "note": "Holds for every message except WRITE from a client older than 7.9, where 16 bytes past the message are referenced; C05_exact states exactly when."
  },
  {
   "property": "C06",
   "status": "proved",
   "theorems": [
    "Fuse.C06_wrong_opcode",
    "Fuse.C06_unambiguous",
    "Fuse.C06_opcodes_disjoint"
   ],
   "note": ""
  },
  {
   "property": "C07",
   "status": "proved",
   "theorems": [
    "Fuse.C07_node_ids",
    "Fuse.C07_nonzero",
    "Fuse.C07_zero_rejected"
   ],
   "note": "For every byte string; C07_node_ids gives the offsets of all IDs exposed."
  },
  {
   "property": "C08",
   "status": "proved",
   "theorems": [
    "Fuse.C08_names_valid",
    "Fuse.C08_names_exact",
    "Fuse.C08_rename_exact",
    "Fuse.C08_symlink_exact"
   ],
   "note": ""
  },
  {
   "property": "C09",
   "status": "proved",
   "theorems": [
    "Fuse.C09_accepts_iff",
    "Fuse.C09_error_iff"
   ],
   "note": ""
  },
  {
   "property": "C10",
   "status": "partial",
   "theorems": [
    "Fuse.C10_symlink_partial",
    "Fuse.C10_setxattr_partial",
    "Fuse.C10_violated_symlink",
    "Fuse.C10_violated_setxattr",
    "Fuse.C10_exact_symlink",
    "Fuse.C10_exact_setxattr",
    "Fuse.C10_exact_setxattr_old"
   ],
   "note": "next_cstr does not consume the terminator of an empty string; the C10_exact theorems tell what is decoded instead"
  },
  {
   "property": "C11",
   "status": "partial",
   "theorems": [
    "Fuse.C11_fixed_round_trip_partial",
    "Fuse.C11_violated_lk"
   ],
   "note": "Holds for every operation and version in the forms the library knows. Fails for GETLK, SETLK and SETLKW of 7.7 and 7.8 clients, whose arguments are 40 bytes long (lk_flags came with 7.9): all of them are refused as truncated (C11_violated_lk)."
  },
  {
   "property": "C12",
   "status": "partial",
   "theorems": [
    "Fuse.C12_named_round_trip_partial",
    "Fuse.C12_exact",
    "Fuse.C10_violated_symlink",
    "Fuse.C10_violated_setxattr",
    "Fuse.C12_violated_create"
   ],
   "note": "An empty SYMLINK target and an empty SETXATTR name are mis-decoded, see C10; C12_exact tells for which requests the round trip holds. CREATE from clients older than 7.12 reports mode 0, whatever mode was sent (C12_violated_create)."
  },
  {
   "property": "C13",
   "status": "partial",
   "theorems": [
    "Fuse.C13_write",
    "Fuse.C13_write_old_partial",
    "Fuse.C13_exact"
   ],
   "note": "pre-7.9 WRITE needs an 80-byte buffer, see C04_violated_write; C13_exact: exactly then does it fail"
  },
  {
   "property": "C14",
   "status": "partial",
   "theorems": [
    "Fuse.C14_truncated_args_partial",
    "Fuse.C14_truncated_buffer",
    "Fuse.C14_exact",
    "Fuse.C14_violated"
   ],
   "note": "A SETXATTR with an empty name is still accepted when its last byte is missing, because the terminator of an empty string is not consumed (C14_violated). C14_exact: this is the only truncated message that is accepted, and no truncated message faults. A truncated SYMLINK with an empty target is rejected, but possibly with another error than UnexpectedEof."
  },
  {
   "property": "C15",
   "status": "partial",
   "theorems": [
    "Fuse.C15_forget",
    "Fuse.C15_batch_forget",
    "Fuse.C15_exact",
    "Fuse.C04_violated_forget",
    "Fuse.C04_exact"
   ],
   "note": "Messages of the protocol, and all other messages that decode, are proved (C15_exact); a forged count of 2^28 or more leaves the message (C04_violated_forget)."
  },
  {
   "property": "C16",
   "status": "proved",
   "theorems": [
    "Fuse.C16_setattr_iff",
    "Fuse.C16_setattr_times"
   ],
   "note": ""
  },
  {
   "property": "C17",
   "status": "proved",
   "theorems": [
    "Fuse.C17_fuse",
    "Fuse.C17_cuse",
    "Fuse.C17_frame",
    "Fuse.C17_error"
   ],
   "note": "For every reply kind of FuseReply/CuseReply, raw, empty and error answers, the socket is asked once to send a message whose bytes are the 16-byte header (length, error, request ID) and the payload written out by hand in PropReply.lean."
  },
  {
   "property": "C18",
   "status": "proved",
   "theorems": [
    "Fuse.C18_fuse",
    "Fuse.C18_cuse",
    "Fuse.C18_exactly_once"
   ],
   "note": "A message that would not fit the 32-bit length is refused with ReplyTooBig and nothing is sent; otherwise exactly one send."
  },
  {
   "property": "C19",
   "status": "proved",
   "theorems": [
    "Fuse.C19_attr",
    "Fuse.C19_entry",
    "Fuse.C19_create",
    "Fuse.C19_statfs",
    "Fuse.C19_init"
   ],
   "note": "Byte offsets and sizes of version dependent replies for every minor version."
  },
  {
   "property": "C20",
   "status": "proved",
   "theorems": [
    "Fuse.C20_fuse",
    "Fuse.C20_cuse",
    "Fuse.C20_fuse_script",
    "Fuse.C20_cuse_script",
    "Fuse.C20_fuse_fails"
   ],
   "note": "For every socket and closure, and for scripts of any number of refused INITs followed by an accepted one."
  },
  {
   "property": "C21",
   "status": "partial",
   "theorems": [
    "Fuse.C21_connect_partial",
    "Fuse.C21_server",
    "Fuse.C21_violated",
    "Fuse.C21_exact"
   ],
   "note": "Holds for FuseServer. For FuseConnection::connect a closure that sets SETXATTR_EXT for a client older than 7.6 leaves the server expecting the extended SETXATTR layout although the 8-byte reply carries no flags; C21_violated is such a session."
  },
  {
   "property": "C22",
   "status": "proved",
   "theorems": [
    "Fuse.C22_fuse",
    "Fuse.C22_cuse",
    "Fuse.C22_config",
    "Fuse.C22_limits",
    "Fuse.C22_cuse_config"
   ],
   "note": "Flags in the reply are the intersection of the requested and the configured ones."
  },
  {
   "property": "C23",
   "status": "proved",
   "theorems": [
    "Fuse.C23_fuse",
    "Fuse.C23_cuse"
   ],
   "note": ""
  },
  {
   "property": "C24",
   "status": "partial",
   "theorems": [
    "Fuse.C24_fuse",
    "Fuse.C24_fuse_forever",
    "Fuse.C24_fuse_stream",
    "Fuse.C24_fuse_stream_end",
    "Fuse.C24_cuse",
    "Fuse.C24_cuse_forever",
    "Fuse.C24_violated_cuse"
   ],
   "note": "Proved in full for fuse_serve_local. cuse_serve_local dispatches in the same way but never returns Ok: CuseConnection::recv passes ConnectionClosed on as an error (C24_violated_cuse)."
  },
  {
   "property": "C25",
   "status": "proved",
   "theorems": [
    "Fuse.C25_fuse",
    "Fuse.C25_cuse",
    "Fuse.C25_fuse_log",
    "Fuse.C25_decodable"
   ],
   "note": "The opcode numbers are written down from fuse.h, independently of the model's constants."
  },
  {
   "property": "C26",
   "status": "partial",
   "theorems": [
    "Fuse.C26_never_blocks_partial",
    "Fuse.C26_runs_end",
    "Fuse.C26_returns_partial",
    "Fuse.C26_violated",
    "Fuse.C26_violated_stall",
    "Fuse.C26_cuse_partial",
    "Fuse.C26_violated_cuse",
    "Fuse.C26_threads",
    "Fuse.C26_device_partial",
    "Fuse.C26_violated_device",
    "Fuse.C26_violated_cuse_device",
    "Fuse.C26_exact"
   ],
   "note": "All schedules of any number of threads. The error channel holds one error per thread and nobody reads it while threads run: with more malformed messages than threads serve_fuse never returns (C26_violated), after 2n of them it receives nothing more (C26_violated_stall), and serve_cuse never returns after a single one (C26_violated_cuse). With at most n malformed messages (none for CUSE) no thread ever blocks, every run ends with all threads finished and every well-formed message was handled exactly once. The same at the granularity of single system calls on a device, with interrupted reads between (C26_device_partial, C26_violated_device, C26_violated_cuse_device)."
  },
  {
   "property": "C27",
   "status": "partial",
   "theorems": [
    "Fuse.C27_readdir_partial",
    "Fuse.C27_accessors",
    "Fuse.C27_readdirplus_partial",
    "Fuse.C27_plus_accessors",
    "Fuse.C28_violated",
    "Fuse.C27_reads_exact"
   ],
   "note": "Round trip for all sequences of pushes into 8-byte-aligned buffers, through the library's iterator and an independent client parser. Not for unaligned buffers, where a push is undefined behaviour (C28_violated)."
  },
  {
   "property": "C28",
   "status": "partial",
   "theorems": [
    "Fuse.C28_readdir_partial",
    "Fuse.C28_readdirplus_partial",
    "Fuse.C28_violated",
    "Fuse.C28_violated_readdir",
    "Fuse.C28_violated_readdirplus"
   ],
   "note": "Holds after every push history for 8-byte-aligned buffers. For other buffers a history of pushes fails without change as long as nothing fits, and the first push that fits writes through a misaligned pointer (C28_violated, C28_violated_readdir, C28_violated_readdirplus), so the behaviour is determined for every buffer."
  },
  {
   "property": "C29",
   "status": "partial",
   "theorems": [
    "Fuse.C29_readdir",
    "Fuse.C29_violated",
    "Fuse.C29_readdirplus_partial"
   ],
   "note": "READDIR: proved. READDIRPLUS: the code reports the type bits unshifted (mode & S_IFMT), wrong for every mode with a type (C29_violated)."
  },
  {
   "property": "C30",
   "status": "proved",
   "theorems": [
    "Fuse.C30_round_trip",
    "Fuse.C30_bounds",
    "Fuse.C30_rest"
   ],
   "note": "For every platform limit, buffer and push history."
  },
  {
   "property": "C31",
   "status": "partial",
   "theorems": [
    "Fuse.C31_forward",
    "Fuse.C31_backward",
    "Fuse.C31_rejected_iff",
    "Fuse.C31_unbounded_iff",
    "Fuse.C31_lock",
    "Fuse.C31_end",
    "Fuse.C31_flock_partial",
    "Fuse.C31_violated_negative"
   ],
   "note": "All 64-bit start/end pairs; ranges stated as the set of covered bytes via start() and end(). Holds for every pair of offsets in a request. From the fcntl call on (C31_flock_partial) it fails on FreeBSD for a negative length that reaches back to the start of the file: end is -1 and the server sees a lock on the other bytes (C31_violated_negative); how the kernels compute start and end is taken from the comment in lock.rs:80-92 and the interop test."
  },
  {
   "property": "C32",
   "status": "proved",
   "theorems": [
    "Fuse.C32_entry",
    "Fuse.C32_encoding_valid",
    "Fuse.C32_monotone",
    "Fuse.C32_vfs"
   ],
   "note": "Every sequence of Entry mutators; the VFS layer's own encoder agrees."
  },
  {
   "property": "C33",
   "status": "proved",
   "theorems": [
    "Fuse.C33_new_iff",
    "Fuse.C33_attributes",
    "Fuse.C33_order",
    "Fuse.C33_order_attributes"
   ],
   "note": "Every sequence of NodeAttr setters refines a record of independent values."
  },
  {
   "property": "C34",
   "status": "proved",
   "theorems": [
    "Fuse.C34_type_of_mode",
    "Fuse.C34_recognised_iff",
    "Fuse.C34_codes",
    "Fuse.C34_disjoint",
    "Fuse.C34_permissions",
    "Fuse.C34_code_round_trip"
   ],
   "note": ""
  },
  {
   "property": "C35",
   "status": "proved",
   "theorems": [
    "Fuse.C35_get",
    "Fuse.C35_operators",
    "Fuse.C35_ext",
    "Fuse.C35_debug",
    "Fuse.C35_named",
    "Fuse.C35_history"
   ],
   "note": "Any width; all 17 flag types of the library."
  },
  {
   "property": "C36",
   "status": "partial",
   "theorems": [
    "Fuse.C36_partial",
    "Fuse.C36_violated",
    "Fuse.C36_violated_length"
   ],
   "note": "Proved for messages below 4 GiB; beyond that the length is truncated (C36_violated_length) or undefined behaviour results (C36_violated)."
  },
  {
   "property": "C37",
   "status": "proved",
   "theorems": [
    "Fuse.C37_buffer",
    "Fuse.C37_new",
    "Fuse.C37_reply"
   ],
   "note": "Every sequence of additions to an IoctlRetryBuf, both constructors, and the reply sent."
  },
  {
   "property": "C38",
   "status": "proved",
   "theorems": [
    "Fuse.C38",
    "Fuse.C38_subtype",
    "Fuse.C38_unchecked"
   ],
   "note": "For every option set and every accepted subtype there is one text, independent of the buffer, that mount_data returns NUL-terminated whenever it fits and refuses otherwise; an independent model of the kernel's option parser reads back exactly the configured options. C38_unchecked shows that the comma check in FuseSubtype::new is what rules out injection. The kernel parser (Fuse.Kernel.*) is part of the specification."
  },
  {
   "property": "C39",
   "status": "partial",
   "theorems": [
    "Fuse.C39_linux",
    "Fuse.C39_freebsd",
    "Fuse.C39_violated_freebsd",
    "Fuse.C39_reply_linux",
    "Fuse.C39_reply_freebsd_partial",
    "Fuse.C39_names"
   ],
   "note": "Linux proved in full. On FreeBSD error numbers outside 1..65535 are not negated; C39_violated_freebsd gives ERESTART (-1), which becomes -65535; C39_freebsd proves the conversion for the rest."
  },
  {
   "property": "C40",
   "status": "proved",
   "theorems": [
    "Fuse.C40_linux",
    "Fuse.C40_libc"
   ],
   "note": "For every system (arbitrary outcomes of writev), both sockets: a send returns exactly as its specification says, in terms of the sequence of attempted writes; it runs forever exactly when every write is interrupted."
  },
  {
   "property": "C41",
   "status": "proved",
   "theorems": [
    "Fuse.C41_linux",
    "Fuse.C41_libc",
    "Fuse.C41_bounds",
    "Fuse.C41_fuse",
    "Fuse.C41_cuse",
    "Fuse.C41_socket"
   ],
   "note": "For every system. C41_cuse records that CUSE sockets made by from_raw_fd treat ENODEV as a closed connection while those from open do not. C41_socket connects device sockets to the server model."
  },
  {
   "property": "C42",
   "status": "proved",
   "theorems": [
    "Fuse.C42_unique",
    "Fuse.C42_object"
   ],
   "note": "For every interleaving of any number of threads, every user implementation and every socket. Threads are sequences of atomic steps (lock sections, user calls, sends)."
  },
  {
   "property": "C43",
   "status": "proved",
   "theorems": [
    "Fuse.C43_gone",
    "Fuse.C43_kept"
   ],
   "note": "C43_gone: requests that start after the successful reply to the release. C43_kept: unless a release of this very handle succeeded, the object stays reachable, so other releases and failed releases do not matter."
  },
  {
   "property": "C44",
   "status": "partial",
   "theorems": [
    "Fuse.C44_only_found",
    "Fuse.C44_reachable_partial",
    "Fuse.C44_counted_partial",
    "Fuse.C44_root_partial",
    "Fuse.C44_dropped_partial",
    "Fuse.C44_violated_dropped",
    "Fuse.C44_violated_root"
   ],
   "note": "A node is only ever called after a lookup returned it (or it is the root). The reachability, counting, root and dropping parts hold under explicit conditions; two concrete executions show where the code departs: a FORGET with nlookup > 1 leaves the node in place although its count is used up, and one FORGET of the root removes it. C69 describes exactly which node answers at which time."
  },
  {
   "property": "C45",
   "status": "partial",
   "theorems": [
    "Fuse.C45_usable_partial",
    "Fuse.C45_same_partial",
    "Fuse.C45_violated",
    "Fuse.C45_violated_readdirplus"
   ],
   "note": "Nodes announced by LOOKUP are usable once the looking-up thread has finished, and later lookups keep the first object. Violations with concrete executions: the reply is sent before the node is registered, so a client reacting quickly gets EINVAL; READDIRPLUS announces node IDs that are never registered."
  },
  {
   "property": "C46",
   "status": "partial",
   "theorems": [
    "Fuse.C46_unsupported",
    "Fuse.C46_malformed",
    "Fuse.C46_bounded",
    "Fuse.C46_answered_partial",
    "Fuse.C46_violated",
    "Fuse.C46_violated_oversized",
    "Fuse.C46_exact",
    "Fuse.C46_ruin"
   ],
   "note": "Unsupported opcodes and malformed requests cause no message and no call; every thread finishes within five steps; a finished thread with a well-formed request has sent exactly one message with the request's ID. Violated for results of 2^32 - 16 bytes or more: no message is ever sent, the caller gets an error (C46_violated, C46_violated_oversized). C46_exact classifies what becomes of every accepted message: unknown opcode, not survived (exactly the messages of C04_exact; C46_ruin is the converse), malformed, silent, answered once, not taken by the socket, or a result too big for a message. Not covered: lookup methods returning node number 0 (excluded by the library's types), executions of about 2^64 steps."
  },
  {
   "property": "C47",
   "status": "partial",
   "theorems": [
    "Fuse.C47_readdir_partial",
    "Fuse.C47_readdirplus_partial",
    "Fuse.C47_prefix_partial",
    "Fuse.C47_prefix_plus_partial",
    "Fuse.C47_page_partial",
    "Fuse.C47_page_plus_partial",
    "Fuse.C47_violated_misaligned"
   ],
   "note": "Proved for all directories and buffer sizes, provided the buffers are allocated at multiples of eight; otherwise the first page is undefined behaviour (C47_violated_misaligned). The prefix theorems cover buffers too small for an entry: the listing then ends silently before that entry."
  },
  {
   "property": "C48",
   "status": "proved",
   "theorems": [
    "Fuse.C48_replies",
    "Fuse.C48_map",
    "Fuse.C48_map_uninit",
    "Fuse.C48_new"
   ],
   "note": "SendBuf built by every reply holds initialised chunks summing to its length; the chunk mapping functions visit exactly those."
  },
  {
   "property": "C49",
   "status": "proved",
   "theorems": [
    "Fuse.C49_accepts",
    "Fuse.C49_rejects",
    "Fuse.C49_init_reply"
   ],
   "note": "Device name validation and the DEVNAME= reply."
  },
  {
   "property": "C50",
   "status": "partial",
   "theorems": [
    "Fuse.C50_cuse_ignores_node_id_partial",
    "Fuse.C50_violated",
    "Fuse.C50_exact"
   ],
   "note": "POLL requires a node ID; C50_exact: and never decodes without one"
  },
  {
   "property": "C51",
   "status": "proved",
   "theorems": [
    "Fuse.C51_read",
    "Fuse.C51_reads",
    "Fuse.C51_array",
    "Fuse.C51_position",
    "Fuse.C51_records",
    "Fuse.C51_reader",
    "Fuse.C51_bytes"
   ],
   "note": "IoctlInputReader."
  },
  {
   "property": "C52",
   "status": "proved",
   "theorems": [
    "Fuse.C52_fuse",
    "Fuse.C52_cuse"
   ],
   "note": "Added property."
  },
  {
   "property": "C53",
   "status": "proved",
   "theorems": [
    "Fuse.C53_linux",
    "Fuse.C53_libc",
    "Fuse.C53_old_kernel",
    "Fuse.C53_statx",
    "Fuse.C53_structs"
   ],
   "note": "For every system, in terms of a log of the calls that took effect; Kernel.parse is the independent model of the kernel's option parser also used for C38."
  },
  {
   "property": "C54",
   "status": "proved",
   "theorems": [
    "Fuse.C54",
    "Fuse.C54_options"
   ],
   "note": "For every system; Bsd.options is an independent model of how the FreeBSD kernel reads nmount options. The numeric values of open flags are those of Linux and do not occur in the statement."
  },
  {
   "property": "C55",
   "status": "proved",
   "theorems": [
    "Fuse.C55_reports",
    "Fuse.C55_single"
   ],
   "note": "Stated on observations: results returned by implementation methods and messages given to the socket."
  },
  {
   "property": "C56",
   "status": "proved",
   "theorems": [
    "Fuse.C56_arguments",
    "Fuse.C56_once",
    "Fuse.C56_object",
    "Fuse.C56_asked"
   ],
   "note": "Stated on observations: calls of the implementation's methods with their arguments. Which objects the maps hold is covered by C42 and C45."
  },
  {
   "property": "C57",
   "status": "partial",
   "theorems": [
    "Fuse.C57_answer_partial",
    "Fuse.C57_session_partial",
    "Fuse.C57_mount",
    "Fuse.C57_violated_read",
    "Fuse.C57_violated_readdir",
    "Fuse.C57_exact",
    "Fuse.C57_session_exact",
    "Fuse.C57_session_enough",
    "Fuse.C57_violated_session",
    "Fuse.C57_mount_freebsd",
    "Fuse.C57_mount_nul"
   ],
   "note": "C57_exact determines what the program does with every message the server accepts, C57_session_exact what a session with any messages leads to under every schedule; C57_session_enough gives the sessions in which everything is answered, and C57_violated_session stops a program of n threads with n READDIRs. Missing, because the program does otherwise: READ returns the whole file whatever the offset and size (C57_violated_read); READDIR with a size below 40 panics (C57_violated_readdir), as do malformed messages of the seven decoded operations (C57_exact) and failing sends. The listing needs the memory allocated by vec![0u8; n] to be 8-aligned."
  },
  {
   "property": "C58",
   "status": "proved",
   "theorems": [
    "Fuse.C58_statfs",
    "Fuse.C58_create",
    "Fuse.C58_header",
    "Fuse.C58_notifications",
    "Fuse.C58_xattr_size"
   ],
   "note": "Every sequence of setter calls on the five kinds of records; the other records (attributes, entries, flags, init responses, locks) are in C19, C22, C33 and C35."
  },
  {
   "property": "C59",
   "status": "partial",
   "theorems": [
    "Fuse.C59_bytes",
    "Fuse.C59_printable",
    "Fuse.C59_hex",
    "Fuse.C59_mode",
    "Fuse.C59_time_partial",
    "Fuse.C59_violated_time",
    "Fuse.C59_radix"
   ],
   "note": "Byte strings, hexadecimal numbers and modes in full, node IDs and modes with {:b}, {:x} and {:X} too. Times from the epoch on and whole seconds; a time before the epoch with a fraction is printed as another time (C59_violated_time)."
  },
  {
   "property": "C60",
   "status": "proved",
   "theorems": [
    "Fuse.C60_entries",
    "Fuse.C60_injective"
   ],
   "note": "All 17 flag types, every set, including sets with bits the library does not name."
  },
  {
   "property": "C61",
   "status": "partial",
   "theorems": [
    "Fuse.C61_new",
    "Fuse.C61_truncate",
    "Fuse.C61_heap",
    "Fuse.C61_no_leak",
    "Fuse.C61_separate",
    "Fuse.C61_capacity",
    "Fuse.C61_connection",
    "Fuse.C61_violated_uninit"
   ],
   "note": "Alignment, size, disjointness and freeing are proved for every sequence of allocations by the library and by others, with any conforming allocator. That slices show initialised memory only fails for every fresh AlignedBuf (C61_violated_uninit); C62 shows that the server's behaviour does not depend on these bytes."
  },
  {
   "property": "C62",
   "status": "proved",
   "theorems": [
    "Fuse.C62_recv",
    "Fuse.C62_serve",
    "Fuse.C62_connect",
    "Fuse.C62_pool",
    "Fuse.C62_device"
   ],
   "note": "For every socket that writes into the buffer without looking at it; the device sockets are of this kind (C62_device)."
  },
  {
   "property": "C63",
   "status": "proved",
   "theorems": [
    "Fuse.C63_connect",
    "Fuse.C63_threads",
    "Fuse.C63_linux",
    "Fuse.C63_libc",
    "Fuse.C63_cuse_connect",
    "Fuse.C63_cuse_threads",
    "Fuse.C63_cuse_linux",
    "Fuse.C63_cuse_libc"
   ],
   "note": "For every system whose read and writev act as those of a FUSE device with finitely many interruptions, every interleaving of the threads' reads and any number of threads. Handling a request, with its one write and that write's retries, is one step. The client sends what C57 covers. Sockets as assumed exist (linux_socket, libc_socket). For CUSE the session consists of any INITs of another major version, one of version 7 and acceptable requests that the handlers answer."
  },
  {
   "property": "C64",
   "status": "proved",
   "theorems": [
    "Fuse.C64_new",
    "Fuse.C64_as_str",
    "Fuse.C64_round_trip",
    "Fuse.C64_eq",
    "Fuse.C64_order",
    "Fuse.C64_order_chars",
    "Fuse.C64_device",
    "Fuse.C64_device_order"
   ],
   "note": "core::str::from_utf8 and str::as_bytes are written out after their documentation and proved inverse to each other."
  },
  {
   "property": "C65",
   "status": "partial",
   "theorems": [
    "Fuse.C65_lock_partial",
    "Fuse.C65_violated_sparc64",
    "Fuse.C65_mode_debug",
    "Fuse.C65_clone_partial",
    "Fuse.C65_violated_clone"
   ],
   "note": "Holds on every platform but 64-bit sparc (lock numbers) and release 6 of MIPS (clone command), where target_arch has a value the library does not list; C65_violated_sparc64 and C65_violated_clone say what happens there. The kernel's numbers are transcribed from its headers."
  },
  {
   "property": "C66",
   "status": "partial",
   "theorems": [
    "Fuse.C66_atomic",
    "Fuse.C66_released",
    "Fuse.C66_user_code_partial",
    "Fuse.C66_independent_partial",
    "Fuse.C66_no_deadlock",
    "Fuse.C66_panic_partial",
    "Fuse.C66_blocked",
    "Fuse.C66_poisoned",
    "Fuse.C66_violated_release",
    "Fuse.C66_violated_poison",
    "Fuse.C66_drop_locked",
    "Fuse.C66_violated_drop",
    "Fuse.C66_violated_drop_panic"
   ],
   "note": "Atomicity and the absence of deadlocks hold without restriction. That user code of one request neither holds up nor breaks others fails for the release and releasedir methods, which are called with the handle map's lock held: C66_violated_release and C66_violated_poison; it holds for all other methods (the _partial theorems). Destructors of nodes run with the node map's lock held too: C66_drop_locked, C66_violated_drop, C66_violated_drop_panic (FORGET requests; the _partial theorems are about the user's methods, not destructors)."
  },
  {
   "property": "C67",
   "status": "partial",
   "theorems": [
    "Fuse.C67_decodes_partial",
    "Fuse.C67_only_partial",
    "Fuse.C67_exact",
    "Fuse.C67_unambiguous",
    "Fuse.C67_violated"
   ],
   "note": "Fails for the two empty strings of C10 and for an old WRITE in a short buffer (C13); C67_exact describes what decodes, including these. The message forms are those of the library's records; two that differ in old versions of the protocol are the subject of C11_violated_lk and C12_violated_create."
  },
  {
   "property": "C68",
   "status": "partial",
   "theorems": [
    "Fuse.C68_exact",
    "Fuse.C68_violated"
   ],
   "note": "Holds for the lower 32 flags. A flag of the upper half is enabled only together with FUSE_INIT_EXT, which the library leaves to the caller (C68_violated). That clients ignore the upper half without FUSE_INIT_EXT is not stated in the repository beyond kernel.rs:374, 412; it is what Linux does."
  },
  {
   "property": "C69",
   "status": "proved",
   "theorems": [
    "Fuse.C69_linearizable",
    "Fuse.C69_linearizable_locks"
   ],
   "note": "The plain tables follow the code in what a FORGET item does (one lookup less, whatever count the item carries; the root is dropped too); that this is not what the protocol asks for is the subject of C44. C69_linearizable_locks is the same for executions in which locks are taken and given back one by one."
  },
  {
   "property": "C70",
   "status": "proved",
   "theorems": [
    "Fuse.C70_returns",
    "Fuse.C70_injective",
    "Fuse.C70_log",
    "Fuse.C70_message_returns",
    "Fuse.C70_message",
    "Fuse.C70_labels",
    "Fuse.C70_names",
    "Fuse.C70_pretty",
    "Fuse.C70_message_pretty"
   ],
   "note": "Both forms, {:?} and {:#?}, of all 41 decoded request types and of undecoded requests. Undecoded requests that declare fewer than 40 bytes are the exception the claim names (their text panics, see C03). The texts of responses are not modelled."
  },
  {
   "property": "C71",
   "status": "partial",
   "theorems": [
    "Fuse.C71_partial",
    "Fuse.C71_listing_partial",
    "Fuse.C71_vfs_lookup",
    "Fuse.C71_violated",
    "Fuse.C71_iff"
   ],
   "note": "Violated by the code: Entry::new copies the node ID out of the attributes, but attributes_mut() hands out the whole NodeAttr, so assigning other attributes leaves the copied ID behind (C71_violated). Proved for every entry that is never given the attributes of another node; C71_iff says exactly which entries are affected."
  },
  {
   "property": "C72",
   "status": "partial",
   "theorems": [
    "Fuse.C72_partial",
    "Fuse.C72_pretty_partial",
    "Fuse.C72_returns",
    "Fuse.C72_duration",
    "Fuse.C72_violated_version",
    "Fuse.C72_violated_entry",
    "Fuse.C72_duration_unit",
    "Fuse.C72_labels"
   ],
   "note": "Violated by the code in two places: FuseInitResponse leaves out the version (C72_violated_version), and Entry leaves out its own node ID, which differs from the printed one after assigning the attributes of another node (C72_violated_entry). Proved for all other values of all types, in both forms of the text; C72_returns: formatting never faults; C72_labels: each accessor is shown behind its name; C72_duration: what a printed timeout means."
  },
  {
   "property": "C73",
   "status": "partial",
   "theorems": [
    "Fuse.C73_partial",
    "Fuse.C73_error",
    "Fuse.C73_violated"
   ],
   "note": "Violated by the code relative to the documented contract of statx: get_root_mode asks for STATX_MODE (permissions) but not for STATX_TYPE, so a kernel may leave the file type out, and the mount is then made with a root mode that is not a directory's (C73_violated). Proved: the permissions are always right, and the whole mode is if the kernel stores the type unasked, as Linux does for its own filesystems. An error of statx is returned, with nothing else done."
  },
  {
   "property": "C74",
   "status": "partial",
   "theorems": [
    "Fuse.C74_partial",
    "Fuse.C74_violated_always",
    "Fuse.C74_violated"
   ],
   "note": "Violated by the code for LISTXATTR with size 0: Node::listxattr answers ListxattrResult::names(b\"\") where the client, asking how much room it needs, expects a fuse_getxattr_out of 8 bytes; C74_violated_always: in every execution, for every node with the default method. Proved for all other requests about objects that leave out the method or are not of the kind the request needs."
  },
  {
   "property": "C75",
   "status": "proved",
   "theorems": [
    "Fuse.C75",
    "Fuse.C75_read_back",
    "Fuse.C75_whole_directory"
   ],
   "note": "One message at a time (C69 and the linearizability results cover several threads); protocol minor versions from 9 on, because WRITE of older clients is not decoded reliably (C11, finding on old writes) and their shorter entries need another client; fewer than 2^64 - 1 messages, because lookup counts and handle numbers overflow beyond; listing buffers allocated at multiples of eight, because otherwise the first page is undefined behaviour (C47). All operations fuse-vfs dispatches occur except READDIRPLUS, whose entries it does not register (C45)."
  },
  {
   "property": "C76",
   "status": "proved",
   "theorems": [
    "Fuse.C76"
   ],
   "note": "One thread. The client leaves when it has finished, and the socket then reports the connection closed. Requests the client makes fit into the buffer the connection asks for (names up to 8151 bytes, data up to the announced write limit); an example shows a server with a smaller buffer failing. Minor versions from 9 on and fewer than 2^64 - 1 messages, as for C75."
  },
  {
   "property": "C77",
   "status": "proved",
   "theorems": [
    "Fuse.C77",
    "Fuse.C77_mount"
   ],
   "note": "The server handles one message after the other; handlers that run concurrently are the subject of C66 and C69. The client does not forget a node to which an unfinished call has got, as kernels do not. Otherwise with the conditions of C75 and C76."
  },
  {
   "property": "C78",
   "status": "proved",
   "theorems": [
    "Fuse.C78",
    "Fuse.C78_mount"
   ],
   "note": "Requests that are not about an operation (INIT, DESTROY, SYNCFS) and notifications are left out. PollRequest has no accessor for the file handle, so POLL has no handle here. The protocol has at least minor version 12; the program only asks what the protocol can express, and the filesystem answers with the kind of answer that was asked for, within the size the client gave. The buffer for listings is aligned to 8 bytes."
  },
  {
   "property": "C79",
   "status": "proved",
   "theorems": [
    "Fuse.C79",
    "Fuse.C79_progress",
    "Fuse.C79_ends",
    "Fuse.C79_order",
    "Fuse.C79_single"
   ],
   "note": "A handler takes one step of the model; its reply may be taken any time later, so handlers that reply late are covered, while handlers that share state without a lock are not. The socket delivers requests in any order and closes only when all programs have ended. The limits of C78 apply."
  },
  {
   "property": "C80",
   "status": "partial",
   "theorems": [
    "Fuse.C80_partial",
    "Fuse.C80_session_partial",
    "Fuse.C80_violated",
    "Fuse.C87_device_partial",
    "Fuse.C80_exact",
    "Fuse.C80_live",
    "Fuse.C80_session_exact",
    "Fuse.C87_device_exact"
   ],
   "note": "Full statement in view as `DevicesServed`. It fails for POLL requests with node ID 0, which Linux sends (finding 7), so `C80_partial` leaves those out; nothing else is missing. Protocol versions below 7.9 are left out. `cuse_serve_local` reports the end of the connection as an error (finding 10), and the theorems say so. The reply to POLL is put together by hand and sent with ok_buf, as the library has no type for it. C80_exact has no such restriction: it says what programs hear, and what becomes of the device, up to the first such POLL and from then on; C80_live says that this is the same as using the device directly if there is none. C80_session_exact and C87_device_exact say it with the handshake, and system call by system call."
  },
  {
   "property": "C81",
   "status": "proved",
   "theorems": [
    "Fuse.C81",
    "Fuse.C81_mount",
    "Fuse.C81_news",
    "Fuse.C87_news"
   ],
   "note": "The statement limits messages to 4 GiB, where C36 and C17 find their limits. Protocol versions from 7.12, like C78. The clients read what they hear between requests; messages that arrive out of turn are covered by C81_news, which is about any order of replies and notifications. C87_news says it on a device, system call by system call, for announcements of less than 4 GiB each."
  },
  {
   "property": "C82",
   "status": "partial",
   "theorems": [
    "Fuse.C82_partial",
    "Fuse.C82_mount_partial",
    "Fuse.C82_violated",
    "Fuse.C82_exact",
    "Fuse.C82_exact_write",
    "Fuse.C82_mount_exact",
    "Fuse.C87_old_exact"
   ],
   "note": "Full statement: Fuse.OldClientsServed. It is false: the mode in CREATE requests before 7.12 does not reach the filesystem (finding 26), and WRITE requests of less than 16 bytes before 7.9 are not decoded (finding 4). C82_partial and C82_mount_partial are about all programs without these two. C82_exact says what becomes of all others: the program and the filesystem end as if CREATE had no mode before 7.12, and (C82_exact_write) a WRITE of less than 16 bytes before 7.9 ends the handler without an answer. The statement is about what the version can express: locks before 7.9, where the request has another form that the library refuses (C11_violated_lk), are left out of it, and so are versions before 7.7, where FLUSH and SETATTR have other forms. C82_mount_exact and C87_old_exact say what C82_exact says through a whole mount, and system call by system call."
  },
  {
   "property": "C83",
   "status": "partial",
   "theorems": [
    "Fuse.C83_fuse",
    "Fuse.C83_fuse_partial",
    "Fuse.C83_device_partial",
    "Fuse.C83_fuse_violated",
    "Fuse.C83_device_violated",
    "Fuse.C88_fuse_partial",
    "Fuse.C88_device_partial",
    "Fuse.C83_fuse_exact",
    "Fuse.C88_fuse_exact",
    "Fuse.C83_device_ruin",
    "Fuse.C83_fuse_ruin",
    "Fuse.C83_device_until",
    "Fuse.C83_fuse_until",
    "Fuse.C83_hangs",
    "Fuse.C83_device_ends",
    "Fuse.C83_fuse_ends",
    "Fuse.C83_deadlock",
    "Fuse.C83_device_stops",
    "Fuse.C83_fuse_stops"
   ],
   "note": "Full statements: Fuse.Many.FilesystemsAtomic and Fuse.Many.DevicesAtomic. C83_fuse is the first in full from version 7.12 on. Before that it is false: a mode in CREATE is lost (finding 26) and WRITE of less than 16 bytes before 7.9 is not decoded (finding 4); C83_fuse_partial is about all programs without these two, and C83_fuse_exact about all without such a WRITE: operations are atomic, with 0 for the mode in CREATE before 7.12. The second is false: POLL, which Linux sends with node ID 0 to a character device, does not reach the handler (finding 7); C83_device_partial is about all programs that do not. The requests left out lose what is served (C83_device_ruin, C83_fuse_ruin): nothing is sent from then on, and who waits for a reply that is not there waits forever, and no thread returns before that program has ended (C83_hangs). There is still no infinite execution (C83_device_ends, C83_fuse_ends), so that it comes to a state in which nothing can happen any more and serving has not returned (C83_deadlock). Nothing else keeps programs from ending and serving from returning: when nothing can happen any more, all programs have ended and all threads have returned, or what is served has been lost and a program waits in vain (C83_device_stops, C83_fuse_stops). C83_device_until and C83_fuse_until have no exception: whatever programs do, what is seen before and after the loss could be seen with direct use, operations just not taking place any more, and the requests left out never do. A handler takes one step of the model, so handlers that share state without a lock are not covered; notifications are sent while handling a request."
  },
  {
   "property": "C84",
   "status": "partial",
   "theorems": [
    "Fuse.C84_partial",
    "Fuse.C84_mount_partial",
    "Fuse.C84_asked",
    "Fuse.C84_violated",
    "Fuse.C87_confined_partial",
    "Fuse.C84_exact",
    "Fuse.C84_made",
    "Fuse.C84_mount_exact",
    "Fuse.C87_confined_exact"
   ],
   "note": "Full statement: Fuse.Spec.ClientsConfined fun _ _ => True. It is false: a BATCH_FORGET that claims 2^28 items or more makes the decoder panic, or read out of bounds (see C04), and a SETXATTR with an empty name is decoded, with the empty name and a wrong value (see C67). C84_partial is about all conversations without these two kinds of message, with no other restriction on the bytes sent; C84_violated shows that neither of the two can be allowed. The handlers are those of a server that answers a request it cannot decode with an error, which is left to the server by the library. Clients of version 7.12 or newer; before that see C13 for WRITE. C84_exact is about all conversations: what is made of a SETXATTR with an empty name is Fuse.Spec.nameless, and exactly the messages that are Fuse.Spec.Ruinous take the filesystem with them. C84_made says that nothing else differs from what is asked for. C84_mount_exact and C87_confined_exact say what C84_exact says through a whole mount, and system call by system call."
  },
  {
   "property": "C85",
   "status": "proved",
   "theorems": [
    "Fuse.C85",
    "Fuse.C85_session",
    "Fuse.C85_asked"
   ],
   "note": "The handlers are those of a server that answers a request it cannot decode with an error, which is left to the server by the library. Clients of version 7.9 or newer; before that see C13 for WRITE. A POLL with node ID 0 counts as a message that asks for nothing, as the decoder has it; that this is wrong is finding 7, and what C80_violated is about."
  },
  {
   "property": "C86",
   "status": "partial",
   "theorems": [
    "Fuse.C86_partial",
    "Fuse.C86_device",
    "Fuse.C86_violated",
    "Fuse.C88_confined_partial",
    "Fuse.C86_exact",
    "Fuse.C86_ruin",
    "Fuse.C88_confined_exact",
    "Fuse.C86_silenced",
    "Fuse.C86_until",
    "Fuse.C86_ends",
    "Fuse.C86_stops"
   ],
   "note": "Full statement for filesystems: Fuse.Many.ThreadsConfine fun _ _ => True; false for the two kinds of message in C84 (BATCH_FORGET that claims 2^28 items or more, SETXATTR with an empty name), and C86_violated shows that neither can be allowed. C86_partial is about all others; for devices C86_device has no exception. Messages that are not accepted at all (see C02) are left out here: what they do to the threads is C26. Programs do not choose the numbers of their messages; they are given when a message is sent, as the kernel does. A POLL with node ID 0 to a device counts as asking for nothing (finding 7). C86_exact, and C88_confined_exact on a device, are about all accepted messages but those that are Ruinous, with SETXATTR with an empty name taken for what is made of it; C86_ruin says that a Ruinous one leaves nothing to serve, C86_silenced that nothing is sent from then on, and C86_until, about any accepted messages without exception, that what is seen before and after could be seen with direct use, things just not taking place any more. There is no infinite execution in any case (C86_ends). Nothing but the loss keeps programs from ending and serving from returning (C86_stops). What other threads make of a handler that has panicked is outside (the lock they share, if any, is the server's own)."
  },
  {
   "property": "C87",
   "status": "proved",
   "theorems": [
    "Fuse.C87_serve",
    "Fuse.C87_cuse_serve",
    "Fuse.C87_connect",
    "Fuse.C87_cuse_connect",
    "Fuse.C87_mount",
    "Fuse.C87_device_confined",
    "Fuse.linux_talk_socket",
    "Fuse.libc_talk_socket"
   ],
   "note": "One thread. The device reads ENODEV once the client has finished and EINVAL if the buffer is too short for the client's next message, which stays (the Linux kernel refuses such requests on its own, without telling the server); it takes whole messages, and refuses none. Outcomes are the same but for what an error of the socket consists of; on a CUSE device the end of the connection is not told from other errors (finding 10). Handlers that send notifications on their own are in C87_news, listed with C81, clients before 7.12 in C87_old_exact, listed with C82. What C84 and C80 say, restricted as there, is C87_confined_partial and C87_device_partial, which are listed with them, and, without restrictions, C87_confined_exact and C87_device_exact. linux_talk_socket and libc_talk_socket show that there are such sockets."
  },
  {
   "property": "C88",
   "status": "proved",
   "theorems": [
    "Fuse.C88_threads",
    "Fuse.C88_cuse_threads",
    "Fuse.C88_fuse",
    "Fuse.C88_device_confined",
    "Fuse.C88_device_until",
    "Fuse.C88_fuse_until",
    "Fuse.C88_confined_until",
    "Fuse.C88_hangs",
    "Fuse.C88_device_ends",
    "Fuse.C88_fuse_ends",
    "Fuse.C88_confined_ends",
    "Fuse.C88_deadlock",
    "Fuse.C88_device_stops",
    "Fuse.C88_fuse_stops",
    "Fuse.C88_confined_stops"
   ],
   "note": "A thread's step is one system call of receiving or one handler with all its sends; between two attempts to receive, other threads and programs make theirs. A handler's writes, including those that are interrupted, are not interleaved with other threads' steps. That a read waits while there is no request and programs are running is a condition of Mounted.Step, as in Threaded.Step. When a program makes a request or takes a reply the device may have any finite number of interruptions to come. C88_fuse asks that no announcement is 4 GiB or more (see C36). What C83 and C86 say, restricted as there, is C88_fuse_partial, C88_device_partial and C88_confined_partial, which are listed with them; what they say without exception is C88_fuse_until, C88_device_until and C88_confined_until. The errors that threads of serve_cuse report at the end are those that ENODEV is for the socket (farewellOn). C88_hangs is C83_hangs on devices. There is no infinite execution in any case (C88_device_ends, C88_fuse_ends, C88_confined_ends), so that it comes to a state in which nothing can happen any more (C88_deadlock). Nothing but the loss can be the reason for that before all have ended (C88_device_stops, C88_fuse_stops, C88_confined_stops)."
  },
  {
   "property": "C89",
   "status": "proved",
   "theorems": [
    "Fuse.C89_serve",
    "Fuse.C89_mount",
    "Fuse.C89_share"
   ],
   "note": "C89_serve is for any user code whose state is its own (it cannot reach the socket) and for any client, also one that never stops or sends anything; C89_mount and C89_share are for the trees of directories of C75. fuse-vfs has no serving loop: the loop is that of C76, FuseConnection::recv then Filesystem::dispatch. Conditions on the device are those of C87 (LineDevice): finitely many interruptions, writes are never partial."
  },
  {
   "property": "C90",
   "status": "proved",
   "theorems": [
    "Fuse.C90_confined",
    "Fuse.C90_mount",
    "Fuse.C90_device",
    "Fuse.C90_tree",
    "Fuse.C90_threads",
    "Fuse.C90_threads_tree"
   ],
   "note": "For user code whose state is its own (it cannot reach the socket), served on one thread; C90_threads is for any number of threads with a step of each taken at a time as in C66 (a method of the user is one step; panics of the user's code are left out). The client is any strategy with fewer than 2^61 messages (beyond that the counters of the node and handle tables, 64 bits, may run out). The condition on the user's code, Confines, is only that its own methods keep its invariant on objects that it has handed out itself; that lookup never gives the node number 0, which the library's types exclude, is part of it. The claim includes that a message which cannot be decoded ends the serving loop: Filesystem::dispatch returns the error, and the loop is that of C76; what happens afterwards is up to the caller."
  },
  {
   "property": "C91",
   "status": "proved",
   "theorems": [
    "Fuse.C91_never_returns",
    "Fuse.C91_any",
    "Fuse.C91_runs_end",
    "Fuse.C91_exact",
    "Fuse.C91_goes_on",
    "Fuse.C91_any_cuse",
    "Fuse.C91_runs_end_cuse",
    "Fuse.C91_exact_cuse"
   ],
   "note": "Panics unwind (with panic=abort the first one ends the program). A handler is atomic here, as in C26; it may do anything to its part of the world before it panics. C91_never_returns is about any connection; the others are about serve_fuse and serve_cuse on a finite stream of messages followed by the closing of the connection. The claim is the exact behaviour; that serve_fuse and serve_cuse panic in the end and lose the errors is not documented (finding 34)."
  }
 ]
}
