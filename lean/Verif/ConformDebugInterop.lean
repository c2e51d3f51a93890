import Verif.ConformDebug

/-!
# The texts expected by the interop tests, run on the model

The interop tests mount a file system, make system calls, and compare the `{:#?}` of the requests that arrive.  The
messages are those a kernel sends for these system calls; the values that the tests replace by a fixed text because they
vary from run to run (lock owners, poll handles, ioctl arguments, process IDs) are chosen here.
-/

namespace Fuse.Conform

-- fuse/operations/bmap/bmap_interop_test.rs:199-203
example : shows decodeBmap (fun r => r.debug)
    (msg FUSE_BMAP 2 (enc ({ block := 1234, blocksize := 512 } : FuseBmapIn)))
    "BmapRequest {\n    node_id: 2,\n    block: 1234,\n    block_size: 512,\n}" := by decide +kernel

-- fuse/operations/create/create_interop_test.rs
example : shows (decodeCreate (layout 36)) (fun r => r.debug)
    (msg FUSE_CREATE 1 (enc ({ flags := 0x8042, mode := 0o100644, umask := 0o022 } : FuseCreateIn) ++ cstr "create.txt"))
    ("CreateRequest {\n    node_id: 1,\n    name: \"create.txt\",\n    flags: CreateRequestFlags {},\n" ++
      "    open_flags: 0x00008042,\n    mode: 0o100644,\n    umask: 18,\n}") := by decide +kernel

-- fuse/operations/cuse_init/cuse_init_interop_test.rs
example : shows (decodeOpen true) (fun r => r.debug)
    (msg FUSE_OPEN 0 (enc ({ flags := 0x8002 } : FuseOpenIn)))
    ("OpenRequest {\n    node_id: 1,\n    flags: OpenRequestFlags {},\n    open_flags: 0x00008002,\n}") := by
  decide +kernel

-- fuse/operations/cuse_init/cuse_init_interop_test.rs
example : shows (decodeRead 31 true) (fun r => r.debug)
    (msg FUSE_READ 0 (enc ({ fh := 12345, size := 15, read_flags := 2, lock_owner := 34, flags := 0x8002 } : FuseReadIn)))
    ("ReadRequest {\n    node_id: 1,\n    size: 15,\n    offset: 0,\n    handle: 12345,\n" ++
      "    lock_owner: Some(0x0000000000000022),\n    open_flags: 0x00008002,\n}") := by decide +kernel

-- fuse/operations/cuse_init/cuse_init_interop_test.rs
example : shows (decodeRelease 31 true) (fun r => r.debug)
    (msg FUSE_RELEASE 0 (enc ({ fh := 12345, flags := 0x8002 } : FuseReleaseIn)))
    ("ReleaseRequest {\n    node_id: 1,\n    handle: 12345,\n    lock_owner: None,\n    open_flags: 0x00008002,\n}") := by
  decide +kernel

-- fuse/operations/cuse_init/cuse_init_interop_test.rs
example : shows (decodeWrite 31 true) (fun r => r.debug)
    (msg FUSE_WRITE 0
      (enc ({ fh := 12345, size := 16, write_flags := 2, lock_owner := 34, flags := 0x8002 } : FuseWriteIn) ++
        str "new_file_content"))
    ("WriteRequest {\n    node_id: 1,\n    offset: 0,\n    handle: 12345,\n    value: \"new_file_content\",\n" ++
      "    flags: WriteRequestFlags {\n        WRITE_LOCKOWNER,\n    },\n" ++
      "    lock_owner: Some(0x0000000000000022),\n    open_flags: 0x00008002,\n}") := by decide +kernel

-- fuse/operations/fsync/fsync_interop_test.rs
example : shows (decodeFsync false) (fun r => r.debug)
    (msg FUSE_FSYNC 2 (enc ({ fh := 12345, fsync_flags := 1 } : FuseFsyncIn)))
    ("FsyncRequest {\n    node_id: 2,\n    handle: 12345,\n    flags: FsyncRequestFlags {\n        FDATASYNC,\n    },\n}") := by
  decide +kernel

-- fuse/operations/fsyncdir/fsyncdir_interop_test.rs
example : shows decodeFsyncdir (fun r => r.debug)
    (msg FUSE_FSYNCDIR 2 (enc ({ fh := 12345, fsync_flags := 1 } : FuseFsyncIn)))
    ("FsyncdirRequest {\n    node_id: 2,\n    handle: 12345,\n    flags: FsyncdirRequestFlags {\n" ++
      "        FDATASYNC,\n    },\n}") := by decide +kernel

-- fuse/operations/getlk/getlk_interop_test.rs
example : shows decodeGetlk (fun r => r.debug (.linux .x86_64))
    (msg FUSE_GETLK 2 (enc ({ fh := 1002, owner := 34, lk := { start := 100, end_ := 149, type_ := 0 } } : FuseLkIn)))
    ("GetlkRequest {\n    node_id: 2,\n    handle: 1002,\n    owner: 0x0000000000000022,\n    lock_mode: F_RDLCK,\n" ++
      "    lock_range: LockRange {\n        start: 100,\n        length: Some(50),\n    },\n}") := by decide +kernel

-- fuse/operations/ioctl/ioctl_cuse_interop_test.rs:183-195
example : shows (decodeIoctl true) (fun r => r.debug)
    (msg FUSE_IOCTL 0 (enc ({ fh := 1002, flags := 2, cmd := 0x5413, arg := 34 } : FuseIoctlIn)))
    ("IoctlRequest {\n    node_id: 1,\n    handle: 1002,\n    command: 0x00005413,\n    arg: 0x0000000000000022,\n" ++
      "    output_len: 0,\n    flags: IoctlRequestFlags {\n        IOCTL_UNRESTRICTED,\n    },\n    input: [],\n}") := by
  decide +kernel

-- fuse/operations/ioctl/ioctl_cuse_interop_test.rs:147-160, 269-282
example : shows (decodeIoctl true) (fun r => r.debug)
    (msg FUSE_IOCTL 0 (enc ({ fh := 1002, flags := 2, cmd := 0x5414, arg := 34, in_size := 2 } : FuseIoctlIn) ++ [7, 8]))
    ("IoctlRequest {\n    node_id: 1,\n    handle: 1002,\n    command: 0x00005414,\n    arg: 0x0000000000000022,\n" ++
      "    output_len: 0,\n    flags: IoctlRequestFlags {\n        IOCTL_UNRESTRICTED,\n    },\n" ++
      "    input: [\n        7,\n        8,\n    ],\n}") := by decide +kernel

-- fuse/operations/lseek/lseek_interop_test.rs
example : shows decodeLseek (fun r => r.debug)
    (msg FUSE_LSEEK 2 (enc ({ fh := 12345, offset := 1024, whence := 4 } : FuseLseekIn)))
    ("LseekRequest {\n    node_id: 2,\n    handle: 12345,\n    offset: 1024,\n    whence: SEEK_HOLE,\n}") := by
  decide +kernel

-- fuse/operations/poll/poll_interop_test.rs:180-190
example : shows decodePoll (fun r => r.debug)
    (msg FUSE_POLL 2 (enc ({ fh := 1, kh := 34, flags := 1, events := 0xC3 } : FusePollIn)))
    ("PollRequest {\n    node_id: 2,\n    poll_handle: 34,\n    poll_events: 0x000000C3,\n" ++
      "    flags: PollRequestFlags {\n        SCHEDULE_NOTIFY,\n    },\n}") := by decide +kernel

-- fuse/operations/readlink/readlink_interop_test.rs
example : shows decodeReadlink (fun r => r.debug) (msg FUSE_READLINK 2 [])
    "ReadlinkRequest {\n    node_id: 2,\n}" := by decide +kernel

-- fuse/operations/setattr/setattr_interop_test.rs
example : shows decodeSetattr (fun r => r.debug)
    (msg FUSE_SETATTR 2 (enc ({ valid := 6, uid := 123, gid := 456 } : FuseSetattrIn)))
    ("SetattrRequest {\n    node_id: 2,\n    handle: None,\n    size: None,\n    lock_owner: None,\n    atime: None,\n" ++
      "    atime_now: false,\n    mtime: None,\n    mtime_now: false,\n    ctime: None,\n    mode: None,\n" ++
      "    user_id: Some(123),\n    group_id: Some(456),\n}") := by decide +kernel

-- fuse/operations/setlk/setlk_interop_test.rs
example : shows decodeSetlk (fun r => r.debug (.linux .x86_64))
    (msg FUSE_SETLK 2
      (enc ({ fh := 12345, owner := 34, lk := { start := 100, end_ := 149, type_ := 0, pid := 77 } } : FuseLkIn)))
    ("SetlkRequest {\n    node_id: 2,\n    handle: 12345,\n    may_block: false,\n    owner: 0x0000000000000022,\n" ++
      "    lock: Lock {\n        mode: F_RDLCK,\n        range: LockRange {\n            start: 100,\n" ++
      "            length: Some(50),\n        },\n        process_id: Some(77),\n    },\n" ++
      "    flags: SetlkRequestFlags {},\n}") := by decide +kernel

-- fuse/operations/setlk/setlk_interop_test.rs
example : shows decodeSetlk (fun r => r.debug (.linux .x86_64))
    (msg FUSE_SETLK 2
      (enc ({ fh := 12345, owner := 34, lk := { start := 0, end_ := 0x7FFFFFFFFFFFFFFF, type_ := 2 }, lk_flags := 1 }
        : FuseLkIn)))
    ("SetlkRequest {\n    node_id: 2,\n    handle: 12345,\n    may_block: false,\n    owner: 0x0000000000000022,\n" ++
      "    lock: Lock {\n        mode: F_UNLCK,\n        range: LockRange {\n            start: 0,\n" ++
      "            length: None,\n        },\n        process_id: None,\n    },\n" ++
      "    flags: SetlkRequestFlags {\n        LK_FLOCK,\n    },\n}") := by decide +kernel

-- fuse/operations/statfs/statfs_interop_test.rs
example : shows decodeStatfs (fun r => r.debug) (msg FUSE_STATFS 2 [])
    "StatfsRequest {\n    node_id: 2,\n}" := by decide +kernel

end Fuse.Conform
