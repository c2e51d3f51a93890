import Verif.Conform
import Verif.DebugPretty

/-!
# The unit tests of formatted output, run on the model

Like `Conform`: the tests of the library that compare the text of `{:#?}`, with the same messages and the same text.
-/

namespace Fuse.Conform

/-- The message decodes, and `{:#?}` of the request gives the text. -/
def shows {α : Type} (d : DecM α) (dbg : α → Except Fault Dbg) (buf : Bytes) (t : String) : Bool :=
  decodes d buf fun r =>
    match dbg r with
    | .ok x => x.pretty 0 == text t
    | .error _ => false

-- fuse/operations/access/access_test.rs:39-59
example : shows decodeAccess (fun r => r.debug)
    (msg FUSE_ACCESS 1 (enc ({} : FuseAccessIn)))
    "AccessRequest {\n    node_id: 1,\n    mask: 0,\n}" := by decide +kernel

-- fuse/operations/copy_file_range/copy_file_range_test.rs:52-85
example : shows decodeCopyFileRange (fun r => r.debug)
    (msg FUSE_COPY_FILE_RANGE 10
      (enc ({ fh_in := 11, off_in := 12, nodeid_out := 13, fh_out := 14, off_out := 15, len := 16 } : FuseCopyFileRangeIn)))
    ("CopyFileRangeRequest {\n    input_node_id: 10,\n    input_handle: 11,\n" ++
      "    input_offset: 12,\n    output_node_id: 13,\n    output_handle: 14,\n" ++
      "    output_offset: 15,\n    len: 16,\n    flags: CopyFileRangeRequestFlags {},\n}") := by decide +kernel

-- fuse/operations/create/create_test.rs:73-103
example : shows (decodeCreate (layout 36)) (fun r => r.debug)
    (msg FUSE_CREATE 1
      (enc ({ flags := 123, mode := 0o100644, umask := 0o22, open_flags := 0 } : FuseCreateIn)
        ++ cstr "hello.world"))
    ("CreateRequest {\n    node_id: 1,\n    name: \"hello.world\",\n" ++
      "    flags: CreateRequestFlags {},\n    open_flags: 0x0000007B,\n    mode: 0o100644,\n" ++
      "    umask: 18,\n}") := by decide +kernel

-- fuse/operations/cuse_init/cuse_init_test.rs:68-97
example : shows decodeCuseInit (fun r => r.debug)
    (msg CUSE_INIT 0 (enc ({ major := 7, minor := 1, flags := 0x1 } : CuseInitIn)))
    ("CuseInitRequest {\n    version: Version {\n        major: 7,\n        minor: 1,\n    },\n" ++
      "    flags: CuseInitFlags {\n        UNRESTRICTED_IOCTL,\n    },\n}") := by decide +kernel

-- fuse/operations/fallocate/fallocate_test.rs:46-74
example : shows decodeFallocate (fun r => r.debug)
    (msg FUSE_FALLOCATE 1 (enc ({ fh := 123, offset := 1024, length := 4096, mode := 0b11 } : FuseFallocateIn)))
    ("FallocateRequest {\n    node_id: 1,\n    handle: 123,\n    offset: 1024,\n" ++
      "    length: 4096,\n    fallocate_flags: 0x00000003,\n}") := by decide +kernel

-- fuse/operations/flush/flush_test.rs:42-65
example : shows (decodeFlush false) (fun r => r.debug)
    (msg FUSE_FLUSH 1 (enc ({ fh := 12, lock_owner := 34 } : FuseFlushIn)))
    "FlushRequest {\n    node_id: 1,\n    handle: 12,\n    lock_owner: 0x0000000000000022,\n}" := by decide +kernel

-- fuse/operations/forget/forget_test.rs:70-97
example : shows (decodeForget true) (fun r => r.debug)
    (msg FUSE_FORGET 123 (enc ({ nlookup := 456 } : FuseForgetIn)))
    ("ForgetRequest {\n    items: [\n        ForgetRequestItem {\n            node_id: 123,\n" ++
      "            lookup_count: 456,\n        },\n    ],\n}") := by decide +kernel

-- fuse/operations/fsync/fsync_test.rs:42-68
example : shows (decodeFsync false) (fun r => r.debug)
    (msg FUSE_FSYNC 1 (enc ({ fh := 3, fsync_flags := 0x1 } : FuseFsyncIn)))
    ("FsyncRequest {\n    node_id: 1,\n    handle: 3,\n    flags: FsyncRequestFlags {\n" ++
      "        FDATASYNC,\n    },\n}") := by decide +kernel

-- fuse/operations/fsyncdir/fsyncdir_test.rs:44-70
example : shows decodeFsyncdir (fun r => r.debug)
    (msg FUSE_FSYNCDIR 1 (enc ({ fh := 3, fsync_flags := 0x1 } : FuseFsyncIn)))
    ("FsyncdirRequest {\n    node_id: 1,\n    handle: 3,\n    flags: FsyncdirRequestFlags {\n" ++
      "        FDATASYNC,\n    },\n}") := by decide +kernel

-- fuse/operations/fuse_init/fuse_init_test.rs:98-125
example : shows decodeFuseInit (fun r => pure (Dbg.flags64 .fuseInit r.flags))
    (msg FUSE_INIT 0 (enc ({ major := 7, minor := 36, flags := 0x3, flags2 := 0x80000003 } : FuseInitIn)))
    ("FuseInitFlags {\n    ASYNC_READ,\n    POSIX_LOCKS,\n    SECURITY_CTX,\n    HAS_INODE_DAX,\n" ++
      "    0x8000000000000000,\n}") := by decide +kernel

-- fuse/operations/fuse_init/fuse_init_test.rs:127-155
example : shows decodeFuseInit (fun r => r.debug)
    (msg FUSE_INIT 0 (enc ({ major := 7, minor := 6, max_readahead := 4096, flags := 0x1 } : FuseInitIn)))
    ("FuseInitRequest {\n    version: Version {\n        major: 7,\n        minor: 6,\n    },\n" ++
      "    max_readahead: 4096,\n    flags: FuseInitFlags {\n        ASYNC_READ,\n    },\n}") := by decide +kernel

-- fuse/operations/getattr/getattr_test.rs:76-99
example : shows (decodeGetattr (layout 36)) (fun r => r.debug)
    (msg FUSE_GETATTR 1 (enc ({ getattr_flags := 1, fh := 123 } : FuseGetattrIn)))
    "GetattrRequest {\n    node_id: 1,\n    handle: Some(123),\n}" := by decide +kernel

-- fuse/operations/getxattr/getxattr_test.rs:61-85
example : shows decodeGetxattr (fun r => r.debug)
    (msg FUSE_GETXATTR 1 (enc ({ size := 11 } : FuseGetxattrIn) ++ cstr "hello.world!"))
    "GetxattrRequest {\n    node_id: 1,\n    size: Some(11),\n    name: \"hello.world!\",\n}" := by decide +kernel

-- fuse/operations/link/link_test.rs:43-67
example : shows decodeLink (fun r => r.debug)
    (msg FUSE_LINK 100 (enc ({ oldnodeid := 123 } : FuseLinkIn) ++ cstr "hello.world!"))
    ("LinkRequest {\n    node_id: 123,\n    new_parent_id: 100,\n    new_name: \"hello.world!\",\n" ++
      "}") := by decide +kernel

-- fuse/operations/listxattr/listxattr_test.rs:60-82
example : shows decodeListxattr (fun r => r.debug)
    (msg FUSE_LISTXATTR 1 (enc ({ size := 11 } : FuseGetxattrIn)))
    "ListxattrRequest {\n    node_id: 1,\n    size: Some(11),\n}" := by decide +kernel

-- fuse/operations/lookup/lookup_test.rs:36-56
example : shows decodeLookup (fun r => r.debug)
    (msg FUSE_LOOKUP 123 (cstr "hello.world!"))
    "LookupRequest {\n    parent_id: 123,\n    name: \"hello.world!\",\n}" := by decide +kernel

-- fuse/operations/lseek/lseek_test.rs:44-70
example : shows decodeLseek (fun r => r.debug)
    (msg FUSE_LSEEK 1 (enc ({ fh := 12, offset := 34, whence := 3 } : FuseLseekIn)))
    "LseekRequest {\n    node_id: 1,\n    handle: 12,\n    offset: 34,\n    whence: SEEK_DATA,\n}" := by decide +kernel

-- fuse/operations/mkdir/mkdir_test.rs:45-71
example : shows decodeMkdir (fun r => r.debug)
    (msg FUSE_MKDIR 100 (enc ({ mode := 0o755, umask := 0o111 } : FuseMkdirIn) ++ cstr "hello.world!"))
    ("MkdirRequest {\n    parent_id: 100,\n    name: \"hello.world!\",\n    mode: 0o755,\n" ++
      "    umask: 0o111,\n}") := by decide +kernel

-- fuse/operations/mknod/mknod_test.rs:100-128
example : shows (decodeMknod (layout 36)) (fun r => r.debug)
    (msg FUSE_MKNOD 100
      (enc ({ mode := 0o60644, rdev := 123, umask := 0o111 } : FuseMknodIn)
        ++ cstr "hello.world!"))
    ("MknodRequest {\n    parent_id: 100,\n    name: \"hello.world!\",\n    mode: 0o60644,\n" ++
      "    umask: 0o111,\n    device_number: Some(123),\n}") := by decide +kernel

-- fuse/operations/open/open_test.rs:42-68
example : shows (decodeOpen false) (fun r => r.debug)
    (msg FUSE_OPEN 1 (enc ({ flags := 0xFF, open_flags := 1 } : FuseOpenIn)))
    ("OpenRequest {\n    node_id: 1,\n    flags: OpenRequestFlags {\n        KILL_SUIDGID,\n" ++
      "    },\n    open_flags: 0x000000FF,\n}") := by decide +kernel

-- fuse/operations/opendir/opendir_test.rs:41-64
example : shows decodeOpendir (fun r => r.debug)
    (msg FUSE_OPENDIR 1 (enc ({ flags := 0x1 } : FuseOpenIn)))
    ("OpendirRequest {\n    node_id: 1,\n    flags: OpendirRequestFlags {},\n" ++
      "    open_flags: 0x00000001,\n}") := by decide +kernel

-- fuse/operations/read/read_test.rs:97-126
example : shows (decodeRead 36 false) (fun r => r.debug)
    (msg FUSE_READ 1 (enc ({ fh := 3, offset := 2, size := 1, flags := 0x4 } : FuseReadIn)))
    ("ReadRequest {\n    node_id: 1,\n    size: 1,\n    offset: 2,\n    handle: 3,\n" ++
      "    lock_owner: None,\n    open_flags: 0x00000004,\n}") := by decide +kernel

-- fuse/operations/readdir/readdir_test.rs:77-105
example : shows (decodeReaddir (layout 36)) (fun r => r.debug)
    (msg FUSE_READDIR 1 (enc ({ fh := 3, offset := 2, size := 1, flags := 0x4 } : FuseReadIn)))
    ("ReaddirRequest {\n    node_id: 1,\n    size: 1,\n    offset: Some(2),\n    handle: 3,\n" ++
      "    open_flags: 0x00000004,\n}") := by decide +kernel

-- fuse/operations/release/release_test.rs:91-116
example : shows (decodeRelease 36 false) (fun r => r.debug)
    (msg FUSE_RELEASE 1 (enc ({ fh := 3, flags := 0x4 } : FuseReleaseIn)))
    ("ReleaseRequest {\n    node_id: 1,\n    handle: 3,\n    lock_owner: None,\n" ++
      "    open_flags: 0x00000004,\n}") := by decide +kernel

-- fuse/operations/releasedir/releasedir_test.rs:91-116
example : shows (decodeReleasedir (layout 36)) (fun r => r.debug)
    (msg FUSE_RELEASEDIR 1 (enc ({ fh := 3, flags := 0x4 } : FuseReleaseIn)))
    ("ReleasedirRequest {\n    node_id: 1,\n    handle: 3,\n    lock_owner: None,\n" ++
      "    open_flags: 0x00000004,\n}") := by decide +kernel

-- fuse/operations/removexattr/removexattr_test.rs:36-56
example : shows decodeRemovexattr (fun r => r.debug)
    (msg FUSE_REMOVEXATTR 1 (cstr "hello.world!"))
    "RemovexattrRequest {\n    node_id: 1,\n    name: \"hello.world!\",\n}" := by decide +kernel

-- fuse/operations/rename/rename_test.rs:70-98
example : shows decodeRename (fun r => r.debug)
    (msg FUSE_RENAME2 123 (enc ({ newdir := 456, flags := 0b111 } : FuseRename2In) ++ cstr "old" ++ cstr "new"))
    ("RenameRequest {\n    old_directory_id: 123,\n    old_name: \"old\",\n" ++
      "    new_directory_id: 456,\n    new_name: \"new\",\n    rename_flags: 0x00000007,\n}") := by decide +kernel

-- fuse/operations/rmdir/rmdir_test.rs:37-57
example : shows decodeRmdir (fun r => r.debug)
    (msg FUSE_RMDIR 100 (cstr "hello.world!"))
    "RmdirRequest {\n    parent_id: 100,\n    name: \"hello.world!\",\n}" := by decide +kernel

-- fuse/operations/setattr/setattr_test.rs:90-134
example : shows decodeSetattr (fun r => r.debug)
    (msg FUSE_SETATTR 1000
      (enc ({ valid := 0xFFFF, fh := 1, size := 2, lock_owner := 3, atime := 4, mtime := 5, ctime := 6, atimensec := 7, mtimensec := 8, ctimensec := 9, mode := 0o100644, uid := 12, gid := 13 } : FuseSetattrIn)))
    ("SetattrRequest {\n    node_id: 1000,\n    handle: Some(1),\n    size: Some(2),\n" ++
      "    lock_owner: Some(0x0000000000000003),\n    atime: Some(UnixTime(4.000000007)),\n" ++
      "    atime_now: true,\n    mtime: Some(UnixTime(5.000000008)),\n    mtime_now: true,\n" ++
      "    ctime: Some(UnixTime(6.000000009)),\n    mode: Some(0o100644),\n    user_id: Some(12),\n" ++
      "    group_id: Some(13),\n}") := by decide +kernel

-- fuse/operations/setxattr/setxattr_test.rs:42-68
example : shows (decodeSetxattr (layout 36)) (fun r => r.debug)
    (msg FUSE_SETXATTR 1 (u32 10 ++ u32 0 ++ cstr "hello.world!" ++ cstr "some" ++ str "value"))
    ("SetxattrRequest {\n    node_id: 1,\n    name: \"hello.world!\",\n" ++
      "    flags: SetxattrRequestFlags {},\n    setxattr_flags: 0x00000000,\n" ++
      "    value: \"some\\x00value\",\n}") := by decide +kernel

-- fuse/operations/symlink/symlink_test.rs:39-61
example : shows decodeSymlink (fun r => r.debug)
    (msg FUSE_SYMLINK 100 (cstr "link content" ++ cstr "link name"))
    ("SymlinkRequest {\n    parent_id: 100,\n    name: \"link name\",\n" ++
      "    content: \"link content\",\n}") := by decide +kernel

-- fuse/operations/unlink/unlink_test.rs:37-57
example : shows decodeUnlink (fun r => r.debug)
    (msg FUSE_UNLINK 100 (cstr "hello.world!"))
    "UnlinkRequest {\n    parent_id: 100,\n    name: \"hello.world!\",\n}" := by decide +kernel

end Fuse.Conform
