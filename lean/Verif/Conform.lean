import Verif.Requests
import Verif.Handshake
import Verif.Dirent
import Verif.Xattr
import Verif.Mount
import Verif.Server

/-!
# The unit tests of the library, run on the model

Each `example` is a test of the library with the same inputs and the same expected values, evaluated by the kernel
on the model.  They are checks that the model is faithful, not proofs of properties.  The tests of formatted output
(`request_impl_debug` and the like) give the values of further inputs; they are included with the values compared;
`ConformDebug` compares the text.
-/

namespace Fuse.Conform

/-- `MessageBuilder::build_aligned` with the header of `MessageBuilder::set_header`,
fuse/internal/testing/fuse_testutil.rs:42-81: the message in a `MinReadBuffer` of 8192 bytes. -/
def msg (opcode : UInt32) (nodeid : UInt64) (body : Bytes) : Bytes :=
  let m := enc ({ len := UInt32.ofNat (body.length + 40), opcode, unique := 0xAABBCCDD, nodeid } : FuseInHeader) ++ body
  m ++ List.replicate (8192 - m.length) 0

/-- `decode_request!`, fuse/internal/testing/fuse_testutil.rs:103-124, followed by the assertions `p`. -/
def decodes {α : Type} (d : DecM α) (buf : Bytes) (p : α → Bool) : Bool :=
  match Request.new buf with
  | .error _ => false
  | .ok r =>
    match r.decode d with
    | .error _ => false
    | .ok x => p x

/-- The layout of `decode_request!`, fuse/internal/testing/fuse_testutil.rs:116-119. -/
def layout (minor : UInt32) : FuseLayout :=
  match FuseLayout.new { major := 7, minor } with
  | .ok l => l
  | .error _ => ⟨0, 0⟩

def str (s : String) : Bytes := s.toList.map fun c => UInt8.ofNat c.toNat

/-- A string literal with its NUL. -/
def cstr (s : String) : Bytes := str s ++ [0]

/-- `push_sized` of numbers, fuse/internal/testing/fuse_testutil.rs:88-93. -/
def u32 (x : UInt32) : Bytes := enc x

def u64 (x : UInt64) : Bytes := enc x

def hello : Bytes := str "hello.world!"

/-- The value that an accessor returns, which must not fault. -/
def is {α : Type} [DecidableEq α] (x : Except Fault α) (v : α) : Bool :=
  match x with
  | .ok y => decide (y = v)
  | .error _ => false

def nodeIs (x : Except Fault NodeId) (v : UInt64) : Bool :=
  match x with
  | .ok y => decide (y.val = v)
  | .error _ => false

/-! ## fuse/server/decode_test.rs -/

/-- The buffer of the tests of `RequestDecoder`. -/
def nine (bs : Bytes) : Bytes := msg 0 0 bs

def decoder (bs : Bytes) : Decoder := ⟨nine bs, 49, 40⟩

/-- `RequestError::UnexpectedEof` is the result. -/
def eof {α : Type} (m : DecM α) (d : Decoder) : Bool :=
  match m d with
  | .error (.req .unexpectedEof) => true
  | _ => false

-- fuse/server/decode_test.rs:25-38
example : decodes (fun d => .ok (d.consumed, d)) (nine [1, 2, 3, 4, 5, 6, 7, 8, 9]) (· == 40) := by decide +kernel

-- fuse/server/decode_test.rs:40-58
example : decodes (do let a ← nextBytes 8; let b ← nextBytes 1; return (a, b)) (nine [10, 20, 30, 40, 50, 60, 70, 80, 90])
      (·.2 == [90]) ∧
    eof (do let _ ← nextBytes 8; let _ ← nextBytes 1; nextBytes 1) (decoder [10, 20, 30, 40, 50, 60, 70, 80, 90]) := by decide +kernel

-- fuse/server/decode_test.rs:89-111; four bytes are read as a number
example : decodes (do let a ← nextSized UInt32; let b ← nextSized UInt32; return (a, b))
      (nine [1, 2, 3, 4, 5, 6, 7, 8, 9]) (· == (0x04030201, 0x08070605)) ∧
    eof (do let _ ← nextSized UInt32; let _ ← nextSized UInt32; nextSized UInt32) (decoder [1, 2, 3, 4, 5, 6, 7, 8, 9]) := by decide +kernel

-- fuse/server/decode_test.rs:113-135
example : decodes (do let a ← nextBytes 4; let b ← nextBytes 4; return (a, b)) (nine [1, 2, 3, 4, 5, 6, 7, 8, 9])
      (· == ([1, 2, 3, 4], [5, 6, 7, 8])) ∧
    eof (do let _ ← nextBytes 4; let _ ← nextBytes 4; nextBytes 4) (decoder [1, 2, 3, 4, 5, 6, 7, 8, 9]) := by decide +kernel

/-! ## Names -/

-- fuse/operations/lookup/lookup_test.rs:22-34, 36-56
example : decodes decodeLookup (msg FUSE_LOOKUP 123 (hello ++ [0]))
    (fun r => r.name.bytes == hello && r.parentId.val == 123) := by decide +kernel

-- fuse/operations/rmdir/rmdir_test.rs:22-35
example : decodes decodeRmdir (msg FUSE_RMDIR 100 (hello ++ [0]))
    (fun r => r.parentId.val == 100 && r.name.bytes == hello) := by decide +kernel

-- fuse/operations/unlink/unlink_test.rs:22-35
example : decodes decodeUnlink (msg FUSE_UNLINK 100 (hello ++ [0]))
    (fun r => r.parentId.val == 100 && r.name.bytes == hello) := by decide +kernel

-- fuse/operations/symlink/symlink_test.rs:22-37
example : decodes decodeSymlink (msg FUSE_SYMLINK 100 (cstr "link content" ++ cstr "link name"))
    (fun r => r.parentId.val == 100 && r.name.bytes == str "link name" && r.content.bytes == str "link content") := by
  decide +kernel

-- fuse/operations/link/link_test.rs:23-41
example : decodes decodeLink (msg FUSE_LINK 100 (enc ({ oldnodeid := 123 } : FuseLinkIn) ++ hello ++ [0]))
    (fun r => r.nodeId.val == 123 && r.newParentId.val == 100 && r.newName.bytes == hello) := by decide +kernel

-- fuse/operations/mkdir/mkdir_test.rs:23-43
example : decodes decodeMkdir (msg FUSE_MKDIR 100 (
      enc ({ mode := 0o755, umask := 0o111 } : FuseMkdirIn) ++ hello ++ [0]))
    (fun r => r.parentId.val == 100 && r.name.bytes == hello && r.mode == ⟨0o755⟩ && r.umask == 0o111) := by
  decide +kernel

-- fuse/operations/mknod/mknod_test.rs:25-46
example : decodes (decodeMknod (layout 1)) (msg FUSE_MKNOD 100 (u32 0o644 ++ u32 0 ++ hello ++ [0]))
    (fun r => nodeIs r.parentId 100 && r.name.bytes == hello && is r.mode ⟨0o644⟩ && is r.umask 0 &&
      is r.deviceNumber none) := by decide +kernel

-- fuse/operations/mknod/mknod_test.rs:48-71
example : decodes (decodeMknod (layout 12))
    (msg FUSE_MKNOD 100 (enc ({ mode := 0o644, umask := 0o111 } : FuseMknodIn) ++ hello ++ [0]))
    (fun r => nodeIs r.parentId 100 && r.name.bytes == hello && is r.mode ⟨0o644⟩ && is r.umask 0o111 &&
      is r.deviceNumber none) := by decide +kernel

-- fuse/operations/mknod/mknod_test.rs:73-98
example : decodes (decodeMknod (layout 12))
    (msg FUSE_MKNOD 100 (
      enc ({ mode := 0o60000 ||| 0o644, rdev := 123, umask := 0o111 } : FuseMknodIn) ++ hello ++ [0]))
    (fun r => is (r.mode.map FileType.fromMode) (some .blockDevice) && is (r.mode.map FileMode.permissions) 0o644 &&
      is r.deviceNumber (some 123)) := by decide +kernel

-- fuse/operations/rename/rename_test.rs:23-44
example : decodes decodeRename (msg FUSE_RENAME 123 (
      enc ({ newdir := 456 } : FuseRenameIn) ++ cstr "old" ++ cstr "new"))
    (fun r => r.oldName.bytes == str "old" && r.newName.bytes == str "new" && r.oldDirectoryId.val == 123 &&
      r.newDirectoryId.val == 456 && r.renameFlags == 0) := by decide +kernel

-- fuse/operations/rename/rename_test.rs:46-68
example : decodes decodeRename
    (msg FUSE_RENAME2 123 (enc ({ newdir := 456, flags := 0b111 } : FuseRename2In) ++ cstr "old" ++ cstr "new"))
    (fun r => r.oldName.bytes == str "old" && r.newName.bytes == str "new" && r.oldDirectoryId.val == 123 &&
      r.newDirectoryId.val == 456 && r.renameFlags == 0b111) := by decide +kernel

-- fuse/operations/create/create_test.rs:23-44
example : decodes (decodeCreate (layout 1)) (msg FUSE_CREATE 123 (u32 0xFF ++ u32 0 ++ hello ++ [0]))
    (fun r => r.name.bytes == hello && is r.flags 0 && is r.openFlags 0xFF && is r.mode ⟨0⟩ && is r.umask 0) := by
  decide +kernel

-- fuse/operations/create/create_test.rs:46-71
example : decodes (decodeCreate (layout 12))
    (msg FUSE_CREATE 123 (enc ({ flags := 0xFF, mode := 0xEE, umask := 0xDD } : FuseCreateIn) ++ hello ++ [0]))
    (fun r => r.name.bytes == hello && is r.flags 0 && is r.openFlags 0xFF && is r.mode ⟨0xEE⟩ && is r.umask 0xDD) := by
  decide +kernel

-- fuse/operations/create/create_test.rs:73-103
example : decodes (decodeCreate (layout 36))
    (msg FUSE_CREATE 1 (enc ({ flags := 123, mode := 0o100644, umask := 0o22 } : FuseCreateIn) ++ cstr "hello.world"))
    (fun r => nodeIs r.nodeId 1 && r.name.bytes == str "hello.world" && is r.flags 0 && is r.openFlags 0x7B &&
      is r.mode ⟨0o100644⟩ && is r.umask 18) := by decide +kernel

/-! ## Extended attributes -/

-- fuse/operations/removexattr/removexattr_test.rs:22-34
example : decodes decodeRemovexattr (msg FUSE_REMOVEXATTR 123 (hello ++ [0])) (fun r => r.name.bytes == hello) := by
  decide +kernel

-- fuse/operations/setxattr/setxattr_test.rs:22-40
example : decodes (decodeSetxattr (layout 36))
    (msg FUSE_SETXATTR 123 (u32 10 ++ u32 0b11 ++ hello ++ [0] ++ cstr "some" ++ str "value"))
    (fun r => r.name.bytes == hello && r.value == cstr "some" ++ str "value" && is r.setxattrFlags 0b11) := by
  decide +kernel

-- fuse/operations/getxattr/getxattr_test.rs:25-42
example : decodes decodeGetxattr (msg FUSE_GETXATTR 123 (enc ({ size := 10 } : FuseGetxattrIn) ++ hello ++ [0]))
    (fun r => r.size.map (·.val) == some 10 && r.name.bytes == hello) := by decide +kernel

-- fuse/operations/getxattr/getxattr_test.rs:44-59
example : decodes decodeGetxattr (msg FUSE_GETXATTR 123 (enc ({} : FuseGetxattrIn) ++ hello ++ [0]))
    (fun r => r.size.map (·.val) == none && r.name.bytes == hello) := by decide +kernel

-- fuse/operations/listxattr/listxattr_test.rs:28-43
example : decodes decodeListxattr (msg FUSE_LISTXATTR 123 (enc ({ size := 10 } : FuseGetxattrIn)))
    (fun r => r.size.map (·.val) == some 10) := by decide +kernel

-- fuse/operations/listxattr/listxattr_test.rs:45-58
example : decodes decodeListxattr (msg FUSE_LISTXATTR 123 (enc ({} : FuseGetxattrIn)))
    (fun r => r.size.map (·.val) == none) := by decide +kernel

-- fuse/operations/listxattr/listxattr_test.rs:84-103
example : (NamesWriter.new .linux (List.replicate 10 0)).capacity = 10 ∧
    (match (NamesWriter.new .linux (List.replicate 10 0)).pushAll
        [⟨str "12345678901", by decide⟩, ⟨str "123", by decide⟩, ⟨str "456", by decide⟩] with
      | .ok (oks, w) => oks == [false, true, true] && w.position == 8 && is w.intoNames (cstr "123" ++ cstr "456")
      | .error _ => false) = true := by decide +kernel

/-! ## Files -/

-- fuse/operations/access/access_test.rs:23-37
example : decodes decodeAccess (msg FUSE_ACCESS 123 (enc ({ mask := 0xFF } : FuseAccessIn)))
    (fun r => r.mask == 0xFF) := by decide +kernel

-- fuse/operations/open/open_test.rs:23-40; KILL_SUIDGID is the bit 1
example : decodes (decodeOpen false) (msg FUSE_OPEN 123 (enc ({ flags := 0xFF, open_flags := 1 } : FuseOpenIn)))
    (fun r => r.flags == 1 && r.openFlags == 0xFF) := by decide +kernel

-- fuse/operations/opendir/opendir_test.rs:23-39
example : decodes decodeOpendir (msg FUSE_OPENDIR 123 (enc ({ flags := 0xFF } : FuseOpenIn)))
    (fun r => r.openFlags == 0xFF) := by decide +kernel

-- fuse/operations/opendir/opendir_test.rs:41-64
example : decodes decodeOpendir (msg FUSE_OPENDIR 1 (enc ({ flags := 1 } : FuseOpenIn)))
    (fun r => nodeIs r.nodeId 1 && r.flags == 0 && r.openFlags == 1) := by decide +kernel

-- fuse/operations/flush/flush_test.rs:23-40
example : decodes (decodeFlush false) (msg FUSE_FLUSH 123 (enc ({ fh := 123, lock_owner := 456 } : FuseFlushIn)))
    (fun r => r.handle == 123 && r.lockOwner == 456) := by decide +kernel

-- fuse/operations/fsync/fsync_test.rs:23-40
example : decodes (decodeFsync false) (msg FUSE_FSYNC 123 (enc ({ fh := 3, fsync_flags := 1 } : FuseFsyncIn)))
    (fun r => r.handle == 3 && r.flags == 1) := by decide +kernel

-- fuse/operations/fsyncdir/fsyncdir_test.rs:23-42
example : decodes decodeFsyncdir (msg FUSE_FSYNCDIR 123 (enc ({ fh := 3, fsync_flags := 1 } : FuseFsyncIn)))
    (fun r => r.handle == 3 && r.flags == 1) := by decide +kernel

-- fuse/operations/lseek/lseek_test.rs:23-42; SEEK_DATA is 3
example : decodes decodeLseek (msg FUSE_LSEEK 123 (enc ({ fh := 12, offset := 34, whence := 3 } : FuseLseekIn)))
    (fun r => r.handle == 12 && r.offset == 34 && r.whence == 3) := by decide +kernel

-- fuse/operations/fallocate/fallocate_test.rs:23-44
example : decodes decodeFallocate
    (msg FUSE_FALLOCATE 123 (enc ({ fh := 12, offset := 34, length := 56, mode := 0b11 } : FuseFallocateIn)))
    (fun r => r.handle == 12 && r.offset == 34 && r.length == 56 && r.fallocateFlags == 0b11) := by decide +kernel

-- fuse/operations/copy_file_range/copy_file_range_test.rs:23-50
example : decodes decodeCopyFileRange
    (msg FUSE_COPY_FILE_RANGE 10 (
      enc ({ fh_in := 11, off_in := 12, nodeid_out := 13, fh_out := 14, off_out := 15,
             len := 16 } : FuseCopyFileRangeIn)))
    (fun r => nodeIs r.inputNodeId 10 && r.inputHandle == 11 && r.inputOffset == 12 && nodeIs r.outputNodeId 13 &&
      r.outputHandle == 14 && r.outputOffset == 15 && r.len == 16 && r.flags == 0) := by decide +kernel

-- fuse/operations/read/read_test.rs:25-47
example : decodes (decodeRead 1 false) (msg FUSE_READ 123 (u64 123 ++ u64 45 ++ u32 12 ++ u32 0))
    (fun r => is r.handle 123 && is r.offset 45 && is r.size 12 && is r.lockOwner none && is r.openFlags 0) := by
  decide +kernel

-- fuse/operations/read/read_test.rs:49-73
example : decodes (decodeRead 9 false)
    (msg FUSE_READ 123 (enc ({ fh := 123, offset := 45, size := 12, flags := 67 } : FuseReadIn)))
    (fun r => is r.handle 123 && is r.offset 45 && is r.size 12 && is r.lockOwner none && is r.openFlags 67) := by
  decide +kernel

-- fuse/operations/read/read_test.rs:75-95
example : decodes (decodeRead 36 false)
    (msg FUSE_READ 123 (
      enc ({ fh := 123, offset := 45, size := 12, read_flags := 0x80000000 ||| 2, lock_owner := 123,
             flags := 67 } : FuseReadIn)))
    (fun r => is r.lockOwner (some 123)) := by decide +kernel

-- fuse/operations/release/release_test.rs:25-44
example : decodes (decodeRelease 1 false) (msg FUSE_RELEASE 123 (u64 123 ++ u32 0xFF ++ u32 0))
    (fun r => is r.handle 123 && is r.openFlags 0xFF && is r.lockOwner none) := by decide +kernel

-- fuse/operations/release/release_test.rs:46-66
example : decodes (decodeRelease 8 false) (msg FUSE_RELEASE 123 (enc ({ fh := 123, flags := 0xFF } : FuseReleaseIn)))
    (fun r => is r.handle 123 && is r.openFlags 0xFF && is r.lockOwner none) := by decide +kernel

-- fuse/operations/release/release_test.rs:68-89
example : decodes (decodeRelease 8 false)
    (msg FUSE_RELEASE 123 (
      enc ({ fh := 123, flags := 0xFF, release_flags := 0x80000000 ||| 2, lock_owner := 123 } : FuseReleaseIn)))
    (fun r => is r.lockOwner (some 123)) := by decide +kernel

-- fuse/operations/releasedir/releasedir_test.rs:25-44
example : decodes (decodeReleasedir (layout 1)) (msg FUSE_RELEASEDIR 123 (u64 123 ++ u32 0xFF ++ u32 0))
    (fun r => is r.handle 123 && is r.openFlags 0xFF && is r.lockOwner none) := by decide +kernel

-- fuse/operations/releasedir/releasedir_test.rs:46-66
example : decodes (decodeReleasedir (layout 8))
    (msg FUSE_RELEASEDIR 123 (enc ({ fh := 123, flags := 0xFF } : FuseReleaseIn)))
    (fun r => is r.handle 123 && is r.openFlags 0xFF && is r.lockOwner none) := by decide +kernel

-- fuse/operations/releasedir/releasedir_test.rs:68-89
example : decodes (decodeReleasedir (layout 8))
    (msg FUSE_RELEASEDIR 123 (
      enc ({ fh := 123, flags := 0xFF, release_flags := 0x80000000 ||| 2, lock_owner := 123 } : FuseReleaseIn)))
    (fun r => is r.lockOwner (some 123)) := by decide +kernel

-- fuse/operations/write/write_test.rs:25-49
example : decodes (decodeWrite 1 false)
    (msg FUSE_WRITE 123 (u64 123 ++ u64 45 ++ u32 12 ++ u32 0 ++ hello))
    (fun r => is r.handle 123 && is r.offset 45 && is r.lockOwner none && is (r.flags.map (· &&& 1)) 0 &&
      is r.openFlags 0 && is r.value hello) := by decide +kernel

-- fuse/operations/write/write_test.rs:51-77
example : decodes (decodeWrite 9 false)
    (msg FUSE_WRITE 123 (enc ({ fh := 123, offset := 45, size := 12, flags := 67 } : FuseWriteIn) ++ hello))
    (fun r => is r.handle 123 && is r.offset 45 && is r.lockOwner none && is (r.flags.map (· &&& 1)) 0 &&
      is r.openFlags 67 && is r.value hello) := by decide +kernel

-- fuse/operations/write/write_test.rs:79-95
example : decodes (decodeWrite 36 false)
    (msg FUSE_WRITE 123 (enc ({ write_flags := 0x80000000 ||| 2, lock_owner := 123 } : FuseWriteIn)))
    (fun r => is r.lockOwner (some 123)) := by decide +kernel

-- fuse/operations/write/write_test.rs:97-112
example : decodes (decodeWrite 36 false)
    (msg FUSE_WRITE 123 (enc ({ write_flags := 0x80000000 ||| 1 } : FuseWriteIn)))
    (fun r => is (r.flags.map (· &&& 1)) 1) := by decide +kernel

-- fuse/operations/getattr/getattr_test.rs:23-37
example : decodes (decodeGetattr (layout 1)) (msg FUSE_GETATTR 123 []) (fun r => is r.handle none) := by decide +kernel

-- fuse/operations/getattr/getattr_test.rs:39-54
example : decodes (decodeGetattr (layout 9)) (msg FUSE_GETATTR 123 (enc ({} : FuseGetattrIn)))
    (fun r => is r.handle none) := by decide +kernel

-- fuse/operations/getattr/getattr_test.rs:56-74
example : decodes (decodeGetattr (layout 9))
    (msg FUSE_GETATTR 123 (enc ({ getattr_flags := FUSE_GETATTR_FH, fh := 123 } : FuseGetattrIn)))
    (fun r => is r.handle (some 123)) := by decide +kernel

-- fuse/operations/setattr/setattr_test.rs:24-64, 89-134
example : decodes decodeSetattr
    (msg FUSE_SETATTR 1000 (
      enc ({ valid := 0xFFFF, fh := 1, size := 2, lock_owner := 3, atime := 4, mtime := 5, ctime := 6,
             atimensec := 7, mtimensec := 8, ctimensec := 9, mode := 0o100000 ||| 0o644, uid := 12, gid := 13 } : FuseSetattrIn)))
    (fun r => nodeIs r.nodeId 1000 && r.handle == some 1 && r.size == some 2 && r.lockOwner == some 3 &&
      is r.atime (UnixTime.new 4 7) && r.atimeNow && is r.mtime (UnixTime.new 5 8) && r.mtimeNow &&
      is r.ctime (UnixTime.new 6 9) && r.userId == some 12 && r.groupId == some 13 &&
      (r.mode.bind FileType.fromMode) == some .regular && r.mode.map FileMode.permissions == some 0o644) := by
  decide +kernel

-- fuse/operations/setattr/setattr_test.rs:66-88
example : decodes decodeSetattr
    (msg FUSE_SETATTR 1000 (
      enc ({ valid := 0xFFFF, atime := (-4 : Int64).toUInt64, mtime := (-5 : Int64).toUInt64,
             ctime := (-6 : Int64).toUInt64, atimensec := 7, mtimensec := 8, ctimensec := 9 } : FuseSetattrIn)))
    (fun r => is r.atime (UnixTime.new (-4) 7) && is r.mtime (UnixTime.new (-5) 8) &&
      is r.ctime (UnixTime.new (-6) 9)) := by decide +kernel

-- fuse/operations/forget/forget_test.rs:23-41
example : decodes (decodeForget true) (msg FUSE_FORGET 123 (enc ({ nlookup := 456 } : FuseForgetIn)))
    (fun r => r.items.map (fun i => (i.nodeId.val, i.lookupCount)) == [(123, 456)]) := by decide +kernel

-- fuse/operations/forget/forget_test.rs:43-68
example : decodes (decodeForget true)
    (msg FUSE_BATCH_FORGET 0 (enc ({ count := 2 } : FuseBatchForgetIn) ++
      enc ({ nodeid := 12, nlookup := 34 } : FuseForgetOne) ++ enc ({ nodeid := 56, nlookup := 78 } : FuseForgetOne)))
    (fun r => r.items.map (fun i => (i.nodeId.val, i.lookupCount)) == [(12, 34), (56, 78)]) := by decide +kernel

/-! ## Directories -/

-- fuse/operations/readdir/readdir_test.rs:30-50
example : decodes (decodeReaddir (layout 1)) (msg FUSE_READDIR 123 (u64 123 ++ u64 45 ++ u32 4096 ++ u32 0))
    (fun r => is r.handle 123 && is (r.offset.map (·.map (·.val))) (some 45) && is r.size 4096) := by decide +kernel

-- fuse/operations/readdir/readdir_test.rs:52-75
example : decodes (decodeReaddir (layout 9))
    (msg FUSE_READDIR 123 (enc ({ fh := 123, offset := 45, size := 4096, flags := 67 } : FuseReadIn)))
    (fun r => is r.handle 123 && is (r.offset.map (·.map (·.val))) (some 45) && is r.openFlags 67 && is r.size 4096) := by
  decide +kernel

def entryOf (id : NodeId) (name : String) (offset : NonZeroU64) (t : Option FileType) : ReaddirEntry :=
  let e := ReaddirEntry.new id ⟨str name⟩ offset
  match t with
  | some t => e.setFileType t
  | none => e

-- fuse/operations/readdir/readdir_test.rs:107-156
example : (match (DirWriter.new 0 (List.replicate (24 + 12) 0)).pushAll
      [entryOf ⟨100, by decide⟩ "123456789ABCDEF" ⟨1, by decide⟩ none,
        entryOf ⟨100, by decide⟩ "123456789" ⟨1, by decide⟩ none,
        entryOf ⟨100, by decide⟩ "foobar" ⟨1, by decide⟩ (some .regular)] with
    | .ok (oks, w) => oks == [false, false, true] &&
        is w.intoEntries (
      enc ({ ino := 100, off := 1, namelen := 6, type_ := 8 } : FuseDirent) ++ str "foobar" ++ [0, 0])
    | .error _ => false) = true := by decide +kernel

-- fuse/operations/readdir/readdir_test.rs:158-202; the entries are read back one by one
example : (match (DirWriter.new 0 (List.replicate 1024 0)).pushAll
      [entryOf ⟨100, by decide⟩ "hello.txt" ⟨1, by decide⟩ (some .regular),
        entryOf ⟨101, by decide⟩ "world.txt" ⟨2, by decide⟩ (some .regular)] with
    | .ok (_, w) =>
      match w.intoEntries with
      | .error _ => false
      | .ok bs =>
        match direntNext FuseDirent bs with
        | .ok (some (a, rest)) =>
          nodeIs (ReaddirEntry.nodeId a) 100 && ReaddirEntry.fileType a == some .regular &&
          a.name.bytes == str "hello.txt" &&
          match direntNext FuseDirent rest with
          | .ok (some (b, rest)) =>
            nodeIs (ReaddirEntry.nodeId b) 101 && ReaddirEntry.fileType b == some .regular &&
            b.name.bytes == str "world.txt" && (match direntNext FuseDirent rest with | .ok none => true | _ => false)
          | _ => false
        | _ => false
    | .error _ => false) = true := by decide +kernel

/-! ## Handshake -/

-- fuse/operations/fuse_init/fuse_init_test.rs:23-36
example : decodes decodeFuseInit (msg FUSE_INIT 0 (u32 7 ++ u32 1)) (· == ⟨⟨7, 1⟩, 0, 0⟩) := by decide +kernel

-- fuse/operations/fuse_init/fuse_init_test.rs:38-53
example : decodes decodeFuseInit (msg FUSE_INIT 0 (u32 7 ++ u32 6 ++ u32 9 ++ u32 1)) (· == ⟨⟨7, 6⟩, 9, 1⟩) := by
  decide +kernel

-- fuse/operations/fuse_init/fuse_init_test.rs:55-76
example : decodes decodeFuseInit
    (msg FUSE_INIT 0 (
      enc ({ major := 7, minor := 36, max_readahead := 9, flags := 1,
             flags2 := ((0x200000000 : UInt64) >>> 32).toUInt32 } : FuseInitIn)))
    (· == ⟨⟨7, 36⟩, 9, 0x200000001⟩) := by decide +kernel

-- fuse/operations/fuse_init/fuse_init_test.rs:78-96
example : decodes decodeFuseInit
    (msg FUSE_INIT 0 (
      enc ({ major := 0xFF, minor := 0xFF, max_readahead := 0xFF, flags := 0xFFFFFFFF,
             flags2 := 0xFFFFFFFF } : FuseInitIn)))
    (· == ⟨⟨0xFF, 0xFF⟩, 0, 0⟩) := by decide +kernel

-- fuse/operations/fuse_init/fuse_init_test.rs:98-125: bits 0, 1, 32, 33 and 63
example : decodes decodeFuseInit
    (msg FUSE_INIT 0 (enc ({ major := 7, minor := 36, flags := 3, flags2 := 0x80000003 } : FuseInitIn)))
    (·.flags == 0x8000000300000003) := by decide +kernel

-- fuse/operations/cuse_init/cuse_init_test.rs:48-66
example : decodes decodeCuseInit (msg CUSE_INIT 0 (enc ({ major := 7, minor := 6, flags := 1 } : CuseInitIn)))
    (· == ⟨⟨7, 6⟩, 1⟩) := by decide +kernel

/-- `FakeSocket`, fuse/internal/testing/fuse_testutil.rs:164-191; the state is what was sent last. -/
def fakeSocket : Socket Bytes Unit where
  recv buf s := ((.error (.other ()), buf), s)
  recv_length _ _ := rfl
  send buf s := (.ok (), match buf.chunks with | .ok cs => cs.flatten | .error _ => s)

-- fuse/operations/cuse_init/cuse_init_test.rs:99-134
example : ((CuseReplySender.new fakeSocket ⟨36⟩ ⟨0xAABBCCDD, by decide⟩).ok
      (.init ((((CuseInitResponse.new ⟨str "test-device"⟩).setVersion ⟨7, 23⟩).setMaxWrite 4096).setFlags 1)) []).2 =
    enc ({ len := UInt32.ofNat (16 + Wire.size CuseInitOut + (cstr "DEVNAME=test-device").length)
           unique := 0xAABBCCDD } : FuseOutHeader) ++
      enc ({ major := 7, minor := 23, flags := 1, max_write := 4096 } : CuseInitOut) ++ cstr "DEVNAME=test-device" := by
  decide +kernel

/-! ## Mounting -/

def deviceOpts : MountOptions :=
  { allowOther := true, blockSize := some 10, defaultPermissions := true
    subtype := FuseSubtype.new ⟨str "rust_subtype", by decide⟩
    fuseDeviceFd := some 20, groupId := some 30, maxRead := some 40, rootMode := some ⟨50⟩, userId := some 60 }

-- fuse/os/linux_test.rs:131-159
example : is (mountData deviceOpts (List.replicate 512 0)) (some (cstr
    ("fd=20,allow_other,blksize=10,default_permissions,group_id=30,max_read=40,rootmode=62,subtype=rust_subtype," ++
      "user_id=60"))) := by
  decide +kernel

-- fuse/os/linux_test.rs:161-167
example : is (mountData {} (List.replicate 512 0)) (some [0]) := by decide +kernel

-- fuse/os/linux_test.rs:169-186
example : is (mountData { fuseDeviceFd := some 20 } []) none ∧
    is (mountData { fuseDeviceFd := some 20 } (List.replicate 5 0)) none ∧
    is (mountData { fuseDeviceFd := some 20 } (List.replicate 6 0)) (some (cstr "fd=20")) := by decide +kernel

-- fuse/os/linux_test.rs:188-192
example : (FuseSubtype.new ⟨[], by decide⟩).isNone ∧ (FuseSubtype.new ⟨str "bad,subtype", by decide⟩).isNone := by
  decide +kernel

end Fuse.Conform
