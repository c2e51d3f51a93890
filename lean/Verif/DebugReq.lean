import Verif.Requests
import Verif.Platform

/-!
# Text written by `Debug` for whole requests (fuse/operations/*.rs, fuse/fuse.rs, fuse/server.rs)

`core::fmt`'s builders (`debug_struct`, `debug_tuple`, `debug_list`, `debug_set`) are part of Rust's standard library.
What an implementation hands to them is a tree, `Dbg`; `Dbg.text` is what the builders write for it in the compact form
`{:?}` (for the indented form `{:#?}` see `DebugPretty`).  A builder for a structure without any field writes the name only;
no implementation here has that shape.  `Debug for CStr` of the standard library (the repository pins Rust 1.81,
see MODULE.bazel) escapes like `debugBytes`.
-/

namespace Fuse

/-- What a `Debug` implementation hands to the builders of `core::fmt`. -/
inductive Dbg
  /-- `write_str` or `write!` of something without structure: a number, a name -/
  | atom (s : Bytes)
  /-- `debug::bytes`, or `Debug` of a `NodeName` or `CStr` -/
  | quoted (v : Bytes)
  /-- one `.field(name, value)` of a `debug_struct` -/
  | field (name : String) (value : Dbg)
  /-- `debug_struct(name)` -/
  | record (name : String) (fields : List Dbg)
  /-- `debug_tuple(name)`; also `Some(..)` -/
  | tuple (name : String) (fields : List Dbg)
  /-- `debug_list()` -/
  | list (entries : List Dbg)
  /-- a name, a space and `debug_set()` (fuse/internal/bitflags.rs:59-73) -/
  | set (name : String) (entries : List Dbg)

mutual

/-- What the builders write. -/
def Dbg.text : Dbg → Bytes
  | .atom s => s
  | .quoted v => debugBytes v
  | .field name d => Fuse.text name ++ Fuse.text ": " ++ d.text
  | .record name ds => Fuse.text name ++ Fuse.text " { " ++ Dbg.textItems ds ++ Fuse.text " }"
  | .tuple name ds => Fuse.text name ++ Fuse.text "(" ++ Dbg.textItems ds ++ Fuse.text ")"
  | .list ds => Fuse.text "[" ++ Dbg.textItems ds ++ Fuse.text "]"
  | .set name ds => Fuse.text name ++ Fuse.text " {" ++ Dbg.textItems ds ++ Fuse.text "}"

/-- What the builders write for the fields or entries. -/
def Dbg.textItems : List Dbg → Bytes
  | [] => []
  | d :: ds => d.text ++ Dbg.textRest ds

/-- What the builders write for the fields or entries after the first. -/
def Dbg.textRest : List Dbg → Bytes
  | [] => []
  | d :: ds => Fuse.text ", " ++ d.text ++ Dbg.textRest ds

end

/-! ## Values -/

namespace Dbg

/-- `{:?}` of an unsigned number. -/
def nat (n : Nat) : Dbg := .atom (showNat 10 n)
/-- `{:?}` of a `u32`. -/
def u32 (n : UInt32) : Dbg := nat n.toNat
/-- `{:?}` of a `u64`. -/
def u64 (n : UInt64) : Dbg := nat n.toNat
/-- `{:?}` of a `bool`. -/
def bool (b : Bool) : Dbg := .atom (Fuse.text (if b then "true" else "false"))
/-- `{:?}` of an `Option`. -/
def option {α} (f : α → Dbg) : Option α → Dbg
  | none => .atom (Fuse.text "None")
  | some a => .tuple "Some" [f a]
/-- `Debug for NodeId`, fuse/node_id.rs:73-77, and of a `NonZeroU64`. -/
def id (n : NonZeroU64) : Dbg := u64 n.val
/-- `Debug for NodeName`, fuse/node_name.rs:123-127. -/
def name (n : NodeName) : Dbg := .quoted n.bytes
/-- `Debug for CStr` of the standard library. -/
def cstr (s : CStr) : Dbg := .quoted s.bytes
/-- `hex_u32`, fuse/internal/debug.rs:20-34. -/
def hex32 (n : UInt32) : Dbg := .atom (hexU32 n)
/-- `hex_u64`, fuse/internal/debug.rs:36-50; `Debug for LockOwner`, fuse/lock.rs:32-36. -/
def hex64 (n : UInt64) : Dbg := .atom (hexU64 n)
/-- `{:#o}` of a `u32`. -/
def octal (n : UInt32) : Dbg := .atom (Fuse.text "0o" ++ showNat 8 n.toNat)
/-- `Debug for FileMode`, fuse/file_mode.rs:90-94. -/
def mode (m : FileMode) : Dbg := .atom m.debug
/-- `Debug for UnixTime`, fuse/unix_time.rs:104-110. -/
def time (t : UnixTime) : Dbg :=
  .tuple "UnixTime" [.atom (showInt64 t.seconds ++ Fuse.text "." ++ zeroPad 9 (showNat 10 t.nanos.toNat))]
/-- `Debug for $flags`, fuse/internal/bitflags.rs:59-73. -/
def flags (t : FlagType) (s : Flags t.width) : Dbg := .set t.typeName (s.debugMasks.map fun m => .atom (t.debugFlag m))
/-- A set of 32 bits (`FlagType.width` tells which types have 64). -/
def flags32 (t : FlagType) (bits : UInt32) : Dbg := flags t ⟨BitVec.ofNat t.width bits.toNat⟩
/-- A set of 64 bits. -/
def flags64 (t : FlagType) (bits : UInt64) : Dbg := flags t ⟨BitVec.ofNat t.width bits.toNat⟩
/-- `Debug for [u8]`. -/
def byteList (v : Bytes) : Dbg := .list (v.map fun b => nat b.toNat)
/-- `Debug for LseekWhence`, fuse/operations/lseek.rs:82-90. -/
def whence (n : UInt32) : Dbg :=
  if n = 3 then .atom (Fuse.text "SEEK_DATA") else if n = 4 then .atom (Fuse.text "SEEK_HOLE") else u32 n
/-- `Debug for LockMode`, fuse/lock.rs:211-223. -/
def lockMode (p : Platform) (m : UInt32) : Dbg :=
  if m = F_RDLCK p then .atom (Fuse.text "F_RDLCK")
  else if m = F_WRLCK p then .atom (Fuse.text "F_WRLCK")
  else if m = F_UNLCK p then .atom (Fuse.text "F_UNLCK")
  else .tuple "LockMode" [u32 m]
/-- `Debug for LockRange`, fuse/lock.rs:119-126. -/
def lockRange (r : LockRange) : Dbg := .record "LockRange" [.field "start" (u64 r.start), .field "length" (option id r.length)]
/-- `Debug for ProcessId`, fuse/lock.rs:169-173, and of a `NonZeroU32`. -/
def pid (n : { n : UInt32 // n ≠ 0 }) : Dbg := u32 n.val
/-- `Debug for Lock`, fuse/lock.rs:277-285. -/
def lock (p : Platform) (l : Lock) : Dbg :=
  .record "Lock" [.field "mode" (lockMode p l.mode), .field "range" (lockRange l.range),
    .field "process_id" (option pid l.processId)]
/-- `Debug for Version`, fuse/fuse.rs:386-390 (derived). -/
def version (v : Version) : Dbg := .record "Version" [.field "major" (u32 v.major), .field "minor" (u32 v.minor)]
/-- `Debug for ForgetRequestItem`, fuse/operations/forget.rs:25-29 (derived). -/
def item (i : ForgetItem) : Dbg :=
  .record "ForgetRequestItem" [.field "node_id" (id i.nodeId), .field "lookup_count" (u64 i.lookupCount)]
/-- `Debug for ForgetRequestIter`, fuse/operations/forget.rs:168-172. -/
def items (l : List ForgetItem) : Dbg := .list (l.map item)

end Dbg

/-! ## Headers and undecoded requests -/

/-- The arms of `Debug for fuse_opcode`, fuse/kernel.rs:576-633. -/
def opcodeNames : List (Nat × String) :=
  [(1, "FUSE_LOOKUP"), (2, "FUSE_FORGET"), (3, "FUSE_GETATTR"), (4, "FUSE_SETATTR"), (5, "FUSE_READLINK"),
    (6, "FUSE_SYMLINK"), (8, "FUSE_MKNOD"), (9, "FUSE_MKDIR"), (10, "FUSE_UNLINK"), (11, "FUSE_RMDIR"),
    (12, "FUSE_RENAME"), (13, "FUSE_LINK"), (14, "FUSE_OPEN"), (15, "FUSE_READ"), (16, "FUSE_WRITE"),
    (17, "FUSE_STATFS"), (18, "FUSE_RELEASE"), (20, "FUSE_FSYNC"), (21, "FUSE_SETXATTR"), (22, "FUSE_GETXATTR"),
    (23, "FUSE_LISTXATTR"), (24, "FUSE_REMOVEXATTR"), (25, "FUSE_FLUSH"), (26, "FUSE_INIT"), (27, "FUSE_OPENDIR"),
    (28, "FUSE_READDIR"), (29, "FUSE_RELEASEDIR"), (30, "FUSE_FSYNCDIR"), (31, "FUSE_GETLK"), (32, "FUSE_SETLK"),
    (33, "FUSE_SETLKW"), (34, "FUSE_ACCESS"), (35, "FUSE_CREATE"), (36, "FUSE_INTERRUPT"), (37, "FUSE_BMAP"),
    (38, "FUSE_DESTROY"), (39, "FUSE_IOCTL"), (40, "FUSE_POLL"), (41, "FUSE_NOTIFY_REPLY"),
    (42, "FUSE_BATCH_FORGET"), (43, "FUSE_FALLOCATE"), (44, "FUSE_READDIRPLUS"), (45, "FUSE_RENAME2"),
    (46, "FUSE_LSEEK"), (47, "FUSE_COPY_FILE_RANGE"), (48, "FUSE_SETUPMAPPING"), (49, "FUSE_REMOVEMAPPING"),
    (50, "FUSE_SYNCFS"), (4096, "CUSE_INIT"), (1048576, "CUSE_INIT_BSWAP_RESERVED"),
    (436207616, "FUSE_INIT_BSWAP_RESERVED")]

/-- `Debug for fuse_opcode`, fuse/kernel.rs:576-633. -/
def Dbg.opcode (n : UInt32) : Dbg :=
  match opcodeNames.find? fun p => p.1 == n.toNat with
  | some p => .atom (Fuse.text p.2)
  | none => .tuple "fuse_opcode" [.u32 n]

/-- `Debug for RequestHeader`, fuse/fuse.rs:254-266. -/
def FuseInHeader.debug (h : FuseInHeader) : Except Fault Dbg := do
  return .record "RequestHeader" [.field "request_id" (Dbg.id (← h.requestId)),
    .field "request_len" (Dbg.nat (← h.requestLen)), .field "opcode" (Dbg.opcode h.opcode),
    .field "node_id" (Dbg.option Dbg.id h.nodeId), .field "user_id" (Dbg.u32 h.uid),
    .field "group_id" (Dbg.u32 h.gid), .field "process_id" (Dbg.option Dbg.pid h.processId)]

/-- `Debug for CuseRequest` (`isCuse`), fuse/server.rs:458-465, and `Debug for FuseRequest`,
fuse/server.rs:515-522. -/
def Request.debug (isCuse : Bool) (r : Request) : Except Fault Dbg := do
  let h ← (← r.rawHeader).debug
  return .record (if isCuse then "CuseRequest" else "FuseRequest")
    [.field "header" h, .field "body" (Dbg.byteList (← r.body))]

/-! ## Decoded requests -/

/-- fuse/operations/access.rs:56-63. -/
def AccessRequest.debug (r : AccessRequest) : Except Fault Dbg := do
  return .record "AccessRequest" [.field "node_id" (Dbg.id r.nodeId), .field "mask" (Dbg.u32 r.mask)]

/-- fuse/operations/bmap.rs:58-66. -/
def BmapRequest.debug (r : BmapRequest) : Except Fault Dbg := do
  return .record "BmapRequest" [.field "node_id" (Dbg.id (← r.nodeId)), .field "block" (Dbg.u64 r.block),
    .field "block_size" (Dbg.u32 r.blockSize)]

/-- fuse/operations/copy_file_range.rs:89-102. -/
def CopyFileRangeRequest.debug (r : CopyFileRangeRequest) : Except Fault Dbg := do
  return .record "CopyFileRangeRequest" [.field "input_node_id" (Dbg.id (← r.inputNodeId)),
    .field "input_handle" (Dbg.u64 r.inputHandle), .field "input_offset" (Dbg.u64 r.inputOffset),
    .field "output_node_id" (Dbg.id (← r.outputNodeId)), .field "output_handle" (Dbg.u64 r.outputHandle),
    .field "output_offset" (Dbg.u64 r.outputOffset), .field "len" (Dbg.u64 r.len),
    .field "flags" (Dbg.flags64 .copyFileRangeRequest r.flags)]

/-- fuse/operations/fallocate.rs:69-79. -/
def FallocateRequest.debug (r : FallocateRequest) : Except Fault Dbg := do
  return .record "FallocateRequest" [.field "node_id" (Dbg.id (← r.nodeId)), .field "handle" (Dbg.u64 r.handle),
    .field "offset" (Dbg.u64 r.offset), .field "length" (Dbg.u64 r.length),
    .field "fallocate_flags" (Dbg.hex32 r.fallocateFlags)]

/-- fuse/operations/forget.rs:96-102. -/
def ForgetRequest.debug (r : ForgetRequest) : Except Fault Dbg := do
  return .record "ForgetRequest" [.field "items" (Dbg.items r.items)]

/-- fuse/operations/fsyncdir.rs:60-68. -/
def FsyncdirRequest.debug (r : FsyncdirRequest) : Except Fault Dbg := do
  return .record "FsyncdirRequest" [.field "node_id" (Dbg.id (← r.nodeId)), .field "handle" (Dbg.u64 r.handle),
    .field "flags" (Dbg.flags32 .fsyncdirRequest r.flags)]

/-- fuse/operations/getlk.rs:76-86. -/
def GetlkRequest.debug (p : Platform) (r : GetlkRequest) : Except Fault Dbg := do
  return .record "GetlkRequest" [.field "node_id" (Dbg.id (← r.nodeId)), .field "handle" (Dbg.u64 r.handle),
    .field "owner" (Dbg.hex64 r.owner), .field "lock_mode" (Dbg.lockMode p r.lockMode),
    .field "lock_range" (Dbg.lockRange r.lockRange)]

/-- fuse/operations/getxattr.rs:66-74. -/
def GetxattrRequest.debug (r : GetxattrRequest) : Except Fault Dbg := do
  return .record "GetxattrRequest" [.field "node_id" (Dbg.id (← r.nodeId)),
    .field "size" (Dbg.option (fun n => Dbg.nat n.val) r.size), .field "name" (Dbg.cstr r.name)]

/-- fuse/operations/interrupt.rs:60-66. -/
def InterruptRequest.debug (r : InterruptRequest) : Except Fault Dbg := do
  return .record "InterruptRequest" [.field "request_id" (Dbg.id (← r.requestId))]

/-- fuse/operations/link.rs:23-28 (derived). -/
def LinkRequest.debug (r : LinkRequest) : Except Fault Dbg := do
  return .record "LinkRequest" [.field "node_id" (Dbg.id r.nodeId), .field "new_parent_id" (Dbg.id r.newParentId),
    .field "new_name" (Dbg.name r.newName)]

/-- fuse/operations/listxattr.rs:61-68. -/
def ListxattrRequest.debug (r : ListxattrRequest) : Except Fault Dbg := do
  return .record "ListxattrRequest" [.field "node_id" (Dbg.id (← r.nodeId)),
    .field "size" (Dbg.option (fun n => Dbg.nat n.val) r.size)]

/-- fuse/operations/lookup.rs:23-27 (derived). -/
def LookupRequest.debug (r : LookupRequest) : Except Fault Dbg := do
  return .record "LookupRequest" [.field "parent_id" (Dbg.id r.parentId), .field "name" (Dbg.name r.name)]

/-- fuse/operations/lseek.rs:63-72. -/
def LseekRequest.debug (r : LseekRequest) : Except Fault Dbg := do
  return .record "LseekRequest" [.field "node_id" (Dbg.id r.nodeId), .field "handle" (Dbg.u64 r.handle),
    .field "offset" (Dbg.u64 r.offset), .field "whence" (Dbg.whence r.whence)]

/-- fuse/operations/mkdir.rs:67-76. -/
def MkdirRequest.debug (r : MkdirRequest) : Except Fault Dbg := do
  return .record "MkdirRequest" [.field "parent_id" (Dbg.id r.parentId), .field "name" (Dbg.name r.name),
    .field "mode" (Dbg.mode r.mode), .field "umask" (Dbg.octal r.umask)]

/-- fuse/operations/opendir.rs:62-70. -/
def OpendirRequest.debug (r : OpendirRequest) : Except Fault Dbg := do
  return .record "OpendirRequest" [.field "node_id" (Dbg.id (← r.nodeId)),
    .field "flags" (Dbg.flags32 .opendirRequest r.flags), .field "open_flags" (Dbg.hex32 r.openFlags)]

/-- fuse/operations/poll.rs:114-123. -/
def PollRequest.debug (r : PollRequest) : Except Fault Dbg := do
  return .record "PollRequest" [.field "node_id" (Dbg.id (← r.nodeId)), .field "poll_handle" (Dbg.u64 r.pollHandle),
    .field "poll_events" (Dbg.hex32 r.pollEvents), .field "flags" (Dbg.flags32 .pollRequest r.flags)]

/-- fuse/operations/readlink.rs:48-54. -/
def ReadlinkRequest.debug (r : ReadlinkRequest) : Except Fault Dbg := do
  return .record "ReadlinkRequest" [.field "node_id" (Dbg.id r.nodeId)]

/-- fuse/operations/removexattr.rs:55-62. -/
def RemovexattrRequest.debug (r : RemovexattrRequest) : Except Fault Dbg := do
  return .record "RemovexattrRequest" [.field "node_id" (Dbg.id (← r.nodeId)), .field "name" (Dbg.cstr r.name)]

/-- fuse/operations/rename.rs:88-98. -/
def RenameRequest.debug (r : RenameRequest) : Except Fault Dbg := do
  return .record "RenameRequest" [.field "old_directory_id" (Dbg.id r.oldDirectoryId),
    .field "old_name" (Dbg.name r.oldName), .field "new_directory_id" (Dbg.id r.newDirectoryId),
    .field "new_name" (Dbg.name r.newName), .field "rename_flags" (Dbg.hex32 r.renameFlags)]

/-- fuse/operations/rmdir.rs:23-27 (derived). -/
def RmdirRequest.debug (r : RmdirRequest) : Except Fault Dbg := do
  return .record "RmdirRequest" [.field "parent_id" (Dbg.id r.parentId), .field "name" (Dbg.name r.name)]

/-- fuse/operations/setattr.rs:151-168. -/
def SetattrRequest.debug (r : SetattrRequest) : Except Fault Dbg := do
  return .record "SetattrRequest" [.field "node_id" (Dbg.id (← r.nodeId)),
    .field "handle" (Dbg.option Dbg.u64 r.handle), .field "size" (Dbg.option Dbg.u64 r.size),
    .field "lock_owner" (Dbg.option Dbg.hex64 r.lockOwner), .field "atime" (Dbg.option Dbg.time (← r.atime)),
    .field "atime_now" (Dbg.bool r.atimeNow), .field "mtime" (Dbg.option Dbg.time (← r.mtime)),
    .field "mtime_now" (Dbg.bool r.mtimeNow), .field "ctime" (Dbg.option Dbg.time (← r.ctime)),
    .field "mode" (Dbg.option Dbg.mode r.mode), .field "user_id" (Dbg.option Dbg.u32 r.userId),
    .field "group_id" (Dbg.option Dbg.u32 r.groupId)]

/-- fuse/operations/setlk.rs:105-116. -/
def SetlkRequest.debug (p : Platform) (r : SetlkRequest) : Except Fault Dbg := do
  return .record "SetlkRequest" [.field "node_id" (Dbg.id (← r.nodeId)), .field "handle" (Dbg.u64 r.handle),
    .field "may_block" (Dbg.bool r.mayBlock), .field "owner" (Dbg.hex64 r.owner),
    .field "lock" (Dbg.lock p r.lock), .field "flags" (Dbg.flags32 .setlkRequest r.flags)]

/-- fuse/operations/statfs.rs:49-55. -/
def StatfsRequest.debug (r : StatfsRequest) : Except Fault Dbg := do
  return .record "StatfsRequest" [.field "node_id" (Dbg.id r.nodeId)]

/-- fuse/operations/symlink.rs:63-71. -/
def SymlinkRequest.debug (r : SymlinkRequest) : Except Fault Dbg := do
  return .record "SymlinkRequest" [.field "parent_id" (Dbg.id r.parentId), .field "name" (Dbg.name r.name),
    .field "content" (Dbg.cstr r.content)]

/-- fuse/operations/unlink.rs:25-29 (derived). -/
def UnlinkRequest.debug (r : UnlinkRequest) : Except Fault Dbg := do
  return .record "UnlinkRequest" [.field "parent_id" (Dbg.id r.parentId), .field "name" (Dbg.name r.name)]

/-- fuse/operations/fuse_init.rs:112-120. -/
def FuseInitRequest.debug (r : FuseInitRequest) : Except Fault Dbg := do
  return .record "FuseInitRequest" [.field "version" (Dbg.version r.version),
    .field "max_readahead" (Dbg.u32 r.maxReadahead), .field "flags" (Dbg.flags64 .fuseInit r.flags)]

/-- fuse/operations/cuse_init.rs:62-69. -/
def CuseInitRequest.debug (r : CuseInitRequest) : Except Fault Dbg := do
  return .record "CuseInitRequest" [.field "version" (Dbg.version r.version),
    .field "flags" (Dbg.flags32 .cuseInit r.flags)]

/-- fuse/operations/create.rs:99-110. -/
def CreateRequest.debug (r : CreateRequest) : Except Fault Dbg := do
  return .record "CreateRequest" [.field "node_id" (Dbg.id (← r.nodeId)), .field "name" (Dbg.name r.name),
    .field "flags" (Dbg.flags32 .createRequest (← r.flags)), .field "open_flags" (Dbg.hex32 (← r.openFlags)),
    .field "mode" (Dbg.mode (← r.mode)), .field "umask" (Dbg.u32 (← r.umask))]

/-- fuse/operations/getattr.rs:66-73. -/
def GetattrRequest.debug (r : GetattrRequest) : Except Fault Dbg := do
  return .record "GetattrRequest" [.field "node_id" (Dbg.id (← r.nodeId)),
    .field "handle" (Dbg.option Dbg.u64 (← r.handle))]

/-- fuse/operations/mknod.rs:89-99. -/
def MknodRequest.debug (r : MknodRequest) : Except Fault Dbg := do
  return .record "MknodRequest" [.field "parent_id" (Dbg.id (← r.parentId)), .field "name" (Dbg.name r.name),
    .field "mode" (Dbg.mode (← r.mode)), .field "umask" (Dbg.octal (← r.umask)),
    .field "device_number" (Dbg.option Dbg.u32 (← r.deviceNumber))]

/-- fuse/operations/readdir.rs:89-99. -/
def ReaddirRequest.debug (r : ReaddirRequest) : Except Fault Dbg := do
  return .record "ReaddirRequest" [.field "node_id" (Dbg.id (← r.nodeId)), .field "size" (Dbg.u32 (← r.size)),
    .field "offset" (Dbg.option Dbg.id (← r.offset)), .field "handle" (Dbg.u64 (← r.handle)),
    .field "open_flags" (Dbg.hex32 (← r.openFlags))]

/-- fuse/operations/readdirplus.rs:88-98. -/
def ReaddirplusRequest.debug (r : ReaddirplusRequest) : Except Fault Dbg := do
  return .record "ReaddirplusRequest" [.field "node_id" (Dbg.id (← r.nodeId)), .field "size" (Dbg.u32 (← r.size)),
    .field "offset" (Dbg.option Dbg.id (← r.offset)), .field "handle" (Dbg.u64 (← r.handle)),
    .field "open_flags" (Dbg.hex32 (← r.openFlags))]

/-- fuse/operations/releasedir.rs:81-90. -/
def ReleasedirRequest.debug (r : ReleasedirRequest) : Except Fault Dbg := do
  return .record "ReleasedirRequest" [.field "node_id" (Dbg.id (← r.nodeId)),
    .field "handle" (Dbg.u64 (← r.handle)), .field "lock_owner" (Dbg.option Dbg.hex64 (← r.lockOwner)),
    .field "open_flags" (Dbg.hex32 (← r.openFlags))]

/-- fuse/operations/setxattr.rs:93-103. -/
def SetxattrRequest.debug (r : SetxattrRequest) : Except Fault Dbg := do
  return .record "SetxattrRequest" [.field "node_id" (Dbg.id (← r.nodeId)), .field "name" (Dbg.cstr r.name),
    .field "flags" (Dbg.flags32 .setxattrRequest (← r.flags)),
    .field "setxattr_flags" (Dbg.hex32 (← r.setxattrFlags)), .field "value" (.quoted r.value)]

/-- fuse/operations/flush.rs:84-92. -/
def FlushRequest.debug (r : FlushRequest) : Except Fault Dbg := do
  return .record "FlushRequest" [.field "node_id" (Dbg.id r.nodeId), .field "handle" (Dbg.u64 r.handle),
    .field "lock_owner" (Dbg.hex64 r.lockOwner)]

/-- fuse/operations/fsync.rs:76-84. -/
def FsyncRequest.debug (r : FsyncRequest) : Except Fault Dbg := do
  return .record "FsyncRequest" [.field "node_id" (Dbg.id r.nodeId), .field "handle" (Dbg.u64 r.handle),
    .field "flags" (Dbg.flags32 .fsyncRequest r.flags)]

/-- fuse/operations/ioctl.rs:112-124. -/
def IoctlRequest.debug (r : IoctlRequest) : Except Fault Dbg := do
  return .record "IoctlRequest" [.field "node_id" (Dbg.id r.nodeId), .field "handle" (Dbg.u64 r.handle),
    .field "command" (Dbg.hex32 r.command), .field "arg" (Dbg.hex64 r.arg),
    .field "output_len" (Dbg.u32 r.outputLen), .field "flags" (Dbg.flags32 .ioctlRequest r.flags),
    .field "input" (Dbg.byteList r.input)]

/-- fuse/operations/open.rs:78-86. -/
def OpenRequest.debug (r : OpenRequest) : Except Fault Dbg := do
  return .record "OpenRequest" [.field "node_id" (Dbg.id r.nodeId),
    .field "flags" (Dbg.flags32 .openRequest r.flags), .field "open_flags" (Dbg.hex32 r.openFlags)]

/-- fuse/operations/read.rs:112-123. -/
def ReadRequest.debug (r : ReadRequest) : Except Fault Dbg := do
  return .record "ReadRequest" [.field "node_id" (Dbg.id r.nodeId), .field "size" (Dbg.u32 (← r.size)),
    .field "offset" (Dbg.u64 (← r.offset)), .field "handle" (Dbg.u64 (← r.handle)),
    .field "lock_owner" (Dbg.option Dbg.hex64 (← r.lockOwner)), .field "open_flags" (Dbg.hex32 (← r.openFlags))]

/-- fuse/operations/release.rs:99-108. -/
def ReleaseRequest.debug (r : ReleaseRequest) : Except Fault Dbg := do
  return .record "ReleaseRequest" [.field "node_id" (Dbg.id r.nodeId), .field "handle" (Dbg.u64 (← r.handle)),
    .field "lock_owner" (Dbg.option Dbg.hex64 (← r.lockOwner)), .field "open_flags" (Dbg.hex32 (← r.openFlags))]

/-- fuse/operations/write.rs:181-193. -/
def WriteRequest.debug (r : WriteRequest) : Except Fault Dbg := do
  return .record "WriteRequest" [.field "node_id" (Dbg.id (← r.nodeId)), .field "offset" (Dbg.u64 (← r.offset)),
    .field "handle" (Dbg.u64 (← r.handle)), .field "value" (.quoted (← r.value)),
    .field "flags" (Dbg.flags32 .writeRequest (← r.flags)),
    .field "lock_owner" (Dbg.option Dbg.hex64 (← r.lockOwner)), .field "open_flags" (Dbg.hex32 (← r.openFlags))]

/-- `Debug` of a decoded request; the citations are at the individual types. -/
def AnyRequest.debug (p : Platform) : AnyRequest → Except Fault Dbg
  | .access r => r.debug
  | .bmap r => r.debug
  | .copyFileRange r => r.debug
  | .fallocate r => r.debug
  | .forget r => r.debug
  | .fsyncdir r => r.debug
  | .getlk r => r.debug p
  | .getxattr r => r.debug
  | .interrupt r => r.debug
  | .link r => r.debug
  | .listxattr r => r.debug
  | .lookup r => r.debug
  | .lseek r => r.debug
  | .mkdir r => r.debug
  | .opendir r => r.debug
  | .poll r => r.debug
  | .readlink r => r.debug
  | .removexattr r => r.debug
  | .rename r => r.debug
  | .rmdir r => r.debug
  | .setattr r => r.debug
  | .setlk r => r.debug p
  | .statfs r => r.debug
  | .symlink r => r.debug
  | .unlink r => r.debug
  | .fuseInit r => r.debug
  | .cuseInit r => r.debug
  | .create r => r.debug
  | .getattr r => r.debug
  | .mknod r => r.debug
  | .readdir r => r.debug
  | .readdirplus r => r.debug
  | .releasedir r => r.debug
  | .setxattr r => r.debug
  | .flush r => r.debug
  | .fsync r => r.debug
  | .ioctl r => r.debug
  | .open_ r => r.debug
  | .read r => r.debug
  | .release r => r.debug
  | .write r => r.debug

end Fuse
