import Verif.DebugReq
import Verif.Records
import Verif.Dirent
import Verif.Xattr
import Verif.Ioctl

/-!
# Text written by `Debug` for responses, notifications and what they are made of

As in `DebugReq` the model of an implementation is the tree it hands to the builders of `core::fmt`.  Accessors that
make a non-zero number out of a field without a check are `Fault.invalid` on a zero, as elsewhere.  The listings are
formatted entry by entry by their iterators, whose loops are relations (`DirentCollects`, `XattrCollects`), so the tree
of a listing is a relation as well.
-/

namespace Fuse

/-! ## `Debug for Duration` of the standard library (core/src/time.rs, Rust 1.81) -/

/-- The digits behind the decimal point: `k` digits of `f`, without the zeros at the end.  The loop of `fmt_decimal`. -/
def fracDigits : Nat → Nat → Bytes
  | 0, _ => []
  | k + 1, f => if f = 0 then [] else UInt8.ofNat (48 + f / 10 ^ k) :: fracDigits k (f % 10 ^ k)

/-- `fmt_decimal` without a precision or width: the digits of the integer part, the fraction if there is one, the unit. -/
def fmtDecimal (int frac k : Nat) (unit : Bytes) : Bytes :=
  showNat 10 int ++ (if frac = 0 then [] else 46 :: fracDigits k frac) ++ unit

/-- `Debug for Duration`. -/
def Duration.debug (d : Duration) : Bytes :=
  let nanos := d.nanos.toNat
  if d.secs.toNat > 0 then fmtDecimal d.secs.toNat nanos 9 (text "s")
  else if nanos ≥ 1000000 then fmtDecimal (nanos / 1000000) (nanos % 1000000) 6 (text "ms")
  else if nanos ≥ 1000 then fmtDecimal (nanos / 1000) (nanos % 1000) 3 [0xC2, 0xB5, 0x73]
  else fmtDecimal nanos 0 1 (text "ns")

/-! ## Values -/

namespace Dbg

/-- `{:?}` of an `i64`. -/
def i64 (n : Int64) : Dbg := .atom (showInt64 n)
/-- `{:?}` of an `i32`. -/
def i32 (n : Int32) : Dbg := i64 n.toInt64
/-- `{:?}` of a `u16`. -/
def u16 (n : UInt16) : Dbg := nat n.toNat
/-- `{:?}` of a `NonZeroI32`. -/
def errno (n : { n : Int32 // n ≠ 0 }) : Dbg := i32 n.val
/-- `{:?}` of a `Duration`. -/
def duration (d : Duration) : Dbg := .atom d.debug
/-- `Debug for FileType`, fuse/file_mode.rs:132-165 (derived). -/
def fileType (t : FileType) : Dbg := .atom (Fuse.text (match t with
  | .blockDevice => "BlockDevice"
  | .characterDevice => "CharacterDevice"
  | .directory => "Directory"
  | .namedPipe => "NamedPipe"
  | .regular => "Regular"
  | .socket => "Socket"
  | .symlink => "Symlink"))
/-- `Debug for DeviceName`, fuse/cuse.rs:118-122. -/
def deviceName (n : CuseDeviceName) : Dbg := .quoted n.bytes
/-- `Debug for DeviceNumber`, fuse/cuse.rs:160-164 (derived). -/
def deviceNumber (n : CuseDeviceNumber) : Dbg :=
  .record "DeviceNumber" [.field "major" (u32 n.major), .field "minor" (u32 n.minor)]
/-- `Debug for IoctlSlice`, fuse/operations/ioctl.rs:419-426. -/
def ioctlSlice (s : IoctlSlice) : Dbg := .record "IoctlSlice" [.field "base" (hex64 s.base), .field "len" (u64 s.len)]
/-- `Debug for IoctlRetry`, fuse/operations/ioctl.rs:434-438 (derived). -/
def ioctlRetry (r : IoctlRetry) : Dbg :=
  .record "IoctlRetry" [.field "input_slices" (.list (r.input.map ioctlSlice)),
    .field "output_slices" (.list (r.output.map ioctlSlice))]
/-- `Debug for StatfsAttributes`, fuse/operations/statfs.rs:153-166. -/
def statfs (a : StatfsAttributes) : Dbg :=
  .record "StatfsAttributes" [.field "block_count" (u64 a.blockCount), .field "block_size" (u32 a.blockSize),
    .field "blocks_available" (u64 a.blocksAvailable), .field "blocks_free" (u64 a.blocksFree),
    .field "fragment_size" (u32 a.fragmentSize), .field "inode_count" (u64 a.inodeCount),
    .field "inodes_free" (u64 a.inodesFree), .field "max_filename_length" (u32 a.maxFilenameLength)]
/-- `Debug for FuseInitResponse`, fuse/operations/fuse_init.rs:214-225. -/
def fuseInitResponse (r : FuseInitResponse) : Dbg :=
  .record "FuseInitResponse" [.field "max_readahead" (u32 r.maxReadahead), .field "flags" (flags64 .fuseInit r.flags),
    .field "max_background" (u16 r.maxBackground), .field "congestion_threshold" (u16 r.congestionThreshold),
    .field "max_write" (u32 r.maxWrite), .field "time_granularity" (u32 r.timeGranularity)]
/-- `Debug for CuseInitResponse`, fuse/operations/cuse_init.rs:156-170, with `max_read` and `device_number`,
fuse/operations/cuse_init.rs:124-127 and 142-148. -/
def cuseInitResponse (r : CuseInitResponse) : Dbg :=
  .record "CuseInitResponse" ((match r.deviceName with
    | some n => [.field "device_name" (deviceName n)]
    | none => []) ++
    [.field "version" (version r.version), .field "flags" (flags32 .cuseInit r.flags),
      .field "max_read" (u32 r.raw.max_read), .field "max_write" (u32 r.maxWrite),
      .field "device_number" (deviceNumber ⟨r.raw.dev_major, r.raw.dev_minor⟩)])
/-- `Debug for Poll`, fuse/notify.rs:302-308, and for `PollHandle`, fuse/operations/poll.rs:31-35. -/
def poll (p : NotifyPoll) : Dbg := .record "Poll" [.field "poll_handle" (u64 p.pollHandle)]
/-- `Debug for IoctlResponse`, fuse/operations/ioctl.rs:334-357; `setResult` is the private field `set_result`, which
tells whether `set_result` has been called, fuse/operations/ioctl.rs:328-331. -/
def ioctlResponse (x : IoctlResponse) (setResult : Bool) : Dbg :=
  .record "IoctlResponse" (match x.output with
    | .bytes output => [.field "result" (i32 x.raw.result), .field "output" (byteList output)]
    | .retry input output =>
      (if setResult then [.field "result" (i32 x.raw.result)] else []) ++
        [.field "retry" (ioctlRetry ⟨input, output⟩)])

end Dbg

/-! ## Implementations calling unchecked accessors -/

/-- `Debug for NodeAttr`, fuse/node_attr.rs:291-309. -/
def NodeAttr.debug (a : NodeAttr) : Except Fault Dbg := do
  let nodeId ← a.nodeId
  let atime ← a.atime
  let mtime ← a.mtime
  let ctime ← a.ctime
  pure (.record "NodeAttr" [.field "node_id" (.id nodeId), .field "mode" (.mode a.mode), .field "size" (.u64 a.size),
    .field "atime" (.time atime), .field "mtime" (.time mtime), .field "ctime" (.time ctime),
    .field "link_count" (.u32 a.linkCount), .field "user_id" (.u32 a.userId), .field "group_id" (.u32 a.groupId),
    .field "device_number" (.u32 a.deviceNumber), .field "block_count" (.u64 a.blockCount),
    .field "block_size" (.u32 a.blockSize), .field "flags" (.flags32 .attribute a.raw.flags)])

/-- `Debug for Entry`, fuse/entry.rs:121-130. -/
def Entry.debug (e : Entry) : Except Fault Dbg := do
  let attributes ← e.attributes.debug
  pure (.record "Entry" [.field "generation" (.u64 e.generation), .field "attributes" attributes,
    .field "cache_timeout" (.duration e.cacheTimeout),
    .field "attribute_cache_timeout" (.duration e.attributeCacheTimeout)])

/-- `Debug for CreateResponse`, fuse/operations/create.rs:174-182. -/
def CreateResponse.debug (r : CreateResponse) : Except Fault Dbg := do
  let entry ← r.entry.debug
  pure (.record "CreateResponse" [.field "entry" entry, .field "handle" (.u64 r.handle),
    .field "flags" (.flags32 .createResponse r.flags)])

/-- `Debug for ResponseHeader`, fuse/fuse.rs:351-359. -/
def ResponseHeader.debug (h : ResponseHeader) : Except Fault Dbg := do
  let len ← h.responseLen
  pure (.record "ResponseHeader" [.field "request_id" (.option .id h.requestId), .field "response_len" (.pid len),
    .field "error" (.option .errno h.error)])

/-- `Debug for Delete`, fuse/notify.rs:155-163. -/
def NotifyDelete.debug (d : NotifyDelete) : Except Fault Dbg := do
  let parentId ← d.parentId
  let nodeId ← d.nodeId
  pure (.record "Delete" [.field "parent_id" (.id parentId), .field "node_id" (.id nodeId), .field "name" (.name d.name)])

/-- `Debug for InvalidateEntry`, fuse/notify.rs:201-208. -/
def InvalidateEntry.debug (d : InvalidateEntry) : Except Fault Dbg := do
  let parentId ← d.parentId
  pure (.record "InvalidateEntry" [.field "parent_id" (.id parentId), .field "name" (.name d.name)])

/-- `Debug for InvalidateInode`, fuse/notify.rs:267-275. -/
def InvalidateInode.debug (d : InvalidateInode) : Except Fault Dbg := do
  let nodeId ← d.nodeId
  pure (.record "InvalidateInode" [.field "node_id" (.id nodeId), .field "offset" (.i64 d.offset),
    .field "size" (.i64 d.size)])

/-- `Debug for ReaddirEntry`, fuse/operations/readdir.rs:160-169. -/
def readdirEntryDebug (e : ReaddirEntry) : Except Fault Dbg := do
  let nodeId ← ReaddirEntry.nodeId e
  let offset ← ReaddirEntry.offset e
  pure (.record "ReaddirEntry" [.field "node_id" (.id nodeId), .field "offset" (.id offset),
    .field "file_type" (.option .fileType (ReaddirEntry.fileType e)), .field "name" (.name e.name)])

/-- `Debug for ReaddirplusEntry`, fuse/operations/readdirplus.rs:154-162 (the name is that of the other type). -/
def readdirplusEntryDebug (e : ReaddirplusEntry) : Except Fault Dbg := do
  let offset ← ReaddirplusEntry.offset e
  let entry ← (ReaddirplusEntry.entry e).debug
  pure (.record "ReaddirEntry" [.field "name" (.name e.name), .field "offset" (.id offset), .field "entry" entry])

/-! ## Listings -/

/-- `Debug for ReaddirEntries`, fuse/operations/readdir.rs:188-194. -/
def ReaddirEntriesDebug (buf : Bytes) (d : Dbg) : Prop :=
  ∃ es ds, DirentCollects FuseDirent buf (.ok es) ∧ es.mapM readdirEntryDebug = .ok ds ∧ d = .list ds

/-- `Debug for ReaddirplusEntries`, fuse/operations/readdirplus.rs:181-187. -/
def ReaddirplusEntriesDebug (buf : Bytes) (d : Dbg) : Prop :=
  ∃ es ds, DirentCollects FuseDirentplus buf (.ok es) ∧ es.mapM readdirplusEntryDebug = .ok ds ∧ d = .list ds

/-- `Debug for ListxattrNames`, fuse/operations/listxattr.rs:87-93. -/
def ListxattrNamesDebug (buf : Bytes) (d : Dbg) : Prop :=
  ∃ ns, XattrCollects buf (.ok ns) ∧ d = .list (ns.map .cstr)

end Fuse
