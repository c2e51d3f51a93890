import Verif.Decode

/-!
# Request types

One structure and one decoder per request type of `fuse/operations/*.rs`, transcribed from the
`try_from_fuse_request!` / `try_from_cuse_request!` bodies, with the public accessors.

Borrowed records (`&'a kernel::fuse_..._in`) are modelled by their value.  Accessors that use an
unchecked constructor return `Except Fault _`.
-/

namespace Fuse

/-- `CuseLayout`, fuse/server.rs:215-217. -/
structure CuseLayout where
  versionMinor : UInt16
deriving DecidableEq, Repr

/-- `FuseLayout`, fuse/server.rs:243-246. -/
structure FuseLayout where
  versionMinor : UInt16
  features : UInt16
deriving DecidableEq, Repr

/-- `FEATURE_SETXATTR_EXT`, fuse/server.rs:248. -/
abbrev FEATURE_SETXATTR_EXT : UInt16 := 1

/-- `FuseLayout::version_minor`, fuse/server.rs:275-278. -/
def FuseLayout.minor (l : FuseLayout) : UInt32 := l.versionMinor.toUInt32

/-- `CuseLayout::version_minor`, fuse/server.rs:235-238. -/
def CuseLayout.minor (l : CuseLayout) : UInt32 := l.versionMinor.toUInt32

/-- `FuseLayout::have_setxattr_ext`, fuse/server.rs:281-283. -/
def FuseLayout.haveSetxattrExt (l : FuseLayout) : Bool := l.features &&& FEATURE_SETXATTR_EXT != 0

/-- `compat::Versioned`, fuse/internal/compat.rs:20-23.  The payload is a union of references, that
is a pointer; `bytes` is the memory it was derived from. -/
structure Versioned where
  versionMinor : UInt32
  bytes : Bytes
deriving DecidableEq, Repr

/-- Reading a variant of the union: fails if the record extends past the referenced memory. -/
def Versioned.get (v : Versioned) (T : Type) [Wire T] : Except Fault T :=
  if Wire.size T ≤ v.bytes.length then .ok (dec (v.bytes.take (Wire.size T))) else .error .oob

/-- The `as_v7pN` pattern of fuse/internal/compat.rs (e.g. lines 69-75): available from minor
version `since` on. -/
def Versioned.getSince (v : Versioned) (since : UInt32) (T : Type) [Wire T] :
    Except Fault (Option T) :=
  if v.versionMinor ≥ since then some <$> v.get T else .ok none

/-- `NodeId::new(header.nodeid).unwrap_or(NodeId::ROOT)`, e.g. fuse/operations/read.rs:37. -/
def FuseInHeader.nodeIdOrRoot (h : FuseInHeader) : NodeId := (NodeId.new h.nodeid).getD NodeId.root

/-- `NodeId::new_unchecked(header.nodeid)`, e.g. fuse/operations/bmap.rs:34. -/
def FuseInHeader.nodeIdUnchecked (h : FuseInHeader) : Except Fault NodeId :=
  NodeId.newUnchecked h.nodeid

/-! ## ACCESS -/

/-- fuse/operations/access.rs:27-43. -/
structure AccessRequest where
  nodeId : NodeId
  mask : UInt32
deriving DecidableEq, Repr

/-- fuse/operations/access.rs:45-54. -/
def decodeAccess : DecM AccessRequest := do
  expectOpcode FUSE_ACCESS
  let raw ← nextSized FuseAccessIn
  let h ← header
  let id ← nodeId h.nodeid
  return ⟨id, raw.mask⟩

/-! ## BMAP -/

/-- fuse/operations/bmap.rs:26-29; accessors lines 33-45. -/
structure BmapRequest where
  header : FuseInHeader
  body : FuseBmapIn
deriving DecidableEq, Repr

/-- fuse/operations/bmap.rs:33-35. -/
def BmapRequest.nodeId (r : BmapRequest) := r.header.nodeIdUnchecked
/-- fuse/operations/bmap.rs:38-40. -/
def BmapRequest.block (r : BmapRequest) : UInt64 := r.body.block
/-- fuse/operations/bmap.rs:43-45. -/
def BmapRequest.blockSize (r : BmapRequest) : UInt32 := r.body.blocksize

/-- fuse/operations/bmap.rs:48-56. -/
def decodeBmap : DecM BmapRequest := do
  expectOpcode FUSE_BMAP
  let h ← header
  let body ← nextSized FuseBmapIn
  let _ ← nodeId h.nodeid
  return ⟨h, body⟩

/-! ## COPY_FILE_RANGE -/

/-- fuse/operations/copy_file_range.rs:26-29; accessors lines 33-72. -/
structure CopyFileRangeRequest where
  header : FuseInHeader
  body : FuseCopyFileRangeIn
deriving DecidableEq, Repr

/-- fuse/operations/copy_file_range.rs:33-35. -/
def CopyFileRangeRequest.inputNodeId (r : CopyFileRangeRequest) := r.header.nodeIdUnchecked
/-- fuse/operations/copy_file_range.rs:38-40. -/
def CopyFileRangeRequest.inputHandle (r : CopyFileRangeRequest) : UInt64 := r.body.fh_in
/-- fuse/operations/copy_file_range.rs:43-45. -/
def CopyFileRangeRequest.inputOffset (r : CopyFileRangeRequest) : UInt64 := r.body.off_in
/-- fuse/operations/copy_file_range.rs:48-50. -/
def CopyFileRangeRequest.outputNodeId (r : CopyFileRangeRequest) : Except Fault NodeId :=
  NodeId.newUnchecked r.body.nodeid_out
/-- fuse/operations/copy_file_range.rs:53-55. -/
def CopyFileRangeRequest.outputHandle (r : CopyFileRangeRequest) : UInt64 := r.body.fh_out
/-- fuse/operations/copy_file_range.rs:58-60. -/
def CopyFileRangeRequest.outputOffset (r : CopyFileRangeRequest) : UInt64 := r.body.off_out
/-- fuse/operations/copy_file_range.rs:63-65. -/
def CopyFileRangeRequest.len (r : CopyFileRangeRequest) : UInt64 := r.body.len
/-- fuse/operations/copy_file_range.rs:68-72. -/
def CopyFileRangeRequest.flags (r : CopyFileRangeRequest) : UInt64 := r.body.flags

/-- fuse/operations/copy_file_range.rs:75-87. -/
def decodeCopyFileRange : DecM CopyFileRangeRequest := do
  expectOpcode FUSE_COPY_FILE_RANGE
  let h ← header
  let body ← nextSized FuseCopyFileRangeIn
  let _ ← nodeId h.nodeid
  let _ ← nodeId body.nodeid_out
  return ⟨h, body⟩

/-! ## CREATE -/

/-- fuse/operations/create.rs:29-33; accessors lines 37-75. -/
structure CreateRequest where
  header : FuseInHeader
  body : Versioned
  name : NodeName
deriving DecidableEq, Repr

/-- fuse/operations/create.rs:37-39. -/
def CreateRequest.nodeId (r : CreateRequest) := r.header.nodeIdUnchecked
/-- fuse/operations/create.rs:47-54. -/
def CreateRequest.flags (r : CreateRequest) : Except Fault UInt32 := do
  match ← r.body.getSince 12 FuseCreateIn with
  | some b => return b.open_flags
  | none => return 0
/-- fuse/operations/create.rs:57-59. -/
def CreateRequest.openFlags (r : CreateRequest) : Except Fault UInt32 :=
  FuseCreateInV7p1.flags <$> r.body.get FuseCreateInV7p1
/-- fuse/operations/create.rs:62-67. -/
def CreateRequest.mode (r : CreateRequest) : Except Fault FileMode := do
  match ← r.body.getSince 12 FuseCreateIn with
  | some b => return ⟨b.mode⟩
  | none => return ⟨0⟩
/-- fuse/operations/create.rs:70-75. -/
def CreateRequest.umask (r : CreateRequest) : Except Fault UInt32 := do
  match ← r.body.getSince 12 FuseCreateIn with
  | some b => return b.umask
  | none => return 0

/-- fuse/operations/create.rs:78-97. -/
def decodeCreate (layout : FuseLayout) : DecM CreateRequest := do
  let v := layout.minor
  expectOpcode FUSE_CREATE
  let h ← header
  let _ ← nodeId h.nodeid
  let body ←
    if v ≥ 12 then
      let b ← nextSized FuseCreateIn
      pure (Versioned.mk v (enc b))
    else
      let b ← nextSized FuseCreateInV7p1
      pure (Versioned.mk v (enc b))
  let name ← nextNodeName
  return ⟨h, body, name⟩

/-! ## FALLOCATE -/

/-- fuse/operations/fallocate.rs:27-30; accessors lines 34-56. -/
structure FallocateRequest where
  header : FuseInHeader
  body : FuseFallocateIn
deriving DecidableEq, Repr

/-- fuse/operations/fallocate.rs:34-36. -/
def FallocateRequest.nodeId (r : FallocateRequest) := r.header.nodeIdUnchecked
/-- fuse/operations/fallocate.rs:39-41. -/
def FallocateRequest.handle (r : FallocateRequest) : UInt64 := r.body.fh
/-- fuse/operations/fallocate.rs:44-46. -/
def FallocateRequest.offset (r : FallocateRequest) : UInt64 := r.body.offset
/-- fuse/operations/fallocate.rs:49-51. -/
def FallocateRequest.length (r : FallocateRequest) : UInt64 := r.body.length
/-- fuse/operations/fallocate.rs:54-56. -/
def FallocateRequest.fallocateFlags (r : FallocateRequest) : UInt32 := r.body.mode

/-- fuse/operations/fallocate.rs:59-67. -/
def decodeFallocate : DecM FallocateRequest := do
  expectOpcode FUSE_FALLOCATE
  let h ← header
  let body ← nextSized FuseFallocateIn
  let _ ← nodeId h.nodeid
  return ⟨h, body⟩

/-! ## FLUSH -/

/-- fuse/operations/flush.rs:28-50. -/
structure FlushRequest where
  nodeId : NodeId
  handle : UInt64
  lockOwner : UInt64
deriving DecidableEq, Repr

/-- fuse/operations/flush.rs:60-82; `isCuse` as passed at lines 52-58. -/
def decodeFlush (isCuse : Bool) : DecM FlushRequest := do
  expectOpcode FUSE_FLUSH
  let id ←
    if isCuse then pure NodeId.root
    else do
      let h ← header
      nodeId h.nodeid
  let raw ← nextSized FuseFlushIn
  return ⟨id, raw.fh, raw.lock_owner⟩

/-! ## FORGET and BATCH_FORGET -/

/-- fuse/operations/forget.rs:47-50. -/
structure ForgetRequest where
  forget : Option FuseForgetOne
  batchForgets : List FuseForgetOne
deriving DecidableEq, Repr

/-- `count` consecutive records of a byte string. -/
def decMany (T : Type) [Wire T] : Nat → Bytes → List T
  | 0, _ => []
  | n + 1, bs => dec (bs.take (Wire.size T)) :: decMany T n (bs.drop (Wire.size T))

/-- fuse/operations/forget.rs:65-94.  `checks` tells whether the build has overflow checks: the
`u32` multiplication on line 71 panics with them and wraps without.  Line 74 forms a slice of
`count` records whatever `next_bytes` returned; the slice must lie inside the message. -/
def decodeForget (checks : Bool) : DecM ForgetRequest := do
  let h ← header
  if h.opcode = FUSE_BATCH_FORGET then do
    let raw ← nextSized FuseBatchForgetIn
    if checks ∧ raw.count.toNat * Wire.size FuseForgetOne ≥ 2 ^ 32 then
      DecM.ofFault (.error .panic)
    else do
      let start := (← get).consumed
      let _ ← nextBytes (raw.count * 16)
      let d ← get
      if start % Wire.align FuseForgetOne = 0 then do
        let bytes ← DecM.ofRes (d.read start (raw.count.toNat * Wire.size FuseForgetOne))
        return ⟨none, decMany FuseForgetOne raw.count.toNat bytes⟩
      else DecM.ofFault (.error .misaligned)
  else do
    expectOpcode FUSE_FORGET
    let raw ← nextSized FuseForgetIn
    return ⟨some { nodeid := h.nodeid, nlookup := raw.nlookup }, []⟩

/-- `ForgetRequestItem`, fuse/operations/forget.rs:26-29. -/
structure ForgetItem where
  nodeId : NodeId
  lookupCount : UInt64
deriving DecidableEq, Repr

/-- `ForgetRequestIter`, fuse/operations/forget.rs:108-111. -/
inductive ForgetIter
  | one (x : Option FuseForgetOne)
  | batch (xs : List FuseForgetOne)
deriving DecidableEq, Repr

/-- `next_batch_item`, fuse/operations/forget.rs:146-166. -/
def nextBatchItem : List FuseForgetOne → Option ForgetItem × List FuseForgetOne
  | [] => (none, [])
  | head :: tail =>
    match NodeId.new head.nodeid with
    | none => nextBatchItem tail
    | some id => (some ⟨id, head.nlookup⟩, tail)

/-- `Iterator::next`, fuse/operations/forget.rs:125-143. -/
def ForgetIter.next : ForgetIter → Option ForgetItem × ForgetIter
  | .one none => (none, .one none)
  | .one (some item) =>
    match NodeId.new item.nodeid with
    | none => (none, .one none)
    | some id => (some ⟨id, item.nlookup⟩, .one none)
  | .batch items =>
    let (head, tail) := nextBatchItem items
    (head, .batch tail)

/-- Number of records an iterator still holds (a bound on the number of items it yields). -/
def ForgetIter.fuel : ForgetIter → Nat
  | .one _ => 1
  | .batch xs => xs.length

/-- Draining an iterator with a `for` loop; `fuel` bounds the number of items. -/
def ForgetIter.collect : Nat → ForgetIter → List ForgetItem
  | 0, _ => []
  | n + 1, it =>
    match it.next with
    | (none, _) => []
    | (some x, it') => x :: it'.collect n

/-- `ForgetRequest::items`, fuse/operations/forget.rs:53-62, drained. -/
def ForgetRequest.items (r : ForgetRequest) : List ForgetItem :=
  let it := match r.forget with
    | some item => ForgetIter.one (some item)
    | none => ForgetIter.batch r.batchForgets
  it.collect (it.fuel + 1)

/-! ## FSYNC, FSYNCDIR -/

/-- fuse/operations/fsync.rs:27-30; accessors lines 34-48. -/
structure FsyncRequest where
  header : FuseInHeader
  body : FuseFsyncIn
deriving DecidableEq, Repr

/-- fuse/operations/fsync.rs:34-36. -/
def FsyncRequest.nodeId (r : FsyncRequest) : NodeId := r.header.nodeIdOrRoot
/-- fuse/operations/fsync.rs:39-41. -/
def FsyncRequest.handle (r : FsyncRequest) : UInt64 := r.body.fh
/-- fuse/operations/fsync.rs:44-48. -/
def FsyncRequest.flags (r : FsyncRequest) : UInt32 := r.body.fsync_flags

/-- fuse/operations/fsync.rs:59-74. -/
def decodeFsync (isCuse : Bool) : DecM FsyncRequest := do
  expectOpcode FUSE_FSYNC
  let h ← header
  let body ← nextSized FuseFsyncIn
  if !isCuse then
    let _ ← nodeId h.nodeid
  return ⟨h, body⟩

/-- fuse/operations/fsyncdir.rs:26-29; accessors lines 33-47. -/
structure FsyncdirRequest where
  header : FuseInHeader
  body : FuseFsyncIn
deriving DecidableEq, Repr

/-- fuse/operations/fsyncdir.rs:33-35. -/
def FsyncdirRequest.nodeId (r : FsyncdirRequest) := r.header.nodeIdUnchecked
/-- fuse/operations/fsyncdir.rs:38-40. -/
def FsyncdirRequest.handle (r : FsyncdirRequest) : UInt64 := r.body.fh
/-- fuse/operations/fsyncdir.rs:43-47. -/
def FsyncdirRequest.flags (r : FsyncdirRequest) : UInt32 := r.body.fsync_flags

/-- fuse/operations/fsyncdir.rs:50-58. -/
def decodeFsyncdir : DecM FsyncdirRequest := do
  expectOpcode FUSE_FSYNCDIR
  let h ← header
  let body ← nextSized FuseFsyncIn
  let _ ← nodeId h.nodeid
  return ⟨h, body⟩

/-! ## GETATTR -/

/-- fuse/operations/getattr.rs:27-30; accessors lines 34-45. -/
structure GetattrRequest where
  header : FuseInHeader
  body : Versioned
deriving DecidableEq, Repr

/-- fuse/operations/getattr.rs:34-36. -/
def GetattrRequest.nodeId (r : GetattrRequest) := r.header.nodeIdUnchecked
/-- fuse/operations/getattr.rs:39-45. -/
def GetattrRequest.handle (r : GetattrRequest) : Except Fault (Option UInt64) := do
  match ← r.body.getSince 9 FuseGetattrIn with
  | some b => return if b.getattr_flags &&& FUSE_GETATTR_FH > 0 then some b.fh else none
  | none => return none

/-- fuse/operations/getattr.rs:48-64. -/
def decodeGetattr (layout : FuseLayout) : DecM GetattrRequest := do
  let v := layout.minor
  expectOpcode FUSE_GETATTR
  let h ← header
  let _ ← nodeId h.nodeid
  let body ←
    if v ≥ 9 then
      let b ← nextSized FuseGetattrIn
      pure (Versioned.mk v (enc b))
    else pure (Versioned.mk v [])
  return ⟨h, body⟩

/-! ## GETLK, SETLK, SETLKW -/

/-- fuse/operations/getlk.rs:26-30; accessors lines 35-61. -/
structure GetlkRequest where
  header : FuseInHeader
  body : FuseLkIn
  lockRange : LockRange
deriving DecidableEq, Repr

/-- fuse/operations/getlk.rs:35-37. -/
def GetlkRequest.nodeId (r : GetlkRequest) := r.header.nodeIdUnchecked
/-- fuse/operations/getlk.rs:41-43. -/
def GetlkRequest.handle (r : GetlkRequest) : UInt64 := r.body.fh
/-- fuse/operations/getlk.rs:47-49. -/
def GetlkRequest.owner (r : GetlkRequest) : UInt64 := r.body.owner
/-- fuse/operations/getlk.rs:53-55. -/
def GetlkRequest.lockMode (r : GetlkRequest) : UInt32 := r.body.lk.type_

/-- fuse/operations/getlk.rs:64-74. -/
def decodeGetlk : DecM GetlkRequest := do
  expectOpcode FUSE_GETLK
  let h ← header
  let _ ← nodeId h.nodeid
  let body ← nextSized FuseLkIn
  let range ← DecM.ofRes (LockRange.decode body.lk)
  return ⟨h, body, range⟩

/-- fuse/operations/setlk.rs:26-30; accessors lines 35-69. -/
structure SetlkRequest where
  header : FuseInHeader
  body : FuseLkIn
  lock : Lock
deriving DecidableEq, Repr

/-- fuse/operations/setlk.rs:35-37. -/
def SetlkRequest.nodeId (r : SetlkRequest) := r.header.nodeIdUnchecked
/-- fuse/operations/setlk.rs:41-43. -/
def SetlkRequest.handle (r : SetlkRequest) : UInt64 := r.body.fh
/-- fuse/operations/setlk.rs:47-49. -/
def SetlkRequest.mayBlock (r : SetlkRequest) : Bool := r.header.opcode == FUSE_SETLKW
/-- fuse/operations/setlk.rs:53-55. -/
def SetlkRequest.owner (r : SetlkRequest) : UInt64 := r.body.owner
/-- fuse/operations/setlk.rs:65-69. -/
def SetlkRequest.flags (r : SetlkRequest) : UInt32 := r.body.lk_flags

/-- fuse/operations/setlk.rs:72-85. -/
def decodeSetlk : DecM SetlkRequest := do
  let h ← header
  if h.opcode ≠ FUSE_SETLKW then
    expectOpcode FUSE_SETLK
  let _ ← nodeId h.nodeid
  let body ← nextSized FuseLkIn
  let lock ← DecM.ofRes (Lock.decode body.lk)
  return ⟨h, body, lock⟩

/-! ## Extended attributes -/

/-- `num::NonZeroUsize::new(body.size as usize)`, fuse/operations/getxattr.rs:42-45. -/
def nonZeroSize (n : UInt32) : Option { k : Nat // k ≠ 0 } :=
  if h : n.toNat ≠ 0 then some ⟨n.toNat, h⟩ else none

/-- fuse/operations/getxattr.rs:27-31; accessors lines 36-51. -/
structure GetxattrRequest where
  header : FuseInHeader
  body : FuseGetxattrIn
  name : CStr
deriving DecidableEq, Repr

/-- fuse/operations/getxattr.rs:36-38. -/
def GetxattrRequest.nodeId (r : GetxattrRequest) := r.header.nodeIdUnchecked
/-- fuse/operations/getxattr.rs:42-45. -/
def GetxattrRequest.size (r : GetxattrRequest) := nonZeroSize r.body.size

/-- fuse/operations/getxattr.rs:54-64. -/
def decodeGetxattr : DecM GetxattrRequest := do
  expectOpcode FUSE_GETXATTR
  let h ← header
  let _ ← nodeId h.nodeid
  let body ← nextSized FuseGetxattrIn
  let name ← nextCstr
  return ⟨h, body, name⟩

/-- fuse/operations/listxattr.rs:30-33; accessors lines 38-47. -/
structure ListxattrRequest where
  header : FuseInHeader
  body : FuseGetxattrIn
deriving DecidableEq, Repr

/-- fuse/operations/listxattr.rs:38-40. -/
def ListxattrRequest.nodeId (r : ListxattrRequest) := r.header.nodeIdUnchecked
/-- fuse/operations/listxattr.rs:44-47. -/
def ListxattrRequest.size (r : ListxattrRequest) := nonZeroSize r.body.size

/-- fuse/operations/listxattr.rs:50-59. -/
def decodeListxattr : DecM ListxattrRequest := do
  expectOpcode FUSE_LISTXATTR
  let h ← header
  let _ ← nodeId h.nodeid
  let body ← nextSized FuseGetxattrIn
  return ⟨h, body⟩

/-- fuse/operations/removexattr.rs:26-29; accessors lines 34-42. -/
structure RemovexattrRequest where
  header : FuseInHeader
  name : CStr
deriving DecidableEq, Repr

/-- fuse/operations/removexattr.rs:34-36. -/
def RemovexattrRequest.nodeId (r : RemovexattrRequest) := r.header.nodeIdUnchecked

/-- fuse/operations/removexattr.rs:45-53. -/
def decodeRemovexattr : DecM RemovexattrRequest := do
  expectOpcode FUSE_REMOVEXATTR
  let h ← header
  let _ ← nodeId h.nodeid
  let name ← nextCstr
  return ⟨h, name⟩

/-- fuse/operations/setxattr.rs:28-33; accessors lines 38-69. -/
structure SetxattrRequest where
  header : FuseInHeader
  body : Versioned
  name : CStr
  value : Bytes
deriving DecidableEq, Repr

/-- fuse/operations/setxattr.rs:38-40. -/
def SetxattrRequest.nodeId (r : SetxattrRequest) := r.header.nodeIdUnchecked
/-- fuse/operations/setxattr.rs:50-57. -/
def SetxattrRequest.flags (r : SetxattrRequest) : Except Fault UInt32 := do
  match ← r.body.getSince 33 FuseSetxattrIn with
  | some b => return b.setxattr_flags
  | none => return 0
/-- fuse/operations/setxattr.rs:61-63. -/
def SetxattrRequest.setxattrFlags (r : SetxattrRequest) : Except Fault UInt32 :=
  FuseSetxattrInV7p1.flags <$> r.body.get FuseSetxattrInV7p1

/-- fuse/operations/setxattr.rs:72-91 (`new_setxattr_v7p1`/`_v7p33` fix the version at 1 or 33,
fuse/internal/compat.rs:190-208). -/
def decodeSetxattr (layout : FuseLayout) : DecM SetxattrRequest := do
  expectOpcode FUSE_SETXATTR
  let h ← header
  let _ ← nodeId h.nodeid
  let body ←
    if layout.haveSetxattrExt then
      let b ← nextSized FuseSetxattrIn
      pure (Versioned.mk 33 (enc b))
    else
      let b ← nextSized FuseSetxattrInV7p1
      pure (Versioned.mk 1 (enc b))
  let name ← nextCstr
  let old ← DecM.ofFault (body.get FuseSetxattrInV7p1)
  let value ← nextBytes old.size
  return ⟨h, body, name, value⟩

/-! ## INTERRUPT -/

/-- fuse/operations/interrupt.rs:27-29; accessor lines 33-35. -/
structure InterruptRequest where
  body : FuseInterruptIn
deriving DecidableEq, Repr

/-- fuse/operations/interrupt.rs:33-35. -/
def InterruptRequest.requestId (r : InterruptRequest) : Except Fault NonZeroU64 :=
  NonZeroU64.newUnchecked r.body.unique

/-- fuse/operations/interrupt.rs:46-58. -/
def decodeInterrupt : DecM InterruptRequest := do
  expectOpcode FUSE_INTERRUPT
  let body ← nextSized FuseInterruptIn
  if body.unique = 0 then DecM.throwReq .missingRequestId
  else return ⟨body⟩

/-! ## IOCTL -/

/-- fuse/operations/ioctl.rs:30-34; accessors lines 38-77. -/
structure IoctlRequest where
  header : FuseInHeader
  body : FuseIoctlIn
  input : Bytes
deriving DecidableEq, Repr

/-- fuse/operations/ioctl.rs:38-40. -/
def IoctlRequest.nodeId (r : IoctlRequest) : NodeId := r.header.nodeIdOrRoot
/-- fuse/operations/ioctl.rs:43-45. -/
def IoctlRequest.handle (r : IoctlRequest) : UInt64 := r.body.fh
/-- fuse/operations/ioctl.rs:48-50. -/
def IoctlRequest.command (r : IoctlRequest) : UInt32 := r.body.cmd
/-- fuse/operations/ioctl.rs:53-55. -/
def IoctlRequest.arg (r : IoctlRequest) : UInt64 := r.body.arg
/-- fuse/operations/ioctl.rs:63-65. -/
def IoctlRequest.inputLen (r : IoctlRequest) : UInt32 := r.body.in_size
/-- fuse/operations/ioctl.rs:68-70. -/
def IoctlRequest.outputLen (r : IoctlRequest) : UInt32 := r.body.out_size
/-- fuse/operations/ioctl.rs:73-77. -/
def IoctlRequest.flags (r : IoctlRequest) : UInt32 := r.body.flags

/-- fuse/operations/ioctl.rs:88-110. -/
def decodeIoctl (isCuse : Bool) : DecM IoctlRequest := do
  expectOpcode FUSE_IOCTL
  let h ← header
  let body ← nextSized FuseIoctlIn
  if !isCuse then
    let _ ← nodeId h.nodeid
  let input ← nextBytes body.in_size
  return ⟨h, body, input⟩

/-! ## LINK, LOOKUP, RMDIR, UNLINK, SYMLINK, MKDIR, MKNOD, RENAME -/

/-- fuse/operations/link.rs:24-45. -/
structure LinkRequest where
  nodeId : NodeId
  newParentId : NodeId
  newName : NodeName
deriving DecidableEq, Repr

/-- fuse/operations/link.rs:47-58. -/
def decodeLink : DecM LinkRequest := do
  expectOpcode FUSE_LINK
  let raw ← nextSized FuseLinkIn
  let name ← nextNodeName
  let id ← nodeId raw.oldnodeid
  let h ← header
  let parent ← nodeId h.nodeid
  return ⟨id, parent, name⟩

/-- fuse/operations/lookup.rs:24-39, rmdir.rs:24-39, unlink.rs:26-41. -/
structure LookupRequest where
  parentId : NodeId
  name : NodeName
deriving DecidableEq, Repr

/-- fuse/operations/lookup.rs:41-48. -/
def decodeLookup : DecM LookupRequest := do
  expectOpcode FUSE_LOOKUP
  let h ← header
  let parent ← nodeId h.nodeid
  let name ← nextNodeName
  return ⟨parent, name⟩

/-- fuse/operations/rmdir.rs:24-39. -/
structure RmdirRequest where
  parentId : NodeId
  name : NodeName
deriving DecidableEq, Repr

/-- fuse/operations/rmdir.rs:41-48. -/
def decodeRmdir : DecM RmdirRequest := do
  expectOpcode FUSE_RMDIR
  let h ← header
  let parent ← nodeId h.nodeid
  let name ← nextNodeName
  return ⟨parent, name⟩

/-- fuse/operations/unlink.rs:26-41. -/
structure UnlinkRequest where
  parentId : NodeId
  name : NodeName
deriving DecidableEq, Repr

/-- fuse/operations/unlink.rs:43-50. -/
def decodeUnlink : DecM UnlinkRequest := do
  expectOpcode FUSE_UNLINK
  let h ← header
  let parent ← nodeId h.nodeid
  let name ← nextNodeName
  return ⟨parent, name⟩

/-- fuse/operations/symlink.rs:28-49. -/
structure SymlinkRequest where
  parentId : NodeId
  name : NodeName
  content : CStr
deriving DecidableEq, Repr

/-- fuse/operations/symlink.rs:51-61. -/
def decodeSymlink : DecM SymlinkRequest := do
  expectOpcode FUSE_SYMLINK
  let content ← nextCstr
  let name ← nextNodeName
  let h ← header
  let parent ← nodeId h.nodeid
  return ⟨parent, name, content⟩

/-- fuse/operations/mkdir.rs:26-30; accessors lines 34-51. -/
structure MkdirRequest where
  parentId : NodeId
  name : NodeName
  raw : FuseMkdirIn
deriving DecidableEq, Repr

/-- fuse/operations/mkdir.rs:44-46. -/
def MkdirRequest.mode (r : MkdirRequest) : FileMode := ⟨r.raw.mode⟩
/-- fuse/operations/mkdir.rs:49-51. -/
def MkdirRequest.umask (r : MkdirRequest) : UInt32 := r.raw.umask

/-- fuse/operations/mkdir.rs:54-65. -/
def decodeMkdir : DecM MkdirRequest := do
  expectOpcode FUSE_MKDIR
  let raw ← nextSized FuseMkdirIn
  let name ← nextNodeName
  let h ← header
  let parent ← nodeId h.nodeid
  return ⟨parent, name, raw⟩

/-- fuse/operations/mknod.rs:27-31; accessors lines 35-65. -/
structure MknodRequest where
  header : FuseInHeader
  body : Versioned
  name : NodeName
deriving DecidableEq, Repr

/-- fuse/operations/mknod.rs:35-37. -/
def MknodRequest.parentId (r : MknodRequest) := r.header.nodeIdUnchecked
/-- fuse/operations/mknod.rs:45-47. -/
def MknodRequest.mode (r : MknodRequest) : Except Fault FileMode := do
  return ⟨(← r.body.get FuseMknodInV7p1).mode⟩
/-- fuse/operations/mknod.rs:50-55. -/
def MknodRequest.umask (r : MknodRequest) : Except Fault UInt32 := do
  match ← r.body.getSince 12 FuseMknodIn with
  | some b => return b.umask
  | none => return 0
/-- fuse/operations/mknod.rs:58-65. -/
def MknodRequest.deviceNumber (r : MknodRequest) : Except Fault (Option UInt32) := do
  let body ← r.body.get FuseMknodInV7p1
  match FileType.fromMode (← r.mode) with
  | some .characterDevice | some .blockDevice => return some body.rdev
  | _ => return none

/-- fuse/operations/mknod.rs:68-87. -/
def decodeMknod (layout : FuseLayout) : DecM MknodRequest := do
  let v := layout.minor
  expectOpcode FUSE_MKNOD
  let h ← header
  let _ ← nodeId h.nodeid
  let body ←
    if v ≥ 12 then
      let b ← nextSized FuseMknodIn
      pure (Versioned.mk v (enc b))
    else
      let b ← nextSized FuseMknodInV7p1
      pure (Versioned.mk v (enc b))
  let name ← nextNodeName
  return ⟨h, body, name⟩

/-- fuse/operations/rename.rs:27-60. -/
structure RenameRequest where
  oldDirectoryId : NodeId
  oldName : NodeName
  newDirectoryId : NodeId
  newName : NodeName
  renameFlags : UInt32
deriving DecidableEq, Repr

/-- fuse/operations/rename.rs:62-86. -/
def decodeRename : DecM RenameRequest := do
  let h ← header
  let (renameFlags, newDir) ←
    if h.opcode = FUSE_RENAME2 then do
      let parsed ← nextSized FuseRename2In
      pure (parsed.flags, parsed.newdir)
    else do
      expectOpcode FUSE_RENAME
      let parsed ← nextSized FuseRenameIn
      pure (0, parsed.newdir)
  let oldName ← nextNodeName
  let newName ← nextNodeName
  let oldId ← nodeId h.nodeid
  let newId ← nodeId newDir
  return ⟨oldId, oldName, newId, newName, renameFlags⟩

/-! ## LSEEK -/

/-- fuse/operations/lseek.rs:26-29; accessors lines 33-50. -/
structure LseekRequest where
  raw : FuseLseekIn
  nodeId : NodeId
deriving DecidableEq, Repr

/-- fuse/operations/lseek.rs:38-40. -/
def LseekRequest.handle (r : LseekRequest) : UInt64 := r.raw.fh
/-- fuse/operations/lseek.rs:43-45. -/
def LseekRequest.offset (r : LseekRequest) : UInt64 := r.raw.offset
/-- fuse/operations/lseek.rs:48-50. -/
def LseekRequest.whence (r : LseekRequest) : UInt32 := r.raw.whence

/-- fuse/operations/lseek.rs:53-61. -/
def decodeLseek : DecM LseekRequest := do
  expectOpcode FUSE_LSEEK
  let raw ← nextSized FuseLseekIn
  let h ← header
  let id ← nodeId h.nodeid
  return ⟨raw, id⟩

/-! ## OPEN, OPENDIR -/

/-- fuse/operations/open.rs:28-31; accessors lines 35-50. -/
structure OpenRequest where
  header : FuseInHeader
  body : FuseOpenIn
deriving DecidableEq, Repr

/-- fuse/operations/open.rs:35-37. -/
def OpenRequest.nodeId (r : OpenRequest) : NodeId := r.header.nodeIdOrRoot
/-- fuse/operations/open.rs:40-44. -/
def OpenRequest.flags (r : OpenRequest) : UInt32 := r.body.open_flags
/-- fuse/operations/open.rs:48-50. -/
def OpenRequest.openFlags (r : OpenRequest) : UInt32 := r.body.flags

/-- fuse/operations/open.rs:61-76. -/
def decodeOpen (isCuse : Bool) : DecM OpenRequest := do
  expectOpcode FUSE_OPEN
  let h ← header
  let body ← nextSized FuseOpenIn
  if !isCuse then
    let _ ← nodeId h.nodeid
  return ⟨h, body⟩

/-- fuse/operations/opendir.rs:27-30; accessors lines 34-49. -/
structure OpendirRequest where
  header : FuseInHeader
  body : FuseOpenIn
deriving DecidableEq, Repr

/-- fuse/operations/opendir.rs:34-36. -/
def OpendirRequest.nodeId (r : OpendirRequest) := r.header.nodeIdUnchecked
/-- fuse/operations/opendir.rs:39-43. -/
def OpendirRequest.flags (r : OpendirRequest) : UInt32 := r.body.open_flags
/-- fuse/operations/opendir.rs:47-49. -/
def OpendirRequest.openFlags (r : OpendirRequest) : UInt32 := r.body.flags

/-- fuse/operations/opendir.rs:52-60. -/
def decodeOpendir : DecM OpendirRequest := do
  expectOpcode FUSE_OPENDIR
  let h ← header
  let body ← nextSized FuseOpenIn
  let _ ← nodeId h.nodeid
  return ⟨h, body⟩

/-! ## POLL -/

/-- fuse/operations/poll.rs:43-46; accessors lines 50-69. -/
structure PollRequest where
  header : FuseInHeader
  body : FusePollIn
deriving DecidableEq, Repr

/-- fuse/operations/poll.rs:50-52. -/
def PollRequest.nodeId (r : PollRequest) := r.header.nodeIdUnchecked
/-- fuse/operations/poll.rs:55-57. -/
def PollRequest.pollEvents (r : PollRequest) : UInt32 := r.body.events
/-- fuse/operations/poll.rs:60-62. -/
def PollRequest.pollHandle (r : PollRequest) : UInt64 := r.body.kh
/-- fuse/operations/poll.rs:65-69. -/
def PollRequest.flags (r : PollRequest) : UInt32 := r.body.flags

/-- fuse/operations/poll.rs:80-92, used unchanged for CUSE and FUSE (lines 72-78). -/
def decodePoll : DecM PollRequest := do
  expectOpcode FUSE_POLL
  let h ← header
  let body ← nextSized FusePollIn
  let _ ← nodeId h.nodeid
  return ⟨h, body⟩

/-! ## READ, READDIR, READDIRPLUS -/

/-- fuse/operations/read.rs:29-32; accessors lines 36-73. -/
structure ReadRequest where
  header : FuseInHeader
  body : Versioned
deriving DecidableEq, Repr

/-- fuse/operations/read.rs:36-38. -/
def ReadRequest.nodeId (r : ReadRequest) : NodeId := r.header.nodeIdOrRoot
/-- fuse/operations/read.rs:41-43. -/
def ReadRequest.size (r : ReadRequest) : Except Fault UInt32 :=
  FuseReadInV7p1.size <$> r.body.get FuseReadInV7p1
/-- fuse/operations/read.rs:46-48. -/
def ReadRequest.offset (r : ReadRequest) : Except Fault UInt64 :=
  FuseReadInV7p1.offset <$> r.body.get FuseReadInV7p1
/-- fuse/operations/read.rs:54-56. -/
def ReadRequest.handle (r : ReadRequest) : Except Fault UInt64 :=
  FuseReadInV7p1.fh <$> r.body.get FuseReadInV7p1
/-- fuse/operations/read.rs:59-65. -/
def ReadRequest.lockOwner (r : ReadRequest) : Except Fault (Option UInt64) := do
  match ← r.body.getSince 9 FuseReadIn with
  | some b => return if b.read_flags &&& FUSE_READ_LOCKOWNER = 0 then none else some b.lock_owner
  | none => return none
/-- fuse/operations/read.rs:68-73. -/
def ReadRequest.openFlags (r : ReadRequest) : Except Fault UInt32 := do
  match ← r.body.getSince 9 FuseReadIn with
  | some b => return b.flags
  | none => return 0

/-- The version switch shared by READ, READDIR and READDIRPLUS, fuse/operations/read.rs:100-106,
readdir.rs:78-84, readdirplus.rs:77-83. -/
def readBody (v : UInt32) : DecM Versioned :=
  if v ≥ 9 then do
    let b ← nextSized FuseReadIn
    pure (Versioned.mk v (enc b))
  else do
    let b ← nextSized FuseReadInV7p1
    pure (Versioned.mk v (enc b))

/-- fuse/operations/read.rs:86-110. -/
def decodeRead (v : UInt32) (isCuse : Bool) : DecM ReadRequest := do
  expectOpcode FUSE_READ
  let h ← header
  if !isCuse then
    let _ ← nodeId h.nodeid
  let body ← readBody v
  return ⟨h, body⟩

/-- fuse/operations/readdir.rs:32-35; accessors lines 39-67. -/
structure ReaddirRequest where
  header : FuseInHeader
  body : Versioned
deriving DecidableEq, Repr

/-- fuse/operations/readdir.rs:39-41. -/
def ReaddirRequest.nodeId (r : ReaddirRequest) := r.header.nodeIdUnchecked
/-- fuse/operations/readdir.rs:44-46. -/
def ReaddirRequest.size (r : ReaddirRequest) : Except Fault UInt32 :=
  FuseReadInV7p1.size <$> r.body.get FuseReadInV7p1
/-- fuse/operations/readdir.rs:49-51. -/
def ReaddirRequest.offset (r : ReaddirRequest) : Except Fault (Option NonZeroU64) := do
  return NonZeroU64.new (← r.body.get FuseReadInV7p1).offset
/-- fuse/operations/readdir.rs:57-59. -/
def ReaddirRequest.handle (r : ReaddirRequest) : Except Fault UInt64 :=
  FuseReadInV7p1.fh <$> r.body.get FuseReadInV7p1
/-- fuse/operations/readdir.rs:62-67. -/
def ReaddirRequest.openFlags (r : ReaddirRequest) : Except Fault UInt32 := do
  match ← r.body.getSince 9 FuseReadIn with
  | some b => return b.flags
  | none => return 0

/-- fuse/operations/readdir.rs:70-87. -/
def decodeReaddir (layout : FuseLayout) : DecM ReaddirRequest := do
  expectOpcode FUSE_READDIR
  let h ← header
  let _ ← nodeId h.nodeid
  let body ← readBody layout.minor
  return ⟨h, body⟩

/-- fuse/operations/readdirplus.rs:31-34; accessors lines 38-66. -/
structure ReaddirplusRequest where
  header : FuseInHeader
  body : Versioned
deriving DecidableEq, Repr

/-- fuse/operations/readdirplus.rs:38-40. -/
def ReaddirplusRequest.nodeId (r : ReaddirplusRequest) := r.header.nodeIdUnchecked
/-- fuse/operations/readdirplus.rs:43-45. -/
def ReaddirplusRequest.size (r : ReaddirplusRequest) : Except Fault UInt32 :=
  FuseReadInV7p1.size <$> r.body.get FuseReadInV7p1
/-- fuse/operations/readdirplus.rs:48-50. -/
def ReaddirplusRequest.offset (r : ReaddirplusRequest) : Except Fault (Option NonZeroU64) := do
  return NonZeroU64.new (← r.body.get FuseReadInV7p1).offset
/-- fuse/operations/readdirplus.rs:56-58. -/
def ReaddirplusRequest.handle (r : ReaddirplusRequest) : Except Fault UInt64 :=
  FuseReadInV7p1.fh <$> r.body.get FuseReadInV7p1
/-- fuse/operations/readdirplus.rs:61-66. -/
def ReaddirplusRequest.openFlags (r : ReaddirplusRequest) : Except Fault UInt32 := do
  match ← r.body.getSince 9 FuseReadIn with
  | some b => return b.flags
  | none => return 0

/-- fuse/operations/readdirplus.rs:69-86. -/
def decodeReaddirplus (layout : FuseLayout) : DecM ReaddirplusRequest := do
  expectOpcode FUSE_READDIRPLUS
  let h ← header
  let _ ← nodeId h.nodeid
  let body ← readBody layout.minor
  return ⟨h, body⟩

/-! ## READLINK, STATFS -/

/-- fuse/operations/readlink.rs:27-37. -/
structure ReadlinkRequest where
  nodeId : NodeId
deriving DecidableEq, Repr

/-- fuse/operations/readlink.rs:39-46. -/
def decodeReadlink : DecM ReadlinkRequest := do
  expectOpcode FUSE_READLINK
  let h ← header
  let id ← nodeId h.nodeid
  return ⟨id⟩

/-- fuse/operations/statfs.rs:27-37. -/
structure StatfsRequest where
  nodeId : NodeId
deriving DecidableEq, Repr

/-- fuse/operations/statfs.rs:39-47. -/
def decodeStatfs : DecM StatfsRequest := do
  expectOpcode FUSE_STATFS
  let h ← header
  let id ← nodeId h.nodeid
  return ⟨id⟩

/-! ## RELEASE, RELEASEDIR -/

/-- fuse/operations/release.rs:29-32; accessors lines 36-60. -/
structure ReleaseRequest where
  header : FuseInHeader
  body : Versioned
deriving DecidableEq, Repr

/-- fuse/operations/release.rs:36-38. -/
def ReleaseRequest.nodeId (r : ReleaseRequest) : NodeId := r.header.nodeIdOrRoot
/-- fuse/operations/release.rs:44-46. -/
def ReleaseRequest.handle (r : ReleaseRequest) : Except Fault UInt64 :=
  FuseReleaseInV7p1.fh <$> r.body.get FuseReleaseInV7p1
/-- fuse/operations/release.rs:49-55. -/
def ReleaseRequest.lockOwner (r : ReleaseRequest) : Except Fault (Option UInt64) := do
  match ← r.body.getSince 8 FuseReleaseIn with
  | some b =>
    return if b.release_flags &&& FUSE_RELEASE_FLOCK_UNLOCK = 0 then none else some b.lock_owner
  | none => return none
/-- fuse/operations/release.rs:58-60. -/
def ReleaseRequest.openFlags (r : ReleaseRequest) : Except Fault UInt32 :=
  FuseReleaseInV7p1.flags <$> r.body.get FuseReleaseInV7p1

/-- The version switch of fuse/operations/release.rs:87-93 and releasedir.rs:70-76. -/
def releaseBody (v : UInt32) : DecM Versioned :=
  if v ≥ 8 then do
    let b ← nextSized FuseReleaseIn
    pure (Versioned.mk v (enc b))
  else do
    let b ← nextSized FuseReleaseInV7p1
    pure (Versioned.mk v (enc b))

/-- fuse/operations/release.rs:73-97. -/
def decodeRelease (v : UInt32) (isCuse : Bool) : DecM ReleaseRequest := do
  expectOpcode FUSE_RELEASE
  let h ← header
  if !isCuse then
    let _ ← nodeId h.nodeid
  let body ← releaseBody v
  return ⟨h, body⟩

/-- fuse/operations/releasedir.rs:28-31; accessors lines 35-59. -/
structure ReleasedirRequest where
  header : FuseInHeader
  body : Versioned
deriving DecidableEq, Repr

/-- fuse/operations/releasedir.rs:35-37. -/
def ReleasedirRequest.nodeId (r : ReleasedirRequest) := r.header.nodeIdUnchecked
/-- fuse/operations/releasedir.rs:43-45. -/
def ReleasedirRequest.handle (r : ReleasedirRequest) : Except Fault UInt64 :=
  FuseReleaseInV7p1.fh <$> r.body.get FuseReleaseInV7p1
/-- fuse/operations/releasedir.rs:48-54. -/
def ReleasedirRequest.lockOwner (r : ReleasedirRequest) : Except Fault (Option UInt64) := do
  match ← r.body.getSince 8 FuseReleaseIn with
  | some b =>
    return if b.release_flags &&& FUSE_RELEASE_FLOCK_UNLOCK = 0 then none else some b.lock_owner
  | none => return none
/-- fuse/operations/releasedir.rs:57-59. -/
def ReleasedirRequest.openFlags (r : ReleasedirRequest) : Except Fault UInt32 :=
  FuseReleaseInV7p1.flags <$> r.body.get FuseReleaseInV7p1

/-- fuse/operations/releasedir.rs:62-79. -/
def decodeReleasedir (layout : FuseLayout) : DecM ReleasedirRequest := do
  expectOpcode FUSE_RELEASEDIR
  let h ← header
  let _ ← nodeId h.nodeid
  let body ← releaseBody layout.minor
  return ⟨h, body⟩

/-! ## SETATTR -/

/-- fuse/operations/setattr.rs:26-29. -/
structure SetattrRequest where
  header : FuseInHeader
  raw : FuseSetattrIn
deriving DecidableEq, Repr

/-- fuse/operations/setattr.rs:33-35. -/
def SetattrRequest.nodeId (r : SetattrRequest) := r.header.nodeIdUnchecked

/-- fuse/operations/setattr.rs:38-43. -/
def SetattrRequest.get {α} (r : SetattrRequest) (bitmask : UInt32) (value : α) : Option α :=
  if r.raw.valid &&& bitmask = 0 then none else some value

/-- fuse/operations/setattr.rs:46-58. -/
def SetattrRequest.getTimestamp (r : SetattrRequest) (bitmask : UInt32) (seconds : UInt64)
    (nanos : UInt32) : Except Fault (Option UnixTime) :=
  if r.raw.valid &&& bitmask = 0 then .ok none
  else some <$> UnixTime.fromTimespecUnchecked seconds nanos

/-- fuse/operations/setattr.rs:61-128. -/
def SetattrRequest.handle (r : SetattrRequest) : Option UInt64 := r.get FATTR_FH r.raw.fh
/-- fuse/operations/setattr.rs:66-68. -/
def SetattrRequest.size (r : SetattrRequest) : Option UInt64 := r.get FATTR_SIZE r.raw.size
/-- fuse/operations/setattr.rs:71-76. -/
def SetattrRequest.lockOwner (r : SetattrRequest) : Option UInt64 :=
  r.get FATTR_LOCKOWNER r.raw.lock_owner
/-- fuse/operations/setattr.rs:79-85. -/
def SetattrRequest.atime (r : SetattrRequest) : Except Fault (Option UnixTime) :=
  r.getTimestamp FATTR_ATIME r.raw.atime r.raw.atimensec
/-- fuse/operations/setattr.rs:88-90. -/
def SetattrRequest.atimeNow (r : SetattrRequest) : Bool := r.raw.valid &&& FATTR_ATIME_NOW > 0
/-- fuse/operations/setattr.rs:93-99. -/
def SetattrRequest.mtime (r : SetattrRequest) : Except Fault (Option UnixTime) :=
  r.getTimestamp FATTR_MTIME r.raw.mtime r.raw.mtimensec
/-- fuse/operations/setattr.rs:102-104. -/
def SetattrRequest.mtimeNow (r : SetattrRequest) : Bool := r.raw.valid &&& FATTR_MTIME_NOW > 0
/-- fuse/operations/setattr.rs:107-113. -/
def SetattrRequest.ctime (r : SetattrRequest) : Except Fault (Option UnixTime) :=
  r.getTimestamp FATTR_CTIME r.raw.ctime r.raw.ctimensec
/-- fuse/operations/setattr.rs:116-118. -/
def SetattrRequest.mode (r : SetattrRequest) : Option FileMode := r.get FATTR_MODE ⟨r.raw.mode⟩
/-- fuse/operations/setattr.rs:121-123. -/
def SetattrRequest.userId (r : SetattrRequest) : Option UInt32 := r.get FATTR_UID r.raw.uid
/-- fuse/operations/setattr.rs:126-128. -/
def SetattrRequest.groupId (r : SetattrRequest) : Option UInt32 := r.get FATTR_GID r.raw.gid

/-- fuse/operations/setattr.rs:131-149. -/
def decodeSetattr : DecM SetattrRequest := do
  expectOpcode FUSE_SETATTR
  let h ← header
  let _ ← nodeId h.nodeid
  let raw ← nextSized FuseSetattrIn
  if raw.valid &&& FATTR_ATIME > 0 then checkTimespecNanos raw.atimensec
  if raw.valid &&& FATTR_MTIME > 0 then checkTimespecNanos raw.mtimensec
  if raw.valid &&& FATTR_CTIME > 0 then checkTimespecNanos raw.ctimensec
  return ⟨h, raw⟩

/-! ## WRITE -/

/-- `write_msg`, fuse/operations/write.rs:38-48: the header followed by the larger variant of the
body union. -/
abbrev WRITE_MSG_SIZE : Nat := Wire.size FuseInHeader + Wire.size FuseWriteIn

/-- fuse/operations/write.rs:33-36.  `msg` is the memory behind the `&write_msg` reference, cut at
the end of the message. -/
structure WriteRequest where
  msg : Bytes
  versionMinor : UInt32
deriving DecidableEq, Repr

/-- `&self.msg.header`, fuse/operations/write.rs:60-62. -/
def WriteRequest.header (r : WriteRequest) : Except Fault FuseInHeader :=
  (Versioned.mk 0 r.msg).get FuseInHeader

/-- `body_v7p1`, fuse/operations/write.rs:65-67. -/
def WriteRequest.bodyV7p1 (r : WriteRequest) : Except Fault FuseWriteInV7p1 :=
  (Versioned.mk 0 (r.msg.drop (Wire.size FuseInHeader))).get FuseWriteInV7p1

/-- `body_v7p9`, fuse/operations/write.rs:70-75. -/
def WriteRequest.bodyV7p9 (r : WriteRequest) : Except Fault (Option FuseWriteIn) :=
  (Versioned.mk r.versionMinor (r.msg.drop (Wire.size FuseInHeader))).getSince 9 FuseWriteIn

/-- fuse/operations/write.rs:80-82. -/
def WriteRequest.nodeId (r : WriteRequest) : Except Fault NodeId :=
  FuseInHeader.nodeIdOrRoot <$> r.header
/-- fuse/operations/write.rs:85-95. -/
def WriteRequest.offset (r : WriteRequest) : Except Fault UInt64 :=
  FuseWriteInV7p1.offset <$> r.bodyV7p1
/-- fuse/operations/write.rs:93-95. -/
def WriteRequest.handle (r : WriteRequest) : Except Fault UInt64 :=
  FuseWriteInV7p1.fh <$> r.bodyV7p1

/-- `value`, fuse/operations/write.rs:98-113: a slice formed by pointer arithmetic. -/
def WriteRequest.value (r : WriteRequest) : Except Fault Bytes := do
  let body ← r.bodyV7p1
  let offset :=
    if r.versionMinor ≥ 9 then Wire.size FuseInHeader + Wire.size FuseWriteIn
    else Wire.size FuseInHeader + Wire.size FuseWriteInV7p1
  if offset + body.size.toNat ≤ r.msg.length then
    return (r.msg.drop offset).take body.size.toNat
  else throw .oob

/-- fuse/operations/write.rs:116-137. -/
def WriteRequest.flags (r : WriteRequest) : Except Fault UInt32 :=
  FuseWriteInV7p1.write_flags <$> r.bodyV7p1
/-- fuse/operations/write.rs:123-129. -/
def WriteRequest.lockOwner (r : WriteRequest) : Except Fault (Option UInt64) := do
  match ← r.bodyV7p9 with
  | some b =>
    return if b.write_flags &&& FUSE_WRITE_LOCKOWNER = 0 then none else some b.lock_owner
  | none => return none
/-- fuse/operations/write.rs:132-137. -/
def WriteRequest.openFlags (r : WriteRequest) : Except Fault UInt32 := do
  match ← r.bodyV7p9 with
  | some b => return b.flags
  | none => return 0

/-- fuse/operations/write.rs:150-179.  Line 175 forms a reference to a whole `write_msg` (80 bytes)
at the start of the buffer for every version; the received bytes must be that long. -/
def decodeWrite (v : UInt32) (isCuse : Bool) : DecM WriteRequest := do
  expectOpcode FUSE_WRITE
  let h ← header
  if !isCuse then
    let _ ← nodeId h.nodeid
  let valueLen ←
    if v ≥ 9 then do
      let body ← nextSized FuseWriteIn
      pure body.size
    else do
      let body ← nextSized FuseWriteInV7p1
      pure body.size
  let _ ← nextBytes valueLen
  let d ← get
  if WRITE_MSG_SIZE ≤ d.mem.length then
    return ⟨d.mem.take d.headerLen, v⟩
  else DecM.ofFault (.error .oob)

/-! ## INIT -/

/-- `Version`, fuse/fuse.rs:387-390. -/
structure Version where
  major : UInt32
  minor : UInt32
deriving DecidableEq, Repr

/-- fuse/operations/fuse_init.rs:34-38. -/
structure FuseInitInV7p1 where
  major : UInt32 := 0
  minor : UInt32 := 0
deriving DecidableEq, Repr

instance : Wire FuseInitInV7p1 :=
  Wire.iso (β := UInt32 × UInt32) (fun x => (x.major, x.minor)) (fun t => ⟨t.1, t.2⟩)
    (fun _ => rfl) (fun _ => rfl)

@[simp] theorem size_fuse_init_in_v7p1 : Wire.size FuseInitInV7p1 = 8 := rfl
@[simp] theorem align_fuse_init_in_v7p1 : Wire.align FuseInitInV7p1 = 4 := rfl

/-- fuse/operations/fuse_init.rs:40-46. -/
structure FuseInitInV7p6 where
  major : UInt32 := 0
  minor : UInt32 := 0
  max_readahead : UInt32 := 0
  flags : UInt32 := 0
deriving DecidableEq, Repr

instance : Wire FuseInitInV7p6 :=
  Wire.iso (β := UInt32 × UInt32 × UInt32 × UInt32)
    (fun x => (x.major, x.minor, x.max_readahead, x.flags))
    (fun t => ⟨t.1, t.2.1, t.2.2.1, t.2.2.2⟩) (fun _ => rfl) (fun _ => rfl)

@[simp] theorem size_fuse_init_in_v7p6 : Wire.size FuseInitInV7p6 = 16 := rfl
@[simp] theorem align_fuse_init_in_v7p6 : Wire.align FuseInitInV7p6 = 4 := rfl

/-- fuse/operations/fuse_init.rs:27-32. -/
structure FuseInitRequest where
  version : Version
  maxReadahead : UInt32
  flags : UInt64
deriving DecidableEq, Repr

/-- fuse/operations/fuse_init.rs:65-110. -/
def decodeFuseInit : DecM FuseInitRequest := do
  expectOpcode FUSE_INIT
  let old ← peekSized FuseInitInV7p1
  if old.minor < 6 ∨ old.major ≠ FUSE_KERNEL_VERSION then
    return ⟨⟨old.major, old.minor⟩, 0, 0⟩
  else if old.minor < 36 then do
    let raw ← nextSized FuseInitInV7p6
    return ⟨⟨raw.major, raw.minor⟩, raw.max_readahead, raw.flags.toUInt64⟩
  else do
    let raw ← nextSized FuseInitIn
    return ⟨⟨raw.major, raw.minor⟩, raw.max_readahead,
      raw.flags.toUInt64 ||| (raw.flags2.toUInt64 <<< 32)⟩

/-- fuse/operations/cuse_init.rs:32-36. -/
structure CuseInitRequest where
  version : Version
  flags : UInt32
deriving DecidableEq, Repr

/-- fuse/operations/cuse_init.rs:50-60. -/
def decodeCuseInit : DecM CuseInitRequest := do
  expectOpcode CUSE_INIT
  let raw ← nextSized CuseInitIn
  return ⟨⟨raw.major, raw.minor⟩, raw.flags⟩

/-! ## All request types together -/

/-- The request types of the public API with everything their decoders depend on: the session
layout, whether the session is CUSE (`isCuse`), and the negotiated minor version `v`.  One
constructor per `try_from_fuse_request!`/`try_from_cuse_request!` use in fuse/operations/*.rs;
`isCuse := true` are the `try_from_cuse_request!` ones. -/
inductive ReqType
  | access
  | bmap
  | copyFileRange
  | fallocate
  | forget (checks : Bool)
  | fsyncdir
  | getlk
  | getxattr
  | interrupt
  | link
  | listxattr
  | lookup
  | lseek
  | mkdir
  | opendir
  | poll
  | readlink
  | removexattr
  | rename
  | rmdir
  | setattr
  | setlk
  | statfs
  | symlink
  | unlink
  | fuseInit
  | cuseInit
  | create (layout : FuseLayout)
  | getattr (layout : FuseLayout)
  | mknod (layout : FuseLayout)
  | readdir (layout : FuseLayout)
  | readdirplus (layout : FuseLayout)
  | releasedir (layout : FuseLayout)
  | setxattr (layout : FuseLayout)
  | flush (isCuse : Bool)
  | fsync (isCuse : Bool)
  | ioctl (isCuse : Bool)
  | open_ (isCuse : Bool)
  | read (v : UInt32) (isCuse : Bool)
  | release (v : UInt32) (isCuse : Bool)
  | write (v : UInt32) (isCuse : Bool)
deriving DecidableEq, Repr

/-- A decoded request of any type (fuse/operations.rs re-exports). -/
inductive AnyRequest
  | access (r : AccessRequest)
  | bmap (r : BmapRequest)
  | copyFileRange (r : CopyFileRangeRequest)
  | fallocate (r : FallocateRequest)
  | forget (r : ForgetRequest)
  | fsyncdir (r : FsyncdirRequest)
  | getlk (r : GetlkRequest)
  | getxattr (r : GetxattrRequest)
  | interrupt (r : InterruptRequest)
  | link (r : LinkRequest)
  | listxattr (r : ListxattrRequest)
  | lookup (r : LookupRequest)
  | lseek (r : LseekRequest)
  | mkdir (r : MkdirRequest)
  | opendir (r : OpendirRequest)
  | poll (r : PollRequest)
  | readlink (r : ReadlinkRequest)
  | removexattr (r : RemovexattrRequest)
  | rename (r : RenameRequest)
  | rmdir (r : RmdirRequest)
  | setattr (r : SetattrRequest)
  | setlk (r : SetlkRequest)
  | statfs (r : StatfsRequest)
  | symlink (r : SymlinkRequest)
  | unlink (r : UnlinkRequest)
  | fuseInit (r : FuseInitRequest)
  | cuseInit (r : CuseInitRequest)
  | create (r : CreateRequest)
  | getattr (r : GetattrRequest)
  | mknod (r : MknodRequest)
  | readdir (r : ReaddirRequest)
  | readdirplus (r : ReaddirplusRequest)
  | releasedir (r : ReleasedirRequest)
  | setxattr (r : SetxattrRequest)
  | flush (r : FlushRequest)
  | fsync (r : FsyncRequest)
  | ioctl (r : IoctlRequest)
  | open_ (r : OpenRequest)
  | read (r : ReadRequest)
  | release (r : ReleaseRequest)
  | write (r : WriteRequest)
deriving DecidableEq, Repr

/-- `TryFrom<FuseRequest>`/`TryFrom<CuseRequest>` for a given request type, fuse/internal.rs:36-62; the
individual decoders carry their own citations. -/
def decodeAny : ReqType → DecM AnyRequest
  | .access => .access <$> decodeAccess
  | .bmap => .bmap <$> decodeBmap
  | .copyFileRange => .copyFileRange <$> decodeCopyFileRange
  | .fallocate => .fallocate <$> decodeFallocate
  | .forget checks => .forget <$> decodeForget checks
  | .fsyncdir => .fsyncdir <$> decodeFsyncdir
  | .getlk => .getlk <$> decodeGetlk
  | .getxattr => .getxattr <$> decodeGetxattr
  | .interrupt => .interrupt <$> decodeInterrupt
  | .link => .link <$> decodeLink
  | .listxattr => .listxattr <$> decodeListxattr
  | .lookup => .lookup <$> decodeLookup
  | .lseek => .lseek <$> decodeLseek
  | .mkdir => .mkdir <$> decodeMkdir
  | .opendir => .opendir <$> decodeOpendir
  | .poll => .poll <$> decodePoll
  | .readlink => .readlink <$> decodeReadlink
  | .removexattr => .removexattr <$> decodeRemovexattr
  | .rename => .rename <$> decodeRename
  | .rmdir => .rmdir <$> decodeRmdir
  | .setattr => .setattr <$> decodeSetattr
  | .setlk => .setlk <$> decodeSetlk
  | .statfs => .statfs <$> decodeStatfs
  | .symlink => .symlink <$> decodeSymlink
  | .unlink => .unlink <$> decodeUnlink
  | .fuseInit => .fuseInit <$> decodeFuseInit
  | .cuseInit => .cuseInit <$> decodeCuseInit
  | .create layout => .create <$> decodeCreate layout
  | .getattr layout => .getattr <$> decodeGetattr layout
  | .mknod layout => .mknod <$> decodeMknod layout
  | .readdir layout => .readdir <$> decodeReaddir layout
  | .readdirplus layout => .readdirplus <$> decodeReaddirplus layout
  | .releasedir layout => .releasedir <$> decodeReleasedir layout
  | .setxattr layout => .setxattr <$> decodeSetxattr layout
  | .flush isCuse => .flush <$> decodeFlush isCuse
  | .fsync isCuse => .fsync <$> decodeFsync isCuse
  | .ioctl isCuse => .ioctl <$> decodeIoctl isCuse
  | .open_ isCuse => .open_ <$> decodeOpen isCuse
  | .read v isCuse => .read <$> decodeRead v isCuse
  | .release v isCuse => .release <$> decodeRelease v isCuse
  | .write v isCuse => .write <$> decodeWrite v isCuse

/-- Receiving a message and decoding it as request type `t`: `Request::new` (fuse/server.rs:348-379)
followed by `TryFrom`/`from_request`. -/
def decodeMessage (t : ReqType) (buf : Bytes) : Res AnyRequest :=
  match Request.new buf with
  | .error e => .error (.req e)
  | .ok r => r.decode (decodeAny t)

end Fuse
