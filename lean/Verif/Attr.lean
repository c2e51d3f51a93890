import Verif.Types
import Verif.Flags

/-!
# Node attributes and directory entries

`NodeAttr` and `Entry` wrap the raw kernel records and expose getters and setters.  `AttrOp` and
`EntryOp` enumerate the setters, so that "any use of the API" is a list of operations.
-/

namespace Fuse

/-- `NodeAttr`, fuse/node_attr.rs:25-27. -/
structure NodeAttr where
  raw : FuseAttr
deriving DecidableEq, Repr

namespace NodeAttr

/-- `NodeAttr::new`, fuse/node_attr.rs:33-40. -/
def new (nodeId : NodeId) : NodeAttr := ⟨{ ino := nodeId.val }⟩

/-- `NodeAttr::node_id`, fuse/node_attr.rs:70-72. -/
def nodeId (a : NodeAttr) : Except Fault NodeId := NodeId.newUnchecked a.raw.ino

/-- `NodeAttr::mode`, fuse/node_attr.rs:77-79. -/
def mode (a : NodeAttr) : FileMode := ⟨a.raw.mode⟩

/-- `NodeAttr::set_mode`, fuse/node_attr.rs:83-85. -/
def setMode (a : NodeAttr) (m : FileMode) : NodeAttr := ⟨{ a.raw with mode := m.bits }⟩

/-- `NodeAttr::size`, fuse/node_attr.rs:90-92. -/
def size (a : NodeAttr) : UInt64 := a.raw.size

/-- `NodeAttr::set_size`, fuse/node_attr.rs:96-98. -/
def setSize (a : NodeAttr) (n : UInt64) : NodeAttr := ⟨{ a.raw with size := n }⟩

/-- `NodeAttr::atime`, fuse/node_attr.rs:103-110. -/
def atime (a : NodeAttr) : Except Fault UnixTime :=
  UnixTime.fromTimespecUnchecked a.raw.atime a.raw.atimensec

/-- `NodeAttr::set_atime`, fuse/node_attr.rs:114-116. -/
def setAtime (a : NodeAttr) (t : UnixTime) : NodeAttr :=
  ⟨{ a.raw with atime := t.asTimespec.1, atimensec := t.asTimespec.2 }⟩

/-- `NodeAttr::mtime`, fuse/node_attr.rs:121-128. -/
def mtime (a : NodeAttr) : Except Fault UnixTime :=
  UnixTime.fromTimespecUnchecked a.raw.mtime a.raw.mtimensec

/-- `NodeAttr::set_mtime`, fuse/node_attr.rs:132-134. -/
def setMtime (a : NodeAttr) (t : UnixTime) : NodeAttr :=
  ⟨{ a.raw with mtime := t.asTimespec.1, mtimensec := t.asTimespec.2 }⟩

/-- `NodeAttr::ctime`, fuse/node_attr.rs:139-146. -/
def ctime (a : NodeAttr) : Except Fault UnixTime :=
  UnixTime.fromTimespecUnchecked a.raw.ctime a.raw.ctimensec

/-- `NodeAttr::set_ctime`, fuse/node_attr.rs:150-152. -/
def setCtime (a : NodeAttr) (t : UnixTime) : NodeAttr :=
  ⟨{ a.raw with ctime := t.asTimespec.1, ctimensec := t.asTimespec.2 }⟩

/-- `NodeAttr::link_count`, fuse/node_attr.rs:157-159. -/
def linkCount (a : NodeAttr) : UInt32 := a.raw.nlink

/-- `NodeAttr::set_link_count`, fuse/node_attr.rs:167-169. -/
def setLinkCount (a : NodeAttr) (n : UInt32) : NodeAttr := ⟨{ a.raw with nlink := n }⟩

/-- `NodeAttr::user_id`, fuse/node_attr.rs:174-176. -/
def userId (a : NodeAttr) : UInt32 := a.raw.uid

/-- `NodeAttr::set_user_id`, fuse/node_attr.rs:180-182. -/
def setUserId (a : NodeAttr) (n : UInt32) : NodeAttr := ⟨{ a.raw with uid := n }⟩

/-- `NodeAttr::group_id`, fuse/node_attr.rs:187-189. -/
def groupId (a : NodeAttr) : UInt32 := a.raw.gid

/-- `NodeAttr::set_group_id`, fuse/node_attr.rs:193-195. -/
def setGroupId (a : NodeAttr) (n : UInt32) : NodeAttr := ⟨{ a.raw with gid := n }⟩

/-- `NodeAttr::device_number`, fuse/node_attr.rs:205-207. -/
def deviceNumber (a : NodeAttr) : UInt32 := a.raw.rdev

/-- `NodeAttr::set_device_number`, fuse/node_attr.rs:216-218. -/
def setDeviceNumber (a : NodeAttr) (n : UInt32) : NodeAttr := ⟨{ a.raw with rdev := n }⟩

/-- `NodeAttr::block_count`, fuse/node_attr.rs:223-225. -/
def blockCount (a : NodeAttr) : UInt64 := a.raw.blocks

/-- `NodeAttr::set_block_count`, fuse/node_attr.rs:229-231. -/
def setBlockCount (a : NodeAttr) (n : UInt64) : NodeAttr := ⟨{ a.raw with blocks := n }⟩

/-- `NodeAttr::block_size`, fuse/node_attr.rs:236-238. -/
def blockSize (a : NodeAttr) : UInt32 := a.raw.blksize

/-- `NodeAttr::set_block_size`, fuse/node_attr.rs:242-244. -/
def setBlockSize (a : NodeAttr) (n : UInt32) : NodeAttr := ⟨{ a.raw with blksize := n }⟩

/-- `NodeAttr::flags`, fuse/node_attr.rs:278-282. -/
def flags (a : NodeAttr) : Flags 32 := ⟨a.raw.flags.toBitVec⟩

/-- Writing through `NodeAttr::flags_mut` (`reborrow_mut`), fuse/node_attr.rs:286-288. -/
def setFlags (a : NodeAttr) (s : Flags 32) : NodeAttr := ⟨{ a.raw with flags := ⟨s.bits⟩ }⟩

/-- `AttributeFlag::FUSE_ATTR_SUBMOUNT`, fuse/node_attr.rs:325. -/
def submountFlag : Flag 32 := ⟨FUSE_ATTR_SUBMOUNT.toBitVec⟩

/-- `AttributeFlag::FUSE_ATTR_DAX`, fuse/node_attr.rs:326. -/
def daxFlag : Flag 32 := ⟨FUSE_ATTR_DAX.toBitVec⟩

/-- `NodeAttr::flag_submount`, fuse/node_attr.rs:249-251. -/
def flagSubmount (a : NodeAttr) : Bool := a.flags.get submountFlag

/-- `NodeAttr::set_flag_submount`, fuse/node_attr.rs:255-257. -/
def setFlagSubmount (a : NodeAttr) (b : Bool) : NodeAttr :=
  a.setFlags (a.flags.setTo submountFlag b)

/-- `NodeAttr::flag_dax`, fuse/node_attr.rs:264-266. -/
def flagDax (a : NodeAttr) : Bool := a.flags.get daxFlag

/-- `NodeAttr::set_flag_dax`, fuse/node_attr.rs:272-274. -/
def setFlagDax (a : NodeAttr) (b : Bool) : NodeAttr := a.setFlags (a.flags.setTo daxFlag b)

end NodeAttr

/-- The setters of `NodeAttr`, fuse/node_attr.rs:83-274. -/
inductive AttrOp
  | mode (m : FileMode)
  | size (n : UInt64)
  | atime (t : UnixTime)
  | mtime (t : UnixTime)
  | ctime (t : UnixTime)
  | linkCount (n : UInt32)
  | userId (n : UInt32)
  | groupId (n : UInt32)
  | deviceNumber (n : UInt32)
  | blockCount (n : UInt64)
  | blockSize (n : UInt32)
  | submount (b : Bool)
  | dax (b : Bool)
deriving DecidableEq, Repr

/-- Calling one setter, fuse/node_attr.rs:83-274. -/
def AttrOp.run (a : NodeAttr) : AttrOp → NodeAttr
  | .mode m => a.setMode m
  | .size n => a.setSize n
  | .atime t => a.setAtime t
  | .mtime t => a.setMtime t
  | .ctime t => a.setCtime t
  | .linkCount n => a.setLinkCount n
  | .userId n => a.setUserId n
  | .groupId n => a.setGroupId n
  | .deviceNumber n => a.setDeviceNumber n
  | .blockCount n => a.setBlockCount n
  | .blockSize n => a.setBlockSize n
  | .submount b => a.setFlagSubmount b
  | .dax b => a.setFlagDax b

/-- `Entry`, fuse/entry.rs:29-31. -/
structure Entry where
  raw : FuseEntryOut
deriving DecidableEq, Repr

namespace Entry

/-- `Entry::new`, fuse/entry.rs:37-45. -/
def new (a : NodeAttr) : Entry := ⟨{ nodeid := a.raw.ino, attr := a.raw }⟩

/-- `Entry::generation`, fuse/entry.rs:66-68. -/
def generation (e : Entry) : UInt64 := e.raw.generation

/-- `Entry::set_generation`, fuse/entry.rs:72-74. -/
def setGeneration (e : Entry) (g : UInt64) : Entry := ⟨{ e.raw with generation := g }⟩

/-- `Entry::attributes`, fuse/entry.rs:79-81. -/
def attributes (e : Entry) : NodeAttr := ⟨e.raw.attr⟩

/-- Calling a setter through `Entry::attributes_mut`, fuse/entry.rs:86-88. -/
def updateAttributes (e : Entry) (op : AttrOp) : Entry :=
  ⟨{ e.raw with attr := (op.run e.attributes).raw }⟩

/-- `Entry::cache_timeout`, fuse/entry.rs:93-95. -/
def cacheTimeout (e : Entry) : Duration := newDuration e.raw.entry_valid e.raw.entry_valid_nsec

/-- `Entry::set_cache_timeout`, fuse/entry.rs:99-103. -/
def setCacheTimeout (e : Entry) (d : Duration) : Entry :=
  ⟨{ e.raw with entry_valid := (splitDuration d).1, entry_valid_nsec := (splitDuration d).2 }⟩

/-- `Entry::attribute_cache_timeout`, fuse/entry.rs:108-110. -/
def attributeCacheTimeout (e : Entry) : Duration :=
  newDuration e.raw.attr_valid e.raw.attr_valid_nsec

/-- `Entry::set_attribute_cache_timeout`, fuse/entry.rs:114-118. -/
def setAttributeCacheTimeout (e : Entry) (d : Duration) : Entry :=
  ⟨{ e.raw with attr_valid := (splitDuration d).1, attr_valid_nsec := (splitDuration d).2 }⟩

end Entry

/-- The mutators of `Entry`, fuse/entry.rs:72-118. -/
inductive EntryOp
  | generation (g : UInt64)
  | attributes (op : AttrOp)
  | cacheTimeout (d : Duration)
  | attributeCacheTimeout (d : Duration)
deriving DecidableEq, Repr

/-- Calling one mutator, fuse/entry.rs:72-118. -/
def EntryOp.run (e : Entry) : EntryOp → Entry
  | .generation g => e.setGeneration g
  | .attributes op => e.updateAttributes op
  | .cacheTimeout d => e.setCacheTimeout d
  | .attributeCacheTimeout d => e.setAttributeCacheTimeout d

/-- `split_duration` of the VFS layer, fuse-vfs/fuse-vfs.rs:1184-1194: writes two out fields,
leaving them alone for a zero duration. -/
def vfsSplitDuration (d : Duration) (outSec : UInt64) (outNsec : UInt32) : UInt64 × UInt32 :=
  if d.secs = 0 ∧ d.nanos = 0 then (outSec, outNsec)
  else if d.secs ≤ I64_MAX then (d.secs, d.nanos)
  else (I64_MAX, 0)

end Fuse
