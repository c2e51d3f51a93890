import Verif.Notify

/-!
# Records built by setters

`StatfsAttributes`, `CreateResponse` and the accessors of the notifications.  (The accessors of `ResponseHeader`
are in `Notify.lean`.)
-/

namespace Fuse

/-- `StatfsAttributes`, fuse/operations/statfs.rs:61-64. -/
structure StatfsAttributes where
  raw : FuseKstatfs
deriving DecidableEq, Repr

namespace StatfsAttributes

/-- `StatfsAttributes::new`, fuse/operations/statfs.rs:68-72, with `fuse_kstatfs::new`, fuse/kernel.rs:278-282. -/
def new : StatfsAttributes := ⟨{}⟩

/-- `StatfsAttributes::block_count`, fuse/operations/statfs.rs:81-83. -/
def blockCount (a : StatfsAttributes) : UInt64 := a.raw.blocks

/-- `StatfsAttributes::set_block_count`, fuse/operations/statfs.rs:85-87. -/
def setBlockCount (a : StatfsAttributes) (x : UInt64) : StatfsAttributes := ⟨{ a.raw with blocks := x }⟩

/-- `StatfsAttributes::block_size`, fuse/operations/statfs.rs:90-92. -/
def blockSize (a : StatfsAttributes) : UInt32 := a.raw.bsize

/-- `StatfsAttributes::set_block_size`, fuse/operations/statfs.rs:94-96. -/
def setBlockSize (a : StatfsAttributes) (x : UInt32) : StatfsAttributes := ⟨{ a.raw with bsize := x }⟩

/-- `StatfsAttributes::blocks_available`, fuse/operations/statfs.rs:99-101. -/
def blocksAvailable (a : StatfsAttributes) : UInt64 := a.raw.bavail

/-- `StatfsAttributes::set_blocks_available`, fuse/operations/statfs.rs:103-105. -/
def setBlocksAvailable (a : StatfsAttributes) (x : UInt64) : StatfsAttributes := ⟨{ a.raw with bavail := x }⟩

/-- `StatfsAttributes::blocks_free`, fuse/operations/statfs.rs:108-110. -/
def blocksFree (a : StatfsAttributes) : UInt64 := a.raw.bfree

/-- `StatfsAttributes::set_blocks_free`, fuse/operations/statfs.rs:112-114. -/
def setBlocksFree (a : StatfsAttributes) (x : UInt64) : StatfsAttributes := ⟨{ a.raw with bfree := x }⟩

/-- `StatfsAttributes::fragment_size`, fuse/operations/statfs.rs:117-119. -/
def fragmentSize (a : StatfsAttributes) : UInt32 := a.raw.frsize

/-- `StatfsAttributes::set_fragment_size`, fuse/operations/statfs.rs:121-123. -/
def setFragmentSize (a : StatfsAttributes) (x : UInt32) : StatfsAttributes := ⟨{ a.raw with frsize := x }⟩

/-- `StatfsAttributes::inode_count`, fuse/operations/statfs.rs:126-128. -/
def inodeCount (a : StatfsAttributes) : UInt64 := a.raw.files

/-- `StatfsAttributes::set_inode_count`, fuse/operations/statfs.rs:130-132. -/
def setInodeCount (a : StatfsAttributes) (x : UInt64) : StatfsAttributes := ⟨{ a.raw with files := x }⟩

/-- `StatfsAttributes::inodes_free`, fuse/operations/statfs.rs:135-137. -/
def inodesFree (a : StatfsAttributes) : UInt64 := a.raw.ffree

/-- `StatfsAttributes::set_inodes_free`, fuse/operations/statfs.rs:139-141. -/
def setInodesFree (a : StatfsAttributes) (x : UInt64) : StatfsAttributes := ⟨{ a.raw with ffree := x }⟩

/-- `StatfsAttributes::max_filename_length`, fuse/operations/statfs.rs:144-146. -/
def maxFilenameLength (a : StatfsAttributes) : UInt32 := a.raw.namelen

/-- `StatfsAttributes::set_max_filename_length`, fuse/operations/statfs.rs:148-150. -/
def setMaxFilenameLength (a : StatfsAttributes) (x : UInt32) : StatfsAttributes := ⟨{ a.raw with namelen := x }⟩

end StatfsAttributes

/-- A call of a setter of `StatfsAttributes`. -/
inductive StatfsCall
  | blockCount (x : UInt64)
  | blockSize (x : UInt32)
  | blocksAvailable (x : UInt64)
  | blocksFree (x : UInt64)
  | fragmentSize (x : UInt32)
  | inodeCount (x : UInt64)
  | inodesFree (x : UInt64)
  | maxFilenameLength (x : UInt32)
deriving DecidableEq, Repr

/-- The setters of fuse/operations/statfs.rs:85-150. -/
def StatfsAttributes.call (a : StatfsAttributes) : StatfsCall → StatfsAttributes
  | .blockCount x => a.setBlockCount x
  | .blockSize x => a.setBlockSize x
  | .blocksAvailable x => a.setBlocksAvailable x
  | .blocksFree x => a.setBlocksFree x
  | .fragmentSize x => a.setFragmentSize x
  | .inodeCount x => a.setInodeCount x
  | .inodesFree x => a.setInodesFree x
  | .maxFilenameLength x => a.setMaxFilenameLength x

namespace CreateResponse

/-- `CreateResponse::new`, fuse/operations/create.rs:123-130. -/
def new (entry : Entry) : CreateResponse := { entry := entry }

/-- `CreateResponse::handle`, fuse/operations/create.rs:144-148. -/
def handle (r : CreateResponse) : UInt64 := r.openOut.fh

/-- `CreateResponse::set_handle`, fuse/operations/create.rs:150-153. -/
def setHandle (r : CreateResponse) (h : UInt64) : CreateResponse := { r with openOut := { r.openOut with fh := h } }

/-- `CreateResponse::flags`, fuse/operations/create.rs:155-159 (the bits). -/
def flags (r : CreateResponse) : UInt32 := r.openOut.open_flags

/-- `CreateResponse::set_flags`, fuse/operations/create.rs:161-164. -/
def setFlags (r : CreateResponse) (bits : UInt32) : CreateResponse :=
  { r with openOut := { r.openOut with open_flags := bits } }

/-- `CreateResponse::update_flags`, fuse/operations/create.rs:166-171. -/
def updateFlags (r : CreateResponse) (f : UInt32 → UInt32) : CreateResponse := r.setFlags (f r.flags)

end CreateResponse

/-- A call of a method changing a `CreateResponse`. -/
inductive CreateCall
  | handle (h : UInt64)
  | flags (bits : UInt32)
  | update (f : UInt32 → UInt32)
  /-- Writing through `entry_mut`, fuse/operations/create.rs:138-142. -/
  | entry (f : Entry → Entry)

/-- The methods of fuse/operations/create.rs:138-171. -/
def CreateResponse.call (r : CreateResponse) : CreateCall → CreateResponse
  | .handle h => r.setHandle h
  | .flags bits => r.setFlags bits
  | .update f => r.updateFlags f
  | .entry f => { r with entry := f r.entry }

/-- A call of a setter of `ResponseHeader`, fuse/fuse.rs:328-348. -/
inductive HeaderCall
  | len (n : { n : UInt32 // n ≠ 0 })
  | error (e : { n : Int32 // n ≠ 0 })

/-- The setters of fuse/fuse.rs:328-348. -/
def ResponseHeader.call (h : ResponseHeader) : HeaderCall → ResponseHeader
  | .len n => h.setResponseLen n
  | .error e => h.setError e

/-- `Delete::parent_id`, fuse/notify.rs:139-142. -/
def NotifyDelete.parentId (d : NotifyDelete) : Except Fault NodeId := NonZeroU64.newUnchecked d.raw.parent

/-- `Delete::node_id`, fuse/notify.rs:144-147. -/
def NotifyDelete.nodeId (d : NotifyDelete) : Except Fault NodeId := NonZeroU64.newUnchecked d.raw.child

/-- `InvalidateEntry::parent_id`, fuse/notify.rs:190-193. -/
def InvalidateEntry.parentId (d : InvalidateEntry) : Except Fault NodeId := NonZeroU64.newUnchecked d.raw.parent

/-- `InvalidateInode::node_id`, fuse/notify.rs:231-234. -/
def InvalidateInode.nodeId (d : InvalidateInode) : Except Fault NodeId := NonZeroU64.newUnchecked d.raw.ino

/-- `InvalidateInode::offset`, fuse/notify.rs:236-239. -/
def InvalidateInode.offset (d : InvalidateInode) : Int64 := d.raw.off

/-- `InvalidateInode::size`, fuse/notify.rs:251-254. -/
def InvalidateInode.size (d : InvalidateInode) : Int64 := d.raw.len

/-- A call of a setter of `InvalidateInode`. -/
inductive InodeCall
  | offset (x : Option UInt64)
  | size (x : Option NonZeroU64)

/-- The setters of fuse/notify.rs:241-264. -/
def InvalidateInode.call (d : InvalidateInode) : InodeCall → InvalidateInode
  | .offset x => d.setOffset x
  | .size x => d.setSize x

/-- `Poll::poll_handle`, fuse/notify.rs:296-299. -/
def NotifyPoll.pollHandle (p : NotifyPoll) : UInt64 := p.raw.kh

/-- `GetxattrResult::size` and `ListxattrResult::size`, fuse-vfs/fuse-vfs.rs:149-156 and 169-176: the buffer. -/
def xattrSizeResult (size : UInt32) : Bytes := enc ({ size := size } : FuseGetxattrOut)

end Fuse
