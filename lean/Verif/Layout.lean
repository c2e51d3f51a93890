import Verif.Kernel
import Verif.Spec

/-!
# C01: wire records

For every protocol record of `fuse/kernel.rs`: the bytes written are its fields, in order, as
little-endian integers; the record has the documented size; bytes and records correspond
one-to-one.

The example after each group uses a non-trivial value.  `fuse_x_layout` fixes size and order;
`C01_*` adds the two round trips.
-/

set_option linter.unusedSimpArgs false

namespace Fuse
open Spec

/-- Bytes and records of type `α` correspond one-to-one, `n` bytes per record, and `layout` says what
the bytes are. -/
def Corresponds (α : Type) [Wire α] (n : Nat) (layout : α → Bytes) : Prop :=
  (∀ x : α, enc x = layout x) ∧ (∀ x : α, (layout x).length = n) ∧
  (∀ x : α, dec (layout x) = x) ∧
  (∀ bs : Bytes, bs.length = n → ∃ x : α, layout x = bs ∧ ∀ y : α, layout y = bs → y = x)

theorem Corresponds.mk' {α : Type} [Wire α] {n : Nat} {layout : α → Bytes} (hn : Wire.size α = n)
    (h : ∀ x : α, enc x = layout x) : Corresponds α n layout := by
  refine ⟨h, fun x => by rw [← h, Wire.enc_length, hn], fun x => by rw [← h, Wire.dec_enc], ?_⟩
  intro bs hb
  refine ⟨dec bs, by rw [← h, Wire.enc_dec _ (by omega)], fun y hy => ?_⟩
  rw [← hy, ← h, Wire.dec_enc]

/-- The fields of `fuse_attr` (fuse/kernel.rs:236-253) in order. -/
def layout_fuse_attr (x : FuseAttr) : Bytes :=
  le64 x.ino ++ le64 x.size ++ le64 x.blocks ++ le64 x.atime ++ le64 x.mtime ++ le64 x.ctime ++
    le32 x.atimensec ++ le32 x.mtimensec ++ le32 x.ctimensec ++ le32 x.mode ++ le32 x.nlink ++
    le32 x.uid ++ le32 x.gid ++ le32 x.rdev ++ le32 x.blksize ++ le32 x.flags

theorem enc_fuse_attr (x : FuseAttr) : enc x = layout_fuse_attr x := by
  show enc (x.ino, x.size, x.blocks, x.atime, x.mtime, x.ctime, x.atimensec, x.mtimensec, x.ctimensec, x.mode, x.nlink, x.uid, x.gid, x.rdev, x.blksize, x.flags) = _
  simp only [enc_prod, enc_u32, enc_u64, layout_fuse_attr, List.append_assoc]

theorem C01_fuse_attr : Corresponds FuseAttr 88 layout_fuse_attr := .mk' rfl enc_fuse_attr

/-- The fields of `fuse_kstatfs` (fuse/kernel.rs:265-276) in order. -/
def layout_fuse_kstatfs (x : FuseKstatfs) : Bytes :=
  le64 x.blocks ++ le64 x.bfree ++ le64 x.bavail ++ le64 x.files ++ le64 x.ffree ++
    le32 x.bsize ++ le32 x.namelen ++ le32 x.frsize ++ le32 x.padding ++ x.spare.bytes

theorem enc_fuse_kstatfs (x : FuseKstatfs) : enc x = layout_fuse_kstatfs x := by
  show enc (x.blocks, x.bfree, x.bavail, x.files, x.ffree, x.bsize, x.namelen, x.frsize, x.padding, x.spare) = _
  simp only [enc_prod, enc_u32, enc_u64, layout_fuse_kstatfs, List.append_assoc]
  rfl

theorem C01_fuse_kstatfs : Corresponds FuseKstatfs 80 layout_fuse_kstatfs := .mk' rfl enc_fuse_kstatfs

/-- The fields of `fuse_file_lock` (fuse/kernel.rs:288-293) in order. -/
def layout_fuse_file_lock (x : FuseFileLock) : Bytes :=
  le64 x.start ++ le64 x.end_ ++ le32 x.type_ ++ le32 x.pid

theorem enc_fuse_file_lock (x : FuseFileLock) : enc x = layout_fuse_file_lock x := by
  show enc (x.start, x.end_, x.type_, x.pid) = _
  simp only [enc_prod, enc_u32, enc_u64, layout_fuse_file_lock, List.append_assoc]

theorem C01_fuse_file_lock : Corresponds FuseFileLock 24 layout_fuse_file_lock := .mk' rfl enc_fuse_file_lock

/-- The fields of `fuse_entry_out` (fuse/kernel.rs:672-680) in order. -/
def layout_fuse_entry_out (x : FuseEntryOut) : Bytes :=
  le64 x.nodeid ++ le64 x.generation ++ le64 x.entry_valid ++ le64 x.attr_valid ++
    le32 x.entry_valid_nsec ++ le32 x.attr_valid_nsec ++ layout_fuse_attr x.attr

theorem enc_fuse_entry_out (x : FuseEntryOut) : enc x = layout_fuse_entry_out x := by
  show enc (x.nodeid, x.generation, x.entry_valid, x.attr_valid, x.entry_valid_nsec, x.attr_valid_nsec, x.attr) = _
  simp only [enc_prod, enc_u32, enc_u64, enc_fuse_attr, layout_fuse_entry_out, List.append_assoc]

theorem C01_fuse_entry_out : Corresponds FuseEntryOut 128 layout_fuse_entry_out := .mk' rfl enc_fuse_entry_out

/-- The fields of `fuse_forget_in` (fuse/kernel.rs:692-694) in order. -/
def layout_fuse_forget_in (x : FuseForgetIn) : Bytes :=
  le64 x.nlookup

theorem enc_fuse_forget_in (x : FuseForgetIn) : enc x = layout_fuse_forget_in x := by
  show enc (x.nlookup) = _
  simp only [enc_u64, layout_fuse_forget_in]

theorem C01_fuse_forget_in : Corresponds FuseForgetIn 8 layout_fuse_forget_in := .mk' rfl enc_fuse_forget_in

/-- The fields of `fuse_forget_one` (fuse/kernel.rs:706-709) in order. -/
def layout_fuse_forget_one (x : FuseForgetOne) : Bytes :=
  le64 x.nodeid ++ le64 x.nlookup

theorem enc_fuse_forget_one (x : FuseForgetOne) : enc x = layout_fuse_forget_one x := by
  show enc (x.nodeid, x.nlookup) = _
  simp only [enc_prod, enc_u64, layout_fuse_forget_one, List.append_assoc]

theorem C01_fuse_forget_one : Corresponds FuseForgetOne 16 layout_fuse_forget_one := .mk' rfl enc_fuse_forget_one

/-- The fields of `fuse_batch_forget_in` (fuse/kernel.rs:721-724) in order. -/
def layout_fuse_batch_forget_in (x : FuseBatchForgetIn) : Bytes :=
  le32 x.count ++ le32 x.dummy

theorem enc_fuse_batch_forget_in (x : FuseBatchForgetIn) : enc x = layout_fuse_batch_forget_in x := by
  show enc (x.count, x.dummy) = _
  simp only [enc_prod, enc_u32, layout_fuse_batch_forget_in, List.append_assoc]

theorem C01_fuse_batch_forget_in : Corresponds FuseBatchForgetIn 8 layout_fuse_batch_forget_in := .mk' rfl enc_fuse_batch_forget_in

/-- The fields of `fuse_getattr_in` (fuse/kernel.rs:736-740) in order. -/
def layout_fuse_getattr_in (x : FuseGetattrIn) : Bytes :=
  le32 x.getattr_flags ++ le32 x.dummy ++ le64 x.fh

theorem enc_fuse_getattr_in (x : FuseGetattrIn) : enc x = layout_fuse_getattr_in x := by
  show enc (x.getattr_flags, x.dummy, x.fh) = _
  simp only [enc_prod, enc_u32, enc_u64, layout_fuse_getattr_in, List.append_assoc]

theorem C01_fuse_getattr_in : Corresponds FuseGetattrIn 16 layout_fuse_getattr_in := .mk' rfl enc_fuse_getattr_in

/-- The fields of `fuse_attr_out` (fuse/kernel.rs:754-759) in order. -/
def layout_fuse_attr_out (x : FuseAttrOut) : Bytes :=
  le64 x.attr_valid ++ le32 x.attr_valid_nsec ++ le32 x.dummy ++ layout_fuse_attr x.attr

theorem enc_fuse_attr_out (x : FuseAttrOut) : enc x = layout_fuse_attr_out x := by
  show enc (x.attr_valid, x.attr_valid_nsec, x.dummy, x.attr) = _
  simp only [enc_prod, enc_u32, enc_u64, enc_fuse_attr, layout_fuse_attr_out, List.append_assoc]

theorem C01_fuse_attr_out : Corresponds FuseAttrOut 104 layout_fuse_attr_out := .mk' rfl enc_fuse_attr_out

/-- The fields of `fuse_mknod_in` (fuse/kernel.rs:773-778) in order. -/
def layout_fuse_mknod_in (x : FuseMknodIn) : Bytes :=
  le32 x.mode ++ le32 x.rdev ++ le32 x.umask ++ le32 x.padding

theorem enc_fuse_mknod_in (x : FuseMknodIn) : enc x = layout_fuse_mknod_in x := by
  show enc (x.mode, x.rdev, x.umask, x.padding) = _
  simp only [enc_prod, enc_u32, layout_fuse_mknod_in, List.append_assoc]

theorem C01_fuse_mknod_in : Corresponds FuseMknodIn 16 layout_fuse_mknod_in := .mk' rfl enc_fuse_mknod_in

/-- The fields of `fuse_mkdir_in` (fuse/kernel.rs:790-793) in order. -/
def layout_fuse_mkdir_in (x : FuseMkdirIn) : Bytes :=
  le32 x.mode ++ le32 x.umask

theorem enc_fuse_mkdir_in (x : FuseMkdirIn) : enc x = layout_fuse_mkdir_in x := by
  show enc (x.mode, x.umask) = _
  simp only [enc_prod, enc_u32, layout_fuse_mkdir_in, List.append_assoc]

theorem C01_fuse_mkdir_in : Corresponds FuseMkdirIn 8 layout_fuse_mkdir_in := .mk' rfl enc_fuse_mkdir_in

/-- The fields of `fuse_rename_in` (fuse/kernel.rs:805-807) in order. -/
def layout_fuse_rename_in (x : FuseRenameIn) : Bytes :=
  le64 x.newdir

theorem enc_fuse_rename_in (x : FuseRenameIn) : enc x = layout_fuse_rename_in x := by
  show enc (x.newdir) = _
  simp only [enc_u64, layout_fuse_rename_in]

theorem C01_fuse_rename_in : Corresponds FuseRenameIn 8 layout_fuse_rename_in := .mk' rfl enc_fuse_rename_in

/-- The fields of `fuse_rename2_in` (fuse/kernel.rs:819-823) in order. -/
def layout_fuse_rename2_in (x : FuseRename2In) : Bytes :=
  le64 x.newdir ++ le32 x.flags ++ le32 x.padding

theorem enc_fuse_rename2_in (x : FuseRename2In) : enc x = layout_fuse_rename2_in x := by
  show enc (x.newdir, x.flags, x.padding) = _
  simp only [enc_prod, enc_u32, enc_u64, layout_fuse_rename2_in, List.append_assoc]

theorem C01_fuse_rename2_in : Corresponds FuseRename2In 16 layout_fuse_rename2_in := .mk' rfl enc_fuse_rename2_in

/-- The fields of `fuse_link_in` (fuse/kernel.rs:835-837) in order. -/
def layout_fuse_link_in (x : FuseLinkIn) : Bytes :=
  le64 x.oldnodeid

theorem enc_fuse_link_in (x : FuseLinkIn) : enc x = layout_fuse_link_in x := by
  show enc (x.oldnodeid) = _
  simp only [enc_u64, layout_fuse_link_in]

theorem C01_fuse_link_in : Corresponds FuseLinkIn 8 layout_fuse_link_in := .mk' rfl enc_fuse_link_in

/-- The fields of `fuse_setattr_in` (fuse/kernel.rs:849-866) in order. -/
def layout_fuse_setattr_in (x : FuseSetattrIn) : Bytes :=
  le32 x.valid ++ le32 x.padding ++ le64 x.fh ++ le64 x.size ++ le64 x.lock_owner ++
    le64 x.atime ++ le64 x.mtime ++ le64 x.ctime ++ le32 x.atimensec ++ le32 x.mtimensec ++
    le32 x.ctimensec ++ le32 x.mode ++ le32 x.unused4 ++ le32 x.uid ++ le32 x.gid ++
    le32 x.unused5

theorem enc_fuse_setattr_in (x : FuseSetattrIn) : enc x = layout_fuse_setattr_in x := by
  show enc (x.valid, x.padding, x.fh, x.size, x.lock_owner, x.atime, x.mtime, x.ctime, x.atimensec, x.mtimensec, x.ctimensec, x.mode, x.unused4, x.uid, x.gid, x.unused5) = _
  simp only [enc_prod, enc_u32, enc_u64, layout_fuse_setattr_in, List.append_assoc]

theorem C01_fuse_setattr_in : Corresponds FuseSetattrIn 88 layout_fuse_setattr_in := .mk' rfl enc_fuse_setattr_in

/-- The fields of `fuse_open_in` (fuse/kernel.rs:878-881) in order. -/
def layout_fuse_open_in (x : FuseOpenIn) : Bytes :=
  le32 x.flags ++ le32 x.open_flags

theorem enc_fuse_open_in (x : FuseOpenIn) : enc x = layout_fuse_open_in x := by
  show enc (x.flags, x.open_flags) = _
  simp only [enc_prod, enc_u32, layout_fuse_open_in, List.append_assoc]

theorem C01_fuse_open_in : Corresponds FuseOpenIn 8 layout_fuse_open_in := .mk' rfl enc_fuse_open_in

/-- The fields of `fuse_create_in` (fuse/kernel.rs:893-898) in order. -/
def layout_fuse_create_in (x : FuseCreateIn) : Bytes :=
  le32 x.flags ++ le32 x.mode ++ le32 x.umask ++ le32 x.open_flags

theorem enc_fuse_create_in (x : FuseCreateIn) : enc x = layout_fuse_create_in x := by
  show enc (x.flags, x.mode, x.umask, x.open_flags) = _
  simp only [enc_prod, enc_u32, layout_fuse_create_in, List.append_assoc]

theorem C01_fuse_create_in : Corresponds FuseCreateIn 16 layout_fuse_create_in := .mk' rfl enc_fuse_create_in

/-- The fields of `fuse_open_out` (fuse/kernel.rs:910-914) in order. -/
def layout_fuse_open_out (x : FuseOpenOut) : Bytes :=
  le64 x.fh ++ le32 x.open_flags ++ le32 x.padding

theorem enc_fuse_open_out (x : FuseOpenOut) : enc x = layout_fuse_open_out x := by
  show enc (x.fh, x.open_flags, x.padding) = _
  simp only [enc_prod, enc_u32, enc_u64, layout_fuse_open_out, List.append_assoc]

theorem C01_fuse_open_out : Corresponds FuseOpenOut 16 layout_fuse_open_out := .mk' rfl enc_fuse_open_out

/-- The fields of `fuse_release_in` (fuse/kernel.rs:926-931) in order. -/
def layout_fuse_release_in (x : FuseReleaseIn) : Bytes :=
  le64 x.fh ++ le32 x.flags ++ le32 x.release_flags ++ le64 x.lock_owner

theorem enc_fuse_release_in (x : FuseReleaseIn) : enc x = layout_fuse_release_in x := by
  show enc (x.fh, x.flags, x.release_flags, x.lock_owner) = _
  simp only [enc_prod, enc_u32, enc_u64, layout_fuse_release_in, List.append_assoc]

theorem C01_fuse_release_in : Corresponds FuseReleaseIn 24 layout_fuse_release_in := .mk' rfl enc_fuse_release_in

/-- The fields of `fuse_flush_in` (fuse/kernel.rs:943-948) in order. -/
def layout_fuse_flush_in (x : FuseFlushIn) : Bytes :=
  le64 x.fh ++ le32 x.unused ++ le32 x.padding ++ le64 x.lock_owner

theorem enc_fuse_flush_in (x : FuseFlushIn) : enc x = layout_fuse_flush_in x := by
  show enc (x.fh, x.unused, x.padding, x.lock_owner) = _
  simp only [enc_prod, enc_u32, enc_u64, layout_fuse_flush_in, List.append_assoc]

theorem C01_fuse_flush_in : Corresponds FuseFlushIn 24 layout_fuse_flush_in := .mk' rfl enc_fuse_flush_in

/-- The fields of `fuse_read_in` (fuse/kernel.rs:960-968) in order. -/
def layout_fuse_read_in (x : FuseReadIn) : Bytes :=
  le64 x.fh ++ le64 x.offset ++ le32 x.size ++ le32 x.read_flags ++ le64 x.lock_owner ++
    le32 x.flags ++ le32 x.padding

theorem enc_fuse_read_in (x : FuseReadIn) : enc x = layout_fuse_read_in x := by
  show enc (x.fh, x.offset, x.size, x.read_flags, x.lock_owner, x.flags, x.padding) = _
  simp only [enc_prod, enc_u32, enc_u64, layout_fuse_read_in, List.append_assoc]

theorem C01_fuse_read_in : Corresponds FuseReadIn 40 layout_fuse_read_in := .mk' rfl enc_fuse_read_in

/-- The fields of `fuse_write_in` (fuse/kernel.rs:982-990) in order. -/
def layout_fuse_write_in (x : FuseWriteIn) : Bytes :=
  le64 x.fh ++ le64 x.offset ++ le32 x.size ++ le32 x.write_flags ++ le64 x.lock_owner ++
    le32 x.flags ++ le32 x.padding

theorem enc_fuse_write_in (x : FuseWriteIn) : enc x = layout_fuse_write_in x := by
  show enc (x.fh, x.offset, x.size, x.write_flags, x.lock_owner, x.flags, x.padding) = _
  simp only [enc_prod, enc_u32, enc_u64, layout_fuse_write_in, List.append_assoc]

theorem C01_fuse_write_in : Corresponds FuseWriteIn 40 layout_fuse_write_in := .mk' rfl enc_fuse_write_in

/-- The fields of `fuse_write_out` (fuse/kernel.rs:1002-1005) in order. -/
def layout_fuse_write_out (x : FuseWriteOut) : Bytes :=
  le32 x.size ++ le32 x.padding

theorem enc_fuse_write_out (x : FuseWriteOut) : enc x = layout_fuse_write_out x := by
  show enc (x.size, x.padding) = _
  simp only [enc_prod, enc_u32, layout_fuse_write_out, List.append_assoc]

theorem C01_fuse_write_out : Corresponds FuseWriteOut 8 layout_fuse_write_out := .mk' rfl enc_fuse_write_out

/-- The fields of `fuse_statfs_out` (fuse/kernel.rs:1019-1021) in order. -/
def layout_fuse_statfs_out (x : FuseStatfsOut) : Bytes :=
  layout_fuse_kstatfs x.st

theorem enc_fuse_statfs_out (x : FuseStatfsOut) : enc x = layout_fuse_statfs_out x := by
  show enc (x.st) = _
  simp only [enc_fuse_kstatfs, layout_fuse_statfs_out]

theorem C01_fuse_statfs_out : Corresponds FuseStatfsOut 80 layout_fuse_statfs_out := .mk' rfl enc_fuse_statfs_out

/-- The fields of `fuse_fsync_in` (fuse/kernel.rs:1033-1037) in order. -/
def layout_fuse_fsync_in (x : FuseFsyncIn) : Bytes :=
  le64 x.fh ++ le32 x.fsync_flags ++ le32 x.padding

theorem enc_fuse_fsync_in (x : FuseFsyncIn) : enc x = layout_fuse_fsync_in x := by
  show enc (x.fh, x.fsync_flags, x.padding) = _
  simp only [enc_prod, enc_u32, enc_u64, layout_fuse_fsync_in, List.append_assoc]

theorem C01_fuse_fsync_in : Corresponds FuseFsyncIn 16 layout_fuse_fsync_in := .mk' rfl enc_fuse_fsync_in

/-- The fields of `fuse_setxattr_in` (fuse/kernel.rs:1051-1056) in order. -/
def layout_fuse_setxattr_in (x : FuseSetxattrIn) : Bytes :=
  le32 x.size ++ le32 x.flags ++ le32 x.setxattr_flags ++ le32 x.padding

theorem enc_fuse_setxattr_in (x : FuseSetxattrIn) : enc x = layout_fuse_setxattr_in x := by
  show enc (x.size, x.flags, x.setxattr_flags, x.padding) = _
  simp only [enc_prod, enc_u32, layout_fuse_setxattr_in, List.append_assoc]

theorem C01_fuse_setxattr_in : Corresponds FuseSetxattrIn 16 layout_fuse_setxattr_in := .mk' rfl enc_fuse_setxattr_in

/-- The fields of `fuse_getxattr_in` (fuse/kernel.rs:1068-1071) in order. -/
def layout_fuse_getxattr_in (x : FuseGetxattrIn) : Bytes :=
  le32 x.size ++ le32 x.padding

theorem enc_fuse_getxattr_in (x : FuseGetxattrIn) : enc x = layout_fuse_getxattr_in x := by
  show enc (x.size, x.padding) = _
  simp only [enc_prod, enc_u32, layout_fuse_getxattr_in, List.append_assoc]

theorem C01_fuse_getxattr_in : Corresponds FuseGetxattrIn 8 layout_fuse_getxattr_in := .mk' rfl enc_fuse_getxattr_in

/-- The fields of `fuse_getxattr_out` (fuse/kernel.rs:1083-1086) in order. -/
def layout_fuse_getxattr_out (x : FuseGetxattrOut) : Bytes :=
  le32 x.size ++ le32 x.padding

theorem enc_fuse_getxattr_out (x : FuseGetxattrOut) : enc x = layout_fuse_getxattr_out x := by
  show enc (x.size, x.padding) = _
  simp only [enc_prod, enc_u32, layout_fuse_getxattr_out, List.append_assoc]

theorem C01_fuse_getxattr_out : Corresponds FuseGetxattrOut 8 layout_fuse_getxattr_out := .mk' rfl enc_fuse_getxattr_out

/-- The fields of `fuse_lk_in` (fuse/kernel.rs:1098-1104) in order. -/
def layout_fuse_lk_in (x : FuseLkIn) : Bytes :=
  le64 x.fh ++ le64 x.owner ++ layout_fuse_file_lock x.lk ++ le32 x.lk_flags ++ le32 x.padding

theorem enc_fuse_lk_in (x : FuseLkIn) : enc x = layout_fuse_lk_in x := by
  show enc (x.fh, x.owner, x.lk, x.lk_flags, x.padding) = _
  simp only [enc_prod, enc_u32, enc_u64, enc_fuse_file_lock, layout_fuse_lk_in, List.append_assoc]

theorem C01_fuse_lk_in : Corresponds FuseLkIn 48 layout_fuse_lk_in := .mk' rfl enc_fuse_lk_in

/-- The fields of `fuse_lk_out` (fuse/kernel.rs:1116-1118) in order. -/
def layout_fuse_lk_out (x : FuseLkOut) : Bytes :=
  layout_fuse_file_lock x.lk

theorem enc_fuse_lk_out (x : FuseLkOut) : enc x = layout_fuse_lk_out x := by
  show enc (x.lk) = _
  simp only [enc_fuse_file_lock, layout_fuse_lk_out]

theorem C01_fuse_lk_out : Corresponds FuseLkOut 24 layout_fuse_lk_out := .mk' rfl enc_fuse_lk_out

/-- The fields of `fuse_access_in` (fuse/kernel.rs:1130-1133) in order. -/
def layout_fuse_access_in (x : FuseAccessIn) : Bytes :=
  le32 x.mask ++ le32 x.padding

theorem enc_fuse_access_in (x : FuseAccessIn) : enc x = layout_fuse_access_in x := by
  show enc (x.mask, x.padding) = _
  simp only [enc_prod, enc_u32, layout_fuse_access_in, List.append_assoc]

theorem C01_fuse_access_in : Corresponds FuseAccessIn 8 layout_fuse_access_in := .mk' rfl enc_fuse_access_in

/-- The fields of `fuse_init_in` (fuse/kernel.rs:1145-1152) in order. -/
def layout_fuse_init_in (x : FuseInitIn) : Bytes :=
  le32 x.major ++ le32 x.minor ++ le32 x.max_readahead ++ le32 x.flags ++ le32 x.flags2 ++
    x.unused.bytes

theorem enc_fuse_init_in (x : FuseInitIn) : enc x = layout_fuse_init_in x := by
  show enc (x.major, x.minor, x.max_readahead, x.flags, x.flags2, x.unused) = _
  simp only [enc_prod, enc_u32, layout_fuse_init_in, List.append_assoc]
  rfl

theorem C01_fuse_init_in : Corresponds FuseInitIn 64 layout_fuse_init_in := .mk' rfl enc_fuse_init_in

/-- The fields of `fuse_init_out` (fuse/kernel.rs:1167-1180) in order. -/
def layout_fuse_init_out (x : FuseInitOut) : Bytes :=
  le32 x.major ++ le32 x.minor ++ le32 x.max_readahead ++ le32 x.flags ++
    le16 x.max_background ++ le16 x.congestion_threshold ++ le32 x.max_write ++
    le32 x.time_gran ++ le16 x.max_pages ++ le16 x.map_alignment ++ le32 x.flags2 ++
    x.unused.bytes

theorem enc_fuse_init_out (x : FuseInitOut) : enc x = layout_fuse_init_out x := by
  show enc (x.major, x.minor, x.max_readahead, x.flags, x.max_background, x.congestion_threshold, x.max_write, x.time_gran, x.max_pages, x.map_alignment, x.flags2, x.unused) = _
  simp only [enc_prod, enc_u16, enc_u32, layout_fuse_init_out, List.append_assoc]
  rfl

theorem C01_fuse_init_out : Corresponds FuseInitOut 64 layout_fuse_init_out := .mk' rfl enc_fuse_init_out

/-- The fields of `cuse_init_in` (fuse/kernel.rs:1194-1199) in order. -/
def layout_cuse_init_in (x : CuseInitIn) : Bytes :=
  le32 x.major ++ le32 x.minor ++ le32 x.unused ++ le32 x.flags

theorem enc_cuse_init_in (x : CuseInitIn) : enc x = layout_cuse_init_in x := by
  show enc (x.major, x.minor, x.unused, x.flags) = _
  simp only [enc_prod, enc_u32, layout_cuse_init_in, List.append_assoc]

theorem C01_cuse_init_in : Corresponds CuseInitIn 16 layout_cuse_init_in := .mk' rfl enc_cuse_init_in

/-- The fields of `cuse_init_out` (fuse/kernel.rs:1211-1221) in order. -/
def layout_cuse_init_out (x : CuseInitOut) : Bytes :=
  le32 x.major ++ le32 x.minor ++ le32 x.unused ++ le32 x.flags ++ le32 x.max_read ++
    le32 x.max_write ++ le32 x.dev_major ++ le32 x.dev_minor ++ x.spare.bytes

theorem enc_cuse_init_out (x : CuseInitOut) : enc x = layout_cuse_init_out x := by
  show enc (x.major, x.minor, x.unused, x.flags, x.max_read, x.max_write, x.dev_major, x.dev_minor, x.spare) = _
  simp only [enc_prod, enc_u32, layout_cuse_init_out, List.append_assoc]
  rfl

theorem C01_cuse_init_out : Corresponds CuseInitOut 72 layout_cuse_init_out := .mk' rfl enc_cuse_init_out

/-- The fields of `fuse_interrupt_in` (fuse/kernel.rs:1233-1235) in order. -/
def layout_fuse_interrupt_in (x : FuseInterruptIn) : Bytes :=
  le64 x.unique

theorem enc_fuse_interrupt_in (x : FuseInterruptIn) : enc x = layout_fuse_interrupt_in x := by
  show enc (x.unique) = _
  simp only [enc_u64, layout_fuse_interrupt_in]

theorem C01_fuse_interrupt_in : Corresponds FuseInterruptIn 8 layout_fuse_interrupt_in := .mk' rfl enc_fuse_interrupt_in

/-- The fields of `fuse_bmap_in` (fuse/kernel.rs:1247-1251) in order. -/
def layout_fuse_bmap_in (x : FuseBmapIn) : Bytes :=
  le64 x.block ++ le32 x.blocksize ++ le32 x.padding

theorem enc_fuse_bmap_in (x : FuseBmapIn) : enc x = layout_fuse_bmap_in x := by
  show enc (x.block, x.blocksize, x.padding) = _
  simp only [enc_prod, enc_u32, enc_u64, layout_fuse_bmap_in, List.append_assoc]

theorem C01_fuse_bmap_in : Corresponds FuseBmapIn 16 layout_fuse_bmap_in := .mk' rfl enc_fuse_bmap_in

/-- The fields of `fuse_bmap_out` (fuse/kernel.rs:1263-1265) in order. -/
def layout_fuse_bmap_out (x : FuseBmapOut) : Bytes :=
  le64 x.block

theorem enc_fuse_bmap_out (x : FuseBmapOut) : enc x = layout_fuse_bmap_out x := by
  show enc (x.block) = _
  simp only [enc_u64, layout_fuse_bmap_out]

theorem C01_fuse_bmap_out : Corresponds FuseBmapOut 8 layout_fuse_bmap_out := .mk' rfl enc_fuse_bmap_out

/-- The fields of `fuse_ioctl_in` (fuse/kernel.rs:1277-1284) in order. -/
def layout_fuse_ioctl_in (x : FuseIoctlIn) : Bytes :=
  le64 x.fh ++ le32 x.flags ++ le32 x.cmd ++ le64 x.arg ++ le32 x.in_size ++ le32 x.out_size

theorem enc_fuse_ioctl_in (x : FuseIoctlIn) : enc x = layout_fuse_ioctl_in x := by
  show enc (x.fh, x.flags, x.cmd, x.arg, x.in_size, x.out_size) = _
  simp only [enc_prod, enc_u32, enc_u64, layout_fuse_ioctl_in, List.append_assoc]

theorem C01_fuse_ioctl_in : Corresponds FuseIoctlIn 32 layout_fuse_ioctl_in := .mk' rfl enc_fuse_ioctl_in

/-- The fields of `fuse_ioctl_iovec` (fuse/kernel.rs:1296-1299) in order. -/
def layout_fuse_ioctl_iovec (x : FuseIoctlIovec) : Bytes :=
  le64 x.base ++ le64 x.len

theorem enc_fuse_ioctl_iovec (x : FuseIoctlIovec) : enc x = layout_fuse_ioctl_iovec x := by
  show enc (x.base, x.len) = _
  simp only [enc_prod, enc_u64, layout_fuse_ioctl_iovec, List.append_assoc]

theorem C01_fuse_ioctl_iovec : Corresponds FuseIoctlIovec 16 layout_fuse_ioctl_iovec := .mk' rfl enc_fuse_ioctl_iovec

/-- The fields of `fuse_ioctl_out` (fuse/kernel.rs:1311-1316) in order. -/
def layout_fuse_ioctl_out (x : FuseIoctlOut) : Bytes :=
  leI32 x.result ++ le32 x.flags ++ le32 x.in_iovs ++ le32 x.out_iovs

theorem enc_fuse_ioctl_out (x : FuseIoctlOut) : enc x = layout_fuse_ioctl_out x := by
  show enc (x.result, x.flags, x.in_iovs, x.out_iovs) = _
  simp only [enc_prod, enc_u32, enc_i32, layout_fuse_ioctl_out, List.append_assoc]

theorem C01_fuse_ioctl_out : Corresponds FuseIoctlOut 16 layout_fuse_ioctl_out := .mk' rfl enc_fuse_ioctl_out

/-- The fields of `fuse_poll_in` (fuse/kernel.rs:1328-1333) in order. -/
def layout_fuse_poll_in (x : FusePollIn) : Bytes :=
  le64 x.fh ++ le64 x.kh ++ le32 x.flags ++ le32 x.events

theorem enc_fuse_poll_in (x : FusePollIn) : enc x = layout_fuse_poll_in x := by
  show enc (x.fh, x.kh, x.flags, x.events) = _
  simp only [enc_prod, enc_u32, enc_u64, layout_fuse_poll_in, List.append_assoc]

theorem C01_fuse_poll_in : Corresponds FusePollIn 24 layout_fuse_poll_in := .mk' rfl enc_fuse_poll_in

/-- The fields of `fuse_poll_out` (fuse/kernel.rs:1345-1348) in order. -/
def layout_fuse_poll_out (x : FusePollOut) : Bytes :=
  le32 x.revents ++ le32 x.padding

theorem enc_fuse_poll_out (x : FusePollOut) : enc x = layout_fuse_poll_out x := by
  show enc (x.revents, x.padding) = _
  simp only [enc_prod, enc_u32, layout_fuse_poll_out, List.append_assoc]

theorem C01_fuse_poll_out : Corresponds FusePollOut 8 layout_fuse_poll_out := .mk' rfl enc_fuse_poll_out

/-- The fields of `fuse_notify_poll_wakeup_out` (fuse/kernel.rs:1360-1362) in order. -/
def layout_fuse_notify_poll_wakeup_out (x : FuseNotifyPollWakeupOut) : Bytes :=
  le64 x.kh

theorem enc_fuse_notify_poll_wakeup_out (x : FuseNotifyPollWakeupOut) : enc x = layout_fuse_notify_poll_wakeup_out x := by
  show enc (x.kh) = _
  simp only [enc_u64, layout_fuse_notify_poll_wakeup_out]

theorem C01_fuse_notify_poll_wakeup_out : Corresponds FuseNotifyPollWakeupOut 8 layout_fuse_notify_poll_wakeup_out := .mk' rfl enc_fuse_notify_poll_wakeup_out

/-- The fields of `fuse_fallocate_in` (fuse/kernel.rs:1374-1380) in order. -/
def layout_fuse_fallocate_in (x : FuseFallocateIn) : Bytes :=
  le64 x.fh ++ le64 x.offset ++ le64 x.length ++ le32 x.mode ++ le32 x.padding

theorem enc_fuse_fallocate_in (x : FuseFallocateIn) : enc x = layout_fuse_fallocate_in x := by
  show enc (x.fh, x.offset, x.length, x.mode, x.padding) = _
  simp only [enc_prod, enc_u32, enc_u64, layout_fuse_fallocate_in, List.append_assoc]

theorem C01_fuse_fallocate_in : Corresponds FuseFallocateIn 32 layout_fuse_fallocate_in := .mk' rfl enc_fuse_fallocate_in

/-- The fields of `fuse_in_header` (fuse/kernel.rs:1392-1401) in order. -/
def layout_fuse_in_header (x : FuseInHeader) : Bytes :=
  le32 x.len ++ le32 x.opcode ++ le64 x.unique ++ le64 x.nodeid ++ le32 x.uid ++ le32 x.gid ++
    le32 x.pid ++ le32 x.padding

theorem enc_fuse_in_header (x : FuseInHeader) : enc x = layout_fuse_in_header x := by
  show enc (x.len, x.opcode, x.unique, x.nodeid, x.uid, x.gid, x.pid, x.padding) = _
  simp only [enc_prod, enc_u32, enc_u64, layout_fuse_in_header, List.append_assoc]

theorem C01_fuse_in_header : Corresponds FuseInHeader 40 layout_fuse_in_header := .mk' rfl enc_fuse_in_header

/-- The fields of `fuse_out_header` (fuse/kernel.rs:1413-1417) in order. -/
def layout_fuse_out_header (x : FuseOutHeader) : Bytes :=
  le32 x.len ++ leI32 x.error ++ le64 x.unique

theorem enc_fuse_out_header (x : FuseOutHeader) : enc x = layout_fuse_out_header x := by
  show enc (x.len, x.error, x.unique) = _
  simp only [enc_prod, enc_u32, enc_u64, enc_i32, layout_fuse_out_header, List.append_assoc]

theorem C01_fuse_out_header : Corresponds FuseOutHeader 16 layout_fuse_out_header := .mk' rfl enc_fuse_out_header

/-- The fields of `fuse_dirent` (fuse/kernel.rs:1429-1435) in order. -/
def layout_fuse_dirent (x : FuseDirent) : Bytes :=
  le64 x.ino ++ le64 x.off ++ le32 x.namelen ++ le32 x.type_

theorem enc_fuse_dirent (x : FuseDirent) : enc x = layout_fuse_dirent x := by
  show enc (x.ino, x.off, x.namelen, x.type_) = _
  simp only [enc_prod, enc_u32, enc_u64, layout_fuse_dirent, List.append_assoc]

theorem C01_fuse_dirent : Corresponds FuseDirent 24 layout_fuse_dirent := .mk' rfl enc_fuse_dirent

/-- The fields of `fuse_direntplus` (fuse/kernel.rs:1454-1457) in order. -/
def layout_fuse_direntplus (x : FuseDirentplus) : Bytes :=
  layout_fuse_entry_out x.entry_out ++ layout_fuse_dirent x.dirent

theorem enc_fuse_direntplus (x : FuseDirentplus) : enc x = layout_fuse_direntplus x := by
  show enc (x.entry_out, x.dirent) = _
  simp only [enc_prod, enc_fuse_entry_out, enc_fuse_dirent, layout_fuse_direntplus, List.append_assoc]

theorem C01_fuse_direntplus : Corresponds FuseDirentplus 152 layout_fuse_direntplus := .mk' rfl enc_fuse_direntplus

/-- The fields of `fuse_notify_inval_inode_out` (fuse/kernel.rs:1472-1476) in order. -/
def layout_fuse_notify_inval_inode_out (x : FuseNotifyInvalInodeOut) : Bytes :=
  le64 x.ino ++ leI64 x.off ++ leI64 x.len

theorem enc_fuse_notify_inval_inode_out (x : FuseNotifyInvalInodeOut) : enc x = layout_fuse_notify_inval_inode_out x := by
  show enc (x.ino, x.off, x.len) = _
  simp only [enc_prod, enc_u64, enc_i64, layout_fuse_notify_inval_inode_out, List.append_assoc]

theorem C01_fuse_notify_inval_inode_out : Corresponds FuseNotifyInvalInodeOut 24 layout_fuse_notify_inval_inode_out := .mk' rfl enc_fuse_notify_inval_inode_out

/-- The fields of `fuse_notify_inval_entry_out` (fuse/kernel.rs:1488-1492) in order. -/
def layout_fuse_notify_inval_entry_out (x : FuseNotifyInvalEntryOut) : Bytes :=
  le64 x.parent ++ le32 x.namelen ++ le32 x.padding

theorem enc_fuse_notify_inval_entry_out (x : FuseNotifyInvalEntryOut) : enc x = layout_fuse_notify_inval_entry_out x := by
  show enc (x.parent, x.namelen, x.padding) = _
  simp only [enc_prod, enc_u32, enc_u64, layout_fuse_notify_inval_entry_out, List.append_assoc]

theorem C01_fuse_notify_inval_entry_out : Corresponds FuseNotifyInvalEntryOut 16 layout_fuse_notify_inval_entry_out := .mk' rfl enc_fuse_notify_inval_entry_out

/-- The fields of `fuse_notify_delete_out` (fuse/kernel.rs:1504-1509) in order. -/
def layout_fuse_notify_delete_out (x : FuseNotifyDeleteOut) : Bytes :=
  le64 x.parent ++ le64 x.child ++ le32 x.namelen ++ le32 x.padding

theorem enc_fuse_notify_delete_out (x : FuseNotifyDeleteOut) : enc x = layout_fuse_notify_delete_out x := by
  show enc (x.parent, x.child, x.namelen, x.padding) = _
  simp only [enc_prod, enc_u32, enc_u64, layout_fuse_notify_delete_out, List.append_assoc]

theorem C01_fuse_notify_delete_out : Corresponds FuseNotifyDeleteOut 24 layout_fuse_notify_delete_out := .mk' rfl enc_fuse_notify_delete_out

/-- The fields of `fuse_notify_store_out` (fuse/kernel.rs:1521-1526) in order. -/
def layout_fuse_notify_store_out (x : FuseNotifyStoreOut) : Bytes :=
  le64 x.nodeid ++ le64 x.offset ++ le32 x.size ++ le32 x.padding

theorem enc_fuse_notify_store_out (x : FuseNotifyStoreOut) : enc x = layout_fuse_notify_store_out x := by
  show enc (x.nodeid, x.offset, x.size, x.padding) = _
  simp only [enc_prod, enc_u32, enc_u64, layout_fuse_notify_store_out, List.append_assoc]

theorem C01_fuse_notify_store_out : Corresponds FuseNotifyStoreOut 24 layout_fuse_notify_store_out := .mk' rfl enc_fuse_notify_store_out

/-- The fields of `fuse_notify_retrieve_out` (fuse/kernel.rs:1538-1544) in order. -/
def layout_fuse_notify_retrieve_out (x : FuseNotifyRetrieveOut) : Bytes :=
  le64 x.notify_unique ++ le64 x.nodeid ++ le64 x.offset ++ le32 x.size ++ le32 x.padding

theorem enc_fuse_notify_retrieve_out (x : FuseNotifyRetrieveOut) : enc x = layout_fuse_notify_retrieve_out x := by
  show enc (x.notify_unique, x.nodeid, x.offset, x.size, x.padding) = _
  simp only [enc_prod, enc_u32, enc_u64, layout_fuse_notify_retrieve_out, List.append_assoc]

theorem C01_fuse_notify_retrieve_out : Corresponds FuseNotifyRetrieveOut 32 layout_fuse_notify_retrieve_out := .mk' rfl enc_fuse_notify_retrieve_out

/-- The fields of `fuse_notify_retrieve_in` (fuse/kernel.rs:1557-1564) in order. -/
def layout_fuse_notify_retrieve_in (x : FuseNotifyRetrieveIn) : Bytes :=
  le64 x.dummy1 ++ le64 x.offset ++ le32 x.size ++ le32 x.dummy2 ++ le64 x.dummy3 ++ le64 x.dummy4

theorem enc_fuse_notify_retrieve_in (x : FuseNotifyRetrieveIn) : enc x = layout_fuse_notify_retrieve_in x := by
  show enc (x.dummy1, x.offset, x.size, x.dummy2, x.dummy3, x.dummy4) = _
  simp only [enc_prod, enc_u32, enc_u64, layout_fuse_notify_retrieve_in, List.append_assoc]

theorem C01_fuse_notify_retrieve_in : Corresponds FuseNotifyRetrieveIn 40 layout_fuse_notify_retrieve_in := .mk' rfl enc_fuse_notify_retrieve_in

/-- The fields of `fuse_lseek_in` (fuse/kernel.rs:1580-1585) in order. -/
def layout_fuse_lseek_in (x : FuseLseekIn) : Bytes :=
  le64 x.fh ++ le64 x.offset ++ le32 x.whence ++ le32 x.padding

theorem enc_fuse_lseek_in (x : FuseLseekIn) : enc x = layout_fuse_lseek_in x := by
  show enc (x.fh, x.offset, x.whence, x.padding) = _
  simp only [enc_prod, enc_u32, enc_u64, layout_fuse_lseek_in, List.append_assoc]

theorem C01_fuse_lseek_in : Corresponds FuseLseekIn 24 layout_fuse_lseek_in := .mk' rfl enc_fuse_lseek_in

/-- The fields of `fuse_lseek_out` (fuse/kernel.rs:1597-1599) in order. -/
def layout_fuse_lseek_out (x : FuseLseekOut) : Bytes :=
  le64 x.offset

theorem enc_fuse_lseek_out (x : FuseLseekOut) : enc x = layout_fuse_lseek_out x := by
  show enc (x.offset) = _
  simp only [enc_u64, layout_fuse_lseek_out]

theorem C01_fuse_lseek_out : Corresponds FuseLseekOut 8 layout_fuse_lseek_out := .mk' rfl enc_fuse_lseek_out

/-- The fields of `fuse_copy_file_range_in` (fuse/kernel.rs:1611-1619) in order. -/
def layout_fuse_copy_file_range_in (x : FuseCopyFileRangeIn) : Bytes :=
  le64 x.fh_in ++ le64 x.off_in ++ le64 x.nodeid_out ++ le64 x.fh_out ++ le64 x.off_out ++
    le64 x.len ++ le64 x.flags

theorem enc_fuse_copy_file_range_in (x : FuseCopyFileRangeIn) : enc x = layout_fuse_copy_file_range_in x := by
  show enc (x.fh_in, x.off_in, x.nodeid_out, x.fh_out, x.off_out, x.len, x.flags) = _
  simp only [enc_prod, enc_u64, layout_fuse_copy_file_range_in, List.append_assoc]

theorem C01_fuse_copy_file_range_in : Corresponds FuseCopyFileRangeIn 56 layout_fuse_copy_file_range_in := .mk' rfl enc_fuse_copy_file_range_in

/-- The fields of `fuse_setupmapping_in` (fuse/kernel.rs:1633-1644) in order. -/
def layout_fuse_setupmapping_in (x : FuseSetupmappingIn) : Bytes :=
  le64 x.fh ++ le64 x.foffset ++ le64 x.len ++ le64 x.flags ++ le64 x.moffset

theorem enc_fuse_setupmapping_in (x : FuseSetupmappingIn) : enc x = layout_fuse_setupmapping_in x := by
  show enc (x.fh, x.foffset, x.len, x.flags, x.moffset) = _
  simp only [enc_prod, enc_u64, layout_fuse_setupmapping_in, List.append_assoc]

theorem C01_fuse_setupmapping_in : Corresponds FuseSetupmappingIn 40 layout_fuse_setupmapping_in := .mk' rfl enc_fuse_setupmapping_in

/-- The fields of `fuse_removemapping_in` (fuse/kernel.rs:1656-1659) in order. -/
def layout_fuse_removemapping_in (x : FuseRemovemappingIn) : Bytes :=
  le32 x.count

theorem enc_fuse_removemapping_in (x : FuseRemovemappingIn) : enc x = layout_fuse_removemapping_in x := by
  show enc (x.count) = _
  simp only [enc_u32, layout_fuse_removemapping_in]

theorem C01_fuse_removemapping_in : Corresponds FuseRemovemappingIn 4 layout_fuse_removemapping_in := .mk' rfl enc_fuse_removemapping_in

/-- The fields of `fuse_removemapping_one` (fuse/kernel.rs:1671-1676) in order. -/
def layout_fuse_removemapping_one (x : FuseRemovemappingOne) : Bytes :=
  le64 x.moffset ++ le64 x.len

theorem enc_fuse_removemapping_one (x : FuseRemovemappingOne) : enc x = layout_fuse_removemapping_one x := by
  show enc (x.moffset, x.len) = _
  simp only [enc_prod, enc_u64, layout_fuse_removemapping_one, List.append_assoc]

theorem C01_fuse_removemapping_one : Corresponds FuseRemovemappingOne 16 layout_fuse_removemapping_one := .mk' rfl enc_fuse_removemapping_one

/-- The fields of `fuse_syncfs_in` (fuse/kernel.rs:1690-1692) in order. -/
def layout_fuse_syncfs_in (x : FuseSyncfsIn) : Bytes :=
  le64 x.padding

theorem enc_fuse_syncfs_in (x : FuseSyncfsIn) : enc x = layout_fuse_syncfs_in x := by
  show enc (x.padding) = _
  simp only [enc_u64, layout_fuse_syncfs_in]

theorem C01_fuse_syncfs_in : Corresponds FuseSyncfsIn 8 layout_fuse_syncfs_in := .mk' rfl enc_fuse_syncfs_in

/-- The fields of `fuse_secctx` (fuse/kernel.rs:1710-1713) in order. -/
def layout_fuse_secctx (x : FuseSecctx) : Bytes :=
  le32 x.size ++ le32 x.padding

theorem enc_fuse_secctx (x : FuseSecctx) : enc x = layout_fuse_secctx x := by
  show enc (x.size, x.padding) = _
  simp only [enc_prod, enc_u32, layout_fuse_secctx, List.append_assoc]

theorem C01_fuse_secctx : Corresponds FuseSecctx 8 layout_fuse_secctx := .mk' rfl enc_fuse_secctx

/-- The fields of `fuse_secctx_header` (fuse/kernel.rs:1731-1734) in order. -/
def layout_fuse_secctx_header (x : FuseSecctxHeader) : Bytes :=
  le32 x.size ++ le32 x.nr_secctx

theorem enc_fuse_secctx_header (x : FuseSecctxHeader) : enc x = layout_fuse_secctx_header x := by
  show enc (x.size, x.nr_secctx) = _
  simp only [enc_prod, enc_u32, layout_fuse_secctx_header, List.append_assoc]

theorem C01_fuse_secctx_header : Corresponds FuseSecctxHeader 8 layout_fuse_secctx_header := .mk' rfl enc_fuse_secctx_header

/-- The fields of `fuse_create_in_v7p1` (fuse/internal/compat.rs:35-38) in order. -/
def layout_fuse_create_in_v7p1 (x : FuseCreateInV7p1) : Bytes :=
  le32 x.flags ++ le32 x.unused

theorem enc_fuse_create_in_v7p1 (x : FuseCreateInV7p1) : enc x = layout_fuse_create_in_v7p1 x := by
  show enc (x.flags, x.unused) = _
  simp only [enc_prod, enc_u32, layout_fuse_create_in_v7p1, List.append_assoc]

theorem C01_fuse_create_in_v7p1 : Corresponds FuseCreateInV7p1 8 layout_fuse_create_in_v7p1 := .mk' rfl enc_fuse_create_in_v7p1

/-- The fields of `fuse_mknod_in_v7p1` (fuse/internal/compat.rs:131-134) in order. -/
def layout_fuse_mknod_in_v7p1 (x : FuseMknodInV7p1) : Bytes :=
  le32 x.mode ++ le32 x.rdev

theorem enc_fuse_mknod_in_v7p1 (x : FuseMknodInV7p1) : enc x = layout_fuse_mknod_in_v7p1 x := by
  show enc (x.mode, x.rdev) = _
  simp only [enc_prod, enc_u32, layout_fuse_mknod_in_v7p1, List.append_assoc]

theorem C01_fuse_mknod_in_v7p1 : Corresponds FuseMknodInV7p1 8 layout_fuse_mknod_in_v7p1 := .mk' rfl enc_fuse_mknod_in_v7p1

/-- The fields of `fuse_setxattr_in_v7p1` (fuse/internal/compat.rs:185-188) in order. -/
def layout_fuse_setxattr_in_v7p1 (x : FuseSetxattrInV7p1) : Bytes :=
  le32 x.size ++ le32 x.flags

theorem enc_fuse_setxattr_in_v7p1 (x : FuseSetxattrInV7p1) : enc x = layout_fuse_setxattr_in_v7p1 x := by
  show enc (x.size, x.flags) = _
  simp only [enc_prod, enc_u32, layout_fuse_setxattr_in_v7p1, List.append_assoc]

theorem C01_fuse_setxattr_in_v7p1 : Corresponds FuseSetxattrInV7p1 8 layout_fuse_setxattr_in_v7p1 := .mk' rfl enc_fuse_setxattr_in_v7p1

/-- The fields of `fuse_read_in_v7p1` (fuse/internal/compat.rs:237-242) in order. -/
def layout_fuse_read_in_v7p1 (x : FuseReadInV7p1) : Bytes :=
  le64 x.fh ++ le64 x.offset ++ le32 x.size ++ le32 x.padding

theorem enc_fuse_read_in_v7p1 (x : FuseReadInV7p1) : enc x = layout_fuse_read_in_v7p1 x := by
  show enc (x.fh, x.offset, x.size, x.padding) = _
  simp only [enc_prod, enc_u32, enc_u64, layout_fuse_read_in_v7p1, List.append_assoc]

theorem C01_fuse_read_in_v7p1 : Corresponds FuseReadInV7p1 24 layout_fuse_read_in_v7p1 := .mk' rfl enc_fuse_read_in_v7p1

/-- The fields of `fuse_release_in_v7p1` (fuse/internal/compat.rs:293-297) in order. -/
def layout_fuse_release_in_v7p1 (x : FuseReleaseInV7p1) : Bytes :=
  le64 x.fh ++ le32 x.flags ++ le32 x.padding

theorem enc_fuse_release_in_v7p1 (x : FuseReleaseInV7p1) : enc x = layout_fuse_release_in_v7p1 x := by
  show enc (x.fh, x.flags, x.padding) = _
  simp only [enc_prod, enc_u32, enc_u64, layout_fuse_release_in_v7p1, List.append_assoc]

theorem C01_fuse_release_in_v7p1 : Corresponds FuseReleaseInV7p1 16 layout_fuse_release_in_v7p1 := .mk' rfl enc_fuse_release_in_v7p1

/-- The fields of `fuse_write_in_v7p1` (fuse/internal/compat.rs:342-347) in order. -/
def layout_fuse_write_in_v7p1 (x : FuseWriteInV7p1) : Bytes :=
  le64 x.fh ++ le64 x.offset ++ le32 x.size ++ le32 x.write_flags

theorem enc_fuse_write_in_v7p1 (x : FuseWriteInV7p1) : enc x = layout_fuse_write_in_v7p1 x := by
  show enc (x.fh, x.offset, x.size, x.write_flags) = _
  simp only [enc_prod, enc_u32, enc_u64, layout_fuse_write_in_v7p1, List.append_assoc]

theorem C01_fuse_write_in_v7p1 : Corresponds FuseWriteInV7p1 24 layout_fuse_write_in_v7p1 := .mk' rfl enc_fuse_write_in_v7p1

/-- A header with all fields distinct, byte for byte. -/
example : layout_fuse_in_header ⟨0x01020304, 0x1A, 0x1112131415161718, 1, 0x3E8, 100, 7, 0⟩ =
    [4, 3, 2, 1, 0x1A, 0, 0, 0, 0x18, 0x17, 0x16, 0x15, 0x14, 0x13, 0x12, 0x11,
      1, 0, 0, 0, 0, 0, 0, 0, 0xE8, 3, 0, 0, 100, 0, 0, 0, 7, 0, 0, 0, 0, 0, 0, 0] := by decide

example : (layout_fuse_entry_out { nodeid := 5, attr := { ino := 5, size := 3 } }).length = 128 :=
  C01_fuse_entry_out.2.1 _

end Fuse
