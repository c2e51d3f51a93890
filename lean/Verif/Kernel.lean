import Verif.Wire

/-!
# Protocol records

One Lean structure per `#[repr(C)]` record of `fuse/kernel.rs` and `fuse/internal/compat.rs`,
with the field order of the source.  Field defaults are zero, so `{}` is the record returned by
the `new()` constructors (`core::mem::zeroed()`).

Each record carries a theorem `reprC_*`: the offsets and size computed by the C layout algorithm
(`#[repr(C)]`, padding every field up to its alignment) coincide with plain concatenation, so the
pointer casts of the code agree with `enc`/`dec`.

Zero-length array fields (`fuse_dirent.name: [u8; 0]`) are omitted.  Fields named `end`/`type` in the source are called `end_`/`type_` here.
-/

namespace Fuse

/-- Size and alignment of a field type. -/
def lay (α : Type) [Wire α] : Nat × Nat := (Wire.size α, Wire.align α)

/-- Offsets of the fields `(size, align)` under the C layout algorithm starting at `off`. -/
def cOffsets (off : Nat) : List (Nat × Nat) → List Nat
  | [] => []
  | (s, a) :: fs =>
    let o := (off + a - 1) / a * a
    o :: cOffsets (o + s) fs

/-- Offsets of the fields under plain concatenation. -/
def packedOffsets (off : Nat) : List (Nat × Nat) → List Nat
  | [] => []
  | (s, _) :: fs => off :: packedOffsets (off + s) fs

/-- `#[repr(C)]` inserts no padding between or after these fields. -/
def NoPadding (fields : List (Nat × Nat)) : Prop :=
  cOffsets 0 fields = packedOffsets 0 fields ∧
  (fields.map (·.1)).sum % (fields.map (·.2)).foldl max 1 = 0

instance (fs) : Decidable (NoPadding fs) := inferInstanceAs (Decidable (_ ∧ _))

/-- fuse/kernel.rs:222. -/
abbrev FUSE_KERNEL_VERSION : UInt32 := 7
/-- fuse/kernel.rs:225. -/
abbrev FUSE_KERNEL_MINOR_VERSION : UInt32 := 36
/-- fuse/kernel.rs:228. -/
abbrev FUSE_ROOT_ID : UInt64 := 1
/-- fuse/kernel.rs:305 (`1 << 0`). -/
abbrev FATTR_MODE : UInt32 := 1
/-- fuse/kernel.rs:306 (`1 << 1`). -/
abbrev FATTR_UID : UInt32 := 2
/-- fuse/kernel.rs:307 (`1 << 2`). -/
abbrev FATTR_GID : UInt32 := 4
/-- fuse/kernel.rs:308 (`1 << 3`). -/
abbrev FATTR_SIZE : UInt32 := 8
/-- fuse/kernel.rs:309 (`1 << 4`). -/
abbrev FATTR_ATIME : UInt32 := 16
/-- fuse/kernel.rs:310 (`1 << 5`). -/
abbrev FATTR_MTIME : UInt32 := 32
/-- fuse/kernel.rs:311 (`1 << 6`). -/
abbrev FATTR_FH : UInt32 := 64
/-- fuse/kernel.rs:312 (`1 << 7`). -/
abbrev FATTR_ATIME_NOW : UInt32 := 128
/-- fuse/kernel.rs:313 (`1 << 8`). -/
abbrev FATTR_MTIME_NOW : UInt32 := 256
/-- fuse/kernel.rs:314 (`1 << 9`). -/
abbrev FATTR_LOCKOWNER : UInt32 := 512
/-- fuse/kernel.rs:315 (`1 << 10`). -/
abbrev FATTR_CTIME : UInt32 := 1024
/-- fuse/kernel.rs:316 (`1 << 11`). -/
abbrev FATTR_KILL_SUIDGID : UInt32 := 2048
/-- fuse/kernel.rs:328 (`1 << 0`). -/
abbrev FOPEN_DIRECT_IO : UInt32 := 1
/-- fuse/kernel.rs:329 (`1 << 1`). -/
abbrev FOPEN_KEEP_CACHE : UInt32 := 2
/-- fuse/kernel.rs:330 (`1 << 2`). -/
abbrev FOPEN_NONSEEKABLE : UInt32 := 4
/-- fuse/kernel.rs:331 (`1 << 3`). -/
abbrev FOPEN_CACHE_DIR : UInt32 := 8
/-- fuse/kernel.rs:332 (`1 << 4`). -/
abbrev FOPEN_STREAM : UInt32 := 16
/-- fuse/kernel.rs:333 (`1 << 5`). -/
abbrev FOPEN_NOFLUSH : UInt32 := 32
/-- fuse/kernel.rs:380 (`1 << 0`). -/
abbrev FUSE_ASYNC_READ : UInt32 := 1
/-- fuse/kernel.rs:381 (`1 << 1`). -/
abbrev FUSE_POSIX_LOCKS : UInt32 := 2
/-- fuse/kernel.rs:382 (`1 << 2`). -/
abbrev FUSE_FILE_OPS : UInt32 := 4
/-- fuse/kernel.rs:383 (`1 << 3`). -/
abbrev FUSE_ATOMIC_O_TRUNC : UInt32 := 8
/-- fuse/kernel.rs:384 (`1 << 4`). -/
abbrev FUSE_EXPORT_SUPPORT : UInt32 := 16
/-- fuse/kernel.rs:385 (`1 << 5`). -/
abbrev FUSE_BIG_WRITES : UInt32 := 32
/-- fuse/kernel.rs:386 (`1 << 6`). -/
abbrev FUSE_DONT_MASK : UInt32 := 64
/-- fuse/kernel.rs:387 (`1 << 7`). -/
abbrev FUSE_SPLICE_WRITE : UInt32 := 128
/-- fuse/kernel.rs:388 (`1 << 8`). -/
abbrev FUSE_SPLICE_MOVE : UInt32 := 256
/-- fuse/kernel.rs:389 (`1 << 9`). -/
abbrev FUSE_SPLICE_READ : UInt32 := 512
/-- fuse/kernel.rs:390 (`1 << 10`). -/
abbrev FUSE_FLOCK_LOCKS : UInt32 := 1024
/-- fuse/kernel.rs:391 (`1 << 11`). -/
abbrev FUSE_HAS_IOCTL_DIR : UInt32 := 2048
/-- fuse/kernel.rs:392 (`1 << 12`). -/
abbrev FUSE_AUTO_INVAL_DATA : UInt32 := 4096
/-- fuse/kernel.rs:393 (`1 << 13`). -/
abbrev FUSE_DO_READDIRPLUS : UInt32 := 8192
/-- fuse/kernel.rs:394 (`1 << 14`). -/
abbrev FUSE_READDIRPLUS_AUTO : UInt32 := 16384
/-- fuse/kernel.rs:395 (`1 << 15`). -/
abbrev FUSE_ASYNC_DIO : UInt32 := 32768
/-- fuse/kernel.rs:396 (`1 << 16`). -/
abbrev FUSE_WRITEBACK_CACHE : UInt32 := 65536
/-- fuse/kernel.rs:397 (`1 << 17`). -/
abbrev FUSE_NO_OPEN_SUPPORT : UInt32 := 131072
/-- fuse/kernel.rs:398 (`1 << 18`). -/
abbrev FUSE_PARALLEL_DIROPS : UInt32 := 262144
/-- fuse/kernel.rs:399 (`1 << 19`). -/
abbrev FUSE_HANDLE_KILLPRIV : UInt32 := 524288
/-- fuse/kernel.rs:400 (`1 << 20`). -/
abbrev FUSE_POSIX_ACL : UInt32 := 1048576
/-- fuse/kernel.rs:401 (`1 << 21`). -/
abbrev FUSE_ABORT_ERROR : UInt32 := 2097152
/-- fuse/kernel.rs:402 (`1 << 22`). -/
abbrev FUSE_MAX_PAGES : UInt32 := 4194304
/-- fuse/kernel.rs:403 (`1 << 23`). -/
abbrev FUSE_CACHE_SYMLINKS : UInt32 := 8388608
/-- fuse/kernel.rs:404 (`1 << 24`). -/
abbrev FUSE_NO_OPENDIR_SUPPORT : UInt32 := 16777216
/-- fuse/kernel.rs:405 (`1 << 25`). -/
abbrev FUSE_EXPLICIT_INVAL_DATA : UInt32 := 33554432
/-- fuse/kernel.rs:406 (`1 << 26`). -/
abbrev FUSE_MAP_ALIGNMENT : UInt32 := 67108864
/-- fuse/kernel.rs:407 (`1 << 27`). -/
abbrev FUSE_SUBMOUNTS : UInt32 := 134217728
/-- fuse/kernel.rs:408 (`1 << 28`). -/
abbrev FUSE_HANDLE_KILLPRIV_V2 : UInt32 := 268435456
/-- fuse/kernel.rs:409 (`1 << 29`). -/
abbrev FUSE_SETXATTR_EXT : UInt32 := 536870912
/-- fuse/kernel.rs:410 (`1 << 30`). -/
abbrev FUSE_INIT_EXT : UInt32 := 1073741824
/-- fuse/kernel.rs:411 (`1 << 31`). -/
abbrev FUSE_INIT_RESERVED : UInt32 := 2147483648
/-- fuse/kernel.rs:413 (`1 << 32`). -/
abbrev FUSE_SECURITY_CTX : UInt64 := 4294967296
/-- fuse/kernel.rs:414 (`1 << 33`). -/
abbrev FUSE_HAS_INODE_DAX : UInt64 := 8589934592
/-- fuse/kernel.rs:421 (`1 << 0`). -/
abbrev CUSE_UNRESTRICTED_IOCTL : UInt32 := 1
/-- fuse/kernel.rs:426 (`1 << 0`). -/
abbrev FUSE_RELEASE_FLUSH : UInt32 := 1
/-- fuse/kernel.rs:427 (`1 << 1`). -/
abbrev FUSE_RELEASE_FLOCK_UNLOCK : UInt32 := 2
/-- fuse/kernel.rs:432 (`1 << 0`). -/
abbrev FUSE_GETATTR_FH : UInt32 := 1
/-- fuse/kernel.rs:437 (`1 << 0`). -/
abbrev FUSE_LK_FLOCK : UInt32 := 1
/-- fuse/kernel.rs:446 (`1 << 0`). -/
abbrev FUSE_WRITE_CACHE : UInt32 := 1
/-- fuse/kernel.rs:447 (`1 << 1`). -/
abbrev FUSE_WRITE_LOCKOWNER : UInt32 := 2
/-- fuse/kernel.rs:448 (`1 << 2`). -/
abbrev FUSE_WRITE_KILL_SUIDGID : UInt32 := 4
/-- fuse/kernel.rs:451. -/
abbrev FUSE_WRITE_KILL_PRIV : UInt32 := FUSE_WRITE_KILL_SUIDGID
/-- fuse/kernel.rs:456 (`1 << 1`). -/
abbrev FUSE_READ_LOCKOWNER : UInt32 := 2
/-- fuse/kernel.rs:470 (`1 << 0`). -/
abbrev FUSE_IOCTL_COMPAT : UInt32 := 1
/-- fuse/kernel.rs:471 (`1 << 1`). -/
abbrev FUSE_IOCTL_UNRESTRICTED : UInt32 := 2
/-- fuse/kernel.rs:472 (`1 << 2`). -/
abbrev FUSE_IOCTL_RETRY : UInt32 := 4
/-- fuse/kernel.rs:473 (`1 << 3`). -/
abbrev FUSE_IOCTL_32BIT : UInt32 := 8
/-- fuse/kernel.rs:474 (`1 << 4`). -/
abbrev FUSE_IOCTL_DIR : UInt32 := 16
/-- fuse/kernel.rs:475 (`1 << 5`). -/
abbrev FUSE_IOCTL_COMPAT_X32 : UInt32 := 32
/-- fuse/kernel.rs:477. -/
abbrev FUSE_IOCTL_MAX_IOV : Nat := 256
/-- fuse/kernel.rs:484 (`1 << 0`). -/
abbrev FUSE_POLL_SCHEDULE_NOTIFY : UInt32 := 1
/-- fuse/kernel.rs:491 (`1 << 0`). -/
abbrev FUSE_FSYNC_FDATASYNC : UInt32 := 1
/-- fuse/kernel.rs:499 (`1 << 0`). -/
abbrev FUSE_ATTR_SUBMOUNT : UInt32 := 1
/-- fuse/kernel.rs:500 (`1 << 1`). -/
abbrev FUSE_ATTR_DAX : UInt32 := 2
/-- fuse/kernel.rs:506 (`1 << 0`). -/
abbrev FUSE_OPEN_KILL_SUIDGID : UInt32 := 1
/-- fuse/kernel.rs:512 (`1 << 0`). -/
abbrev FUSE_SETXATTR_ACL_KILL_SGID : UInt32 := 1
/-- fuse/kernel.rs:519. -/
abbrev FUSE_LOOKUP : UInt32 := 1
/-- fuse/kernel.rs:520. -/
abbrev FUSE_FORGET : UInt32 := 2
/-- fuse/kernel.rs:521. -/
abbrev FUSE_GETATTR : UInt32 := 3
/-- fuse/kernel.rs:522. -/
abbrev FUSE_SETATTR : UInt32 := 4
/-- fuse/kernel.rs:523. -/
abbrev FUSE_READLINK : UInt32 := 5
/-- fuse/kernel.rs:524. -/
abbrev FUSE_SYMLINK : UInt32 := 6
/-- fuse/kernel.rs:525. -/
abbrev FUSE_MKNOD : UInt32 := 8
/-- fuse/kernel.rs:526. -/
abbrev FUSE_MKDIR : UInt32 := 9
/-- fuse/kernel.rs:527. -/
abbrev FUSE_UNLINK : UInt32 := 10
/-- fuse/kernel.rs:528. -/
abbrev FUSE_RMDIR : UInt32 := 11
/-- fuse/kernel.rs:529. -/
abbrev FUSE_RENAME : UInt32 := 12
/-- fuse/kernel.rs:530. -/
abbrev FUSE_LINK : UInt32 := 13
/-- fuse/kernel.rs:531. -/
abbrev FUSE_OPEN : UInt32 := 14
/-- fuse/kernel.rs:532. -/
abbrev FUSE_READ : UInt32 := 15
/-- fuse/kernel.rs:533. -/
abbrev FUSE_WRITE : UInt32 := 16
/-- fuse/kernel.rs:534. -/
abbrev FUSE_STATFS : UInt32 := 17
/-- fuse/kernel.rs:535. -/
abbrev FUSE_RELEASE : UInt32 := 18
/-- fuse/kernel.rs:536. -/
abbrev FUSE_FSYNC : UInt32 := 20
/-- fuse/kernel.rs:537. -/
abbrev FUSE_SETXATTR : UInt32 := 21
/-- fuse/kernel.rs:538. -/
abbrev FUSE_GETXATTR : UInt32 := 22
/-- fuse/kernel.rs:539. -/
abbrev FUSE_LISTXATTR : UInt32 := 23
/-- fuse/kernel.rs:540. -/
abbrev FUSE_REMOVEXATTR : UInt32 := 24
/-- fuse/kernel.rs:541. -/
abbrev FUSE_FLUSH : UInt32 := 25
/-- fuse/kernel.rs:542. -/
abbrev FUSE_INIT : UInt32 := 26
/-- fuse/kernel.rs:543. -/
abbrev FUSE_OPENDIR : UInt32 := 27
/-- fuse/kernel.rs:544. -/
abbrev FUSE_READDIR : UInt32 := 28
/-- fuse/kernel.rs:545. -/
abbrev FUSE_RELEASEDIR : UInt32 := 29
/-- fuse/kernel.rs:546. -/
abbrev FUSE_FSYNCDIR : UInt32 := 30
/-- fuse/kernel.rs:547. -/
abbrev FUSE_GETLK : UInt32 := 31
/-- fuse/kernel.rs:548. -/
abbrev FUSE_SETLK : UInt32 := 32
/-- fuse/kernel.rs:549. -/
abbrev FUSE_SETLKW : UInt32 := 33
/-- fuse/kernel.rs:550. -/
abbrev FUSE_ACCESS : UInt32 := 34
/-- fuse/kernel.rs:551. -/
abbrev FUSE_CREATE : UInt32 := 35
/-- fuse/kernel.rs:552. -/
abbrev FUSE_INTERRUPT : UInt32 := 36
/-- fuse/kernel.rs:553. -/
abbrev FUSE_BMAP : UInt32 := 37
/-- fuse/kernel.rs:554. -/
abbrev FUSE_DESTROY : UInt32 := 38
/-- fuse/kernel.rs:555. -/
abbrev FUSE_IOCTL : UInt32 := 39
/-- fuse/kernel.rs:556. -/
abbrev FUSE_POLL : UInt32 := 40
/-- fuse/kernel.rs:557. -/
abbrev FUSE_NOTIFY_REPLY : UInt32 := 41
/-- fuse/kernel.rs:558. -/
abbrev FUSE_BATCH_FORGET : UInt32 := 42
/-- fuse/kernel.rs:559. -/
abbrev FUSE_FALLOCATE : UInt32 := 43
/-- fuse/kernel.rs:560. -/
abbrev FUSE_READDIRPLUS : UInt32 := 44
/-- fuse/kernel.rs:561. -/
abbrev FUSE_RENAME2 : UInt32 := 45
/-- fuse/kernel.rs:562. -/
abbrev FUSE_LSEEK : UInt32 := 46
/-- fuse/kernel.rs:563. -/
abbrev FUSE_COPY_FILE_RANGE : UInt32 := 47
/-- fuse/kernel.rs:564. -/
abbrev FUSE_SETUPMAPPING : UInt32 := 48
/-- fuse/kernel.rs:565. -/
abbrev FUSE_REMOVEMAPPING : UInt32 := 49
/-- fuse/kernel.rs:566. -/
abbrev FUSE_SYNCFS : UInt32 := 50
/-- fuse/kernel.rs:569. -/
abbrev CUSE_INIT : UInt32 := 4096
/-- fuse/kernel.rs:572. -/
abbrev CUSE_INIT_BSWAP_RESERVED : UInt32 := 1048576
/-- fuse/kernel.rs:573. -/
abbrev FUSE_INIT_BSWAP_RESERVED : UInt32 := 436207616
/-- fuse/kernel.rs:640. -/
abbrev FUSE_NOTIFY_POLL : UInt32 := 1
/-- fuse/kernel.rs:641. -/
abbrev FUSE_NOTIFY_INVAL_INODE : UInt32 := 2
/-- fuse/kernel.rs:642. -/
abbrev FUSE_NOTIFY_INVAL_ENTRY : UInt32 := 3
/-- fuse/kernel.rs:643. -/
abbrev FUSE_NOTIFY_STORE : UInt32 := 4
/-- fuse/kernel.rs:644. -/
abbrev FUSE_NOTIFY_RETRIEVE : UInt32 := 5
/-- fuse/kernel.rs:645. -/
abbrev FUSE_NOTIFY_DELETE : UInt32 := 6
/-- fuse/kernel.rs:646. -/
abbrev FUSE_NOTIFY_CODE_MAX : UInt32 := 7
/-- fuse/kernel.rs:665. -/
abbrev FUSE_MIN_READ_BUFFER : Nat := 8192
/-- fuse/kernel.rs:667. -/
abbrev FUSE_COMPAT_ENTRY_OUT_SIZE : Nat := 120
/-- fuse/kernel.rs:749. -/
abbrev FUSE_COMPAT_ATTR_OUT_SIZE : Nat := 96
/-- fuse/kernel.rs:768. -/
abbrev FUSE_COMPAT_MKNOD_IN_SIZE : Nat := 8
/-- fuse/kernel.rs:977. -/
abbrev FUSE_COMPAT_WRITE_IN_SIZE : Nat := 24
/-- fuse/kernel.rs:1014. -/
abbrev FUSE_COMPAT_STATFS_SIZE : Nat := 48
/-- fuse/kernel.rs:1046. -/
abbrev FUSE_COMPAT_SETXATTR_IN_SIZE : Nat := 8
/-- fuse/kernel.rs:1161. -/
abbrev FUSE_COMPAT_INIT_OUT_SIZE : Nat := 8
/-- fuse/kernel.rs:1162. -/
abbrev FUSE_COMPAT_22_INIT_OUT_SIZE : Nat := 24
/-- fuse/kernel.rs:1189. -/
abbrev CUSE_INIT_INFO_MAX : Nat := 4096
/-- fuse/kernel.rs:1574. -/
abbrev FUSE_DEV_IOC_MAGIC : UInt32 := 229
/-- fuse/kernel.rs:1628 (`1 << 0`). -/
abbrev FUSE_SETUPMAPPING_FLAG_WRITE : UInt64 := 1
/-- fuse/kernel.rs:1629 (`1 << 1`). -/
abbrev FUSE_SETUPMAPPING_FLAG_READ : UInt64 := 2

/-- `fuse_attr`, fuse/kernel.rs:236-253. -/
structure FuseAttr where
  ino : UInt64 := 0
  size : UInt64 := 0
  blocks : UInt64 := 0
  atime : UInt64 := 0
  mtime : UInt64 := 0
  ctime : UInt64 := 0
  atimensec : UInt32 := 0
  mtimensec : UInt32 := 0
  ctimensec : UInt32 := 0
  mode : UInt32 := 0
  nlink : UInt32 := 0
  uid : UInt32 := 0
  gid : UInt32 := 0
  rdev : UInt32 := 0
  blksize : UInt32 := 0
  flags : UInt32 := 0
deriving DecidableEq, Repr

instance : Wire FuseAttr :=
  Wire.iso (β := UInt64 × UInt64 × UInt64 × UInt64 × UInt64 × UInt64 × UInt32 × UInt32 × UInt32 × UInt32 × UInt32 × UInt32 × UInt32 × UInt32 × UInt32 × UInt32)
    (fun x => (x.ino, x.size, x.blocks, x.atime, x.mtime, x.ctime, x.atimensec, x.mtimensec, x.ctimensec, x.mode, x.nlink, x.uid, x.gid, x.rdev, x.blksize, x.flags))
    (fun t => ⟨t.1, t.2.1, t.2.2.1, t.2.2.2.1, t.2.2.2.2.1, t.2.2.2.2.2.1, t.2.2.2.2.2.2.1, t.2.2.2.2.2.2.2.1, t.2.2.2.2.2.2.2.2.1, t.2.2.2.2.2.2.2.2.2.1, t.2.2.2.2.2.2.2.2.2.2.1, t.2.2.2.2.2.2.2.2.2.2.2.1, t.2.2.2.2.2.2.2.2.2.2.2.2.1, t.2.2.2.2.2.2.2.2.2.2.2.2.2.1, t.2.2.2.2.2.2.2.2.2.2.2.2.2.2.1, t.2.2.2.2.2.2.2.2.2.2.2.2.2.2.2⟩)
    (fun _ => rfl) (fun _ => rfl)

@[simp] theorem size_fuse_attr : Wire.size FuseAttr = 88 := rfl
@[simp] theorem align_fuse_attr : Wire.align FuseAttr = 8 := rfl
theorem reprC_fuse_attr : NoPadding [lay UInt64, lay UInt64, lay UInt64, lay UInt64, lay UInt64, lay UInt64, lay UInt32, lay UInt32, lay UInt32, lay UInt32, lay UInt32, lay UInt32, lay UInt32, lay UInt32, lay UInt32, lay UInt32] := by decide

/-- `fuse_kstatfs`, fuse/kernel.rs:265-276. -/
structure FuseKstatfs where
  blocks : UInt64 := 0
  bfree : UInt64 := 0
  bavail : UInt64 := 0
  files : UInt64 := 0
  ffree : UInt64 := 0
  bsize : UInt32 := 0
  namelen : UInt32 := 0
  frsize : UInt32 := 0
  padding : UInt32 := 0
  spare : Reserved 6 := Reserved.zero 6
deriving DecidableEq, Repr

instance : Wire FuseKstatfs :=
  Wire.iso (β := UInt64 × UInt64 × UInt64 × UInt64 × UInt64 × UInt32 × UInt32 × UInt32 × UInt32 × Reserved 6)
    (fun x => (x.blocks, x.bfree, x.bavail, x.files, x.ffree, x.bsize, x.namelen, x.frsize, x.padding, x.spare))
    (fun t => ⟨t.1, t.2.1, t.2.2.1, t.2.2.2.1, t.2.2.2.2.1, t.2.2.2.2.2.1, t.2.2.2.2.2.2.1, t.2.2.2.2.2.2.2.1, t.2.2.2.2.2.2.2.2.1, t.2.2.2.2.2.2.2.2.2⟩)
    (fun _ => rfl) (fun _ => rfl)

@[simp] theorem size_fuse_kstatfs : Wire.size FuseKstatfs = 80 := rfl
@[simp] theorem align_fuse_kstatfs : Wire.align FuseKstatfs = 8 := rfl
theorem reprC_fuse_kstatfs : NoPadding [lay UInt64, lay UInt64, lay UInt64, lay UInt64, lay UInt64, lay UInt32, lay UInt32, lay UInt32, lay UInt32, lay (Reserved 6)] := by decide

/-- `fuse_file_lock`, fuse/kernel.rs:288-293. -/
structure FuseFileLock where
  start : UInt64 := 0
  end_ : UInt64 := 0
  type_ : UInt32 := 0
  pid : UInt32 := 0
deriving DecidableEq, Repr

instance : Wire FuseFileLock :=
  Wire.iso (β := UInt64 × UInt64 × UInt32 × UInt32)
    (fun x => (x.start, x.end_, x.type_, x.pid))
    (fun t => ⟨t.1, t.2.1, t.2.2.1, t.2.2.2⟩)
    (fun _ => rfl) (fun _ => rfl)

@[simp] theorem size_fuse_file_lock : Wire.size FuseFileLock = 24 := rfl
@[simp] theorem align_fuse_file_lock : Wire.align FuseFileLock = 8 := rfl
theorem reprC_fuse_file_lock : NoPadding [lay UInt64, lay UInt64, lay UInt32, lay UInt32] := by decide

/-- `fuse_entry_out`, fuse/kernel.rs:672-680. -/
structure FuseEntryOut where
  nodeid : UInt64 := 0
  generation : UInt64 := 0
  entry_valid : UInt64 := 0
  attr_valid : UInt64 := 0
  entry_valid_nsec : UInt32 := 0
  attr_valid_nsec : UInt32 := 0
  attr : FuseAttr := {}
deriving DecidableEq, Repr

instance : Wire FuseEntryOut :=
  Wire.iso (β := UInt64 × UInt64 × UInt64 × UInt64 × UInt32 × UInt32 × FuseAttr)
    (fun x => (x.nodeid, x.generation, x.entry_valid, x.attr_valid, x.entry_valid_nsec, x.attr_valid_nsec, x.attr))
    (fun t => ⟨t.1, t.2.1, t.2.2.1, t.2.2.2.1, t.2.2.2.2.1, t.2.2.2.2.2.1, t.2.2.2.2.2.2⟩)
    (fun _ => rfl) (fun _ => rfl)

@[simp] theorem size_fuse_entry_out : Wire.size FuseEntryOut = 128 := rfl
@[simp] theorem align_fuse_entry_out : Wire.align FuseEntryOut = 8 := rfl
theorem reprC_fuse_entry_out : NoPadding [lay UInt64, lay UInt64, lay UInt64, lay UInt64, lay UInt32, lay UInt32, lay FuseAttr] := by decide

/-- `fuse_forget_in`, fuse/kernel.rs:692-694. -/
structure FuseForgetIn where
  nlookup : UInt64 := 0
deriving DecidableEq, Repr

instance : Wire FuseForgetIn :=
  Wire.iso (β := UInt64)
    (fun x => x.nlookup)
    (fun t => ⟨t⟩)
    (fun _ => rfl) (fun _ => rfl)

@[simp] theorem size_fuse_forget_in : Wire.size FuseForgetIn = 8 := rfl
@[simp] theorem align_fuse_forget_in : Wire.align FuseForgetIn = 8 := rfl
theorem reprC_fuse_forget_in : NoPadding [lay UInt64] := by decide

/-- `fuse_forget_one`, fuse/kernel.rs:706-709. -/
structure FuseForgetOne where
  nodeid : UInt64 := 0
  nlookup : UInt64 := 0
deriving DecidableEq, Repr

instance : Wire FuseForgetOne :=
  Wire.iso (β := UInt64 × UInt64)
    (fun x => (x.nodeid, x.nlookup))
    (fun t => ⟨t.1, t.2⟩)
    (fun _ => rfl) (fun _ => rfl)

@[simp] theorem size_fuse_forget_one : Wire.size FuseForgetOne = 16 := rfl
@[simp] theorem align_fuse_forget_one : Wire.align FuseForgetOne = 8 := rfl
theorem reprC_fuse_forget_one : NoPadding [lay UInt64, lay UInt64] := by decide

/-- `fuse_batch_forget_in`, fuse/kernel.rs:721-724. -/
structure FuseBatchForgetIn where
  count : UInt32 := 0
  dummy : UInt32 := 0
deriving DecidableEq, Repr

instance : Wire FuseBatchForgetIn :=
  Wire.iso (β := UInt32 × UInt32)
    (fun x => (x.count, x.dummy))
    (fun t => ⟨t.1, t.2⟩)
    (fun _ => rfl) (fun _ => rfl)

@[simp] theorem size_fuse_batch_forget_in : Wire.size FuseBatchForgetIn = 8 := rfl
@[simp] theorem align_fuse_batch_forget_in : Wire.align FuseBatchForgetIn = 4 := rfl
theorem reprC_fuse_batch_forget_in : NoPadding [lay UInt32, lay UInt32] := by decide

/-- `fuse_getattr_in`, fuse/kernel.rs:736-740. -/
structure FuseGetattrIn where
  getattr_flags : UInt32 := 0
  dummy : UInt32 := 0
  fh : UInt64 := 0
deriving DecidableEq, Repr

instance : Wire FuseGetattrIn :=
  Wire.iso (β := UInt32 × UInt32 × UInt64)
    (fun x => (x.getattr_flags, x.dummy, x.fh))
    (fun t => ⟨t.1, t.2.1, t.2.2⟩)
    (fun _ => rfl) (fun _ => rfl)

@[simp] theorem size_fuse_getattr_in : Wire.size FuseGetattrIn = 16 := rfl
@[simp] theorem align_fuse_getattr_in : Wire.align FuseGetattrIn = 8 := rfl
theorem reprC_fuse_getattr_in : NoPadding [lay UInt32, lay UInt32, lay UInt64] := by decide

/-- `fuse_attr_out`, fuse/kernel.rs:754-759. -/
structure FuseAttrOut where
  attr_valid : UInt64 := 0
  attr_valid_nsec : UInt32 := 0
  dummy : UInt32 := 0
  attr : FuseAttr := {}
deriving DecidableEq, Repr

instance : Wire FuseAttrOut :=
  Wire.iso (β := UInt64 × UInt32 × UInt32 × FuseAttr)
    (fun x => (x.attr_valid, x.attr_valid_nsec, x.dummy, x.attr))
    (fun t => ⟨t.1, t.2.1, t.2.2.1, t.2.2.2⟩)
    (fun _ => rfl) (fun _ => rfl)

@[simp] theorem size_fuse_attr_out : Wire.size FuseAttrOut = 104 := rfl
@[simp] theorem align_fuse_attr_out : Wire.align FuseAttrOut = 8 := rfl
theorem reprC_fuse_attr_out : NoPadding [lay UInt64, lay UInt32, lay UInt32, lay FuseAttr] := by decide

/-- `fuse_mknod_in`, fuse/kernel.rs:773-778. -/
structure FuseMknodIn where
  mode : UInt32 := 0
  rdev : UInt32 := 0
  umask : UInt32 := 0
  padding : UInt32 := 0
deriving DecidableEq, Repr

instance : Wire FuseMknodIn :=
  Wire.iso (β := UInt32 × UInt32 × UInt32 × UInt32)
    (fun x => (x.mode, x.rdev, x.umask, x.padding))
    (fun t => ⟨t.1, t.2.1, t.2.2.1, t.2.2.2⟩)
    (fun _ => rfl) (fun _ => rfl)

@[simp] theorem size_fuse_mknod_in : Wire.size FuseMknodIn = 16 := rfl
@[simp] theorem align_fuse_mknod_in : Wire.align FuseMknodIn = 4 := rfl
theorem reprC_fuse_mknod_in : NoPadding [lay UInt32, lay UInt32, lay UInt32, lay UInt32] := by decide

/-- `fuse_mkdir_in`, fuse/kernel.rs:790-793. -/
structure FuseMkdirIn where
  mode : UInt32 := 0
  umask : UInt32 := 0
deriving DecidableEq, Repr

instance : Wire FuseMkdirIn :=
  Wire.iso (β := UInt32 × UInt32)
    (fun x => (x.mode, x.umask))
    (fun t => ⟨t.1, t.2⟩)
    (fun _ => rfl) (fun _ => rfl)

@[simp] theorem size_fuse_mkdir_in : Wire.size FuseMkdirIn = 8 := rfl
@[simp] theorem align_fuse_mkdir_in : Wire.align FuseMkdirIn = 4 := rfl
theorem reprC_fuse_mkdir_in : NoPadding [lay UInt32, lay UInt32] := by decide

/-- `fuse_rename_in`, fuse/kernel.rs:805-807. -/
structure FuseRenameIn where
  newdir : UInt64 := 0
deriving DecidableEq, Repr

instance : Wire FuseRenameIn :=
  Wire.iso (β := UInt64)
    (fun x => x.newdir)
    (fun t => ⟨t⟩)
    (fun _ => rfl) (fun _ => rfl)

@[simp] theorem size_fuse_rename_in : Wire.size FuseRenameIn = 8 := rfl
@[simp] theorem align_fuse_rename_in : Wire.align FuseRenameIn = 8 := rfl
theorem reprC_fuse_rename_in : NoPadding [lay UInt64] := by decide

/-- `fuse_rename2_in`, fuse/kernel.rs:819-823. -/
structure FuseRename2In where
  newdir : UInt64 := 0
  flags : UInt32 := 0
  padding : UInt32 := 0
deriving DecidableEq, Repr

instance : Wire FuseRename2In :=
  Wire.iso (β := UInt64 × UInt32 × UInt32)
    (fun x => (x.newdir, x.flags, x.padding))
    (fun t => ⟨t.1, t.2.1, t.2.2⟩)
    (fun _ => rfl) (fun _ => rfl)

@[simp] theorem size_fuse_rename2_in : Wire.size FuseRename2In = 16 := rfl
@[simp] theorem align_fuse_rename2_in : Wire.align FuseRename2In = 8 := rfl
theorem reprC_fuse_rename2_in : NoPadding [lay UInt64, lay UInt32, lay UInt32] := by decide

/-- `fuse_link_in`, fuse/kernel.rs:835-837. -/
structure FuseLinkIn where
  oldnodeid : UInt64 := 0
deriving DecidableEq, Repr

instance : Wire FuseLinkIn :=
  Wire.iso (β := UInt64)
    (fun x => x.oldnodeid)
    (fun t => ⟨t⟩)
    (fun _ => rfl) (fun _ => rfl)

@[simp] theorem size_fuse_link_in : Wire.size FuseLinkIn = 8 := rfl
@[simp] theorem align_fuse_link_in : Wire.align FuseLinkIn = 8 := rfl
theorem reprC_fuse_link_in : NoPadding [lay UInt64] := by decide

/-- `fuse_setattr_in`, fuse/kernel.rs:849-866. -/
structure FuseSetattrIn where
  valid : UInt32 := 0
  padding : UInt32 := 0
  fh : UInt64 := 0
  size : UInt64 := 0
  lock_owner : UInt64 := 0
  atime : UInt64 := 0
  mtime : UInt64 := 0
  ctime : UInt64 := 0
  atimensec : UInt32 := 0
  mtimensec : UInt32 := 0
  ctimensec : UInt32 := 0
  mode : UInt32 := 0
  unused4 : UInt32 := 0
  uid : UInt32 := 0
  gid : UInt32 := 0
  unused5 : UInt32 := 0
deriving DecidableEq, Repr

instance : Wire FuseSetattrIn :=
  Wire.iso (β := UInt32 × UInt32 × UInt64 × UInt64 × UInt64 × UInt64 × UInt64 × UInt64 × UInt32 × UInt32 × UInt32 × UInt32 × UInt32 × UInt32 × UInt32 × UInt32)
    (fun x => (x.valid, x.padding, x.fh, x.size, x.lock_owner, x.atime, x.mtime, x.ctime, x.atimensec, x.mtimensec, x.ctimensec, x.mode, x.unused4, x.uid, x.gid, x.unused5))
    (fun t => ⟨t.1, t.2.1, t.2.2.1, t.2.2.2.1, t.2.2.2.2.1, t.2.2.2.2.2.1, t.2.2.2.2.2.2.1, t.2.2.2.2.2.2.2.1, t.2.2.2.2.2.2.2.2.1, t.2.2.2.2.2.2.2.2.2.1, t.2.2.2.2.2.2.2.2.2.2.1, t.2.2.2.2.2.2.2.2.2.2.2.1, t.2.2.2.2.2.2.2.2.2.2.2.2.1, t.2.2.2.2.2.2.2.2.2.2.2.2.2.1, t.2.2.2.2.2.2.2.2.2.2.2.2.2.2.1, t.2.2.2.2.2.2.2.2.2.2.2.2.2.2.2⟩)
    (fun _ => rfl) (fun _ => rfl)

@[simp] theorem size_fuse_setattr_in : Wire.size FuseSetattrIn = 88 := rfl
@[simp] theorem align_fuse_setattr_in : Wire.align FuseSetattrIn = 8 := rfl
theorem reprC_fuse_setattr_in : NoPadding [lay UInt32, lay UInt32, lay UInt64, lay UInt64, lay UInt64, lay UInt64, lay UInt64, lay UInt64, lay UInt32, lay UInt32, lay UInt32, lay UInt32, lay UInt32, lay UInt32, lay UInt32, lay UInt32] := by decide

/-- `fuse_open_in`, fuse/kernel.rs:878-881. -/
structure FuseOpenIn where
  flags : UInt32 := 0
  open_flags : UInt32 := 0
deriving DecidableEq, Repr

instance : Wire FuseOpenIn :=
  Wire.iso (β := UInt32 × UInt32)
    (fun x => (x.flags, x.open_flags))
    (fun t => ⟨t.1, t.2⟩)
    (fun _ => rfl) (fun _ => rfl)

@[simp] theorem size_fuse_open_in : Wire.size FuseOpenIn = 8 := rfl
@[simp] theorem align_fuse_open_in : Wire.align FuseOpenIn = 4 := rfl
theorem reprC_fuse_open_in : NoPadding [lay UInt32, lay UInt32] := by decide

/-- `fuse_create_in`, fuse/kernel.rs:893-898. -/
structure FuseCreateIn where
  flags : UInt32 := 0
  mode : UInt32 := 0
  umask : UInt32 := 0
  open_flags : UInt32 := 0
deriving DecidableEq, Repr

instance : Wire FuseCreateIn :=
  Wire.iso (β := UInt32 × UInt32 × UInt32 × UInt32)
    (fun x => (x.flags, x.mode, x.umask, x.open_flags))
    (fun t => ⟨t.1, t.2.1, t.2.2.1, t.2.2.2⟩)
    (fun _ => rfl) (fun _ => rfl)

@[simp] theorem size_fuse_create_in : Wire.size FuseCreateIn = 16 := rfl
@[simp] theorem align_fuse_create_in : Wire.align FuseCreateIn = 4 := rfl
theorem reprC_fuse_create_in : NoPadding [lay UInt32, lay UInt32, lay UInt32, lay UInt32] := by decide

/-- `fuse_open_out`, fuse/kernel.rs:910-914. -/
structure FuseOpenOut where
  fh : UInt64 := 0
  open_flags : UInt32 := 0
  padding : UInt32 := 0
deriving DecidableEq, Repr

instance : Wire FuseOpenOut :=
  Wire.iso (β := UInt64 × UInt32 × UInt32)
    (fun x => (x.fh, x.open_flags, x.padding))
    (fun t => ⟨t.1, t.2.1, t.2.2⟩)
    (fun _ => rfl) (fun _ => rfl)

@[simp] theorem size_fuse_open_out : Wire.size FuseOpenOut = 16 := rfl
@[simp] theorem align_fuse_open_out : Wire.align FuseOpenOut = 8 := rfl
theorem reprC_fuse_open_out : NoPadding [lay UInt64, lay UInt32, lay UInt32] := by decide

/-- `fuse_release_in`, fuse/kernel.rs:926-931. -/
structure FuseReleaseIn where
  fh : UInt64 := 0
  flags : UInt32 := 0
  release_flags : UInt32 := 0
  lock_owner : UInt64 := 0
deriving DecidableEq, Repr

instance : Wire FuseReleaseIn :=
  Wire.iso (β := UInt64 × UInt32 × UInt32 × UInt64)
    (fun x => (x.fh, x.flags, x.release_flags, x.lock_owner))
    (fun t => ⟨t.1, t.2.1, t.2.2.1, t.2.2.2⟩)
    (fun _ => rfl) (fun _ => rfl)

@[simp] theorem size_fuse_release_in : Wire.size FuseReleaseIn = 24 := rfl
@[simp] theorem align_fuse_release_in : Wire.align FuseReleaseIn = 8 := rfl
theorem reprC_fuse_release_in : NoPadding [lay UInt64, lay UInt32, lay UInt32, lay UInt64] := by decide

/-- `fuse_flush_in`, fuse/kernel.rs:943-948. -/
structure FuseFlushIn where
  fh : UInt64 := 0
  unused : UInt32 := 0
  padding : UInt32 := 0
  lock_owner : UInt64 := 0
deriving DecidableEq, Repr

instance : Wire FuseFlushIn :=
  Wire.iso (β := UInt64 × UInt32 × UInt32 × UInt64)
    (fun x => (x.fh, x.unused, x.padding, x.lock_owner))
    (fun t => ⟨t.1, t.2.1, t.2.2.1, t.2.2.2⟩)
    (fun _ => rfl) (fun _ => rfl)

@[simp] theorem size_fuse_flush_in : Wire.size FuseFlushIn = 24 := rfl
@[simp] theorem align_fuse_flush_in : Wire.align FuseFlushIn = 8 := rfl
theorem reprC_fuse_flush_in : NoPadding [lay UInt64, lay UInt32, lay UInt32, lay UInt64] := by decide

/-- `fuse_read_in`, fuse/kernel.rs:960-968. -/
structure FuseReadIn where
  fh : UInt64 := 0
  offset : UInt64 := 0
  size : UInt32 := 0
  read_flags : UInt32 := 0
  lock_owner : UInt64 := 0
  flags : UInt32 := 0
  padding : UInt32 := 0
deriving DecidableEq, Repr

instance : Wire FuseReadIn :=
  Wire.iso (β := UInt64 × UInt64 × UInt32 × UInt32 × UInt64 × UInt32 × UInt32)
    (fun x => (x.fh, x.offset, x.size, x.read_flags, x.lock_owner, x.flags, x.padding))
    (fun t => ⟨t.1, t.2.1, t.2.2.1, t.2.2.2.1, t.2.2.2.2.1, t.2.2.2.2.2.1, t.2.2.2.2.2.2⟩)
    (fun _ => rfl) (fun _ => rfl)

@[simp] theorem size_fuse_read_in : Wire.size FuseReadIn = 40 := rfl
@[simp] theorem align_fuse_read_in : Wire.align FuseReadIn = 8 := rfl
theorem reprC_fuse_read_in : NoPadding [lay UInt64, lay UInt64, lay UInt32, lay UInt32, lay UInt64, lay UInt32, lay UInt32] := by decide

/-- `fuse_write_in`, fuse/kernel.rs:982-990. -/
structure FuseWriteIn where
  fh : UInt64 := 0
  offset : UInt64 := 0
  size : UInt32 := 0
  write_flags : UInt32 := 0
  lock_owner : UInt64 := 0
  flags : UInt32 := 0
  padding : UInt32 := 0
deriving DecidableEq, Repr

instance : Wire FuseWriteIn :=
  Wire.iso (β := UInt64 × UInt64 × UInt32 × UInt32 × UInt64 × UInt32 × UInt32)
    (fun x => (x.fh, x.offset, x.size, x.write_flags, x.lock_owner, x.flags, x.padding))
    (fun t => ⟨t.1, t.2.1, t.2.2.1, t.2.2.2.1, t.2.2.2.2.1, t.2.2.2.2.2.1, t.2.2.2.2.2.2⟩)
    (fun _ => rfl) (fun _ => rfl)

@[simp] theorem size_fuse_write_in : Wire.size FuseWriteIn = 40 := rfl
@[simp] theorem align_fuse_write_in : Wire.align FuseWriteIn = 8 := rfl
theorem reprC_fuse_write_in : NoPadding [lay UInt64, lay UInt64, lay UInt32, lay UInt32, lay UInt64, lay UInt32, lay UInt32] := by decide

/-- `fuse_write_out`, fuse/kernel.rs:1002-1005. -/
structure FuseWriteOut where
  size : UInt32 := 0
  padding : UInt32 := 0
deriving DecidableEq, Repr

instance : Wire FuseWriteOut :=
  Wire.iso (β := UInt32 × UInt32)
    (fun x => (x.size, x.padding))
    (fun t => ⟨t.1, t.2⟩)
    (fun _ => rfl) (fun _ => rfl)

@[simp] theorem size_fuse_write_out : Wire.size FuseWriteOut = 8 := rfl
@[simp] theorem align_fuse_write_out : Wire.align FuseWriteOut = 4 := rfl
theorem reprC_fuse_write_out : NoPadding [lay UInt32, lay UInt32] := by decide

/-- `fuse_statfs_out`, fuse/kernel.rs:1019-1021. -/
structure FuseStatfsOut where
  st : FuseKstatfs := {}
deriving DecidableEq, Repr

instance : Wire FuseStatfsOut :=
  Wire.iso (β := FuseKstatfs)
    (fun x => x.st)
    (fun t => ⟨t⟩)
    (fun _ => rfl) (fun _ => rfl)

@[simp] theorem size_fuse_statfs_out : Wire.size FuseStatfsOut = 80 := rfl
@[simp] theorem align_fuse_statfs_out : Wire.align FuseStatfsOut = 8 := rfl
theorem reprC_fuse_statfs_out : NoPadding [lay FuseKstatfs] := by decide

/-- `fuse_fsync_in`, fuse/kernel.rs:1033-1037. -/
structure FuseFsyncIn where
  fh : UInt64 := 0
  fsync_flags : UInt32 := 0
  padding : UInt32 := 0
deriving DecidableEq, Repr

instance : Wire FuseFsyncIn :=
  Wire.iso (β := UInt64 × UInt32 × UInt32)
    (fun x => (x.fh, x.fsync_flags, x.padding))
    (fun t => ⟨t.1, t.2.1, t.2.2⟩)
    (fun _ => rfl) (fun _ => rfl)

@[simp] theorem size_fuse_fsync_in : Wire.size FuseFsyncIn = 16 := rfl
@[simp] theorem align_fuse_fsync_in : Wire.align FuseFsyncIn = 8 := rfl
theorem reprC_fuse_fsync_in : NoPadding [lay UInt64, lay UInt32, lay UInt32] := by decide

/-- `fuse_setxattr_in`, fuse/kernel.rs:1051-1056. -/
structure FuseSetxattrIn where
  size : UInt32 := 0
  flags : UInt32 := 0
  setxattr_flags : UInt32 := 0
  padding : UInt32 := 0
deriving DecidableEq, Repr

instance : Wire FuseSetxattrIn :=
  Wire.iso (β := UInt32 × UInt32 × UInt32 × UInt32)
    (fun x => (x.size, x.flags, x.setxattr_flags, x.padding))
    (fun t => ⟨t.1, t.2.1, t.2.2.1, t.2.2.2⟩)
    (fun _ => rfl) (fun _ => rfl)

@[simp] theorem size_fuse_setxattr_in : Wire.size FuseSetxattrIn = 16 := rfl
@[simp] theorem align_fuse_setxattr_in : Wire.align FuseSetxattrIn = 4 := rfl
theorem reprC_fuse_setxattr_in : NoPadding [lay UInt32, lay UInt32, lay UInt32, lay UInt32] := by decide

/-- `fuse_getxattr_in`, fuse/kernel.rs:1068-1071. -/
structure FuseGetxattrIn where
  size : UInt32 := 0
  padding : UInt32 := 0
deriving DecidableEq, Repr

instance : Wire FuseGetxattrIn :=
  Wire.iso (β := UInt32 × UInt32)
    (fun x => (x.size, x.padding))
    (fun t => ⟨t.1, t.2⟩)
    (fun _ => rfl) (fun _ => rfl)

@[simp] theorem size_fuse_getxattr_in : Wire.size FuseGetxattrIn = 8 := rfl
@[simp] theorem align_fuse_getxattr_in : Wire.align FuseGetxattrIn = 4 := rfl
theorem reprC_fuse_getxattr_in : NoPadding [lay UInt32, lay UInt32] := by decide

/-- `fuse_getxattr_out`, fuse/kernel.rs:1083-1086. -/
structure FuseGetxattrOut where
  size : UInt32 := 0
  padding : UInt32 := 0
deriving DecidableEq, Repr

instance : Wire FuseGetxattrOut :=
  Wire.iso (β := UInt32 × UInt32)
    (fun x => (x.size, x.padding))
    (fun t => ⟨t.1, t.2⟩)
    (fun _ => rfl) (fun _ => rfl)

@[simp] theorem size_fuse_getxattr_out : Wire.size FuseGetxattrOut = 8 := rfl
@[simp] theorem align_fuse_getxattr_out : Wire.align FuseGetxattrOut = 4 := rfl
theorem reprC_fuse_getxattr_out : NoPadding [lay UInt32, lay UInt32] := by decide

/-- `fuse_lk_in`, fuse/kernel.rs:1098-1104. -/
structure FuseLkIn where
  fh : UInt64 := 0
  owner : UInt64 := 0
  lk : FuseFileLock := {}
  lk_flags : UInt32 := 0
  padding : UInt32 := 0
deriving DecidableEq, Repr

instance : Wire FuseLkIn :=
  Wire.iso (β := UInt64 × UInt64 × FuseFileLock × UInt32 × UInt32)
    (fun x => (x.fh, x.owner, x.lk, x.lk_flags, x.padding))
    (fun t => ⟨t.1, t.2.1, t.2.2.1, t.2.2.2.1, t.2.2.2.2⟩)
    (fun _ => rfl) (fun _ => rfl)

@[simp] theorem size_fuse_lk_in : Wire.size FuseLkIn = 48 := rfl
@[simp] theorem align_fuse_lk_in : Wire.align FuseLkIn = 8 := rfl
theorem reprC_fuse_lk_in : NoPadding [lay UInt64, lay UInt64, lay FuseFileLock, lay UInt32, lay UInt32] := by decide

/-- `fuse_lk_out`, fuse/kernel.rs:1116-1118. -/
structure FuseLkOut where
  lk : FuseFileLock := {}
deriving DecidableEq, Repr

instance : Wire FuseLkOut :=
  Wire.iso (β := FuseFileLock)
    (fun x => x.lk)
    (fun t => ⟨t⟩)
    (fun _ => rfl) (fun _ => rfl)

@[simp] theorem size_fuse_lk_out : Wire.size FuseLkOut = 24 := rfl
@[simp] theorem align_fuse_lk_out : Wire.align FuseLkOut = 8 := rfl
theorem reprC_fuse_lk_out : NoPadding [lay FuseFileLock] := by decide

/-- `fuse_access_in`, fuse/kernel.rs:1130-1133. -/
structure FuseAccessIn where
  mask : UInt32 := 0
  padding : UInt32 := 0
deriving DecidableEq, Repr

instance : Wire FuseAccessIn :=
  Wire.iso (β := UInt32 × UInt32)
    (fun x => (x.mask, x.padding))
    (fun t => ⟨t.1, t.2⟩)
    (fun _ => rfl) (fun _ => rfl)

@[simp] theorem size_fuse_access_in : Wire.size FuseAccessIn = 8 := rfl
@[simp] theorem align_fuse_access_in : Wire.align FuseAccessIn = 4 := rfl
theorem reprC_fuse_access_in : NoPadding [lay UInt32, lay UInt32] := by decide

/-- `fuse_init_in`, fuse/kernel.rs:1145-1152. -/
structure FuseInitIn where
  major : UInt32 := 0
  minor : UInt32 := 0
  max_readahead : UInt32 := 0
  flags : UInt32 := 0
  flags2 : UInt32 := 0
  unused : Reserved 11 := Reserved.zero 11
deriving DecidableEq, Repr

instance : Wire FuseInitIn :=
  Wire.iso (β := UInt32 × UInt32 × UInt32 × UInt32 × UInt32 × Reserved 11)
    (fun x => (x.major, x.minor, x.max_readahead, x.flags, x.flags2, x.unused))
    (fun t => ⟨t.1, t.2.1, t.2.2.1, t.2.2.2.1, t.2.2.2.2.1, t.2.2.2.2.2⟩)
    (fun _ => rfl) (fun _ => rfl)

@[simp] theorem size_fuse_init_in : Wire.size FuseInitIn = 64 := rfl
@[simp] theorem align_fuse_init_in : Wire.align FuseInitIn = 4 := rfl
theorem reprC_fuse_init_in : NoPadding [lay UInt32, lay UInt32, lay UInt32, lay UInt32, lay UInt32, lay (Reserved 11)] := by decide

/-- `fuse_init_out`, fuse/kernel.rs:1167-1180. -/
structure FuseInitOut where
  major : UInt32 := 0
  minor : UInt32 := 0
  max_readahead : UInt32 := 0
  flags : UInt32 := 0
  max_background : UInt16 := 0
  congestion_threshold : UInt16 := 0
  max_write : UInt32 := 0
  time_gran : UInt32 := 0
  max_pages : UInt16 := 0
  map_alignment : UInt16 := 0
  flags2 : UInt32 := 0
  unused : Reserved 7 := Reserved.zero 7
deriving DecidableEq, Repr

instance : Wire FuseInitOut :=
  Wire.iso (β := UInt32 × UInt32 × UInt32 × UInt32 × UInt16 × UInt16 × UInt32 × UInt32 × UInt16 × UInt16 × UInt32 × Reserved 7)
    (fun x => (x.major, x.minor, x.max_readahead, x.flags, x.max_background, x.congestion_threshold, x.max_write, x.time_gran, x.max_pages, x.map_alignment, x.flags2, x.unused))
    (fun t => ⟨t.1, t.2.1, t.2.2.1, t.2.2.2.1, t.2.2.2.2.1, t.2.2.2.2.2.1, t.2.2.2.2.2.2.1, t.2.2.2.2.2.2.2.1, t.2.2.2.2.2.2.2.2.1, t.2.2.2.2.2.2.2.2.2.1, t.2.2.2.2.2.2.2.2.2.2.1, t.2.2.2.2.2.2.2.2.2.2.2⟩)
    (fun _ => rfl) (fun _ => rfl)

@[simp] theorem size_fuse_init_out : Wire.size FuseInitOut = 64 := rfl
@[simp] theorem align_fuse_init_out : Wire.align FuseInitOut = 4 := rfl
theorem reprC_fuse_init_out : NoPadding [lay UInt32, lay UInt32, lay UInt32, lay UInt32, lay UInt16, lay UInt16, lay UInt32, lay UInt32, lay UInt16, lay UInt16, lay UInt32, lay (Reserved 7)] := by decide

/-- `cuse_init_in`, fuse/kernel.rs:1194-1199. -/
structure CuseInitIn where
  major : UInt32 := 0
  minor : UInt32 := 0
  unused : UInt32 := 0
  flags : UInt32 := 0
deriving DecidableEq, Repr

instance : Wire CuseInitIn :=
  Wire.iso (β := UInt32 × UInt32 × UInt32 × UInt32)
    (fun x => (x.major, x.minor, x.unused, x.flags))
    (fun t => ⟨t.1, t.2.1, t.2.2.1, t.2.2.2⟩)
    (fun _ => rfl) (fun _ => rfl)

@[simp] theorem size_cuse_init_in : Wire.size CuseInitIn = 16 := rfl
@[simp] theorem align_cuse_init_in : Wire.align CuseInitIn = 4 := rfl
theorem reprC_cuse_init_in : NoPadding [lay UInt32, lay UInt32, lay UInt32, lay UInt32] := by decide

/-- `cuse_init_out`, fuse/kernel.rs:1211-1221. -/
structure CuseInitOut where
  major : UInt32 := 0
  minor : UInt32 := 0
  unused : UInt32 := 0
  flags : UInt32 := 0
  max_read : UInt32 := 0
  max_write : UInt32 := 0
  dev_major : UInt32 := 0
  dev_minor : UInt32 := 0
  spare : Reserved 10 := Reserved.zero 10
deriving DecidableEq, Repr

instance : Wire CuseInitOut :=
  Wire.iso (β := UInt32 × UInt32 × UInt32 × UInt32 × UInt32 × UInt32 × UInt32 × UInt32 × Reserved 10)
    (fun x => (x.major, x.minor, x.unused, x.flags, x.max_read, x.max_write, x.dev_major, x.dev_minor, x.spare))
    (fun t => ⟨t.1, t.2.1, t.2.2.1, t.2.2.2.1, t.2.2.2.2.1, t.2.2.2.2.2.1, t.2.2.2.2.2.2.1, t.2.2.2.2.2.2.2.1, t.2.2.2.2.2.2.2.2⟩)
    (fun _ => rfl) (fun _ => rfl)

@[simp] theorem size_cuse_init_out : Wire.size CuseInitOut = 72 := rfl
@[simp] theorem align_cuse_init_out : Wire.align CuseInitOut = 4 := rfl
theorem reprC_cuse_init_out : NoPadding [lay UInt32, lay UInt32, lay UInt32, lay UInt32, lay UInt32, lay UInt32, lay UInt32, lay UInt32, lay (Reserved 10)] := by decide

/-- `fuse_interrupt_in`, fuse/kernel.rs:1233-1235. -/
structure FuseInterruptIn where
  unique : UInt64 := 0
deriving DecidableEq, Repr

instance : Wire FuseInterruptIn :=
  Wire.iso (β := UInt64)
    (fun x => x.unique)
    (fun t => ⟨t⟩)
    (fun _ => rfl) (fun _ => rfl)

@[simp] theorem size_fuse_interrupt_in : Wire.size FuseInterruptIn = 8 := rfl
@[simp] theorem align_fuse_interrupt_in : Wire.align FuseInterruptIn = 8 := rfl
theorem reprC_fuse_interrupt_in : NoPadding [lay UInt64] := by decide

/-- `fuse_bmap_in`, fuse/kernel.rs:1247-1251. -/
structure FuseBmapIn where
  block : UInt64 := 0
  blocksize : UInt32 := 0
  padding : UInt32 := 0
deriving DecidableEq, Repr

instance : Wire FuseBmapIn :=
  Wire.iso (β := UInt64 × UInt32 × UInt32)
    (fun x => (x.block, x.blocksize, x.padding))
    (fun t => ⟨t.1, t.2.1, t.2.2⟩)
    (fun _ => rfl) (fun _ => rfl)

@[simp] theorem size_fuse_bmap_in : Wire.size FuseBmapIn = 16 := rfl
@[simp] theorem align_fuse_bmap_in : Wire.align FuseBmapIn = 8 := rfl
theorem reprC_fuse_bmap_in : NoPadding [lay UInt64, lay UInt32, lay UInt32] := by decide

/-- `fuse_bmap_out`, fuse/kernel.rs:1263-1265. -/
structure FuseBmapOut where
  block : UInt64 := 0
deriving DecidableEq, Repr

instance : Wire FuseBmapOut :=
  Wire.iso (β := UInt64)
    (fun x => x.block)
    (fun t => ⟨t⟩)
    (fun _ => rfl) (fun _ => rfl)

@[simp] theorem size_fuse_bmap_out : Wire.size FuseBmapOut = 8 := rfl
@[simp] theorem align_fuse_bmap_out : Wire.align FuseBmapOut = 8 := rfl
theorem reprC_fuse_bmap_out : NoPadding [lay UInt64] := by decide

/-- `fuse_ioctl_in`, fuse/kernel.rs:1277-1284. -/
structure FuseIoctlIn where
  fh : UInt64 := 0
  flags : UInt32 := 0
  cmd : UInt32 := 0
  arg : UInt64 := 0
  in_size : UInt32 := 0
  out_size : UInt32 := 0
deriving DecidableEq, Repr

instance : Wire FuseIoctlIn :=
  Wire.iso (β := UInt64 × UInt32 × UInt32 × UInt64 × UInt32 × UInt32)
    (fun x => (x.fh, x.flags, x.cmd, x.arg, x.in_size, x.out_size))
    (fun t => ⟨t.1, t.2.1, t.2.2.1, t.2.2.2.1, t.2.2.2.2.1, t.2.2.2.2.2⟩)
    (fun _ => rfl) (fun _ => rfl)

@[simp] theorem size_fuse_ioctl_in : Wire.size FuseIoctlIn = 32 := rfl
@[simp] theorem align_fuse_ioctl_in : Wire.align FuseIoctlIn = 8 := rfl
theorem reprC_fuse_ioctl_in : NoPadding [lay UInt64, lay UInt32, lay UInt32, lay UInt64, lay UInt32, lay UInt32] := by decide

/-- `fuse_ioctl_iovec`, fuse/kernel.rs:1296-1299. -/
structure FuseIoctlIovec where
  base : UInt64 := 0
  len : UInt64 := 0
deriving DecidableEq, Repr

instance : Wire FuseIoctlIovec :=
  Wire.iso (β := UInt64 × UInt64)
    (fun x => (x.base, x.len))
    (fun t => ⟨t.1, t.2⟩)
    (fun _ => rfl) (fun _ => rfl)

@[simp] theorem size_fuse_ioctl_iovec : Wire.size FuseIoctlIovec = 16 := rfl
@[simp] theorem align_fuse_ioctl_iovec : Wire.align FuseIoctlIovec = 8 := rfl
theorem reprC_fuse_ioctl_iovec : NoPadding [lay UInt64, lay UInt64] := by decide

/-- `fuse_ioctl_out`, fuse/kernel.rs:1311-1316. -/
structure FuseIoctlOut where
  result : Int32 := 0
  flags : UInt32 := 0
  in_iovs : UInt32 := 0
  out_iovs : UInt32 := 0
deriving DecidableEq, Repr

instance : Wire FuseIoctlOut :=
  Wire.iso (β := Int32 × UInt32 × UInt32 × UInt32)
    (fun x => (x.result, x.flags, x.in_iovs, x.out_iovs))
    (fun t => ⟨t.1, t.2.1, t.2.2.1, t.2.2.2⟩)
    (fun _ => rfl) (fun _ => rfl)

@[simp] theorem size_fuse_ioctl_out : Wire.size FuseIoctlOut = 16 := rfl
@[simp] theorem align_fuse_ioctl_out : Wire.align FuseIoctlOut = 4 := rfl
theorem reprC_fuse_ioctl_out : NoPadding [lay Int32, lay UInt32, lay UInt32, lay UInt32] := by decide

/-- `fuse_poll_in`, fuse/kernel.rs:1328-1333. -/
structure FusePollIn where
  fh : UInt64 := 0
  kh : UInt64 := 0
  flags : UInt32 := 0
  events : UInt32 := 0
deriving DecidableEq, Repr

instance : Wire FusePollIn :=
  Wire.iso (β := UInt64 × UInt64 × UInt32 × UInt32)
    (fun x => (x.fh, x.kh, x.flags, x.events))
    (fun t => ⟨t.1, t.2.1, t.2.2.1, t.2.2.2⟩)
    (fun _ => rfl) (fun _ => rfl)

@[simp] theorem size_fuse_poll_in : Wire.size FusePollIn = 24 := rfl
@[simp] theorem align_fuse_poll_in : Wire.align FusePollIn = 8 := rfl
theorem reprC_fuse_poll_in : NoPadding [lay UInt64, lay UInt64, lay UInt32, lay UInt32] := by decide

/-- `fuse_poll_out`, fuse/kernel.rs:1345-1348. -/
structure FusePollOut where
  revents : UInt32 := 0
  padding : UInt32 := 0
deriving DecidableEq, Repr

instance : Wire FusePollOut :=
  Wire.iso (β := UInt32 × UInt32)
    (fun x => (x.revents, x.padding))
    (fun t => ⟨t.1, t.2⟩)
    (fun _ => rfl) (fun _ => rfl)

@[simp] theorem size_fuse_poll_out : Wire.size FusePollOut = 8 := rfl
@[simp] theorem align_fuse_poll_out : Wire.align FusePollOut = 4 := rfl
theorem reprC_fuse_poll_out : NoPadding [lay UInt32, lay UInt32] := by decide

/-- `fuse_notify_poll_wakeup_out`, fuse/kernel.rs:1360-1362. -/
structure FuseNotifyPollWakeupOut where
  kh : UInt64 := 0
deriving DecidableEq, Repr

instance : Wire FuseNotifyPollWakeupOut :=
  Wire.iso (β := UInt64)
    (fun x => x.kh)
    (fun t => ⟨t⟩)
    (fun _ => rfl) (fun _ => rfl)

@[simp] theorem size_fuse_notify_poll_wakeup_out : Wire.size FuseNotifyPollWakeupOut = 8 := rfl
@[simp] theorem align_fuse_notify_poll_wakeup_out : Wire.align FuseNotifyPollWakeupOut = 8 := rfl
theorem reprC_fuse_notify_poll_wakeup_out : NoPadding [lay UInt64] := by decide

/-- `fuse_fallocate_in`, fuse/kernel.rs:1374-1380. -/
structure FuseFallocateIn where
  fh : UInt64 := 0
  offset : UInt64 := 0
  length : UInt64 := 0
  mode : UInt32 := 0
  padding : UInt32 := 0
deriving DecidableEq, Repr

instance : Wire FuseFallocateIn :=
  Wire.iso (β := UInt64 × UInt64 × UInt64 × UInt32 × UInt32)
    (fun x => (x.fh, x.offset, x.length, x.mode, x.padding))
    (fun t => ⟨t.1, t.2.1, t.2.2.1, t.2.2.2.1, t.2.2.2.2⟩)
    (fun _ => rfl) (fun _ => rfl)

@[simp] theorem size_fuse_fallocate_in : Wire.size FuseFallocateIn = 32 := rfl
@[simp] theorem align_fuse_fallocate_in : Wire.align FuseFallocateIn = 8 := rfl
theorem reprC_fuse_fallocate_in : NoPadding [lay UInt64, lay UInt64, lay UInt64, lay UInt32, lay UInt32] := by decide

/-- `fuse_in_header`, fuse/kernel.rs:1392-1401. -/
structure FuseInHeader where
  len : UInt32 := 0
  opcode : UInt32 := 0
  unique : UInt64 := 0
  nodeid : UInt64 := 0
  uid : UInt32 := 0
  gid : UInt32 := 0
  pid : UInt32 := 0
  padding : UInt32 := 0
deriving DecidableEq, Repr

instance : Wire FuseInHeader :=
  Wire.iso (β := UInt32 × UInt32 × UInt64 × UInt64 × UInt32 × UInt32 × UInt32 × UInt32)
    (fun x => (x.len, x.opcode, x.unique, x.nodeid, x.uid, x.gid, x.pid, x.padding))
    (fun t => ⟨t.1, t.2.1, t.2.2.1, t.2.2.2.1, t.2.2.2.2.1, t.2.2.2.2.2.1, t.2.2.2.2.2.2.1, t.2.2.2.2.2.2.2⟩)
    (fun _ => rfl) (fun _ => rfl)

@[simp] theorem size_fuse_in_header : Wire.size FuseInHeader = 40 := rfl
@[simp] theorem align_fuse_in_header : Wire.align FuseInHeader = 8 := rfl
theorem reprC_fuse_in_header : NoPadding [lay UInt32, lay UInt32, lay UInt64, lay UInt64, lay UInt32, lay UInt32, lay UInt32, lay UInt32] := by decide

/-- `fuse_out_header`, fuse/kernel.rs:1413-1417. -/
structure FuseOutHeader where
  len : UInt32 := 0
  error : Int32 := 0
  unique : UInt64 := 0
deriving DecidableEq, Repr

instance : Wire FuseOutHeader :=
  Wire.iso (β := UInt32 × Int32 × UInt64)
    (fun x => (x.len, x.error, x.unique))
    (fun t => ⟨t.1, t.2.1, t.2.2⟩)
    (fun _ => rfl) (fun _ => rfl)

@[simp] theorem size_fuse_out_header : Wire.size FuseOutHeader = 16 := rfl
@[simp] theorem align_fuse_out_header : Wire.align FuseOutHeader = 8 := rfl
theorem reprC_fuse_out_header : NoPadding [lay UInt32, lay Int32, lay UInt64] := by decide

/-- `fuse_dirent`, fuse/kernel.rs:1429-1435. -/
structure FuseDirent where
  ino : UInt64 := 0
  off : UInt64 := 0
  namelen : UInt32 := 0
  type_ : UInt32 := 0
deriving DecidableEq, Repr

instance : Wire FuseDirent :=
  Wire.iso (β := UInt64 × UInt64 × UInt32 × UInt32)
    (fun x => (x.ino, x.off, x.namelen, x.type_))
    (fun t => ⟨t.1, t.2.1, t.2.2.1, t.2.2.2⟩)
    (fun _ => rfl) (fun _ => rfl)

@[simp] theorem size_fuse_dirent : Wire.size FuseDirent = 24 := rfl
@[simp] theorem align_fuse_dirent : Wire.align FuseDirent = 8 := rfl
theorem reprC_fuse_dirent : NoPadding [lay UInt64, lay UInt64, lay UInt32, lay UInt32] := by decide

/-- `fuse_direntplus`, fuse/kernel.rs:1454-1457. -/
structure FuseDirentplus where
  entry_out : FuseEntryOut := {}
  dirent : FuseDirent := {}
deriving DecidableEq, Repr

instance : Wire FuseDirentplus :=
  Wire.iso (β := FuseEntryOut × FuseDirent)
    (fun x => (x.entry_out, x.dirent))
    (fun t => ⟨t.1, t.2⟩)
    (fun _ => rfl) (fun _ => rfl)

@[simp] theorem size_fuse_direntplus : Wire.size FuseDirentplus = 152 := rfl
@[simp] theorem align_fuse_direntplus : Wire.align FuseDirentplus = 8 := rfl
theorem reprC_fuse_direntplus : NoPadding [lay FuseEntryOut, lay FuseDirent] := by decide

/-- `fuse_notify_inval_inode_out`, fuse/kernel.rs:1472-1476. -/
structure FuseNotifyInvalInodeOut where
  ino : UInt64 := 0
  off : Int64 := 0
  len : Int64 := 0
deriving DecidableEq, Repr

instance : Wire FuseNotifyInvalInodeOut :=
  Wire.iso (β := UInt64 × Int64 × Int64)
    (fun x => (x.ino, x.off, x.len))
    (fun t => ⟨t.1, t.2.1, t.2.2⟩)
    (fun _ => rfl) (fun _ => rfl)

@[simp] theorem size_fuse_notify_inval_inode_out : Wire.size FuseNotifyInvalInodeOut = 24 := rfl
@[simp] theorem align_fuse_notify_inval_inode_out : Wire.align FuseNotifyInvalInodeOut = 8 := rfl
theorem reprC_fuse_notify_inval_inode_out : NoPadding [lay UInt64, lay Int64, lay Int64] := by decide

/-- `fuse_notify_inval_entry_out`, fuse/kernel.rs:1488-1492. -/
structure FuseNotifyInvalEntryOut where
  parent : UInt64 := 0
  namelen : UInt32 := 0
  padding : UInt32 := 0
deriving DecidableEq, Repr

instance : Wire FuseNotifyInvalEntryOut :=
  Wire.iso (β := UInt64 × UInt32 × UInt32)
    (fun x => (x.parent, x.namelen, x.padding))
    (fun t => ⟨t.1, t.2.1, t.2.2⟩)
    (fun _ => rfl) (fun _ => rfl)

@[simp] theorem size_fuse_notify_inval_entry_out : Wire.size FuseNotifyInvalEntryOut = 16 := rfl
@[simp] theorem align_fuse_notify_inval_entry_out : Wire.align FuseNotifyInvalEntryOut = 8 := rfl
theorem reprC_fuse_notify_inval_entry_out : NoPadding [lay UInt64, lay UInt32, lay UInt32] := by decide

/-- `fuse_notify_delete_out`, fuse/kernel.rs:1504-1509. -/
structure FuseNotifyDeleteOut where
  parent : UInt64 := 0
  child : UInt64 := 0
  namelen : UInt32 := 0
  padding : UInt32 := 0
deriving DecidableEq, Repr

instance : Wire FuseNotifyDeleteOut :=
  Wire.iso (β := UInt64 × UInt64 × UInt32 × UInt32)
    (fun x => (x.parent, x.child, x.namelen, x.padding))
    (fun t => ⟨t.1, t.2.1, t.2.2.1, t.2.2.2⟩)
    (fun _ => rfl) (fun _ => rfl)

@[simp] theorem size_fuse_notify_delete_out : Wire.size FuseNotifyDeleteOut = 24 := rfl
@[simp] theorem align_fuse_notify_delete_out : Wire.align FuseNotifyDeleteOut = 8 := rfl
theorem reprC_fuse_notify_delete_out : NoPadding [lay UInt64, lay UInt64, lay UInt32, lay UInt32] := by decide

/-- `fuse_notify_store_out`, fuse/kernel.rs:1521-1526. -/
structure FuseNotifyStoreOut where
  nodeid : UInt64 := 0
  offset : UInt64 := 0
  size : UInt32 := 0
  padding : UInt32 := 0
deriving DecidableEq, Repr

instance : Wire FuseNotifyStoreOut :=
  Wire.iso (β := UInt64 × UInt64 × UInt32 × UInt32)
    (fun x => (x.nodeid, x.offset, x.size, x.padding))
    (fun t => ⟨t.1, t.2.1, t.2.2.1, t.2.2.2⟩)
    (fun _ => rfl) (fun _ => rfl)

@[simp] theorem size_fuse_notify_store_out : Wire.size FuseNotifyStoreOut = 24 := rfl
@[simp] theorem align_fuse_notify_store_out : Wire.align FuseNotifyStoreOut = 8 := rfl
theorem reprC_fuse_notify_store_out : NoPadding [lay UInt64, lay UInt64, lay UInt32, lay UInt32] := by decide

/-- `fuse_notify_retrieve_out`, fuse/kernel.rs:1538-1544. -/
structure FuseNotifyRetrieveOut where
  notify_unique : UInt64 := 0
  nodeid : UInt64 := 0
  offset : UInt64 := 0
  size : UInt32 := 0
  padding : UInt32 := 0
deriving DecidableEq, Repr

instance : Wire FuseNotifyRetrieveOut :=
  Wire.iso (β := UInt64 × UInt64 × UInt64 × UInt32 × UInt32)
    (fun x => (x.notify_unique, x.nodeid, x.offset, x.size, x.padding))
    (fun t => ⟨t.1, t.2.1, t.2.2.1, t.2.2.2.1, t.2.2.2.2⟩)
    (fun _ => rfl) (fun _ => rfl)

@[simp] theorem size_fuse_notify_retrieve_out : Wire.size FuseNotifyRetrieveOut = 32 := rfl
@[simp] theorem align_fuse_notify_retrieve_out : Wire.align FuseNotifyRetrieveOut = 8 := rfl
theorem reprC_fuse_notify_retrieve_out : NoPadding [lay UInt64, lay UInt64, lay UInt64, lay UInt32, lay UInt32] := by decide

/-- `fuse_notify_retrieve_in`, fuse/kernel.rs:1557-1564. -/
structure FuseNotifyRetrieveIn where
  dummy1 : UInt64 := 0
  offset : UInt64 := 0
  size : UInt32 := 0
  dummy2 : UInt32 := 0
  dummy3 : UInt64 := 0
  dummy4 : UInt64 := 0
deriving DecidableEq, Repr

instance : Wire FuseNotifyRetrieveIn :=
  Wire.iso (β := UInt64 × UInt64 × UInt32 × UInt32 × UInt64 × UInt64)
    (fun x => (x.dummy1, x.offset, x.size, x.dummy2, x.dummy3, x.dummy4))
    (fun t => ⟨t.1, t.2.1, t.2.2.1, t.2.2.2.1, t.2.2.2.2.1, t.2.2.2.2.2⟩)
    (fun _ => rfl) (fun _ => rfl)

@[simp] theorem size_fuse_notify_retrieve_in : Wire.size FuseNotifyRetrieveIn = 40 := rfl
@[simp] theorem align_fuse_notify_retrieve_in : Wire.align FuseNotifyRetrieveIn = 8 := rfl
theorem reprC_fuse_notify_retrieve_in : NoPadding [lay UInt64, lay UInt64, lay UInt32, lay UInt32, lay UInt64, lay UInt64] := by decide

/-- `fuse_lseek_in`, fuse/kernel.rs:1580-1585. -/
structure FuseLseekIn where
  fh : UInt64 := 0
  offset : UInt64 := 0
  whence : UInt32 := 0
  padding : UInt32 := 0
deriving DecidableEq, Repr

instance : Wire FuseLseekIn :=
  Wire.iso (β := UInt64 × UInt64 × UInt32 × UInt32)
    (fun x => (x.fh, x.offset, x.whence, x.padding))
    (fun t => ⟨t.1, t.2.1, t.2.2.1, t.2.2.2⟩)
    (fun _ => rfl) (fun _ => rfl)

@[simp] theorem size_fuse_lseek_in : Wire.size FuseLseekIn = 24 := rfl
@[simp] theorem align_fuse_lseek_in : Wire.align FuseLseekIn = 8 := rfl
theorem reprC_fuse_lseek_in : NoPadding [lay UInt64, lay UInt64, lay UInt32, lay UInt32] := by decide

/-- `fuse_lseek_out`, fuse/kernel.rs:1597-1599. -/
structure FuseLseekOut where
  offset : UInt64 := 0
deriving DecidableEq, Repr

instance : Wire FuseLseekOut :=
  Wire.iso (β := UInt64)
    (fun x => x.offset)
    (fun t => ⟨t⟩)
    (fun _ => rfl) (fun _ => rfl)

@[simp] theorem size_fuse_lseek_out : Wire.size FuseLseekOut = 8 := rfl
@[simp] theorem align_fuse_lseek_out : Wire.align FuseLseekOut = 8 := rfl
theorem reprC_fuse_lseek_out : NoPadding [lay UInt64] := by decide

/-- `fuse_copy_file_range_in`, fuse/kernel.rs:1611-1619. -/
structure FuseCopyFileRangeIn where
  fh_in : UInt64 := 0
  off_in : UInt64 := 0
  nodeid_out : UInt64 := 0
  fh_out : UInt64 := 0
  off_out : UInt64 := 0
  len : UInt64 := 0
  flags : UInt64 := 0
deriving DecidableEq, Repr

instance : Wire FuseCopyFileRangeIn :=
  Wire.iso (β := UInt64 × UInt64 × UInt64 × UInt64 × UInt64 × UInt64 × UInt64)
    (fun x => (x.fh_in, x.off_in, x.nodeid_out, x.fh_out, x.off_out, x.len, x.flags))
    (fun t => ⟨t.1, t.2.1, t.2.2.1, t.2.2.2.1, t.2.2.2.2.1, t.2.2.2.2.2.1, t.2.2.2.2.2.2⟩)
    (fun _ => rfl) (fun _ => rfl)

@[simp] theorem size_fuse_copy_file_range_in : Wire.size FuseCopyFileRangeIn = 56 := rfl
@[simp] theorem align_fuse_copy_file_range_in : Wire.align FuseCopyFileRangeIn = 8 := rfl
theorem reprC_fuse_copy_file_range_in : NoPadding [lay UInt64, lay UInt64, lay UInt64, lay UInt64, lay UInt64, lay UInt64, lay UInt64] := by decide

/-- `fuse_setupmapping_in`, fuse/kernel.rs:1633-1644. -/
structure FuseSetupmappingIn where
  fh : UInt64 := 0
  foffset : UInt64 := 0
  len : UInt64 := 0
  flags : UInt64 := 0
  moffset : UInt64 := 0
deriving DecidableEq, Repr

instance : Wire FuseSetupmappingIn :=
  Wire.iso (β := UInt64 × UInt64 × UInt64 × UInt64 × UInt64)
    (fun x => (x.fh, x.foffset, x.len, x.flags, x.moffset))
    (fun t => ⟨t.1, t.2.1, t.2.2.1, t.2.2.2.1, t.2.2.2.2⟩)
    (fun _ => rfl) (fun _ => rfl)

@[simp] theorem size_fuse_setupmapping_in : Wire.size FuseSetupmappingIn = 40 := rfl
@[simp] theorem align_fuse_setupmapping_in : Wire.align FuseSetupmappingIn = 8 := rfl
theorem reprC_fuse_setupmapping_in : NoPadding [lay UInt64, lay UInt64, lay UInt64, lay UInt64, lay UInt64] := by decide

/-- `fuse_removemapping_in`, fuse/kernel.rs:1656-1659. -/
structure FuseRemovemappingIn where
  count : UInt32 := 0
deriving DecidableEq, Repr

instance : Wire FuseRemovemappingIn :=
  Wire.iso (β := UInt32)
    (fun x => x.count)
    (fun t => ⟨t⟩)
    (fun _ => rfl) (fun _ => rfl)

@[simp] theorem size_fuse_removemapping_in : Wire.size FuseRemovemappingIn = 4 := rfl
@[simp] theorem align_fuse_removemapping_in : Wire.align FuseRemovemappingIn = 4 := rfl
theorem reprC_fuse_removemapping_in : NoPadding [lay UInt32] := by decide

/-- `fuse_removemapping_one`, fuse/kernel.rs:1671-1676. -/
structure FuseRemovemappingOne where
  moffset : UInt64 := 0
  len : UInt64 := 0
deriving DecidableEq, Repr

instance : Wire FuseRemovemappingOne :=
  Wire.iso (β := UInt64 × UInt64)
    (fun x => (x.moffset, x.len))
    (fun t => ⟨t.1, t.2⟩)
    (fun _ => rfl) (fun _ => rfl)

@[simp] theorem size_fuse_removemapping_one : Wire.size FuseRemovemappingOne = 16 := rfl
@[simp] theorem align_fuse_removemapping_one : Wire.align FuseRemovemappingOne = 8 := rfl
theorem reprC_fuse_removemapping_one : NoPadding [lay UInt64, lay UInt64] := by decide

/-- `fuse_syncfs_in`, fuse/kernel.rs:1690-1692. -/
structure FuseSyncfsIn where
  padding : UInt64 := 0
deriving DecidableEq, Repr

instance : Wire FuseSyncfsIn :=
  Wire.iso (β := UInt64)
    (fun x => x.padding)
    (fun t => ⟨t⟩)
    (fun _ => rfl) (fun _ => rfl)

@[simp] theorem size_fuse_syncfs_in : Wire.size FuseSyncfsIn = 8 := rfl
@[simp] theorem align_fuse_syncfs_in : Wire.align FuseSyncfsIn = 8 := rfl
theorem reprC_fuse_syncfs_in : NoPadding [lay UInt64] := by decide

/-- `fuse_secctx`, fuse/kernel.rs:1710-1713. -/
structure FuseSecctx where
  size : UInt32 := 0
  padding : UInt32 := 0
deriving DecidableEq, Repr

instance : Wire FuseSecctx :=
  Wire.iso (β := UInt32 × UInt32)
    (fun x => (x.size, x.padding))
    (fun t => ⟨t.1, t.2⟩)
    (fun _ => rfl) (fun _ => rfl)

@[simp] theorem size_fuse_secctx : Wire.size FuseSecctx = 8 := rfl
@[simp] theorem align_fuse_secctx : Wire.align FuseSecctx = 4 := rfl
theorem reprC_fuse_secctx : NoPadding [lay UInt32, lay UInt32] := by decide

/-- `fuse_secctx_header`, fuse/kernel.rs:1731-1734. -/
structure FuseSecctxHeader where
  size : UInt32 := 0
  nr_secctx : UInt32 := 0
deriving DecidableEq, Repr

instance : Wire FuseSecctxHeader :=
  Wire.iso (β := UInt32 × UInt32)
    (fun x => (x.size, x.nr_secctx))
    (fun t => ⟨t.1, t.2⟩)
    (fun _ => rfl) (fun _ => rfl)

@[simp] theorem size_fuse_secctx_header : Wire.size FuseSecctxHeader = 8 := rfl
@[simp] theorem align_fuse_secctx_header : Wire.align FuseSecctxHeader = 4 := rfl
theorem reprC_fuse_secctx_header : NoPadding [lay UInt32, lay UInt32] := by decide

/-- `fuse_create_in_v7p1`, fuse/internal/compat.rs:35-38. -/
structure FuseCreateInV7p1 where
  flags : UInt32 := 0
  unused : UInt32 := 0
deriving DecidableEq, Repr

instance : Wire FuseCreateInV7p1 :=
  Wire.iso (β := UInt32 × UInt32)
    (fun x => (x.flags, x.unused))
    (fun t => ⟨t.1, t.2⟩)
    (fun _ => rfl) (fun _ => rfl)

@[simp] theorem size_fuse_create_in_v7p1 : Wire.size FuseCreateInV7p1 = 8 := rfl
@[simp] theorem align_fuse_create_in_v7p1 : Wire.align FuseCreateInV7p1 = 4 := rfl
theorem reprC_fuse_create_in_v7p1 : NoPadding [lay UInt32, lay UInt32] := by decide

/-- `fuse_mknod_in_v7p1`, fuse/internal/compat.rs:131-134. -/
structure FuseMknodInV7p1 where
  mode : UInt32 := 0
  rdev : UInt32 := 0
deriving DecidableEq, Repr

instance : Wire FuseMknodInV7p1 :=
  Wire.iso (β := UInt32 × UInt32)
    (fun x => (x.mode, x.rdev))
    (fun t => ⟨t.1, t.2⟩)
    (fun _ => rfl) (fun _ => rfl)

@[simp] theorem size_fuse_mknod_in_v7p1 : Wire.size FuseMknodInV7p1 = 8 := rfl
@[simp] theorem align_fuse_mknod_in_v7p1 : Wire.align FuseMknodInV7p1 = 4 := rfl
theorem reprC_fuse_mknod_in_v7p1 : NoPadding [lay UInt32, lay UInt32] := by decide

/-- `fuse_setxattr_in_v7p1`, fuse/internal/compat.rs:185-188. -/
structure FuseSetxattrInV7p1 where
  size : UInt32 := 0
  flags : UInt32 := 0
deriving DecidableEq, Repr

instance : Wire FuseSetxattrInV7p1 :=
  Wire.iso (β := UInt32 × UInt32)
    (fun x => (x.size, x.flags))
    (fun t => ⟨t.1, t.2⟩)
    (fun _ => rfl) (fun _ => rfl)

@[simp] theorem size_fuse_setxattr_in_v7p1 : Wire.size FuseSetxattrInV7p1 = 8 := rfl
@[simp] theorem align_fuse_setxattr_in_v7p1 : Wire.align FuseSetxattrInV7p1 = 4 := rfl
theorem reprC_fuse_setxattr_in_v7p1 : NoPadding [lay UInt32, lay UInt32] := by decide

/-- `fuse_read_in_v7p1`, fuse/internal/compat.rs:237-242. -/
structure FuseReadInV7p1 where
  fh : UInt64 := 0
  offset : UInt64 := 0
  size : UInt32 := 0
  padding : UInt32 := 0
deriving DecidableEq, Repr

instance : Wire FuseReadInV7p1 :=
  Wire.iso (β := UInt64 × UInt64 × UInt32 × UInt32)
    (fun x => (x.fh, x.offset, x.size, x.padding))
    (fun t => ⟨t.1, t.2.1, t.2.2.1, t.2.2.2⟩)
    (fun _ => rfl) (fun _ => rfl)

@[simp] theorem size_fuse_read_in_v7p1 : Wire.size FuseReadInV7p1 = 24 := rfl
@[simp] theorem align_fuse_read_in_v7p1 : Wire.align FuseReadInV7p1 = 8 := rfl
theorem reprC_fuse_read_in_v7p1 : NoPadding [lay UInt64, lay UInt64, lay UInt32, lay UInt32] := by decide

/-- `fuse_release_in_v7p1`, fuse/internal/compat.rs:293-297. -/
structure FuseReleaseInV7p1 where
  fh : UInt64 := 0
  flags : UInt32 := 0
  padding : UInt32 := 0
deriving DecidableEq, Repr

instance : Wire FuseReleaseInV7p1 :=
  Wire.iso (β := UInt64 × UInt32 × UInt32)
    (fun x => (x.fh, x.flags, x.padding))
    (fun t => ⟨t.1, t.2.1, t.2.2⟩)
    (fun _ => rfl) (fun _ => rfl)

@[simp] theorem size_fuse_release_in_v7p1 : Wire.size FuseReleaseInV7p1 = 16 := rfl
@[simp] theorem align_fuse_release_in_v7p1 : Wire.align FuseReleaseInV7p1 = 8 := rfl
theorem reprC_fuse_release_in_v7p1 : NoPadding [lay UInt64, lay UInt32, lay UInt32] := by decide

/-- `fuse_write_in_v7p1`, fuse/internal/compat.rs:342-347. -/
structure FuseWriteInV7p1 where
  fh : UInt64 := 0
  offset : UInt64 := 0
  size : UInt32 := 0
  write_flags : UInt32 := 0
deriving DecidableEq, Repr

instance : Wire FuseWriteInV7p1 :=
  Wire.iso (β := UInt64 × UInt64 × UInt32 × UInt32)
    (fun x => (x.fh, x.offset, x.size, x.write_flags))
    (fun t => ⟨t.1, t.2.1, t.2.2.1, t.2.2.2⟩)
    (fun _ => rfl) (fun _ => rfl)

@[simp] theorem size_fuse_write_in_v7p1 : Wire.size FuseWriteInV7p1 = 24 := rfl
@[simp] theorem align_fuse_write_in_v7p1 : Wire.align FuseWriteInV7p1 = 8 := rfl
theorem reprC_fuse_write_in_v7p1 : NoPadding [lay UInt64, lay UInt64, lay UInt32, lay UInt32] := by decide

end Fuse
