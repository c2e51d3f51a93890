import Verif.Kernel

/-!
# Flag sets

The macro `bitflags!` (fuse/internal/bitflags.rs) instantiated for a bit width `w`: the library
uses it at 32 and 64 bits.  A `Flag` is one mask, a `Flags` value an arbitrary bit pattern.
-/

namespace Fuse

/-- `$flag { mask }`, fuse/internal/bitflags.rs:26-37. -/
structure Flag (w : Nat) where
  mask : BitVec w
deriving DecidableEq, Repr

/-- `$flags { bits }`, fuse/internal/bitflags.rs:76-81. -/
structure Flags (w : Nat) where
  bits : BitVec w
deriving DecidableEq, Repr

namespace Flags

variable {w : Nat}

/-- `$flags::new`, fuse/internal/bitflags.rs:77-81. -/
def new : Flags w := ⟨0⟩

/-- `$flags::get`, fuse/internal/bitflags.rs:90-94. -/
def get (s : Flags w) (f : Flag w) : Bool := s.bits &&& f.mask == f.mask

/-- `$flags::set`, fuse/internal/bitflags.rs:96-99. -/
def set (s : Flags w) (f : Flag w) : Flags w := ⟨s.bits ||| f.mask⟩

/-- `$flags::set_to`, fuse/internal/bitflags.rs:101-108. -/
def setTo (s : Flags w) (f : Flag w) (on : Bool) : Flags w :=
  if on then ⟨s.bits ||| f.mask⟩ else ⟨s.bits &&& ~~~f.mask⟩

/-- `PartialEq<$flag> for $flags` and the symmetric instance,
fuse/internal/bitflags.rs:111-121. -/
def eqFlag (s : Flags w) (f : Flag w) : Bool := s.bits == f.mask

/-- `BitOr<$flag> for $flags`, `BitOr<$flags> for $flag` and `BitOrAssign<$flag>`,
fuse/internal/bitflags.rs:130-142,151-155. -/
def orFlag (s : Flags w) (f : Flag w) : Flags w := ⟨s.bits ||| f.mask⟩

/-- `BitOr<$flags> for $flags` and `BitOrAssign<$flags>`,
fuse/internal/bitflags.rs:144-149,157-161. -/
def or (s t : Flags w) : Flags w := ⟨s.bits ||| t.bits⟩

/-- `BitAnd<$flags> for $flags` and `BitAndAssign<$flags>`,
fuse/internal/bitflags.rs:163-174. -/
def and (s t : Flags w) : Flags w := ⟨s.bits &&& t.bits⟩

/-- The masks printed by `Debug for $flags`, in order, fuse/internal/bitflags.rs:59-73. -/
def debugMasks (s : Flags w) : List (BitVec w) :=
  ((List.range w).map fun off => (1#w) <<< off).filter fun mask => !(s.bits &&& mask == 0)

end Flags

/-- `BitOr<$flag> for $flag`, fuse/internal/bitflags.rs:123-128. -/
def Flag.or {w} (f g : Flag w) : Flags w := ⟨f.mask ||| g.mask⟩

/-- The flag types of the library with the masks of their named flags. -/
inductive FlagType
  /-- fuse/operations/open.rs:104-106 -/
  | openRequest
  /-- fuse/operations/open.rs:125-132 -/
  | openResponse
  /-- fuse/operations/fuse_init.rs:244-279 -/
  | fuseInit
  /-- fuse/operations/poll.rs:142-144 -/
  | pollRequest
  /-- fuse/operations/cuse_init.rs:205-207 -/
  | cuseInit
  /-- fuse/operations/ioctl.rs:580-586 -/
  | ioctlRequest
  /-- fuse/operations/create.rs:213-215 -/
  | createRequest
  /-- fuse/operations/create.rs:235-242 -/
  | createResponse
  /-- fuse/operations/copy_file_range.rs:120-121 -/
  | copyFileRangeRequest
  /-- fuse/operations/write.rs:211-215 -/
  | writeRequest
  /-- fuse/operations/fsync.rs:103-105 -/
  | fsyncRequest
  /-- fuse/operations/fsyncdir.rs:87-89 -/
  | fsyncdirRequest
  /-- fuse/operations/setlk.rs:100-102 -/
  | setlkRequest
  /-- fuse/operations/setxattr.rs:122-124 -/
  | setxattrRequest
  /-- fuse/operations/opendir.rs:88-90 -/
  | opendirRequest
  /-- fuse/operations/opendir.rs:109-116 -/
  | opendirResponse
  /-- fuse/node_attr.rs:324-327 -/
  | attribute
deriving DecidableEq, Repr

/-- The width given as `$bits` to the macro. -/
def FlagType.width : FlagType → Nat
  | .fuseInit => 64
  | .copyFileRangeRequest => 64
  | _ => 32

/-- The kernel constants given to the macro (zero-extended, `$item_value as _`), in source order;
citations at the constructors of `FlagType`. -/
def FlagType.masks : FlagType → List Nat
  | .openRequest => [FUSE_OPEN_KILL_SUIDGID.toNat]
  | .openResponse | .createResponse | .opendirResponse =>
    [FOPEN_DIRECT_IO.toNat, FOPEN_KEEP_CACHE.toNat, FOPEN_NONSEEKABLE.toNat,
      FOPEN_CACHE_DIR.toNat, FOPEN_STREAM.toNat, FOPEN_NOFLUSH.toNat]
  | .fuseInit =>
    [FUSE_ASYNC_READ.toNat, FUSE_POSIX_LOCKS.toNat, FUSE_FILE_OPS.toNat, FUSE_ATOMIC_O_TRUNC.toNat,
      FUSE_EXPORT_SUPPORT.toNat, FUSE_BIG_WRITES.toNat, FUSE_DONT_MASK.toNat,
      FUSE_SPLICE_WRITE.toNat, FUSE_SPLICE_MOVE.toNat, FUSE_SPLICE_READ.toNat,
      FUSE_FLOCK_LOCKS.toNat, FUSE_HAS_IOCTL_DIR.toNat, FUSE_AUTO_INVAL_DATA.toNat,
      FUSE_DO_READDIRPLUS.toNat, FUSE_READDIRPLUS_AUTO.toNat, FUSE_ASYNC_DIO.toNat,
      FUSE_WRITEBACK_CACHE.toNat, FUSE_NO_OPEN_SUPPORT.toNat, FUSE_PARALLEL_DIROPS.toNat,
      FUSE_HANDLE_KILLPRIV.toNat, FUSE_POSIX_ACL.toNat, FUSE_ABORT_ERROR.toNat,
      FUSE_MAX_PAGES.toNat, FUSE_CACHE_SYMLINKS.toNat, FUSE_NO_OPENDIR_SUPPORT.toNat,
      FUSE_EXPLICIT_INVAL_DATA.toNat, FUSE_MAP_ALIGNMENT.toNat, FUSE_SUBMOUNTS.toNat,
      FUSE_HANDLE_KILLPRIV_V2.toNat, FUSE_SETXATTR_EXT.toNat, FUSE_INIT_EXT.toNat,
      FUSE_INIT_RESERVED.toNat, FUSE_SECURITY_CTX.toNat, FUSE_HAS_INODE_DAX.toNat]
  | .pollRequest => [FUSE_POLL_SCHEDULE_NOTIFY.toNat]
  | .cuseInit => [CUSE_UNRESTRICTED_IOCTL.toNat]
  | .ioctlRequest =>
    [FUSE_IOCTL_COMPAT.toNat, FUSE_IOCTL_UNRESTRICTED.toNat, FUSE_IOCTL_32BIT.toNat,
      FUSE_IOCTL_DIR.toNat, FUSE_IOCTL_COMPAT_X32.toNat]
  | .createRequest => [FUSE_OPEN_KILL_SUIDGID.toNat]
  | .copyFileRangeRequest => []
  | .writeRequest =>
    [FUSE_WRITE_CACHE.toNat, FUSE_WRITE_LOCKOWNER.toNat, FUSE_WRITE_KILL_SUIDGID.toNat]
  | .fsyncRequest => [FUSE_FSYNC_FDATASYNC.toNat]
  | .fsyncdirRequest => [FUSE_FSYNC_FDATASYNC.toNat]
  | .setlkRequest => [FUSE_LK_FLOCK.toNat]
  | .setxattrRequest => [FUSE_SETXATTR_ACL_KILL_SGID.toNat]
  | .opendirRequest => [FUSE_OPEN_KILL_SUIDGID.toNat]
  | .attribute => [FUSE_ATTR_SUBMOUNT.toNat, FUSE_ATTR_DAX.toNat]

/-- The named flags of a flag type. -/
def FlagType.flags (t : FlagType) : List (Flag t.width) :=
  t.masks.map fun m => ⟨BitVec.ofNat t.width m⟩

end Fuse
