import Verif.Flags
import Verif.Types
import Verif.Mount

/-!
# Text written by `Debug` implementations (fuse/internal/debug.rs, fuse/internal/bitflags.rs)

The text is a list of bytes; everything written here is ASCII.  This is the compact form `{:?}`; for the
indented form `{:#?}` of whole requests see `DebugPretty`.  What `write!` does with a format string is part of Rust's standard library; the uses in the
library are modelled case by case.
-/

namespace Fuse

/-- The bytes of a text made of ASCII characters. -/
def text (s : String) : Bytes := ascii s.toList

/-- A digit below 16 in the style of `{:X}`. -/
def upperHex (d : Nat) : UInt8 := UInt8.ofNat (if d < 10 then 48 + d else 55 + d)

/-- A digit below 16 in the style of `{:x}`. -/
def lowerHex (d : Nat) : UInt8 := UInt8.ofNat (if d < 10 then 48 + d else 87 + d)

/-- The last `k` hexadecimal digits of `n`, most significant first. -/
def hexDigits : Nat → Nat → Bytes
  | 0, _ => []
  | k + 1, n => hexDigits k (n / 16) ++ [upperHex (n % 16)]

/-- `hex_u32`, fuse/internal/debug.rs:20-34: `{:#010X}` writes `0x` and all eight digits of a `u32`. -/
def hexU32 (n : UInt32) : Bytes := text "0x" ++ hexDigits 8 n.toNat

/-- `hex_u64`, fuse/internal/debug.rs:36-50: `{:#018X}`. -/
def hexU64 (n : UInt64) : Bytes := text "0x" ++ hexDigits 16 n.toNat

/-- `core::ascii::escape_default`, used in fuse/internal/debug.rs:64. -/
def escapeDefault (b : UInt8) : Bytes :=
  if b = 0x09 then [0x5C, 0x74]
  else if b = 0x0D then [0x5C, 0x72]
  else if b = 0x0A then [0x5C, 0x6E]
  else if b = 0x27 then [0x5C, 0x27]
  else if b = 0x22 then [0x5C, 0x22]
  else if b = 0x5C then [0x5C, 0x5C]
  else if 0x20 ≤ b ∧ b ≤ 0x7E then [b]
  else [0x5C, 0x78, lowerHex (b.toNat / 16), lowerHex (b.toNat % 16)]

/-- `bytes`, fuse/internal/debug.rs:52-69.  Also `Debug` for `NodeName` (fuse/node_name.rs:123-127) and for
`DeviceName` (fuse/cuse.rs:118-122). -/
def debugBytes (v : Bytes) : Bytes := [0x22] ++ v.flatMap escapeDefault ++ [0x22]

/-- Zeros in front of a text up to a length. -/
def zeroPad (width : Nat) (s : Bytes) : Bytes := List.replicate (width - s.length) 48 ++ s

/-- `{:?}` of an `i64`. -/
def showInt64 (n : Int64) : Bytes :=
  if n < 0 then 45 :: showNat 10 n.toInt.natAbs else showNat 10 n.toInt.natAbs

/-- `Debug for UnixTime`, fuse/unix_time.rs:104-110. -/
def UnixTime.debug (t : UnixTime) : Bytes :=
  text "UnixTime(" ++ showInt64 t.seconds ++ text "." ++ zeroPad 9 (showNat 10 t.nanos.toNat) ++ text ")"

/-- `Debug for FileMode`, fuse/file_mode.rs:90-94. -/
def FileMode.debug (m : FileMode) : Bytes := text "0o" ++ showNat 8 m.bits.toNat

/-! ## Flag sets -/

/-- `stringify!($flags)`, fuse/internal/bitflags.rs:61; the names are in the lines cited at `FlagType`. -/
def FlagType.typeName : FlagType → String
  | .openRequest => "OpenRequestFlags"
  | .openResponse => "OpenResponseFlags"
  | .fuseInit => "FuseInitFlags"
  | .pollRequest => "PollRequestFlags"
  | .cuseInit => "CuseInitFlags"
  | .ioctlRequest => "IoctlRequestFlags"
  | .createRequest => "CreateRequestFlags"
  | .createResponse => "CreateResponseFlags"
  | .copyFileRangeRequest => "CopyFileRangeRequestFlags"
  | .writeRequest => "WriteRequestFlags"
  | .fsyncRequest => "FsyncRequestFlags"
  | .fsyncdirRequest => "FsyncdirRequestFlags"
  | .setlkRequest => "SetlkRequestFlags"
  | .setxattrRequest => "SetxattrRequestFlags"
  | .opendirRequest => "OpendirRequestFlags"
  | .opendirResponse => "OpendirResponseFlags"
  | .attribute => "AttributeFlags"

/-- `stringify!($item_name)` of the named flags, fuse/internal/bitflags.rs:39-47, in the order of
`FlagType.masks`; the names are in the lines cited at `FlagType`. -/
def FlagType.names : FlagType → List String
  | .openRequest =>
    ["KILL_SUIDGID"]
  | .openResponse =>
    ["DIRECT_IO", "KEEP_CACHE", "NONSEEKABLE", "CACHE_DIR", "STREAM", "NOFLUSH"]
  | .fuseInit =>
    ["ASYNC_READ", "POSIX_LOCKS", "FILE_OPS", "ATOMIC_O_TRUNC", "EXPORT_SUPPORT", "BIG_WRITES", "DONT_MASK",
      "SPLICE_WRITE", "SPLICE_MOVE", "SPLICE_READ", "FLOCK_LOCKS", "HAS_IOCTL_DIR", "AUTO_INVAL_DATA",
      "DO_READDIRPLUS", "READDIRPLUS_AUTO", "ASYNC_DIO", "WRITEBACK_CACHE", "NO_OPEN_SUPPORT",
      "PARALLEL_DIROPS", "HANDLE_KILLPRIV", "POSIX_ACL", "ABORT_ERROR", "MAX_PAGES", "CACHE_SYMLINKS",
      "NO_OPENDIR_SUPPORT", "EXPLICIT_INVAL_DATA", "MAP_ALIGNMENT", "SUBMOUNTS", "HANDLE_KILLPRIV_V2",
      "SETXATTR_EXT", "INIT_EXT", "INIT_RESERVED", "SECURITY_CTX", "HAS_INODE_DAX"]
  | .pollRequest =>
    ["SCHEDULE_NOTIFY"]
  | .cuseInit =>
    ["UNRESTRICTED_IOCTL"]
  | .ioctlRequest =>
    ["IOCTL_COMPAT", "IOCTL_UNRESTRICTED", "IOCTL_32BIT", "IOCTL_DIR", "IOCTL_COMPAT_X32"]
  | .createRequest =>
    ["KILL_SUIDGID"]
  | .createResponse =>
    ["DIRECT_IO", "KEEP_CACHE", "NONSEEKABLE", "CACHE_DIR", "STREAM", "NOFLUSH"]
  | .copyFileRangeRequest =>
    []
  | .writeRequest =>
    ["WRITE_CACHE", "WRITE_LOCKOWNER", "WRITE_KILL_SUIDGID"]
  | .fsyncRequest =>
    ["FDATASYNC"]
  | .fsyncdirRequest =>
    ["FDATASYNC"]
  | .setlkRequest =>
    ["LK_FLOCK"]
  | .setxattrRequest =>
    ["ACL_KILL_SGID"]
  | .opendirRequest =>
    ["KILL_SUIDGID"]
  | .opendirResponse =>
    ["DIRECT_IO", "KEEP_CACHE", "NONSEEKABLE", "CACHE_DIR", "STREAM", "NOFLUSH"]
  | .attribute =>
    ["FUSE_ATTR_SUBMOUNT", "FUSE_ATTR_DAX"]

/-- `$flag::flag_name`, fuse/internal/bitflags.rs:39-47: the first arm that matches. -/
def FlagType.flagName (t : FlagType) (mask : BitVec t.width) : Option Bytes :=
  ((t.masks.zip t.names).find? fun p => BitVec.ofNat t.width p.1 == mask).map fun p => text p.2

/-- `Debug for $flag`, fuse/internal/bitflags.rs:50-57, with the format of
fuse/internal/bitflags.rs:183-186. -/
def FlagType.debugFlag (t : FlagType) (mask : BitVec t.width) : Bytes :=
  match t.flagName mask with
  | some name => name
  | none => text "0x" ++ hexDigits (t.width / 4) mask.toNat

/-- What `DebugSet` writes for its entries: `, ` between two. -/
def commaSeparated : List Bytes → Bytes
  | [] => []
  | [e] => e
  | e :: es => e ++ text ", " ++ commaSeparated es

/-- `Debug for $flags`, fuse/internal/bitflags.rs:59-73. -/
def FlagType.debug (t : FlagType) (s : Flags t.width) : Bytes :=
  text t.typeName ++ text " " ++ (text "{" ++ commaSeparated (s.debugMasks.map t.debugFlag) ++ text "}")

end Fuse
