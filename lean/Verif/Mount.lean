import Verif.Types
import Verif.Xattr

/-!
# Mount options on Linux (fuse/os/linux.rs)

`MountOptions` is modelled by its fields; the getters and setters (fuse/os/linux.rs:439-609) read and write
one field each.  `write!` is modelled by the pieces it writes.  Formatting of integers belongs to Rust's
library and is modelled by `showNat`.
-/

namespace Fuse

/-- The bytes of a text made of ASCII characters. -/
def ascii (s : List Char) : Bytes := s.map fun c => UInt8.ofNat c.toNat

/-- The digits of a number in a base up to ten, without leading zeros: what `{}` and `{:o}` write for a
`u32`. -/
def showNat (base n : Nat) : Bytes :=
  if h : n < base ∨ base < 2 then [UInt8.ofNat (48 + n)]
  else showNat base (n / base) ++ [UInt8.ofNat (48 + n % base)]
termination_by n
decreasing_by exact Nat.div_lt_self (by omega) (by omega)

/-- `MountSource`, fuse/os/linux.rs:262-264. -/
structure MountSource where
  cstr : CName

/-- `MountSource::new`, fuse/os/linux.rs:276-281. -/
def MountSource.new (s : CName) : Option MountSource :=
  if s.bytes.isEmpty then none else some ⟨s⟩

/-- `FuseSubtype`, fuse/os/linux.rs:354-356. -/
structure FuseSubtype where
  cstr : CName

/-- `FuseSubtype::new`, fuse/os/linux.rs:363-371. -/
def FuseSubtype.new (s : CName) : Option FuseSubtype :=
  if s.bytes.isEmpty then none
  else if s.bytes.contains 0x2C then none
  else some ⟨s⟩

/-- The mount source and type `fuse`, fuse/os/linux.rs:31-37. -/
def cstrFuse : CName := ⟨ascii ['f', 'u', 's', 'e'], by decide⟩

/-- The mount type `fuseblk`, fuse/os/linux.rs:39-41. -/
def cstrFuseblk : CName := ⟨ascii ['f', 'u', 's', 'e', 'b', 'l', 'k'], by decide⟩

/-- `MountType`, fuse/os/linux.rs:314-316. -/
structure MountType where
  cstr : CName

/-- `MountOptions`, fuse/os/linux.rs:404-417; the default values are those of `MountOptions::new`
(fuse/os/linux.rs:422-437). -/
structure MountOptions where
  mountSource : MountSource := ⟨cstrFuse⟩
  mountType : MountType := ⟨cstrFuse⟩
  allowOther : Bool := false
  blockSize : Option UInt32 := none
  defaultPermissions : Bool := false
  fuseDeviceFd : Option UInt32 := none
  subtype : Option FuseSubtype := none
  groupId : Option UInt32 := none
  maxRead : Option UInt32 := none
  rootMode : Option FileMode := none
  userId : Option UInt32 := none

/-- `BufWriter`, fuse/os/linux.rs:715-718. -/
structure BufWriter where
  buf : Bytes
  count : Nat
deriving DecidableEq

/-- Why writing stops: `fmt::Error`, or a fault. -/
inductive WriteFailure
  | fmt
  | fault (f : Fault)
deriving DecidableEq

/-- `BufWriter::write_bytes`, fuse/os/linux.rs:721-729, also `write_str` (733-735).  Slicing from beyond the
end panics. -/
def BufWriter.writeBytes (w : BufWriter) (b : Bytes) : Except WriteFailure BufWriter :=
  if w.buf.length < w.count then .error (.fault .panic)
  else
    let avail := w.buf.drop w.count
    if b.length > avail.length then .error .fmt
    else .ok ⟨w.buf.take w.count ++ (b ++ avail.drop b.length), w.count + b.length⟩

/-- The writer and the separator `sep` of `write_mount_data`. -/
abbrev MountState := BufWriter × Bytes

/-- `comma`, fuse/os/linux.rs:662. -/
def comma : Bytes := [0x2C]

/-- fuse/os/linux.rs:666-669. -/
def writeFd (o : MountOptions) (s : MountState) : Except WriteFailure MountState :=
  match o.fuseDeviceFd with
  | some fd => do
    let w ← s.1.writeBytes (ascii ['f', 'd', '='])
    let w ← w.writeBytes (showNat 10 fd.toNat)
    pure (w, comma)
  | none => pure s

/-- fuse/os/linux.rs:672-675. -/
def writeAllowOther (o : MountOptions) (s : MountState) : Except WriteFailure MountState :=
  if o.allowOther then do
    let w ← s.1.writeBytes s.2
    let w ← w.writeBytes (ascii ['a', 'l', 'l', 'o', 'w', '_', 'o', 't', 'h', 'e', 'r'])
    pure (w, comma)
  else pure s

/-- fuse/os/linux.rs:676-679. -/
def writeBlockSize (o : MountOptions) (s : MountState) : Except WriteFailure MountState :=
  match o.blockSize with
  | some n => do
    let w ← s.1.writeBytes s.2
    let w ← w.writeBytes (ascii ['b', 'l', 'k', 's', 'i', 'z', 'e', '='])
    let w ← w.writeBytes (showNat 10 n.toNat)
    pure (w, comma)
  | none => pure s

/-- fuse/os/linux.rs:680-683. -/
def writeDefaultPermissions (o : MountOptions) (s : MountState) : Except WriteFailure MountState :=
  if o.defaultPermissions then do
    let w ← s.1.writeBytes s.2
    let w ← w.writeBytes (ascii ['d', 'e', 'f', 'a', 'u', 'l', 't', '_', 'p', 'e', 'r', 'm', 'i', 's', 's',
      'i', 'o', 'n', 's'])
    pure (w, comma)
  else pure s

/-- fuse/os/linux.rs:684-687. -/
def writeGroupId (o : MountOptions) (s : MountState) : Except WriteFailure MountState :=
  match o.groupId with
  | some n => do
    let w ← s.1.writeBytes s.2
    let w ← w.writeBytes (ascii ['g', 'r', 'o', 'u', 'p', '_', 'i', 'd', '='])
    let w ← w.writeBytes (showNat 10 n.toNat)
    pure (w, comma)
  | none => pure s

/-- fuse/os/linux.rs:688-691. -/
def writeMaxRead (o : MountOptions) (s : MountState) : Except WriteFailure MountState :=
  match o.maxRead with
  | some n => do
    let w ← s.1.writeBytes s.2
    let w ← w.writeBytes (ascii ['m', 'a', 'x', '_', 'r', 'e', 'a', 'd', '='])
    let w ← w.writeBytes (showNat 10 n.toNat)
    pure (w, comma)
  | none => pure s

/-- fuse/os/linux.rs:692-695. -/
def writeRootMode (o : MountOptions) (s : MountState) : Except WriteFailure MountState :=
  match o.rootMode with
  | some m => do
    let w ← s.1.writeBytes s.2
    let w ← w.writeBytes (ascii ['r', 'o', 'o', 't', 'm', 'o', 'd', 'e', '='])
    let w ← w.writeBytes (showNat 8 m.bits.toNat)
    pure (w, comma)
  | none => pure s

/-- fuse/os/linux.rs:696-700. -/
def writeSubtype (o : MountOptions) (s : MountState) : Except WriteFailure MountState :=
  match o.subtype with
  | some t => do
    let w ← s.1.writeBytes s.2
    let w ← w.writeBytes (ascii ['s', 'u', 'b', 't', 'y', 'p', 'e', '='])
    let w ← w.writeBytes t.cstr.bytes
    pure (w, comma)
  | none => pure s

/-- fuse/os/linux.rs:701-703. -/
def writeUserId (o : MountOptions) (s : MountState) : Except WriteFailure MountState :=
  match o.userId with
  | some n => do
    let w ← s.1.writeBytes s.2
    let w ← w.writeBytes (ascii ['u', 's', 'e', 'r', '_', 'i', 'd', '='])
    let w ← w.writeBytes (showNat 10 n.toNat)
    pure (w, s.2)
  | none => pure s

/-- `write_mount_data`, fuse/os/linux.rs:661-709. -/
def writeMountData (w : BufWriter) (o : MountOptions) : Except WriteFailure BufWriter := do
  let s ← writeFd o (w, [])
  let s ← writeAllowOther o s
  let s ← writeBlockSize o s
  let s ← writeDefaultPermissions o s
  let s ← writeGroupId o s
  let s ← writeMaxRead o s
  let s ← writeRootMode o s
  let s ← writeSubtype o s
  let s ← writeUserId o s
  s.1.writeBytes [0]

/-- `mount_data`, fuse/os/linux.rs:646-659. -/
def mountData (o : MountOptions) (storage : Bytes) : Except Fault (Option Bytes) :=
  match writeMountData ⟨storage, 0⟩ o with
  | .error .fmt => .ok none
  | .error (.fault f) => .error f
  | .ok w => if w.count ≤ w.buf.length then .ok (some (w.buf.take w.count)) else .error .panic

end Fuse
