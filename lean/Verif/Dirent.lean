import Verif.Attr
import Verif.Handshake

/-!
# Directory listings (fuse/internal/dirent.rs, fuse/operations/readdir.rs, readdirplus.rs)

The two listings share their record format up to the size of the fixed part, and the code of the
two writers and iterators is the same text; the model is generic in the fixed part `T`.

Raw memory is modelled as follows.  A buffer has a numeric start address, because `write_unchecked`
stores the fixed part through an aligned pointer; storing to an address that is not a multiple of
the type's alignment is `Fault.misaligned`.  Accesses outside of a slice are `Fault.oob`.  Padding
bytes inside `T` do not exist for the two types used (`Wire` instances are packed).
-/

namespace Fuse
open Wire

/-- `trait Dirent`, fuse/internal/dirent.rs:23-25. -/
class Dirent (T : Type) extends Wire T where
  namelen : T → UInt32

/-- fuse/internal/dirent.rs:27-32. -/
instance : Dirent FuseDirent where
  namelen d := d.namelen

/-- fuse/internal/dirent.rs:34-39. -/
instance : Dirent FuseDirentplus where
  namelen d := d.dirent.namelen

/-- The `padding_len` of fuse/internal/dirent.rs:44 and 79. -/
def direntPadding (nameLen : Nat) : Nat := (8 - nameLen % 8) % 8

/-- `dirent::entry_size`, fuse/internal/dirent.rs:42-46. -/
def direntSize (T : Type) [Dirent T] (name : NodeName) : Nat :=
  Wire.size T + name.bytes.length + direntPadding name.bytes.length

/-- Storing `bs` at offset `off` of a slice. -/
def store (buf : Bytes) (off : Nat) (bs : Bytes) : Except Fault Bytes :=
  if off + bs.length ≤ buf.length then .ok (buf.take off ++ bs ++ buf.drop (off + bs.length))
  else .error .oob

/-- `dirent::read_unchecked`, fuse/internal/dirent.rs:49-66. -/
def direntRead (T : Type) [Dirent T] (buf : Bytes) : Except Fault (T × NodeName) :=
  if buf.length < Wire.size T then .error .oob
  else
    let dirent : T := dec (buf.take (Wire.size T))
    let nameLen := (Dirent.namelen dirent).toNat
    if buf.length < Wire.size T + nameLen then .error .oob
    else do
      let name ← NodeName.fromBytesUnchecked ((buf.drop (Wire.size T)).take nameLen)
      pure (dirent, name)

/-- `dirent::write_unchecked`, fuse/internal/dirent.rs:69-87; `addr` is the address of `buf`. -/
def direntWrite {T : Type} [Dirent T] (dirent : T) (name : NodeName) (addr : Nat) (buf : Bytes) :
    Except Fault Bytes :=
  if addr % Wire.align T ≠ 0 then .error .misaligned
  else do
    let paddingLen := direntPadding name.bytes.length
    let buf ← store buf 0 (enc dirent)
    let buf ← store buf (Wire.size T) name.bytes
    if paddingLen > 0 then
      store buf (Wire.size T + name.bytes.length) (List.replicate paddingLen 0)
    else pure buf

/-- `ReaddirEntry` (fuse/operations/readdir.rs:106-109) and `ReaddirplusEntry`
(fuse/operations/readdirplus.rs:105-108). -/
structure DirRecord (T : Type) where
  dirent : T
  name : NodeName
deriving DecidableEq

abbrev ReaddirEntry := DirRecord FuseDirent
abbrev ReaddirplusEntry := DirRecord FuseDirentplus

namespace ReaddirEntry

/-- `ReaddirEntry::new`, fuse/operations/readdir.rs:114-128. -/
def new (nodeId : NodeId) (name : NodeName) (offset : NonZeroU64) : ReaddirEntry :=
  ⟨{ ino := nodeId.val, off := offset.val, namelen := UInt32.ofNat name.bytes.length, type_ := 0 }, name⟩

/-- `ReaddirEntry::node_id`, fuse/operations/readdir.rs:132-134. -/
def nodeId (e : ReaddirEntry) : Except Fault NodeId := NodeId.newUnchecked e.dirent.ino

/-- `ReaddirEntry::offset`, fuse/operations/readdir.rs:144-146. -/
def offset (e : ReaddirEntry) : Except Fault NonZeroU64 := NonZeroU64.newUnchecked e.dirent.off

/-- `ReaddirEntry::file_type`, fuse/operations/readdir.rs:150-152. -/
def fileType (e : ReaddirEntry) : Option FileType := FileType.fromBits e.dirent.type_

/-- `ReaddirEntry::set_file_type`, fuse/operations/readdir.rs:155-157. -/
def setFileType (e : ReaddirEntry) (t : FileType) : ReaddirEntry :=
  { e with dirent := { e.dirent with type_ := t.asBits } }

end ReaddirEntry

namespace ReaddirplusEntry

/-- `ReaddirplusEntry::new`, fuse/operations/readdirplus.rs:113-133. -/
def new (name : NodeName) (offset : NonZeroU64) (entry : Entry) : Except Fault ReaddirplusEntry := do
  let nodeId ← entry.attributes.nodeId
  let mode := entry.attributes.mode
  pure ⟨{ dirent := { ino := nodeId.val, off := offset.val, type_ := mode.typeBits,
                      namelen := UInt32.ofNat name.bytes.length }
          entry_out := entry.raw }, name⟩

/-- `ReaddirplusEntry::offset`, fuse/operations/readdirplus.rs:143-145. -/
def offset (e : ReaddirplusEntry) : Except Fault NonZeroU64 :=
  NonZeroU64.newUnchecked e.dirent.dirent.off

/-- `ReaddirplusEntry::entry`, fuse/operations/readdirplus.rs:149-151. -/
def entry (e : ReaddirplusEntry) : Entry := ⟨e.dirent.entry_out⟩

end ReaddirplusEntry

/-- `ReaddirEntriesWriter` (fuse/operations/readdir.rs:213-216) and `ReaddirplusEntriesWriter`
(fuse/operations/readdirplus.rs:197-200).  `addr` is the address of `buf`. -/
structure DirWriter where
  addr : Nat
  buf : Bytes
  position : Nat
deriving DecidableEq

namespace DirWriter

/-- `new`, fuse/operations/readdir.rs:221-227 and fuse/operations/readdirplus.rs:205-211. -/
def new (addr : Nat) (buf : Bytes) : DirWriter :=
  let maxLen := 65535
  ⟨addr, if buf.length > maxLen then buf.take maxLen else buf, 0⟩

/-- `capacity`, fuse/operations/readdir.rs:231-233 and fuse/operations/readdirplus.rs:215-217. -/
def capacity (w : DirWriter) : Nat := w.buf.length

/-- `into_entries`, fuse/operations/readdir.rs:243-247 and fuse/operations/readdirplus.rs:227-231;
the listing is represented by its bytes (`as_bytes`). -/
def intoEntries (w : DirWriter) : Except Fault Bytes :=
  if w.position ≤ w.buf.length then .ok (w.buf.take w.position) else .error .oob

variable {T : Type} [Dirent T]

/-- `try_push`, fuse/operations/readdir.rs:255-273 and fuse/operations/readdirplus.rs:239-257.  The
result is `false` for the capacity error.  The subtraction panics on underflow. -/
def tryPush (w : DirWriter) (e : DirRecord T) : Except Fault (Bool × DirWriter) :=
  if w.capacity < w.position then .error .panic
  else
    let remaining := w.capacity - w.position
    let size := direntSize T e.name
    if size > remaining then .ok (false, w)
    else do
      let dst ← direntWrite e.dirent e.name (w.addr + w.position) ((w.buf.drop w.position).take size)
      pure (true, { w with buf := w.buf.take w.position ++ dst ++ w.buf.drop (w.position + size),
                           position := w.position + size })

/-- A caller pushing entries one after the other; the flags say which pushes succeeded. -/
def pushAll (w : DirWriter) : List (DirRecord T) → Except Fault (List Bool × DirWriter)
  | [] => .ok ([], w)
  | e :: es => do
    let (ok, w) ← w.tryPush e
    let (oks, w) ← w.pushAll es
    pure (ok :: oks, w)

end DirWriter

/-- `next` of the iterators, fuse/operations/readdir.rs:295-308 and
fuse/operations/readdirplus.rs:279-292: `none` at the end, otherwise the entry and the remaining
bytes. -/
def direntNext (T : Type) [Dirent T] (buf : Bytes) : Except Fault (Option (DirRecord T × Bytes)) :=
  if buf.isEmpty then .ok none
  else do
    let (dirent, name) ← direntRead T buf
    let size := direntSize T name
    if size > buf.length then .error .oob
    else pure (some (⟨dirent, name⟩, buf.drop size))

/-- One turn of a loop collecting the iterator's items. -/
def direntCollectStep (T : Type) [Dirent T] (s : Bytes × List (DirRecord T)) :
    Except Fault (List (DirRecord T)) ⊕ (Bytes × List (DirRecord T)) :=
  match direntNext T s.1 with
  | .error f => .inl (.error f)
  | .ok none => .inl (.ok s.2)
  | .ok (some (e, rest)) => .inr (rest, s.2 ++ [e])

/-- Collecting all entries of a listing, as the `Debug` output does
(fuse/operations/readdir.rs:188-194, fuse/operations/readdirplus.rs:181-187). -/
def DirentCollects (T : Type) [Dirent T] (buf : Bytes) (r : Except Fault (List (DirRecord T))) : Prop :=
  LoopReturns (direntCollectStep T) (buf, []) r

end Fuse
