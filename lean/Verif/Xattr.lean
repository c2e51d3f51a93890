import Verif.Types
import Verif.Handshake

/-!
# Extended attribute name lists (fuse/operations/listxattr.rs)

The bytes of a `CStr` are kept without the terminating NUL; a value of type `CName` is what the Rust
type `&CStr` guarantees, that there is no NUL inside.
-/

namespace Fuse

/-- A `&CStr` given by a caller. -/
structure CName where
  bytes : Bytes
  noNul : 0 ∉ bytes

/-- `CStr::to_bytes_with_nul`. -/
def CName.toBytesWithNul (n : CName) : Bytes := n.bytes ++ [0]

/-- The platforms distinguished in fuse/os.rs. -/
inductive Os
  | linux
  | freebsd
  | other
deriving DecidableEq

/-- `XATTR_LIST_MAX`, fuse/os.rs:75-81. -/
def Os.xattrListMax : Os → Option Nat
  | .linux => some 65536
  | _ => none

/-- `ListxattrNamesWriter`, fuse/operations/listxattr.rs:140-143. -/
structure NamesWriter where
  buf : Bytes
  position : Nat
deriving DecidableEq

namespace NamesWriter

/-- `ListxattrNamesWriter::new`, fuse/operations/listxattr.rs:148-155. -/
def new (os : Os) (buf : Bytes) : NamesWriter :=
  match os.xattrListMax with
  | some maxSize => ⟨if buf.length > maxSize then buf.take maxSize else buf, 0⟩
  | none => ⟨buf, 0⟩

/-- `ListxattrNamesWriter::capacity`, fuse/operations/listxattr.rs:159-161. -/
def capacity (w : NamesWriter) : Nat := w.buf.length

/-- `ListxattrNamesWriter::into_names`, fuse/operations/listxattr.rs:171-175; the names are
represented by their bytes (`as_bytes`). -/
def intoNames (w : NamesWriter) : Except Fault Bytes :=
  if w.position ≤ w.buf.length then .ok (w.buf.take w.position) else .error .oob

/-- `ListxattrNamesWriter::try_push`, fuse/operations/listxattr.rs:177-199; `false` is the capacity
error.  The subtraction panics on underflow. -/
def tryPush (w : NamesWriter) (name : CName) : Except Fault (Bool × NamesWriter) :=
  let name := name.toBytesWithNul
  if w.buf.length < w.position then .error .panic
  else
    let remaining := w.buf.length - w.position
    if name.length > remaining then .ok (false, w)
    else
      .ok (true, ⟨w.buf.take w.position ++ name ++ w.buf.drop (w.position + name.length),
        w.position + name.length⟩)

/-- A caller pushing names one after the other; the flags say which pushes succeeded. -/
def pushAll (w : NamesWriter) : List CName → Except Fault (List Bool × NamesWriter)
  | [] => .ok ([], w)
  | n :: ns => do
    let (ok, w) ← w.tryPush n
    let (oks, w) ← w.pushAll ns
    pure (ok :: oks, w)

end NamesWriter

/-- The position of the first NUL, the loop of fuse/operations/listxattr.rs:117-125. -/
def firstNul (bs : Bytes) : Option Nat := bs.findIdx? (· = 0)

/-- `XattrNamesIter::next`, fuse/operations/listxattr.rs:113-129. -/
def xattrNext (bs : Bytes) : Except Fault (Option (CStr × Bytes)) :=
  if bs.isEmpty then .ok none
  else match firstNul bs with
    | some i => do
      let name ← CStr.fromBytesWithNulUnchecked (bs.take (i + 1))
      pure (some (name, bs.drop (i + 1)))
    | none => do
      let name ← CStr.fromBytesWithNulUnchecked bs
      pure (some (name, []))

/-- One turn of a loop collecting the names. -/
def xattrCollectStep (s : Bytes × List CStr) : Except Fault (List CStr) ⊕ (Bytes × List CStr) :=
  match xattrNext s.1 with
  | .error f => .inl (.error f)
  | .ok none => .inl (.ok s.2)
  | .ok (some (n, rest)) => .inr (rest, s.2 ++ [n])

/-- Collecting all names, as the `Debug` output does (fuse/operations/listxattr.rs:87-93). -/
def XattrCollects (bs : Bytes) (r : Except Fault (List CStr)) : Prop :=
  LoopReturns xattrCollectStep (bs, []) r

end Fuse
