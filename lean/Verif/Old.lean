import Verif.Rpc

/-!
# Older clients

What clients of older versions of the protocol, from 7.7 on, send and expect to receive.  What a version does not have is left
out of requests and read as 0 from replies.  The other side of this is fuse/internal/compat.rs:25-349 for requests and
fuse/kernel.rs:667,749 (`FUSE_COMPAT_ENTRY_OUT_SIZE`, `FUSE_COMPAT_ATTR_OUT_SIZE`) for replies.
-/

namespace Fuse

namespace Spec

/-- The request for an operation in version 7.`minor`.  MKNOD and CREATE have an umask from 7.12 on; GETATTR has a body, and
READ, READDIR and WRITE have open flags and a lock owner, from 7.9 on; RELEASE and RELEASEDIR have a lock owner from 7.8
on. -/
def Op.requestIn (minor : Nat) (ext : Bool) (op : Op) : UInt64 × ClientReq :=
  match op with
  | .create parent name openFlags _ mode _ =>
    if minor < 12 then (parent.val, .createOld ⟨openFlags, mode⟩ name) else op.request ext
  | .mknod parent name mode _ device =>
    if minor < 12 then (parent.val, .mknodOld ⟨mode, device.getD 0⟩ name) else op.request ext
  | .getattr node _ => if minor < 9 then (node.val, .getattrOld) else op.request ext
  | .read node fh offset size _ _ =>
    if minor < 9 then (node.val, .readOld ⟨fh, offset, size, 0⟩) else op.request ext
  | .readdir node fh offset size _ =>
    if minor < 9 then (node.val, .readdirOld ⟨fh, offset, size, 0⟩) else op.request ext
  | .write node fh offset data flags _ _ =>
    if minor < 9 then (node.val, .writeOld ⟨fh, offset, UInt32.ofNat data.length, flags⟩ data) else op.request ext
  | .release node fh openFlags _ =>
    if minor < 8 then (node.val, .releaseOld ⟨fh, openFlags, 0⟩) else op.request ext
  | .releasedir node fh openFlags _ =>
    if minor < 8 then (node.val, .releasedirOld ⟨fh, openFlags, 0⟩) else op.request ext
  | op => op.request ext

/-- A payload of version 7.`minor` with zeros for what only later versions have: the block size and the flags of a file,
from 7.9 on. -/
def Kind.widen (minor : Nat) (kind : Kind) (p : Bytes) : Option Bytes :=
  if 9 ≤ minor then some p
  else match kind with
    | .entry => if p.length = 120 then some (p ++ List.replicate 8 0) else none
    | .attr => if p.length = 96 then some (p ++ List.replicate 8 0) else none
    | .created => if p.length = 136 then some (p.take 120 ++ List.replicate 8 0 ++ p.drop 120) else none
    | _ => some p

/-- Making sense of what has been heard since the request; see `Kind.hear`. -/
def Kind.hearIn (minor : Nat) (kind : Kind) (unique : UInt64) (out : List Bytes) : Ans :=
  match kind, out with
  | .silent, [] => .silent
  | .silent, _ => .broken
  | k, [m] =>
    match parseReply unique m with
    | some (.error e) => if h : e ≠ 0 then .error ⟨e, h⟩ else .broken
    | some (.ok p) => ((k.widen minor p).bind k.read).getD .broken
    | none => .broken
  | _, _ => .broken

/-- Using a filesystem through messages of version 7.`minor`; see `Use.talk`. -/
def Use.talkIn {α : Type} (ids : Nat → UInt64) (minor : Nat) (ext : Bool) : Nat → Use α → Talk α
  | _, .done a => .done a
  | n, .call who op k =>
    .say ((op.requestIn minor ext).2.message (ids n) (op.requestIn minor ext).1 who.uid who.gid who.pid 0) fun out =>
      Use.talkIn ids minor ext (n + 1) (k (op.kind.hearIn minor (ids n) out))

end Spec

end Fuse
