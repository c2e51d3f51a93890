import Verif.PropRpc
import Verif.PropLanguage

/-!
# Clients that send anything

The client here is any conversation: it may send any bytes at all, and may choose them by what it has heard.  First, what a
message asks for, read from its bytes; then a server that refuses what it cannot decode.

Simplifications: those of Rpc.lean.  A handler that panics, or that runs into undefined behaviour, loses the filesystem.
-/

namespace Fuse
open Spec

/-! ## What a message asks for -/

namespace Spec

/-- A node ID. -/
def nodeFrom (n : UInt64) : Option NodeId := if h : n ≠ 0 then some ⟨n, h⟩ else none

/-- The bytes a lock is about: from `start` to `end`, both included, to the end of the file if `end` is `2^63 - 1` or more;
if `end` is below `start`, those between them. -/
def spanFrom (l : FuseFileLock) : Option Span :=
  if l.end_ < l.start then (nodeFrom (l.start - (l.end_ + 1))).map fun n => ⟨l.end_ + 1, some n⟩
  else if 2 ^ 63 - 1 ≤ l.end_.toNat then some ⟨l.start, none⟩
  else (nodeFrom (l.end_ - l.start + 1)).map fun n => ⟨l.start, some n⟩

/-- The device, for modes of devices. -/
def deviceFrom (mode rdev : UInt32) : Option UInt32 :=
  if mode &&& 0xF000 = 0x2000 ∨ mode &&& 0xF000 = 0x6000 then some rdev else none

/-- The items of a request to forget: those about a node. -/
def itemsFrom (l : List FuseForgetOne) : List (NodeId × UInt64) :=
  l.filterMap fun i => (nodeFrom i.nodeid).map fun n => (n, i.nlookup)

/-- The operation a request with the given node in its header stands for, from version 7.12 on. -/
def _root_.Fuse.ClientReq.operation (node : UInt64) : ClientReq → Option Op
  | .access b => return .access (← nodeFrom node) b.mask
  | .bmap b => return .bmap (← nodeFrom node) b.block b.blocksize
  | .copyFileRange b =>
    return .copyFileRange (← nodeFrom node) b.fh_in b.off_in (← nodeFrom b.nodeid_out) b.fh_out b.off_out b.len b.flags
  | .create b name => return .create (← nodeFrom node) name b.flags b.open_flags b.mode b.umask
  | .fallocate b => return .fallocate (← nodeFrom node) b.fh b.offset b.length b.mode
  | .flush b => return .flush (← nodeFrom node) b.fh b.lock_owner
  | .forget b => return .forget (itemsFrom [⟨node, b.nlookup⟩])
  | .batchForget _ items => return .forget (itemsFrom items)
  | .fsync b => return .fsync (← nodeFrom node) b.fh b.fsync_flags
  | .fsyncdir b => return .fsyncdir (← nodeFrom node) b.fh b.fsync_flags
  | .getattr b => return .getattr (← nodeFrom node) (selected b.getattr_flags 1 b.fh)
  | .getlk b => return .getlk (← nodeFrom node) b.fh b.owner b.lk.type_ (← spanFrom b.lk)
  | .setlk b =>
    return .setlk (← nodeFrom node) b.fh b.owner b.lk_flags false b.lk.type_ (← spanFrom b.lk) b.lk.pid
  | .setlkw b =>
    return .setlk (← nodeFrom node) b.fh b.owner b.lk_flags true b.lk.type_ (← spanFrom b.lk) b.lk.pid
  | .getxattr b name => return .getxattr (← nodeFrom node) name b.size
  | .listxattr b => return .listxattr (← nodeFrom node) b.size
  | .removexattr name => return .removexattr (← nodeFrom node) name
  | .setxattrOld b name value => return .setxattr (← nodeFrom node) name value b.flags 0
  | .setxattr b name value => return .setxattr (← nodeFrom node) name value b.flags b.setxattr_flags
  | .interrupt b => return .interrupt (← nodeFrom b.unique)
  | .ioctl b input => return .ioctl (← nodeFrom node) b.fh b.cmd b.arg b.flags input b.out_size
  | .link b name => return .link (← nodeFrom b.oldnodeid) (← nodeFrom node) name
  | .lookup name => return .lookup (← nodeFrom node) name
  | .lseek b => return .lseek (← nodeFrom node) b.fh b.offset b.whence
  | .mkdir b name => return .mkdir (← nodeFrom node) name b.mode b.umask
  | .mknod b name => return .mknod (← nodeFrom node) name b.mode b.umask (deviceFrom b.mode b.rdev)
  | .open_ b => return .open_ (← nodeFrom node) b.flags b.open_flags
  | .opendir b => return .opendir (← nodeFrom node) b.flags b.open_flags
  | .poll b => return .poll (← nodeFrom node) b.kh b.events b.flags
  | .read b =>
    return .read (← nodeFrom node) b.fh b.offset b.size (selected b.read_flags 2 b.lock_owner) b.flags
  | .readdir b => return .readdir (← nodeFrom node) b.fh b.offset b.size b.flags
  | .readdirplus b => return .readdirplus (← nodeFrom node) b.fh b.offset b.size b.flags
  | .readlink => return .readlink (← nodeFrom node)
  | .release b => return .release (← nodeFrom node) b.fh b.flags (selected b.release_flags 2 b.lock_owner)
  | .releasedir b => return .releasedir (← nodeFrom node) b.fh b.flags (selected b.release_flags 2 b.lock_owner)
  | .rename b oldName newName => return .rename (← nodeFrom node) oldName (← nodeFrom b.newdir) newName 0
  | .rename2 b oldName newName => return .rename (← nodeFrom node) oldName (← nodeFrom b.newdir) newName b.flags
  | .rmdir name => return .rmdir (← nodeFrom node) name
  | .setattr b =>
    return .setattr (← nodeFrom node) {
      mode := selected b.valid 1 b.mode, uid := selected b.valid 2 b.uid, gid := selected b.valid 4 b.gid
      size := selected b.valid 8 b.size, atime := selected b.valid 16 (timespec b.atime b.atimensec)
      mtime := selected b.valid 32 (timespec b.mtime b.mtimensec)
      ctime := selected b.valid 1024 (timespec b.ctime b.ctimensec), atimeNow := decide (b.valid &&& 128 ≠ 0)
      mtimeNow := decide (b.valid &&& 256 ≠ 0), fh := selected b.valid 64 b.fh, owner := selected b.valid 512 b.lock_owner }
  | .statfs => return .statfs (← nodeFrom node)
  | .symlink content name => return .symlink (← nodeFrom node) name content
  | .unlink name => return .unlink (← nodeFrom node) name
  | .write b data =>
    return .write (← nodeFrom node) b.fh b.offset data b.write_flags (selected b.write_flags 2 b.lock_owner) b.flags
  | _ => none

/-- The kind of request for an opcode. -/
def typeFor (layout : FuseLayout) : Nat → Option ReqType
  | 1 => some .lookup
  | 2 | 42 => some (.forget true)
  | 3 => some (.getattr layout)
  | 4 => some .setattr
  | 5 => some .readlink
  | 6 => some .symlink
  | 8 => some (.mknod layout)
  | 9 => some .mkdir
  | 10 => some .unlink
  | 11 => some .rmdir
  | 12 | 45 => some .rename
  | 13 => some .link
  | 14 => some (.open_ false)
  | 15 => some (.read layout.minor false)
  | 16 => some (.write layout.minor false)
  | 17 => some .statfs
  | 18 => some (.release layout.minor false)
  | 20 => some (.fsync false)
  | 21 => some (.setxattr layout)
  | 22 => some .getxattr
  | 23 => some .listxattr
  | 24 => some .removexattr
  | 25 => some (.flush false)
  | 27 => some .opendir
  | 28 => some (.readdir layout)
  | 29 => some (.releasedir layout)
  | 30 => some .fsyncdir
  | 31 => some .getlk
  | 32 | 33 => some .setlk
  | 34 => some .access
  | 35 => some (.create layout)
  | 36 => some .interrupt
  | 37 => some .bmap
  | 39 => some (.ioctl false)
  | 40 => some .poll
  | 43 => some .fallocate
  | 44 => some (.readdirplus layout)
  | 46 => some .lseek
  | 47 => some .copyFileRange
  | _ => none

end Spec

instance decidableHasType (a : ClientReq) (t : ReqType) : Decidable (a.HasType t) := by
  unfold ClientReq.HasType
  split <;> infer_instance

instance decidableNameOk (s : Bytes) : Decidable (NameOk s) := inferInstanceAs (Decidable (_ ∧ _))

instance decidableNanosOk (v b n : UInt32) : Decidable (NanosOk v b n) := inferInstanceAs (Decidable (_ → _))

instance decidableLockOk (l : FuseFileLock) : Decidable (LockOk l) := inferInstanceAs (Decidable (_ ∨ _))

instance decidableWellFormed (a : ClientReq) (node : UInt64) (cuse : Bool) : Decidable (a.WellFormed node cuse) := by
  unfold ClientReq.WellFormed
  split <;> infer_instance

instance decidableShiftFree (a : ClientReq) : Decidable a.ShiftFree := by
  unfold ClientReq.ShiftFree
  split <;> infer_instance

instance decidableEncodes (t : ReqType) (a : ClientReq) (m : Bytes) : Decidable (Encodes t a m) :=
  inferInstanceAs (Decidable (_ ∧ _))

namespace Spec

/-- Who sends a message. -/
def senderOf (m : Bytes) : Caller := ⟨.ofNat (u32At m 24), .ofNat (u32At m 28), .ofNat (u32At m 32)⟩

/-- What a message asks for: it must be the encoding of a request, perhaps followed by something else, whose strings are not
empty. -/
def asked (layout : FuseLayout) (m : Bytes) : Option (Caller × Op) := do
  let t ← typeFor layout (u32At m 4)
  let a := meaning t (u32At m 4) (argsOf m)
  if Encodes t a m ∧ a.ShiftFree then return (senderOf m, ← a.operation (nodeOf m)) else none

/-- FORGET, INTERRUPT and BATCH_FORGET are not replied to. -/
def unanswered (opcode : Nat) : Bool := opcode == 2 || opcode == 36 || opcode == 42

/-- The replies to a message that asks for nothing: ENOSYS if there is no such request, EIO otherwise. -/
def refusal (layout : FuseLayout) (m : Bytes) : List Bytes :=
  if unanswered (u32At m 4) then []
  else [frame (.ofNat (u64At m 8)) (if (typeFor layout (u32At m 4)).isNone then -38 else -5) []]

/-- How a message is to be dealt with: what it asks for is done, once, and answered; if it asks for nothing, the filesystem is
left alone, and the message refused.  There is at most one reply, and it carries the number of the message. -/
def Dealt {S : Type} (act : Caller → Op → S → Ans × S) (layout : FuseLayout) (m : Bytes) (s : S) (out : List Bytes) (s' : S) :
    Prop :=
  match asked layout m with
  | some (who, op) =>
    s' = (act who op s).2 ∧ op.hear (.ofNat (u64At m 8)) out = (act who op s).1 ∧
      ((op.kind = .silent ∧ out = []) ∨ ∃ r, out = [r] ∧ u64At r 8 = u64At m 8)
  | none => s' = s ∧ out = refusal layout m

/-- How a conversation is to go, with messages of at most `n` bytes: messages are dealt with one after the other, until the
client has finished, or sends what is not even a message; nothing is done with that. -/
inductive Held {S α : Type} (act : Caller → Op → S → Ans × S) (layout : FuseLayout) (n : Nat) :
    Talk α → S → Option α → S → Prop
  | done (a s) : Held act layout n (.done a) s (some a) s
  | say {m k s out s' r s''} : m.length ≤ n → Acceptable m → Dealt act layout m s out s' →
      Held act layout n (k out) s' r s'' → Held act layout n (.say m k) s r s''
  | stop {m k s} : ¬ (m.length ≤ n ∧ Acceptable m) → Held act layout n (.say m k) s none s

/-- All the messages a client may send, whatever it hears. -/
def Talk.Only {α : Type} (P : Bytes → Prop) : Talk α → Prop
  | .done _ => True
  | .say m k => P m ∧ ∀ out, (k out).Only P

end Spec

/-! ## A server that refuses what it cannot decode -/

section
variable {S ω ε : Type}

/-- `OsError::UNIMPLEMENTED`, fuse/os/linux.rs:245, as an error of a reply. -/
def refusalUnknown : FuseError := ⟨-38, by decide⟩

/-- `EIO`, as an error of a reply. -/
def refusalMalformed : FuseError := ⟨-5, by decide⟩

/-- `FuseReplySender::err`, fuse/server.rs:744-749. -/
def RpcServer.refuse (srv : RpcServer S) (sock : Socket (Option S × ω) ε) (e : FuseError) (r : Request) (w : Option S × ω) :
    Option S × ω :=
  match Filesystem.idAndHeader r with
  | .ok (id, _) =>
    match (FuseAnswer.err e).run (.new sock srv.layout id) w with
    | (.ok (), w) => w
    | (.error _, w) => (none, w.2)
  | .error _ => (none, w.2)

/-- Answering a request, in the way of the methods at examples/helloworld/helloworld.rs:67-183, but for the result of
`try_from`: errors of type `RequestError` lead to a reply, or to nothing if the request is not to be replied to. -/
def RpcServer.guarded (srv : RpcServer S) (sock : Socket (Option S × ω) ε) (quiet : Bool) (t : ReqType) (r : Request) (s : S)
    (w : ω) : Option S × ω :=
  match r.decode (decodeAny t) with
  | .error (.req _) => if quiet then (some s, w) else srv.refuse sock refusalMalformed r (some s, w)
  | _ => srv.answer sock t r s w

/-- An implementation of the trait `FuseHandlers`, fuse/server.rs:827-1111, with all methods that there is a request type
for; `unimplemented` as at examples/helloworld/helloworld.rs:63-65. -/
def RpcServer.guards (srv : RpcServer S) (sock : Socket (Option S × ω) ε) : Handlers FuseMethod (Option S × ω) where
  unimplemented r w :=
    match w.1 with
    | none => w
    | some _ => srv.refuse sock refusalUnknown r w
  overridden m := (m.reqType srv.layout srv.checks).map fun t r w =>
    match w.1 with
    | none => w
    | some s => srv.guarded sock (m = .forget ∨ m = .batchForget ∨ m = .interrupt) t r s w.2

end

end Fuse
