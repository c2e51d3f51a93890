import Verif.Hostile
import Verif.Dev

/-!
# Clients of a character device that send anything

What `Hostile` is for filesystems, for character devices.
-/

namespace Fuse
open Spec

namespace Spec

/-- The operation a request stands for, from version 7.9 on. -/
def _root_.Fuse.ClientReq.devOperation : ClientReq → Option DevOp
  | .flush b => some (.flush b.fh b.lock_owner)
  | .fsync b => some (.fsync b.fh b.fsync_flags)
  | .interrupt b => (nodeFrom b.unique).map .interrupt
  | .ioctl b input => some (.ioctl b.fh b.cmd b.arg b.flags input b.out_size)
  | .open_ b => some (.open_ b.flags b.open_flags)
  | .poll b => some (.poll b.kh b.events b.flags)
  | .read b => some (.read b.fh b.offset b.size (selected b.read_flags 2 b.lock_owner) b.flags)
  | .release b => some (.release b.fh b.flags (selected b.release_flags 2 b.lock_owner))
  | .write b data => some (.write b.fh b.offset data b.write_flags (selected b.write_flags 2 b.lock_owner) b.flags)
  | _ => none

/-- The kind of request for an opcode. -/
def devTypeFor (layout : CuseLayout) : Nat → Option ReqType
  | 14 => some (.open_ true)
  | 15 => some (.read layout.versionMinor.toUInt32 true)
  | 16 => some (.write layout.versionMinor.toUInt32 true)
  | 18 => some (.release layout.versionMinor.toUInt32 true)
  | 20 => some (.fsync true)
  | 25 => some (.flush true)
  | 36 => some .interrupt
  | 39 => some (.ioctl true)
  | 40 => some .poll
  | _ => none

/-- What a message asks for: it must be the encoding of a request, perhaps followed by something else. -/
def devAsked (layout : CuseLayout) (m : Bytes) : Option (Caller × DevOp) := do
  let t ← devTypeFor layout (u32At m 4)
  let a := meaning t (u32At m 4) (argsOf m)
  if Encodes t a m then return (senderOf m, ← a.devOperation) else none

/-- The replies to a message that asks for nothing: ENOSYS if there is no such request, EIO otherwise; INTERRUPT is not
replied to. -/
def devRefusal (layout : CuseLayout) (m : Bytes) : List Bytes :=
  if u32At m 4 = 36 then []
  else [frame (.ofNat (u64At m 8)) (if (devTypeFor layout (u32At m 4)).isNone then -38 else -5) []]

/-- How a message is to be dealt with; see `Dealt`. -/
def DevDealt {S : Type} (act : Caller → DevOp → S → Ans × S) (layout : CuseLayout) (m : Bytes) (s : S) (out : List Bytes)
    (s' : S) : Prop :=
  match devAsked layout m with
  | some (who, op) =>
    s' = (act who op s).2 ∧ op.kind.hear (.ofNat (u64At m 8)) out = (act who op s).1 ∧
      ((op.kind = .silent ∧ out = []) ∨ ∃ r, out = [r] ∧ u64At r 8 = u64At m 8)
  | none => s' = s ∧ out = devRefusal layout m

/-- How a conversation is to go; see `Held`. -/
inductive DevHeld {S α : Type} (act : Caller → DevOp → S → Ans × S) (layout : CuseLayout) (n : Nat) :
    Talk α → S → Option α → S → Prop
  | done (a s) : DevHeld act layout n (.done a) s (some a) s
  | say {m k s out s' r s''} : m.length ≤ n → Acceptable m → DevDealt act layout m s out s' →
      DevHeld act layout n (k out) s' r s'' → DevHeld act layout n (.say m k) s r s''
  | stop {m k s} : ¬ (m.length ≤ n ∧ Acceptable m) → DevHeld act layout n (.say m k) s none s

end Spec

/-! ## A server that refuses what it cannot decode -/

section
variable {S ω ε : Type}

/-- `CuseReplySender::err`, fuse/server.rs:696-702. -/
def DevServer.refuse (srv : DevServer S) (sock : Socket (Option S × ω) ε) (e : FuseError) (r : Request) (w : Option S × ω) :
    Option S × ω :=
  match Filesystem.idAndHeader r with
  | .ok (id, _) =>
    match (CuseAnswer.err e).run (.new sock srv.layout id) w with
    | (.ok (), w) => w
    | (.error _, w) => (none, w.2)
  | .error _ => (none, w.2)

/-- Answering a request; see `RpcServer.guarded`. -/
def DevServer.guarded (srv : DevServer S) (sock : Socket (Option S × ω) ε) (quiet : Bool) (t : ReqType) (r : Request) (s : S)
    (w : ω) : Option S × ω :=
  match r.decode (decodeAny t) with
  | .error (.req _) => if quiet then (some s, w) else srv.refuse sock refusalMalformed r (some s, w)
  | _ => srv.answer sock t r s w

/-- An implementation of the trait `CuseHandlers`, fuse/server.rs:753-824, with all methods; `unimplemented` as at
examples/helloworld/helloworld.rs:63-65. -/
def DevServer.guards (srv : DevServer S) (sock : Socket (Option S × ω) ε) : Handlers CuseMethod (Option S × ω) where
  unimplemented r w :=
    match w.1 with
    | none => w
    | some _ => srv.refuse sock refusalUnknown r w
  overridden m := some fun r w =>
    match w.1 with
    | none => w
    | some s => srv.guarded sock (m = .interrupt) (m.reqType srv.layout) r s w.2

end

end Fuse
