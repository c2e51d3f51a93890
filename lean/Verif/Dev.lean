import Verif.Rpc

/-!
# Any character device

What `Rpc` is for filesystems, for character devices: an abstract device, programs that use it, and a server for it that is
made with the library's CUSE types.
-/

namespace Fuse

namespace Spec

/-- An operation on a character device. -/
inductive DevOp
  | flush (fh owner : UInt64)
  | fsync (fh : UInt64) (flags : UInt32)
  | interrupt (id : NonZeroU64)
  | ioctl (fh : UInt64) (cmd : UInt32) (arg : UInt64) (flags : UInt32) (input : Bytes) (outSize : UInt32)
  | open_ (openFlags flags : UInt32)
  | poll (handle : UInt64) (events flags : UInt32)
  | read (fh offset : UInt64) (size : UInt32) (owner : Option UInt64) (openFlags : UInt32)
  | release (fh : UInt64) (openFlags : UInt32) (owner : Option UInt64)
  | write (fh offset : UInt64) (data : Bytes) (flags : UInt32) (owner : Option UInt64) (openFlags : UInt32)
deriving DecidableEq

/-- The request for an operation. -/
def DevOp.request : DevOp → ClientReq
  | .flush fh owner => .flush ⟨fh, 0, 0, owner⟩
  | .fsync fh flags => .fsync ⟨fh, flags, 0⟩
  | .interrupt id => .interrupt ⟨id.val⟩
  | .ioctl fh cmd arg flags input outSize => .ioctl ⟨fh, flags, cmd, arg, UInt32.ofNat input.length, outSize⟩ input
  | .open_ openFlags flags => .open_ ⟨openFlags, flags⟩
  | .poll handle events flags => .poll ⟨0, handle, flags, events⟩
  | .read fh offset size owner openFlags => .read ⟨fh, offset, size, flagIf owner.isSome 2, owner.getD 0, openFlags, 0⟩
  | .release fh openFlags owner => .release ⟨fh, openFlags, flagIf owner.isSome 2, owner.getD 0⟩
  | .write fh offset data flags owner openFlags =>
    .write ⟨fh, offset, UInt32.ofNat data.length, flags, owner.getD 0, openFlags, 0⟩ data

/-- The kind of the reply. -/
def DevOp.kind : DevOp → Kind
  | .flush .. | .fsync .. | .release .. => .empty
  | .interrupt _ => .silent
  | .ioctl _ _ _ _ _ outSize => .ioctl outSize.toNat
  | .open_ .. => .opened
  | .poll .. => .polled
  | .read _ _ size _ _ => .data size.toNat
  | .write .. => .written

/-- How a program uses a device.  The request for an operation also carries a node ID, which says nothing, as there is only
one device; Linux sends 0. -/
inductive DevUse (α : Type)
  | done (a : α)
  | call (who : Caller) (node : UInt64) (op : DevOp) (k : Ans → DevUse α)

/-- Using it directly. -/
def DevUse.run {α S : Type} (act : Caller → DevOp → S → Ans × S) : DevUse α → S → α × S
  | .done a, s => (a, s)
  | .call who _ op k, s => (k (act who op s).1).run act (act who op s).2

/-- Using it through messages, of which `n` have been sent. -/
def DevUse.talk {α : Type} (ids : Nat → UInt64) : Nat → DevUse α → Talk α
  | _, .done a => .done a
  | n, .call who node op k =>
    .say (op.request.message (ids n) node who.uid who.gid who.pid 0) fun out =>
      DevUse.talk ids (n + 1) (k (op.kind.hear (ids n) out))

end Spec

open Spec

/-! ## The server -/

/-- What the server takes from a request, with the accessors of the request types, fuse/operations/*.rs; each accessor
carries its own citation. -/
def AnyRequest.devOp : AnyRequest → Except Fault (Option DevOp)
  | .flush r => return some (.flush r.handle r.lockOwner)
  | .fsync r => return some (.fsync r.handle r.flags)
  | .interrupt r => return some (.interrupt (← r.requestId))
  | .ioctl r => return some (.ioctl r.handle r.command r.arg r.flags r.input r.outputLen)
  | .open_ r => return some (.open_ r.openFlags r.flags)
  | .poll r => return some (.poll r.pollHandle r.pollEvents r.flags)
  | .read r => return some (.read (← r.handle) (← r.offset) (← r.size) (← r.lockOwner) (← r.openFlags))
  | .release r => return some (.release (← r.handle) (← r.openFlags) (← r.lockOwner))
  | .write r =>
    return some (.write (← r.handle) (← r.offset) (← r.value) (← r.flags) (← r.lockOwner) (← r.openFlags))
  | _ => return none

/-- Replying, with the methods of `CuseReplySender`, fuse/server.rs:681-706, and the types that implement `CuseReply`.
`fuse_poll_out` is not among them, fuse/kernel_traits.rs:54-55, so that the reply to POLL has to be put together by hand. -/
def Spec.Ans.deviceReply : Ans → Except Fault (Option CuseAnswer)
  | .error e => return some (.err e)
  | .done => return some .okEmpty
  | .data b => return some (.okBuf b)
  | .opened fh flags => return some (.ok (.open_ { fh := fh, open_flags := flags }))
  | .written n => return some (.ok (.write { size := n }))
  | .polled events => return some (.okBuf (le32 events ++ le32 0))
  | .ioctl result output => return some (.ok (.ioctl ((IoctlResponse.new output).setResult result)))
  | .silent => return none
  | _ => .error .panic

/-- The request type a handler method, fuse/server.rs:781-825, decodes its requests with. -/
def CuseMethod.reqType (layout : CuseLayout) : CuseMethod → ReqType
  | .flush => .flush true
  | .fsync => .fsync true
  | .interrupt => .interrupt
  | .ioctl => .ioctl true
  | .open_ => .open_ true
  | .poll => .poll
  | .read => .read layout.versionMinor.toUInt32 true
  | .release => .release layout.versionMinor.toUInt32 true
  | .write => .write layout.versionMinor.toUInt32 true

/-- A device, and what the server that serves it depends on. -/
structure DevServer (S : Type) where
  act : Caller → DevOp → S → Ans × S
  layout : CuseLayout

section
variable {S ω ε : Type}

/-- Answering a request, in the way of the methods at examples/helloworld/helloworld.rs:67-183.  The state is lost if
anything fails on the way. -/
def DevServer.answer (srv : DevServer S) (sock : Socket (Option S × ω) ε) (t : ReqType) (r : Request) (s : S) (w : ω) :
    Option S × ω :=
  match Filesystem.idAndHeader r, r.decode (decodeAny t) with
  | .ok (id, header), .ok q =>
    match q.devOp with
    | .ok (some op) =>
      let (a, s) := srv.act ⟨header.uid, header.gid, header.pid⟩ op s
      match a.deviceReply with
      | .ok (some a) =>
        match a.run (.new sock srv.layout id) (some s, w) with
        | (.ok (), w) => w
        | (.error _, w) => (none, w.2)
      | .ok none => (some s, w)
      | .error _ => (none, w)
    | _ => (none, w)
  | _, _ => (none, w)

/-- An implementation of the trait `CuseHandlers`, fuse/server.rs:754-825, with all methods. -/
def DevServer.handlers (srv : DevServer S) (sock : Socket (Option S × ω) ε) : Handlers CuseMethod (Option S × ω) where
  unimplemented _ w := (none, w.2)
  overridden m := some fun r w =>
    match w.1 with
    | none => w
    | some s => srv.answer sock (m.reqType srv.layout) r s w.2

end

end Fuse
