import Verif.Handshake

/-!
# Handler tables and the single-threaded serve loops

A handler may do anything to the outside world `σ` (which includes replying through the connection); it
is a function from the request and the world to the world.  Handlers that panic or do not return are not
modelled.
-/

namespace Fuse

variable {σ ε : Type}

/-- The methods of the trait `FuseHandlers` that handle one operation, fuse/server.rs:890-1111. -/
inductive FuseMethod
  | access
  | batchForget
  | bmap
  | copyFileRange
  | create
  | destroy
  | fallocate
  | flush
  | forget
  | fsync
  | fsyncdir
  | getattr
  | getlk
  | getxattr
  | interrupt
  | ioctl
  | link
  | listxattr
  | lookup
  | lseek
  | mkdir
  | mknod
  | open_
  | opendir
  | poll
  | read
  | readdir
  | readdirplus
  | readlink
  | release
  | releasedir
  | removexattr
  | rename
  | rename2
  | rmdir
  | setattr
  | setlk
  | setlkw
  | setxattr
  | statfs
  | symlink
  | syncfs
  | unlink
  | write
deriving DecidableEq, Repr

/-- The methods of the trait `CuseHandlers` that handle one operation, fuse/server.rs:781-823. -/
inductive CuseMethod
  | flush
  | fsync
  | interrupt
  | ioctl
  | open_
  | poll
  | read
  | release
  | write
deriving DecidableEq, Repr

/-- An implementation of a handler trait with methods `M`: the required method `unimplemented`, and the
methods it overrides. -/
structure Handlers (M σ : Type) where
  unimplemented : Request → σ → σ
  overridden : M → Option (Request → σ → σ)

/-- The default methods of `FuseHandlers`, fuse/server.rs:890-1111: `batch_forget`, `forget` and `interrupt`
ignore the request, all others call `unimplemented`. -/
def fuseDefault (h : Handlers FuseMethod σ) : FuseMethod → Request → σ → σ
  | .batchForget => fun _ s => s
  | .forget => fun _ s => s
  | .interrupt => fun _ s => s
  | .access => h.unimplemented
  | .bmap => h.unimplemented
  | .copyFileRange => h.unimplemented
  | .create => h.unimplemented
  | .destroy => h.unimplemented
  | .fallocate => h.unimplemented
  | .flush => h.unimplemented
  | .fsync => h.unimplemented
  | .fsyncdir => h.unimplemented
  | .getattr => h.unimplemented
  | .getlk => h.unimplemented
  | .getxattr => h.unimplemented
  | .ioctl => h.unimplemented
  | .link => h.unimplemented
  | .listxattr => h.unimplemented
  | .lookup => h.unimplemented
  | .lseek => h.unimplemented
  | .mkdir => h.unimplemented
  | .mknod => h.unimplemented
  | .open_ => h.unimplemented
  | .opendir => h.unimplemented
  | .poll => h.unimplemented
  | .read => h.unimplemented
  | .readdir => h.unimplemented
  | .readdirplus => h.unimplemented
  | .readlink => h.unimplemented
  | .release => h.unimplemented
  | .releasedir => h.unimplemented
  | .removexattr => h.unimplemented
  | .rename => h.unimplemented
  | .rename2 => h.unimplemented
  | .rmdir => h.unimplemented
  | .setattr => h.unimplemented
  | .setlk => h.unimplemented
  | .setlkw => h.unimplemented
  | .setxattr => h.unimplemented
  | .statfs => h.unimplemented
  | .symlink => h.unimplemented
  | .syncfs => h.unimplemented
  | .unlink => h.unimplemented
  | .write => h.unimplemented

/-- Calling a method of `FuseHandlers`. -/
def fuseCall (h : Handlers FuseMethod σ) (m : FuseMethod) : Request → σ → σ :=
  match h.overridden m with
  | some f => f
  | none => fuseDefault h m

/-- The method selected in `FuseHandlers::dispatch`, fuse/server.rs:832-887. -/
def fuseSelect (h : Handlers FuseMethod σ) (opcode : UInt32) : Request → σ → σ :=
  if opcode = FUSE_READ then fuseCall h .read
  else if opcode = FUSE_WRITE then fuseCall h .write
  else if opcode = FUSE_ACCESS then fuseCall h .access
  else if opcode = FUSE_BATCH_FORGET then fuseCall h .batchForget
  else if opcode = FUSE_BMAP then fuseCall h .bmap
  else if opcode = FUSE_COPY_FILE_RANGE then fuseCall h .copyFileRange
  else if opcode = FUSE_CREATE then fuseCall h .create
  else if opcode = FUSE_DESTROY then fuseCall h .destroy
  else if opcode = FUSE_FALLOCATE then fuseCall h .fallocate
  else if opcode = FUSE_FLUSH then fuseCall h .flush
  else if opcode = FUSE_FORGET then fuseCall h .forget
  else if opcode = FUSE_FSYNC then fuseCall h .fsync
  else if opcode = FUSE_FSYNCDIR then fuseCall h .fsyncdir
  else if opcode = FUSE_GETATTR then fuseCall h .getattr
  else if opcode = FUSE_GETLK then fuseCall h .getlk
  else if opcode = FUSE_GETXATTR then fuseCall h .getxattr
  else if opcode = FUSE_INTERRUPT then fuseCall h .interrupt
  else if opcode = FUSE_IOCTL then fuseCall h .ioctl
  else if opcode = FUSE_LINK then fuseCall h .link
  else if opcode = FUSE_LISTXATTR then fuseCall h .listxattr
  else if opcode = FUSE_LOOKUP then fuseCall h .lookup
  else if opcode = FUSE_LSEEK then fuseCall h .lseek
  else if opcode = FUSE_MKDIR then fuseCall h .mkdir
  else if opcode = FUSE_MKNOD then fuseCall h .mknod
  else if opcode = FUSE_OPEN then fuseCall h .open_
  else if opcode = FUSE_OPENDIR then fuseCall h .opendir
  else if opcode = FUSE_POLL then fuseCall h .poll
  else if opcode = FUSE_READDIR then fuseCall h .readdir
  else if opcode = FUSE_READDIRPLUS then fuseCall h .readdirplus
  else if opcode = FUSE_READLINK then fuseCall h .readlink
  else if opcode = FUSE_RELEASE then fuseCall h .release
  else if opcode = FUSE_RELEASEDIR then fuseCall h .releasedir
  else if opcode = FUSE_REMOVEXATTR then fuseCall h .removexattr
  else if opcode = FUSE_RENAME then fuseCall h .rename
  else if opcode = FUSE_RENAME2 then fuseCall h .rename2
  else if opcode = FUSE_RMDIR then fuseCall h .rmdir
  else if opcode = FUSE_SETATTR then fuseCall h .setattr
  else if opcode = FUSE_SETLK then fuseCall h .setlk
  else if opcode = FUSE_SETLKW then fuseCall h .setlkw
  else if opcode = FUSE_SETXATTR then fuseCall h .setxattr
  else if opcode = FUSE_STATFS then fuseCall h .statfs
  else if opcode = FUSE_SYMLINK then fuseCall h .symlink
  else if opcode = FUSE_SYNCFS then fuseCall h .syncfs
  else if opcode = FUSE_UNLINK then fuseCall h .unlink
  else h.unimplemented

/-- `FuseHandlers::dispatch`, fuse/server.rs:832-887. -/
def fuseDispatch (h : Handlers FuseMethod σ) (r : Request) (s : σ) : Except Fault σ := do
  let header ← r.rawHeader
  return fuseSelect h header.opcode r s

/-- The default methods of `CuseHandlers`, fuse/server.rs:781-823. -/
def cuseDefault (h : Handlers CuseMethod σ) : CuseMethod → Request → σ → σ
  | .interrupt => fun _ s => s
  | .flush => h.unimplemented
  | .fsync => h.unimplemented
  | .ioctl => h.unimplemented
  | .open_ => h.unimplemented
  | .poll => h.unimplemented
  | .read => h.unimplemented
  | .release => h.unimplemented
  | .write => h.unimplemented

/-- Calling a method of `CuseHandlers`. -/
def cuseCall (h : Handlers CuseMethod σ) (m : CuseMethod) : Request → σ → σ :=
  match h.overridden m with
  | some f => f
  | none => cuseDefault h m

/-- The method selected in `CuseHandlers::dispatch`, fuse/server.rs:758-778. -/
def cuseSelect (h : Handlers CuseMethod σ) (opcode : UInt32) : Request → σ → σ :=
  if opcode = FUSE_READ then cuseCall h .read
  else if opcode = FUSE_WRITE then cuseCall h .write
  else if opcode = FUSE_FLUSH then cuseCall h .flush
  else if opcode = FUSE_FSYNC then cuseCall h .fsync
  else if opcode = FUSE_INTERRUPT then cuseCall h .interrupt
  else if opcode = FUSE_IOCTL then cuseCall h .ioctl
  else if opcode = FUSE_OPEN then cuseCall h .open_
  else if opcode = FUSE_POLL then cuseCall h .poll
  else if opcode = FUSE_RELEASE then cuseCall h .release
  else h.unimplemented

/-- `CuseHandlers::dispatch`, fuse/server.rs:758-778. -/
def cuseDispatch (h : Handlers CuseMethod σ) (r : Request) (s : σ) : Except Fault σ := do
  let header ← r.rawHeader
  return cuseSelect h header.opcode r s

/-! ## Receiving and serving -/

/-- `FuseConnection::recv`, fuse/server.rs:1318-1330; yields the buffer's contents as well. -/
def fuseRecv (sock : Socket σ ε) (buf : Bytes) (s : σ) :
    (Except (ServerError ε) (Option Request) × Bytes) × σ :=
  match sock.recv buf s with
  | ((.error (.connectionClosed _), buf), s) => ((.ok none, buf), s)
  | ((.error e, buf), s) => ((.error (.recv e), buf), s)
  | ((.ok recvLen, buf), s) =>
    match Request.new (truncateSlice buf recvLen) with
    | .error e => ((.error (.request e), buf), s)
    | .ok r => ((.ok (some r), buf), s)

/-- `CuseConnection::recv`, fuse/server.rs:1179-1187. -/
def cuseRecv (sock : Socket σ ε) (buf : Bytes) (s : σ) :
    (Except (ServerError ε) Request × Bytes) × σ :=
  match sock.recv buf s with
  | ((.error e, buf), s) => ((.error (.recv e), buf), s)
  | ((.ok recvLen, buf), s) =>
    match Request.new (truncateSlice buf recvLen) with
    | .error e => ((.error (.request e), buf), s)
    | .ok r => ((.ok r, buf), s)

/-- One iteration of the loop in `fuse_serve_local`, fuse/server.rs:1614-1623. -/
def fuseServeStep (sock : Socket σ ε) (h : Handlers FuseMethod σ) (st : Bytes × σ) :
    (Outcome ε Unit × σ) ⊕ (Bytes × σ) :=
  match fuseRecv sock st.1 st.2 with
  | ((.error e, _), s) => .inl (.err e, s)
  | ((.ok none, _), s) => .inl (.ok (), s)
  | ((.ok (some r), buf), s) =>
    match fuseDispatch h r s with
    | .error f => .inl (.fault f, s)
    | .ok s => .inr (buf, s)

/-- One iteration of the loop in `cuse_serve_local`, fuse/server.rs:1599-1608. -/
def cuseServeStep (sock : Socket σ ε) (h : Handlers CuseMethod σ) (st : Bytes × σ) :
    (Outcome ε Unit × σ) ⊕ (Bytes × σ) :=
  match cuseRecv sock st.1 st.2 with
  | ((.error e, _), s) => .inl (.err e, s)
  | ((.ok r, buf), s) =>
    match cuseDispatch h r s with
    | .error f => .inl (.fault f, s)
    | .ok s => .inr (buf, s)

/-- `fuse_serve_local` with receive buffer `buf`, fuse/server.rs:1614-1623, ends with `out`. -/
def FuseServes (sock : Socket σ ε) (h : Handlers FuseMethod σ) (buf : Bytes) (s : σ)
    (out : Outcome ε Unit × σ) : Prop := LoopReturns (fuseServeStep sock h) (buf, s) out

/-- `cuse_serve_local` with receive buffer `buf`, fuse/server.rs:1599-1608, ends with `out`. -/
def CuseServes (sock : Socket σ ε) (h : Handlers CuseMethod σ) (buf : Bytes) (s : σ)
    (out : Outcome ε Unit × σ) : Prop := LoopReturns (cuseServeStep sock h) (buf, s) out

end Fuse
