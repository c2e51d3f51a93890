import Verif.Dispatch

/-!
# The multi-threaded server of `fuse-std`

`serve_fuse` and `serve_cuse` run the single-threaded loop in several threads that share the connection, the
handlers and a bounded error channel.  A thread's execution is cut into atomic steps: receiving, running a
handler, and reporting an error.  Any interleaving of the threads' steps is possible.  The receiving end of the
channel stays with the caller of `std::thread::scope`, which waits for all threads; so nothing leaves the
channel, and no send fails, while threads run.  Not modelled: the failure of memory allocation or of thread
creation, panics of handlers, and what a handler does between its start and its end.
-/

namespace Fuse

variable {σ ε : Type}

/-- `server_threads`, fuse-std/fuse-std.rs:76-91; the argument is what `available_parallelism` returns,
`none` for an error; it is never zero. -/
def serverThreads (available : Option Nat) : Nat := min (available.getD 1) 16

/-- `is_fatal_error`, fuse-std/fuse-std.rs:205-210. -/
def isFatalError : ServerError ε → Bool
  | .request _ => false
  | _ => true

/-- What `serve_fuse` and `serve_cuse` use of a connection and its handlers. -/
structure Service (σ ε : Type) where
  recv : Bytes → σ → (Except (ServerError ε) (Option Request) × Bytes) × σ
  dispatch : Request → σ → Except Fault σ

/-- Receiving and dispatching in `fuse_serve_local`, fuse/server.rs:1614-1623. -/
def fuseService (sock : Socket σ ε) (h : Handlers FuseMethod σ) : Service σ ε where
  recv := fuseRecv sock
  dispatch := fuseDispatch h

/-- Receiving and dispatching in `cuse_serve_local`, fuse/server.rs:1599-1608. -/
def cuseService (sock : Socket σ ε) (h : Handlers CuseMethod σ) : Service σ ε where
  recv buf s :=
    match cuseRecv sock buf s with
    | ((.error e, buf), s) => ((.error e, buf), s)
    | ((.ok r, buf), s) => ((.ok (some r), buf), s)
  dispatch := cuseDispatch h

/-- Where a worker thread is in its loop, fuse-std/fuse-std.rs:135-143 around fuse/server.rs:1614-1623. -/
inductive Worker (ε : Type)
  /-- About to receive into its buffer. -/
  | receiving (buf : Bytes)
  /-- About to dispatch a request. -/
  | handling (buf : Bytes) (r : Request)
  /-- About to send an error to the channel, fuse-std/fuse-std.rs:138. -/
  | reporting (buf : Bytes) (e : ServerError ε)
  /-- Ended, by `return` or by leaving the loop. -/
  | finished
  | faulted (f : Fault)

/-- What can be observed of a step. -/
inductive Event (ε : Type)
  /-- A request was received. -/
  | request (r : Request)
  /-- Receiving reported that the connection is closed. -/
  | closed
  /-- Receiving failed or the message was malformed. -/
  | error (e : ServerError ε)
  /-- A handler was run. -/
  | handled (r : Request)
  /-- An error was put into the channel. -/
  | reported (e : ServerError ε)

/-- One step of a worker thread, fuse-std/fuse-std.rs:135-143 around fuse/server.rs:1614-1623 (for CUSE,
190-198 around 1599-1608); `none` if it has ended or waits for room in the channel, which is bounded by
`capacity`. -/
def workerStep (srv : Service σ ε) (capacity : Nat) (channel : List (ServerError ε)) (s : σ) :
    Worker ε → Option (Event ε × Worker ε × List (ServerError ε) × σ)
  | .receiving buf =>
    match srv.recv buf s with
    | ((.ok none, _), s) => some (.closed, .finished, channel, s)
    | ((.ok (some r), buf), s) => some (.request r, .handling buf r, channel, s)
    | ((.error e, buf), s) => some (.error e, .reporting buf e, channel, s)
  | .handling buf r =>
    match srv.dispatch r s with
    | .ok s => some (.handled r, .receiving buf, channel, s)
    | .error f => some (.handled r, .faulted f, channel, s)
  | .reporting buf e =>
    if channel.length < capacity then
      some (.reported e, if isFatalError e then .finished else .receiving buf, channel ++ [e], s)
    else none
  | .finished => none
  | .faulted _ => none

/-- The state of `serve_fuse` while its threads run, fuse-std/fuse-std.rs:130-145. -/
structure Pool (σ ε : Type) where
  world : σ
  workers : List (Worker ε)
  channel : List (ServerError ε)
  capacity : Nat

/-- The state after spawning the threads, fuse-std/fuse-std.rs:121-145: each has its own buffer, and the
channel's capacity is the number of threads. -/
def Pool.start (s : σ) (bufs : List Bytes) : Pool σ ε := ⟨s, bufs.map .receiving, [], bufs.length⟩

/-- Thread `i` makes a step. -/
inductive Pool.Step (srv : Service σ ε) : Event ε → Pool σ ε → Pool σ ε → Prop
  | mk {p : Pool σ ε} {i : Nat} {w w' : Worker ε} {e : Event ε} {channel : List (ServerError ε)} {s : σ} :
      p.workers[i]? = some w →
      workerStep srv p.capacity p.channel p.world w = some (e, w', channel, s) →
      Pool.Step srv e p ⟨s, p.workers.set i w', channel, p.capacity⟩

/-- A run of the threads, with the events in order. -/
inductive Pool.Run (srv : Service σ ε) (p : Pool σ ε) : List (Event ε) → Pool σ ε → Prop
  | start : Pool.Run srv p [] p
  | step {es : List (Event ε)} {q q' : Pool σ ε} {e : Event ε} :
      Pool.Run srv p es q → Pool.Step srv e q q' → Pool.Run srv p (es ++ [e]) q'

/-- All threads have ended: only now does `std::thread::scope` return, and with it `serve_fuse`,
fuse-std/fuse-std.rs:131-147. -/
def Pool.Returned (p : Pool σ ε) : Prop := ∀ w ∈ p.workers, w = .finished

/-- No thread can make a step. -/
def Pool.Stuck (srv : Service σ ε) (p : Pool σ ε) : Prop := ∀ e q, ¬ Pool.Step srv e p q

end Fuse
