import Verif.Std

/-!
# The multi-threaded server of `fuse-std` with handlers that panic

The crate does not catch panics.  A panic of a handler unwinds the stack of the thread that called it, through
`dispatch` and `fuse_serve_local`, which have nothing left to do after the handler, to the end of the closure
given to `Scope::spawn`; the thread's buffer and its clone of the sender are dropped.  `std::thread::scope` waits
for all threads and then panics if one of them has panicked; its caller `serve_fuse` has no `Receiver` to return
then.  This is with unwinding panics; if panics abort, the first one ends the program.

What a handler did to the world before it panicked, replies included, stays done.
-/

namespace Fuse

variable {σ ε : Type}

/-- What `serve_fuse` uses of a connection and of handlers that may panic: `run` gives the world after the
handler has ended, and whether it ended by a panic. -/
structure Frail (σ ε : Type) where
  recv : Bytes → σ → (Except (ServerError ε) (Option Request) × Bytes) × σ
  run : Request → σ → σ × Bool

/-- Receiving and dispatching in `fuse_serve_local`, fuse/server.rs:1614-1623.  The handlers work on the world
and on a flag, raised by a handler that panics: `dispatch` (832-887) ends with the call of the handler. -/
def fuseFrail (sock : Socket σ ε) (h : Handlers FuseMethod (σ × Bool)) : Frail σ ε where
  recv := fuseRecv sock
  run r s :=
    match fuseDispatch h r (s, false) with
    | .ok x => x
    | .error _ => (s, true)

/-- Receiving and dispatching in `cuse_serve_local`, fuse/server.rs:1599-1608, as `fuseFrail`; `dispatch` is that
of 758-778. -/
def cuseFrail (sock : Socket σ ε) (h : Handlers CuseMethod (σ × Bool)) : Frail σ ε where
  recv buf s :=
    match cuseRecv sock buf s with
    | ((.error e, buf), s) => ((.error e, buf), s)
    | ((.ok r, buf), s) => ((.ok (some r), buf), s)
  run r s :=
    match cuseDispatch h r (s, false) with
    | .ok x => x
    | .error _ => (s, true)

/-- One step of a worker thread, fuse-std/fuse-std.rs:135-143 around fuse/server.rs:1614-1623 (for CUSE,
190-198 around 1599-1608), as `workerStep`; if the handler panics, the thread has ended. -/
def frailStep (srv : Frail σ ε) (capacity : Nat) (channel : List (ServerError ε)) (s : σ) :
    Worker ε → Option (Worker ε × List (ServerError ε) × σ)
  | .receiving buf =>
    match srv.recv buf s with
    | ((.ok none, _), s) => some (.finished, channel, s)
    | ((.ok (some r), buf), s) => some (.handling buf r, channel, s)
    | ((.error e, buf), s) => some (.reporting buf e, channel, s)
  | .handling buf r =>
    match srv.run r s with
    | (s, false) => some (.receiving buf, channel, s)
    | (s, true) => some (.faulted .panic, channel, s)
  | .reporting buf e =>
    if channel.length < capacity then
      some (if isFatalError e then .finished else .receiving buf, channel ++ [e], s)
    else none
  | .finished => none
  | .faulted _ => none

/-- Thread `i` makes a step. -/
inductive Frail.Step (srv : Frail σ ε) : Pool σ ε → Pool σ ε → Prop
  | mk {p : Pool σ ε} {i : Nat} {w w' : Worker ε} {channel : List (ServerError ε)} {s : σ} :
      p.workers[i]? = some w →
      frailStep srv p.capacity p.channel p.world w = some (w', channel, s) →
      Frail.Step srv p ⟨s, p.workers.set i w', channel, p.capacity⟩

/-- The threads make so many steps. -/
inductive Frail.Run (srv : Frail σ ε) (p : Pool σ ε) : Nat → Pool σ ε → Prop
  | start : Frail.Run srv p 0 p
  | step {k : Nat} {q q' : Pool σ ε} : Frail.Run srv p k q → Frail.Step srv q q' → Frail.Run srv p (k + 1) q'

/-- No thread can make a step. -/
def Frail.Stuck (srv : Frail σ ε) (p : Pool σ ε) : Prop := ∀ q, ¬ Frail.Step srv p q

/-- The thread has ended by a panic. -/
def Worker.hasPanicked : Worker ε → Bool
  | .faulted _ => true
  | _ => false

/-- The thread has ended. -/
def Worker.hasEnded : Worker ε → Bool
  | .finished => true
  | .faulted _ => true
  | _ => false

/-- How `serve_fuse` ends, fuse-std/fuse-std.rs:131-147, and `serve_cuse`, 186-202: not before all threads have ended; then
`std::thread::scope` panics if one of them has panicked, and otherwise the caller gets the channel. -/
def Pool.outcome (p : Pool σ ε) : Option (Except Fault (List (ServerError ε))) :=
  if p.workers.all Worker.hasEnded then
    some (if p.workers.any Worker.hasPanicked then .error .panic else .ok p.channel)
  else none

end Fuse
