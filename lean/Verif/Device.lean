import Verif.Std
import Verif.Sys

/-!
# The multi-threaded server, one system call at a time

In `Std` a thread receives a message in one step.  Here one step is one `read` of the device: a `read` that is to be
tried again is a step of its own, and the other threads' steps come in between.  For `fuse-libc` the threads'
`errno` is one variable here; each step sets it before looking at it.
-/

namespace Fuse

variable {σ ε : Type}

/-- `FuseConnection::recv` after the socket's `recv` has returned, fuse/server.rs:1323-1329. -/
def fuseReceived : (Except (RecvError ε) Nat × Bytes) × σ →
    (Except (ServerError ε) (Option Request) × Bytes) × σ
  | ((.error (.connectionClosed _), buf), s) => ((.ok none, buf), s)
  | ((.error e, buf), s) => ((.error (.recv e), buf), s)
  | ((.ok recvLen, buf), s) =>
    match Request.new (truncateSlice buf recvLen) with
    | .error e => ((.error (.request e), buf), s)
    | .ok r => ((.ok (some r), buf), s)

/-- `CuseConnection::recv` after the socket's `recv` has returned, fuse/server.rs:1184-1186. -/
def cuseReceived : (Except (RecvError ε) Nat × Bytes) × σ →
    (Except (ServerError ε) (Option Request) × Bytes) × σ
  | ((.error e, buf), s) => ((.error (.recv e), buf), s)
  | ((.ok recvLen, buf), s) =>
    match Request.new (truncateSlice buf recvLen) with
    | .error e => ((.error (.request e), buf), s)
    | .ok r => ((.ok (some r), buf), s)

/-- What the threads do: one attempt to receive (fuse-linux/socket.rs:39-46, fuse-libc/io/socket.rs:62-68), what the
connection makes of the outcome (`fuseReceived` or `cuseReceived`), and handling a request. -/
structure DeviceService (σ ε : Type) where
  attempt : Bytes × σ → ((Except (RecvError ε) Nat × Bytes) × σ) ⊕ (Bytes × σ)
  received : (Except (RecvError ε) Nat × Bytes) × σ → (Except (ServerError ε) (Option Request) × Bytes) × σ
  dispatch : Request → σ → Except Fault σ

/-- One step of a worker thread, fuse-std/fuse-std.rs:135-143 around fuse/server.rs:1614-1623 (for CUSE, 190-198
around 1599-1608); there is no event when an attempt to receive is to be repeated. -/
def deviceWorkerStep (srv : DeviceService σ ε) (capacity : Nat) (channel : List (ServerError ε)) (s : σ) :
    Worker ε → Option (Option (Event ε) × Worker ε × List (ServerError ε) × σ)
  | .receiving buf =>
    match srv.attempt (buf, s) with
    | .inr (buf, s) => some (none, .receiving buf, channel, s)
    | .inl out =>
      match srv.received out with
      | ((.ok none, _), s) => some (some .closed, .finished, channel, s)
      | ((.ok (some r), buf), s) => some (some (.request r), .handling buf r, channel, s)
      | ((.error e, buf), s) => some (some (.error e), .reporting buf e, channel, s)
  | .handling buf r =>
    match srv.dispatch r s with
    | .ok s => some (some (.handled r), .receiving buf, channel, s)
    | .error f => some (some (.handled r), .faulted f, channel, s)
  | .reporting buf e =>
    if channel.length < capacity then
      some (some (.reported e), if isFatalError e then .finished else .receiving buf, channel ++ [e], s)
    else none
  | .finished => none
  | .faulted _ => none

/-- Thread `i` makes a step. -/
inductive Pool.DeviceStep (srv : DeviceService σ ε) : Option (Event ε) → Pool σ ε → Pool σ ε → Prop
  | mk {p : Pool σ ε} {i : Nat} {w w' : Worker ε} {e : Option (Event ε)} {channel : List (ServerError ε)} {s : σ} :
      p.workers[i]? = some w →
      deviceWorkerStep srv p.capacity p.channel p.world w = some (e, w', channel, s) →
      Pool.DeviceStep srv e p ⟨s, p.workers.set i w', channel, p.capacity⟩

/-- A run of the threads, with the events in order. -/
inductive Pool.DeviceRun (srv : DeviceService σ ε) (p : Pool σ ε) : List (Option (Event ε)) → Pool σ ε → Prop
  | start : Pool.DeviceRun srv p [] p
  | step {es : List (Option (Event ε))} {q q' : Pool σ ε} {e : Option (Event ε)} :
      Pool.DeviceRun srv p es q → Pool.DeviceStep srv e q q' → Pool.DeviceRun srv p (es ++ [e]) q'

/-- No thread can make a step. -/
def Pool.DeviceStuck (srv : DeviceService σ ε) (p : Pool σ ε) : Prop := ∀ e q, ¬ Pool.DeviceStep srv e p q

end Fuse
