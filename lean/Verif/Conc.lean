import Verif.Rpc
import Verif.Std

/-!
# Several clients, several threads

Programs that use a filesystem (`Rpc`) at the same time: once directly, where an operation takes place in one instant
between its call and its return, and once through messages, served by the threads of `fuse-std` (`Std`).  In the second
system a handler takes one step; a reply may be on its way for as long as it likes, during which its thread goes on, so that
handlers that reply some time after they have used the filesystem are covered.  Requests that are not answered (FORGET,
INTERRUPT) are not waited for.
-/

namespace Fuse

namespace Spec

/-- A program, and where it is: about to go on, or waiting for an answer. -/
inductive Party (α : Type)
  | ready (use : Use α)
  | waiting (id : UInt64) (op : Op) (k : Ans → Use α)

/-- It has ended. -/
def Party.Ended {α : Type} : Party α → Prop
  | .ready (.done _) => True
  | _ => False

/-- What it waits for. -/
def Party.ticket {α : Type} : Party α → Option (UInt64 × Op)
  | .ready _ => none
  | .waiting id op _ => some (id, op)

/-- The operation is answered. -/
def Op.answered (op : Op) : Bool :=
  match op.kind with
  | .silent => false
  | _ => true

/-- After calling. -/
def Op.called {α : Type} (op : Op) (id : UInt64) (k : Ans → Use α) : Party α :=
  if op.answered then .waiting id op k else .ready (k .silent)

/-- What the programs see. -/
inductive Visible
  | call (i : Nat) (id : UInt64) (who : Caller) (op : Op)
  | ret (i : Nat) (id : UInt64) (a : Ans)

/-- Programs that use a filesystem directly: its state, the programs, what has been called for and not been done yet, and
the answers not yet taken. -/
structure Object (S α : Type) where
  fs : S
  clients : List (Party α)
  pending : List (UInt64 × Caller × Op)
  answers : List (UInt64 × Op × Ans)

def Object.start {S α : Type} (s : S) (uses : List (Use α)) : Object S α := ⟨s, uses.map .ready, [], []⟩

/-- One step: a call with a number nobody waits for, an operation taking place, or a return. -/
inductive Object.Step {S α : Type} (act : Caller → Op → S → Ans × S) : Option Visible → Object S α → Object S α → Prop
  | call {o : Object S α} {i : Nat} {id : UInt64} {who : Caller} {op : Op} {k : Ans → Use α} {p q : List _} :
      o.clients[i]? = some (.ready (.call who op k)) → id ≠ 0 → id ∉ (o.clients.filterMap Party.ticket).map Prod.fst →
      o.pending = p ++ q →
      Object.Step act (some (.call i id who op)) o
        { o with clients := o.clients.set i (op.called id k), pending := p ++ (id, who, op) :: q }
  | perform {o : Object S α} {id : UInt64} {who : Caller} {op : Op} {p q : List _} :
      o.pending = p ++ (id, who, op) :: q →
      Object.Step act none o
        { o with fs := (act who op o.fs).2, pending := p ++ q,
                 answers := o.answers ++ if op.answered then [(id, op, (act who op o.fs).1)] else [] }
  | ret {o : Object S α} {i : Nat} {id : UInt64} {op : Op} {k : Ans → Use α} {a : Ans} {p q : List _} :
      o.clients[i]? = some (.waiting id op k) → o.answers = p ++ (id, op, a) :: q →
      Object.Step act (some (.ret i id a)) o { o with clients := o.clients.set i (.ready (k a)), answers := p ++ q }

/-- A run, with what the programs see. -/
inductive Object.Run {S α : Type} (act : Caller → Op → S → Ans × S) (o : Object S α) :
    List Visible → Object S α → Prop
  | start : Object.Run act o [] o
  | step {es : List Visible} {e : Option Visible} {p q : Object S α} :
      Object.Run act o es p → Object.Step act e p q → Object.Run act o (es ++ e.toList) q

end Spec

open Spec

/-! ## The served system -/

/-- Requests that have not been received yet, and replies that have not been taken yet. -/
structure Net where
  queue : List Bytes
  replies : List Bytes

/-- A socket.  Receiving with nothing there to be received is the end of the connection; see `Threaded.Step`. -/
def Net.socket (S : Type) : Socket (Option S × Net) Unit where
  recv buf w :=
    match w.2.queue with
    | [] => ((.error (.connectionClosed ()), buf), w)
    | m :: ms =>
      if m.length ≤ buf.length then ((.ok m.length, m ++ buf.drop m.length), (w.1, { w.2 with queue := ms }))
      else ((.error (.other ()), buf), w)
  recv_length buf w := by
    split
    · rfl
    · split
      · simp only [List.length_append, List.length_drop]; omega
      · rfl
  send buf w :=
    match buf.chunks with
    | .ok cs => (.ok (), (w.1, { w.2 with replies := w.2.replies ++ [cs.flatten] }))
    | .error _ => (.error (.other ()), w)

/-- The request for an operation. -/
def Spec.Op.message (op : Op) (ext : Bool) (id : UInt64) (who : Caller) : Bytes :=
  (op.request ext).2.message id (op.request ext).1 who.uid who.gid who.pid 0

/-- The threads and the programs. -/
structure Threaded (S α : Type) where
  pool : Pool (Option S × Net) Unit
  clients : List (Party α)

/-- The threads of `serve_fuse` have been started. -/
def Threaded.start {S α : Type} (s : S) (bufs : List Bytes) (uses : List (Use α)) : Threaded S α :=
  ⟨.start (some s, ⟨[], []⟩) bufs, uses.map .ready⟩

/-- The filesystem in a server. -/
def Threaded.fs {S α : Type} (p : Threaded S α) : Option S := p.pool.world.1

def Threaded.net {S α : Type} (p : Threaded S α) : Net := p.pool.world.2

/-- With other messages in the socket. -/
def Threaded.withNet {S α : Type} (p : Threaded S α) (net : Net) (clients : List (Party α)) : Threaded S α :=
  ⟨{ p.pool with world := (p.pool.world.1, net) }, clients⟩

/-- One step: a request is put into the queue, somewhere; a thread makes a step, but waits if there is nothing to be received
and programs are still running; or a program takes the reply with the number it waits for. -/
inductive Threaded.Step {S α : Type} (srv : RpcServer S) (ext : Bool) : Option Visible → Threaded S α → Threaded S α → Prop
  | call {s : Threaded S α} {i : Nat} {id : UInt64} {who : Caller} {op : Op} {k : Ans → Use α} {p q : List Bytes} :
      s.clients[i]? = some (.ready (.call who op k)) → id ≠ 0 → id ∉ (s.clients.filterMap Party.ticket).map Prod.fst →
      s.net.queue = p ++ q →
      Threaded.Step srv ext (some (.call i id who op)) s
        (s.withNet { s.net with queue := p ++ op.message ext id who :: q } (s.clients.set i (op.called id k)))
  | work {s : Threaded S α} {e : Event Unit} {pool : Pool (Option S × Net) Unit} :
      Pool.Step (fuseService (Net.socket S) (srv.handlers (Net.socket S))) e s.pool pool →
      (e = .closed → ∀ t ∈ s.clients, t.Ended) →
      Threaded.Step srv ext none s { s with pool := pool }
  | ret {s : Threaded S α} {i : Nat} {id : UInt64} {op : Op} {k : Ans → Use α} {m : Bytes} {p q : List Bytes} :
      s.clients[i]? = some (.waiting id op k) → s.net.replies = p ++ m :: q → u64At m 8 = id.toNat →
      Threaded.Step srv ext (some (.ret i id (op.hear id [m]))) s
        (s.withNet { s.net with replies := p ++ q } (s.clients.set i (.ready (k (op.hear id [m])))))

/-- A run, with what the programs see. -/
inductive Threaded.Run {S α : Type} (srv : RpcServer S) (ext : Bool) (s : Threaded S α) : List Visible → Threaded S α → Prop
  | start : Threaded.Run srv ext s [] s
  | step {es : List Visible} {e : Option Visible} {p q : Threaded S α} :
      Threaded.Run srv ext s es p → Threaded.Step srv ext e p q → Threaded.Run srv ext s (es ++ e.toList) q

end Fuse
