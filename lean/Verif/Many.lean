import Verif.Conc
import Verif.Note
import Verif.Old
import Verif.Dev

/-!
# Several clients, several threads: any kind of service

What `Conc` is for filesystems and clients of newer versions, for whatever is served by `serve_fuse` or `serve_cuse`
(`Service`): requests, answers and announcements of any type, and any way of writing them in messages.
-/

namespace Fuse
open Spec (u64At Caller Op Ans Notice DevOp readNotice)

namespace Many

/-- Which requests are answered, and what a program goes on with if one is not. -/
structure Style (R A : Type) where
  answered : R → Bool
  silent : A

/-- How requests are written, and how answers and announcements are read. -/
structure Wire (R A N : Type) extends Style R A where
  message : UInt64 → R → Bytes
  hear : R → UInt64 → Bytes → A
  news : Bytes → Option N

/-- A program. -/
inductive Calls (R A α : Type)
  | done (a : α)
  | call (r : R) (k : A → Calls R A α)

/-- The result, with nobody else there. -/
def Calls.run {R A N α S : Type} (act : R → S → List N × A × S) : Calls R A α → S → α × S
  | .done a, s => (a, s)
  | .call r k, s => (k (act r s).2.1).run act (act r s).2.2

/-- A program, and where it is: about to go on, or waiting for an answer. -/
inductive Party (R A α : Type)
  | ready (use : Calls R A α)
  | waiting (id : UInt64) (r : R) (k : A → Calls R A α)

/-- It has ended. -/
def Party.Ended {R A α : Type} : Party R A α → Prop
  | .ready (.done _) => True
  | _ => False

/-- What it waits for. -/
def Party.ticket {R A α : Type} : Party R A α → Option (UInt64 × R)
  | .ready _ => none
  | .waiting id r _ => some (id, r)

/-- After calling. -/
def Style.called {R A α : Type} (style : Style R A) (r : R) (id : UInt64) (k : A → Calls R A α) : Party R A α :=
  if style.answered r then .waiting id r k else .ready (k style.silent)

/-- What the programs, and whoever listens to announcements, see. -/
inductive Visible (R A N : Type)
  | call (i : Nat) (id : UInt64) (r : R)
  | ret (i : Nat) (id : UInt64) (a : A)
  | news (x : Option N)

/-- Programs that use something directly: its state, the programs, what has been called for and not been done yet, the
answers not yet taken, and the announcements not yet heard. -/
structure Object (S R A N α : Type) where
  state : S
  clients : List (Party R A α)
  pending : List (UInt64 × R)
  answers : List (UInt64 × R × A)
  announced : List N

def Object.start {S R A N α : Type} (s : S) (uses : List (Calls R A α)) : Object S R A N α := ⟨s, uses.map .ready, [], [], []⟩

section
variable {S R A N α : Type}

/-- One step: a call with a number nobody waits for, an operation taking place, a return, or an announcement. -/
inductive Object.Step (style : Style R A) (act : R → S → List N × A × S) :
    Option (Visible R A N) → Object S R A N α → Object S R A N α → Prop
  | call {o : Object S R A N α} {i : Nat} {id : UInt64} {r : R} {k : A → Calls R A α} {p q : List _} :
      o.clients[i]? = some (.ready (.call r k)) → id ≠ 0 → id ∉ (o.clients.filterMap Party.ticket).map Prod.fst →
      o.pending = p ++ q →
      Object.Step style act (some (.call i id r)) o
        { o with clients := o.clients.set i (style.called r id k), pending := p ++ (id, r) :: q }
  | perform {o : Object S R A N α} {id : UInt64} {r : R} {p q : List _} :
      o.pending = p ++ (id, r) :: q →
      Object.Step style act none o
        { o with state := (act r o.state).2.2, pending := p ++ q,
                 answers := o.answers ++ (if style.answered r then [(id, r, (act r o.state).2.1)] else []),
                 announced := o.announced ++ (act r o.state).1 }
  | ret {o : Object S R A N α} {i : Nat} {id : UInt64} {r : R} {k : A → Calls R A α} {a : A} {p q : List _} :
      o.clients[i]? = some (.waiting id r k) → o.answers = p ++ (id, r, a) :: q →
      Object.Step style act (some (.ret i id a)) o { o with clients := o.clients.set i (.ready (k a)), answers := p ++ q }
  | news {o : Object S R A N α} {x : N} {p q : List _} :
      o.announced = p ++ x :: q →
      Object.Step style act (some (.news (some x))) o { o with announced := p ++ q }

/-- A run, with what is seen. -/
inductive Object.Run (style : Style R A) (act : R → S → List N × A × S) (o : Object S R A N α) :
    List (Visible R A N) → Object S R A N α → Prop
  | start : Object.Run style act o [] o
  | step {es : List (Visible R A N)} {e : Option (Visible R A N)} {p q : Object S R A N α} :
      Object.Run style act o es p → Object.Step style act e p q → Object.Run style act o (es ++ e.toList) q

/-! ## The served system -/

/-- The threads and the programs. -/
structure Threaded (S R A α : Type) where
  pool : Pool (Option S × Net) Unit
  clients : List (Party R A α)

/-- The threads of `serve_fuse` or `serve_cuse` have been started. -/
def Threaded.start (s : S) (bufs : List Bytes) (uses : List (Calls R A α)) : Threaded S R A α :=
  ⟨.start (some s, ⟨[], []⟩) bufs, uses.map .ready⟩

/-- What is served. -/
def Threaded.state (p : Threaded S R A α) : Option S := p.pool.world.1

def Threaded.net (p : Threaded S R A α) : Net := p.pool.world.2

/-- With other messages in the socket. -/
def Threaded.withNet (p : Threaded S R A α) (net : Net) (clients : List (Party R A α)) : Threaded S R A α :=
  ⟨{ p.pool with world := (p.pool.world.1, net) }, clients⟩

/-- Receiving has found the connection closed; `CuseConnection::recv` makes an error of it. -/
def Closing (e : Event Unit) : Prop := e = .closed ∨ e = .error (.recv (.connectionClosed ()))

/-- One step: a request is put into the queue, somewhere; a thread makes a step, but waits if there is nothing to be received
and programs are still running; a program takes the reply with the number it waits for; or somebody takes a message with
number 0. -/
inductive Threaded.Step (svc : Service (Option S × Net) Unit) (wire : Wire R A N) :
    Option (Visible R A N) → Threaded S R A α → Threaded S R A α → Prop
  | call {s : Threaded S R A α} {i : Nat} {id : UInt64} {r : R} {k : A → Calls R A α} {p q : List Bytes} :
      s.clients[i]? = some (.ready (.call r k)) → id ≠ 0 → id ∉ (s.clients.filterMap Party.ticket).map Prod.fst →
      s.net.queue = p ++ q →
      Threaded.Step svc wire (some (.call i id r)) s
        (s.withNet { s.net with queue := p ++ wire.message id r :: q } (s.clients.set i (wire.called r id k)))
  | work {s : Threaded S R A α} {e : Event Unit} {pool : Pool (Option S × Net) Unit} :
      Pool.Step svc e s.pool pool → (Closing e → ∀ t ∈ s.clients, t.Ended) →
      Threaded.Step svc wire none s { s with pool := pool }
  | ret {s : Threaded S R A α} {i : Nat} {id : UInt64} {r : R} {k : A → Calls R A α} {m : Bytes} {p q : List Bytes} :
      s.clients[i]? = some (.waiting id r k) → s.net.replies = p ++ m :: q → u64At m 8 = id.toNat →
      Threaded.Step svc wire (some (.ret i id (wire.hear r id m))) s
        (s.withNet { s.net with replies := p ++ q } (s.clients.set i (.ready (k (wire.hear r id m)))))
  | news {s : Threaded S R A α} {m : Bytes} {p q : List Bytes} :
      s.net.replies = p ++ m :: q → u64At m 8 = 0 →
      Threaded.Step svc wire (some (.news (wire.news m))) s (s.withNet { s.net with replies := p ++ q } s.clients)

/-- A run, with what is seen. -/
inductive Threaded.Run (svc : Service (Option S × Net) Unit) (wire : Wire R A N) (s : Threaded S R A α) :
    List (Visible R A N) → Threaded S R A α → Prop
  | start : Threaded.Run svc wire s [] s
  | step {es : List (Visible R A N)} {e : Option (Visible R A N)} {p q : Threaded S R A α} :
      Threaded.Run svc wire s es p → Threaded.Step svc wire e p q → Threaded.Run svc wire s (es ++ e.toList) q

end

/-! ## What is served -/

/-- Messages of version 7.`minor` of the protocol, and notifications. -/
def fuseWire (minor : Nat) (ext : Bool) : Wire (Caller × Op) Ans Notice where
  answered r := r.2.answered
  silent := .silent
  message id r :=
    (r.2.requestIn minor ext).2.message id (r.2.requestIn minor ext).1 r.1.uid r.1.gid r.1.pid 0
  hear r id m := r.2.kind.hearIn minor id [m]
  news := readNotice

/-- A filesystem that sends notifications, through the threads of `serve_fuse`, fuse-std/fuse-std.rs:121-147. -/
def fuseThreads {S : Type} (srv : NoteServer S) : Service (Option S × Net) Unit :=
  fuseService (Net.socket S) (srv.handlers (Net.socket S))

/-- What it does. -/
def fuseAct {S : Type} (act : Caller → Op → S → Reaction × S) (r : Caller × Op) (s : S) : List Notice × Ans × S :=
  (((act r.1 r.2 s).1.before ++ (act r.1 r.2 s).1.after).map (·.meaning), (act r.1 r.2 s).1.ans, (act r.1 r.2 s).2)

/-- Messages between a character device and its clients; for the node ID see `Spec.DevUse`. -/
def deviceWire : Wire (Caller × UInt64 × DevOp) Ans Empty where
  answered r := match r.2.2 with
    | .interrupt _ => false
    | _ => true
  silent := .silent
  message id r := r.2.2.request.message id r.2.1 r.1.uid r.1.gid r.1.pid 0
  hear r id m := r.2.2.kind.hear id [m]
  news _ := none

/-- A character device, through the threads of `serve_cuse`, fuse-std/fuse-std.rs:176-202. -/
def deviceThreads {S : Type} (srv : DevServer S) : Service (Option S × Net) Unit :=
  cuseService (Net.socket S) (srv.handlers (Net.socket S))

/-- What it does. -/
def deviceAct {S : Type} (act : Caller → DevOp → S → Ans × S) (r : Caller × UInt64 × DevOp) (s : S) : List Empty × Ans × S :=
  ([], act r.1 r.2.2 s)

end Many

end Fuse
