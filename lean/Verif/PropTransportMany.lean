import Verif.PropTransport
import Verif.PropHostileMany
import Verif.Device

/-!
# C88: threads keep operations atomic on a device

`PropMany` and `PropHostileMany` are about threads that share a socket with nothing between it and the clients.  Here it is a
FUSE or CUSE device, and a step of a thread is a system call: `read` may be interrupted, and other threads and the clients make
their steps before it is called again.  What the programs see is what they would see without the device.
-/

namespace Fuse
open Spec

variable {σ ε ε' δ α C T : Type}

/-- One attempt to receive, with something else in the state; see `Socket.beside`. -/
def attemptBeside (C : Type) (attempt : Bytes × δ → ((Except (RecvError ε) Nat × Bytes) × δ) ⊕ (Bytes × δ))
    (x : Bytes × C × δ) : ((Except (RecvError ε) Nat × Bytes) × C × δ) ⊕ (Bytes × C × δ) :=
  match attempt (x.1, x.2.2) with
  | .inl (r, d) => .inl (r, (x.2.1, d))
  | .inr (b, d) => .inr (b, (x.2.1, d))

/-- The threads of `serve_fuse` on a device, fuse-std/fuse-std.rs:121-147; see `DeviceService`. -/
def fuseOn (attempt : Bytes × δ → ((Except (RecvError ε) Nat × Bytes) × δ) ⊕ (Bytes × δ))
    (h : Handlers FuseMethod (C × δ)) : DeviceService (C × δ) ε :=
  ⟨attemptBeside C attempt, fuseReceived, fuseDispatch h⟩

/-- The threads of `serve_cuse` on a device, fuse-std/fuse-std.rs:176-202. -/
def cuseOn (attempt : Bytes × δ → ((Except (RecvError ε) Nat × Bytes) × δ) ⊕ (Bytes × δ))
    (h : Handlers CuseMethod (C × δ)) : DeviceService (C × δ) ε :=
  ⟨attemptBeside C attempt, cuseReceived, cuseDispatch h⟩

/-- A socket of `fuse-linux` or `fuse-libc` on a device with clients, what it does in one attempt to receive, and the error it
makes of `ENODEV`; `eof` says whether that is the end of the connection. -/
inductive Spec.OnCalls {T : Type} (line : Line T) : {σ ε : Type} → Socket σ ε →
    (Bytes × σ → ((Except (RecvError ε) Nat × Bytes) × σ) ⊕ (Bytes × σ)) → RecvError ε → Peer σ T → Bool → Prop
  | linux {δ : Type} {sys : Sys δ} {s : DeviceSocket} {p : Peer δ T} {sock : Socket δ Errno} :
      LineDevice line sys s.fd p → OnLinux sys s sock →
      OnCalls line sock (Linux.recvStep sys s) (s.ends ENODEV) p s.enodevIsEof
  | libc {δ : Type} {sys : Sys δ} {s : DeviceSocket} {p : Peer δ T} {sock : Socket (Libc.Thread δ) Libc.LibcError} :
      LineDevice line sys s.fd p → OnLibc sys s sock →
      OnCalls line sock (Libc.recvStep sys s) (s.ends ⟨Libc.cInt ENODEV⟩) (p.through Libc.Thread.sys) s.enodevIsEof

namespace Many

/-- Requests and replies on their way. -/
def netLine : Line Net where
  next n :=
    match n.queue with
    | [] => none
    | m :: ms => some (m, { n with queue := ms })
  push n m := { n with replies := n.replies ++ [m] }

/-- The threads and the programs, with a device between them. -/
structure Mounted (S δ ε R A α : Type) where
  pool : Pool (Option S × δ) ε
  clients : List (Party R A α)

/-- The threads of `serve_fuse` or `serve_cuse` have been started. -/
def Mounted.start {S δ ε R A α : Type} (s : S) (d : δ) (bufs : List Bytes) (uses : List (Calls R A α)) : Mounted S δ ε R A α :=
  ⟨.start (some s, d) bufs, uses.map .ready⟩

/-- What is served. -/
def Mounted.state {S δ ε R A α : Type} (m : Mounted S δ ε R A α) : Option S := m.pool.world.1

def Mounted.device {S δ ε R A α : Type} (m : Mounted S δ ε R A α) : δ := m.pool.world.2

/-- With the device in another state. -/
def Mounted.withDevice {S δ ε R A α : Type} (m : Mounted S δ ε R A α) (d : δ) (clients : List (Party R A α)) :
    Mounted S δ ε R A α :=
  ⟨{ m.pool with world := (m.pool.world.1, d) }, clients⟩

/-- Receiving has found the connection closed. -/
def ClosingOn (ends : RecvError ε) (e : Option (Event ε)) : Prop := e = some .closed ∨ e = some (.error (.recv ends))

section
variable {S R A N : Type}

/-- One step; see `Threaded.Step`.  A thread makes a system call, or runs a handler.  When a program makes a request or takes
a reply, the device may have any number of interruptions to come. -/
inductive Mounted.Step (svc : DeviceService (Option S × δ) ε) (ends : RecvError ε) (p : Peer δ Net) (wire : Wire R A N) :
    Option (Visible R A N) → Mounted S δ ε R A α → Mounted S δ ε R A α → Prop
  | call {m : Mounted S δ ε R A α} {i : Nat} {id : UInt64} {r : R} {k : A → Calls R A α} {a b : List Bytes} {d : δ} :
      m.clients[i]? = some (.ready (.call r k)) → id ≠ 0 → id ∉ (m.clients.filterMap Party.ticket).map Prod.fst →
      (p.client m.device).queue = a ++ b →
      p.client d = { p.client m.device with queue := a ++ wire.message id r :: b } →
      Mounted.Step svc ends p wire (some (.call i id r)) m (m.withDevice d (m.clients.set i (wire.called r id k)))
  | work {m : Mounted S δ ε R A α} {e : Option (Event ε)} {pool : Pool (Option S × δ) ε} :
      Pool.DeviceStep svc e m.pool pool → (ClosingOn ends e → ∀ t ∈ m.clients, t.Ended) →
      Mounted.Step svc ends p wire none m { m with pool := pool }
  | ret {m : Mounted S δ ε R A α} {i : Nat} {id : UInt64} {r : R} {k : A → Calls R A α} {reply : Bytes} {a b : List Bytes}
      {d : δ} :
      m.clients[i]? = some (.waiting id r k) → (p.client m.device).replies = a ++ reply :: b → u64At reply 8 = id.toNat →
      p.client d = { p.client m.device with replies := a ++ b } →
      Mounted.Step svc ends p wire (some (.ret i id (wire.hear r id reply))) m
        (m.withDevice d (m.clients.set i (.ready (k (wire.hear r id reply)))))
  | news {m : Mounted S δ ε R A α} {note : Bytes} {a b : List Bytes} {d : δ} :
      (p.client m.device).replies = a ++ note :: b → u64At note 8 = 0 →
      p.client d = { p.client m.device with replies := a ++ b } →
      Mounted.Step svc ends p wire (some (.news (wire.news note))) m (m.withDevice d m.clients)

/-- A run, with what is seen. -/
inductive Mounted.Run (svc : DeviceService (Option S × δ) ε) (ends : RecvError ε) (p : Peer δ Net) (wire : Wire R A N)
    (m : Mounted S δ ε R A α) : List (Visible R A N) → Mounted S δ ε R A α → Prop
  | start : Mounted.Run svc ends p wire m [] m
  | step {es : List (Visible R A N)} {e : Option (Visible R A N)} {q q' : Mounted S δ ε R A α} :
      Mounted.Run svc ends p wire m es q → Mounted.Step svc ends p wire e q q' →
      Mounted.Run svc ends p wire m (es ++ e.toList) q'

end

/-! ## Simulation -/

theorem net_line {S : Type} : LineSocket netLine (Net.socket S) where
  recv buf c t := by
    obtain ⟨queue, replies⟩ := t
    unfold netLine Net.socket
    dsimp only
    cases queue with
    | nil => exact ⟨(), rfl⟩
    | cons m ms =>
      dsimp only
      by_cases hm : m.length ≤ buf.length
      · rw [if_pos hm, if_pos hm]
      · rw [if_neg hm, if_neg hm]
        exact ⟨(), rfl⟩
  send b msg c t h := by
    obtain ⟨cs, h1, -, h2, -⟩ := h
    unfold Net.socket netLine
    dsimp only
    rw [h1, ← h2]

end Many

theorem on_calls_line {line : Line T} {sock : Socket σ ε}
    {attempt : Bytes × σ → ((Except (RecvError ε) Nat × Bytes) × σ) ⊕ (Bytes × σ)} {ends : RecvError ε} {p : Peer σ T}
    {eof : Bool} (h : OnCalls line sock attempt ends p eof) : OnLine line sock p eof := by
  cases h with
  | linux hd hs => exact .linux hd hs
  | libc hd hs => exact .libc hd hs

theorem on_calls_attempts {line : Line T} {sock : Socket σ ε}
    {attempt : Bytes × σ → ((Except (RecvError ε) Nat × Bytes) × σ) ⊕ (Bytes × σ)} {ends : RecvError ε} {p : Peer σ T}
    {eof : Bool} (h : OnCalls line sock attempt ends p eof) : LineAttempts line attempt p ends := by
  cases h with
  | linux hd hs => exact linux_talk_attempts hd
  | libc hd hs => exact libc_talk_attempts hd

theorem on_calls_ends {line : Line T} {sock : Socket σ ε}
    {attempt : Bytes × σ → ((Except (RecvError ε) Nat × Bytes) × σ) ⊕ (Bytes × σ)} {ends : RecvError ε} {p : Peer σ T}
    {eof : Bool} (h : OnCalls line sock attempt ends p eof) (he : eof = true) : ∃ e, ends = .connectionClosed e := by
  cases h with
  | linux hd hs => exact ⟨_, if_pos he⟩
  | libc hd hs => exact ⟨_, if_pos he⟩

namespace Many

/-- The same error; `ends` is the one at the end of the connection. -/
def TwinError (ends : RecvError ε) : ServerError ε → ServerError Unit → Prop
  | .request e, .request e' => e = e'
  | .recv e, .recv e' => (e = ends ∧ e' = .connectionClosed ()) ∨ (e ≠ ends ∧ e' = .other ())
  | _, _ => False

/-- Threads that are at the same place. -/
def TwinWorker (ends : RecvError ε) : Worker ε → Worker Unit → Prop
  | .receiving b, .receiving b' => b.length = b'.length
  | .handling b r, .handling b' r' => b.length = b'.length ∧ r = r'
  | .reporting b e, .reporting b' e' => b.length = b'.length ∧ TwinError ends e e'
  | .finished, .finished => True
  | .faulted f, .faulted f' => f = f'
  | _, _ => False

/-- Lists of things that go together. -/
def Twins {X Y : Type} (R : X → Y → Prop) (l : List X) (l' : List Y) : Prop :=
  l.length = l'.length ∧ ∀ (i : Nat) (x : X) (y : Y), l[i]? = some x → l'[i]? = some y → R x y

theorem Twins.set {X Y : Type} {R : X → Y → Prop} {l : List X} {l' : List Y} (h : Twins R l l') {x : X} {y : Y} (hr : R x y)
    (i : Nat) : Twins R (l.set i x) (l'.set i y) := by
  refine ⟨by rw [List.length_set, List.length_set, h.1], fun j a b ha hb => ?_⟩
  rw [List.getElem?_set] at ha hb
  by_cases hij : i = j
  · rw [if_pos hij] at ha hb
    split at ha
    · rw [if_pos (by have := h.1; omega)] at hb
      cases ha; cases hb
      exact hr
    · cases ha
  · rw [if_neg hij] at ha hb
    exact h.2 j a b ha hb

theorem Twins.append {X Y : Type} {R : X → Y → Prop} {l : List X} {l' : List Y} (h : Twins R l l') {x : X} {y : Y} (hr : R x y) :
    Twins R (l ++ [x]) (l' ++ [y]) := by
  refine ⟨by rw [List.length_append, List.length_append, h.1]; rfl, fun j a b ha hb => ?_⟩
  by_cases hj : j < l.length
  · rw [List.getElem?_append_left hj] at ha
    rw [List.getElem?_append_left (by have := h.1; omega)] at hb
    exact h.2 j a b ha hb
  · rw [List.getElem?_append_right (by omega)] at ha
    rw [List.getElem?_append_right (by have := h.1; omega), ← h.1] at hb
    cases hk : j - l.length with
    | zero =>
      rw [hk] at ha hb
      cases ha; cases hb
      exact hr
    | succ k => rw [hk] at ha; cases ha

theorem Twins.get {X Y : Type} {R : X → Y → Prop} {l : List X} {l' : List Y} (h : Twins R l l') {i : Nat} {x : X}
    (hx : l[i]? = some x) : ∃ y, l'[i]? = some y ∧ R x y := by
  have hi : i < l'.length := by
    have := (List.getElem?_eq_some_iff.mp hx).1
    have := h.1
    omega
  exact ⟨l'[i], List.getElem?_eq_getElem hi, h.2 i x _ hx (List.getElem?_eq_getElem hi)⟩

theorem Twins.get' {X Y : Type} {R : X → Y → Prop} {l : List X} {l' : List Y} (h : Twins R l l') {i : Nat} {y : Y}
    (hy : l'[i]? = some y) : ∃ x, l[i]? = some x ∧ R x y := by
  have hi : i < l.length := by
    have := (List.getElem?_eq_some_iff.mp hy).1
    have := h.1
    omega
  exact ⟨l[i], List.getElem?_eq_getElem hi, h.2 i _ y (List.getElem?_eq_getElem hi) hy⟩

/-- What is made of something received. -/
def TwinReceived (ends : RecvError ε) : Except (ServerError ε) (Option Request) → Except (ServerError Unit) (Option Request) → Prop
  | .ok r, .ok r' => r = r'
  | .error e, .error e' => TwinError ends e e'
  | _, _ => False

section
variable {S : Type}

/-- Two services of which one is on a device. -/
structure TwinService (p : Peer δ Net) (ends : RecvError ε) (svc : DeviceService (Option S × δ) ε)
    (svc' : Service (Option S × Net) Unit) : Prop where
  recv : ∀ (buf buf' : Bytes) (c : Option S) (d : δ), buf.length = buf'.length →
    (∃ b d', svc.attempt (buf, (c, d)) = .inr (b, (c, d')) ∧ b.length = buf'.length ∧ p.Interrupted d d') ∨
    ∃ out r b d' r' b', svc.attempt (buf, (c, d)) = .inl out ∧ svc.received out = ((r, b), (c, d')) ∧
      svc'.recv buf' (c, p.client d) = ((r', b'), (c, p.client d')) ∧ b.length = b'.length ∧ TwinReceived ends r r' ∧
      ((r = .ok none ∨ r = .error (.recv ends)) ↔ (p.client d).queue = [])
  dispatch : ∀ (r : Request) (c : Option S) (d : δ),
    (∃ f, svc.dispatch r (c, d) = .error f ∧ svc'.dispatch r (c, p.client d) = .error f) ∨
    ∃ c' d', svc.dispatch r (c, d) = .ok (c', d') ∧ svc'.dispatch r (c, p.client d) = .ok (c', p.client d')

theorem truncate_message (m rest : Bytes) : truncateSlice (m ++ rest) m.length = m := by
  rw [truncateSlice_eq, List.take_left' rfl]

theorem fuse_twin {sock : Socket δ ε} {attempt : Bytes × δ → ((Except (RecvError ε) Nat × Bytes) × δ) ⊕ (Bytes × δ)}
    {ends : RecvError ε} {p : Peer δ Net} (hd : OnCalls netLine sock attempt ends p true)
    {h : Handlers FuseMethod (Option S × δ)} {h' : Handlers FuseMethod (Option S × Net)}
    (hh : MirrorHandlers (fun d t => p.client d = t) h h') :
    TwinService p ends (fuseOn attempt h) (fuseService (Net.socket S) h') where
  recv buf buf' c d hl := by
    obtain ⟨e0, rfl⟩ := on_calls_ends hd rfl
    rcases on_calls_attempts hd buf d with ⟨b, d', h1, h2, h3⟩ | ⟨r, b, d', h1, h2, h3⟩
    · refine .inl ⟨b, d', ?_, h2.trans hl, h3⟩
      dsimp only [fuseOn, attemptBeside]
      rw [h1]
    · refine .inr ⟨((r, b), (c, d')), ?_⟩
      have ha : (fuseOn attempt h).attempt (buf, (c, d)) = .inl ((r, b), (c, d')) := by
        dsimp only [fuseOn, attemptBeside]
        rw [h1]
      unfold Got at h3
      unfold fuseService fuseRecv Net.socket
      generalize hn : p.client d = net at h3
      obtain ⟨queue, replies⟩ := net
      cases queue with
      | nil =>
        obtain ⟨rfl, h4⟩ := h3
        exact ⟨.ok none, b, d', .ok none, buf', ha, rfl, by rw [h4], h2.trans hl, rfl, fun _ => rfl, fun _ => .inl rfl⟩
      | cons m ms =>
        dsimp only [netLine] at h3 ⊢
        by_cases hm : m.length ≤ buf.length
        · rw [if_pos hm] at h3
          obtain ⟨rfl, h4, h5⟩ := h3
          rw [if_pos (by omega)]
          have ht : truncateSlice b m.length = m := by rw [truncateSlice_eq, h4]
          have hr : (fuseOn attempt h).received ((.ok m.length, b), (c, d')) =
              match Request.new m with
              | .error e => ((.error (.request e), b), (c, d'))
              | .ok r => ((.ok (some r), b), (c, d')) := by
            dsimp only [fuseOn, fuseReceived]
            rw [ht]
            cases Request.new m <;> rfl
          rw [hr]
          dsimp only
          rw [truncate_message]
          have hlen : b.length = (m ++ buf'.drop m.length).length := by
            rw [List.length_append, List.length_drop]
            omega
          cases Request.new m with
          | error e =>
            exact ⟨.error (.request e), b, d', .error (.request e), m ++ buf'.drop m.length, ha, rfl, by rw [h5], hlen, rfl,
              (by rintro (h | h) <;> cases h), nofun⟩
          | ok q =>
            exact ⟨.ok (some q), b, d', .ok (some q), m ++ buf'.drop m.length, ha, rfl, by rw [h5], hlen, rfl,
              (by rintro (h | h) <;> cases h), nofun⟩
        · rw [if_neg hm] at h3
          obtain ⟨⟨e, rfl, h4⟩, h5⟩ := h3
          rw [if_neg (by omega)]
          exact ⟨.error (.recv (.other e)), b, d', .error (.recv (.other ())), buf', ha, rfl, by rw [h5], h2.trans hl,
            .inr ⟨h4, rfl⟩, (by rintro (h | h) <;> cases h), nofun⟩
  dispatch r c d := by
    show (∃ f, fuseDispatch h r (c, d) = .error f ∧ fuseDispatch h' r (c, p.client d) = .error f) ∨
      ∃ c' d', fuseDispatch h r (c, d) = .ok (c', d') ∧ fuseDispatch h' r (c, p.client d) = .ok (c', p.client d')
    unfold fuseDispatch
    cases r.rawHeader with
    | error f => exact .inl ⟨f, rfl, rfl⟩
    | ok hdr =>
      have ht := fuseSelect_mirror hh hdr.opcode r (c, d) (c, p.client d) ⟨rfl, rfl⟩
      refine .inr ⟨(fuseSelect h hdr.opcode r (c, d)).1, (fuseSelect h hdr.opcode r (c, d)).2, rfl, ?_⟩
      show Except.ok (fuseSelect h' hdr.opcode r (c, p.client d)) = _
      rw [ht.1, ht.2]

theorem cuse_twin {sock : Socket δ ε} {attempt : Bytes × δ → ((Except (RecvError ε) Nat × Bytes) × δ) ⊕ (Bytes × δ)}
    {ends : RecvError ε} {p : Peer δ Net} {eof : Bool} (hd : OnCalls netLine sock attempt ends p eof)
    {h : Handlers CuseMethod (Option S × δ)} {h' : Handlers CuseMethod (Option S × Net)}
    (hh : MirrorHandlers (fun d t => p.client d = t) h h') :
    TwinService p ends (cuseOn attempt h) (cuseService (Net.socket S) h') where
  recv buf buf' c d hl := by
    rcases on_calls_attempts hd buf d with ⟨b, d', h1, h2, h3⟩ | ⟨r, b, d', h1, h2, h3⟩
    · refine .inl ⟨b, d', ?_, h2.trans hl, h3⟩
      dsimp only [cuseOn, attemptBeside]
      rw [h1]
    · refine .inr ⟨((r, b), (c, d')), ?_⟩
      have ha : (cuseOn attempt h).attempt (buf, (c, d)) = .inl ((r, b), (c, d')) := by
        dsimp only [cuseOn, attemptBeside]
        rw [h1]
      unfold Got at h3
      unfold cuseService cuseRecv Net.socket
      generalize hn : p.client d = net at h3
      obtain ⟨queue, replies⟩ := net
      cases queue with
      | nil =>
        obtain ⟨rfl, h4⟩ := h3
        exact ⟨.error (.recv ends), b, d', .error (.recv (.connectionClosed ())), buf', ha, rfl, by rw [h4], h2.trans hl,
          .inl ⟨rfl, rfl⟩, fun _ => rfl, fun _ => .inr rfl⟩
      | cons m ms =>
        dsimp only [netLine] at h3 ⊢
        by_cases hm : m.length ≤ buf.length
        · rw [if_pos hm] at h3
          obtain ⟨rfl, h4, h5⟩ := h3
          rw [if_pos (by omega)]
          have ht : truncateSlice b m.length = m := by rw [truncateSlice_eq, h4]
          have hr : (cuseOn attempt h).received ((.ok m.length, b), (c, d')) =
              match Request.new m with
              | .error e => ((.error (.request e), b), (c, d'))
              | .ok r => ((.ok (some r), b), (c, d')) := by
            dsimp only [cuseOn, cuseReceived]
            rw [ht]
            cases Request.new m <;> rfl
          rw [hr]
          dsimp only
          rw [truncate_message]
          have hlen : b.length = (m ++ buf'.drop m.length).length := by
            rw [List.length_append, List.length_drop]
            omega
          cases Request.new m with
          | error e =>
            exact ⟨.error (.request e), b, d', .error (.request e), m ++ buf'.drop m.length, ha, rfl, by rw [h5], hlen, rfl,
              (by rintro (h | h) <;> cases h), nofun⟩
          | ok q =>
            exact ⟨.ok (some q), b, d', .ok (some q), m ++ buf'.drop m.length, ha, rfl, by rw [h5], hlen, rfl,
              (by rintro (h | h) <;> cases h), nofun⟩
        · rw [if_neg hm] at h3
          obtain ⟨⟨e, rfl, h4⟩, h5⟩ := h3
          rw [if_neg (by omega)]
          exact ⟨.error (.recv (.other e)), b, d', .error (.recv (.other ())), buf', ha, rfl, by rw [h5], h2.trans hl,
            .inr ⟨h4, rfl⟩, (by
              rintro (h | h)
              · cases h
              · injection h with h
                injection h with h
                exact absurd h h4), nofun⟩
  dispatch r c d := by
    show (∃ f, cuseDispatch h r (c, d) = .error f ∧ cuseDispatch h' r (c, p.client d) = .error f) ∨
      ∃ c' d', cuseDispatch h r (c, d) = .ok (c', d') ∧ cuseDispatch h' r (c, p.client d) = .ok (c', p.client d')
    unfold cuseDispatch
    cases r.rawHeader with
    | error f => exact .inl ⟨f, rfl, rfl⟩
    | ok hdr =>
      have ht := cuseSelect_mirror hh hdr.opcode r (c, d) (c, p.client d) ⟨rfl, rfl⟩
      refine .inr ⟨(cuseSelect h hdr.opcode r (c, d)).1, (cuseSelect h hdr.opcode r (c, d)).2, rfl, ?_⟩
      show Except.ok (cuseSelect h' hdr.opcode r (c, p.client d)) = _
      rw [ht.1, ht.2]

/-- Events that go together: a thread finds the connection closed in both or in neither. -/
def TwinEvent (ends : RecvError ε) (e : Event ε) (e' : Event Unit) : Prop := ClosingOn ends (some e) ↔ Closing e'

theorem twin_fatal {ends : RecvError ε} {e : ServerError ε} {e' : ServerError Unit} (h : TwinError ends e e') :
    isFatalError e = isFatalError e' := by
  cases e <;> cases e' <;> first | rfl | exact h.elim

theorem worker_twin {p : Peer δ Net} {ends : RecvError ε} {svc : DeviceService (Option S × δ) ε}
    {svc' : Service (Option S × Net) Unit} (ht : TwinService p ends svc svc') {cap : Nat} {ch : List (ServerError ε)}
    {ch' : List (ServerError Unit)} (hc : Twins (TwinError ends) ch ch') {w : Worker ε} {w' : Worker Unit}
    (hw : TwinWorker ends w w') (c : Option S) (d : δ) :
    (∃ w1 d1, deviceWorkerStep svc cap ch (c, d) w = some (none, w1, ch, (c, d1)) ∧ TwinWorker ends w1 w' ∧
      p.Interrupted d d1) ∨
    (deviceWorkerStep svc cap ch (c, d) w = none ∧ workerStep svc' cap ch' (c, p.client d) w' = none) ∨
    ∃ e w1 ch1 c1 d1 e' w1' ch1', deviceWorkerStep svc cap ch (c, d) w = some (some e, w1, ch1, (c1, d1)) ∧
      workerStep svc' cap ch' (c, p.client d) w' = some (e', w1', ch1', (c1, p.client d1)) ∧ TwinWorker ends w1 w1' ∧
      Twins (TwinError ends) ch1 ch1' ∧ TwinEvent ends e e' := by
  cases w with
  | receiving buf =>
    cases w' <;> try exact hw.elim
    rename_i buf'
    rcases ht.recv buf buf' c d hw with ⟨b, d', h1, h2, h3⟩ | ⟨out, r, b, d', r', b', h1, h2, h3, h4, h5, h6⟩
    · refine .inl ⟨.receiving b, d', ?_, h2, h3⟩
      unfold deviceWorkerStep
      dsimp only
      rw [h1]
    · refine .inr (.inr ?_)
      unfold deviceWorkerStep workerStep
      dsimp only
      rw [h1, h3]
      dsimp only
      rw [h2]
      cases r with
      | error e =>
        cases r' with
        | ok x => exact h5.elim
        | error e' =>
          refine ⟨.error e, .reporting b e, ch, c, d', .error e', .reporting b' e', ch', rfl, rfl, ⟨h4, h5⟩, hc, ?_⟩
          constructor
          · rintro (h | h)
            · cases h
            · cases h
              cases e' with
              | recv y =>
                rcases h5 with ⟨-, rfl⟩ | ⟨h, -⟩
                · exact .inr rfl
                · exact absurd rfl h
              | request y => exact h5.elim
              | send y => exact h5.elim
          · rintro (h | h)
            · cases h
            · cases h
              cases e with
              | recv x =>
                rcases h5 with ⟨rfl, -⟩ | ⟨-, h⟩
                · exact .inr rfl
                · cases h
              | request y => exact h5.elim
              | send y => exact h5.elim
      | ok x =>
        cases r' with
        | error e => exact h5.elim
        | ok x' =>
          cases h5
          cases x with
          | none =>
            exact ⟨.closed, .finished, ch, c, d', .closed, .finished, ch', rfl, rfl, trivial, hc,
              fun _ => .inl rfl, fun _ => .inl rfl⟩
          | some q =>
            exact ⟨.request q, .handling b q, ch, c, d', .request q, .handling b' q, ch', rfl, rfl, ⟨h4, rfl⟩, hc,
              (by rintro (h | h) <;> cases h), (by rintro (h | h) <;> cases h)⟩
  | handling buf r =>
    cases w' <;> try exact hw.elim
    rename_i buf' r'
    obtain ⟨hl, rfl⟩ := hw
    refine .inr (.inr ?_)
    unfold deviceWorkerStep workerStep
    dsimp only
    rcases ht.dispatch r c d with ⟨f, h1, h2⟩ | ⟨c', d', h1, h2⟩
    · rw [h1, h2]
      exact ⟨.handled r, .faulted f, ch, c, d, .handled r, .faulted f, ch', rfl, rfl, rfl, hc,
        (by rintro (h | h) <;> cases h), (by rintro (h | h) <;> cases h)⟩
    · rw [h1, h2]
      exact ⟨.handled r, .receiving buf, ch, c', d', .handled r, .receiving buf', ch', rfl, rfl, hl, hc,
        (by rintro (h | h) <;> cases h), (by rintro (h | h) <;> cases h)⟩
  | reporting buf e =>
    cases w' <;> try exact hw.elim
    rename_i buf' e'
    obtain ⟨hl, he⟩ := hw
    refine .inr ?_
    unfold deviceWorkerStep workerStep
    dsimp only
    by_cases hcap : ch.length < cap
    · refine .inr ?_
      rw [if_pos hcap, if_pos (show ch'.length < cap by rw [← hc.1]; exact hcap), twin_fatal he]
      refine ⟨.reported e, _, ch ++ [e], c, d, .reported e', _, ch' ++ [e'], rfl, rfl, ?_, hc.append he,
        (by rintro (h | h) <;> cases h), (by rintro (h | h) <;> cases h)⟩
      cases isFatalError e' with
      | true => exact trivial
      | false => exact hl
    · refine .inl ?_
      rw [if_neg hcap, if_neg (show ¬ ch'.length < cap by rw [← hc.1]; exact hcap)]
      exact ⟨rfl, rfl⟩
  | finished =>
    cases w' <;> try exact hw.elim
    exact .inr (.inl ⟨rfl, rfl⟩)
  | faulted f =>
    cases w' <;> try exact hw.elim
    exact .inr (.inl ⟨rfl, rfl⟩)

/-- The same state with and without the device. -/
structure Reflects {R A α : Type} (p : Peer δ Net) (ends : RecvError ε) (m : Mounted S δ ε R A α) (q : Threaded S R A α) :
    Prop where
  clients : m.clients = q.clients
  world : q.pool.world = (m.pool.world.1, p.client m.pool.world.2)
  workers : Twins (TwinWorker ends) m.pool.workers q.pool.workers
  channel : Twins (TwinError ends) m.pool.channel q.pool.channel
  capacity : m.pool.capacity = q.pool.capacity

section
variable {R A N α : Type} {p : Peer δ Net} {ends : RecvError ε} {svc : DeviceService (Option S × δ) ε}
  {svc' : Service (Option S × Net) Unit} {wire : Wire R A N}

theorem reflects_start {d : δ} (hd : p.client d = ⟨[], []⟩) (s : S) (bufs : List Bytes) (uses : List (Calls R A α)) :
    Reflects p ends (.start s d bufs uses) (.start s bufs uses) where
  clients := rfl
  world := by
    show (some s, _) = (some s, p.client d)
    rw [hd]
  workers := by
    refine ⟨by simp [Mounted.start, Threaded.start, Pool.start], fun i x y hx hy => ?_⟩
    simp only [Mounted.start, Threaded.start, Pool.start, List.getElem?_map, Option.map_eq_some_iff] at hx hy
    obtain ⟨b, h1, rfl⟩ := hx
    obtain ⟨b', h2, rfl⟩ := hy
    rw [h1] at h2
    cases h2
    rfl
  channel := ⟨rfl, fun i x y hx => nomatch hx⟩
  capacity := rfl

theorem reflects_net {m : Mounted S δ ε R A α} {q : Threaded S R A α} (h : Reflects p ends m q) :
    q.net = p.client m.device := by
  unfold Threaded.net Mounted.device
  rw [h.world]

/-- A step on the device is one without it, or a system call that was interrupted. -/
theorem reflects_step (ht : TwinService p ends svc svc') {e : Option (Visible R A N)} {m m' : Mounted S δ ε R A α}
    {q : Threaded S R A α} (h : Reflects p ends m q) (hst : Mounted.Step svc ends p wire e m m') :
    (e = none ∧ Reflects p ends m' q ∧ p.interrupts m'.device < p.interrupts m.device) ∨
    ∃ q', Threaded.Step svc' wire e q q' ∧ Reflects p ends m' q' := by
  have hnet := reflects_net h
  cases hst with
  | call h1 h2 h3 h4 h5 =>
    rw [h.clients] at h1 h3
    rw [← hnet] at h4 h5
    refine .inr ⟨_, .call h1 h2 h3 h4, ?_⟩
    rw [h.clients]
    exact ⟨rfl, Prod.ext (congrArg (fun x => x.1) h.world : q.pool.world.1 = m.pool.world.1) h5.symm, h.workers, h.channel, h.capacity⟩
  | ret h1 h2 h3 h4 =>
    rw [h.clients] at h1
    rw [← hnet] at h2 h4
    refine .inr ⟨_, .ret h1 h2 h3, ?_⟩
    rw [h.clients]
    exact ⟨rfl, Prod.ext (congrArg (fun x => x.1) h.world : q.pool.world.1 = m.pool.world.1) h4.symm, h.workers, h.channel, h.capacity⟩
  | news h1 h2 h3 =>
    rw [← hnet] at h1 h3
    refine .inr ⟨_, .news h1 h2, ?_⟩
    rw [h.clients]
    exact ⟨rfl, Prod.ext (congrArg (fun x => x.1) h.world : q.pool.world.1 = m.pool.world.1) h3.symm, h.workers, h.channel, h.capacity⟩
  | work h1 h2 =>
    cases h1 with
    | @mk _ i w w1 e ch s hw hs =>
      obtain ⟨w', hw', htw⟩ := h.workers.get hw
      rcases worker_twin ht (cap := m.pool.capacity) h.channel htw m.pool.world.1 m.pool.world.2 with
        ⟨w2, d1, h3, h4, h5⟩ | ⟨h3, -⟩ | ⟨e2, w2, ch1, c1, d1, e', w1', ch1', h3, h4, h5, h6, h7⟩
      · have hs' := hs.symm.trans h3
        cases hs'
        refine .inl ⟨rfl, ⟨h.clients, ?_, ?_, h.channel, h.capacity⟩, h5.2⟩
        · show q.pool.world = (m.pool.world.1, p.client d1)
          rw [h5.1]
          exact h.world
        · have := h.workers.set h4 i
          rwa [show q.pool.workers.set i w' = q.pool.workers from by
            obtain ⟨hi, rfl⟩ := List.getElem?_eq_some_iff.mp hw'
            exact List.set_getElem_self hi] at this
      · have hs' := hs.symm.trans h3
        cases hs'
      · have hs' := hs.symm.trans h3
        cases hs'
        refine .inr ⟨⟨⟨(c1, p.client d1), q.pool.workers.set i w1', ch1', q.pool.capacity⟩, q.clients⟩, .work (e := e') ?_ ?_, ?_⟩
        · refine .mk hw' ?_
          rw [← h.capacity, h.world]
          exact h4
        · rw [← h.clients]
          exact fun hcl => h2 (h7.mpr hcl)
        · exact ⟨h.clients, rfl, h.workers.set h5 i, h6, h.capacity⟩

/-- A step without the device is one on it, or a system call is interrupted. -/
theorem reflects_back (ht : TwinService p ends svc svc') (hall : ∀ net, ∃ d, p.client d = net) {e : Option (Visible R A N)}
    {m : Mounted S δ ε R A α} {q q' : Threaded S R A α} (h : Reflects p ends m q) (hst : Threaded.Step svc' wire e q q') :
    ∃ m', (Mounted.Step svc ends p wire none m m' ∧ Reflects p ends m' q ∧ p.interrupts m'.device < p.interrupts m.device) ∨
      (Mounted.Step svc ends p wire e m m' ∧ Reflects p ends m' q') := by
  have hnet := reflects_net h
  have hstate : q.pool.world.1 = m.pool.world.1 := by rw [h.world]
  cases hst with
  | call h1 h2 h3 h4 =>
    obtain ⟨d, hd⟩ := hall _
    refine ⟨_, .inr ⟨.call (h.clients ▸ h1) h2 (h.clients ▸ h3) (hnet ▸ h4) hd, ?_⟩⟩
    rw [h.clients]
    exact ⟨rfl, Prod.ext hstate (by rw [← hnet] at hd; exact hd.symm), h.workers, h.channel, h.capacity⟩
  | ret h1 h2 h3 =>
    obtain ⟨d, hd⟩ := hall _
    refine ⟨_, .inr ⟨.ret (h.clients ▸ h1) (hnet ▸ h2) h3 hd, ?_⟩⟩
    rw [h.clients]
    exact ⟨rfl, Prod.ext hstate (by rw [← hnet] at hd; exact hd.symm), h.workers, h.channel, h.capacity⟩
  | news h1 h2 =>
    obtain ⟨d, hd⟩ := hall _
    refine ⟨_, .inr ⟨.news (hnet ▸ h1) h2 hd, ?_⟩⟩
    rw [h.clients]
    exact ⟨rfl, Prod.ext hstate (by rw [← hnet] at hd; exact hd.symm), h.workers, h.channel, h.capacity⟩
  | work h1 h2 =>
    cases h1 with
    | @mk _ i w w1 e ch s hw hs =>
      obtain ⟨w', hw', htw⟩ := h.workers.get' hw
      rw [← h.capacity, h.world] at hs
      rcases worker_twin ht (cap := m.pool.capacity) h.channel htw m.pool.world.1 m.pool.world.2 with
        ⟨w2, d1, h3, h4, h5⟩ | ⟨-, h3⟩ | ⟨e2, w2, ch1, c1, d1, e', w1', ch1', h3, h4, h5, h6, h7⟩
      · have hst : Mounted.Step svc ends p wire none m _ := .work (.mk hw' h3) (by rintro (h | h) <;> cases h)
        refine ⟨_, .inl ⟨hst, ⟨h.clients, ?_, ?_, h.channel, h.capacity⟩, h5.2⟩⟩
        · show q.pool.world = (m.pool.world.1, p.client d1)
          rw [h5.1]
          exact h.world
        · have := h.workers.set h4 i
          rwa [show q.pool.workers.set i w = q.pool.workers from by
            obtain ⟨hi, rfl⟩ := List.getElem?_eq_some_iff.mp hw
            exact List.set_getElem_self hi] at this
      · have hs' := hs.symm.trans h3
        cases hs'
      · have hs' := hs.symm.trans h4
        cases hs'
        rw [← h.clients] at h2
        have hst : Mounted.Step svc ends p wire none m _ := .work (.mk hw' h3) fun hcl => h2 (h7.mp hcl)
        refine ⟨_, .inr ⟨hst, h.clients, rfl, h.workers.set h5 i, h6, h.capacity⟩⟩

/-- A step without the device, on it: after a number of interruptions. -/
theorem reflects_after (ht : TwinService p ends svc svc') (hall : ∀ net, ∃ d, p.client d = net) {m0 : Mounted S δ ε R A α}
    {es : List (Visible R A N)} {e : Option (Visible R A N)} {q q' : Threaded S R A α} (hst : Threaded.Step svc' wire e q q') :
    ∀ (n : Nat) {m : Mounted S δ ε R A α}, Mounted.Run svc ends p wire m0 es m → Reflects p ends m q →
      p.interrupts m.device = n → ∃ m', Mounted.Run svc ends p wire m0 (es ++ e.toList) m' ∧ Reflects p ends m' q' := by
  intro n
  induction n using Nat.strongRecOn with
  | ind n ih =>
    intro m hr h hn
    obtain ⟨m', ⟨h1, h2, h3⟩ | ⟨h1, h2⟩⟩ := reflects_back ht hall h hst
    · refine ih _ (by rw [← hn]; exact h3) ?_ h2 rfl
      have := hr.step h1
      rwa [Option.toList_none, List.append_nil] at this
    · exact ⟨m', hr.step h1, h2⟩

theorem reflects_onto (ht : TwinService p ends svc svc') (hall : ∀ net, ∃ d, p.client d = net) {m0 : Mounted S δ ε R A α}
    {q0 : Threaded S R A α} (h0 : Reflects p ends m0 q0) {es : List (Visible R A N)} {q : Threaded S R A α}
    (h : Threaded.Run svc' wire q0 es q) : ∃ m, Mounted.Run svc ends p wire m0 es m ∧ Reflects p ends m q := by
  induction h with
  | start => exact ⟨m0, .start, h0⟩
  | step _ hst ih =>
    obtain ⟨m, h1, h2⟩ := ih
    exact reflects_after ht hall hst _ h1 h2 rfl

theorem reflects_run (ht : TwinService p ends svc svc') {m0 : Mounted S δ ε R A α} {q0 : Threaded S R A α}
    (h0 : Reflects p ends m0 q0) {es : List (Visible R A N)} {m : Mounted S δ ε R A α}
    (h : Mounted.Run svc ends p wire m0 es m) : ∃ q, Threaded.Run svc' wire q0 es q ∧ Reflects p ends m q := by
  induction h with
  | start => exact ⟨q0, .start, h0⟩
  | step _ hst ih =>
    obtain ⟨q, h1, h2⟩ := ih
    rcases reflects_step ht h2 hst with ⟨rfl, h3, _⟩ | ⟨q', h3, h4⟩
    · exact ⟨q, by rw [Option.toList_none, List.append_nil]; exact h1, h3⟩
    · exact ⟨q', .step h1 h3, h4⟩

theorem reflects_returned {m : Mounted S δ ε R A α} {q : Threaded S R A α} (h : Reflects p ends m q) :
    m.pool.Returned ↔ q.pool.Returned := by
  constructor
  · intro hr w hw
    obtain ⟨i, hi⟩ := List.mem_iff_getElem?.mp hw
    obtain ⟨w', h1, h2⟩ := h.workers.get' hi
    rw [hr w' (List.mem_iff_getElem?.mpr ⟨i, h1⟩)] at h2
    cases w <;> first | rfl | exact h2.elim
  · intro hr w hw
    obtain ⟨i, hi⟩ := List.mem_iff_getElem?.mp hw
    obtain ⟨w', h1, h2⟩ := h.workers.get hi
    rw [hr w' (List.mem_iff_getElem?.mpr ⟨i, h1⟩)] at h2
    cases w <;> first | rfl | exact h2.elim

/-- Where there is no endless descent, there is induction. -/
theorem acc_of_ends {X : Type} {r : X → X → Prop} {x : X} (h : ∀ f : Nat → X, f 0 = x → ¬ ∀ i, r (f (i + 1)) (f i)) :
    Acc r x := by
  refine Classical.byContradiction fun hx => ?_
  have next : ∀ y : { y // ¬ Acc r y }, ∃ z : { z // ¬ Acc r z }, r z.1 y.1 := fun y =>
    Classical.byContradiction fun hn => y.2 ⟨y.1, fun z hz => Classical.byContradiction fun ha => hn ⟨⟨z, ha⟩, hz⟩⟩
  let f : Nat → { y // ¬ Acc r y } := fun i => Nat.rec ⟨x, hx⟩ (fun _ y => Classical.choose (next y)) i
  exact h (fun i => (f i).1) rfl fun i => Classical.choose_spec (next (f i))

theorem reflects_ends (ht : TwinService p ends svc svc') {q : Threaded S R A α}
    (ha : Acc (fun y x => ∃ e, Threaded.Step svc' wire e x y) q) :
    ∀ (n : Nat) {m : Mounted S δ ε R A α}, Reflects p ends m q → p.interrupts m.device = n →
      Acc (fun y x => ∃ e, Mounted.Step svc ends p wire e x y) m := by
  induction ha with
  | intro q _ ih =>
    intro n
    induction n using Nat.strongRecOn with
    | ind n ihn =>
      intro m h hn
      refine ⟨m, fun m' ⟨e, hst⟩ => ?_⟩
      rcases reflects_step ht h hst with ⟨-, h1, h2⟩ | ⟨q', h1, h2⟩
      · exact ihn _ (by rw [← hn]; exact h2) h1 rfl
      · exact ih q' ⟨e, h1⟩ _ h2 rfl

end

/-- What the threads report: that the connection is closed, once each, if `serve_fuse` or `serve_cuse` reports that. -/
def farewellOn (ends : RecvError ε) (loud : Bool) (threads : Nat) : List (ServerError ε) :=
  if loud then List.replicate threads (.recv ends) else []

theorem twins_farewell {ends : RecvError ε} {l : List (ServerError ε)} {loud : Bool} {n : Nat}
    (h : Twins (TwinError ends) l (farewell loud n)) : l = farewellOn ends loud n := by
  unfold farewell at h
  unfold farewellOn
  cases loud with
  | false => exact List.length_eq_zero_iff.mp h.1
  | true =>
    refine List.eq_replicate_iff.mpr ⟨by simpa using h.1, fun e he => ?_⟩
    obtain ⟨i, hi⟩ := List.mem_iff_getElem?.mp he
    obtain ⟨e', h1, h2⟩ := h.get hi
    have := List.eq_of_mem_replicate (List.mem_iff_getElem?.mpr ⟨i, h1⟩)
    subst this
    cases e with
    | recv x =>
      rcases h2 with ⟨rfl, -⟩ | ⟨-, h⟩
      · rfl
      · cases h
    | request x => exact h2.elim
    | send x => exact h2.elim

/-- Operations take place one at a time on a device; see `Atomic`.  At first there is nothing in the device. -/
structure AtomicOn {S R A N : Type} (svc : DeviceService (Option S × δ) ε) (ends : RecvError ε) (p : Peer δ Net)
    (wire : Wire R A N) (act : R → S → List N × A × S) (ok : R → Prop) (allows : R → A → Prop) (inv : S → Prop) (n : Nat)
    (loud : Bool) : Prop where
  /-- Whatever is seen could have been seen using what is served directly, every operation taking place in one instant
  between its call and its return. -/
  object : ∀ {α : Type} {s : S}, inv s → ∀ {d : δ}, p.client d = ⟨[], []⟩ → ∀ {uses : List (Calls R A α)} {bufs : List Bytes},
    (∀ u ∈ uses, u.Asks ok allows) → (∀ b ∈ bufs, n ≤ b.length) →
    ∀ {es : List (Visible R A N)} {m : Mounted S δ ε R A α}, Mounted.Run svc ends p wire (.start s d bufs uses) es m →
    ∃ o, Object.Run wire.toStyle act (.start s uses) es o ∧ o.clients = m.clients ∧ m.state = some o.state ∧
      (∃ k, k ≤ bufs.length ∧ m.pool.channel = farewellOn ends loud k) ∧
      (bufs ≠ [] → m.pool.Returned → (∀ t ∈ o.clients, t.Ended) ∧ o.pending = [] ∧ o.answers = [] ∧
        (p.client m.device).replies.map wire.news = o.announced.map some ∧
        m.pool.channel = farewellOn ends loud bufs.length)
  /-- As long as not all programs have ended and all threads have returned, something can happen, if the device can be in any
  state as far as the programs are concerned. -/
  progress : (∀ net, ∃ d, p.client d = net) → ∀ {α : Type} {s : S}, inv s → ∀ {d : δ}, p.client d = ⟨[], []⟩ →
    ∀ {uses : List (Calls R A α)} {bufs : List Bytes},
    (∀ u ∈ uses, u.Asks ok allows) → (∀ b ∈ bufs, n ≤ b.length) → bufs ≠ [] → uses.length < 2 ^ 64 - 1 →
    ∀ {es : List (Visible R A N)} {m : Mounted S δ ε R A α}, Mounted.Run svc ends p wire (.start s d bufs uses) es m →
    (∃ e m', Mounted.Step svc ends p wire e m m') ∨ ((∀ t ∈ m.clients, t.Ended) ∧ m.pool.Returned)
  /-- It cannot go on forever. -/
  stops : ∀ {α : Type} {s : S}, inv s → ∀ {d : δ}, p.client d = ⟨[], []⟩ → ∀ {uses : List (Calls R A α)} {bufs : List Bytes},
    (∀ u ∈ uses, u.Asks ok allows) → (∀ b ∈ bufs, n ≤ b.length) → ∀ f : Nat → Mounted S δ ε R A α,
    f 0 = .start s d bufs uses → ¬ ∀ i, ∃ e, Mounted.Step svc ends p wire e (f i) (f (i + 1))
  /-- When all threads have returned, what is served is as it would be if what has been called for, all of it and each once,
  had been done in some order, one after the other; and what that would announce has been announced, nothing else and
  nothing twice. -/
  order : ∀ {α : Type} {s : S}, inv s → ∀ {d : δ}, p.client d = ⟨[], []⟩ → ∀ {uses : List (Calls R A α)} {bufs : List Bytes},
    (∀ u ∈ uses, u.Asks ok allows) → (∀ b ∈ bufs, n ≤ b.length) → bufs ≠ [] →
    ∀ {es : List (Visible R A N)} {m : Mounted S δ ε R A α}, Mounted.Run svc ends p wire (.start s d bufs uses) es m →
    m.pool.Returned →
    ∃ l, l.Perm (Visible.calls es) ∧ m.state = some (inTurn act s l).2 ∧
      (Visible.heard es ++ (p.client m.device).replies.map wire.news).Perm ((inTurn act s l).1.map some)
  /-- A program that is alone and waits for its answers gets the result it would get using what is served itself. -/
  single : ∀ {α : Type} {s : S}, inv s → ∀ {d : δ}, p.client d = ⟨[], []⟩ → ∀ {use : Calls R A α} {bufs : List Bytes},
    use.Asks ok allows → use.Waits wire.toStyle → (∀ b ∈ bufs, n ≤ b.length) → bufs ≠ [] →
    ∀ {es : List (Visible R A N)} {m : Mounted S δ ε R A α}, Mounted.Run svc ends p wire (.start s d bufs [use]) es m →
    m.pool.Returned → m.clients = [.ready (.done (use.run act s).1)] ∧ m.state = some (use.run act s).2

/-- The state stays as `inv` says, and no thread panics; see `Kept`. -/
def KeptOn {S R A N : Type} (svc : DeviceService (Option S × δ) ε) (ends : RecvError ε) (p : Peer δ Net) (wire : Wire R A N)
    (ok : R → Prop) (allows : R → A → Prop) (inv : S → Prop) (n : Nat) : Prop :=
  ∀ {α : Type} {s : S}, inv s → ∀ {d : δ}, p.client d = ⟨[], []⟩ → ∀ {uses : List (Calls R A α)} {bufs : List Bytes},
    (∀ u ∈ uses, u.Asks ok allows) → (∀ b ∈ bufs, n ≤ b.length) →
    ∀ {es : List (Visible R A N)} {m : Mounted S δ ε R A α}, Mounted.Run svc ends p wire (.start s d bufs uses) es m →
    ∃ s', m.state = some s' ∧ inv s'

/-- Just what has been asked for has been done, in some order; see `Ordered`. -/
def OrderedOn {S O : Type} (svc : DeviceService (Option S × δ) ε) (ends : RecvError ε) (p : Peer δ Net)
    (wire : Wire Bytes Ans Empty) (ok : Bytes → Prop) (allows : Bytes → Ans → Prop) (inv : S → Prop) (n : Nat)
    (ask : Bytes → Option (Caller × O)) (act : Caller → O → S → Ans × S) : Prop :=
  ∀ {α : Type} {s : S}, inv s → ∀ {d : δ}, p.client d = ⟨[], []⟩ → ∀ {uses : List (Calls Bytes Ans α)} {bufs : List Bytes},
    (∀ u ∈ uses, u.Asks ok allows) → (∀ b ∈ bufs, n ≤ b.length) → bufs ≠ [] →
    ∀ {es : List (Visible Bytes Ans Empty)} {m : Mounted S δ ε Bytes Ans α},
    Mounted.Run svc ends p wire (.start s d bufs uses) es m → m.pool.Returned →
    ∃ l : List (Caller × O), l.Perm ((Visible.calls es).filterMap ask) ∧
      m.state = some (l.foldl (fun s x => (act x.1 x.2 s).2) s)

section
variable {R A N : Type} {p : Peer δ Net} {ends : RecvError ε} {svc : DeviceService (Option S × δ) ε}
  {svc' : Service (Option S × Net) Unit} {wire : Wire R A N} {act : R → S → List N × A × S} {ok : R → Prop}
  {allows : R → A → Prop} {inv : S → Prop} {n : Nat} {loud : Bool}

theorem reflects_state {m : Mounted S δ ε R A α} {q : Threaded S R A α} (h : Reflects p ends m q) : q.state = m.state := by
  unfold Threaded.state Mounted.state
  rw [h.world]

theorem Atomic.mounted (h : Atomic svc' wire act ok allows inv n loud) (ht : TwinService p ends svc svc') :
    AtomicOn svc ends p wire act ok allows inv n loud where
  object hs _ hd uses bufs hu hb es m hr := by
    obtain ⟨q, h1, h2⟩ := reflects_run ht (reflects_start hd _ _ _) hr
    obtain ⟨o, h3, h4, h5, ⟨k, h6, h7⟩, h8⟩ := h.object hs hu hb h1
    refine ⟨o, h3, h4.trans h2.clients.symm, (reflects_state h2).symm.trans h5, ⟨k, h6, ?_⟩, fun hne hret => ?_⟩
    · exact twins_farewell (by rw [← h7]; exact h2.channel)
    · obtain ⟨h9, h10, h11, h12, h13⟩ := h8 hne ((reflects_returned h2).mp hret)
      exact ⟨h9, h10, h11, by rw [← reflects_net h2]; exact h12, twins_farewell (by rw [← h13]; exact h2.channel)⟩
  progress hall _ s hs _ hd uses bufs hu hb hne hl es m hr := by
    obtain ⟨q, h1, h2⟩ := reflects_run ht (reflects_start hd _ _ _) hr
    rcases h.progress hs hu hb hne hl h1 with ⟨e, q', h3⟩ | ⟨h3, h4⟩
    · obtain ⟨m', ⟨h4, -⟩ | ⟨h4, -⟩⟩ := reflects_back ht hall h2 h3
      · exact .inl ⟨_, m', h4⟩
      · exact .inl ⟨_, m', h4⟩
    · exact .inr ⟨by rw [h2.clients]; exact h3, (reflects_returned h2).mpr h4⟩
  stops hs _ hd uses bufs hu hb f hf hinf := by
    have ha := reflects_ends ht (acc_of_ends fun g hg hi => h.ends hs hu hb g hg hi) _ (reflects_start hd _ bufs uses) rfl
    rw [← hf] at ha
    have : ∀ x, Acc (fun y x => ∃ e, Mounted.Step svc ends p wire e x y) x → ∀ i, f i ≠ x := by
      intro x hx
      induction hx with
      | intro x _ ih =>
        intro i hi
        refine ih (f (i + 1)) ?_ (i + 1) rfl
        rw [← hi]
        exact hinf i
    exact this _ ha 0 rfl
  order hs _ hd uses bufs hu hb hne es m hr hret := by
    obtain ⟨q, h1, h2⟩ := reflects_run ht (reflects_start hd _ _ _) hr
    rw [← reflects_net h2, ← reflects_state h2]
    exact h.order hs hu hb hne h1 ((reflects_returned h2).mp hret)
  single hs _ hd use bufs hu hw hb hne es m hr hret := by
    obtain ⟨q, h1, h2⟩ := reflects_run ht (reflects_start hd _ _ _) hr
    rw [h2.clients, ← reflects_state h2]
    exact h.single hs hu hw hb hne h1 ((reflects_returned h2).mp hret)

theorem kept_mounted (h : Kept svc' wire ok allows inv n) (ht : TwinService p ends svc svc') :
    KeptOn svc ends p wire ok allows inv n := by
  intro _ s hs d hd uses bufs hu hb es m hr
  obtain ⟨q, h1, h2⟩ := reflects_run ht (reflects_start hd _ _ _) hr
  rw [← reflects_state h2]
  exact h hs hu hb h1

theorem ordered_mounted {O : Type} {wire : Wire Bytes Ans Empty} {ok : Bytes → Prop} {allows : Bytes → Ans → Prop}
    {ask : Bytes → Option (Caller × O)} {act : Caller → O → S → Ans × S} (h : Ordered svc' wire ok allows inv n ask act)
    (ht : TwinService p ends svc svc') : OrderedOn svc ends p wire ok allows inv n ask act := by
  intro _ s hs d hd uses bufs hu hb hne es m hr hret
  obtain ⟨q, h1, h2⟩ := reflects_run ht (reflects_start hd _ _ _) hr
  rw [← reflects_state h2]
  exact h hs hu hb hne h1 ((reflects_returned h2).mp hret)

/-- There is a run to the end. -/
theorem AtomicOn.complete (h : AtomicOn svc ends p wire act ok allows inv n loud) (hall : ∀ net, ∃ d, p.client d = net)
    {s : S} (hs : inv s) {d : δ} (hd : p.client d = ⟨[], []⟩) {uses : List (Calls R A α)} {bufs : List Bytes}
    (hu : ∀ u ∈ uses, u.Asks ok allows) (hb : ∀ b ∈ bufs, n ≤ b.length) (hne : bufs ≠ []) (hl : uses.length < 2 ^ 64 - 1) :
    ∃ es m, Mounted.Run svc ends p wire (.start s d bufs uses) es m ∧ (∀ t ∈ m.clients, t.Ended) ∧ m.pool.Returned := by
  have ha : Acc (fun y x => ∃ e, Mounted.Step svc ends p wire e x y) (.start s d bufs uses) :=
    acc_of_ends fun f hf hi => h.stops hs hd hu hb f hf hi
  have key : ∀ m, Acc (fun y x => ∃ e, Mounted.Step svc ends p wire e x y) m → ∀ es,
      Mounted.Run svc ends p wire (.start s d bufs uses) es m →
      ∃ es m, Mounted.Run svc ends p wire (.start s d bufs uses) es m ∧ (∀ t ∈ m.clients, t.Ended) ∧ m.pool.Returned := by
    intro m hm
    induction hm with
    | intro m _ ih =>
      intro es hr
      rcases h.progress hall hs hd hu hb hne hl hr with ⟨e, m', hst⟩ | hend
      · exact ih m' ⟨e, hst⟩ _ (.step hr hst)
      · exact ⟨es, m, hr, hend⟩
  exact key _ ha [] .start

end

end

end Many

/-! ## Filesystems that send notifications -/

section
variable {ω τ S : Type} {eof : Bool} {Q : ω → τ → Prop} {sock : Socket (Option S × ω) ε} {sock' : Socket (Option S × τ) ε'}

theorem announcement_carries (a : Announcement) (h : a.size < 2 ^ 32) :
    ∃ buf msg, a.build.encode ResponseHeader.newNotification = .ok buf ∧ Carries buf msg ∧ msg.length = a.size := by
  obtain ⟨buf, msg, h1, h2, h3, -⟩ := C36_partial
    (⟨fun b s => ((.ok 0, b), s), fun _ _ => rfl, fun b _ => (.ok (), some b)⟩ : Socket (Option SendBuf) Unit) a none h
  refine ⟨buf, msg, ?_, h2, h3⟩
  unfold notify at h1
  cases he : a.build.encode ResponseHeader.newNotification with
  | error f => rw [he] at h1; cases h1
  | ok b =>
    rw [he] at h1
    have := congrArg (fun x => match x with | Except.ok (_, s) => s | _ => none) h1
    exact congrArg Except.ok (Option.some.inj this)

theorem announceAll_mirror (hm : Mirrors eof Q sock sock') (l : List Announcement) (hl : ∀ a ∈ l, a.size < 2 ^ 32) :
    ∀ {x : Option S × ω} {y : Option S × τ}, Twin Q x y → Twin Q (announceAll sock l x) (announceAll sock' l y) := by
  induction l with
  | nil => exact fun ht => ht
  | cons a l ih =>
    intro x y ht
    obtain ⟨buf, msg, h1, h2, h3⟩ := announcement_carries a (hl a List.mem_cons_self)
    obtain ⟨h4, h5, h6⟩ := hm.send buf buf msg x y h2 h2 (by rw [h3]; exact hl a List.mem_cons_self) ht
    unfold announceAll
    rw [notify_of_encode _ _ _ h1, notify_of_encode _ _ _ h1]
    revert h4 h5 h6
    generalize sock.send buf x = o
    generalize sock'.send buf y = o'
    obtain ⟨r, x'⟩ := o
    obtain ⟨r', y'⟩ := o'
    rintro rfl rfl h6
    exact ih (fun a ha => hl a (List.mem_cons_of_mem _ ha)) h6

/-- What is announced is less than 4 GiB each. -/
def NoteServer.Brief (srv : NoteServer S) : Prop :=
  ∀ who op s, ∀ a ∈ (srv.act who op s).1.before ++ (srv.act who op s).1.after, a.size < 2 ^ 32

theorem note_answer_mirror (hm : Mirrors eof Q sock sock') (srv : NoteServer S) (hb : srv.Brief) (t : ReqType) (r : Request)
    (s : S) {w : ω} {u : τ} (hq : Q w u) : Twin Q (srv.answer sock t r s w) (srv.answer sock' t r s u) := by
  obtain ⟨act, layout, checks, os, addr⟩ := srv
  unfold NoteServer.answer
  cases Filesystem.idAndHeader r with
  | error f => exact ⟨rfl, hq⟩
  | ok h =>
    obtain ⟨id, hdr⟩ := h
    cases r.decode (decodeAny t) with
    | error f => exact ⟨rfl, hq⟩
    | ok q =>
      dsimp only
      cases q.op with
      | error f => exact ⟨rfl, hq⟩
      | ok op =>
        cases op with
        | none => exact ⟨rfl, hq⟩
        | some op =>
          dsimp only
          have hb := hb ⟨hdr.uid, hdr.gid, hdr.pid⟩ op s
          dsimp only at hb
          revert hb
          generalize act ⟨hdr.uid, hdr.gid, hdr.pid⟩ op s = p
          obtain ⟨a, s⟩ := p
          intro hb
          dsimp only at hb ⊢
          have h1 := announceAll_mirror hm a.before (fun b h => hb b (List.mem_append_left _ h)) (x := (some s, w))
            (y := (some s, u)) ⟨rfl, hq⟩
          revert h1
          generalize announceAll sock a.before (some s, w) = o
          generalize announceAll sock' a.before (some s, u) = o'
          obtain ⟨c, w⟩ := o
          obtain ⟨c', u⟩ := o'
          rintro ⟨h1, hq⟩
          dsimp only at h1 hq
          subst h1
          cases c with
          | none => exact ⟨rfl, hq⟩
          | some s =>
            dsimp only
            have after : ∀ {s : S} {w : ω} {u : τ}, Q w u →
                Twin Q (announceAll sock a.after (some s, w)) (announceAll sock' a.after (some s, u)) := fun hq =>
              announceAll_mirror hm a.after (fun b h => hb b (List.mem_append_right _ h)) ⟨rfl, hq⟩
            cases a.ans.reply os (addr op) op.room with
            | error f => exact ⟨rfl, hq⟩
            | ok r =>
              cases r with
              | none => exact after hq
              | some r =>
                dsimp only
                have h := sends_mirror hm (x := (some s, w)) (y := (some s, u)) ⟨rfl, hq⟩
                  (fuse_answer_once sock layout id r (some s, w)) (fuse_answer_once sock' layout id r (some s, u))
                revert h
                generalize FuseAnswer.run (.new sock layout id) r (some s, w) = o
                generalize FuseAnswer.run (.new sock' layout id) r (some s, u) = o'
                rintro ⟨ht, ⟨h1, h2⟩ | ⟨n, h1, h2⟩⟩ <;> obtain ⟨r, c, w⟩ := o <;> obtain ⟨r', c', u⟩ := o' <;>
                  dsimp only at h1 h2 <;> subst h1 h2 <;> obtain ⟨h1, hq⟩ := ht <;> dsimp only at h1 hq <;> subst h1
                · cases c with
                  | none => exact ⟨rfl, hq⟩
                  | some s => exact after hq
                · exact ⟨rfl, hq⟩

theorem note_handlers_mirror (hm : Mirrors eof Q sock sock') (srv : NoteServer S) (hb : srv.Brief) :
    MirrorHandlers Q (srv.handlers sock) (srv.handlers sock') where
  unimplemented _ _ _ ht := ⟨rfl, ht.2⟩
  overridden m := by
    unfold NoteServer.handlers
    dsimp only
    cases m.reqType srv.layout srv.checks with
    | none => exact .inl ⟨rfl, rfl⟩
    | some t => exact .inr ⟨_, _, rfl, rfl, fun r => state_mirror fun s _ _ => note_answer_mirror hm srv hb t r s⟩

end

/-! ## The theorems -/

section
open Many
variable {S : Type} {sock : Socket δ ε} {attempt : Bytes × δ → ((Except (RecvError ε) Nat × Bytes) × δ) ⊕ (Bytes × δ)}
  {ends : RecvError ε} {p : Peer δ Net} {eof : Bool}

/-- C88, what it comes from: threads of `serve_fuse` and the programs on the other side of a device do, whatever is
interrupted, what they do without it, and the other way round, if the device can be in any state as far as the programs are
concerned.  The same is seen, programs and what is served are in the same state, the same messages are on their way, and if
all threads have returned in one, they have in the other. -/
theorem C88_threads (hd : OnCalls netLine sock attempt ends p true)
    {h : {ω ε : Type} → Socket (Option S × ω) ε → Handlers FuseMethod (Option S × ω)} (hh : Transparent h)
    {R A N α : Type} (wire : Many.Wire R A N) (s : S) (d : δ) (h0 : p.client d = ⟨[], []⟩) (bufs : List Bytes)
    (uses : List (Calls R A α)) (es : List (Many.Visible R A N)) :
    (∀ m, Many.Mounted.Run (fuseOn attempt (h (sock.beside (Option S)))) ends p wire (.start s d bufs uses) es m →
      ∃ q, Many.Threaded.Run (fuseService (Net.socket S) (h (Net.socket S))) wire (.start s bufs uses) es q ∧
        q.clients = m.clients ∧ q.state = m.state ∧ q.net = p.client m.device ∧ (m.pool.Returned ↔ q.pool.Returned)) ∧
    ((∀ net, ∃ d, p.client d = net) →
      ∀ q, Many.Threaded.Run (fuseService (Net.socket S) (h (Net.socket S))) wire (.start s bufs uses) es q →
      ∃ m, Many.Mounted.Run (fuseOn attempt (h (sock.beside (Option S)))) ends p wire (.start s d bufs uses) es m ∧
        q.clients = m.clients ∧ q.state = m.state ∧ q.net = p.client m.device ∧ (m.pool.Returned ↔ q.pool.Returned)) := by
  have ht := fuse_twin hd (hh (line_mirrors (on_calls_line hd) net_line))
  constructor
  · intro m hr
    obtain ⟨q, h1, h2⟩ := reflects_run ht (reflects_start h0 _ _ _) hr
    exact ⟨q, h1, h2.clients.symm, reflects_state h2, reflects_net h2, reflects_returned h2⟩
  · intro hall q hr
    obtain ⟨m, h1, h2⟩ := reflects_onto ht hall (reflects_start h0 _ _ _) hr
    exact ⟨m, h1, h2.clients.symm, reflects_state h2, reflects_net h2, reflects_returned h2⟩

/-- C88: the same for the threads of `serve_cuse`. -/
theorem C88_cuse_threads (hd : OnCalls netLine sock attempt ends p eof)
    {h : {ω ε : Type} → Socket (Option S × ω) ε → Handlers CuseMethod (Option S × ω)} (hh : Transparent h)
    {R A N α : Type} (wire : Many.Wire R A N) (s : S) (d : δ) (h0 : p.client d = ⟨[], []⟩) (bufs : List Bytes)
    (uses : List (Calls R A α)) (es : List (Many.Visible R A N)) :
    (∀ m, Many.Mounted.Run (cuseOn attempt (h (sock.beside (Option S)))) ends p wire (.start s d bufs uses) es m →
      ∃ q, Many.Threaded.Run (cuseService (Net.socket S) (h (Net.socket S))) wire (.start s bufs uses) es q ∧
        q.clients = m.clients ∧ q.state = m.state ∧ q.net = p.client m.device ∧ (m.pool.Returned ↔ q.pool.Returned)) ∧
    ((∀ net, ∃ d, p.client d = net) →
      ∀ q, Many.Threaded.Run (cuseService (Net.socket S) (h (Net.socket S))) wire (.start s bufs uses) es q →
      ∃ m, Many.Mounted.Run (cuseOn attempt (h (sock.beside (Option S)))) ends p wire (.start s d bufs uses) es m ∧
        q.clients = m.clients ∧ q.state = m.state ∧ q.net = p.client m.device ∧ (m.pool.Returned ↔ q.pool.Returned)) := by
  have ht := cuse_twin hd (hh (line_mirrors (on_calls_line hd) net_line))
  constructor
  · intro m hr
    obtain ⟨q, h1, h2⟩ := reflects_run ht (reflects_start h0 _ _ _) hr
    exact ⟨q, h1, h2.clients.symm, reflects_state h2, reflects_net h2, reflects_returned h2⟩
  · intro hall q hr
    obtain ⟨m, h1, h2⟩ := reflects_onto ht hall (reflects_start h0 _ _ _) hr
    exact ⟨m, h1, h2.clients.symm, reflects_state h2, reflects_net h2, reflects_returned h2⟩

/-- **C88** for filesystems, from version 7.12 on: whatever the number of threads that read from the device, and whichever of
their system calls are interrupted, operations take place one at a time. -/
theorem C88_fuse (hd : OnCalls netLine sock attempt ends p true) (srv : NoteServer S) (hbrief : srv.Brief)
    (haddr : ∀ op, srv.addr op % 8 = 0) (h12 : 12 ≤ srv.layout.versionMinor.toNat) (ext : Bool)
    (hext : ext = true ↔ srv.layout.features &&& 1 ≠ 0) (inv : S → Prop)
    (hb : FuseBehaves srv.act srv.layout.versionMinor.toNat ext inv) (n : Nat) :
    AtomicOn (fuseOn attempt (srv.handlers (sock.beside (Option S)))) ends p (fuseWire srv.layout.versionMinor.toNat ext)
      (fuseAct srv.act) (FuseOk srv.layout.versionMinor.toNat ext n) (FuseAllows srv.layout.versionMinor.toNat) inv n false :=
  (C83_fuse srv haddr h12 ext hext inv hb n).mounted
    (fuse_twin hd (note_handlers_mirror (line_mirrors (on_calls_line hd) net_line) srv hbrief))

/-- C88 for filesystems as far as it holds for older versions: without WRITE of less than 16 bytes before 7.9, and
without a mode in CREATE before 7.12; see C83_fuse_partial. -/
theorem C88_fuse_partial (hd : OnCalls netLine sock attempt ends p true) (srv : NoteServer S) (hbrief : srv.Brief)
    (haddr : ∀ op, srv.addr op % 8 = 0) (h7 : 7 ≤ srv.layout.versionMinor.toNat) (ext : Bool)
    (hext : ext = true ↔ srv.layout.features &&& 1 ≠ 0) (inv : S → Prop)
    (hb : FuseBehaves srv.act srv.layout.versionMinor.toNat ext inv) (n : Nat) :
    AtomicOn (fuseOn attempt (srv.handlers (sock.beside (Option S)))) ends p (fuseWire srv.layout.versionMinor.toNat ext)
      (fuseAct srv.act) (fun r => FuseOk srv.layout.versionMinor.toNat ext n r ∧ r.2.Understood srv.layout.versionMinor.toNat)
      (FuseAllows srv.layout.versionMinor.toNat) inv n false :=
  (C83_fuse_partial srv haddr h7 ext hext inv hb n).mounted
    (fuse_twin hd (note_handlers_mirror (line_mirrors (on_calls_line hd) net_line) srv hbrief))

/-- **C88** for filesystems, exactly; see C83_fuse_exact. -/
theorem C88_fuse_exact (hd : OnCalls netLine sock attempt ends p true) (srv : NoteServer S) (hbrief : srv.Brief)
    (haddr : ∀ op, srv.addr op % 8 = 0) (h7 : 7 ≤ srv.layout.versionMinor.toNat) (ext : Bool)
    (hext : ext = true ↔ srv.layout.features &&& 1 ≠ 0) (inv : S → Prop)
    (hb : FuseBehaves srv.act srv.layout.versionMinor.toNat ext inv) (n : Nat) :
    AtomicOn (fuseOn attempt (srv.handlers (sock.beside (Option S)))) ends p (fuseWire srv.layout.versionMinor.toNat ext)
      (fuseAct fun who op s => srv.act who (op.seenIn srv.layout.versionMinor.toNat) s)
      (fun r => FuseOk srv.layout.versionMinor.toNat ext n r ∧ r.2.Arrives srv.layout.versionMinor.toNat)
      (FuseAllows srv.layout.versionMinor.toNat) inv n false :=
  (C83_fuse_exact srv haddr h7 ext hext inv hb n).mounted
    (fuse_twin hd (note_handlers_mirror (line_mirrors (on_calls_line hd) net_line) srv hbrief))

/-- C88 for character devices as far as it holds: no POLL is sent with node ID 0; see C83_device_partial. -/
theorem C88_device_partial (hd : OnCalls netLine sock attempt ends p eof) (srv : DevServer S) (h9 : 9 ≤ srv.layout.versionMinor)
    (inv : S → Prop) (hb : DeviceBehaves srv.act inv) (n : Nat) :
    AtomicOn (cuseOn attempt (srv.handlers (sock.beside (Option S)))) ends p deviceWire (deviceAct srv.act)
      (fun r => DeviceOk n r ∧ PollsNode r) DeviceAllows inv n true :=
  (C83_device_partial srv h9 inv hb n).mounted
    (cuse_twin hd (dev_handlers_mirror (line_mirrors (on_calls_line hd) net_line) srv))

/-- C88 for filesystems and programs that send anything but the two messages of C84; see C86_partial. -/
theorem C88_confined_partial (hd : OnCalls netLine sock attempt ends p true) (srv : RpcServer S)
    (haddr : ∀ op, srv.addr op % 8 = 0) (h12 : 12 ≤ srv.layout.versionMinor) (ext : Bool)
    (hext : ext = true ↔ srv.layout.features &&& 1 ≠ 0) (inv : S → Prop) (hinv : Keeps srv.act ext inv) (n : Nat) :
    AtomicOn (fuseOn attempt (srv.guards (sock.beside (Option S)))) ends p
      (anyWire (asked srv.layout) Op.kind (fuseNo srv.layout)) (anyAct (asked srv.layout) (fuseNo srv.layout) srv.act)
      (fun m => AnyOk n m ∧ ¬ Vicious srv.layout m) (AnyAllows (asked srv.layout) Op.kind) inv n false ∧
    KeptOn (fuseOn attempt (srv.guards (sock.beside (Option S)))) ends p
      (anyWire (asked srv.layout) Op.kind (fuseNo srv.layout)) (fun m => AnyOk n m ∧ ¬ Vicious srv.layout m)
      (AnyAllows (asked srv.layout) Op.kind) inv n ∧
    OrderedOn (fuseOn attempt (srv.guards (sock.beside (Option S)))) ends p
      (anyWire (asked srv.layout) Op.kind (fuseNo srv.layout)) (fun m => AnyOk n m ∧ ¬ Vicious srv.layout m)
      (AnyAllows (asked srv.layout) Op.kind) inv n (asked srv.layout) srv.act := by
  obtain ⟨h1, h2, h3⟩ := C86_partial S srv haddr h12 ext hext inv hinv n
  have ht := fuse_twin hd (guards_mirror (line_mirrors (on_calls_line hd) net_line) srv)
  exact ⟨h1.mounted ht, kept_mounted h2 ht, ordered_mounted h3 ht⟩

/-- **C88** for character devices and programs that send anything; see C86_device. -/
theorem C88_device_confined (hd : OnCalls netLine sock attempt ends p eof) (srv : DevServer S)
    (h9 : 9 ≤ srv.layout.versionMinor) (inv : S → Prop) (hinv : DevKeeps srv.act inv) (n : Nat) :
    AtomicOn (cuseOn attempt (srv.guards (sock.beside (Option S)))) ends p
      (anyWire (devAsked srv.layout) DevOp.kind (deviceNo srv.layout))
      (anyAct (devAsked srv.layout) (deviceNo srv.layout) srv.act) (AnyOk n) (AnyAllows (devAsked srv.layout) DevOp.kind)
      inv n true ∧
    KeptOn (cuseOn attempt (srv.guards (sock.beside (Option S)))) ends p
      (anyWire (devAsked srv.layout) DevOp.kind (deviceNo srv.layout)) (AnyOk n)
      (AnyAllows (devAsked srv.layout) DevOp.kind) inv n ∧
    OrderedOn (cuseOn attempt (srv.guards (sock.beside (Option S)))) ends p
      (anyWire (devAsked srv.layout) DevOp.kind (deviceNo srv.layout)) (AnyOk n)
      (AnyAllows (devAsked srv.layout) DevOp.kind) inv n (devAsked srv.layout) srv.act := by
  obtain ⟨h1, h2, h3⟩ := C86_device srv h9 inv hinv n
  have ht := cuse_twin hd (dev_guards_mirror (line_mirrors (on_calls_line hd) net_line) srv)
  exact ⟨h1.mounted ht, kept_mounted h2 ht, ordered_mounted h3 ht⟩

end

/-! ### Example: a device with requests and replies, whose next calls are interrupted, or not, as a list of bits says -/

namespace TransportMany
open Many

structure Noisy where
  net : Net
  /-- For each call: whether it is interrupted.  Afterwards none is. -/
  noise : List Bool

def peer : Peer Noisy Net := ⟨Noisy.net, fun d => d.noise.count true⟩

def sys : Sys Noisy where
  read := fun _ len d =>
    match d.noise with
    | true :: noise => ((.error EINTR, []), ⟨d.net, noise⟩)
    | noise =>
      match d.net.queue with
      | [] => ((.error ENODEV, []), ⟨d.net, noise.tail⟩)
      | m :: ms =>
        if m.length ≤ len then ((.ok m.length, m), ⟨⟨ms, d.net.replies⟩, noise.tail⟩)
        else ((.error EINVAL, []), ⟨d.net, noise.tail⟩)
  read_fits := by intro _ len d; split; simp; split; simp; split <;> simp; assumption
  read_count := by
    intro _ len d n h
    split at h
    · cases h
    · split at h
      · cases h
      · split at h
        · cases h; assumption
        · cases h
  writev := fun _ iov d =>
    match d.noise with
    | true :: noise => (.error EINTR, ⟨d.net, noise⟩)
    | noise => (.ok iov.flatten.length, ⟨⟨d.net.queue, d.net.replies ++ [iov.flatten]⟩, noise.tail⟩)
  openat2 := fun _ _ _ d => (.error ENOSYS, d)
  openat2_fd := by intro _ _ _ _ _ h; cases h
  openat := fun _ _ _ d => (.ok 3, d)
  openat_fd := by intro _ _ _ _ _ h; cases h; decide
  close := fun _ d => (.ok (), d)
  statx := fun _ d => (.ok 0o40755, d)
  getuid := fun d => (1000, d)
  getgid := fun d => (1000, d)
  mount := fun _ _ _ _ _ d => (.ok (), d)
  nmount := fun _ _ d => (.ok (), d)

theorem calm (fd : Int32) (len : Nat) (net : Net) (noise : List Bool) (hn : noise.head? ≠ some true) :
    match net.queue with
    | [] => sys.read fd len ⟨net, noise⟩ = ((.error ENODEV, []), ⟨net, noise.tail⟩)
    | m :: ms =>
      if m.length ≤ len then sys.read fd len ⟨net, noise⟩ = ((.ok m.length, m), ⟨⟨ms, net.replies⟩, noise.tail⟩)
      else sys.read fd len ⟨net, noise⟩ = ((.error EINVAL, []), ⟨net, noise.tail⟩) := by
  obtain ⟨queue, replies⟩ := net
  rcases noise with _ | ⟨_ | _, noise⟩
  · dsimp only [sys]
    cases queue with
    | nil => rfl
    | cons m ms => dsimp only; split <;> rfl
  · dsimp only [sys]
    cases queue with
    | nil => rfl
    | cons m ms => dsimp only; split <;> rfl
  · exact absurd rfl hn

theorem device (fd : Int32) : LineDevice netLine sys fd peer := by
  constructor
  · intro len d h
    obtain ⟨net, noise⟩ := d
    by_cases hn : noise.head? = some true
    · rcases noise with _ | ⟨_ | _, noise⟩
      · cases hn
      · cases hn
      · exact ⟨rfl, by simp [sys, peer]⟩
    · have hc := calm fd len net noise hn
      split at hc
      · rw [hc] at h
        rcases h with h | h <;> injection h <;> contradiction
      · split at hc <;> rw [hc] at h <;> rcases h with h | h <;> injection h <;> contradiction
  · intro len d
    obtain ⟨⟨queue, replies⟩, noise⟩ := d
    by_cases hn : noise.head? = some true
    · rcases noise with _ | ⟨_ | _, noise⟩
      · cases hn
      · cases hn
      · exact .inl (.inr rfl)
    · refine .inr ?_
      have hc := calm fd len ⟨queue, replies⟩ noise hn
      dsimp only [peer, netLine]
      cases queue with
      | nil => dsimp only at hc ⊢; rw [hc]; exact ⟨rfl, rfl, noisy_tail noise⟩
      | cons m ms =>
        dsimp only at hc ⊢
        by_cases hm : m.length ≤ len
        · rw [if_pos hm] at hc ⊢
          rw [hc]; exact ⟨rfl, rfl, noisy_tail noise⟩
        · rw [if_neg hm] at hc ⊢
          rw [hc]; exact ⟨rfl, rfl, noisy_tail noise⟩
  · intro iov d h
    obtain ⟨net, noise⟩ := d
    rcases noise with _ | ⟨_ | _, noise⟩
    · cases h
    · cases h
    · exact ⟨rfl, by simp [sys, peer]⟩
  · intro iov d
    obtain ⟨net, noise⟩ := d
    rcases noise with _ | ⟨_ | _, noise⟩
    · exact .inr ⟨rfl, rfl, Nat.le_refl _⟩
    · exact .inr ⟨rfl, rfl, noisy_tail (false :: noise)⟩
    · exact .inl rfl

theorem journal_brief : (journal 31).Brief := by
  intro who op s a ha
  unfold journal Journal at ha
  dsimp only at ha
  rcases List.mem_append.mp ha with h | h <;> split at h
  all_goals simp only [List.mem_cons, List.not_mem_nil, or_false] at h
  · subst h; decide
  · rcases h with rfl | rfl
    · show 40 < 2 ^ 32; decide
    · show 24 < 2 ^ 32; decide

/-- C88_fuse: two programs that write to a journal and two threads of `serve_fuse`, on a device that interrupts 5 system calls
to begin with, with `fuse-linux`.  There is a run to the end, and in any such run the journal has been written to in turn. -/
example : ∃ sock : Socket Noisy Errno, OnLinux sys ⟨3, true⟩ sock ∧
    let svc := fuseOn (Linux.recvStep sys ⟨3, true⟩) ((journal 31).handlers (sock.beside (Option Bytes)))
    let start : Many.Mounted Bytes Noisy Errno (Caller × Op) Ans Bytes :=
      .start [] ⟨⟨[], []⟩, [true, true, false, true, false, true, true]⟩ [List.replicate 100 0, List.replicate 100 0]
        [adds Rpc.alice [1], adds Rpc.bob [2, 3]]
    let run := Many.Mounted.Run svc (DeviceSocket.ends ⟨3, true⟩ ENODEV) peer (fuseWire 31 false) start
    (∃ es m, run es m ∧ (∀ t ∈ m.clients, t.Ended) ∧ m.pool.Returned) ∧
    ∀ es m, run es m → m.pool.Returned → ∃ l, l.Perm (Many.Visible.calls es) ∧
      m.state = some (inTurn (fuseAct Journal) [] l).2 ∧
      (Many.Visible.heard es ++ m.device.net.replies.map readNotice).Perm ((inTurn (fuseAct Journal) [] l).1.map some) := by
  obtain ⟨sock, hs⟩ := linux_talk_socket (s := ⟨3, true⟩) (device 3)
  refine ⟨sock, hs, ?_⟩
  have h := C88_fuse (.linux (s := ⟨3, true⟩) (device 3) hs) (journal 31)
    journal_brief (fun _ => (by decide : 0x1000 % 8 = 0)) (by decide) false
    (by decide) _ (journal_behaves _ _) 100
  exact ⟨h.complete (fun net => ⟨⟨net, []⟩, rfl⟩) trivial rfl both_asks (by decide) (by simp) (by decide),
    fun es m hr hret => h.order trivial rfl both_asks (by decide) (by simp) hr hret⟩

/-- C88_confined_partial: two programs that send all sorts of things, with `fuse-libc`. -/
example : ∃ sock : Socket (Libc.Thread Noisy) Libc.LibcError, OnLibc sys ⟨3, true⟩ sock ∧
    let svc := fuseOn (Libc.recvStep sys ⟨3, true⟩) (Hostile.server.guards (sock.beside _))
    let start : Many.Mounted _ _ Libc.LibcError Bytes Ans (List Ans) :=
      .start [] ⟨⟨⟨[], []⟩, [true, true, false, true]⟩, 0⟩ [List.replicate 100 0, List.replicate 100 0]
        [HostileMany.sender HostileMany.first [], HostileMany.sender HostileMany.second []]
    let run := Many.Mounted.Run svc (DeviceSocket.ends ⟨3, true⟩ ⟨Libc.cInt ENODEV⟩) (peer.through Libc.Thread.sys)
      HostileMany.wire start
    (∃ es m, run es m ∧ (∀ t ∈ m.clients, t.Ended) ∧ m.pool.Returned) ∧
    ∀ es m, run es m → (∃ past, m.state = some past ∧ Hostile.Clean false past) ∧
      (m.pool.Returned → ∃ l : List (Caller × Op), l.Perm ((Many.Visible.calls es).filterMap (asked ⟨31, 0⟩)) ∧
        m.state = some (l.foldl (fun s x => (Hostile.note x.1 x.2 s).2) [])) := by
  obtain ⟨sock, hs⟩ := libc_talk_socket (s := ⟨3, true⟩) (device 3)
  refine ⟨sock, hs, ?_⟩
  obtain ⟨h1, h2, h3⟩ := C88_confined_partial (.libc (s := ⟨3, true⟩) (device 3) hs) Hostile.server
    (fun _ => (by decide : 0x1000 % 8 = 0)) (by decide) false (by decide) _ (Hostile.note_keeps false) 100
  exact ⟨h1.complete (s := []) (fun net => ⟨⟨⟨net, []⟩, 0⟩, rfl⟩) (fun _ h => nomatch h) rfl HostileMany.they_ask (by decide) (by simp)
    (by decide), fun es m hr => ⟨h2 (s := []) (fun _ h => nomatch h) rfl HostileMany.they_ask (by decide) hr,
      h3 (s := []) (fun _ h => nomatch h) rfl HostileMany.they_ask (by decide) (by simp) hr⟩⟩

/-- C88_device_confined: at the end both threads of `serve_cuse` have reported the error that `ENODEV` is. -/
example : ∃ sock : Socket Noisy Errno, OnLinux sys ⟨3, false⟩ sock ∧
    let svc := cuseOn (Linux.recvStep sys ⟨3, false⟩) ((⟨HostileDev.note, ⟨31⟩⟩ : DevServer _).guards (sock.beside _))
    let start : Many.Mounted _ Noisy Errno Bytes Ans (List Ans) :=
      .start [] ⟨⟨[], []⟩, [true, true, false, true]⟩ [List.replicate 100 0, List.replicate 200 0]
        [HostileMany.sender HostileDev.messages [], HostileMany.sender HostileDev.messages []]
    let run := Many.Mounted.Run svc (.other ENODEV) peer (anyWire (devAsked ⟨31⟩) DevOp.kind (deviceNo ⟨31⟩)) start
    (∃ es m, run es m ∧ (∀ t ∈ m.clients, t.Ended) ∧ m.pool.Returned) ∧
    ∀ es m, run es m → m.pool.Returned → m.pool.channel = [.recv (.other ENODEV), .recv (.other ENODEV)] := by
  obtain ⟨sock, hs⟩ := linux_talk_socket (s := ⟨3, false⟩) (device 3)
  refine ⟨sock, hs, ?_⟩
  obtain ⟨h1, h2, h3⟩ := C88_device_confined (.linux (s := ⟨3, false⟩) (device 3) hs) (⟨HostileDev.note, ⟨31⟩⟩ : DevServer _)
    (by decide) _ HostileDev.note_keeps 100
  have hu : ∀ u ∈ [HostileMany.sender HostileDev.messages [], HostileMany.sender HostileDev.messages []],
      u.Asks (AnyOk 100) (AnyAllows (devAsked ⟨31⟩) DevOp.kind) := by
    intro u hu
    simp only [List.mem_cons, List.not_mem_nil, or_false] at hu
    rcases hu with rfl | rfl <;> exact HostileMany.sender_asks (by decide +kernel) []
  refine ⟨h1.complete (s := []) (fun net => ⟨⟨net, []⟩, rfl⟩) (fun _ h => nomatch h) rfl hu (by decide) (by simp) (by decide),
    fun es m hr hret => ?_⟩
  obtain ⟨o, -, -, -, -, h4⟩ := h1.object (s := []) (fun _ h => nomatch h) rfl hu (by decide) hr
  exact (h4 (by simp) hret).2.2.2.2

/-- C88_device_partial: two programs that write to a pipe and read from it, with `fuse-libc`. -/
example : ∃ sock : Socket (Libc.Thread Noisy) Libc.LibcError, OnLibc sys ⟨3, false⟩ sock ∧
    let svc := cuseOn (Libc.recvStep sys ⟨3, false⟩) (pipe.handlers (sock.beside _))
    let start : Many.Mounted Bytes (Libc.Thread Noisy) Libc.LibcError (Caller × UInt64 × DevOp) Ans Ans :=
      .start [] ⟨⟨⟨[], []⟩, [true, true, false, true]⟩, 0⟩ [List.replicate 100 0, List.replicate 100 0]
        [echoes Rpc.alice [1], echoes Rpc.bob [2]]
    let run := Many.Mounted.Run svc (DeviceSocket.ends ⟨3, false⟩ ⟨Libc.cInt ENODEV⟩) (peer.through Libc.Thread.sys) deviceWire
      start
    (∃ es m, run es m ∧ (∀ t ∈ m.clients, t.Ended) ∧ m.pool.Returned) ∧
    ∀ es m, run es m → m.pool.Returned → ∃ l, l.Perm (Many.Visible.calls es) ∧
      m.state = some (inTurn (deviceAct Pipe) [] l).2 := by
  obtain ⟨sock, hs⟩ := libc_talk_socket (s := ⟨3, false⟩) (device 3)
  refine ⟨sock, hs, ?_⟩
  have h := C88_device_partial (.libc (s := ⟨3, false⟩) (device 3) hs) pipe (by decide) _ pipe_behaves 100
  refine ⟨h.complete (fun net => ⟨⟨⟨net, []⟩, 0⟩, rfl⟩) trivial rfl echoers_ask (by decide) (by simp) (by decide),
    fun es m hr hret => ?_⟩
  obtain ⟨l, h1, h2, -⟩ := h.order trivial rfl echoers_ask (by decide) (by simp) hr hret
  exact ⟨l, h1, h2⟩

/-- C88_threads: what was seen in a run without the device (see `HostileMany.schedule`) can be seen on it, with 3
interruptions. -/
example : ∃ (sock : Socket Noisy Errno) (es : List (Many.Visible Bytes Ans Empty))
    (m : Many.Mounted (List (Caller × Op)) Noisy Errno Bytes Ans (List Ans)), OnLinux sys ⟨3, true⟩ sock ∧
    Many.Mounted.Run (fuseOn (Linux.recvStep sys ⟨3, true⟩) (Hostile.server.guards (sock.beside _)))
      (DeviceSocket.ends ⟨3, true⟩ ENODEV) peer HostileMany.wire
      (.start [] ⟨⟨[], []⟩, [true, true, false, true]⟩ [List.replicate 100 0, List.replicate 100 0]
        [HostileMany.sender HostileMany.first [], HostileMany.sender HostileMany.second []]) es m ∧
    Many.Visible.calls es = [HostileMany.first[0], HostileMany.second[0], HostileMany.second[1], HostileMany.second[2],
      HostileMany.first[1]] ∧ m.state = some [HostileMany.mkdir, HostileMany.forget] := by
  obtain ⟨sock, hs⟩ := linux_talk_socket (s := ⟨3, true⟩) (device 3)
  have hd : ((turns (guardedThreads Hostile.server) HostileMany.wire [] HostileMany.opening HostileMany.schedule).map fun x =>
      (Many.Visible.calls x.1, x.2.state)) = some ([HostileMany.first[0], HostileMany.second[0], HostileMany.second[1],
        HostileMany.second[2], HostileMany.first[1]], some [HostileMany.mkdir, HostileMany.forget]) := by decide +kernel
  obtain ⟨⟨es, q⟩, h1, h2⟩ := Option.map_eq_some_iff.mp hd
  obtain ⟨m, h3, -, h4, -⟩ := (C88_threads (.linux (s := ⟨3, true⟩) (device 3) hs)
    (fun hm => guards_mirror hm Hostile.server) HostileMany.wire [] ⟨⟨[], []⟩, [true, true, false, true]⟩ rfl
    [List.replicate 100 0, List.replicate 100 0]
    [HostileMany.sender HostileMany.first [], HostileMany.sender HostileMany.second []] es).2
    (fun net => ⟨⟨net, []⟩, rfl⟩) q (turns_sound .start h1)
  exact ⟨sock, es, m, hs, h3, congrArg Prod.fst h2, h4.symm.trans (congrArg Prod.snd h2)⟩

end TransportMany

end Fuse
