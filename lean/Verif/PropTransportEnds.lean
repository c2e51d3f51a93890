import Verif.PropManyEnds
import Verif.PropTransportLost

/-!
# C88: there is no infinite execution, on devices

What `PropManyEnds` says of threads, through `fuse-linux` and `fuse-libc`, if there are finitely many interruptions between what
programs do.
-/

namespace Fuse
open Spec

namespace Many

/-- `ComesToEnd` on a device, in which there is nothing at first. -/
def EndsOn {S R A N δ ε : Type} (svc : DeviceService (Option S × δ) ε) (ends : RecvError ε) (p : Peer δ Net) (wire : Wire R A N)
    (ok : R → Prop) (allows : R → A → Prop) (inv : S → Prop) (n : Nat) : Prop :=
  ∀ (α : Type) (s : S) (d : δ) (uses : List (Calls R A α)) (bufs : List Bytes) (f : Nat → Mounted S δ ε R A α),
    inv s → p.client d = ⟨[], []⟩ → (∀ u ∈ uses, u.Asks ok allows) → (∀ b ∈ bufs, n ≤ b.length) → f 0 = .start s d bufs uses →
    ¬ ∀ i, ∃ e, Mounted.Step svc ends p wire e (f i) (f (i + 1))

/-- `StopsOnlyLost` on a device, in which there is nothing at first. -/
def StopsOnlyLostOn {S R A N δ ε : Type} (svc : DeviceService (Option S × δ) ε) (ends : RecvError ε) (p : Peer δ Net)
    (wire : Wire R A N) (ok : R → Prop) (allows : R → A → Prop) (inv : S → Prop) (n : Nat) : Prop :=
  ∀ (α : Type) (s : S) (d : δ) (uses : List (Calls R A α)) (bufs : List Bytes) (es : List (Visible R A N))
    (m : Mounted S δ ε R A α), inv s → p.client d = ⟨[], []⟩ → (∀ u ∈ uses, u.Asks ok allows) → (∀ b ∈ bufs, n ≤ b.length) →
    bufs ≠ [] → uses.length < 2 ^ 64 - 1 → Mounted.Run svc ends p wire (.start s d bufs uses) es m →
    (∀ e m', ¬ Mounted.Step svc ends p wire e m m') →
    ((∀ t ∈ m.clients, t.Ended) ∧ m.pool.Returned) ∨
    (m.state = none ∧ ∃ (i : Nat) (id : UInt64) (r : R) (k : A → Calls R A α), m.clients[i]? = some (.waiting id r k) ∧
      ∀ r ∈ (p.client m.device).replies, u64At r 8 ≠ id.toNat)

section
variable {S R A N δ ε α : Type} {p : Peer δ Net} {ends : RecvError ε} {svc : DeviceService (Option S × δ) ε}
  {svc' : Service (Option S × Net) Unit} {wire : Wire R A N} {ok : R → Prop}
  {allows : R → A → Prop} {inv : S → Prop} {n : Nat}

theorem ends_mounted (h : ComesToEnd svc' wire ok allows inv n) (ht : TwinService p ends svc svc') :
    EndsOn svc ends p wire ok allows inv n := by
  intro α s d uses bufs f hs hd hu hb h0
  exact no_descent (reflects_ends ht (acc_of_ends fun g hg hi => h α s uses bufs g hs hu hb hg hi) _
    (reflects_start hd _ bufs uses) rfl) f h0

theorem stops_mounted (h : StopsOnlyLost svc' wire ok allows inv n) (ht : TwinService p ends svc svc')
    (hall : ∀ net, ∃ d, p.client d = net) : StopsOnlyLostOn svc ends p wire ok allows inv n := by
  intro α s d uses bufs es m hs hd hu hb hne hl hr hstop
  obtain ⟨q, h1, h2⟩ := reflects_run ht (reflects_start hd _ _ _) hr
  rw [← reflects_net h2, ← reflects_state h2, h2.clients, reflects_returned h2]
  refine h α s uses bufs es q hs hu hb hne hl h1 fun e q' h3 => ?_
  obtain ⟨m', ⟨h4, -⟩ | ⟨h4, -⟩⟩ := reflects_back ht hall h2 h3
  · exact hstop _ m' h4
  · exact hstop _ m' h4

theorem mounted_last {m : Mounted S δ ε R A α} (h : Acc (fun q p' => ∃ e, Mounted.Step svc ends p wire e p' q) m) :
    ∃ es m', Mounted.Run svc ends p wire m es m' ∧ ∀ e x, ¬ Mounted.Step svc ends p wire e m' x := by
  induction h with
  | intro m _ ih =>
    by_cases hs : ∃ e q, Mounted.Step svc ends p wire e m q
    · obtain ⟨e, q, hs⟩ := hs
      obtain ⟨es, q', h1, h2⟩ := ih q ⟨e, hs⟩
      exact ⟨_, q', mounted_then (.step .start hs) h1, h2⟩
    · exact ⟨[], m, .start, fun e q h => hs ⟨e, q, h⟩⟩

theorem mounted_acc {m m' : Mounted S δ ε R A α} {es : List (Visible R A N)} (hr : Mounted.Run svc ends p wire m es m')
    (h : Acc (fun q p' => ∃ e, Mounted.Step svc ends p wire e p' q) m) :
    Acc (fun q p' => ∃ e, Mounted.Step svc ends p wire e p' q) m' := by
  induction hr with
  | start => exact h
  | step _ hs ih => exact ih.inv ⟨_, hs⟩

end

end Many

section
open Many
variable {S δ ε : Type} {sock : Socket δ ε} {attempt : Bytes × δ → ((Except (RecvError ε) Nat × Bytes) × δ) ⊕ (Bytes × δ)}
  {ends : RecvError ε} {p : Peer δ Net} {eof : Bool}

/-- **C88** for character devices: there is no infinite execution, whatever programs do; see C83_device_ends. -/
theorem C88_device_ends (hd : OnCalls netLine sock attempt ends p eof) (srv : DevServer S) (h9 : 9 ≤ srv.layout.versionMinor)
    (inv : S → Prop) (hb : DeviceBehaves srv.act inv) (n : Nat) :
    EndsOn (cuseOn attempt (srv.handlers (sock.beside (Option S)))) ends p deviceWire (DeviceOk n) DeviceAllows inv n :=
  ends_mounted (C83_device_ends srv h9 inv hb n)
    (cuse_twin hd (dev_handlers_mirror (line_mirrors (on_calls_line hd) net_line) srv))

/-- **C88** for filesystems of any version: there is no infinite execution, whatever programs do; see C83_fuse_ends. -/
theorem C88_fuse_ends (hd : OnCalls netLine sock attempt ends p true) (srv : NoteServer S) (hbrief : srv.Brief)
    (haddr : ∀ op, srv.addr op % 8 = 0) (h7 : 7 ≤ srv.layout.versionMinor.toNat) (ext : Bool)
    (hext : ext = true ↔ srv.layout.features &&& 1 ≠ 0) (inv : S → Prop)
    (hb : FuseBehaves srv.act srv.layout.versionMinor.toNat ext inv) (n : Nat) :
    EndsOn (fuseOn attempt (srv.handlers (sock.beside (Option S)))) ends p (fuseWire srv.layout.versionMinor.toNat ext)
      (FuseOk srv.layout.versionMinor.toNat ext n) (FuseAllows srv.layout.versionMinor.toNat) inv n :=
  ends_mounted (C83_fuse_ends srv haddr h7 ext hext inv hb n)
    (fuse_twin hd (note_handlers_mirror (line_mirrors (on_calls_line hd) net_line) srv hbrief))

/-- **C88** for filesystems: there is no infinite execution, whichever messages programs send; see C86_ends. -/
theorem C88_confined_ends (hd : OnCalls netLine sock attempt ends p true) (srv : RpcServer S)
    (haddr : ∀ op, srv.addr op % 8 = 0) (h12 : 12 ≤ srv.layout.versionMinor) (ext : Bool)
    (hext : ext = true ↔ srv.layout.features &&& 1 ≠ 0) (inv : S → Prop) (hinv : KeepsAll srv.act ext inv) (n : Nat) :
    EndsOn (fuseOn attempt (srv.guards (sock.beside (Option S)))) ends p
      (anyWire (made srv.layout) Op.kind (fuseNo srv.layout)) (AnyOk n) (AnyAllows (made srv.layout) Op.kind) inv n :=
  ends_mounted (C86_ends srv haddr h12 ext hext inv hinv n)
    (fuse_twin hd (guards_mirror (line_mirrors (on_calls_line hd) net_line) srv))

/-- **C88** for character devices: nothing but the loss of what is served can keep programs from ending and threads from
returning; see C83_device_stops. -/
theorem C88_device_stops (hd : OnCalls netLine sock attempt ends p eof) (hall : ∀ net, ∃ d, p.client d = net)
    (srv : DevServer S) (h9 : 9 ≤ srv.layout.versionMinor) (inv : S → Prop) (hb : DeviceBehaves srv.act inv) (n : Nat) :
    StopsOnlyLostOn (cuseOn attempt (srv.handlers (sock.beside (Option S)))) ends p deviceWire (DeviceOk n) DeviceAllows inv n :=
  stops_mounted (C83_device_stops srv h9 inv hb n)
    (cuse_twin hd (dev_handlers_mirror (line_mirrors (on_calls_line hd) net_line) srv)) hall

/-- **C88** for filesystems of any version; see C83_fuse_stops. -/
theorem C88_fuse_stops (hd : OnCalls netLine sock attempt ends p true) (hall : ∀ net, ∃ d, p.client d = net)
    (srv : NoteServer S) (hbrief : srv.Brief)
    (haddr : ∀ op, srv.addr op % 8 = 0) (h7 : 7 ≤ srv.layout.versionMinor.toNat) (ext : Bool)
    (hext : ext = true ↔ srv.layout.features &&& 1 ≠ 0) (inv : S → Prop)
    (hb : FuseBehaves srv.act srv.layout.versionMinor.toNat ext inv) (n : Nat) :
    StopsOnlyLostOn (fuseOn attempt (srv.handlers (sock.beside (Option S)))) ends p
      (fuseWire srv.layout.versionMinor.toNat ext) (FuseOk srv.layout.versionMinor.toNat ext n)
      (FuseAllows srv.layout.versionMinor.toNat) inv n :=
  stops_mounted (C83_fuse_stops srv haddr h7 ext hext inv hb n)
    (fuse_twin hd (note_handlers_mirror (line_mirrors (on_calls_line hd) net_line) srv hbrief)) hall

/-- **C88** for filesystems, whichever messages programs send; see C86_stops. -/
theorem C88_confined_stops (hd : OnCalls netLine sock attempt ends p true) (hall : ∀ net, ∃ d, p.client d = net)
    (srv : RpcServer S) (haddr : ∀ op, srv.addr op % 8 = 0) (h12 : 12 ≤ srv.layout.versionMinor) (ext : Bool)
    (hext : ext = true ↔ srv.layout.features &&& 1 ≠ 0) (inv : S → Prop) (hinv : KeepsAll srv.act ext inv) (n : Nat) :
    StopsOnlyLostOn (fuseOn attempt (srv.guards (sock.beside (Option S)))) ends p
      (anyWire (made srv.layout) Op.kind (fuseNo srv.layout)) (AnyOk n) (AnyAllows (made srv.layout) Op.kind) inv n :=
  stops_mounted (C86_stops srv haddr h12 ext hext inv hinv n)
    (fuse_twin hd (guards_mirror (line_mirrors (on_calls_line hd) net_line) srv)) hall

/-- C88: if a program waits for a reply that is not there when what is served has been lost, then whatever is done from there,
it can be gone on with until nothing can happen any more, with no thread having returned. -/
theorem C88_deadlock {R A N α : Type} {svc : DeviceService (Option S × δ) ε} {wire : Many.Wire R A N}
    {act : R → S → List N × A × S} {ok bad : R → Prop} {allows : R → A → Prop} {inv : S → Prop} {n : Nat}
    (hu : UntilOn svc ends p wire act ok bad allows inv n) (hs : SilencedOn svc ends p wire)
    (he : EndsOn svc ends p wire ok allows inv n) {s : S} (hi : inv s)
    {d : δ} (hd : p.client d = ⟨[], []⟩) {uses : List (Calls R A α)} {bufs : List Bytes} (ha : ∀ u ∈ uses, u.Asks ok allows)
    (hb : ∀ b ∈ bufs, n ≤ b.length) {es es' : List (Many.Visible R A N)} {m m' : Many.Mounted S δ ε R A α}
    (hr : Many.Mounted.Run svc ends p wire (.start s d bufs uses) es m) (hl : m.state = none)
    {i : Nat} {id : UInt64} {r : R} {k : A → Calls R A α} (hw : m.clients[i]? = some (.waiting id r k))
    (hno : ∀ r ∈ (p.client m.device).replies, u64At r 8 ≠ id.toNat) (hr' : Many.Mounted.Run svc ends p wire m es' m') :
    ∃ es'' q, Many.Mounted.Run svc ends p wire m' es'' q ∧ (∀ e x, ¬ Many.Mounted.Step svc ends p wire e q x) ∧
      q.clients[i]? = some (.waiting id r k) ∧ ∀ w ∈ q.pool.workers, w ≠ .finished := by
  obtain ⟨es'', q, h1, h2⟩ := mounted_last (mounted_acc (mounted_then hr hr')
    (acc_of_ends fun f h0 hf => he α s d uses bufs f hi hd ha hb h0 hf))
  exact ⟨es'', q, h1, h2, (hs α s d uses bufs es _ m q hd hr hl (mounted_then hr' h1)).2.2.2 i id r k hw hno,
    C88_hangs hu hs hi hd ha hb hr hl hw hno (mounted_then hr' h1)⟩

end

/-! ## Concrete cases -/

namespace TransportEnds
open Many TransportMany ManyLost
open Rpc (alice bob)

/-- C88_device_ends, C88_deadlock: what `ManyLost.late` shows can be seen on a device that interrupts 3 system calls, with
`fuse-linux`; whatever is done from then on, it comes to a state in which Alice waits, the thread has not returned, and nothing
can happen any more. -/
example : ∃ (sock : Socket TransportMany.Noisy Errno) (es : List (Many.Visible (Caller × UInt64 × DevOp) Ans Empty))
    (m : Many.Mounted Bytes TransportMany.Noisy Errno (Caller × UInt64 × DevOp) Ans Ans), OnLinux sys ⟨3, false⟩ sock ∧
    let svc := cuseOn (Linux.recvStep sys ⟨3, false⟩) (pipe.handlers (sock.beside _))
    let run := fun x es y => Many.Mounted.Run svc (DeviceSocket.ends ⟨3, false⟩ ENODEV) peer deviceWire x es y
    run (.start [7] ⟨⟨[], []⟩, [true, true, false, true]⟩ [List.replicate 100 0]
      [once (alice, 0, .poll 1 2 3), once (bob, 0, .read 1 0 8 none 0)]) es m ∧
    Many.Visible.calls es = [(bob, 0, .read 1 0 8 none 0), (alice, 0, .poll 1 2 3)] ∧ m.state = none ∧
    ∀ es' m', run m es' m' → ∃ es'' q, run m' es'' q ∧
      (∀ e x, ¬ Many.Mounted.Step svc (DeviceSocket.ends ⟨3, false⟩ ENODEV) peer deviceWire e q x) ∧
      (∃ id r k, q.clients[0]? = some (.waiting id r k)) ∧ ∀ w ∈ q.pool.workers, w ≠ .finished := by
  obtain ⟨sock, hs⟩ := linux_talk_socket (s := ⟨3, false⟩) (device 3)
  have hd : late.map (fun x => (x.2.state, x.2.net.replies, x.2.clients.map fun t => t.ticket.map Prod.fst)) =
      some (none, [], [some 5, none]) := by decide +kernel
  have hc : late.map (fun x => Many.Visible.calls x.1) =
      some [(bob, 0, .read 1 0 8 none 0), (alice, 0, .poll 1 2 3)] := by decide +kernel
  obtain ⟨⟨es, q⟩, h1, h2⟩ := Option.map_eq_some_iff.mp hd
  rw [h1] at hc
  have h2' := Option.some.inj hc
  obtain ⟨h3, h4⟩ := Prod.mk.inj h2
  obtain ⟨h4, h5⟩ := Prod.mk.inj h4
  dsimp only at h2' h3 h4 h5
  obtain ⟨m, k1, k2, k3, k4, -⟩ := (C88_cuse_threads (.linux (s := ⟨3, false⟩) (device 3) hs)
    (fun hm => dev_handlers_mirror hm pipe) deviceWire [7] ⟨⟨[], []⟩, [true, true, false, true]⟩ rfl _ _ es).2
    (fun net => ⟨⟨net, []⟩, rfl⟩) q (turns_sound .start h1)
  refine ⟨sock, es, m, hs, k1, h2', k3.symm.trans h3, fun es' m' hr => ?_⟩
  have h6 : (m.clients.map fun t => t.ticket.map Prod.fst)[0]? = some (some 5) := by
    rw [← k2, h5]
    rfl
  rw [List.getElem?_map] at h6
  obtain ⟨t, h7, h8⟩ := Option.map_eq_some_iff.mp h6
  cases t with
  | ready u => cases h8
  | waiting id r k =>
    have hc := C88_device_until (.linux (s := ⟨3, false⟩) (device 3) hs) pipe (by decide) _ pipe_behaves 100
    have hno : ∀ r ∈ (peer.client m.device).replies, u64At r 8 ≠ id.toNat := by
      rw [← k4, h4]
      exact fun _ h => nomatch h
    have ha : ∀ u ∈ [once (alice, 0, DevOp.poll 1 2 3), once (bob, 0, .read 1 0 8 none 0)], Calls.Asks (DeviceOk 100) DeviceAllows u := by
      intro u hu
      rcases List.mem_cons.mp hu with rfl | hu
      · exact ⟨⟨trivial, by show 40 + _ ≤ _; decide⟩, fun _ _ => trivial⟩
      · rw [List.mem_singleton] at hu
        subst hu
        exact ⟨⟨trivial, by show 40 + _ ≤ _; decide⟩, fun _ _ => trivial⟩
    obtain ⟨es'', q, e1, e2, e3, e4⟩ := C88_deadlock hc.1 hc.2
      (C88_device_ends (.linux (s := ⟨3, false⟩) (device 3) hs) pipe (by decide) _ pipe_behaves 100) trivial rfl ha (by decide) k1
      (k3.symm.trans h3) h7 hno hr
    exact ⟨es'', q, e1, e2, ⟨id, r, k, e3⟩, e4⟩

/-- C88_device_stops: with `fuse-linux` on a device that interrupts system calls. -/
example : ∃ sock : Socket TransportMany.Noisy Errno, OnLinux sys ⟨3, false⟩ sock ∧
    StopsOnlyLostOn (cuseOn (Linux.recvStep sys ⟨3, false⟩) (pipe.handlers (sock.beside _)))
      (DeviceSocket.ends ⟨3, false⟩ ENODEV) peer deviceWire (DeviceOk 100) DeviceAllows (fun _ => True) 100 := by
  obtain ⟨sock, hs⟩ := linux_talk_socket (s := ⟨3, false⟩) (device 3)
  exact ⟨sock, hs, C88_device_stops (.linux (s := ⟨3, false⟩) (device 3) hs) (fun net => ⟨⟨net, []⟩, rfl⟩) pipe (by decide) _
    pipe_behaves 100⟩

end TransportEnds

end Fuse
