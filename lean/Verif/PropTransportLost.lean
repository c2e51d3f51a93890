import Verif.PropManyLost
import Verif.PropTransportMany

/-!
# C88: what is lost stays lost, on devices

What `PropManyLost` says of threads, through `fuse-linux` and `fuse-libc`: whichever system calls are interrupted, what is seen
before and after a request that no handler survives could be seen with what is served used directly, and nothing is sent after
it.
-/

namespace Fuse
open Spec

namespace Many

/-- `AtomicUntil` on a device, in which there is nothing at first. -/
def UntilOn {S R A N δ ε : Type} (svc : DeviceService (Option S × δ) ε) (ends : RecvError ε) (p : Peer δ Net) (wire : Wire R A N)
    (act : R → S → List N × A × S) (ok bad : R → Prop) (allows : R → A → Prop) (inv : S → Prop) (n : Nat) : Prop :=
  ∀ (α : Type) (s : S) (d : δ) (uses : List (Calls R A α)) (bufs : List Bytes) (es : List (Visible R A N))
    (m : Mounted S δ ε R A α), inv s → p.client d = ⟨[], []⟩ → (∀ u ∈ uses, u.Asks ok allows) → (∀ b ∈ bufs, n ≤ b.length) →
    Mounted.Run svc ends p wire (.start s d bufs uses) es m →
    ∃ o, Object.Run wire.toStyle act (.start s uses) es o ∧ o.clients = m.clients ∧ inv o.state ∧
      (∀ i id r, Visible.call i id r ∈ es → bad r → (id, r) ∈ o.pending) ∧
      (m.state = some o.state ∨ m.state = none ∧ ∃ t ∈ o.pending, bad t.2) ∧
      ∀ w ∈ m.pool.workers, w = .finished → ∀ t ∈ m.clients, t.Ended

/-- `Silenced` on a device, in which there is nothing at first. -/
def SilencedOn {S R A N δ ε : Type} (svc : DeviceService (Option S × δ) ε) (ends : RecvError ε) (p : Peer δ Net)
    (wire : Wire R A N) : Prop :=
  ∀ (α : Type) (s : S) (d : δ) (uses : List (Calls R A α)) (bufs : List Bytes) (es es' : List (Visible R A N))
    (m m' : Mounted S δ ε R A α), p.client d = ⟨[], []⟩ → Mounted.Run svc ends p wire (.start s d bufs uses) es m →
    m.state = none → Mounted.Run svc ends p wire m es' m' →
    m'.state = none ∧ (p.client m'.device).replies.Sublist (p.client m.device).replies ∧
    (∀ i id a, Visible.ret i id a ∈ es' → ∃ r ∈ (p.client m.device).replies, u64At r 8 = id.toNat) ∧
    ∀ (i : Nat) (id : UInt64) (r : R) (k : A → Calls R A α), m.clients[i]? = some (.waiting id r k) →
      (∀ r ∈ (p.client m.device).replies, u64At r 8 ≠ id.toNat) → m'.clients[i]? = some (.waiting id r k)

section
variable {S R A N δ ε : Type} {p : Peer δ Net} {ends : RecvError ε} {svc : DeviceService (Option S × δ) ε}
  {svc' : Service (Option S × Net) Unit} {wire : Wire R A N} {act : R → S → List N × A × S} {ok bad : R → Prop}
  {allows : R → A → Prop} {inv : S → Prop} {n : Nat}

theorem until_mounted (h : AtomicUntil svc' wire act ok bad allows inv n) (ht : TwinService p ends svc svc') :
    UntilOn svc ends p wire act ok bad allows inv n := by
  intro α s d uses bufs es m hs hd hu hb hr
  obtain ⟨q, h1, h2⟩ := reflects_run ht (reflects_start hd _ _ _) hr
  rw [← reflects_state h2, h2.clients]
  obtain ⟨o, e1, e2, e3, e4, e5, e6⟩ := h α s uses bufs es q hs hu hb h1
  refine ⟨o, e1, e2, e3, e4, e5, fun w hw hf => ?_⟩
  subst hf
  obtain ⟨i, hi⟩ := List.mem_iff_getElem?.mp hw
  obtain ⟨w', hw', ht'⟩ := h2.workers.get hi
  cases w' with
  | finished => exact e6 _ (List.mem_of_getElem? hw') rfl
  | _ => exact ht'.elim

theorem silenced_mounted (h : Silenced svc' wire) (ht : TwinService p ends svc svc') : SilencedOn svc ends p wire := by
  intro α s d uses bufs es es' m m' hd hr hl hr'
  obtain ⟨q, h1, h2⟩ := reflects_run ht (reflects_start hd _ _ _) hr
  obtain ⟨q', h3, h4⟩ := reflects_run ht h2 hr'
  rw [← reflects_state h4, ← reflects_net h2, ← reflects_net h4, h2.clients, h4.clients]
  exact h α q q' es' ((reflects_state h2).trans hl) h3

theorem mounted_then {α : Type} {m m' m'' : Mounted S δ ε R A α} {es es' : List (Visible R A N)}
    (h : Mounted.Run svc ends p wire m es m') (h' : Mounted.Run svc ends p wire m' es' m'') :
    Mounted.Run svc ends p wire m (es ++ es') m'' := by
  induction h' with
  | start => rwa [List.append_nil]
  | step _ hs ih =>
    rw [← List.append_assoc]
    exact .step ih hs

end

end Many

section
open Many
variable {S δ ε : Type} {sock : Socket δ ε} {attempt : Bytes × δ → ((Except (RecvError ε) Nat × Bytes) × δ) ⊕ (Bytes × δ)}
  {ends : RecvError ε} {p : Peer δ Net} {eof : Bool}

/-- **C88** for character devices, exactly; see C83_device_until and C83_device_ruin. -/
theorem C88_device_until (hd : OnCalls netLine sock attempt ends p eof) (srv : DevServer S) (h9 : 9 ≤ srv.layout.versionMinor)
    (inv : S → Prop) (hb : DeviceBehaves srv.act inv) (n : Nat) :
    UntilOn (cuseOn attempt (srv.handlers (sock.beside (Option S)))) ends p deviceWire (deviceAct srv.act)
      (DeviceOk n) (fun r => ¬ PollsNode r) DeviceAllows inv n ∧
    SilencedOn (cuseOn attempt (srv.handlers (sock.beside (Option S)))) ends p deviceWire := by
  have ht := cuse_twin hd (dev_handlers_mirror (line_mirrors (on_calls_line hd) net_line) srv)
  exact ⟨until_mounted (C83_device_until srv h9 inv hb n) ht, silenced_mounted (C83_device_ruin srv).2 ht⟩

/-- **C88** for filesystems of any version, exactly; see C83_fuse_until and C83_fuse_ruin. -/
theorem C88_fuse_until (hd : OnCalls netLine sock attempt ends p true) (srv : NoteServer S) (hbrief : srv.Brief)
    (haddr : ∀ op, srv.addr op % 8 = 0) (h7 : 7 ≤ srv.layout.versionMinor.toNat) (ext : Bool)
    (hext : ext = true ↔ srv.layout.features &&& 1 ≠ 0) (inv : S → Prop)
    (hb : FuseBehaves srv.act srv.layout.versionMinor.toNat ext inv) (n : Nat) :
    UntilOn (fuseOn attempt (srv.handlers (sock.beside (Option S)))) ends p (fuseWire srv.layout.versionMinor.toNat ext)
      (fuseAct fun who op s => srv.act who (op.seenIn srv.layout.versionMinor.toNat) s)
      (FuseOk srv.layout.versionMinor.toNat ext n) (fun r => ¬ r.2.Arrives srv.layout.versionMinor.toNat)
      (FuseAllows srv.layout.versionMinor.toNat) inv n ∧
    SilencedOn (fuseOn attempt (srv.handlers (sock.beside (Option S)))) ends p
      (fuseWire srv.layout.versionMinor.toNat ext) := by
  have ht := fuse_twin hd (note_handlers_mirror (line_mirrors (on_calls_line hd) net_line) srv hbrief)
  exact ⟨until_mounted (C83_fuse_until srv haddr h7 ext hext inv hb n) ht, silenced_mounted (C83_fuse_ruin srv ext).2 ht⟩

/-- **C88** for filesystems and programs that send any messages whatsoever; see C86_until and C86_silenced. -/
theorem C88_confined_until (hd : OnCalls netLine sock attempt ends p true) (srv : RpcServer S)
    (haddr : ∀ op, srv.addr op % 8 = 0) (h12 : 12 ≤ srv.layout.versionMinor) (ext : Bool)
    (hext : ext = true ↔ srv.layout.features &&& 1 ≠ 0) (inv : S → Prop) (hinv : KeepsAll srv.act ext inv) (n : Nat) :
    UntilOn (fuseOn attempt (srv.guards (sock.beside (Option S)))) ends p
      (anyWire (made srv.layout) Op.kind (fuseNo srv.layout)) (anyAct (made srv.layout) (fuseNo srv.layout) srv.act)
      (AnyOk n) (Ruinous srv.checks) (AnyAllows (made srv.layout) Op.kind) inv n ∧
    SilencedOn (fuseOn attempt (srv.guards (sock.beside (Option S)))) ends p
      (anyWire (made srv.layout) Op.kind (fuseNo srv.layout)) := by
  have ht := fuse_twin hd (guards_mirror (line_mirrors (on_calls_line hd) net_line) srv)
  exact ⟨until_mounted (C86_until srv haddr h12 ext hext inv hinv n) ht, silenced_mounted (C86_silenced srv) ht⟩

/-- C88: if a program waits for a reply that is not there when what is served has been lost, no thread ever returns. -/
theorem C88_hangs {R A N α : Type} {svc : DeviceService (Option S × δ) ε} {wire : Many.Wire R A N} {act : R → S → List N × A × S}
    {ok bad : R → Prop} {allows : R → A → Prop} {inv : S → Prop} {n : Nat}
    (hu : UntilOn svc ends p wire act ok bad allows inv n) (hs : SilencedOn svc ends p wire) {s : S} (hi : inv s)
    {d : δ} (hd : p.client d = ⟨[], []⟩) {uses : List (Calls R A α)} {bufs : List Bytes} (ha : ∀ u ∈ uses, u.Asks ok allows)
    (hb : ∀ b ∈ bufs, n ≤ b.length) {es es' : List (Many.Visible R A N)} {m m' : Many.Mounted S δ ε R A α}
    (hr : Many.Mounted.Run svc ends p wire (.start s d bufs uses) es m) (hl : m.state = none)
    {i : Nat} {id : UInt64} {r : R} {k : A → Calls R A α} (hw : m.clients[i]? = some (.waiting id r k))
    (hno : ∀ r ∈ (p.client m.device).replies, u64At r 8 ≠ id.toNat) (hr' : Many.Mounted.Run svc ends p wire m es' m') :
    ∀ w ∈ m'.pool.workers, w ≠ .finished := by
  intro w hw' e
  obtain ⟨_, _, _, _, _, _, h⟩ := hu α s d uses bufs (es ++ es') m' hi hd ha hb (mounted_then hr hr')
  exact h w hw' e _ (List.mem_of_getElem? ((hs α s d uses bufs es es' m m' hd hr hl hr').2.2.2 i id r k hw hno))

end

/-! ## Concrete cases -/

namespace TransportLost
open Many TransportMany ManyLost
open Rpc (alice bob)

/-- C88_device_until, C88_hangs: what `ManyLost.late` shows can be seen on a device that interrupts 3 system calls, with
`fuse-linux`; from then on Alice waits, whatever is done, and the thread does not return. -/
example : ∃ (sock : Socket TransportMany.Noisy Errno) (es : List (Many.Visible (Caller × UInt64 × DevOp) Ans Empty))
    (m : Many.Mounted Bytes TransportMany.Noisy Errno (Caller × UInt64 × DevOp) Ans Ans), OnLinux sys ⟨3, false⟩ sock ∧
    let svc := cuseOn (Linux.recvStep sys ⟨3, false⟩) (pipe.handlers (sock.beside _))
    let run := fun x es y => Many.Mounted.Run svc (DeviceSocket.ends ⟨3, false⟩ ENODEV) peer deviceWire x es y
    run (.start [7] ⟨⟨[], []⟩, [true, true, false, true]⟩ [List.replicate 100 0]
      [once (alice, 0, .poll 1 2 3), once (bob, 0, .read 1 0 8 none 0)]) es m ∧
    Many.Visible.calls es = [(bob, 0, .read 1 0 8 none 0), (alice, 0, .poll 1 2 3)] ∧ m.state = none ∧
    ∀ es' m', run m es' m' → (∃ id r k, m'.clients[0]? = some (.waiting id r k)) ∧ ∀ w ∈ m'.pool.workers, w ≠ .finished := by
  obtain ⟨sock, hs⟩ := linux_talk_socket (s := ⟨3, false⟩) (device 3)
  have hd : late.map (fun x => (x.2.state, x.2.net.replies, x.2.clients.map fun t => t.ticket.map Prod.fst)) =
      some (none, [], [some 5, none]) := by decide +kernel
  have hc : late.map (fun x => Many.Visible.calls x.1) =
      some [(bob, 0, .read 1 0 8 none 0), (alice, 0, .poll 1 2 3)] := by decide +kernel
  obtain ⟨⟨es, q⟩, h1, h2⟩ := Option.map_eq_some_iff.mp hd
  rw [h1] at hc
  have h2' := Option.some.inj hc
  obtain ⟨h3, h4⟩ := Prod.mk.inj h2
  obtain ⟨h4, h5⟩ := Prod.mk.inj h4
  dsimp only at h2' h3 h4 h5
  obtain ⟨m, k1, k2, k3, k4, -⟩ := (C88_cuse_threads (.linux (s := ⟨3, false⟩) (device 3) hs)
    (fun hm => dev_handlers_mirror hm pipe) deviceWire [7] ⟨⟨[], []⟩, [true, true, false, true]⟩ rfl _ _ es).2
    (fun net => ⟨⟨net, []⟩, rfl⟩) q (turns_sound .start h1)
  refine ⟨sock, es, m, hs, k1, h2', k3.symm.trans h3, fun es' m' hr => ?_⟩
  have h6 : (m.clients.map fun t => t.ticket.map Prod.fst)[0]? = some (some 5) := by
    rw [← k2, h5]
    rfl
  rw [List.getElem?_map] at h6
  obtain ⟨t, h7, h8⟩ := Option.map_eq_some_iff.mp h6
  cases t with
  | ready u => cases h8
  | waiting id r k =>
    have hc := C88_device_until (.linux (s := ⟨3, false⟩) (device 3) hs) pipe (by decide) _ pipe_behaves 100
    have hno : ∀ r ∈ (peer.client m.device).replies, u64At r 8 ≠ id.toNat := by
      rw [← k4, h4]
      exact fun _ h => nomatch h
    refine ⟨⟨id, r, k, (hc.2 _ _ _ _ _ _ _ _ _ rfl k1 (k3.symm.trans h3) hr).2.2.2 0 id r k h7 hno⟩,
      C88_hangs hc.1 hc.2 trivial rfl ?_ (by decide) k1 (k3.symm.trans h3) h7 hno hr⟩
    intro u hu
    rcases List.mem_cons.mp hu with rfl | hu
    · exact ⟨⟨trivial, by show 40 + _ ≤ _; decide⟩, fun _ _ => trivial⟩
    · rw [List.mem_singleton] at hu
      subst hu
      exact ⟨⟨trivial, by show 40 + _ ≤ _; decide⟩, fun _ _ => trivial⟩

end TransportLost

end Fuse
