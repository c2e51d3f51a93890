import Verif.PropBuffers
import Verif.PropStd
import Verif.Sys
import Verif.PropSession

/-!
# C62: nothing depends on what was in the receive buffer before

Buffers are reused for every message, and those of `fuse-std` start with whatever is in memory.  A message that is
shorter than the one before leaves the end of the buffer unchanged.  Two runs that differ in nothing but the contents
of the buffers are the same.
-/

namespace Fuse
open Spec

variable {σ ε : Type}

namespace Spec

/-- The socket does not look at the buffer's contents, and stores the bytes that it says it received. -/
def WritesOnly (sock : Socket σ ε) : Prop :=
  ∀ (a b : Bytes) (s : σ), a.length = b.length →
    (sock.recv a s).1.1 = (sock.recv b s).1.1 ∧ (sock.recv a s).2 = (sock.recv b s).2 ∧
    ∀ n, (sock.recv a s).1.1 = .ok n → (sock.recv a s).1.2.take n = (sock.recv b s).1.2.take n

/-- Threads in the same place, with the same request, with buffers of the same size. -/
def SameButBuffer : Worker ε → Worker ε → Prop
  | .receiving a, .receiving b => a.length = b.length
  | .handling a r, .handling b r' => a.length = b.length ∧ r = r'
  | .reporting a e, .reporting b e' => a.length = b.length ∧ e = e'
  | .finished, .finished => True
  | .faulted f, .faulted f' => f = f'
  | _, _ => False

end Spec

/-! ## Loops -/

/-- The steps of two loops go together. -/
def StepsAlike {α β α' β' : Type} (R : α → α' → Prop) (Q : β → β' → Prop) : β ⊕ α → β' ⊕ α' → Prop
  | .inl b, .inl b' => Q b b'
  | .inr a, .inr a' => R a a'
  | _, _ => False

section
variable {α β α' β' : Type} {step : α → β ⊕ α} {step' : α' → β' ⊕ α'} {R : α → α' → Prop} {Q : β → β' → Prop}

theorem iterate_alike (h : ∀ a a', R a a' → StepsAlike R Q (step a) (step' a')) (n : Nat) :
    ∀ a a', R a a' → StepsAlike R Q (iterate step n a) (iterate step' n a') := by
  induction n with
  | zero => intro a a' hr; exact hr
  | succ n ih =>
    intro a a' hr
    have := h a a' hr
    unfold iterate
    cases h1 : step a <;> cases h2 : step' a' <;> rw [h1, h2] at this
    · exact this
    · exact this.elim
    · exact this.elim
    · exact ih _ _ this

theorem LoopReturns.alike (h : ∀ a a', R a a' → StepsAlike R Q (step a) (step' a')) {a : α} {a' : α'}
    (hr : R a a') {b : β} (hl : LoopReturns step a b) : ∃ b', LoopReturns step' a' b' ∧ Q b b' := by
  obtain ⟨n, hn⟩ := hl
  have := iterate_alike h n a a' hr
  rw [hn] at this
  cases h2 : iterate step' n a' with
  | inl b' => rw [h2] at this; exact ⟨b', ⟨n, h2⟩, this⟩
  | inr x => rw [h2] at this; exact this.elim

end

/-- The state of a loop with a buffer: only the contents of the buffer differ. -/
def BufferAlike (x y : Bytes × σ) : Prop := x.1.length = y.1.length ∧ x.2 = y.2

/-! ## Receiving -/

section
variable {sock : Socket σ ε} (hw : WritesOnly sock)

include hw

theorem recv_alike (a b : Bytes) (s : σ) (h : a.length = b.length) :
    ∃ (r : Except (RecvError ε) Nat) (s' : σ) (a' b' : Bytes), a'.length = b'.length ∧
      sock.recv a s = ((r, a'), s') ∧ sock.recv b s = ((r, b'), s') ∧
      ∀ n, r = .ok n → truncateSlice a' n = truncateSlice b' n := by
  obtain ⟨h1, h2, h3⟩ := hw a b s h
  have h4 := sock.recv_length a s
  have h5 := sock.recv_length b s
  rcases ha : sock.recv a s with ⟨⟨r, a'⟩, s'⟩
  rcases hb : sock.recv b s with ⟨⟨r', b'⟩, s''⟩
  rw [ha, hb] at h1 h2 h3
  rw [ha] at h4
  rw [hb] at h5
  dsimp only at h1 h2 h3 h4 h5
  subst h1 h2
  have hl : a'.length = b'.length := by rw [h4, h5, h]
  refine ⟨r, s', a', b', hl, rfl, rfl, fun n hn => ?_⟩
  have := h3 n hn
  unfold truncateSlice
  rw [← hl]
  split
  · next hge => rwa [List.take_of_length_le hge, List.take_of_length_le (hl ▸ hge)] at this
  · exact this

/-- C62: receiving a message yields the same request, error or end, whatever was in the buffer. -/
theorem C62_recv (a b : Bytes) (s : σ) (h : a.length = b.length) :
    (fuseRecv sock a s).1.1 = (fuseRecv sock b s).1.1 ∧ (fuseRecv sock a s).2 = (fuseRecv sock b s).2 ∧
    (cuseRecv sock a s).1.1 = (cuseRecv sock b s).1.1 ∧ (cuseRecv sock a s).2 = (cuseRecv sock b s).2 := by
  obtain ⟨r, s', a', b', hl, ha, hb, ht⟩ := recv_alike hw a b s h
  unfold fuseRecv cuseRecv
  rw [ha, hb]
  cases r with
  | error e => cases e <;> exact ⟨rfl, rfl, rfl, rfl⟩
  | ok n =>
    dsimp only
    rw [ht n rfl]
    cases Request.new (truncateSlice b' n) <;> exact ⟨rfl, rfl, rfl, rfl⟩

theorem fuseServeStep_alike (h : Handlers FuseMethod σ) (x y : Bytes × σ) (hr : BufferAlike x y) :
    StepsAlike BufferAlike (· = ·) (fuseServeStep sock h x) (fuseServeStep sock h y) := by
  obtain ⟨a, s⟩ := x
  obtain ⟨b, s0⟩ := y
  obtain ⟨hl, hs⟩ := hr
  dsimp only at hl hs
  subst hs
  obtain ⟨r, s', a', b', hl', ha, hb, ht⟩ := recv_alike hw a b s hl
  unfold fuseServeStep fuseRecv
  rw [ha, hb]
  cases r with
  | error e => cases e <;> rfl
  | ok n =>
    dsimp only
    rw [ht n rfl]
    cases Request.new (truncateSlice b' n) with
    | error e => rfl
    | ok q =>
      dsimp only
      cases fuseDispatch h q s' with
      | error f => rfl
      | ok w => exact ⟨hl', rfl⟩

theorem cuseServeStep_alike (h : Handlers CuseMethod σ) (x y : Bytes × σ) (hr : BufferAlike x y) :
    StepsAlike BufferAlike (· = ·) (cuseServeStep sock h x) (cuseServeStep sock h y) := by
  obtain ⟨a, s⟩ := x
  obtain ⟨b, s0⟩ := y
  obtain ⟨hl, hs⟩ := hr
  dsimp only at hl hs
  subst hs
  obtain ⟨r, s', a', b', hl', ha, hb, ht⟩ := recv_alike hw a b s hl
  unfold cuseServeStep cuseRecv
  rw [ha, hb]
  cases r with
  | error e => rfl
  | ok n =>
    dsimp only
    rw [ht n rfl]
    cases Request.new (truncateSlice b' n) with
    | error e => rfl
    | ok q =>
      dsimp only
      cases cuseDispatch h q s' with
      | error f => rfl
      | ok w => exact ⟨hl', rfl⟩

/-- C62: serving ends in the same way, with the same effects, whatever is in the buffer at the start. -/
theorem C62_serve (hf : Handlers FuseMethod σ) (hc : Handlers CuseMethod σ) (a b : Bytes) (s : σ)
    (h : a.length = b.length) (out : Outcome ε Unit × σ) :
    (FuseServes sock hf a s out → FuseServes sock hf b s out) ∧
    (CuseServes sock hc a s out → CuseServes sock hc b s out) := by
  constructor
  · intro hl
    obtain ⟨b', h1, rfl⟩ := LoopReturns.alike (fuseServeStep_alike hw hf) (a := (a, s)) (a' := (b, s)) ⟨h, rfl⟩ hl
    exact h1
  · intro hl
    obtain ⟨b', h1, rfl⟩ := LoopReturns.alike (cuseServeStep_alike hw hc) (a := (a, s)) (a' := (b, s)) ⟨h, rfl⟩ hl
    exact h1

theorem fuseConnectStep_alike (f : FuseInitFn σ) (x y : Bytes × σ) (hr : BufferAlike x y) :
    StepsAlike BufferAlike (· = ·) (fuseConnectStep sock f x) (fuseConnectStep sock f y) := by
  obtain ⟨a, s⟩ := x
  obtain ⟨b, s0⟩ := y
  obtain ⟨hl, hs⟩ := hr
  dsimp only at hl hs
  subst hs
  obtain ⟨r, s', a', b', hl', ha, hb, ht⟩ := recv_alike hw a b s hl
  unfold fuseConnectStep
  rw [ha, hb]
  cases r with
  | error e => rfl
  | ok n =>
    dsimp only
    rw [ht n rfl]
    cases receiveInit (ε := ε) decodeFuseInit (truncateSlice b' n) with
    | err e => rfl
    | fault e => rfl
    | ok p =>
      obtain ⟨q, id⟩ := p
      dsimp only
      rcases fuseHandshake q (f q {}) s' with ⟨⟨reply, ok⟩, w⟩
      dsimp only
      rcases sendInitOut reply.raw ⟨⟨sock, id.val⟩, ⟨36, 0⟩⟩ w with ⟨_ | _, w'⟩
      · rfl
      · cases ok
        · exact ⟨hl', rfl⟩
        · rfl

theorem cuseConnectStep_alike (name : CuseDeviceName) (num : CuseDeviceNumber) (f : CuseInitFn σ) (x y : Bytes × σ)
    (hr : BufferAlike x y) :
    StepsAlike BufferAlike (· = ·) (cuseConnectStep sock name num f x) (cuseConnectStep sock name num f y) := by
  obtain ⟨a, s⟩ := x
  obtain ⟨b, s0⟩ := y
  obtain ⟨hl, hs⟩ := hr
  dsimp only at hl hs
  subst hs
  obtain ⟨r, s', a', b', hl', ha, hb, ht⟩ := recv_alike hw a b s hl
  unfold cuseConnectStep
  rw [ha, hb]
  cases r with
  | error e => rfl
  | ok n =>
    dsimp only
    rw [ht n rfl]
    cases receiveInit (ε := ε) decodeCuseInit (truncateSlice b' n) with
    | err e => rfl
    | fault e => rfl
    | ok p =>
      obtain ⟨q, id⟩ := p
      dsimp only
      rcases cuseHandshake q (f q ((CuseInitResponse.new name).setDeviceNumber num)) s' with ⟨⟨reply, ok⟩, w⟩
      dsimp only
      rcases reply.sendTo ⟨⟨sock, id.val⟩⟩ w with ⟨_ | _, w'⟩
      · rfl
      · cases ok
        · exact ⟨hl', rfl⟩
        · rfl

/-- C62: the handshake ends in the same way whatever is in its buffer, in particular when an INIT that is refused is
followed by another. -/
theorem C62_connect (ff : FuseInitFn σ) (name : CuseDeviceName) (num : CuseDeviceNumber) (fc : CuseInitFn σ)
    (a b : Bytes) (s : σ) (h : a.length = b.length) :
    (∀ out, LoopReturns (fuseConnectStep sock ff) (a, s) out → LoopReturns (fuseConnectStep sock ff) (b, s) out) ∧
    (∀ out, LoopReturns (cuseConnectStep sock name num fc) (a, s) out →
      LoopReturns (cuseConnectStep sock name num fc) (b, s) out) := by
  constructor
  · intro out hl
    obtain ⟨b', h1, rfl⟩ := LoopReturns.alike (fuseConnectStep_alike hw ff) (a := (a, s)) (a' := (b, s)) ⟨h, rfl⟩ hl
    exact h1
  · intro out hl
    obtain ⟨b', h1, rfl⟩ :=
      LoopReturns.alike (cuseConnectStep_alike hw name num fc) (a := (a, s)) (a' := (b, s)) ⟨h, rfl⟩ hl
    exact h1

end

/-! ## Threads -/

/-- A service whose receiving does not depend on the buffer's contents. -/
def Service.WritesOnly (srv : Service σ ε) : Prop :=
  ∀ (a b : Bytes) (s : σ), a.length = b.length →
    (srv.recv a s).1.1 = (srv.recv b s).1.1 ∧ (srv.recv a s).2 = (srv.recv b s).2 ∧
    (srv.recv a s).1.2.length = (srv.recv b s).1.2.length

theorem fuseRecv_length (sock : Socket σ ε) (a : Bytes) (s : σ) : (fuseRecv sock a s).1.2.length = a.length := by
  have := sock.recv_length a s
  unfold fuseRecv
  generalize sock.recv a s = x at this ⊢
  obtain ⟨⟨_ | _, a'⟩, s'⟩ := x
  · next e => cases e <;> exact this
  · dsimp only
    cases Request.new (truncateSlice a' _) <;> exact this

theorem cuseRecv_length (sock : Socket σ ε) (a : Bytes) (s : σ) : (cuseRecv sock a s).1.2.length = a.length := by
  have := sock.recv_length a s
  unfold cuseRecv
  generalize sock.recv a s = x at this ⊢
  obtain ⟨⟨_ | _, a'⟩, s'⟩ := x
  · exact this
  · dsimp only
    cases Request.new (truncateSlice a' _) <;> exact this

theorem fuseService_writesOnly {sock : Socket σ ε} (hw : WritesOnly sock) (h : Handlers FuseMethod σ) :
    (fuseService sock h).WritesOnly := by
  intro a b s hl
  obtain ⟨h1, h2, -, -⟩ := C62_recv hw a b s hl
  exact ⟨h1, h2, by
    show (fuseRecv sock a s).1.2.length = (fuseRecv sock b s).1.2.length
    rw [fuseRecv_length, fuseRecv_length, hl]⟩

theorem cuseService_writesOnly {sock : Socket σ ε} (hw : WritesOnly sock) (h : Handlers CuseMethod σ) :
    (cuseService sock h).WritesOnly := by
  intro a b s hl
  obtain ⟨-, -, h1, h2⟩ := C62_recv hw a b s hl
  have h3 := cuseRecv_length sock a s
  have h4 := cuseRecv_length sock b s
  unfold cuseService
  dsimp only
  generalize cuseRecv sock a s = x at h1 h2 h3 ⊢
  generalize cuseRecv sock b s = y at h1 h2 h4 ⊢
  obtain ⟨⟨_ | _, a'⟩, s'⟩ := x <;> obtain ⟨⟨_ | _, b'⟩, s''⟩ := y <;>
    dsimp only at h1 h2 h3 h4 ⊢ <;> cases h1 <;> exact ⟨rfl, h2, by rw [h3, h4, hl]⟩

theorem workerStep_alike {srv : Service σ ε} (hw : srv.WritesOnly) (cap : Nat) (ch : List (ServerError ε)) (s : σ)
    {w v : Worker ε} (hs : SameButBuffer w v) {e : Event ε} {w' : Worker ε} {ch' : List (ServerError ε)} {s' : σ}
    (h : workerStep srv cap ch s w = some (e, w', ch', s')) :
    ∃ v', workerStep srv cap ch s v = some (e, v', ch', s') ∧ SameButBuffer w' v' := by
  cases w with
  | receiving a =>
    cases v with
    | receiving b =>
      obtain ⟨h1, h2, h3⟩ := hw a b s hs
      simp only [workerStep] at h ⊢
      rcases ha : srv.recv a s with ⟨⟨r, a'⟩, sa⟩
      rcases hb : srv.recv b s with ⟨⟨r', b'⟩, sb⟩
      rw [ha, hb] at h1 h2 h3
      dsimp only at h1 h2 h3
      subst h1 h2
      rw [ha] at h
      rcases r with e | _ | q <;> dsimp only at h ⊢ <;> cases h
      · exact ⟨_, rfl, h3, rfl⟩
      · exact ⟨_, rfl, trivial⟩
      · exact ⟨_, rfl, h3, rfl⟩
    | _ => exact hs.elim
  | handling a r =>
    cases v with
    | handling b r' =>
      obtain ⟨hl, rfl⟩ := hs
      simp only [workerStep] at h ⊢
      cases hd : srv.dispatch r s <;> rw [hd] at h <;> cases h
      · exact ⟨_, rfl, rfl⟩
      · exact ⟨_, rfl, hl⟩
    | _ => exact hs.elim
  | reporting a r =>
    cases v with
    | reporting b r' =>
      obtain ⟨hl, rfl⟩ := hs
      simp only [workerStep] at h ⊢
      split at h
      · next hc =>
        cases h
        rw [if_pos hc]
        refine ⟨_, rfl, ?_⟩
        cases isFatalError r
        · exact hl
        · trivial
      · cases h
    | _ => exact hs.elim
  | finished => simp only [workerStep] at h; cases h
  | faulted f => simp only [workerStep] at h; cases h

/-- C62: for every schedule of the threads with some contents of their buffers there is the same schedule with any
other: the same requests, errors and replies in the same order, the same effects, the same reports. -/
theorem C62_pool {srv : Service σ ε} (hw : srv.WritesOnly) (s : σ) (as bs : List Bytes)
    (hl : as.map List.length = bs.map List.length) {es : List (Event ε)} {p : Pool σ ε}
    (hr : Pool.Run srv (Pool.start s as) es p) :
    ∃ q, Pool.Run srv (Pool.start s bs) es q ∧ q.world = p.world ∧ q.channel = p.channel ∧
      q.capacity = p.capacity ∧ q.workers.length = p.workers.length ∧
      ∀ (i : Nat) (w v : Worker ε), p.workers[i]? = some w → q.workers[i]? = some v → SameButBuffer w v := by
  have hn : as.length = bs.length := by rw [← List.length_map (f := List.length), hl, List.length_map]
  induction hr with
  | start =>
    refine ⟨_, .start, rfl, rfl, hn.symm, by show (bs.map _).length = (as.map _).length; simp [hn], ?_⟩
    intro i w v h1 h2
    have h3 := congrArg (·[i]?) hl
    replace h3 : (as.map List.length)[i]? = (bs.map List.length)[i]? := h3
    replace h1 : (as.map Worker.receiving)[i]? = some w := h1
    replace h2 : (bs.map Worker.receiving)[i]? = some v := h2
    rw [List.getElem?_map] at h1 h2
    rw [List.getElem?_map, List.getElem?_map] at h3
    obtain ⟨a, ha, rfl⟩ := Option.map_eq_some_iff.mp h1
    obtain ⟨b, hb, rfl⟩ := Option.map_eq_some_iff.mp h2
    rw [ha, hb] at h3
    exact Option.some.inj h3
  | step _ hst ih =>
    obtain ⟨q, h1, h2, h3, h4, h5, h6⟩ := ih
    obtain ⟨i, w, w', ch, s', hw1, hw2, rfl⟩ := hst.out
    obtain ⟨hi, hi'⟩ := List.getElem?_eq_some_iff.mp hw1
    have hv : q.workers[i]? = some (q.workers[i]'(by omega)) := List.getElem?_eq_getElem _
    obtain ⟨v', hv1, hv2⟩ := workerStep_alike hw _ _ _ (h6 _ _ _ hw1 hv) hw2
    rw [← h2, ← h3, ← h4] at hv1
    refine ⟨_, .step h1 (.mk hv hv1), rfl, rfl, h4, by simpa using h5, ?_⟩
    intro j x y hx hy
    replace hx : (_ : List (Worker ε))[j]? = some x := hx
    replace hy : (q.workers.set i v')[j]? = some y := hy
    by_cases hj : i = j
    · subst hj
      rw [List.getElem?_set_self hi] at hx
      rw [List.getElem?_set_self (by omega)] at hy
      cases hx; cases hy
      exact hv2
    · rw [List.getElem?_set_ne hj] at hx hy
      exact h6 j x y hx hy

/-! ## Devices -/

section
variable {δ : Type}

namespace Spec

/-- A successful `read` stores as many bytes as it says. -/
def StoresCount (sys : Sys δ) : Prop :=
  ∀ fd len d n, (sys.read fd len d).1.1 = .ok n → n ≤ (sys.read fd len d).1.2.length

end Spec

/-- Results of receiving that agree in all but the unused part of the buffer. -/
def RecvAlike {ε τ : Type} (x y : (Except (RecvError ε) Nat × Bytes) × τ) : Prop :=
  x.1.1 = y.1.1 ∧ x.2 = y.2 ∧ ∀ n, x.1.1 = .ok n → x.1.2.take n = y.1.2.take n

theorem overlay_length (a : Bytes) (bytes : Bytes) (h : bytes.length ≤ a.length) :
    (overlay a bytes).length = a.length := by
  unfold overlay
  rw [List.length_append, List.length_drop]; omega

theorem overlay_take (a b bytes : Bytes) (n : Nat) (h : n ≤ bytes.length) :
    (overlay a bytes).take n = (overlay b bytes).take n := by
  unfold overlay
  rw [List.take_append_of_le_length h, List.take_append_of_le_length h]

/-- C62: the device sockets of `fuse-linux` and `fuse-libc` do not look at the buffer's contents: receiving, with all
its retries, makes the same system calls and yields the same message. -/
theorem C62_device (sys : Sys δ) (hst : StoresCount sys) (s : DeviceSocket) (a b : Bytes) (h : a.length = b.length) :
    (∀ d out, Linux.RecvReturns sys s a d out → ∃ out', Linux.RecvReturns sys s b d out' ∧
      out'.1.1 = out.1.1 ∧ out'.2 = out.2 ∧ ∀ n, out.1.1 = .ok n → out'.1.2.take n = out.1.2.take n) ∧
    (∀ t out, Libc.RecvReturns sys s a t out → ∃ out', Libc.RecvReturns sys s b t out' ∧
      out'.1.1 = out.1.1 ∧ out'.2 = out.2 ∧ ∀ n, out.1.1 = .ok n → out'.1.2.take n = out.1.2.take n) := by
  constructor
  · intro d out hl
    have hstep : ∀ x y : Bytes × δ, BufferAlike x y →
        StepsAlike BufferAlike RecvAlike (Linux.recvStep sys s x) (Linux.recvStep sys s y) := by
      rintro ⟨a, d⟩ ⟨b, d'⟩ ⟨hl, hd⟩
      dsimp only at hl hd
      subst hd
      have hc := hst s.fd b.length d
      have hf := sys.read_fits s.fd b.length d
      simp only [Linux.recvStep, hl]
      cases hr : (sys.read s.fd b.length d).1.1 with
      | ok n =>
        refine ⟨rfl, rfl, fun m hm => ?_⟩
        cases hm
        exact overlay_take _ _ _ _ (hc n hr)
      | error e =>
        dsimp only
        cases Linux.checkRecvErr s e with
        | ok _ =>
          exact ⟨by rw [overlay_length _ _ hf, overlay_length _ _ (by rw [hl]; exact hf), hl], rfl⟩
        | error e' => exact ⟨rfl, rfl, fun m hm => nomatch hm⟩
    obtain ⟨out', h1, h2, h3, h4⟩ := LoopReturns.alike hstep (a := (a, d)) (a' := (b, d)) ⟨h, rfl⟩ hl
    exact ⟨out', h1, h2.symm, h3.symm, fun n hn => (h4 n hn).symm⟩
  · intro t out hl
    have hstep : ∀ x y : Bytes × Libc.Thread δ, BufferAlike x y →
        StepsAlike BufferAlike RecvAlike (Libc.recvStep sys s x) (Libc.recvStep sys s y) := by
      rintro ⟨a, t⟩ ⟨b, t'⟩ ⟨hl, hd⟩
      dsimp only at hl hd
      subst hd
      have hc := hst s.fd b.length t.sys
      have hf := sys.read_fits s.fd b.length t.sys
      simp only [Libc.recvStep, hl]
      generalize hx : Libc.ret ((sys.read s.fd b.length t.sys).1.1, (sys.read s.fd b.length t.sys).2) t = x
      obtain ⟨rc, t'⟩ := x
      dsimp only
      by_cases hrc : rc ≥ 0
      · rw [if_pos hrc, if_pos hrc]
        refine ⟨rfl, rfl, fun m hm => ?_⟩
        cases hm
        refine overlay_take _ _ _ _ ?_
        unfold Libc.ret at hx
        dsimp only at hx
        split at hx
        · next n hn => cases hx; exact hc n hn
        · cases hx; exact absurd hrc (by decide)
      · rw [if_neg hrc, if_neg hrc]
        cases Libc.checkRecvErr s t' with
        | ok _ =>
          exact ⟨by rw [overlay_length _ _ hf, overlay_length _ _ (by rw [hl]; exact hf), hl], rfl⟩
        | error e' => exact ⟨rfl, rfl, fun m hm => nomatch hm⟩
    obtain ⟨out', h1, h2, h3, h4⟩ := LoopReturns.alike hstep (a := (a, t)) (a' := (b, t)) ⟨h, rfl⟩ hl
    exact ⟨out', h1, h2.symm, h3.symm, fun n hn => (h4 n hn).symm⟩

end

/-! ## Concrete cases -/

/-- The hypothesis holds of the connection to a scripted client. -/
theorem scripted_writesOnly (closed : RecvError ε) : WritesOnly (scripted closed) := by
  intro a b s h
  unfold scripted
  dsimp only
  cases s.incoming with
  | nil => exact ⟨rfl, rfl, fun n hn => nomatch hn⟩
  | cons x rest =>
    cases x with
    | error e => exact ⟨rfl, rfl, fun n hn => nomatch hn⟩
    | ok m =>
      refine ⟨by rw [h], rfl, fun n hn => ?_⟩
      cases hn
      dsimp only
      rw [h, List.take_append_of_le_length (by rw [List.length_take]; omega),
        List.take_append_of_le_length (by rw [List.length_take]; omega)]

/-- A system on which every read stores three bytes meets the hypothesis on devices. -/
example : ∃ sys : Sys Unit, StoresCount sys ∧ (sys.read 3 8192 ()).1 = (.ok 3, [1, 2, 3]) := by
  refine ⟨{
    read := fun _ len d => ((.ok (min 3 len), [1, 2, 3].take len), d)
    read_fits := fun _ len _ => by rw [List.length_take]; exact Nat.min_le_left ..
    read_count := fun _ len _ n h => by cases h; exact Nat.min_le_right ..
    writev := fun _ _ d => (.error 5, d)
    openat2 := fun _ _ _ d => (.error 2, d)
    openat2_fd := fun _ _ _ _ _ h => nomatch h
    openat := fun _ _ _ d => (.error 2, d)
    openat_fd := fun _ _ _ _ _ h => nomatch h
    close := fun _ d => (.ok (), d)
    statx := fun _ d => (.error 2, d)
    getuid := fun d => (0, d)
    getgid := fun d => (0, d)
    mount := fun _ _ _ _ _ d => (.error 1, d)
    nmount := fun _ _ d => (.error 1, d) }, ?_, rfl⟩
  intro fd len d n h
  cases h
  show min 3 len ≤ ([1, 2, 3].take len).length
  rw [List.length_take]
  simp only [List.length_cons, List.length_nil]
  omega

/-- An earlier message that is still in the buffer does not show: the second of two messages is received as it was
sent, short as it is, into a buffer full of ones. -/
example (m : Bytes) (hm : m.length = 40) (s : Script Unit) :
    (fuseRecv (scripted (.connectionClosed ())) (List.replicate 8192 1) ⟨.ok m :: s.incoming, s.outgoing⟩).1.1 =
    (fuseRecv (scripted (.connectionClosed ())) (m ++ List.replicate 8152 0) ⟨.ok m :: s.incoming, s.outgoing⟩).1.1 :=
  (C62_recv (scripted_writesOnly _) _ _ _ (by
    rw [List.length_append, hm, List.length_replicate, List.length_replicate])).1

end Fuse
