import Verif.Device
import Verif.PropSocket
import Verif.PropHello

/-!
# C63: a whole session on a device

The system is any whose `read` and `writev` on one descriptor behave as those of the FUSE device: each `read`
delivers the next message of the client or, once there are no more, `ENODEV`; each `writev` takes the whole message;
and any of the calls may instead be interrupted, finitely often in all.  What the program sees of interruptions, the
sockets' retries, the handshake, the threads and the handlers come together here.
-/

namespace Fuse
open Spec

variable {σ ε δ : Type}

namespace Spec

/-- What there is to know of the device: the messages that the client has yet to send, those that it has got, and a
bound on the interruptions to come. -/
structure View (δ : Type) where
  incoming : δ → List Bytes
  outgoing : δ → List Bytes
  interrupts : δ → Nat

/-- A call was interrupted. -/
def View.Interrupted (v : View δ) (d d' : δ) : Prop :=
  v.incoming d' = v.incoming d ∧ v.outgoing d' = v.outgoing d ∧ v.interrupts d' < v.interrupts d

/-- A call was done: `rest` is yet to be received, `sent` was sent. -/
def View.Done (v : View δ) (d d' : δ) (rest sent : List Bytes) : Prop :=
  v.incoming d' = rest ∧ v.outgoing d' = v.outgoing d ++ sent ∧ v.interrupts d' ≤ v.interrupts d

/-- `fd` is an open FUSE device. -/
structure FuseDevice (sys : Sys δ) (fd : Int32) (v : View δ) : Prop where
  again : ∀ len d, ((sys.read fd len d).1.1 = .error ENOENT ∨ (sys.read fd len d).1.1 = .error EINTR) →
    v.Interrupted d (sys.read fd len d).2
  message : ∀ len d m rest, v.incoming d = m :: rest → m.length ≤ len →
    ((sys.read fd len d).1.1 = .error ENOENT ∨ (sys.read fd len d).1.1 = .error EINTR) ∨
    ((sys.read fd len d).1 = (.ok m.length, m) ∧ v.Done d (sys.read fd len d).2 rest [])
  closed : ∀ len d, v.incoming d = [] →
    ((sys.read fd len d).1.1 = .error ENOENT ∨ (sys.read fd len d).1.1 = .error EINTR) ∨
    ((sys.read fd len d).1.1 = .error ENODEV ∧ v.Done d (sys.read fd len d).2 [] [])
  writeAgain : ∀ iov d, (sys.writev fd iov d).1 = .error EINTR → v.Interrupted d (sys.writev fd iov d).2
  write : ∀ iov d, (sys.writev fd iov d).1 = .error EINTR ∨
    ((sys.writev fd iov d).1 = .ok iov.flatten.length ∧
      v.Done d (sys.writev fd iov d).2 (v.incoming d) [iov.flatten])

/-- The same view, of a state with more in it. -/
def View.through (v : View δ) (f : σ → δ) : View σ := ⟨v.incoming ∘ f, v.outgoing ∘ f, v.interrupts ∘ f⟩

end Spec

/-! ## Attempts to receive -/

/-- One attempt to receive; `ends` is the error at the end. -/
structure Attempts (attempt : Bytes × σ → ((Except (RecvError ε) Nat × Bytes) × σ) ⊕ (Bytes × σ)) (v : View σ)
    (ends : RecvError ε) : Prop where
  message : ∀ buf s m rest, v.incoming s = m :: rest → m.length ≤ buf.length →
    (∃ b s', attempt (buf, s) = .inr (b, s') ∧ b.length = buf.length ∧ v.Interrupted s s') ∨
    (∃ b s', attempt (buf, s) = .inl ((.ok m.length, b), s') ∧ b.take m.length = m ∧ b.length = buf.length ∧
      v.Done s s' rest [])
  closed : ∀ buf s, v.incoming s = [] →
    (∃ b s', attempt (buf, s) = .inr (b, s') ∧ b.length = buf.length ∧ v.Interrupted s s') ∨
    (∃ b s', attempt (buf, s) = .inl ((.error ends, b), s') ∧ v.Done s s' [] [])

/-- The error that `ENODEV` is reported as. -/
def DeviceSocket.ends (s : DeviceSocket) (e : ε) : RecvError ε :=
  if s.enodevIsEof then .connectionClosed e else .other e

theorem overlay_len (buf bytes : Bytes) (h : bytes.length ≤ buf.length) :
    (overlay buf bytes).length = buf.length := by
  unfold overlay
  rw [List.length_append, List.length_drop]; omega

theorem linux_attempts {sys : Sys δ} {s : DeviceSocket} {v : View δ} (hd : FuseDevice sys s.fd v) :
    Attempts (Linux.recvStep sys s) v (s.ends ENODEV) := by
  have again : ∀ buf d, ((sys.read s.fd buf.length d).1.1 = .error ENOENT ∨
      (sys.read s.fd buf.length d).1.1 = .error EINTR) →
      ∃ b d', Linux.recvStep sys s (buf, d) = .inr (b, d') ∧ b.length = buf.length ∧ v.Interrupted d d' := by
    intro buf d h
    refine ⟨_, _, ?_, overlay_len _ _ (sys.read_fits s.fd buf.length d), hd.again buf.length d h⟩
    unfold Linux.recvStep
    rcases h with h | h <;> dsimp only <;> rw [h] <;> rfl
  constructor
  · intro buf d m rest hi hl
    rcases hd.message buf.length d m rest hi hl with h | ⟨h1, h2⟩
    · exact .inl (again buf d h)
    · refine .inr ⟨overlay buf m, _, ?_, ?_, overlay_len _ _ hl, h2⟩
      · unfold Linux.recvStep
        dsimp only
        rw [h1]
      · unfold overlay
        rw [List.take_left' rfl]
  · intro buf d hi
    rcases hd.closed buf.length d hi with h | ⟨h1, h2⟩
    · exact .inl (again buf d h)
    · refine .inr ⟨overlay buf (sys.read s.fd buf.length d).1.2, _, ?_, h2⟩
      unfold Linux.recvStep
      dsimp only
      rw [h1]
      have : Linux.checkRecvErr s ENODEV = .error (s.ends ENODEV) := by
        unfold Linux.checkRecvErr DeviceSocket.ends
        rw [if_neg (by decide), if_neg (by decide)]
        cases s.enodevIsEof <;> rfl
      dsimp only
      rw [this]

theorem libc_attempts {sys : Sys δ} {s : DeviceSocket} {v : View δ} (hd : FuseDevice sys s.fd v) :
    Attempts (Libc.recvStep sys s) (v.through Libc.Thread.sys) (s.ends ⟨Libc.cInt ENODEV⟩) := by
  have again : ∀ buf (t : Libc.Thread δ), ((sys.read s.fd buf.length t.sys).1.1 = .error ENOENT ∨
      (sys.read s.fd buf.length t.sys).1.1 = .error EINTR) →
      ∃ b t', Libc.recvStep sys s (buf, t) = .inr (b, t') ∧ b.length = buf.length ∧
        (v.through Libc.Thread.sys).Interrupted t t' := by
    intro buf t h
    have hl := overlay_len _ _ (sys.read_fits s.fd buf.length t.sys)
    rcases h with h | h
    · refine ⟨overlay buf (sys.read s.fd buf.length t.sys).1.2, ⟨(sys.read s.fd buf.length t.sys).2, Libc.cInt ENOENT⟩,
        ?_, hl, hd.again buf.length t.sys (.inl h)⟩
      unfold Libc.recvStep Libc.ret
      dsimp only
      rw [h]; rfl
    · refine ⟨overlay buf (sys.read s.fd buf.length t.sys).1.2, ⟨(sys.read s.fd buf.length t.sys).2, Libc.cInt EINTR⟩,
        ?_, hl, hd.again buf.length t.sys (.inr h)⟩
      unfold Libc.recvStep Libc.ret
      dsimp only
      rw [h]; rfl
  constructor
  · intro buf t m rest hi hl
    rcases hd.message buf.length t.sys m rest hi hl with h | ⟨h1, h2⟩
    · exact .inl (again buf t h)
    · refine .inr ⟨overlay buf m, ⟨_, t.errno⟩, ?_, ?_, overlay_len _ _ hl, h2⟩
      · unfold Libc.recvStep Libc.ret
        dsimp only
        rw [h1]
        exact if_pos (Int.natCast_nonneg m.length)
      · unfold overlay
        rw [List.take_left' rfl]
  · intro buf t hi
    rcases hd.closed buf.length t.sys hi with h | ⟨h1, h2⟩
    · exact .inl (again buf t h)
    · refine .inr ⟨overlay buf (sys.read s.fd buf.length t.sys).1.2, ⟨_, Libc.cInt ENODEV⟩, ?_, h2⟩
      unfold Libc.recvStep Libc.ret
      dsimp only
      rw [h1]
      have : Libc.checkRecvErr s (⟨(sys.read s.fd buf.length t.sys).2, Libc.cInt ENODEV⟩ : Libc.Thread δ) =
          .error (s.ends ⟨Libc.cInt ENODEV⟩) := by
        unfold Libc.checkRecvErr DeviceSocket.ends
        dsimp only
        rw [if_neg (by decide), if_neg (by decide)]
        cases s.enodevIsEof <;> rfl
      dsimp only
      rw [if_neg (by decide), this]

/-! ## Sockets -/

/-- A socket on a device. -/
structure ActsOn (sock : Socket σ ε) (v : View σ) : Prop where
  message : ∀ buf s m rest, v.incoming s = m :: rest → m.length ≤ buf.length →
    ∃ b s', sock.recv buf s = ((.ok m.length, b), s') ∧ b.take m.length = m ∧ v.Done s s' rest []
  send : ∀ out msg s, Carries out msg → msg.length < 2 ^ 32 →
    ∃ s', sock.send out s = (.ok (), s') ∧ v.Done s s' (v.incoming s) [msg]

theorem interrupted_done {v : View σ} {s s' s'' : σ} {rest sent : List Bytes} (h : v.Interrupted s s')
    (h' : v.Done s' s'' rest sent) : v.Done s s'' rest sent :=
  ⟨h'.1, by rw [h'.2.1, h.2.1], by have := h.2.2; have := h'.2.2; omega⟩

theorem done_trans {v : View σ} {s s' s'' : σ} {r r' x y : List Bytes} (h : v.Done s s' r x)
    (h' : v.Done s' s'' r' y) : v.Done s s'' r' (x ++ y) :=
  ⟨h'.1, by rw [h'.2.1, h.2.1, List.append_assoc], by have := h.2.2; have := h'.2.2; omega⟩

theorem recv_message {attempt : Bytes × σ → ((Except (RecvError ε) Nat × Bytes) × σ) ⊕ (Bytes × σ)} {v : View σ}
    {ends : RecvError ε} (ha : Attempts attempt v ends) (n : Nat) : ∀ buf s m rest, v.interrupts s < n → v.incoming s = m :: rest →
    m.length ≤ buf.length →
    ∃ b s', LoopReturns attempt (buf, s) ((.ok m.length, b), s') ∧ b.take m.length = m ∧ v.Done s s' rest [] := by
  induction n with
  | zero => intro _ _ _ _ h; omega
  | succ n ih =>
    intro buf s m rest hn hi hl
    rcases ha.message buf s m rest hi hl with ⟨b, s', h1, h2, h3⟩ | ⟨b, s', h1, h2, -, h3⟩
    · obtain ⟨b', s'', h4, h5, h6⟩ := ih b s' m rest (by have := h3.2.2; omega) (by rw [h3.1, hi]) (by omega)
      exact ⟨b', s'', .of_next h1 h4, h5, interrupted_done h3 h6⟩
    · exact ⟨b, s', .of_step h1, h2, h3⟩

theorem linux_send {sys : Sys δ} {s : DeviceSocket} {v : View δ} (hd : FuseDevice sys s.fd v) (cs : List Bytes)
    (n : Nat) : ∀ d, v.interrupts d < n →
    ∃ d', LoopReturns (Linux.sendStep sys s cs.flatten.length cs) d (.ok (), d') ∧
      v.Done d d' (v.incoming d) [cs.flatten] := by
  induction n with
  | zero => intro _ h; omega
  | succ n ih =>
    intro d hn
    rcases hd.write cs d with h | ⟨h, h'⟩
    · have hi := hd.writeAgain cs d h
      obtain ⟨d', h1, h2⟩ := ih (sys.writev s.fd cs d).2 (by have := hi.2.2; omega)
      refine ⟨d', .of_next ?_ h1, ?_⟩
      · unfold Linux.sendStep
        dsimp only
        rw [h]; rfl
      · rw [← hi.1]; exact interrupted_done hi h2
    · refine ⟨_, .of_step ?_, h'⟩
      unfold Linux.sendStep
      dsimp only
      rw [h]
      exact if_pos rfl

theorem libc_send {sys : Sys δ} {s : DeviceSocket} {v : View δ} (hd : FuseDevice sys s.fd v) (cs : List Bytes)
    (hl : cs.flatten.length < 2 ^ 63) (n : Nat) : ∀ t : Libc.Thread δ, v.interrupts t.sys < n →
    ∃ t', LoopReturns (Libc.sendStep sys s cs.flatten.length cs) t (.ok (), t') ∧
      (v.through Libc.Thread.sys).Done t t' (v.incoming t.sys) [cs.flatten] := by
  induction n with
  | zero => intro _ h; omega
  | succ n ih =>
    intro t hn
    rcases hd.write cs t.sys with h | ⟨h, h'⟩
    · have hi := hd.writeAgain cs t.sys h
      obtain ⟨t', h1, h2⟩ := ih ⟨(sys.writev s.fd cs t.sys).2, Libc.cInt EINTR⟩ (by have := hi.2.2; dsimp only; omega)
      refine ⟨t', .of_next ?_ h1, ?_⟩
      · unfold Libc.sendStep Libc.ret
        dsimp only
        rw [h]; rfl
      · rw [← hi.1]
        exact interrupted_done (v := v.through Libc.Thread.sys) (s := t) (s' := ⟨(sys.writev s.fd cs t.sys).2, Libc.cInt EINTR⟩) hi h2
    · refine ⟨⟨(sys.writev s.fd cs t.sys).2, t.errno⟩, .of_step ?_, h'⟩
      unfold Libc.sendStep Libc.ret
      dsimp only
      rw [h]
      have ha : Libc.asIsize cs.flatten.length = (cs.flatten.length : Int) := by
        unfold Libc.asIsize
        rw [Int.bmod_eq_of_le (by omega) (by omega)]
      show (if (cs.flatten.length : Int) = -1 then _ else if (cs.flatten.length : Int) = Libc.asIsize _ then _ else _) = _
      rw [if_neg (by omega), if_pos ha.symm]

/-- The socket makes the system calls of `fuse-linux`. -/
def OnLinux (sys : Sys δ) (s : DeviceSocket) (sock : Socket δ Errno) : Prop :=
  (∀ buf d, Linux.RecvReturns sys s buf d (sock.recv buf d)) ∧
  (∀ buf msg d, Carries buf msg → Linux.SendReturns sys s buf d (sock.send buf d))

/-- The socket makes the system calls of `fuse-libc`. -/
def OnLibc (sys : Sys δ) (s : DeviceSocket) (sock : Socket (Libc.Thread δ) Libc.LibcError) : Prop :=
  (∀ buf t, Libc.RecvReturns sys s buf t (sock.recv buf t)) ∧
  (∀ buf msg t, Carries buf msg → msg.length < 2 ^ 63 → Libc.SendReturns sys s buf t (sock.send buf t))

theorem linux_actsOn {sys : Sys δ} {s : DeviceSocket} {v : View δ} (hd : FuseDevice sys s.fd v)
    {sock : Socket δ Errno} (hs : OnLinux sys s sock) : ActsOn sock v := by
  constructor
  · intro buf d m rest hi hl
    obtain ⟨b, d', h1, h2, h3⟩ := recv_message (linux_attempts hd) _ buf d m rest (Nat.lt_succ_self _) hi hl
    exact ⟨b, d', (hs.1 buf d).unique h1, h2, h3⟩
  · intro out msg d hc _
    obtain ⟨cs, h1, -, h2⟩ := iovecs_of_carries hc
    obtain ⟨cs', h3, h4⟩ := hs.2 out msg d hc
    rw [h1] at h3
    cases h3
    have hlen : out.len = cs.flatten.length := by
      obtain ⟨_, _, _, _, h⟩ := hc
      rw [h, h2]
    rw [hlen] at h4
    obtain ⟨d', h5, h6⟩ := linux_send hd cs _ d (Nat.lt_succ_self _)
    rw [h2] at h6
    exact ⟨d', h4.unique h5, h6⟩

theorem libc_actsOn {sys : Sys δ} {s : DeviceSocket} {v : View δ} (hd : FuseDevice sys s.fd v)
    {sock : Socket (Libc.Thread δ) Libc.LibcError} (hs : OnLibc sys s sock) :
    ActsOn sock (v.through Libc.Thread.sys) := by
  constructor
  · intro buf t m rest hi hl
    obtain ⟨b, t', h1, h2, h3⟩ := recv_message (libc_attempts hd) _ buf t m rest (Nat.lt_succ_self _) hi hl
    exact ⟨b, t', (hs.1 buf t).unique h1, h2, h3⟩
  · intro out msg t hc hlt
    obtain ⟨cs, -, h1, h2⟩ := iovecs_of_carries hc
    obtain ⟨cs', h3, h4⟩ := hs.2 out msg t hc (by omega)
    rw [h1] at h3
    cases h3
    have hlen : out.len = cs.flatten.length := by
      obtain ⟨_, _, _, _, h⟩ := hc
      rw [h, h2]
    rw [hlen] at h4
    obtain ⟨t', h5, h6⟩ := libc_send hd cs (by rw [h2]; omega) _ t (Nat.lt_succ_self _)
    rw [h2] at h6
    exact ⟨t', h4.unique h5, h6⟩

/-! ### Such sockets exist -/

theorem returns_of_measure {α β : Type} {step : α → β ⊕ α} (f : α → Nat)
    (h : ∀ a a', step a = .inr a' → f a' < f a) (n : Nat) : ∀ a, f a < n → ∃ b, LoopReturns step a b := by
  induction n with
  | zero => intro _ h; omega
  | succ n ih =>
    intro a ha
    rcases hs : step a with b | a'
    · exact ⟨b, .of_step hs⟩
    · obtain ⟨b, hb⟩ := ih a' (by have := h a a' hs; omega)
      exact ⟨b, .of_next hs hb⟩

theorem linux_recv_measure {sys : Sys δ} {s : DeviceSocket} {v : View δ} (hd : FuseDevice sys s.fd v)
    (a a' : Bytes × δ) (h : Linux.recvStep sys s a = .inr a') : v.interrupts a'.2 < v.interrupts a.2 := by
  obtain ⟨buf, d⟩ := a
  unfold Linux.recvStep at h
  dsimp only at h
  rcases hr : (sys.read s.fd buf.length d).1.1 with e | k
  · rw [hr] at h
    dsimp only at h
    have hag : e = ENOENT ∨ e = EINTR := by
      by_cases h1 : e = ENOENT
      · exact .inl h1
      · by_cases h2 : e = EINTR
        · exact .inr h2
        · exfalso
          unfold Linux.checkRecvErr at h
          rw [if_neg h1, if_neg h2] at h
          split at h <;> cases h
          rename_i h'
          split at h' <;> cases h'
    have := hd.again buf.length d (by rcases hag with rfl | rfl; exact .inl hr; exact .inr hr)
    split at h <;> cases h
    exact this.2.2
  · rw [hr] at h; cases h

theorem linux_send_measure {sys : Sys δ} {s : DeviceSocket} {v : View δ} (hd : FuseDevice sys s.fd v)
    (len : Nat) (cs : List Bytes) (d d' : δ) (h : Linux.sendStep sys s len cs d = .inr d') :
    v.interrupts d' < v.interrupts d := by
  unfold Linux.sendStep at h
  dsimp only at h
  rcases hd.write cs d with hw | ⟨hw, -⟩
  · have := hd.writeAgain cs d hw
    rw [hw] at h
    dsimp only at h
    split at h <;> cases h
    exact this.2.2
  · rw [hw] at h
    dsimp only at h
    split at h <;> cases h

/-- There are sockets as the theorems below speak of. -/
theorem linux_socket {sys : Sys δ} {s : DeviceSocket} {v : View δ} (hd : FuseDevice sys s.fd v) :
    ∃ sock : Socket δ Errno, OnLinux sys s sock := by
  have hrecv : ∀ buf d, ∃ out, Linux.RecvReturns sys s buf d out := fun buf d =>
    returns_of_measure (fun a => v.interrupts a.2) (linux_recv_measure hd) _ (buf, d) (Nat.lt_succ_self _)
  have hsend : ∀ buf d, ∃ out, (∃ msg, Carries buf msg) → Linux.SendReturns sys s buf d out := by
    intro buf d
    by_cases hc : ∃ msg, Carries buf msg
    · obtain ⟨msg, hc⟩ := hc
      obtain ⟨cs, h1, -, -⟩ := iovecs_of_carries hc
      obtain ⟨out, h⟩ := returns_of_measure v.interrupts (linux_send_measure hd buf.len cs) _ d (Nat.lt_succ_self _)
      exact ⟨out, fun _ => ⟨cs, h1, h⟩⟩
    · exact ⟨(.ok (), d), fun h => absurd h hc⟩
  exact ⟨{ recv := fun buf d => Classical.choose (hrecv buf d)
           recv_length := fun buf d => (C41_bounds sys s buf d _ (Classical.choose_spec (hrecv buf d))).1
           send := fun buf d => Classical.choose (hsend buf d) }, fun buf d => Classical.choose_spec (hrecv buf d),
    fun buf msg d hc => Classical.choose_spec (hsend buf d) ⟨msg, hc⟩⟩

theorem libc_recv_measure {sys : Sys δ} {s : DeviceSocket} {v : View δ} (hd : FuseDevice sys s.fd v)
    (a a' : Bytes × Libc.Thread δ) (h : Libc.recvStep sys s a = .inr a') :
    v.interrupts a'.2.sys < v.interrupts a.2.sys := by
  obtain ⟨buf, t⟩ := a
  unfold Libc.recvStep Libc.ret at h
  dsimp only at h
  rcases hr : (sys.read s.fd buf.length t.sys).1.1 with e | k
  · rw [hr] at h
    dsimp only at h
    rw [if_neg (by decide)] at h
    have hag : e = ENOENT ∨ e = EINTR := by
      by_cases h1 : Libc.cInt e = Libc.cInt ENOENT
      · exact .inl (cInt_inj.1 h1)
      · by_cases h2 : Libc.cInt e = Libc.cInt EINTR
        · exact .inr (cInt_inj.1 h2)
        · exfalso
          unfold Libc.checkRecvErr at h
          dsimp only at h
          rw [if_neg h1, if_neg h2] at h
          split at h <;> cases h
          rename_i h'
          split at h' <;> cases h'
    have := hd.again buf.length t.sys (by rcases hag with rfl | rfl; exact .inl hr; exact .inr hr)
    split at h <;> cases h
    exact this.2.2
  · rw [hr] at h
    dsimp only at h
    rw [if_pos (Int.natCast_nonneg k)] at h; cases h

theorem libc_send_measure {sys : Sys δ} {s : DeviceSocket} {v : View δ} (hd : FuseDevice sys s.fd v)
    (len : Nat) (cs : List Bytes) (t t' : Libc.Thread δ) (h : Libc.sendStep sys s len cs t = .inr t') :
    v.interrupts t'.sys < v.interrupts t.sys := by
  unfold Libc.sendStep Libc.ret at h
  dsimp only at h
  rcases hd.write cs t.sys with hw | ⟨hw, -⟩
  · have := hd.writeAgain cs t.sys hw
    rw [hw] at h
    dsimp only at h
    rw [if_pos rfl] at h
    split at h <;> cases h
    exact this.2.2
  · rw [hw] at h
    dsimp only at h
    rw [if_neg (by omega)] at h
    split at h <;> cases h

theorem libc_recv_length {sys : Sys δ} {s : DeviceSocket} : ∀ n a b, iterate (Libc.recvStep sys s) n a = .inl b →
    b.1.2.length = a.1.length := by
  intro n
  induction n with
  | zero => intro a b h; cases h
  | succ n ih =>
    intro a b h
    simp only [iterate] at h
    have ho : ∀ x, Libc.recvStep sys s a = x → match x with
        | .inl b => b.1.2.length = a.1.length
        | .inr a' => a'.1.length = a.1.length := by
      rintro _ rfl
      have := overlay_len _ _ (sys.read_fits s.fd a.1.length a.2.sys)
      unfold Libc.recvStep
      dsimp only
      split
      · rename_i h'
        split at h'
        · cases h'; exact this
        · split at h' <;> cases h'
          exact this
      · rename_i h'
        split at h'
        · cases h'
        · split at h' <;> cases h'
          exact this
    rcases hs : Libc.recvStep sys s a with b' | a'
    · have := ho _ hs
      rw [hs] at h
      cases h
      exact this
    · have := ho _ hs
      rw [hs] at h
      rw [ih a' b h]
      exact this

theorem libc_socket {sys : Sys δ} {s : DeviceSocket} {v : View δ} (hd : FuseDevice sys s.fd v) :
    ∃ sock : Socket (Libc.Thread δ) Libc.LibcError, OnLibc sys s sock := by
  have hrecv : ∀ buf t, ∃ out, Libc.RecvReturns sys s buf t out := fun buf t =>
    returns_of_measure (fun a => v.interrupts a.2.sys) (libc_recv_measure hd) _ (buf, t) (Nat.lt_succ_self _)
  have hsend : ∀ buf t, ∃ out, (∃ msg, Carries buf msg) → Libc.SendReturns sys s buf t out := by
    intro buf t
    by_cases hc : ∃ msg, Carries buf msg
    · obtain ⟨msg, hc⟩ := hc
      obtain ⟨cs, -, h1, -⟩ := iovecs_of_carries hc
      obtain ⟨out, h⟩ := returns_of_measure (fun t => v.interrupts t.sys) (libc_send_measure hd buf.len cs) _ t
        (Nat.lt_succ_self _)
      exact ⟨out, fun _ => ⟨cs, h1, h⟩⟩
    · exact ⟨(.ok (), t), fun h => absurd h hc⟩
  exact ⟨{ recv := fun buf t => Classical.choose (hrecv buf t)
           recv_length := fun buf t => by
             obtain ⟨n, h⟩ := Classical.choose_spec (hrecv buf t)
             exact libc_recv_length n (buf, t) _ h
           send := fun buf t => Classical.choose (hsend buf t) }, fun buf t => Classical.choose_spec (hrecv buf t),
    fun buf msg t hc _ => Classical.choose_spec (hsend buf t) ⟨msg, hc⟩⟩

/-! ## The handshake -/

theorem device_rejects {sock : Socket σ ε} {v : View σ} (ha : ActsOn sock v)
    (f : FuseInitRequest → FuseInitResponse → FuseInitResponse)
    (bad : List Bytes) (hbad : ∀ m ∈ bad, m.length ≤ 8192 ∧ IsFuseInit m ∧ u32At m 40 ≠ 7)
    (rest : List Bytes) (buf : Bytes) (hbuf : buf.length = 8192) (s : σ) (hs : v.incoming s = bad ++ rest) :
    ∃ buf' s', buf'.length = 8192 ∧
      iterate (fuseConnectStep sock (fun r p s => (f r p, s))) bad.length (buf, s) = .inr (buf', s') ∧
      v.Done s s' rest (bad.map fun m => frame (idOf m) 0 rejectionBytes) := by
  induction bad generalizing buf s with
  | nil => exact ⟨buf, s, hbuf, rfl, hs, by rw [List.map_nil, List.append_nil], Nat.le_refl _⟩
  | cons m bad ih =>
    obtain ⟨hl, hi, hm⟩ := hbad m (List.mem_cons_self ..)
    obtain ⟨b, s1, hr, ht, h1⟩ := ha.message buf s m (bad ++ rest) hs (by omega)
    have hb : b.length = buf.length := by have := sock.recv_length buf s; rw [hr] at this; exact this
    obtain ⟨out, ho, hst⟩ := fuse_step_reject (initFn := fun r p s => (f r p, s)) hr
      (by rw [ht]; exact hi) (by rw [ht]; exact hm)
    rw [ht] at ho
    obtain ⟨s2, hsend, h2⟩ := ha.send out _ s1 ho (by rw [frame_length]; decide)
    rw [hsend] at hst
    obtain ⟨buf', s', h3, h4, h5⟩ := ih (fun x hx => hbad x (List.mem_cons_of_mem _ hx)) b (by omega) s2
      (by rw [h2.1, h1.1])
    refine ⟨buf', s', h3, ?_, ?_⟩
    · simp only [List.length_cons, iterate]
      rw [hst]
      exact h4
    · exact done_trans (done_trans h1 h2) h5

theorem initBytes_short (x : FuseInitOut) : (initBytes x).length ≤ 64 := by
  have : (initBytes x).length = initOutSize x.minor.toNat := (C19_init 0 x).1
  rw [this]
  unfold initOutSize
  split
  · decide
  · split <;> decide

/-- **C63**, connecting to a device, whatever interruptions there are. -/
theorem C63_connect {sock : Socket σ ε} {v : View σ} (ha : ActsOn sock v)
    (f : FuseInitRequest → FuseInitResponse → FuseInitResponse) (bad : List Bytes) (good : Bytes)
    (hbad : ∀ m ∈ bad, m.length ≤ 8192 ∧ IsFuseInit m ∧ u32At m 40 ≠ 7)
    (hgood : good.length ≤ 8192 ∧ IsFuseInit good ∧ u32At good 40 = 7)
    (rest : List Bytes) (s : σ) (hs : v.incoming s = bad ++ good :: rest) :
    ∃ (conn : FuseConnection) (p : Bytes) (s' : σ),
      FuseConnects sock (fun r p s => (f r p, s)) s (.ok conn, s') ∧
      v.Done s s' rest (bad.map (fun m => frame (idOf m) 0 (le32 7 ++ le32 36 ++ List.replicate 56 0)) ++
          [frame (idOf good) 0 p]) ∧
      u32At p 0 = 7 ∧ u32At p 4 = min (u32At good 44) 36 ∧
      conn.layout.versionMinor.toNat = min (u32At good 44) 36 := by
  obtain ⟨buf, s1, hb, hi, h1⟩ := device_rejects ha f bad hbad (good :: rest) minReadBuffer
    (List.length_replicate ..) s hs
  obtain ⟨b, s2, hr, ht, h2⟩ := ha.message buf s1 good rest h1.1 (by omega)
  obtain ⟨req, out, hrep, ho, hst⟩ := fuse_step_accept (initFn := fun r p s => (f r p, s)) hr
    (by rw [ht]; exact hgood.2.1) (by rw [ht]; exact hgood.2.2)
  rw [ht] at hrep ho hst
  obtain ⟨s3, hsend, h3⟩ := ha.send out _ s2 ho (by rw [frame_length]; have := initBytes_short (acceptReply (f req {}) (u32At good 44)); dsimp only; omega)
  dsimp only at hst
  rw [hsend] at hst
  have hmin : (UInt32.ofNat (min (u32At good 44) 36)).toNat = min (u32At good 44) 36 := by
    rw [UInt32.toNat_ofNat']; omega
  refine ⟨⟨.new2 (acceptReply (f req {}) (u32At good 44)), max ((f req {}).raw.max_write.toNat + 4096) 8192⟩,
    initBytes (acceptReply (f req {}) (u32At good 44)), s3,
    ⟨bad.length + 1, ?_⟩, ?_, ?_, ?_, ?_⟩
  · rw [iterate_add _ 1 _ _ hi]
    simp only [iterate]
    rw [hst]
  · have := done_trans (done_trans h1 h2) h3
    rw [h2.1, List.append_nil] at this
    exact this
  · exact (C19_init 0 _).2.1
  · exact (C19_init 0 _).2.2.1.trans hmin
  · show (UInt32.ofNat (min (u32At good 44) 36)).toUInt16.toNat = _
    rw [UInt32.toNat_toUInt16, hmin]; omega

/-! ## The threads -/

/-- How many of the messages are malformed. -/
def malformedIn (msgs : List Bytes) : Nat := msgs.countP fun m => decide (¬ Acceptable m)

/-- The messages that are not malformed. -/
def wellFormedIn (msgs : List Bytes) : List Bytes := msgs.filter fun m => decide (Acceptable m)

theorem malformedIn_snoc (l : List Bytes) (m : Bytes) :
    malformedIn (l ++ [m]) = malformedIn l + if Acceptable m then 0 else 1 := by
  unfold malformedIn
  rw [List.countP_append, List.countP_cons, List.countP_nil]
  by_cases h : Acceptable m <;> simp [h]

theorem wellFormedIn_snoc (l : List Bytes) (m : Bytes) :
    wellFormedIn (l ++ [m]) = wellFormedIn l ++ if Acceptable m then [m] else [] := by
  unfold wellFormedIn
  rw [List.filter_append, List.filter_cons, List.filter_nil]
  by_cases h : Acceptable m <;> simp [h]

section
variable {srv : DeviceService σ ε} {v : View σ} {e0 : ε} {msgs : List Bytes} {reply : Bytes → List Bytes}

/-- What is known of each thread; `L` is the length of the longest message. -/
def Worker.Busy (msgs : List Bytes) (L : Nat) : Worker ε → Prop
  | .receiving b => L ≤ b.length
  | .handling b r => L ≤ b.length ∧ r.mem ∈ msgs ∧ Acceptable r.mem
  | .reporting b e => L ≤ b.length ∧ isFatalError e = false
  | .finished => True
  | .faulted _ => False

structure DeviceInv (v : View σ) (msgs : List Bytes) (reply : Bytes → List Bytes) (s0 : σ) (L n : Nat)
    (es : List (Option (Event ε))) (p : Pool σ ε) (done rest : List Bytes) : Prop where
  split : done ++ rest = msgs
  incoming : v.incoming p.world = rest
  workers : p.workers.length = n
  valid : ∀ w ∈ p.workers, w.Busy msgs L
  closed : .finished ∈ p.workers → rest = []
  capacity : p.capacity = n
  channel : p.channel.length ≤ n
  errors : p.workers.countP Worker.isReporting + p.channel.length = malformedIn done
  sent : (v.outgoing p.world ++ p.workers.flatMap (Worker.pending reply)).Perm
    (v.outgoing s0 ++ (wellFormedIn done).flatMap reply)
  weight : es.length + (2 * rest.length + (p.workers.map Worker.weight).sum + v.interrupts p.world) ≤
    2 * msgs.length + n + v.interrupts s0

theorem DeviceStep.out {e : Option (Event ε)} {p q : Pool σ ε} (h : Pool.DeviceStep srv e p q) :
    ∃ i w w' channel s, p.workers[i]? = some w ∧
      deviceWorkerStep srv p.capacity p.channel p.world w = some (e, w', channel, s) ∧
      q = ⟨s, p.workers.set i w', channel, p.capacity⟩ := by
  cases h with
  | mk h1 h2 => exact ⟨_, _, _, _, _, h1, h2, rfl⟩

theorem device_start (bufs : List Bytes) (s0 : σ) (L : Nat) (hs : v.incoming s0 = msgs)
    (hb : ∀ b ∈ bufs, L ≤ b.length) :
    DeviceInv (ε := ε) v msgs reply s0 L bufs.length [] (Pool.start s0 bufs) [] msgs := by
  refine ⟨rfl, hs, List.length_map .., ?_, ?_, rfl, Nat.zero_le _, ?_, ?_, ?_⟩
  · intro w hw
    obtain ⟨b, hb', rfl⟩ := List.mem_map.mp hw
    exact hb b hb'
  · intro h
    obtain ⟨b, _, h⟩ := List.mem_map.mp h
    cases h
  · exact countP_start' _ (fun _ => rfl) bufs
  · have : (bufs.map (Worker.receiving (ε := ε))).flatMap (Worker.pending reply) = [] := by
      clear hb
      induction bufs with
      | nil => rfl
      | cons b bs ih => exact ih
    show (v.outgoing s0 ++ (bufs.map _).flatMap _).Perm _
    rw [this]; exact .refl _
  · show 0 + (2 * msgs.length + ((bufs.map (Worker.receiving (ε := ε))).map Worker.weight).sum + _) ≤ _
    have : ((bufs.map (Worker.receiving (ε := ε))).map Worker.weight).sum = bufs.length := by
      clear hb
      induction bufs with
      | nil => rfl
      | cons b bs ih =>
        rw [List.map_cons, List.map_cons, List.sum_cons, ih, List.length_cons]
        show 1 + _ = _; omega
    have hw : (Pool.start (ε := ε) s0 bufs).world = s0 := rfl
    rw [hw]
    omega

theorem device_step (hf : srv.received = fuseReceived) (ha : Attempts srv.attempt v (.connectionClosed e0)) (s0 : σ) (L n : Nat)
    (hlen' : ∀ m ∈ msgs, m.length ≤ L)
    (hdisp : ∀ m ∈ msgs, Acceptable m →
      ∀ s, ∃ s', srv.dispatch ⟨m⟩ s = .ok s' ∧ v.Done s s' (v.incoming s) (reply m))
    {es : List (Option (Event ε))} {q q' : Pool σ ε} {e : Option (Event ε)} {done rest : List Bytes}
    (inv : DeviceInv v msgs reply s0 L n es q done rest) (hst : Pool.DeviceStep srv e q q') :
    ∃ done rest, DeviceInv v msgs reply s0 L n (es ++ [e]) q' done rest := by
  obtain ⟨i, w, w', channel, s, hw, hs, rfl⟩ := DeviceStep.out hst
  obtain ⟨a, b, hl, hset⟩ := set_decompose hw
  have hv := inv.valid w (List.mem_of_getElem? hw)
  obtain ⟨world, workers, ch, cap⟩ := q
  obtain ⟨h1, h2, h3, h4, h5, hcap, hch, h6, h7, h8⟩ := inv
  dsimp only at *
  rw [hset]
  rw [hl] at h3 h4 h5 h6 h7 h8
  have hvab : ∀ x, x.Busy msgs L → ∀ y ∈ a ++ x :: b, y.Busy msgs L := by
    intro x hx y hy
    rw [List.mem_append, List.mem_cons] at hy
    rcases hy with hy | rfl | hy
    · exact h4 y (by simp [hy])
    · exact hx
    · exact h4 y (by simp [hy])
  have hfin : ∀ x : Worker ε, x ≠ .finished → .finished ∈ a ++ x :: b → rest = [] := by
    intro x hx hf
    apply h5
    rw [List.mem_append, List.mem_cons] at hf ⊢
    rcases hf with hf | hf | hf
    · exact Or.inl hf
    · exact absurd hf.symm hx
    · exact Or.inr (Or.inr hf)
  have hlen : ∀ x : Worker ε, (a ++ x :: b).length = n := by
    intro x; rw [← h3]; simp
  simp only [List.flatMap_append, List.flatMap_cons] at h7
  simp only [List.countP_append, List.countP_cons] at h6
  simp only [List.map_append, List.map_cons, List.sum_append, List.sum_cons] at h8
  cases w with
  | receiving buf =>
    simp only [deviceWorkerStep, hf] at hs
    simp only [Worker.isReporting] at h6
    have retry : ∀ b' s', srv.attempt (buf, world) = .inr (b', s') → b'.length = buf.length →
        v.Interrupted world s' → ∃ done rest, DeviceInv v msgs reply s0 L n (es ++ [e])
          ⟨s, a ++ w' :: b, channel, cap⟩ done rest := by
      intro b' s' hat hb' hi
      rw [hat] at hs
      cases hs
      refine ⟨done, rest, h1, by rw [← h2]; exact hi.1, hlen _, hvab _ ?_, hfin _ (by nofun), hcap, hch, ?_, ?_, ?_⟩
      · show L ≤ b'.length
        rw [hb']; exact hv
      · simp only [List.countP_append, List.countP_cons, Worker.isReporting]
        exact h6
      · simp only [List.flatMap_append, List.flatMap_cons]
        rw [hi.2.1]; exact h7
      · have := hi.2.2
        simp only [List.map_append, List.map_cons, List.sum_append, List.sum_cons, List.length_append,
          List.length_singleton, Worker.weight] at h8 ⊢
        omega
    cases rest with
    | nil =>
      rcases ha.closed buf world h2 with ⟨b', s', hat, hb', hi⟩ | ⟨b', s', hat, hi⟩
      · exact retry b' s' hat hb' hi
      · rw [hat] at hs
        cases hs
        refine ⟨done, [], h1, hi.1, hlen _, hvab _ trivial, fun _ => rfl, hcap, hch, ?_, ?_, ?_⟩
        · simp only [List.countP_append, List.countP_cons, Worker.isReporting]
          exact h6
        · simp only [List.flatMap_append, List.flatMap_cons]
          rw [hi.2.1, List.append_nil]; exact h7
        · have := hi.2.2
          simp only [List.map_append, List.map_cons, List.sum_append, List.sum_cons, List.length_append,
            List.length_singleton, Worker.weight] at h8 ⊢
          omega
    | cons m rest =>
      have hm : m ∈ msgs := by rw [← h1]; simp
      rcases ha.message buf world m rest h2 (Nat.le_trans (hlen' m hm) hv) with
        ⟨b', s', hat, hb', hi⟩ | ⟨b', s', hat, ht, hb', hi⟩
      · exact retry b' s' hat hb' hi
      · rw [hat] at hs
        by_cases hacc : Acceptable m
        · simp only [fuseReceived, truncateSlice_eq, ht, acceptable_new hacc] at hs
          cases hs
          refine ⟨done ++ [m], rest, by rw [← h1]; simp, hi.1, hlen _,
            hvab _ ⟨by rw [hb']; exact hv, hm, hacc⟩, ?_, hcap, hch, ?_, ?_, ?_⟩
          · intro hf
            have := hfin _ (by nofun) hf
            cases this
          · simp only [List.countP_append, List.countP_cons, Worker.isReporting, malformedIn_snoc, if_pos hacc]
            exact h6
          · simp only [wellFormedIn_snoc, if_pos hacc, List.flatMap_append, List.flatMap_cons, List.flatMap_nil,
              List.append_nil]
            rw [hi.2.1, List.append_nil]
            show (v.outgoing world ++ (a.flatMap _ ++ (reply m ++ b.flatMap _))).Perm
              (v.outgoing s0 ++ ((wellFormedIn done).flatMap reply ++ reply m))
            have h7' : (v.outgoing world ++ (a.flatMap (Worker.pending reply) ++ b.flatMap (Worker.pending reply))).Perm
              (v.outgoing s0 ++ (wellFormedIn done).flatMap reply) := h7
            rw [← List.append_assoc (v.outgoing s0)]
            refine .trans ?_ (h7'.append_right (reply m))
            rw [List.append_assoc, List.append_assoc]
            exact (List.Perm.append_left _ (List.Perm.append_left _ List.perm_append_comm))
          · have := hi.2.2
            simp only [List.map_append, List.map_cons, List.sum_append, List.sum_cons, List.length_append,
              List.length_cons, List.length_nil, Worker.weight] at h8 ⊢
            omega
        · obtain ⟨er, he, _⟩ := unacceptable_new hacc
          simp only [fuseReceived, truncateSlice_eq, ht, he] at hs
          cases hs
          refine ⟨done ++ [m], rest, by rw [← h1]; simp, hi.1, hlen _,
            hvab _ ⟨by rw [hb']; exact hv, rfl⟩, ?_, hcap, hch, ?_, ?_, ?_⟩
          · intro hf
            have := hfin _ (by nofun) hf
            cases this
          · simp only [List.countP_append, List.countP_cons, Worker.isReporting, malformedIn_snoc, if_neg hacc]
            simp only [if_true, Bool.false_eq_true, if_false] at h6 ⊢
            omega
          · simp only [wellFormedIn_snoc, if_neg hacc, List.append_nil, List.flatMap_append, List.flatMap_cons]
            rw [hi.2.1, List.append_nil]
            exact h7
          · have := hi.2.2
            simp only [List.map_append, List.map_cons, List.sum_append, List.sum_cons, List.length_append,
              List.length_cons, List.length_nil, Worker.weight] at h8 ⊢
            omega
  | handling buf r =>
    obtain ⟨s', hd, hi⟩ := hdisp r.mem hv.2.1 hv.2.2 world
    simp only [deviceWorkerStep] at hs
    simp only [Worker.isReporting] at h6
    rw [hd] at hs
    cases hs
    refine ⟨done, rest, h1, by rw [← h2]; exact hi.1, hlen _, hvab _ hv.1, hfin _ (by nofun), hcap, hch, ?_, ?_, ?_⟩
    · simp only [List.countP_append, List.countP_cons, Worker.isReporting]
      exact h6
    · simp only [List.flatMap_append, List.flatMap_cons]
      rw [hi.2.1]
      refine .trans ?_ h7
      show ((v.outgoing world ++ reply r.mem) ++ (a.flatMap _ ++ b.flatMap _)).Perm
        (v.outgoing world ++ (a.flatMap _ ++ (reply r.mem ++ b.flatMap _)))
      rw [List.append_assoc]
      refine List.Perm.append_left _ ?_
      rw [← List.append_assoc, ← List.append_assoc]
      exact List.Perm.append_right _ List.perm_append_comm
    · have := hi.2.2
      simp only [List.map_append, List.map_cons, List.sum_append, List.sum_cons, List.length_append,
        List.length_singleton, Worker.weight] at h8 ⊢
      omega
  | reporting buf er =>
    simp only [deviceWorkerStep] at hs
    simp only [Worker.isReporting] at h6
    split at hs
    · rename_i hroom
      rw [hv.2, if_neg Bool.false_ne_true] at hs
      cases hs
      refine ⟨done, rest, h1, h2, hlen _, hvab _ hv.1, hfin _ (by nofun), hcap, ?_, ?_, ?_, ?_⟩
      · simp only [List.length_append, List.length_singleton]; omega
      · simp only [List.countP_append, List.countP_cons, Worker.isReporting, List.length_append,
          List.length_singleton]
        simp only [if_true, Bool.false_eq_true, if_false] at h6 ⊢
        omega
      · simp only [List.flatMap_append, List.flatMap_cons]
        exact h7
      · simp only [List.map_append, List.map_cons, List.sum_append, List.sum_cons, List.length_append,
          List.length_singleton, Worker.weight] at h8 ⊢
        omega
    · cases hs
  | finished => cases hs
  | faulted f => exact hv.elim

theorem device_inv (hf : srv.received = fuseReceived) (ha : Attempts srv.attempt v (.connectionClosed e0)) (s0 : σ) (hs0 : v.incoming s0 = msgs)
    (L : Nat) (bufs : List Bytes) (hb : ∀ b ∈ bufs, L ≤ b.length) (hlen : ∀ m ∈ msgs, m.length ≤ L)
    (hdisp : ∀ m ∈ msgs, Acceptable m →
      ∀ s, ∃ s', srv.dispatch ⟨m⟩ s = .ok s' ∧ v.Done s s' (v.incoming s) (reply m))
    {es : List (Option (Event ε))} {p : Pool σ ε} (h : Pool.DeviceRun srv (Pool.start s0 bufs) es p) :
    ∃ done rest, DeviceInv v msgs reply s0 L bufs.length es p done rest := by
  induction h with
  | start => exact ⟨[], msgs, device_start bufs s0 L hs0 hb⟩
  | step _ hst ih =>
    obtain ⟨done, rest, inv⟩ := ih
    exact device_step hf ha s0 L _ hlen hdisp inv hst

/-- What is known when all threads have ended. -/
theorem device_returned {s0 : σ} {L n : Nat} (hn : 0 < n) {es : List (Option (Event ε))} {p : Pool σ ε}
    {done rest : List Bytes} (inv : DeviceInv v msgs reply s0 L n es p done rest) (hret : p.Returned) :
    p.channel.length = malformedIn msgs ∧ v.incoming p.world = [] ∧
      (v.outgoing p.world).Perm (v.outgoing s0 ++ (wellFormedIn msgs).flatMap reply) := by
  obtain ⟨w, hw⟩ : ∃ w, w ∈ p.workers := by
    have h1 := inv.workers
    exact List.exists_mem_of_length_pos (by omega)
  have hrest : rest = [] := inv.closed (hret w hw ▸ hw)
  subst hrest
  have hd : done = msgs := by rw [← inv.split, List.append_nil]
  subst hd
  refine ⟨?_, inv.incoming, ?_⟩
  · have := inv.errors
    rw [(countP_all_finished hret).2.1] at this
    omega
  · have h7 := inv.sent
    have hp : p.workers.flatMap (Worker.pending reply) = [] := by
      rw [List.flatMap_eq_nil_iff]
      intro x hx
      rw [hret x hx]; rfl
    rwa [hp, List.append_nil] at h7

/-- **C26** on a device, at every interleaving of the threads' system calls: any messages, at most as many of them
malformed as there are threads.  The run is finite, with at most one step more for each interruption; it can only come
to an end when all threads have finished; then all messages have been received, the messages sent are the answers to
the well-formed ones, in some order, and there is an error in the channel for each malformed one.  `reply` is what the
handlers send for a message. -/
theorem C26_device_partial (hf : srv.received = fuseReceived) (ha : Attempts srv.attempt v (.connectionClosed e0)) (s0 : σ) (hs0 : v.incoming s0 = msgs)
    (L : Nat) (bufs : List Bytes) (hn : bufs ≠ []) (hb : ∀ b ∈ bufs, L ≤ b.length)
    (hlen : ∀ m ∈ msgs, m.length ≤ L) (hbad : malformedIn msgs ≤ bufs.length)
    (hdisp : ∀ m ∈ msgs, Acceptable m →
      ∀ s, ∃ s', srv.dispatch ⟨m⟩ s = .ok s' ∧ v.Done s s' (v.incoming s) (reply m))
    (es : List (Option (Event ε))) (p : Pool σ ε) (h : Pool.DeviceRun srv (Pool.start s0 bufs) es p) :
    es.length ≤ 2 * msgs.length + bufs.length + v.interrupts s0 ∧
    (p.DeviceStuck srv → p.Returned ∧ p.channel.length = malformedIn msgs ∧ v.incoming p.world = [] ∧
      (v.outgoing p.world).Perm (v.outgoing s0 ++ (wellFormedIn msgs).flatMap reply)) := by
  obtain ⟨done, rest, inv⟩ := device_inv hf ha s0 hs0 L bufs hb hlen hdisp h
  refine ⟨by have := inv.weight; omega, fun hstuck => ?_⟩
  have hret : p.Returned := by
    intro w hw
    obtain ⟨i, hi⟩ := List.getElem?_of_mem hw
    have hs : deviceWorkerStep srv p.capacity p.channel p.world w = none := by
      rcases h : deviceWorkerStep srv p.capacity p.channel p.world w with _ | ⟨e, w', ch, s⟩
      · rfl
      · exact absurd (Pool.DeviceStep.mk hi h) (hstuck _ _)
    have hv := inv.valid w hw
    cases w with
    | receiving buf =>
      exfalso
      simp only [deviceWorkerStep] at hs
      rcases h : srv.attempt (buf, p.world) with out | ⟨b, s1⟩
      · rw [h] at hs
        dsimp only at hs
        rcases h' : srv.received out with ⟨⟨r | (_ | r), b⟩, s1⟩ <;> simp only [h'] at hs <;> cases hs
      · rw [h] at hs; cases hs
    | handling buf r =>
      obtain ⟨s', hd, _⟩ := hdisp r.mem hv.2.1 hv.2.2 p.world
      simp only [deviceWorkerStep] at hs
      rw [show (⟨r.mem⟩ : Request) = r from rfl] at hd
      rw [hd] at hs; cases hs
    | reporting buf e =>
      exfalso
      simp only [deviceWorkerStep] at hs
      have h1 := inv.errors
      have h2 := inv.capacity
      have hpos : 0 < p.workers.countP Worker.isReporting := countP_pos_of_mem hw rfl
      have hmono : malformedIn done ≤ malformedIn msgs := by
        rw [← inv.split]
        unfold malformedIn
        rw [List.countP_append]
        omega
      rw [if_pos (by omega)] at hs
      cases hs
    | finished => rfl
    | faulted f => exact hv.elim
  exact ⟨hret, device_returned (List.length_pos_iff.mpr hn) inv hret⟩

/-- **C26** is violated on a device: with more malformed messages than threads the server does not return, whatever the
interleaving and the interruptions, although every run comes to an end. -/
theorem C26_violated_device (hf : srv.received = fuseReceived) (ha : Attempts srv.attempt v (.connectionClosed e0)) (s0 : σ) (hs0 : v.incoming s0 = msgs)
    (L : Nat) (bufs : List Bytes) (hn : bufs ≠ []) (hb : ∀ b ∈ bufs, L ≤ b.length)
    (hlen : ∀ m ∈ msgs, m.length ≤ L) (hbad : bufs.length < malformedIn msgs)
    (hdisp : ∀ m ∈ msgs, Acceptable m →
      ∀ s, ∃ s', srv.dispatch ⟨m⟩ s = .ok s' ∧ v.Done s s' (v.incoming s) (reply m))
    (es : List (Option (Event ε))) (p : Pool σ ε) (h : Pool.DeviceRun srv (Pool.start s0 bufs) es p) :
    es.length ≤ 2 * msgs.length + bufs.length + v.interrupts s0 ∧ ¬ p.Returned := by
  obtain ⟨done, rest, inv⟩ := device_inv hf ha s0 hs0 L bufs hb hlen hdisp h
  refine ⟨by have := inv.weight; omega, fun hret => ?_⟩
  have := (device_returned (List.length_pos_iff.mpr hn) inv hret).1
  have := inv.channel
  omega

/-- **C63**, any number of threads on one device, at every interleaving of their system calls: the run is finite, with
at most one step more for each interruption; it can only come to an end when all threads have finished; then all
messages have been received, each by one thread, the messages sent are the answers to them, in some order, and no
error was reported.  `reply` is what the handlers send for a message. -/
theorem C63_threads (hf : srv.received = fuseReceived) (ha : Attempts srv.attempt v (.connectionClosed e0)) (s0 : σ) (hs0 : v.incoming s0 = msgs)
    (L : Nat) (bufs : List Bytes) (hn : bufs ≠ []) (hb : ∀ b ∈ bufs, L ≤ b.length)
    (hacc : ∀ m ∈ msgs, Acceptable m ∧ m.length ≤ L)
    (hdisp : ∀ m ∈ msgs, ∀ s, ∃ s', srv.dispatch ⟨m⟩ s = .ok s' ∧ v.Done s s' (v.incoming s) (reply m))
    (es : List (Option (Event ε))) (p : Pool σ ε) (h : Pool.DeviceRun srv (Pool.start s0 bufs) es p) :
    es.length ≤ 2 * msgs.length + bufs.length + v.interrupts s0 ∧
    (p.DeviceStuck srv → p.Returned ∧ p.channel = [] ∧ v.incoming p.world = [] ∧
      (v.outgoing p.world).Perm (v.outgoing s0 ++ msgs.flatMap reply)) := by
  have hall : malformedIn msgs = 0 ∧ wellFormedIn msgs = msgs := by
    unfold malformedIn wellFormedIn
    rw [List.countP_eq_zero, List.filter_eq_self]
    constructor <;> intro m hm <;> simp [(hacc m hm).1]
  have key := C26_device_partial hf ha s0 hs0 L bufs hn hb (fun m hm => (hacc m hm).2) (by omega)
    (fun m hm _ => hdisp m hm) es p h
  rw [hall.1, hall.2] at key
  refine ⟨key.1, fun hst => ?_⟩
  obtain ⟨k1, k2, k3, k4⟩ := key.2 hst
  exact ⟨k1, List.length_eq_zero_iff.mp k2, k3, k4⟩

end

/-! ## The example program on a device -/

theorem helloAnswer_short {uid gid : UInt32} {minor : Nat} {nodeid : UInt64} {a : ClientReq} {e : Int32} {p : Bytes}
    (h : helloAnswer uid gid minor nodeid a = some (e, p)) : p.length ≤ 128 := by
  have he : ∀ x, (entryBytes minor x).length ≤ 128 := by
    intro x; rw [entryBytes_length]; unfold entryOutSize; split <;> decide
  have hat : ∀ x, (attrOutBytes minor x).length ≤ 128 := by
    intro x
    unfold attrOutBytes
    simp only [List.length_append, attrBytes_length, le64_length, le32_length]
    split <;> omega
  have hl : ∀ fh offset, (helloList fh offset).2.length ≤ 128 := by
    intro fh offset; unfold helloList; split; decide; split <;> decide
  have two : ∀ {c : Prop} [Decidable c] {e1 e2 : Int32} {p1 p2 : Bytes}, p1.length ≤ 128 → p2.length ≤ 128 →
      (if c then some (e1, p1) else some (e2, p2)) = some (e, p) → p.length ≤ 128 := by
    intro c _ e1 e2 p1 p2 h1 h2 h
    split at h <;> cases h <;> assumption
  have pair : ∀ {c : Prop} [Decidable c] {e1 e2 : Int32} {p1 p2 : Bytes}, p1.length ≤ 128 → p2.length ≤ 128 →
      some (if c then (e1, p1) else (e2, p2)) = some (e, p) → p.length ≤ 128 := by
    intro c _ e1 e2 p1 p2 h1 h2 h
    split at h <;> cases h <;> assumption
  have list : ∀ {fh offset}, some (helloList fh offset) = some (e, p) → p.length ≤ 128 := by
    intro fh offset h
    have := hl fh offset
    injection h with h
    rw [h] at this; exact this
  have attr : ∀ {x y : FuseAttrOut}, (if nodeid = 1 then some ((0 : Int32), attrOutBytes minor x)
      else if nodeid = 100 then some (0, attrOutBytes minor y) else some (-2, [])) = some (e, p) → p.length ≤ 128 := by
    intro x y h
    split at h
    · cases h; exact hat _
    · exact two (hat _) (by decide) h
  have none' : some ((-38 : Int32), ([] : Bytes)) = some (e, p) → p.length ≤ 128 := by
    intro h; cases h; decide
  cases a with
  | forget _ => cases h
  | batchForget _ _ => cases h
  | interrupt _ => cases h
  | lookup name => exact two (he _) (by decide) h
  | getattrOld => exact attr h
  | getattr _ => exact attr h
  | open_ _ => exact two (by decide) (by decide) h
  | opendir _ => exact two (by decide) (by decide) h
  | readOld _ => exact pair (by decide) (by decide) h
  | read _ => exact pair (by decide) (by decide) h
  | readdirOld _ => exact list h
  | readdir _ => exact list h
  | releasedirOld _ => exact pair (by decide) (by decide) h
  | releasedir _ => exact pair (by decide) (by decide) h
  | _ => exact none' h

theorem helloReplies_short {uid gid : UInt32} {minor : UInt16} {alloc : Nat → Nat} {m : Bytes} {out : List Bytes}
    (h : HelloReplies uid gid minor alloc m out) : ∀ x ∈ out, x.length < 2 ^ 32 := by
  cases h with
  | request a unique nodeid =>
    intro x hx
    split at hx
    · rename_i e p ha
      have := helloAnswer_short ha
      rw [List.mem_singleton] at hx
      rw [hx, frame_length]; omega
    · cases hx
  | other =>
    intro x hx
    rw [List.mem_singleton] at hx
    rw [hx, frame_length]; decide

/-- What **C63** says of the example program: on a device with the client's messages it connects, its threads end
whatever the interleaving of their system calls, and what has been written to the device is the replies to the
handshake and, in some order, the answers to all requests. -/
def HelloSession (sock : Socket σ ε) (attempt : Bytes × σ → ((Except (RecvError ε) Nat × Bytes) × σ) ⊕ (Bytes × σ))
    (v : View σ) (s : σ) : Prop :=
  ∀ (uid gid : UInt32) (alloc : Nat → Nat) (bad : List Bytes) (good : Bytes) (msgs : List Bytes)
    (answer : Bytes → List Bytes),
    v.incoming s = bad ++ good :: msgs → v.outgoing s = [] →
    (∀ m ∈ bad, m.length ≤ 8192 ∧ IsFuseInit m ∧ u32At m 40 ≠ 7) →
    (good.length ≤ 8192 ∧ IsFuseInit good ∧ u32At good 40 = 7) →
    (∀ m ∈ msgs, m.length ≤ 8192 ∧
      HelloReplies uid gid (UInt16.ofNat (min (u32At good 44) 36)) alloc m (answer m)) →
    ∃ (conn : FuseConnection) (p : Bytes) (s1 : σ),
      FuseServer.Connects {} sock s (.ok conn, s1) ∧
      u32At p 0 = 7 ∧ u32At p 4 = min (u32At good 44) 36 ∧
      ∀ (bufs : List Bytes) (_ : bufs ≠ []) (_ : ∀ b ∈ bufs, b.length = max conn.recvBufLen 8192)
        (es : List (Option (Event ε))) (q : Pool σ ε),
        let srv : DeviceService σ ε := ⟨attempt, fuseReceived, Hello.dispatch ⟨sock, conn.layout, uid, gid, alloc⟩⟩
        Pool.DeviceRun srv (Pool.start s1 bufs) es q →
        es.length ≤ 2 * msgs.length + bufs.length + v.interrupts s ∧
        (q.DeviceStuck srv → q.Returned ∧ q.channel = [] ∧ v.incoming q.world = [] ∧
          (v.outgoing q.world).Perm
            (bad.map (fun m => frame (idOf m) 0 (le32 7 ++ le32 36 ++ List.replicate 56 0)) ++
              frame (idOf good) 0 p :: msgs.flatMap answer))

theorem hello_session {sock : Socket σ ε}
    {attempt : Bytes × σ → ((Except (RecvError ε) Nat × Bytes) × σ) ⊕ (Bytes × σ)} {v : View σ} {e0 : ε}
    (ha : Attempts attempt v (.connectionClosed e0)) (hs : ActsOn sock v) (s : σ) : HelloSession sock attempt v s := by
  intro uid gid alloc bad good msgs answer hin hout hbad hgood hmsgs
  obtain ⟨conn, p, s1, h1, h2, h3, h4, h5⟩ := C63_connect hs
    (fun r p => (FuseServer.initFn {} r p ()).1) bad good hbad hgood msgs s hin
  refine ⟨conn, p, s1, h1, h3, h4, ?_⟩
  intro bufs hn hb es q srv hrun
  have hminor : conn.layout.versionMinor = UInt16.ofNat (min (u32At good 44) 36) := by
    rw [← h5]; exact UInt16.ofNat_toNat.symm
  rw [← hminor] at hmsgs
  have key := C63_threads (srv := srv) (v := v) (msgs := msgs) (reply := answer) rfl ha s1 h2.1 8192 bufs hn
    (fun b hb' => by rw [hb b hb']; omega) ?_ ?_ es q hrun
  · refine ⟨by have := key.1; have := h2.2.2; omega, fun hst => ?_⟩
    have := key.2 hst
    rw [h2.2.1, hout, List.nil_append, List.append_assoc] at this
    exact this
  · intro m hm
    exact ⟨(C57_answer_partial ⟨sock, conn.layout, uid, gid, alloc⟩ (hmsgs m hm).2).1, (hmsgs m hm).1⟩
  · intro m hm s
    rcases (C57_answer_partial ⟨sock, conn.layout, uid, gid, alloc⟩ (hmsgs m hm).2).2 with ⟨hr, hd⟩ | ⟨msg, hr, hd⟩
    · exact ⟨s, hd s, rfl, by rw [hr, List.append_nil], Nat.le_refl _⟩
    · obtain ⟨buf, hc, hd⟩ := hd s
      obtain ⟨s', h6, h7⟩ := hs.send buf msg s hc
        (helloReplies_short (hmsgs m hm).2 msg (by rw [hr]; exact List.mem_singleton_self _))
      refine ⟨s', ?_, by rw [hr]; exact h7⟩
      show Hello.dispatch _ _ _ = _
      rw [hd, h6]

/-- **C63**, `fuse-linux`. -/
theorem C63_linux {sys : Sys δ} {s : DeviceSocket} {v : View δ} (hd : FuseDevice sys s.fd v)
    (he : s.enodevIsEof = true) {sock : Socket δ Errno} (hs : OnLinux sys s sock) (d : δ) :
    HelloSession sock (Linux.recvStep sys s) v d :=
  hello_session (e0 := ENODEV) (by have := linux_attempts hd; rwa [DeviceSocket.ends, if_pos he] at this)
    (linux_actsOn hd hs) d

/-- **C63**, `fuse-libc`. -/
theorem C63_libc {sys : Sys δ} {s : DeviceSocket} {v : View δ} (hd : FuseDevice sys s.fd v)
    (he : s.enodevIsEof = true) {sock : Socket (Libc.Thread δ) Libc.LibcError} (hs : OnLibc sys s sock)
    (t : Libc.Thread δ) :
    HelloSession sock (Libc.recvStep sys s) (v.through Libc.Thread.sys) t :=
  hello_session (e0 := ⟨Libc.cInt ENODEV⟩)
    (by have := libc_attempts hd; rwa [DeviceSocket.ends, if_pos he] at this) (libc_actsOn hd hs) t

/-! ### Example: a device whose next calls are interrupted, or not, as a list of bits says -/

structure Noisy where
  incoming : List Bytes
  outgoing : List Bytes
  /-- For each call: whether it is interrupted.  Afterwards none is. -/
  noise : List Bool

/-- The interruptions to come. -/
def noisyView : View Noisy := ⟨Noisy.incoming, Noisy.outgoing, fun d => d.noise.count true⟩

def noisySys : Sys Noisy where
  read := fun _ len d =>
    match d.noise with
    | true :: noise => ((.error EINTR, []), ⟨d.incoming, d.outgoing, noise⟩)
    | noise =>
      match d.incoming with
      | [] => ((.error ENODEV, []), ⟨[], d.outgoing, noise.tail⟩)
      | m :: rest =>
        if m.length ≤ len then ((.ok m.length, m), ⟨rest, d.outgoing, noise.tail⟩)
        else ((.error 5, []), ⟨rest, d.outgoing, noise.tail⟩)
  read_fits := by intro _ len d; split; simp; split; simp; split <;> simp; assumption
  read_count := by
    intro _ len d n h
    split at h
    · cases h
    · split at h
      · cases h
      · split at h
        · cases h; assumption
        · cases h
  writev := fun _ iov d =>
    match d.noise with
    | true :: noise => (.error EINTR, ⟨d.incoming, d.outgoing, noise⟩)
    | noise => (.ok iov.flatten.length, ⟨d.incoming, d.outgoing ++ [iov.flatten], noise.tail⟩)
  openat2 := fun _ _ _ d => (.error ENOSYS, d)
  openat2_fd := by intro _ _ _ _ _ h; cases h
  openat := fun _ _ _ d => (.ok 3, d)
  openat_fd := by intro _ _ _ _ _ h; cases h; decide
  close := fun _ d => (.ok (), d)
  statx := fun _ d => (.ok 0o40755, d)
  getuid := fun d => (1000, d)
  getgid := fun d => (1000, d)
  mount := fun _ _ _ _ _ d => (.ok (), d)
  nmount := fun _ _ d => (.ok (), d)

theorem noisy_tail (l : List Bool) : l.tail.count true ≤ l.count true :=
  List.Sublist.count_le _ (List.tail_sublist l)

theorem noisy_device (fd : Int32) : FuseDevice noisySys fd noisyView := by
  constructor
  · intro len d h
    obtain ⟨inc, out, noise⟩ := d
    have hne : ∀ x : Except Errno Nat, x = .error ENODEV ∨ x = .error 5 ∨ (∃ n, x = .ok n) →
        ¬ (x = .error ENOENT ∨ x = .error EINTR) := by
      rintro _ (rfl | rfl | ⟨n, rfl⟩) (h | h) <;> injection h <;> contradiction
    have hcalm : ∀ noise : List Bool, noise.head? ≠ some true →
        ¬ ((noisySys.read fd len ⟨inc, out, noise⟩).1.1 = .error ENOENT ∨
          (noisySys.read fd len ⟨inc, out, noise⟩).1.1 = .error EINTR) := by
      intro noise hn
      apply hne
      rcases noise with _ | ⟨_ | _, noise⟩
      · rcases inc with _ | ⟨m, rest⟩
        · exact .inl rfl
        · simp only [noisySys]
          split
          · exact .inr (.inr ⟨_, rfl⟩)
          · exact .inr (.inl rfl)
      · rcases inc with _ | ⟨m, rest⟩
        · exact .inl rfl
        · simp only [noisySys]
          split
          · exact .inr (.inr ⟨_, rfl⟩)
          · exact .inr (.inl rfl)
      · exact absurd rfl hn
    rcases noise with _ | ⟨_ | _, noise⟩
    · exact absurd h (hcalm _ nofun)
    · exact absurd h (hcalm _ nofun)
    · exact ⟨rfl, rfl, by simp [noisySys, noisyView]⟩
  · intro len d m rest hi hl
    obtain ⟨inc, out, noise⟩ := d
    have hi : inc = m :: rest := hi
    subst hi
    rcases noise with _ | ⟨_ | _, noise⟩
    · refine .inr ?_
      simp only [noisySys, if_pos hl]
      exact ⟨trivial, rfl, (List.append_nil _).symm, Nat.le_refl _⟩
    · refine .inr ?_
      simp only [noisySys, if_pos hl]
      exact ⟨trivial, rfl, (List.append_nil _).symm, noisy_tail (false :: noise)⟩
    · exact .inl (.inr rfl)
  · intro len d hi
    obtain ⟨inc, out, noise⟩ := d
    have hi : inc = [] := hi
    subst hi
    rcases noise with _ | ⟨_ | _, noise⟩
    · exact .inr ⟨rfl, rfl, (List.append_nil _).symm, Nat.le_refl _⟩
    · exact .inr ⟨rfl, rfl, (List.append_nil _).symm, noisy_tail (false :: noise)⟩
    · exact .inl (.inr rfl)
  · intro iov d h
    obtain ⟨inc, out, noise⟩ := d
    rcases noise with _ | ⟨_ | _, noise⟩
    · cases h
    · cases h
    · exact ⟨rfl, rfl, by simp [noisySys, noisyView]⟩
  · intro iov d
    obtain ⟨inc, out, noise⟩ := d
    rcases noise with _ | ⟨_ | _, noise⟩
    · exact .inr ⟨rfl, rfl, rfl, Nat.le_refl _⟩
    · exact .inr ⟨rfl, rfl, rfl, noisy_tail (false :: noise)⟩
    · exact .inl rfl

/-- C63 on a device with 3 interruptions, a client that asks for one thing, and two threads: at most 7 steps. -/
example : ∃ (sock : Socket Noisy Errno) (conn : FuseConnection) (p : Bytes) (s1 : Noisy),
    OnLinux noisySys ⟨3, true⟩ sock ∧
    ∀ (b1 b2 : Bytes), b1.length = max conn.recvBufLen 8192 → b2.length = max conn.recvBufLen 8192 →
      ∀ es q,
      let srv : DeviceService Noisy Errno :=
        ⟨Linux.recvStep noisySys ⟨3, true⟩, fuseReceived, Hello.dispatch ⟨sock, conn.layout, 1000, 1000, fun _ => 0⟩⟩
      Pool.DeviceRun srv (Pool.start s1 [b1, b2]) es q →
      es.length ≤ 7 ∧ (q.DeviceStuck srv → q.Returned ∧
        q.world.outgoing.Perm [frame 2 0 p, frame 10 (-38) []]) := by
  obtain ⟨sock, hs⟩ := linux_socket (s := ⟨3, true⟩) (noisy_device 3)
  obtain ⟨conn, p, s1, -, -, -, h⟩ := C63_linux (s := ⟨3, true⟩) (noisy_device 3) rfl hs
    ⟨[initMessage 2 7 34 [65536, 0], (ClientReq.statfs).message 10 1 0 0 0 0], [], [true, false, true, true]⟩
    1000 1000 (fun _ => 0) [] (initMessage 2 7 34 [65536, 0]) [(ClientReq.statfs).message 10 1 0 0 0 0]
    (fun _ => [frame 10 (-38) []]) rfl rfl nofun (by decide) (by
      intro m hm
      rw [List.mem_singleton] at hm
      subst hm
      exact ⟨by decide, .whole .statfs 10 1 (show (1 : UInt64) ≠ 0 by decide) trivial trivial (by decide) (by decide)
          (by decide +kernel)⟩)
  refine ⟨sock, conn, p, s1, hs, ?_⟩
  intro b1 b2 h1 h2 es q srv hrun
  obtain ⟨h3, h4⟩ := h [b1, b2] nofun (by
    intro b hb
    simp only [List.mem_cons, List.not_mem_nil, or_false] at hb
    rcases hb with rfl | rfl <;> assumption) es q hrun
  exact ⟨h3, fun hst => ⟨(h4 hst).1, (h4 hst).2.2.2⟩⟩

end Fuse
