import Verif.PropDevice
import Verif.PropHostileDev
import Verif.PropStale

/-!
# C87: what holds on a connection holds on a device

The other claims about conversations are about a socket that is connected to its client, without anything in between.  Here
the client is at the other side of a FUSE or CUSE device: messages are delivered by `read` and `writev`, which may be interrupted,
and are called by the sockets of `fuse-linux` and `fuse-libc`.  Servers cannot tell the difference.
-/

namespace Fuse
open Spec

variable {σ ε ε' δ α C T ω τ : Type}

namespace Spec

/-- What is between a server and its clients: the next message from a client, with what is there once it has been received,
if there is one; and what is there once something has been sent. -/
structure Line (T : Type) where
  next : T → Option (Bytes × T)
  push : T → Bytes → T

/-- What a client has got since its last message, and how it goes on from there. -/
abbrev Convo (α : Type) := List Bytes × (List Bytes → Talk α)

/-- One client, which gets to know what is sent, and then sends its next message, or has finished. -/
def talkLine (α : Type) : Line (Convo α) where
  next t :=
    match t.2 t.1 with
    | .done _ => none
    | .say m k => some (m, [], k)
  push t m := (t.1 ++ [m], t.2)

/-- What there is to know of a device with clients: what is between it and them, and a bound on the interruptions to come. -/
structure Peer (δ T : Type) where
  client : δ → T
  interrupts : δ → Nat

/-- The same, of a state with more in it. -/
def Peer.through (p : Peer δ T) (f : σ → δ) : Peer σ T := ⟨p.client ∘ f, p.interrupts ∘ f⟩

/-- A call was interrupted. -/
def Peer.Interrupted (p : Peer δ T) (d d' : δ) : Prop := p.client d' = p.client d ∧ p.interrupts d' < p.interrupts d

/-- A call was done, after which the client is as given. -/
def Peer.Done (p : Peer δ T) (d d' : δ) (client : T) : Prop := p.client d' = client ∧ p.interrupts d' ≤ p.interrupts d

/-- `fd` is an open device with clients.  The next message is read, and what is written is sent.  It is `ENODEV` when there
are no more messages, and `EINVAL` if the buffer is too short. -/
structure LineDevice (line : Line T) (sys : Sys δ) (fd : Int32) (p : Peer δ T) : Prop where
  again : ∀ len d, ((sys.read fd len d).1.1 = .error ENOENT ∨ (sys.read fd len d).1.1 = .error EINTR) →
    p.Interrupted d (sys.read fd len d).2
  read : ∀ len d, ((sys.read fd len d).1.1 = .error ENOENT ∨ (sys.read fd len d).1.1 = .error EINTR) ∨
    match line.next (p.client d) with
    | none => (sys.read fd len d).1.1 = .error ENODEV ∧ p.Done d (sys.read fd len d).2 (p.client d)
    | some (m, t) =>
      if m.length ≤ len then (sys.read fd len d).1 = (.ok m.length, m) ∧ p.Done d (sys.read fd len d).2 t
      else (sys.read fd len d).1.1 = .error EINVAL ∧ p.Done d (sys.read fd len d).2 (p.client d)
  writeAgain : ∀ iov d, (sys.writev fd iov d).1 = .error EINTR → p.Interrupted d (sys.writev fd iov d).2
  write : ∀ iov d, (sys.writev fd iov d).1 = .error EINTR ∨
    ((sys.writev fd iov d).1 = .ok iov.flatten.length ∧
      p.Done d (sys.writev fd iov d).2 (line.push (p.client d) iov.flatten))

/-- Errors of the same kind; `eof` says whether the end of the connection is told from other errors. -/
def AlikeRecv (eof : Bool) : RecvError ε → RecvError ε' → Prop
  | .connectionClosed _, .connectionClosed _ => True
  | .other _, .other _ => True
  | _, _ => eof = false

/-- Errors of the same kind. -/
def AlikeSend : SendError ε → SendError ε' → Prop
  | .notFound _, .notFound _ => True
  | .replyTooBig n, .replyTooBig n' => n = n'
  | .other _, .other _ => True
  | _, _ => False

/-- Errors of the same kind. -/
def AlikeError (eof : Bool) : ServerError ε → ServerError ε' → Prop
  | .request e, .request e' => e = e'
  | .recv e, .recv e' => AlikeRecv eof e e'
  | .send e, .send e' => AlikeSend e e'
  | _, _ => False

/-- The same result, but for what an error of the socket consists of. -/
def AlikeOutcome {β : Type} (eof : Bool) : Outcome ε β → Outcome ε' β → Prop
  | .ok b, .ok b' => b = b'
  | .err e, .err e' => AlikeError eof e e'
  | .fault f, .fault f' => f = f'
  | _, _ => False

end Spec

/-- The state of the server is kept beside that of the socket. -/
def Socket.beside (C : Type) (sock : Socket σ ε) : Socket (C × σ) ε where
  recv buf w := ((sock.recv buf w.2).1, (w.1, (sock.recv buf w.2).2))
  recv_length buf w := sock.recv_length buf w.2
  send buf w := ((sock.send buf w.2).1, (w.1, (sock.send buf w.2).2))

/-! ## Sockets that cannot be told apart -/

/-- Two worlds: the same state of the server, and related states of the sockets. -/
def Twin (Q : ω → τ → Prop) (x : C × ω) (y : C × τ) : Prop := x.1 = y.1 ∧ Q x.2 y.2

/-- The results of receiving are the same. -/
def AlikeGot (eof : Bool) : Except (RecvError ε) Nat × Bytes → Except (RecvError ε') Nat × Bytes → Prop
  | (.ok n, b), (.ok n', b') => n = n' ∧ truncateSlice b n = truncateSlice b' n
  | (.error e, _), (.error e', _) => AlikeRecv eof e e'
  | _, _ => False

/-- One socket does as the other. -/
structure Mirrors (eof : Bool) (Q : ω → τ → Prop) (sock : Socket (C × ω) ε) (sock' : Socket (C × τ) ε') : Prop where
  recv : ∀ buf buf' x y, buf.length = buf'.length → Twin Q x y →
    AlikeGot eof (sock.recv buf x).1 (sock'.recv buf' y).1 ∧ Twin Q (sock.recv buf x).2 (sock'.recv buf' y).2
  send : ∀ b b' msg x y, Carries b msg → Carries b' msg → msg.length < 2 ^ 32 → Twin Q x y →
    (sock.send b x).1 = .ok () ∧ (sock'.send b' y).1 = .ok () ∧ Twin Q (sock.send b x).2 (sock'.send b' y).2

section
variable {eof : Bool} {Q : ω → τ → Prop} {sock : Socket (C × ω) ε} {sock' : Socket (C × τ) ε'}

theorem alikeRecv_symm {e : RecvError ε} {e' : RecvError ε'} (h : AlikeRecv eof e e') : AlikeRecv eof e' e := by
  cases e <;> cases e' <;> exact h

theorem Mirrors.symm (h : Mirrors eof Q sock sock') : Mirrors eof (fun t w => Q w t) sock' sock where
  recv buf buf' x y hl ht := by
    obtain ⟨h1, h2, h3⟩ := h.recv buf' buf y x hl.symm ⟨ht.1.symm, ht.2⟩
    refine ⟨?_, h2.symm, h3⟩
    rcases hr : (sock.recv buf' y).1 with ⟨r, b⟩
    rcases hr' : (sock'.recv buf x).1 with ⟨r', b'⟩
    rw [hr, hr'] at h1
    cases r with
    | error e =>
      cases r' with
      | error e' => exact alikeRecv_symm h1
      | ok n => exact h1.elim
    | ok n =>
      cases r' with
      | error e' => exact h1.elim
      | ok n' =>
        obtain ⟨rfl, h1⟩ := h1
        exact ⟨rfl, h1.symm⟩
  send b b' msg x y hb hb' hl ht := by
    obtain ⟨h1, h2, h3, h4⟩ := h.send b' b msg y x hb' hb hl ⟨ht.1.symm, ht.2⟩
    exact ⟨h2, h1, h3.symm, h4⟩

/-- Handlers that do the same with either socket. -/
structure MirrorHandlers {M : Type} (Q : ω → τ → Prop) (h : Handlers M (C × ω)) (h' : Handlers M (C × τ)) : Prop where
  unimplemented : ∀ r x y, Twin Q x y → Twin Q (h.unimplemented r x) (h'.unimplemented r y)
  overridden : ∀ m, (h.overridden m = none ∧ h'.overridden m = none) ∨
    ∃ f f', h.overridden m = some f ∧ h'.overridden m = some f' ∧ ∀ r x y, Twin Q x y → Twin Q (f r x) (f' r y)

theorem MirrorHandlers.symm {M : Type} {h : Handlers M (C × ω)} {h' : Handlers M (C × τ)} (hh : MirrorHandlers Q h h') :
    MirrorHandlers (fun t w => Q w t) h' h where
  unimplemented r x y ht := by
    obtain ⟨h1, h2⟩ := hh.unimplemented r y x ⟨ht.1.symm, ht.2⟩
    exact ⟨h1.symm, h2⟩
  overridden m := by
    rcases hh.overridden m with ⟨h1, h2⟩ | ⟨f, f', h1, h2, h3⟩
    · exact .inl ⟨h2, h1⟩
    · refine .inr ⟨f', f, h2, h1, fun r x y ht => ?_⟩
      obtain ⟨h4, h5⟩ := h3 r y x ⟨ht.1.symm, ht.2⟩
      exact ⟨h4.symm, h5⟩

theorem fuseCall_mirror {h : Handlers FuseMethod (C × ω)} {h' : Handlers FuseMethod (C × τ)} (hh : MirrorHandlers Q h h')
    (m : FuseMethod) (r : Request) (x : C × ω) (y : C × τ) (ht : Twin Q x y) :
    Twin Q (fuseCall h m r x) (fuseCall h' m r y) := by
  unfold fuseCall
  rcases hh.overridden m with ⟨h1, h2⟩ | ⟨f, f', h1, h2, h3⟩
  · rw [h1, h2]
    cases m <;> first | exact ht | exact hh.unimplemented r x y ht
  · rw [h1, h2]
    exact h3 r x y ht

theorem cuseCall_mirror {h : Handlers CuseMethod (C × ω)} {h' : Handlers CuseMethod (C × τ)} (hh : MirrorHandlers Q h h')
    (m : CuseMethod) (r : Request) (x : C × ω) (y : C × τ) (ht : Twin Q x y) :
    Twin Q (cuseCall h m r x) (cuseCall h' m r y) := by
  unfold cuseCall
  rcases hh.overridden m with ⟨h1, h2⟩ | ⟨f, f', h1, h2, h3⟩
  · rw [h1, h2]
    cases m <;> first | exact ht | exact hh.unimplemented r x y ht
  · rw [h1, h2]
    exact h3 r x y ht

theorem fuseSelect_mirror {h : Handlers FuseMethod (C × ω)} {h' : Handlers FuseMethod (C × τ)} (hh : MirrorHandlers Q h h')
    (n : UInt32) (r : Request) (x : C × ω) (y : C × τ) (ht : Twin Q x y) :
    Twin Q (fuseSelect h n r x) (fuseSelect h' n r y) := by
  rw [fuseSelect_eq, fuseSelect_eq]
  cases fuseMethodAt n.toNat with
  | none => exact hh.unimplemented r x y ht
  | some m => exact fuseCall_mirror hh m r x y ht

theorem cuseSelect_mirror {h : Handlers CuseMethod (C × ω)} {h' : Handlers CuseMethod (C × τ)} (hh : MirrorHandlers Q h h')
    (n : UInt32) (r : Request) (x : C × ω) (y : C × τ) (ht : Twin Q x y) :
    Twin Q (cuseSelect h n r x) (cuseSelect h' n r y) := by
  rw [cuseSelect_eq, cuseSelect_eq]
  cases cuseMethodAt n.toNat with
  | none => exact hh.unimplemented r x y ht
  | some m => exact cuseCall_mirror hh m r x y ht

/-! ## Loops -/

/-- The states of two loops. -/
def TwinLoop (Q : ω → τ → Prop) (x : Bytes × C × ω) (y : Bytes × C × τ) : Prop :=
  x.1.length = y.1.length ∧ Twin Q x.2 y.2

/-- The ends of two loops. -/
def TwinEnd {β : Type} (eof : Bool) (Q : ω → τ → Prop) (x : Outcome ε β × C × ω) (y : Outcome ε' β × C × τ) : Prop :=
  AlikeOutcome eof x.1 y.1 ∧ Twin Q x.2 y.2

theorem Mirrors.received (hm : Mirrors eof Q sock sock') {buf buf' : Bytes} {x : C × ω} {y : C × τ}
    (hl : buf.length = buf'.length) (ht : Twin Q x y) :
    ∃ b b' x' y', b.length = b'.length ∧ Twin Q x' y' ∧
      ((∃ n, sock.recv buf x = ((.ok n, b), x') ∧ sock'.recv buf' y = ((.ok n, b'), y') ∧
          truncateSlice b n = truncateSlice b' n) ∨
        ∃ e e', sock.recv buf x = ((.error e, b), x') ∧ sock'.recv buf' y = ((.error e', b'), y') ∧ AlikeRecv eof e e') := by
  have h1 := hm.recv buf buf' x y hl ht
  have h2 := sock.recv_length buf x
  have h3 := sock'.recv_length buf' y
  rcases hr : sock.recv buf x with ⟨⟨r, b⟩, x'⟩
  rcases hr' : sock'.recv buf' y with ⟨⟨r', b'⟩, y'⟩
  rw [hr, hr'] at h1
  rw [hr] at h2
  rw [hr'] at h3
  dsimp only at h1 h2 h3
  refine ⟨b, b', x', y', by rw [h2, h3, hl], h1.2, ?_⟩
  cases r with
  | error e =>
    cases r' with
    | error e' => exact .inr ⟨e, e', rfl, rfl, h1.1⟩
    | ok n => exact h1.1.elim
  | ok n =>
    cases r' with
    | error e' => exact h1.1.elim
    | ok n' =>
      obtain ⟨⟨rfl, h4⟩, -⟩ := h1
      exact .inl ⟨n, rfl, rfl, h4⟩

theorem fuseServe_mirror (hm : Mirrors true Q sock sock') {h : Handlers FuseMethod (C × ω)}
    {h' : Handlers FuseMethod (C × τ)} (hh : MirrorHandlers Q h h') (x : Bytes × C × ω) (y : Bytes × C × τ)
    (ht : TwinLoop Q x y) :
    StepsAlike (TwinLoop Q) (TwinEnd true Q) (fuseServeStep sock h x) (fuseServeStep sock' h' y) := by
  obtain ⟨buf, x⟩ := x
  obtain ⟨buf', y⟩ := y
  obtain ⟨b, b', x', y', hl, ht', ⟨n, h1, h2, h3⟩ | ⟨e, e', h1, h2, h3⟩⟩ := hm.received ht.1 ht.2
  · unfold fuseServeStep fuseRecv
    dsimp only
    dsimp only at h1 h2
    rw [h1, h2]
    dsimp only
    rw [h3]
    cases Request.new (truncateSlice b' n) with
    | error e => exact ⟨rfl, ht'⟩
    | ok r =>
      dsimp only
      unfold fuseDispatch
      cases r.rawHeader with
      | error f => exact ⟨rfl, ht'⟩
      | ok hdr => exact ⟨hl, fuseSelect_mirror hh hdr.opcode r x' y' ht'⟩
  · unfold fuseServeStep fuseRecv
    dsimp only
    dsimp only at h1 h2
    rw [h1, h2]
    cases e <;> cases e' <;> first | exact Bool.noConfusion (h3 : true = false) | exact ⟨rfl, ht'⟩ | exact ⟨trivial, ht'⟩

theorem cuseServe_mirror (hm : Mirrors eof Q sock sock') {h : Handlers CuseMethod (C × ω)}
    {h' : Handlers CuseMethod (C × τ)} (hh : MirrorHandlers Q h h') (x : Bytes × C × ω) (y : Bytes × C × τ)
    (ht : TwinLoop Q x y) :
    StepsAlike (TwinLoop Q) (TwinEnd eof Q) (cuseServeStep sock h x) (cuseServeStep sock' h' y) := by
  obtain ⟨buf, x⟩ := x
  obtain ⟨buf', y⟩ := y
  obtain ⟨b, b', x', y', hl, ht', ⟨n, h1, h2, h3⟩ | ⟨e, e', h1, h2, h3⟩⟩ := hm.received ht.1 ht.2
  · unfold cuseServeStep cuseRecv
    dsimp only
    dsimp only at h1 h2
    rw [h1, h2]
    dsimp only
    rw [h3]
    cases Request.new (truncateSlice b' n) with
    | error e => exact ⟨rfl, ht'⟩
    | ok r =>
      dsimp only
      unfold cuseDispatch
      cases r.rawHeader with
      | error f => exact ⟨rfl, ht'⟩
      | ok hdr => exact ⟨hl, cuseSelect_mirror hh hdr.opcode r x' y' ht'⟩
  · unfold cuseServeStep cuseRecv
    dsimp only
    dsimp only at h1 h2
    rw [h1, h2]
    exact ⟨h3, ht'⟩

/-- Sending one reply. -/
theorem sends_mirror (hm : Mirrors eof Q sock sock') {id : UInt64} {error : Int32} {payload : Bytes} {x : C × ω} {y : C × τ}
    (ht : Twin Q x y) {o : Except (SendError ε) Unit × C × ω} {o' : Except (SendError ε') Unit × C × τ}
    (h : SendsOnce sock id error payload x o) (h' : SendsOnce sock' id error payload y o') :
    Twin Q o.2 o'.2 ∧ ((o.1 = .ok () ∧ o'.1 = .ok ()) ∨
      ∃ n, o.1 = .error (.replyTooBig n) ∧ o'.1 = .error (.replyTooBig n)) := by
  by_cases hl : 16 + payload.length < 2 ^ 32
  · obtain ⟨b, h1, rfl⟩ := h.1 hl
    obtain ⟨b', h2, rfl⟩ := h'.1 hl
    obtain ⟨h3, h4, h5⟩ := hm.send b b' _ x y h1 h2 (by rw [frame_length]; exact hl) ht
    exact ⟨h5, .inl ⟨h3, h4⟩⟩
  · rw [h.2 hl, h'.2 hl]
    exact ⟨ht, .inr ⟨_, rfl, rfl⟩⟩

theorem fuseConnect_mirror (hm : Mirrors eof Q sock sock') (c : FuseServer) (x : Bytes × C × ω) (y : Bytes × C × τ)
    (ht : TwinLoop Q x y) :
    StepsAlike (TwinLoop Q) (TwinEnd eof Q) (fuseConnectStep sock c.initFn x) (fuseConnectStep sock' c.initFn y) := by
  obtain ⟨buf, x⟩ := x
  obtain ⟨buf', y⟩ := y
  obtain ⟨b, b', x', y', hl, ht', ⟨n, h1, h2, h3⟩ | ⟨e, e', h1, h2, h3⟩⟩ := hm.received ht.1 ht.2
  · unfold fuseConnectStep
    dsimp only
    dsimp only at h1 h2
    rw [h1, h2]
    dsimp only
    rw [h3]
    unfold receiveInit
    cases Request.new (truncateSlice b' n) with
    | error e => exact ⟨rfl, ht'⟩
    | ok r =>
      dsimp only
      cases r.decode decodeFuseInit with
      | error e => cases e <;> exact ⟨rfl, ht'⟩
      | ok q =>
        dsimp only
        cases r.rawHeader with
        | error f => exact ⟨rfl, ht'⟩
        | ok hdr =>
          dsimp only
          cases hdr.requestId with
          | error f => exact ⟨rfl, ht'⟩
          | ok id =>
            dsimp only
            unfold fuseHandshake
            have send (reply : FuseInitResponse) := sends_mirror hm ht'
              (show SendsOnce sock id.val 0 _ x' (sendInitOut reply.raw ⟨⟨sock, id.val⟩, ⟨36, 0⟩⟩ x') from
                fuse_reply_once sock ⟨36, 0⟩ id (.init reply.raw) x')
              (show SendsOnce sock' id.val 0 _ y' (sendInitOut reply.raw ⟨⟨sock', id.val⟩, ⟨36, 0⟩⟩ y') from
                fuse_reply_once sock' ⟨36, 0⟩ id (.init reply.raw) y')
            cases negotiateVersion q.version with
            | none =>
              have h := send (({} : FuseInitResponse).setVersion .latest)
              dsimp only
              revert h
              generalize sendInitOut _ ⟨⟨sock, _⟩, _⟩ x' = o
              generalize sendInitOut _ ⟨⟨sock', _⟩, _⟩ y' = o'
              rintro ⟨ht, ⟨h1, h2⟩ | ⟨n, h1, h2⟩⟩ <;> obtain ⟨r, x⟩ := o <;> obtain ⟨r', y⟩ := o' <;>
                dsimp only at h1 h2 <;> subst h1 h2
              · exact ⟨hl, ht⟩
              · exact ⟨rfl, ht⟩
            | some v =>
              have h := send ((c.initFn q {} x').1.setVersion v)
              unfold FuseServer.initFn at h ⊢
              dsimp only at h ⊢
              revert h
              generalize sendInitOut _ ⟨⟨sock, _⟩, _⟩ x' = o
              generalize sendInitOut _ ⟨⟨sock', _⟩, _⟩ y' = o'
              rintro ⟨ht, ⟨h1, h2⟩ | ⟨n, h1, h2⟩⟩ <;> obtain ⟨r, x⟩ := o <;> obtain ⟨r', y⟩ := o' <;>
                dsimp only at h1 h2 <;> subst h1 h2
              · exact ⟨rfl, ht⟩
              · exact ⟨rfl, ht⟩
  · unfold fuseConnectStep
    dsimp only
    dsimp only at h1 h2
    rw [h1, h2]
    exact ⟨h3, ht'⟩

theorem cuseConnect_mirror (hm : Mirrors eof Q sock sock') (c : CuseServer) (x : Bytes × C × ω) (y : Bytes × C × τ)
    (ht : TwinLoop Q x y) :
    StepsAlike (TwinLoop Q) (TwinEnd eof Q) (cuseConnectStep sock c.deviceName c.deviceNumber c.initFn x)
      (cuseConnectStep sock' c.deviceName c.deviceNumber c.initFn y) := by
  obtain ⟨buf, x⟩ := x
  obtain ⟨buf', y⟩ := y
  obtain ⟨b, b', x', y', hl, ht', ⟨n, h1, h2, h3⟩ | ⟨e, e', h1, h2, h3⟩⟩ := hm.received ht.1 ht.2
  · unfold cuseConnectStep
    dsimp only
    dsimp only at h1 h2
    rw [h1, h2]
    dsimp only
    rw [h3]
    unfold receiveInit
    cases Request.new (truncateSlice b' n) with
    | error e => exact ⟨rfl, ht'⟩
    | ok r =>
      dsimp only
      cases r.decode decodeCuseInit with
      | error e => cases e <;> exact ⟨rfl, ht'⟩
      | ok q =>
        dsimp only
        cases r.rawHeader with
        | error f => exact ⟨rfl, ht'⟩
        | ok hdr =>
          dsimp only
          cases hdr.requestId with
          | error f => exact ⟨rfl, ht'⟩
          | ok id =>
            dsimp only
            unfold cuseHandshake
            have send (reply : CuseInitResponse) := sends_mirror hm ht'
              (show SendsOnce sock id.val 0 _ x' (reply.sendTo ⟨⟨sock, id.val⟩⟩ x') from
                cuse_reply_once sock ⟨36⟩ id (.init reply) x')
              (show SendsOnce sock' id.val 0 _ y' (reply.sendTo ⟨⟨sock', id.val⟩⟩ y') from
                cuse_reply_once sock' ⟨36⟩ id (.init reply) y')
            cases negotiateVersion q.version with
            | none =>
              have h := send (CuseInitResponse.newNameless.setVersion .latest)
              dsimp only
              revert h
              generalize CuseInitResponse.sendTo _ ⟨⟨sock, _⟩⟩ x' = o
              generalize CuseInitResponse.sendTo _ ⟨⟨sock', _⟩⟩ y' = o'
              rintro ⟨ht, ⟨h1, h2⟩ | ⟨n, h1, h2⟩⟩ <;> obtain ⟨r, x⟩ := o <;> obtain ⟨r', y⟩ := o' <;>
                dsimp only at h1 h2 <;> subst h1 h2
              · exact ⟨hl, ht⟩
              · exact ⟨rfl, ht⟩
            | some v =>
              have h := send
                ((c.initFn q ((CuseInitResponse.new c.deviceName).setDeviceNumber c.deviceNumber) x').1.setVersion v)
              unfold CuseServer.initFn at h ⊢
              dsimp only at h ⊢
              revert h
              generalize CuseInitResponse.sendTo _ ⟨⟨sock, _⟩⟩ x' = o
              generalize CuseInitResponse.sendTo _ ⟨⟨sock', _⟩⟩ y' = o'
              rintro ⟨ht, ⟨h1, h2⟩ | ⟨n, h1, h2⟩⟩ <;> obtain ⟨r, x⟩ := o <;> obtain ⟨r', y⟩ := o' <;>
                dsimp only at h1 h2 <;> subst h1 h2
              · exact ⟨rfl, ht⟩
              · exact ⟨rfl, ht⟩
  · unfold cuseConnectStep
    dsimp only
    dsimp only at h1 h2
    rw [h1, h2]
    exact ⟨h3, ht'⟩

end

/-! ## Servers of operations -/

section
variable {S : Type} {eof : Bool} {Q : ω → τ → Prop} {sock : Socket (Option S × ω) ε} {sock' : Socket (Option S × τ) ε'}

theorem answer_mirror (hm : Mirrors eof Q sock sock') (srv : RpcServer S) (t : ReqType) (r : Request) (s : S) {w : ω} {u : τ}
    (hq : Q w u) : Twin Q (srv.answer sock t r s w) (srv.answer sock' t r s u) := by
  obtain ⟨act, layout, checks, os, addr⟩ := srv
  unfold RpcServer.answer
  cases Filesystem.idAndHeader r with
  | error f => exact ⟨rfl, hq⟩
  | ok h =>
    obtain ⟨id, hdr⟩ := h
    cases r.decode (decodeAny t) with
    | error f => exact ⟨rfl, hq⟩
    | ok q =>
      dsimp only
      cases q.op with
      | error f => exact ⟨rfl, hq⟩
      | ok op =>
        cases op with
        | none => exact ⟨rfl, hq⟩
        | some op =>
          dsimp only
          generalize act ⟨hdr.uid, hdr.gid, hdr.pid⟩ op s = p
          obtain ⟨a, s⟩ := p
          dsimp only
          cases a.reply os (addr op) op.room with
          | error f => exact ⟨rfl, hq⟩
          | ok a =>
            cases a with
            | none => exact ⟨rfl, hq⟩
            | some a =>
              dsimp only
              have h := sends_mirror hm (x := (some s, w)) (y := (some s, u)) ⟨rfl, hq⟩
                (fuse_answer_once sock layout id a (some s, w)) (fuse_answer_once sock' layout id a (some s, u))
              revert h
              generalize FuseAnswer.run (.new sock layout id) a (some s, w) = o
              generalize FuseAnswer.run (.new sock' layout id) a (some s, u) = o'
              rintro ⟨ht, ⟨h1, h2⟩ | ⟨n, h1, h2⟩⟩ <;> obtain ⟨r, x⟩ := o <;> obtain ⟨r', y⟩ := o' <;>
                dsimp only at h1 h2 <;> subst h1 h2
              · exact ht
              · exact ⟨rfl, ht.2⟩

theorem refuse_mirror (hm : Mirrors eof Q sock sock') (srv : RpcServer S) (e : FuseError) (r : Request) {x : Option S × ω}
    {y : Option S × τ} (ht : Twin Q x y) : Twin Q (srv.refuse sock e r x) (srv.refuse sock' e r y) := by
  unfold RpcServer.refuse
  cases Filesystem.idAndHeader r with
  | error f => exact ⟨rfl, ht.2⟩
  | ok h =>
    obtain ⟨id, hdr⟩ := h
    dsimp only
    have h := sends_mirror hm ht
      (fuse_answer_once sock srv.layout id (.err e) x) (fuse_answer_once sock' srv.layout id (.err e) y)
    revert h
    generalize FuseAnswer.run (.new sock srv.layout id) (.err e) x = o
    generalize FuseAnswer.run (.new sock' srv.layout id) (.err e) y = o'
    rintro ⟨ht, ⟨h1, h2⟩ | ⟨n, h1, h2⟩⟩ <;> obtain ⟨r, x⟩ := o <;> obtain ⟨r', y⟩ := o' <;>
      dsimp only at h1 h2 <;> subst h1 h2
    · exact ht
    · exact ⟨rfl, ht.2⟩

theorem guarded_mirror (hm : Mirrors eof Q sock sock') (srv : RpcServer S) (quiet : Bool) (t : ReqType) (r : Request) (s : S)
    {w : ω} {u : τ} (hq : Q w u) : Twin Q (srv.guarded sock quiet t r s w) (srv.guarded sock' quiet t r s u) := by
  unfold RpcServer.guarded
  split
  · cases quiet
    · exact refuse_mirror hm srv refusalMalformed r (x := (some s, w)) (y := (some s, u)) ⟨rfl, hq⟩
    · exact ⟨rfl, hq⟩
  · exact answer_mirror hm srv t r s hq

/-- Handlers that first look whether there is a state. -/
theorem state_mirror {f : S → ω → Option S × ω} {f' : S → τ → Option S × τ}
    (h : ∀ s w u, Q w u → Twin Q (f s w) (f' s u)) (x : Option S × ω) (y : Option S × τ) (ht : Twin Q x y) :
    Twin Q (match x.1 with
      | none => x
      | some s => f s x.2) (match y.1 with
      | none => y
      | some s => f' s y.2) := by
  obtain ⟨c, w⟩ := x
  obtain ⟨c', u⟩ := y
  obtain ⟨hc, hq⟩ := ht
  dsimp only at hc hq
  subst hc
  cases c with
  | none => exact ⟨rfl, hq⟩
  | some s => exact h s w u hq

theorem handlers_mirror (hm : Mirrors eof Q sock sock') (srv : RpcServer S) :
    MirrorHandlers Q (srv.handlers sock) (srv.handlers sock') where
  unimplemented _ _ _ ht := ⟨rfl, ht.2⟩
  overridden m := by
    unfold RpcServer.handlers
    dsimp only
    cases m.reqType srv.layout srv.checks with
    | none => exact .inl ⟨rfl, rfl⟩
    | some t => exact .inr ⟨_, _, rfl, rfl, fun r => state_mirror fun s _ _ => answer_mirror hm srv t r s⟩

theorem guards_mirror (hm : Mirrors eof Q sock sock') (srv : RpcServer S) :
    MirrorHandlers Q (srv.guards sock) (srv.guards sock') where
  unimplemented r x y ht := by
    obtain ⟨c, w⟩ := x
    obtain ⟨c', u⟩ := y
    obtain ⟨hc, hq⟩ := ht
    dsimp only at hc hq
    subst hc
    cases c with
    | none => exact ⟨rfl, hq⟩
    | some s => exact refuse_mirror hm srv refusalUnknown r (x := (some s, w)) (y := (some s, u)) ⟨rfl, hq⟩
  overridden m := by
    unfold RpcServer.guards
    dsimp only
    cases m.reqType srv.layout srv.checks with
    | none => exact .inl ⟨rfl, rfl⟩
    | some t => exact .inr ⟨_, _, rfl, rfl, fun r => state_mirror fun s _ _ => guarded_mirror hm srv _ t r s⟩

theorem dev_answer_mirror (hm : Mirrors eof Q sock sock') (srv : DevServer S) (t : ReqType) (r : Request) (s : S) {w : ω} {u : τ}
    (hq : Q w u) : Twin Q (srv.answer sock t r s w) (srv.answer sock' t r s u) := by
  obtain ⟨act, layout⟩ := srv
  unfold DevServer.answer
  cases Filesystem.idAndHeader r with
  | error f => exact ⟨rfl, hq⟩
  | ok h =>
    obtain ⟨id, hdr⟩ := h
    cases r.decode (decodeAny t) with
    | error f => exact ⟨rfl, hq⟩
    | ok q =>
      dsimp only
      cases q.devOp with
      | error f => exact ⟨rfl, hq⟩
      | ok op =>
        cases op with
        | none => exact ⟨rfl, hq⟩
        | some op =>
          dsimp only
          generalize act ⟨hdr.uid, hdr.gid, hdr.pid⟩ op s = p
          obtain ⟨a, s⟩ := p
          dsimp only
          cases a.deviceReply with
          | error f => exact ⟨rfl, hq⟩
          | ok a =>
            cases a with
            | none => exact ⟨rfl, hq⟩
            | some a =>
              dsimp only
              have h := sends_mirror hm (x := (some s, w)) (y := (some s, u)) ⟨rfl, hq⟩
                (cuse_answer_once sock layout id a (some s, w)) (cuse_answer_once sock' layout id a (some s, u))
              revert h
              generalize CuseAnswer.run (.new sock layout id) a (some s, w) = o
              generalize CuseAnswer.run (.new sock' layout id) a (some s, u) = o'
              rintro ⟨ht, ⟨h1, h2⟩ | ⟨n, h1, h2⟩⟩ <;> obtain ⟨r, x⟩ := o <;> obtain ⟨r', y⟩ := o' <;>
                dsimp only at h1 h2 <;> subst h1 h2
              · exact ht
              · exact ⟨rfl, ht.2⟩

theorem dev_refuse_mirror (hm : Mirrors eof Q sock sock') (srv : DevServer S) (e : FuseError) (r : Request) {x : Option S × ω}
    {y : Option S × τ} (ht : Twin Q x y) : Twin Q (srv.refuse sock e r x) (srv.refuse sock' e r y) := by
  unfold DevServer.refuse
  cases Filesystem.idAndHeader r with
  | error f => exact ⟨rfl, ht.2⟩
  | ok h =>
    obtain ⟨id, hdr⟩ := h
    dsimp only
    have h := sends_mirror hm ht
      (cuse_answer_once sock srv.layout id (.err e) x) (cuse_answer_once sock' srv.layout id (.err e) y)
    revert h
    generalize CuseAnswer.run (.new sock srv.layout id) (.err e) x = o
    generalize CuseAnswer.run (.new sock' srv.layout id) (.err e) y = o'
    rintro ⟨ht, ⟨h1, h2⟩ | ⟨n, h1, h2⟩⟩ <;> obtain ⟨r, x⟩ := o <;> obtain ⟨r', y⟩ := o' <;>
      dsimp only at h1 h2 <;> subst h1 h2
    · exact ht
    · exact ⟨rfl, ht.2⟩

theorem dev_guarded_mirror (hm : Mirrors eof Q sock sock') (srv : DevServer S) (quiet : Bool) (t : ReqType) (r : Request) (s : S)
    {w : ω} {u : τ} (hq : Q w u) : Twin Q (srv.guarded sock quiet t r s w) (srv.guarded sock' quiet t r s u) := by
  unfold DevServer.guarded
  split
  · cases quiet
    · exact dev_refuse_mirror hm srv refusalMalformed r (x := (some s, w)) (y := (some s, u)) ⟨rfl, hq⟩
    · exact ⟨rfl, hq⟩
  · exact dev_answer_mirror hm srv t r s hq

theorem dev_handlers_mirror (hm : Mirrors eof Q sock sock') (srv : DevServer S) :
    MirrorHandlers Q (srv.handlers sock) (srv.handlers sock') where
  unimplemented _ _ _ ht := ⟨rfl, ht.2⟩
  overridden _ := .inr ⟨_, _, rfl, rfl, fun r => state_mirror fun s _ _ => dev_answer_mirror hm srv _ r s⟩

theorem dev_guards_mirror (hm : Mirrors eof Q sock sock') (srv : DevServer S) :
    MirrorHandlers Q (srv.guards sock) (srv.guards sock') where
  unimplemented r x y ht := by
    obtain ⟨c, w⟩ := x
    obtain ⟨c', u⟩ := y
    obtain ⟨hc, hq⟩ := ht
    dsimp only at hc hq
    subst hc
    cases c with
    | none => exact ⟨rfl, hq⟩
    | some s => exact dev_refuse_mirror hm srv refusalUnknown r (x := (some s, w)) (y := (some s, u)) ⟨rfl, hq⟩
  overridden _ := .inr ⟨_, _, rfl, rfl, fun r => state_mirror fun s _ _ => dev_guarded_mirror hm srv _ _ r s⟩

end

/-! ## Sockets on devices -/

/-- What is received from a client in a buffer of `n` bytes; `ends` is the error at the end. -/
def Got (line : Line T) (p : Peer σ T) (ends : RecvError ε) (n : Nat) (s : σ) (r : Except (RecvError ε) Nat) (b : Bytes)
    (s' : σ) : Prop :=
  match line.next (p.client s) with
  | none => r = .error ends ∧ p.client s' = p.client s
  | some (m, t) =>
    if m.length ≤ n then r = .ok m.length ∧ b.take m.length = m ∧ p.client s' = t
    else (∃ e, r = .error (.other e) ∧ RecvError.other e ≠ ends) ∧ p.client s' = p.client s

/-- One attempt to receive. -/
def LineAttempts (line : Line T) (attempt : Bytes × σ → ((Except (RecvError ε) Nat × Bytes) × σ) ⊕ (Bytes × σ)) (p : Peer σ T)
    (ends : RecvError ε) : Prop :=
  ∀ buf s, (∃ b s', attempt (buf, s) = .inr (b, s') ∧ b.length = buf.length ∧ p.Interrupted s s') ∨
    ∃ r b s', attempt (buf, s) = .inl ((r, b), s') ∧ b.length = buf.length ∧ Got line p ends buf.length s r b s'

theorem take_overlay (buf m : Bytes) : (overlay buf m).take m.length = m := by
  unfold overlay
  rw [List.take_left' rfl]

theorem einval_ends {s : DeviceSocket} : RecvError.other EINVAL ≠ s.ends ENODEV := by
  unfold DeviceSocket.ends
  cases s.enodevIsEof <;> decide

theorem libc_einval_ends {s : DeviceSocket} :
    RecvError.other (⟨Libc.cInt EINVAL⟩ : Libc.LibcError) ≠ s.ends ⟨Libc.cInt ENODEV⟩ := by
  unfold DeviceSocket.ends
  cases s.enodevIsEof <;> simp [Libc.cInt, EINVAL, ENODEV]

theorem linux_talk_attempts {sys : Sys δ} {s : DeviceSocket} {line : Line T} {p : Peer δ T} (hd : LineDevice line sys s.fd p) :
    LineAttempts line (Linux.recvStep sys s) p (s.ends ENODEV) := by
  intro buf d
  rcases hd.read buf.length d with h | h
  · refine .inl ⟨_, _, ?_, overlay_len _ _ (sys.read_fits s.fd buf.length d), hd.again buf.length d h⟩
    unfold Linux.recvStep
    rcases h with h | h <;> dsimp only <;> rw [h] <;> rfl
  · refine .inr ?_
    unfold Got
    unfold Linux.recvStep
    generalize line.next (p.client d) = talk at h ⊢
    cases talk with
    | none =>
      obtain ⟨h1, h2⟩ := h
      refine ⟨.error (s.ends ENODEV), overlay buf (sys.read s.fd buf.length d).1.2, _, ?_, overlay_len _ _ (sys.read_fits s.fd buf.length d), rfl, h2.1⟩
      dsimp only
      rw [h1]
      have : Linux.checkRecvErr s ENODEV = .error (s.ends ENODEV) := by
        unfold Linux.checkRecvErr DeviceSocket.ends
        rw [if_neg (by decide), if_neg (by decide)]
        cases s.enodevIsEof <;> rfl
      dsimp only
      rw [this]
    | some x =>
      obtain ⟨m, k⟩ := x
      dsimp only at h ⊢
      by_cases hl : m.length ≤ buf.length
      · rw [if_pos hl] at h
        refine ⟨.ok m.length, overlay buf m, (sys.read s.fd buf.length d).2, ?_, overlay_len _ _ hl, ?_⟩
        · rw [h.1]
        · rw [if_pos hl]
          exact ⟨rfl, take_overlay buf m, h.2.1⟩
      · rw [if_neg hl] at h
        refine ⟨.error (.other EINVAL), overlay buf (sys.read s.fd buf.length d).1.2, (sys.read s.fd buf.length d).2, ?_,
          overlay_len _ _ (sys.read_fits s.fd buf.length d), ?_⟩
        · rw [h.1]
          have : Linux.checkRecvErr s EINVAL = .error (.other EINVAL) := by
            unfold Linux.checkRecvErr
            rw [if_neg (by decide), if_neg (by decide), if_neg (fun h => absurd h.1 (by decide))]
          dsimp only
          rw [this]
        · rw [if_neg hl]
          exact ⟨⟨_, rfl, einval_ends⟩, h.2.1⟩

theorem libc_talk_attempts {sys : Sys δ} {s : DeviceSocket} {line : Line T} {p : Peer δ T} (hd : LineDevice line sys s.fd p) :
    LineAttempts line (Libc.recvStep sys s) (p.through Libc.Thread.sys) (s.ends ⟨Libc.cInt ENODEV⟩) := by
  intro buf t
  rcases hd.read buf.length t.sys with h | h
  · have hl := overlay_len _ _ (sys.read_fits s.fd buf.length t.sys)
    rcases h with h | h
    · refine .inl ⟨overlay buf (sys.read s.fd buf.length t.sys).1.2,
        ⟨(sys.read s.fd buf.length t.sys).2, Libc.cInt ENOENT⟩, ?_, hl, hd.again buf.length t.sys (.inl h)⟩
      unfold Libc.recvStep Libc.ret
      dsimp only
      rw [h]; rfl
    · refine .inl ⟨overlay buf (sys.read s.fd buf.length t.sys).1.2,
        ⟨(sys.read s.fd buf.length t.sys).2, Libc.cInt EINTR⟩, ?_, hl, hd.again buf.length t.sys (.inr h)⟩
      unfold Libc.recvStep Libc.ret
      dsimp only
      rw [h]; rfl
  · refine .inr ?_
    unfold Got
    unfold Libc.recvStep Libc.ret
    show ∃ r b s', _ ∧ _ ∧ (match line.next (p.client t.sys) with
      | none => _
      | some (m, k) => _ : Prop)
    generalize line.next (p.client t.sys) = talk at h ⊢
    cases talk with
    | none =>
      obtain ⟨h1, h2⟩ := h
      refine ⟨.error (s.ends ⟨Libc.cInt ENODEV⟩), overlay buf (sys.read s.fd buf.length t.sys).1.2, ⟨_, Libc.cInt ENODEV⟩, ?_,
        overlay_len _ _ (sys.read_fits s.fd buf.length t.sys), rfl, h2.1⟩
      dsimp only
      rw [h1]
      have : Libc.checkRecvErr s (⟨(sys.read s.fd buf.length t.sys).2, Libc.cInt ENODEV⟩ : Libc.Thread δ) =
          .error (s.ends ⟨Libc.cInt ENODEV⟩) := by
        unfold Libc.checkRecvErr DeviceSocket.ends
        dsimp only
        rw [if_neg (by decide), if_neg (by decide)]
        cases s.enodevIsEof <;> rfl
      dsimp only
      rw [if_neg (by decide), this]
    | some x =>
      obtain ⟨m, k⟩ := x
      dsimp only at h ⊢
      by_cases hl : m.length ≤ buf.length
      · rw [if_pos hl] at h
        refine ⟨.ok m.length, overlay buf m, ⟨(sys.read s.fd buf.length t.sys).2, t.errno⟩, ?_, overlay_len _ _ hl, ?_⟩
        · rw [h.1]
          exact if_pos (Int.natCast_nonneg m.length)
        · rw [if_pos hl]
          exact ⟨rfl, take_overlay buf m, h.2.1⟩
      · rw [if_neg hl] at h
        refine ⟨.error (.other ⟨Libc.cInt EINVAL⟩), overlay buf (sys.read s.fd buf.length t.sys).1.2,
          ⟨(sys.read s.fd buf.length t.sys).2, Libc.cInt EINVAL⟩, ?_,
          overlay_len _ _ (sys.read_fits s.fd buf.length t.sys), ?_⟩
        · rw [h.1]
          have : Libc.checkRecvErr s (⟨(sys.read s.fd buf.length t.sys).2, Libc.cInt EINVAL⟩ : Libc.Thread δ) =
              .error (.other ⟨Libc.cInt EINVAL⟩) := by
            unfold Libc.checkRecvErr
            dsimp only
            rw [if_neg (by decide), if_neg (by decide), if_neg (fun h => absurd h.1 (by decide))]
          dsimp only
          rw [if_neg (by decide), this]
        · rw [if_neg hl]
          exact ⟨⟨_, rfl, libc_einval_ends⟩, h.2.1⟩

theorem got_interrupted {line : Line T} {p : Peer σ T} {ends : RecvError ε} {n : Nat} {s s1 s' : σ} {r : Except (RecvError ε) Nat} {b : Bytes}
    (h : p.client s1 = p.client s) (hg : Got line p ends n s1 r b s') : Got line p ends n s r b s' := by
  unfold Got at hg ⊢
  rw [h] at hg
  exact hg

theorem talk_received {attempt : Bytes × σ → ((Except (RecvError ε) Nat × Bytes) × σ) ⊕ (Bytes × σ)} {line : Line T} {p : Peer σ T}
    {ends : RecvError ε} (ha : LineAttempts line attempt p ends) (n : Nat) : ∀ buf s, p.interrupts s < n →
    ∃ r b s', LoopReturns attempt (buf, s) ((r, b), s') ∧ Got line p ends buf.length s r b s' := by
  induction n with
  | zero => intro _ _ h; omega
  | succ n ih =>
    intro buf s hn
    rcases ha buf s with ⟨b, s', h1, h2, h3⟩ | ⟨r, b, s', h1, -, h2⟩
    · obtain ⟨r, b', s'', h4, h5⟩ := ih b s' (by have := h3.2; omega)
      rw [h2] at h5
      exact ⟨r, b', s'', .of_next h1 h4, got_interrupted h3.1 h5⟩
    · exact ⟨r, b, s', .of_step h1, h2⟩

theorem linux_talk_send {sys : Sys δ} {s : DeviceSocket} {line : Line T} {p : Peer δ T} (hd : LineDevice line sys s.fd p) (cs : List Bytes)
    (n : Nat) : ∀ d, p.interrupts d < n →
    ∃ d', LoopReturns (Linux.sendStep sys s cs.flatten.length cs) d (.ok (), d') ∧
      p.client d' = line.push (p.client d) cs.flatten := by
  induction n with
  | zero => intro _ h; omega
  | succ n ih =>
    intro d hn
    rcases hd.write cs d with h | ⟨h, h'⟩
    · have hi := hd.writeAgain cs d h
      obtain ⟨d', h1, h2⟩ := ih (sys.writev s.fd cs d).2 (by have := hi.2; omega)
      refine ⟨d', .of_next ?_ h1, ?_⟩
      · unfold Linux.sendStep
        dsimp only
        rw [h]; rfl
      · rw [h2, hi.1]
    · refine ⟨_, .of_step ?_, h'.1⟩
      unfold Linux.sendStep
      dsimp only
      rw [h]
      exact if_pos rfl

theorem libc_talk_send {sys : Sys δ} {s : DeviceSocket} {line : Line T} {p : Peer δ T} (hd : LineDevice line sys s.fd p) (cs : List Bytes)
    (hl : cs.flatten.length < 2 ^ 63) (n : Nat) : ∀ t : Libc.Thread δ, p.interrupts t.sys < n →
    ∃ t', LoopReturns (Libc.sendStep sys s cs.flatten.length cs) t (.ok (), t') ∧
      p.client t'.sys = line.push (p.client t.sys) cs.flatten := by
  induction n with
  | zero => intro _ h; omega
  | succ n ih =>
    intro t hn
    rcases hd.write cs t.sys with h | ⟨h, h'⟩
    · have hi := hd.writeAgain cs t.sys h
      obtain ⟨t', h1, h2⟩ := ih ⟨(sys.writev s.fd cs t.sys).2, Libc.cInt EINTR⟩ (by have := hi.2; dsimp only; omega)
      refine ⟨t', .of_next ?_ h1, ?_⟩
      · unfold Libc.sendStep Libc.ret
        dsimp only
        rw [h]; rfl
      · rw [h2, hi.1]
    · refine ⟨⟨(sys.writev s.fd cs t.sys).2, t.errno⟩, .of_step ?_, h'.1⟩
      unfold Libc.sendStep Libc.ret
      dsimp only
      rw [h]
      have ha : Libc.asIsize cs.flatten.length = (cs.flatten.length : Int) := by
        unfold Libc.asIsize
        rw [Int.bmod_eq_of_le (by omega) (by omega)]
      show (if (cs.flatten.length : Int) = -1 then _ else if (cs.flatten.length : Int) = Libc.asIsize _ then _ else _) = _
      rw [if_neg (by omega), if_pos ha.symm]

/-- A socket that has nothing between it and the clients. -/
structure LineSocket (line : Line T) (sock : Socket (C × T) ε) : Prop where
  recv : ∀ buf c t, match line.next t with
    | none => ∃ e, sock.recv buf (c, t) = ((.error (.connectionClosed e), buf), (c, t))
    | some (m, t') =>
      if m.length ≤ buf.length then sock.recv buf (c, t) = ((.ok m.length, m ++ buf.drop m.length), (c, t'))
      else ∃ e, sock.recv buf (c, t) = ((.error (.other e), buf), (c, t))
  send : ∀ b msg c t, Carries b msg → sock.send b (c, t) = (.ok (), (c, line.push t msg))

/-- What is received is what a socket without a device would have received. -/
theorem got_mirror {line : Line T} {direct : Socket (C × T) ε'} (hw : LineSocket line direct) {p : Peer σ T}
    {ends : RecvError ε} {buf buf' : Bytes} {s : σ} {r : Except (RecvError ε) Nat} {b : Bytes}
    {s' : σ} (hg : Got line p ends buf.length s r b s') (hl : buf.length = buf'.length) (hb : b.length = buf.length) {eof : Bool}
    (hends : ∀ e : ε', AlikeRecv eof ends (.connectionClosed e)) (c : C) :
    AlikeGot eof (r, b) (direct.recv buf' (c, p.client s)).1 ∧
      (direct.recv buf' (c, p.client s)).2.1 = c ∧
      p.client s' = (direct.recv buf' (c, p.client s)).2.2 := by
  unfold Got at hg
  have hr := hw.recv buf' c (p.client s)
  generalize line.next (p.client s) = talk at hg hr
  cases talk with
  | none =>
    obtain ⟨rfl, h⟩ := hg
    obtain ⟨e, hr⟩ := hr
    rw [hr]
    exact ⟨hends e, rfl, h⟩
  | some x =>
    obtain ⟨m, k⟩ := x
    dsimp only at hg hr
    rw [hl] at hg
    by_cases hm : m.length ≤ buf'.length
    · rw [if_pos hm] at hg hr
      rw [hr]
      obtain ⟨rfl, h1, h2⟩ := hg
      refine ⟨⟨rfl, ?_⟩, rfl, h2⟩
      have hlen : (m ++ buf'.drop m.length).length = b.length := by
        rw [List.length_append, List.length_drop, hb, hl]
        omega
      unfold truncateSlice
      rw [hlen]
      split
      · next hge =>
        rw [List.take_of_length_le hge] at h1
        have : buf'.drop m.length = [] := List.drop_eq_nil_of_le (by omega)
        rw [h1, this, List.append_nil]
      · rw [h1, List.take_left]
    · rw [if_neg hm] at hg hr
      obtain ⟨⟨e, rfl, -⟩, h⟩ := hg
      obtain ⟨e', hr⟩ := hr
      rw [hr]
      exact ⟨trivial, rfl, h⟩

theorem wired_line : LineSocket (talkLine α) (Wired.socket C α) where
  recv buf c t := by
    obtain ⟨heard, k⟩ := t
    unfold talkLine Wired.socket
    dsimp only
    generalize k heard = talk
    cases talk with
    | done a => exact ⟨(), rfl⟩
    | say m k =>
      dsimp only
      by_cases hm : m.length ≤ buf.length
      · rw [if_pos hm, if_pos hm]
      · rw [if_neg hm, if_neg hm]
        exact ⟨(), rfl⟩
  send b msg c t h := by
    obtain ⟨cs, h1, -, h2, -⟩ := h
    unfold Wired.socket talkLine
    dsimp only
    rw [h1, ← h2]

theorem linux_mirrors {sys : Sys δ} {s : DeviceSocket} {line : Line T} {p : Peer δ T} (hd : LineDevice line sys s.fd p) {sock : Socket δ Errno}
    (hs : OnLinux sys s sock) {direct : Socket (C × T) ε'} (hw : LineSocket line direct) :
    Mirrors s.enodevIsEof (fun d t => p.client d = t) (sock.beside C) direct where
  recv buf buf' x y hl ht := by
    obtain ⟨c, d⟩ := x
    obtain ⟨c', t⟩ := y
    obtain ⟨hc, hq⟩ := ht
    dsimp only at hc hq
    subst hc hq
    obtain ⟨r, b, d', h1, h2⟩ := talk_received (linux_talk_attempts hd) _ buf d (Nat.lt_succ_self _)
    have h3 := (hs.1 buf d).unique h1
    have h4 := sock.recv_length buf d
    rw [h3] at h4
    obtain ⟨g1, g2, g3⟩ := got_mirror hw h2 hl h4 (eof := s.enodevIsEof)
      (fun _ => by unfold DeviceSocket.ends; cases s.enodevIsEof <;> trivial) c
    unfold Socket.beside
    dsimp only
    rw [h3]
    exact ⟨g1, g2.symm, g3⟩
  send b b' msg x y hb hb' hl ht := by
    obtain ⟨c, d⟩ := x
    obtain ⟨c', t⟩ := y
    obtain ⟨hc, hq⟩ := ht
    dsimp only at hc hq
    subst hc hq
    obtain ⟨cs, h1, -, h2⟩ := iovecs_of_carries hb
    obtain ⟨cs', h3, h4⟩ := hs.2 b msg d hb
    rw [h1] at h3
    cases h3
    have hlen : b.len = cs.flatten.length := by
      obtain ⟨_, _, _, _, h⟩ := hb
      rw [h, h2]
    rw [hlen] at h4
    obtain ⟨d', h5, h6⟩ := linux_talk_send hd cs _ d (Nat.lt_succ_self _)
    rw [h2] at h6
    rw [hw.send b' msg c _ hb']
    unfold Socket.beside
    dsimp only
    rw [h4.unique h5]
    exact ⟨rfl, rfl, rfl, h6⟩

theorem libc_mirrors {sys : Sys δ} {s : DeviceSocket} {line : Line T} {p : Peer δ T} (hd : LineDevice line sys s.fd p)
    {sock : Socket (Libc.Thread δ) Libc.LibcError} (hs : OnLibc sys s sock)
    {direct : Socket (C × T) ε'} (hw : LineSocket line direct) :
    Mirrors s.enodevIsEof (fun (d : Libc.Thread δ) t => p.client d.sys = t) (sock.beside C) direct where
  recv buf buf' x y hl ht := by
    obtain ⟨c, d⟩ := x
    obtain ⟨c', t⟩ := y
    obtain ⟨hc, hq⟩ := ht
    dsimp only at hc hq
    subst hc hq
    obtain ⟨r, b, d', h1, h2⟩ := talk_received (libc_talk_attempts hd) _ buf d (Nat.lt_succ_self _)
    have h3 := (hs.1 buf d).unique h1
    have h4 := sock.recv_length buf d
    rw [h3] at h4
    obtain ⟨g1, g2, g3⟩ := got_mirror hw h2 hl h4 (eof := s.enodevIsEof)
      (fun _ => by unfold DeviceSocket.ends; cases s.enodevIsEof <;> trivial) c
    unfold Socket.beside
    dsimp only
    rw [h3]
    exact ⟨g1, g2.symm, g3⟩
  send b b' msg x y hb hb' hl ht := by
    obtain ⟨c, d⟩ := x
    obtain ⟨c', t⟩ := y
    obtain ⟨hc, hq⟩ := ht
    dsimp only at hc hq
    subst hc hq
    obtain ⟨cs, -, h1, h2⟩ := iovecs_of_carries hb
    obtain ⟨cs', h3, h4⟩ := hs.2 b msg d hb (by omega)
    rw [h1] at h3
    cases h3
    have hlen : b.len = cs.flatten.length := by
      obtain ⟨_, _, _, _, h⟩ := hb
      rw [h, h2]
    rw [hlen] at h4
    obtain ⟨d', h5, h6⟩ := libc_talk_send hd cs (by rw [h2]; omega) _ d (Nat.lt_succ_self _)
    rw [h2] at h6
    rw [hw.send b' msg c _ hb']
    unfold Socket.beside
    dsimp only
    rw [h4.unique h5]
    exact ⟨rfl, rfl, rfl, h6⟩

/-! ### Such sockets exist -/

theorem linux_talk_socket {sys : Sys δ} {s : DeviceSocket} {line : Line T} {p : Peer δ T} (hd : LineDevice line sys s.fd p) :
    ∃ sock : Socket δ Errno, OnLinux sys s sock := by
  have hrecv : ∀ buf d, ∃ out, Linux.RecvReturns sys s buf d out := fun buf d =>
    let ⟨_, _, _, h, _⟩ := talk_received (linux_talk_attempts hd) _ buf d (Nat.lt_succ_self _)
    ⟨_, h⟩
  have hsend : ∀ buf d, ∃ out, (∃ msg, Carries buf msg) → Linux.SendReturns sys s buf d out := by
    intro buf d
    by_cases hc : ∃ msg, Carries buf msg
    · obtain ⟨msg, hc⟩ := hc
      obtain ⟨cs, h1, -, h2⟩ := iovecs_of_carries hc
      obtain ⟨d', h3, -⟩ := linux_talk_send hd cs _ d (Nat.lt_succ_self _)
      have hlen : buf.len = cs.flatten.length := by
        obtain ⟨_, _, _, _, h⟩ := hc
        rw [h, h2]
      exact ⟨_, fun _ => ⟨cs, h1, by rw [hlen]; exact h3⟩⟩
    · exact ⟨(.ok (), d), fun h => absurd h hc⟩
  exact ⟨{ recv := fun buf d => Classical.choose (hrecv buf d)
           recv_length := fun buf d => (C41_bounds sys s buf d _ (Classical.choose_spec (hrecv buf d))).1
           send := fun buf d => Classical.choose (hsend buf d) }, fun buf d => Classical.choose_spec (hrecv buf d),
    fun buf msg d hc => Classical.choose_spec (hsend buf d) ⟨msg, hc⟩⟩

theorem libc_talk_socket {sys : Sys δ} {s : DeviceSocket} {line : Line T} {p : Peer δ T} (hd : LineDevice line sys s.fd p) :
    ∃ sock : Socket (Libc.Thread δ) Libc.LibcError, OnLibc sys s sock := by
  have hrecv : ∀ buf t, ∃ out, Libc.RecvReturns sys s buf t out := fun buf t =>
    let ⟨_, _, _, h, _⟩ := talk_received (libc_talk_attempts hd) _ buf t (Nat.lt_succ_self _)
    ⟨_, h⟩
  have hsend : ∀ buf t, ∃ out, (∃ msg, Carries buf msg ∧ msg.length < 2 ^ 63) → Libc.SendReturns sys s buf t out := by
    intro buf t
    by_cases hc : ∃ msg, Carries buf msg ∧ msg.length < 2 ^ 63
    · obtain ⟨msg, hc, hm⟩ := hc
      obtain ⟨cs, -, h1, h2⟩ := iovecs_of_carries hc
      have hlen : buf.len = cs.flatten.length := by
        obtain ⟨_, _, _, _, h⟩ := hc
        rw [h, h2]
      obtain ⟨t', h3, -⟩ := libc_talk_send hd cs (by rw [← h2] at hm; exact hm) _ t (Nat.lt_succ_self _)
      exact ⟨_, fun _ => ⟨cs, h1, by rw [hlen]; exact h3⟩⟩
    · exact ⟨(.ok (), t), fun h => absurd h hc⟩
  exact ⟨{ recv := fun buf t => Classical.choose (hrecv buf t)
           recv_length := fun buf t => by
             obtain ⟨n, h⟩ := Classical.choose_spec (hrecv buf t)
             exact libc_recv_length n (buf, t) _ h
           send := fun buf t => Classical.choose (hsend buf t) }, fun buf t => Classical.choose_spec (hrecv buf t),
    fun buf msg t hc hm => Classical.choose_spec (hsend buf t) ⟨msg, hc, hm⟩⟩

/-! ## The property -/

/-- A socket of `fuse-linux` or `fuse-libc` on a device with a client; `eof` says whether it takes `ENODEV` for the end of the
connection, as sockets for FUSE do, and those for CUSE do not. -/
inductive Spec.OnLine {T : Type} (line : Line T) : {σ ε : Type} → Socket σ ε → Peer σ T → Bool → Prop
  | linux {δ : Type} {sys : Sys δ} {s : DeviceSocket} {p : Peer δ T} {sock : Socket δ Errno} :
      LineDevice line sys s.fd p → OnLinux sys s sock → OnLine line sock p s.enodevIsEof
  | libc {δ : Type} {sys : Sys δ} {s : DeviceSocket} {p : Peer δ T} {sock : Socket (Libc.Thread δ) Libc.LibcError} :
      LineDevice line sys s.fd p → OnLibc sys s sock → OnLine line sock (p.through Libc.Thread.sys) s.enodevIsEof

/-- Handlers that use the socket for nothing but sending: they do the same with sockets that do the same. -/
def Transparent {M : Type} (h : {ω ε : Type} → Socket (C × ω) ε → Handlers M (C × ω)) : Prop :=
  ∀ {ω τ ε ε' : Type} {eof : Bool} {Q : ω → τ → Prop} {sock : Socket (C × ω) ε} {sock' : Socket (C × τ) ε'},
    Mirrors eof Q sock sock' → MirrorHandlers Q (h sock) (h sock')

theorem line_mirrors {line : Line T} {p : Peer σ T} {sock : Socket σ ε} {eof : Bool} (h : OnLine line sock p eof)
    {direct : Socket (C × T) ε'} (hw : LineSocket line direct) :
    Mirrors eof (fun d t => p.client d = t) (sock.beside C) direct := by
  cases h with
  | linux hd hs => exact linux_mirrors hd hs hw
  | libc hd hs => exact libc_mirrors hd hs hw

theorem alikeError_symm {eof : Bool} {e : ServerError ε} {e' : ServerError ε'} (h : AlikeError eof e e') :
    AlikeError eof e' e := by
  cases e <;> cases e' <;> try exact h.elim
  · exact h.symm
  · exact alikeRecv_symm h
  · rename_i x y
    cases x <;> cases y <;> first | exact h.elim | exact trivial | exact h.symm

theorem alikeOutcome_symm {β : Type} {eof : Bool} {o : Outcome ε β} {o' : Outcome ε' β} (h : AlikeOutcome eof o o') :
    AlikeOutcome eof o' o := by
  cases o <;> cases o' <;> try exact h.elim
  · exact h.symm
  · exact alikeError_symm h
  · exact h.symm

/-- The runs of two loops that go together. -/
theorem loop_mirror {β : Type} {eof : Bool} {p : Peer σ (Convo α)}
    {step : Bytes × C × σ → (Outcome ε β × C × σ) ⊕ (Bytes × C × σ)}
    {step' : Bytes × Wired C α → (Outcome ε' β × Wired C α) ⊕ (Bytes × Wired C α)}
    (h : ∀ x y, TwinLoop (fun d t => p.client d = t) x y →
      StepsAlike (TwinLoop fun d t => p.client d = t) (TwinEnd eof fun d t => p.client d = t) (step x) (step' y))
    (h' : ∀ y x, TwinLoop (fun t d => p.client d = t) y x →
      StepsAlike (TwinLoop fun t d => p.client d = t) (TwinEnd eof fun t d => p.client d = t) (step' y) (step x))
    (buf : Bytes) (c : C) (d : σ) :
    (∀ o c' d', LoopReturns step (buf, (c, d)) (o, (c', d')) →
      ∃ o', LoopReturns step' (buf, (c, p.client d)) (o', (c', p.client d')) ∧ AlikeOutcome eof o o') ∧
    (∀ o' c' t, LoopReturns step' (buf, (c, p.client d)) (o', (c', t)) →
      ∃ o d', LoopReturns step (buf, (c, d)) (o, (c', d')) ∧ p.client d' = t ∧ AlikeOutcome eof o o') := by
  constructor
  · intro o c' d' hl
    obtain ⟨⟨o', c1, t⟩, h1, h2, h3, h4⟩ := LoopReturns.alike h (a' := (buf, (c, p.client d))) ⟨rfl, rfl, rfl⟩ hl
    dsimp only at h2 h3 h4
    subst h3 h4
    exact ⟨o', h1, h2⟩
  · intro o' c' t hl
    obtain ⟨⟨o, c1, d'⟩, h1, h2, h3, h4⟩ := LoopReturns.alike h' (a' := (buf, (c, d))) ⟨rfl, rfl, rfl⟩ hl
    dsimp only at h2 h3 h4
    subst h3 h4
    exact ⟨o, d', h1, rfl, alikeOutcome_symm h2⟩

/-- C87: a FUSE server does on a device, whatever is interrupted, what it does when connected to the client, and the other way
round: it serves until the same point, with the same outcome, the same state, and a client that has been sent the same. -/
theorem C87_serve {p : Peer σ (Convo α)} {sock : Socket σ ε} (hd : OnLine (talkLine _) sock p true)
    {h : {ω ε : Type} → Socket (C × ω) ε → Handlers FuseMethod (C × ω)} (hh : Transparent h) (buf : Bytes) (c : C) (d : σ) :
    (∀ o c' d', FuseServes (sock.beside C) (h (sock.beside C)) buf (c, d) (o, (c', d')) →
      ∃ o', FuseServes (Wired.socket C α) (h (Wired.socket C α)) buf (c, p.client d) (o', (c', p.client d')) ∧
        AlikeOutcome true o o') ∧
    (∀ o' c' t, FuseServes (Wired.socket C α) (h (Wired.socket C α)) buf (c, p.client d) (o', (c', t)) →
      ∃ o d', FuseServes (sock.beside C) (h (sock.beside C)) buf (c, d) (o, (c', d')) ∧ p.client d' = t ∧
        AlikeOutcome true o o') :=
  have hm := line_mirrors (C := C) hd wired_line
  loop_mirror (fuseServe_mirror hm (hh hm)) (fuseServe_mirror hm.symm (hh hm.symm)) buf c d

/-- C87: the same for CUSE servers. -/
theorem C87_cuse_serve {p : Peer σ (Convo α)} {sock : Socket σ ε} {eof : Bool} (hd : OnLine (talkLine _) sock p eof)
    {h : {ω ε : Type} → Socket (C × ω) ε → Handlers CuseMethod (C × ω)} (hh : Transparent h) (buf : Bytes) (c : C) (d : σ) :
    (∀ o c' d', CuseServes (sock.beside C) (h (sock.beside C)) buf (c, d) (o, (c', d')) →
      ∃ o', CuseServes (Wired.socket C α) (h (Wired.socket C α)) buf (c, p.client d) (o', (c', p.client d')) ∧
        AlikeOutcome eof o o') ∧
    (∀ o' c' t, CuseServes (Wired.socket C α) (h (Wired.socket C α)) buf (c, p.client d) (o', (c', t)) →
      ∃ o d', CuseServes (sock.beside C) (h (sock.beside C)) buf (c, d) (o, (c', d')) ∧ p.client d' = t ∧
        AlikeOutcome eof o o') :=
  have hm := line_mirrors (C := C) hd wired_line
  loop_mirror (cuseServe_mirror hm (hh hm)) (cuseServe_mirror hm.symm (hh hm.symm)) buf c d

/-- C87: the same for the handshake, with any server made with the builders. -/
theorem C87_connect {p : Peer σ (Convo α)} {sock : Socket σ ε} {eof : Bool} (hd : OnLine (talkLine _) sock p eof) (server : FuseServer) (c : C)
    (d : σ) :
    (∀ o c' d', server.Connects (sock.beside C) (c, d) (o, (c', d')) →
      ∃ o', server.Connects (Wired.socket C α) (c, p.client d) (o', (c', p.client d')) ∧ AlikeOutcome eof o o') ∧
    (∀ o' c' t, server.Connects (Wired.socket C α) (c, p.client d) (o', (c', t)) →
      ∃ o d', server.Connects (sock.beside C) (c, d) (o, (c', d')) ∧ p.client d' = t ∧ AlikeOutcome eof o o') :=
  have hm := line_mirrors (C := C) hd wired_line
  loop_mirror (fuseConnect_mirror hm server) (fuseConnect_mirror hm.symm server) minReadBuffer c d

/-- C87: the same for the handshake of CUSE. -/
theorem C87_cuse_connect {p : Peer σ (Convo α)} {sock : Socket σ ε} {eof : Bool} (hd : OnLine (talkLine _) sock p eof) (server : CuseServer) (c : C)
    (d : σ) :
    (∀ o c' d', server.Connects (sock.beside C) (c, d) (o, (c', d')) →
      ∃ o', server.Connects (Wired.socket C α) (c, p.client d) (o', (c', p.client d')) ∧ AlikeOutcome eof o o') ∧
    (∀ o' c' t, server.Connects (Wired.socket C α) (c, p.client d) (o', (c', t)) →
      ∃ o d', server.Connects (sock.beside C) (c, d) (o, (c', d')) ∧ p.client d' = t ∧ AlikeOutcome eof o o') :=
  have hm := line_mirrors (C := C) hd wired_line
  loop_mirror (cuseConnect_mirror hm server) (cuseConnect_mirror hm.symm server) minReadBuffer c d

/-! ## Programs that use filesystems and devices -/

/-- C87: any filesystem, mounted, is served as it is, system call by system call (compare C78_mount). -/
theorem C87_mount {S : Type} {p : Peer σ (Convo (Option α))} {sock : Socket σ ε} (hd : OnLine (talkLine _) sock p true)
    (act : Caller → Op → S → Ans × S) (checks : Bool) (os : Os) (addr : Op → Nat)
    (haddr : ∀ op, addr op % 8 = 0) (server : FuseServer) (ids : Nat → UInt64) (hids : ∀ n, ids n ≠ 0) (newer : List Bytes)
    (init : Bytes) (hnewer : ∀ m ∈ newer, m.length ≤ 8192 ∧ IsFuseInit m ∧ u32At m 40 ≠ 7)
    (hinit : init.length ≤ 8192 ∧ IsFuseInit init ∧ u32At init 40 = 7 ∧ 12 ≤ u32At init 44) (use : Use α) (s : S)
    (hv : ∀ ext, use.Valid act ext (max (server.initReply.maxWrite.toNat + 4096) 8192) s) (d : σ)
    (hp : p.client d = ([], fun _ => use.session ids init newer)) :
    ∃ conn w, server.Connects (sock.beside (Option S)) (some s, d) (.ok conn, w) ∧
      ∀ buf : Bytes, conn.recvBufLen ≤ buf.length →
        ∃ d', FuseServes (sock.beside (Option S)) ((⟨act, conn.layout, checks, os, addr⟩ : RpcServer S).handlers
            (sock.beside (Option S))) buf w (.ok (), (some (use.run act s).2, d')) ∧
          (p.client d').2 (p.client d').1 = .done (some (use.run act s).1) := by
  obtain ⟨conn, ⟨c, t⟩, h1, h2⟩ := C78_mount act checks os addr haddr server ids hids newer init hnewer hinit use s hv
  rw [← hp] at h1
  obtain ⟨o, d1, h3, h4, h5⟩ := (C87_connect hd server (some s) d).2 _ _ _ h1
  cases o <;> try exact h5.elim
  cases h5
  refine ⟨conn, (c, d1), h3, fun buf hb => ?_⟩
  obtain ⟨heard, k, h6, h7⟩ := h2 buf hb
  rw [← h4] at h6
  obtain ⟨o, d2, h8, h9, h10⟩ := (C87_serve hd
    (fun hm => handlers_mirror hm ⟨act, conn.layout, checks, os, addr⟩) buf c d1).2 _ _ _ h6
  cases o <;> try exact h10.elim
  exact ⟨d2, h8, by rw [h9]; exact h7⟩

/-- C87: a client that sends anything brings about only what it asks for, system call by system call (compare
C84_mount_partial, also for what cannot be allowed). -/
theorem C87_confined_partial {S : Type} {p : Peer σ (Convo (Option α))} {sock : Socket σ ε} (hd : OnLine (talkLine _) sock p true)
    (act : Caller → Op → S → Ans × S) (checks : Bool) (os : Os) (addr : Op → Nat)
    (haddr : ∀ op, addr op % 8 = 0) (server : FuseServer) (newer : List Bytes) (init : Bytes)
    (hnewer : ∀ m ∈ newer, m.length ≤ 8192 ∧ IsFuseInit m ∧ u32At m 40 ≠ 7)
    (hinit : init.length ≤ 8192 ∧ IsFuseInit init ∧ u32At init 40 = 7 ∧ 12 ≤ u32At init 44) (inv : S → Prop)
    (hinv : ∀ ext, Keeps act ext inv) (body : Bytes → Talk α)
    (hbody : ∀ reply layout, (body reply).Only (¬ Vicious layout ·)) (s : S) (hs : inv s) (d : σ)
    (hp : p.client d = ([], fun _ => Client.handshake init body newer)) :
    ∃ conn reply w, server.Connects (sock.beside (Option S)) (some s, d) (.ok conn, w) ∧
      ∀ buf : Bytes, ∃ r s' out d', Held act conn.layout buf.length (body reply) s r s' ∧ inv s' ∧
        FuseServes (sock.beside (Option S)) ((⟨act, conn.layout, checks, os, addr⟩ : RpcServer S).guards
          (sock.beside (Option S))) buf w (out, (some s', d')) ∧
        match r with
        | some a => out = .ok () ∧ (p.client d').2 (p.client d').1 = .done (some a)
        | none => ∃ e, out = .err e := by
  obtain ⟨conn, reply, ⟨c, t⟩, h1, h2⟩ := C84_mount_partial act checks os addr haddr server newer init hnewer hinit inv hinv
    body hbody s hs
  rw [← hp] at h1
  obtain ⟨o, d1, h3, h4, h5⟩ := (C87_connect hd server (some s) d).2 _ _ _ h1
  cases o <;> try exact h5.elim
  cases h5
  refine ⟨conn, reply, (c, d1), h3, fun buf => ?_⟩
  obtain ⟨r, s', out, heard, k, h6, h7, h8, h9⟩ := h2 buf
  rw [← h4] at h8
  obtain ⟨o, d2, h10, h11, h12⟩ := (C87_serve hd
    (fun hm => guards_mirror hm ⟨act, conn.layout, checks, os, addr⟩) buf c d1).2 _ _ _ h8
  refine ⟨r, s', o, d2, h6, h7, h10, ?_⟩
  cases r with
  | some a =>
    obtain ⟨rfl, h9⟩ := h9
    cases o <;> try exact h12.elim
    exact ⟨rfl, by rw [h11]; exact h9⟩
  | none =>
    obtain ⟨e, rfl⟩ := h9
    cases o <;> try exact h12.elim
    exact ⟨_, rfl⟩

/-- C87: any device is served as it is, system call by system call (compare C80_session_partial, also for what POLL requests
must be like). -/
theorem C87_device_partial {S : Type} {p : Peer σ (Convo (Option α))} {sock : Socket σ ε} {eof : Bool} (hd : OnLine (talkLine _) sock p eof)
    (act : Caller → DevOp → S → Ans × S) (server : CuseServer)
    (hname : server.deviceName.bytes.length + 97 < 2 ^ 32) (ids : Nat → UInt64) (hids : ∀ n, ids n ≠ 0)
    (newer : List Bytes) (init : Bytes) (hnewer : ∀ m ∈ newer, m.length ≤ 8192 ∧ IsCuseInit m ∧ u32At m 40 ≠ 7)
    (hinit : init.length ≤ 8192 ∧ IsCuseInit init ∧ u32At init 40 = 7 ∧ 9 ≤ u32At init 44) (use : DevUse α) (s : S)
    (hv : use.Valid act (max (server.maxWrite.toNat + 4096) 8192) s) (hn : use.PollsNode) (d : σ)
    (hp : p.client d = ([], fun _ => use.session ids init newer)) :
    ∃ conn w, server.Connects (sock.beside (Option S)) (some s, d) (.ok conn, w) ∧
      ∀ buf : Bytes, conn.recvBufLen ≤ buf.length →
        ∃ e d', CuseServes (sock.beside (Option S)) ((⟨act, conn.layout⟩ : DevServer S).handlers (sock.beside (Option S))) buf w
            (.err (.recv e), (some (use.run act s).2, d')) ∧
          (p.client d').2 (p.client d').1 = .done (some (use.run act s).1) := by
  obtain ⟨conn, ⟨c, t⟩, h1, h2⟩ := C80_session_partial act server hname ids hids newer init hnewer hinit use s hv hn
  rw [← hp] at h1
  obtain ⟨o, d1, h3, h4, h5⟩ := (C87_cuse_connect hd server (some s) d).2 _ _ _ h1
  cases o <;> try exact h5.elim
  cases h5
  refine ⟨conn, (c, d1), h3, fun buf hb => ?_⟩
  obtain ⟨heard, k, h6, h7⟩ := h2 buf hb
  rw [← h4] at h6
  obtain ⟨o, d2, h8, h9, h10⟩ := (C87_cuse_serve hd (fun hm => dev_handlers_mirror hm ⟨act, conn.layout⟩) buf c d1).2 _ _ _ h6
  cases o <;> try exact h10.elim
  rename_i e
  cases e <;> try exact h10.elim
  exact ⟨_, d2, h8, by rw [h9]; exact h7⟩

/-- C87: a client of a device that sends anything brings about only what it asks for, system call by system call (compare
C85_session). -/
theorem C87_device_confined {S : Type} {p : Peer σ (Convo (Option α))} {sock : Socket σ ε} {eof : Bool} (hd : OnLine (talkLine _) sock p eof)
    (act : Caller → DevOp → S → Ans × S) (server : CuseServer)
    (hname : server.deviceName.bytes.length + 97 < 2 ^ 32) (newer : List Bytes) (init : Bytes)
    (hnewer : ∀ m ∈ newer, m.length ≤ 8192 ∧ IsCuseInit m ∧ u32At m 40 ≠ 7)
    (hinit : init.length ≤ 8192 ∧ IsCuseInit init ∧ u32At init 40 = 7 ∧ 9 ≤ u32At init 44) (inv : S → Prop)
    (hinv : DevKeeps act inv) (body : Bytes → Talk α) (s : S) (hs : inv s) (d : σ)
    (hp : p.client d = ([], fun _ => Client.handshake init body newer)) :
    ∃ conn reply w, server.Connects (sock.beside (Option S)) (some s, d) (.ok conn, w) ∧
      ∀ buf : Bytes, ∃ r s' e d', DevHeld act conn.layout buf.length (body reply) s r s' ∧ inv s' ∧
        CuseServes (sock.beside (Option S)) ((⟨act, conn.layout⟩ : DevServer S).guards (sock.beside (Option S))) buf w
          (.err e, (some s', d')) ∧
        ∀ a, r = some a → (∃ e', e = .recv e') ∧ (p.client d').2 (p.client d').1 = .done (some a) := by
  obtain ⟨conn, reply, ⟨c, t⟩, h1, h2⟩ := C85_session act server hname newer init hnewer hinit inv hinv body s hs
  rw [← hp] at h1
  obtain ⟨o, d1, h3, h4, h5⟩ := (C87_cuse_connect hd server (some s) d).2 _ _ _ h1
  cases o <;> try exact h5.elim
  cases h5
  refine ⟨conn, reply, (c, d1), h3, fun buf => ?_⟩
  obtain ⟨r, s', e, heard, k, h6, h7, h8, h9⟩ := h2 buf
  rw [← h4] at h8
  obtain ⟨o, d2, h10, h11, h12⟩ := (C87_cuse_serve hd (fun hm => dev_guards_mirror hm ⟨act, conn.layout⟩) buf c d1).2 _ _ _ h8
  cases o <;> try exact h12.elim
  rename_i e2
  refine ⟨r, s', e2, d2, h6, h7, h10, fun a ha => ?_⟩
  obtain ⟨rfl, h13⟩ := h9 a ha
  cases e2 <;> try exact h12.elim
  exact ⟨⟨_, rfl⟩, by rw [h11]; exact h13⟩

/-! ### Example: a device with a client, whose next calls are interrupted, or not, as a list of bits says -/

namespace Transport

structure Chatty (α : Type) where
  client : Convo α
  /-- For each call: whether it is interrupted.  Afterwards none is. -/
  noise : List Bool

def peer (α : Type) : Peer (Chatty α) (Convo α) := ⟨Chatty.client, fun d => d.noise.count true⟩

def sys (α : Type) : Sys (Chatty α) where
  read := fun _ len d =>
    match d.noise with
    | true :: noise => ((.error ENOENT, []), ⟨d.client, noise⟩)
    | noise =>
      match d.client.2 d.client.1 with
      | .done _ => ((.error ENODEV, []), ⟨d.client, noise.tail⟩)
      | .say m k =>
        if m.length ≤ len then ((.ok m.length, m), ⟨([], k), noise.tail⟩)
        else ((.error EINVAL, []), ⟨d.client, noise.tail⟩)
  read_fits := by intro _ len d; split; simp; split; simp; split <;> simp; assumption
  read_count := by
    intro _ len d n h
    split at h
    · cases h
    · split at h
      · cases h
      · split at h
        · cases h; assumption
        · cases h
  writev := fun _ iov d =>
    match d.noise with
    | true :: noise => (.error EINTR, ⟨d.client, noise⟩)
    | noise => (.ok iov.flatten.length, ⟨(d.client.1 ++ [iov.flatten], d.client.2), noise.tail⟩)
  openat2 := fun _ _ _ d => (.error ENOSYS, d)
  openat2_fd := by intro _ _ _ _ _ h; cases h
  openat := fun _ _ _ d => (.ok 3, d)
  openat_fd := by intro _ _ _ _ _ h; cases h; decide
  close := fun _ d => (.ok (), d)
  statx := fun _ d => (.ok 0o40755, d)
  getuid := fun d => (1000, d)
  getgid := fun d => (1000, d)
  mount := fun _ _ _ _ _ d => (.ok (), d)
  nmount := fun _ _ d => (.ok (), d)

/-- Without an interruption the client's message is read. -/
theorem calm (α : Type) (fd : Int32) (len : Nat) (client : Convo α) (noise : List Bool)
    (hn : noise.head? ≠ some true) :
    match client.2 client.1 with
    | .done _ => (sys α).read fd len ⟨client, noise⟩ = ((.error ENODEV, []), ⟨client, noise.tail⟩)
    | .say m k =>
      if m.length ≤ len then (sys α).read fd len ⟨client, noise⟩ = ((.ok m.length, m), ⟨([], k), noise.tail⟩)
      else (sys α).read fd len ⟨client, noise⟩ = ((.error EINVAL, []), ⟨client, noise.tail⟩) := by
  obtain ⟨heard, k⟩ := client
  rcases noise with _ | ⟨_ | _, noise⟩
  · dsimp only [sys]
    cases k heard with
    | done a => rfl
    | say m k => dsimp only; split <;> rfl
  · dsimp only [sys]
    cases k heard with
    | done a => rfl
    | say m k => dsimp only; split <;> rfl
  · exact absurd rfl hn

theorem device (α : Type) (fd : Int32) : LineDevice (talkLine α) (sys α) fd (peer α) := by
  constructor
  · intro len d h
    obtain ⟨client, noise⟩ := d
    by_cases hn : noise.head? = some true
    · rcases noise with _ | ⟨_ | _, noise⟩
      · cases hn
      · cases hn
      · exact ⟨rfl, by simp [sys, peer]⟩
    · have hc := calm α fd len client noise hn
      split at hc
      · rw [hc] at h
        rcases h with h | h <;> injection h <;> contradiction
      · split at hc <;> rw [hc] at h <;> rcases h with h | h <;> injection h <;> contradiction
  · intro len d
    obtain ⟨client, noise⟩ := d
    by_cases hn : noise.head? = some true
    · rcases noise with _ | ⟨_ | _, noise⟩
      · cases hn
      · cases hn
      · exact .inl (.inl rfl)
    · refine .inr ?_
      have hc := calm α fd len client noise hn
      dsimp only [peer, talkLine]
      generalize client.2 client.1 = talk at hc ⊢
      cases talk with
      | done a => dsimp only at hc ⊢; rw [hc]; exact ⟨rfl, rfl, noisy_tail noise⟩
      | say m k =>
        dsimp only at hc ⊢
        by_cases hm : m.length ≤ len
        · rw [if_pos hm] at hc ⊢
          rw [hc]; exact ⟨rfl, rfl, noisy_tail noise⟩
        · rw [if_neg hm] at hc ⊢
          rw [hc]; exact ⟨rfl, rfl, noisy_tail noise⟩
  · intro iov d h
    obtain ⟨client, noise⟩ := d
    rcases noise with _ | ⟨_ | _, noise⟩
    · cases h
    · cases h
    · exact ⟨rfl, by simp [sys, peer]⟩
  · intro iov d
    obtain ⟨client, noise⟩ := d
    rcases noise with _ | ⟨_ | _, noise⟩
    · exact .inr ⟨rfl, rfl, Nat.le_refl _⟩
    · exact .inr ⟨rfl, rfl, noisy_tail (false :: noise)⟩
    · exact .inl rfl

/-- C87_mount: a program that uses a filesystem of files in memory, through `fuse-linux`, with 5 interruptions. -/
example : ∃ (sock : Socket (Chatty (Option _)) Errno) (conn : FuseConnection) (w : Option Rpc.Store × _),
    OnLinux (sys (Option _)) ⟨3, true⟩ sock ∧
    (({} : FuseServer).maxWrite 65536).Connects (sock.beside (Option Rpc.Store))
      (some ⟨0, []⟩, ⟨([], fun _ => Rpc.program.session (fun _ => 7) (initMessage 4 7 34 [65536, 0])
        [initMessage 2 8 0 [65536, 0]]), [true, true, false, true, false, false, true, true]⟩) (.ok conn, w) ∧
    ∀ buf : Bytes, conn.recvBufLen ≤ buf.length → ∃ d', FuseServes (sock.beside (Option Rpc.Store))
        ((⟨Rpc.Store.act, conn.layout, true, .linux, fun _ => 0x1000⟩ : RpcServer Rpc.Store).handlers
          (sock.beside (Option Rpc.Store))) buf w (.ok (), (some (Rpc.program.run Rpc.Store.act ⟨0, []⟩).2, d')) ∧
      d'.client.2 d'.client.1 = .done (some (Rpc.program.run Rpc.Store.act ⟨0, []⟩).1) := by
  obtain ⟨sock, hs⟩ := linux_talk_socket (s := ⟨3, true⟩) (device (Option _) 3)
  obtain ⟨conn, w, h⟩ := C87_mount (.linux (s := ⟨3, true⟩) (device (Option _) 3) hs) Rpc.Store.act true .linux
    (fun _ => 0x1000) (fun _ => (by decide : 0x1000 % 8 = 0)) (({} : FuseServer).maxWrite 65536) (fun _ => 7)
    (fun _ => show (7 : UInt64) ≠ 0 by decide) [initMessage 2 8 0 [65536, 0]] (initMessage 4 7 34 [65536, 0]) (by decide)
    (by decide) Rpc.program ⟨0, []⟩
    (fun ext => Use.Valid.mono (n := 8192) (Nat.le_max_right ..) Rpc.program (by cases ext <;> decide +kernel))
    ⟨([], fun _ => _), [true, true, false, true, false, false, true, true]⟩ rfl
  exact ⟨sock, conn, w, hs, h⟩

/-- C87_device_partial: a program that uses a queue, through `fuse-libc`, with 5 interruptions. -/
example : ∃ (sock : Socket (Libc.Thread (Chatty (Option _))) Libc.LibcError) (conn : CuseConnection) (w : Option Bytes × _),
    OnLibc (sys (Option _)) ⟨3, false⟩ sock ∧
    CuseServer.Connects ⟨⟨[0x71]⟩, ⟨1, 2⟩, 0, 0, 65536⟩ (sock.beside (Option Bytes))
      (some [], ⟨⟨([], fun _ => Dev.program.session (fun _ => 7) (cuseInitMessage 4 7 40) [cuseInitMessage 2 8 0]),
        [true, true, false, true, false, false, true, true]⟩, 0⟩) (.ok conn, w) ∧
    ∀ buf : Bytes, conn.recvBufLen ≤ buf.length → ∃ e d', CuseServes (sock.beside (Option Bytes))
        ((⟨Dev.queue, conn.layout⟩ : DevServer Bytes).handlers (sock.beside (Option Bytes))) buf w
          (.err (.recv e), (some (Dev.program.run Dev.queue []).2, d')) ∧
      d'.sys.client.2 d'.sys.client.1 = .done (some (Dev.program.run Dev.queue []).1) := by
  obtain ⟨sock, hs⟩ := libc_talk_socket (s := ⟨3, false⟩) (device (Option _) 3)
  obtain ⟨conn, w, h⟩ := C87_device_partial (.libc (s := ⟨3, false⟩) (device (Option _) 3) hs) Dev.queue
    ⟨⟨[0x71]⟩, ⟨1, 2⟩, 0, 0, 65536⟩ (by show 1 + 97 < 2 ^ 32; omega) (fun _ => 7)
    (fun _ => show (7 : UInt64) ≠ 0 by decide) [cuseInitMessage 2 8 0] (cuseInitMessage 4 7 40) (by decide) (by decide)
    Dev.program [] (DevUse.Valid.mono (n := 8192) (Nat.le_max_right ..) Dev.program (by decide +kernel)) Dev.program_polls
    ⟨⟨([], fun _ => _), [true, true, false, true, false, false, true, true]⟩, 0⟩ rfl
  exact ⟨sock, conn, w, hs, h⟩

/-- C87_confined_partial: a client that sends all sorts of things, through `fuse-libc`, with 3 interruptions. -/
example : ∃ (sock : Socket (Libc.Thread (Chatty (Option _))) Libc.LibcError) (conn : FuseConnection) (w : Option (List _) × _),
    OnLibc (sys (Option _)) ⟨3, true⟩ sock ∧
    ({} : FuseServer).Connects (sock.beside _)
      (some [], ⟨⟨([], fun _ => Client.handshake (initMessage 4 7 34 [65536, 0]) (fun _ => Hostile.sends Hostile.messages [])
        []), [false, true, true, true]⟩, 0⟩) (.ok conn, w) ∧
    ∀ buf : Bytes, ∃ r s' out d', Held Hostile.note conn.layout buf.length (Hostile.sends Hostile.messages []) [] r s' ∧
      FuseServes (sock.beside _) ((⟨Hostile.note, conn.layout, true, .linux, fun _ => 0x1000⟩ : RpcServer _).guards
        (sock.beside _)) buf w (out, (some s', d')) := by
  have hm : ∀ m ∈ Hostile.messages, ¬ (u32At m 4 = 42 ∧ 2 ^ 28 ≤ u32At m 40) ∧ u32At m 4 ≠ 21 := by decide +kernel
  obtain ⟨sock, hs⟩ := libc_talk_socket (s := ⟨3, true⟩) (device (Option (List (List Bytes))) 3)
  obtain ⟨conn, reply, w, h1, h2⟩ := C87_confined_partial (.libc (s := ⟨3, true⟩) (device (Option _) 3) hs) Hostile.note true
    .linux (fun _ => 0x1000) (fun _ => (by decide : 0x1000 % 8 = 0)) ({} : FuseServer) [] (initMessage 4 7 34 [65536, 0])
    nofun (by decide) (fun _ => True) (fun _ _ _ _ _ _ => ⟨Hostile.note_allowed _, trivial⟩)
    (fun _ => Hostile.sends Hostile.messages [])
    (fun _ _ => Hostile.sends_only (fun m h => fun
      | .inl hv => (hm m h).1 hv
      | .inr hv => (hm m h).2 hv.1) []) [] trivial
    ⟨⟨([], fun _ => _), [false, true, true, true]⟩, 0⟩ rfl
  refine ⟨sock, conn, w, hs, h1, fun buf => ?_⟩
  obtain ⟨r, s', out, d', h3, -, h4, -⟩ := h2 buf
  exact ⟨r, s', out, d', h3, h4⟩

/-- C87_device_confined: the same for a device, through `fuse-linux`. -/
example : ∃ (sock : Socket (Chatty (Option _)) Errno) (conn : CuseConnection) (w : Option (List _) × _),
    OnLinux (sys (Option _)) ⟨3, false⟩ sock ∧
    CuseServer.Connects ⟨⟨[0x71]⟩, ⟨1, 2⟩, 0, 0, 65536⟩ (sock.beside _)
      (some [], ⟨([], fun _ => Client.handshake (cuseInitMessage 4 7 40) (fun _ => Hostile.sends HostileDev.messages [])
        [cuseInitMessage 2 8 0]), [false, true, true, true]⟩) (.ok conn, w) ∧
    ∀ buf : Bytes, ∃ r s' e d', DevHeld HostileDev.note conn.layout buf.length (Hostile.sends HostileDev.messages []) [] r s' ∧
      HostileDev.Clean s' ∧ CuseServes (sock.beside _) ((⟨HostileDev.note, conn.layout⟩ : DevServer _).guards (sock.beside _))
        buf w (.err e, (some s', d')) := by
  obtain ⟨sock, hs⟩ := linux_talk_socket (s := ⟨3, false⟩) (device (Option (List (List Bytes))) 3)
  obtain ⟨conn, reply, w, h1, h2⟩ := C87_device_confined (.linux (s := ⟨3, false⟩) (device (Option _) 3) hs) HostileDev.note
    ⟨⟨[0x71]⟩, ⟨1, 2⟩, 0, 0, 65536⟩ (by show 1 + 97 < 2 ^ 32; omega) [cuseInitMessage 2 8 0] (cuseInitMessage 4 7 40)
    (by decide) (by decide) HostileDev.Clean HostileDev.note_keeps (fun _ => Hostile.sends HostileDev.messages []) []
    (fun _ h => nomatch h) ⟨([], fun _ => _), [false, true, true, true]⟩ rfl
  refine ⟨sock, conn, w, hs, h1, fun buf => ?_⟩
  obtain ⟨r, s', e, d', h3, h4, h5, -⟩ := h2 buf
  exact ⟨r, s', e, d', h3, h4, h5⟩

end Transport

end Fuse
