import Verif.PropRpc
import Verif.Dev

/-!
# C80: any character device is served as it is

A device is a function here: what it answers to an operation, and what becomes of its state.  A program that uses it through
messages, on a connection served by `cuse_serve_local`, is to see what it would have seen calling the function, and to leave
the state it would have left.  That fails for POLL, as Linux sends it: the request does not decode if the node ID in its
header is 0.  It holds for all other requests, with any node ID, and for POLL with any other node ID.
-/

namespace Fuse
open Spec

/-- The protocol can express the operation: WRITE has a lock owner if bit 1 of its flags is set. -/
def Spec.DevOp.Ok : DevOp → Prop
  | .write _ _ _ flags owner _ => owner.isSome = true ↔ flags &&& 2 ≠ 0
  | _ => True

/-- A program that only asks what the protocol can express, in requests of at most `n` bytes, of a device that answers what
the protocol can express. -/
def Spec.DevUse.Valid {α S : Type} (act : Caller → DevOp → S → Ans × S) (n : Nat) : DevUse α → S → Prop
  | .done _, _ => True
  | .call who _ op k, s =>
    op.Ok ∧ 40 + op.request.body.length ≤ min n 0xFFFFFFFF ∧ op.kind.Allows (act who op s).1 ∧
      (k (act who op s).1).Valid act n (act who op s).2

/-- No POLL is sent with node ID 0. -/
def Spec.DevUse.PollsNode {α : Type} : DevUse α → Prop
  | .done _ => True
  | .call _ node op k => (∀ handle events flags, op = .poll handle events flags → node ≠ 0) ∧ ∀ a, (k a).PollsNode

theorem Spec.DevUse.Valid.mono {α S : Type} {act : Caller → DevOp → S → Ans × S} {n n' : Nat} (hn : n ≤ n')
    (use : DevUse α) : ∀ {s : S}, use.Valid act n s → use.Valid act n' s := by
  induction use with
  | done a => exact fun _ => trivial
  | call who node op k ih => exact fun ⟨h1, h2, h3, h4⟩ => ⟨h1, by omega, h3, ih _ h4⟩

/-! ## Requests -/

/-- The operation is taken from the request that was made for it. -/
theorem dev_op_of_matches {op : DevOp} {node : UInt64} {cuse : Bool} {q : AnyRequest} (hv : op.Ok)
    (h : op.request.Matches node cuse q) : q.devOp = .ok (some op) := by
  have ho (o : Option UInt64) := selected_flag (o := o) 0 (show (2 : UInt32) ≠ 0 by decide) (flagIf_and_self _ _)
  cases op with
  | flush fh owner =>
    cases q <;> try exact h.elim
    obtain ⟨h1, h2, h3⟩ := h
    simp only [AnyRequest.devOp, h2, h3, pure, Except.pure]
  | fsync fh flags =>
    cases q <;> try exact h.elim
    obtain ⟨h1, h2, h3⟩ := h
    simp only [AnyRequest.devOp, h2, h3, pure, Except.pure]
  | interrupt id =>
    cases q <;> try exact h.elim
    obtain ⟨u, h1, h2⟩ := h
    simp only [AnyRequest.devOp, h1, show u = id from Subtype.ext h2, bind, Except.bind, pure, Except.pure]
  | ioctl fh cmd arg flags input outSize =>
    cases q <;> try exact h.elim
    obtain ⟨h1, h2, h3, h4, h5, h6, h7, h8⟩ := h
    simp only [AnyRequest.devOp, h2, h3, h4, h6, h7, h8, pure, Except.pure]
  | open_ openFlags flags =>
    cases q <;> try exact h.elim
    obtain ⟨h1, h2, h3⟩ := h
    simp only [AnyRequest.devOp, h2, h3, pure, Except.pure]
  | poll handle events flags =>
    cases q <;> try exact h.elim
    obtain ⟨h1, h2, h3, h4⟩ := h
    simp only [AnyRequest.devOp, h2, h3, h4, pure, Except.pure]
  | read fh offset size owner openFlags =>
    cases q <;> try exact h.elim
    obtain ⟨h1, h2, h3, h4, h5, h6⟩ := h
    simp only [AnyRequest.devOp, h2, h3, h4, h5, h6, ho, bind, Except.bind, pure, Except.pure]
  | release fh openFlags owner =>
    cases q <;> try exact h.elim
    obtain ⟨h1, h2, h3, h4⟩ := h
    simp only [AnyRequest.devOp, h2, h3, h4, ho, bind, Except.bind, pure, Except.pure]
  | write fh offset data flags owner openFlags =>
    cases q <;> try exact h.elim
    obtain ⟨⟨n, h0, h1⟩, h2, h3, h4, h5, h6, h7⟩ := h
    have ho : selected flags 2 (owner.getD 0) = owner := by
      unfold selected
      cases owner with
      | none => exact if_pos (Decidable.byContradiction fun e => absurd (hv.mpr e) (by decide))
      | some x => exact if_neg (hv.mp rfl)
    simp only [AnyRequest.devOp, h2, h3, h4, h5, h6, h7, ho, bind, Except.bind, pure, Except.pure]

/-- What is to be known about a request for it to be decoded. -/
structure DevReaches (layout : CuseLayout) (node : UInt64) (a : ClientReq) (m : CuseMethod) : Prop where
  method : cuseMethodAt a.opcode = some m
  has : a.HasType (m.reqType layout)
  wf : a.WellFormed node (m.reqType layout).isCuse
  shift : a.ShiftFree
  new : ¬ a.IsOldWrite

/-- The request for an operation reaches its handler. -/
theorem dev_request_reaches {layout : CuseLayout} (h9 : 9 ≤ layout.versionMinor) {op : DevOp} {node : UInt64}
    (hp : ∀ handle events flags, op = .poll handle events flags → node ≠ 0) (hl : 40 + op.request.body.length < 2 ^ 32) :
    ∃ m, DevReaches layout node op.request m := by
  have m9 : 9 ≤ layout.versionMinor.toUInt32 := by
    rw [UInt32.le_iff_toNat_le, UInt16.toNat_toUInt32]
    exact UInt16.le_iff_toNat_le.mp h9
  have m8 : 8 ≤ layout.versionMinor.toUInt32 := UInt32.le_trans (by decide) m9
  have len {b : Bytes} (h : b.length < 2 ^ 32) : (UInt32.ofNat b.length).toNat = b.length := by
    rw [UInt32.toNat_ofNat']; omega
  cases op with
  | flush fh owner => exact ⟨_, rfl, trivial, .inl rfl, trivial, fun h => h⟩
  | fsync fh flags => exact ⟨_, rfl, trivial, .inl rfl, trivial, fun h => h⟩
  | interrupt id => exact ⟨_, rfl, trivial, id.2, trivial, fun h => h⟩
  | ioctl fh cmd arg flags input outSize =>
    refine ⟨_, rfl, trivial, ⟨.inl rfl, len ?_⟩, trivial, fun h => h⟩
    have hl : 40 + (layout_fuse_ioctl_in _ ++ input).length < 2 ^ 32 := hl
    simp only [List.length_append] at hl
    omega
  | open_ openFlags flags => exact ⟨_, rfl, trivial, .inl rfl, trivial, fun h => h⟩
  | poll handle events flags => exact ⟨_, rfl, trivial, hp _ _ _ rfl, trivial, fun h => h⟩
  | read fh offset size owner openFlags => exact ⟨_, rfl, m9, .inl rfl, trivial, fun h => h⟩
  | release fh openFlags owner => exact ⟨_, rfl, m8, .inl rfl, trivial, fun h => h⟩
  | write fh offset data flags owner openFlags =>
    refine ⟨_, rfl, m9, ⟨.inl rfl, len ?_⟩, trivial, fun h => h⟩
    have hl : 40 + (layout_fuse_write_in _ ++ data).length < 2 ^ 32 := hl
    simp only [List.length_append] at hl
    omega

/-! ## Replies -/

/-- What is made of an answer is read as that answer. -/
theorem dev_reply_read {op : DevOp} {a : Ans} (h : op.kind.Allows a) (hs : a ≠ .silent) (he : ∀ e, a ≠ .error e) :
    ∃ r, a.deviceReply = .ok (some r) ∧ r.error = 0 ∧ 16 + r.payload.length < 2 ^ 32 ∧ op.kind.read r.payload = some a := by
  have same (op' : Op) (h : op'.kind.Allows a) := reply_read (os := .linux) (addr := 0) (m := 36) rfl (by decide) h hs he
  cases op with
  | flush fh owner =>
    obtain ⟨r, e1, e2, e3, e4⟩ := same (.flush NodeId.root fh owner) h
    cases a <;> first | exact h.elim | exact absurd rfl (he _) | (cases e1; exact ⟨_, rfl, rfl, e3, e4⟩)
  | fsync fh flags =>
    obtain ⟨r, e1, e2, e3, e4⟩ := same (.fsync NodeId.root fh flags) h
    cases a <;> first | exact h.elim | exact absurd rfl (he _) | (cases e1; exact ⟨_, rfl, rfl, e3, e4⟩)
  | interrupt id => exact absurd h hs
  | ioctl fh cmd arg flags input outSize =>
    obtain ⟨r, e1, e2, e3, e4⟩ := same (.ioctl NodeId.root fh cmd arg flags input outSize) h
    cases a <;> first | exact h.elim | exact absurd rfl (he _) | (cases e1; exact ⟨_, rfl, rfl, e3, e4⟩)
  | open_ openFlags flags =>
    obtain ⟨r, e1, e2, e3, e4⟩ := same (.open_ NodeId.root openFlags flags) h
    cases a <;> first | exact h.elim | exact absurd rfl (he _) | (cases e1; exact ⟨_, rfl, rfl, e3, e4⟩)
  | poll handle events flags =>
    obtain ⟨r, e1, e2, e3, e4⟩ := same (.poll NodeId.root handle events flags) h
    cases a <;> first | exact h.elim | exact absurd rfl (he _) | (cases e1; exact ⟨_, rfl, rfl, e3, e4⟩)
  | read fh offset size owner openFlags =>
    obtain ⟨r, e1, e2, e3, e4⟩ := same (.read NodeId.root fh offset size owner openFlags) h
    cases a <;> first | exact h.elim | exact absurd rfl (he _) | (cases e1; exact ⟨_, rfl, rfl, e3, e4⟩)
  | release fh openFlags owner =>
    obtain ⟨r, e1, e2, e3, e4⟩ := same (.release NodeId.root fh openFlags owner) h
    cases a <;> first | exact h.elim | exact absurd rfl (he _) | (cases e1; exact ⟨_, rfl, rfl, e3, e4⟩)
  | write fh offset data flags owner openFlags =>
    obtain ⟨r, e1, e2, e3, e4⟩ := same (.write NodeId.root fh offset data flags owner openFlags) h
    cases a <;> first | exact h.elim | exact absurd rfl (he _) | (cases e1; exact ⟨_, rfl, rfl, e3, e4⟩)

/-! ## Serving -/

section
variable {S α : Type} (srv : DevServer S)

theorem dev_answer_eq {ω ε : Type} {sock : Socket (Option S × ω) ε} {t : ReqType} {r : Request} {s s' : S} {w : ω}
    {id : NonZeroU64} {hdr : FuseInHeader} {q : AnyRequest} {op : DevOp} {a : Ans}
    (h1 : Filesystem.idAndHeader r = .ok (id, hdr)) (h2 : r.decode (decodeAny t) = .ok q) (h3 : q.devOp = .ok (some op))
    (h4 : srv.act ⟨hdr.uid, hdr.gid, hdr.pid⟩ op s = (a, s')) :
    srv.answer sock t r s w = match a.deviceReply with
      | .ok (some a) =>
        match a.run (.new sock srv.layout id) (some s', w) with
        | (.ok (), w) => w
        | (.error _, w) => (none, w.2)
      | .ok none => (some s', w)
      | .error _ => (none, w) := by
  obtain ⟨act, layout⟩ := srv
  have h4 : act ⟨hdr.uid, hdr.gid, hdr.pid⟩ op s = (a, s') := h4
  unfold DevServer.answer
  rw [h1, h2]
  dsimp only
  rw [h3]
  dsimp only
  rw [h4]
  dsimp only
  rcases a.deviceReply with f | _ | a
  · rfl
  · rfl
  · dsimp only
    rcases a.run (.new sock layout id) (some s', w) with ⟨_ | _, _⟩ <;> rfl

/-- An answer is sent as a reply that is read as that answer, or is not sent if there is to be none. -/
theorem dev_reply_runs {ω ε : Type} (sock : Socket (Option S × ω) ε) (put : Bytes → ω → ω)
    (hput : ∀ {b : SendBuf} {msg : Bytes}, Carries b msg → ∀ w, sock.send b w = (.ok (), (w.1, put msg w.2)))
    {layout : CuseLayout} {id : NonZeroU64} {op : DevOp} {a : Ans} (ha : op.kind.Allows a) {s' : S} {w : ω} :
    ∃ out : List Bytes,
      (match a.deviceReply with
        | .ok (some a) =>
          match a.run (.new sock layout id) (some s', w) with
          | (.ok (), w) => w
          | (.error _, w) => (none, w.2)
        | .ok none => (some s', w)
        | .error _ => (none, w)) = (some s', out.foldl (fun w m => put m w) w) ∧
        op.kind.hear id.val out = a ∧
        ((op.kind = .silent ∧ out = []) ∨ (op.kind ≠ .silent ∧ ∃ m, out = [m] ∧ u64At m 8 = id.val.toNat)) := by
  by_cases hs : a = .silent
  · subst hs
    have hk : op.kind = .silent := by
      generalize op.kind = kd at ha
      cases kd <;> first | rfl | exact ha.elim
    refine ⟨[], rfl, ?_, .inl ⟨hk, rfl⟩⟩
    rw [hk]
    rfl
  · have hk : op.kind ≠ .silent := by
      intro h
      rw [h] at ha
      exact hs ha
    by_cases he : ∃ e, a = .error e
    · obtain ⟨e, rfl⟩ := he
      obtain ⟨b, hb, hrun⟩ := C17_cuse sock layout id (.err e) (some s', w) (show 16 + 0 < 2 ^ 32 by decide)
      refine ⟨[frame id.val e.val []], ?_, hear_error e hk, .inr ⟨hk, _, rfl, (C17_frame id.val e.val [] (by decide)).2.2.1⟩⟩
      show (match (CuseAnswer.err e).run (.new sock layout id) (some s', w) with
        | (.ok (), w) => w
        | (.error _, w) => (none, w.2)) = _
      rw [hrun, hput hb]
      rfl
    · obtain ⟨r, r1, r2, r3, r4⟩ := dev_reply_read ha hs (fun e h => he ⟨e, h⟩)
      obtain ⟨b, hb, hrun⟩ := C17_cuse sock layout id r (some s', w) r3
      refine ⟨[frame id.val 0 r.payload], ?_, hear_ok r3 r4, .inr ⟨hk, _, rfl, (C17_frame id.val 0 _ r3).2.2.1⟩⟩
      rw [r1]
      dsimp only
      rw [hrun, hput hb, r2]
      rfl

/-- Handling one request, with any socket that takes messages. -/
theorem dev_handles {ω ε : Type} (sock : Socket (Option S × ω) ε) (put : Bytes → ω → ω)
    (hput : ∀ {b : SendBuf} {msg : Bytes}, Carries b msg → ∀ w, sock.send b w = (.ok (), (w.1, put msg w.2)))
    (h9 : 9 ≤ srv.layout.versionMinor) {u node : UInt64} (hu : u ≠ 0) {who : Caller} {op : DevOp} {s : S} (hok : op.Ok)
    (hp : ∀ handle events flags, op = .poll handle events flags → node ≠ 0) (hl : 40 + op.request.body.length < 2 ^ 32)
    (ha : op.kind.Allows (srv.act who op s).1) {w : ω} {msg : Bytes}
    (hmsg : op.request.message u node who.uid who.gid who.pid 0 = msg) :
    Acceptable msg ∧ msg.length = 40 + op.request.body.length ∧
      ∃ out : List Bytes, cuseHandle (srv.handlers sock) msg (some s, w) =
          (some (srv.act who op s).2, out.foldl (fun w m => put m w) w) ∧
        op.kind.hear u out = (srv.act who op s).1 ∧
        ((op.kind = .silent ∧ out = []) ∨ (op.kind ≠ .silent ∧ ∃ m, out = [m] ∧ u64At m 8 = u.toNat)) := by
  obtain ⟨m, hm, h1, h2, h4, h5⟩ := dev_request_reaches h9 hp hl
  obtain ⟨q, hq, hmat⟩ := decode_own (a := op.request) (u := u) (node := node) (uid := who.uid) (gid := who.gid)
    (pid := who.pid) (f := id) (dm := decodeAny (m.reqType srv.layout)) h1 h2 h4 hu hl h5 (by simp)
  have hop := dev_op_of_matches hok hmat
  have hacc := message_acceptable (a := op.request) (unique := u) (nodeid := node) (uid := who.uid) (gid := who.gid)
    (pid := who.pid) (padding := 0) (tail := []) hu hl
  have hopc := message_opcode (a := op.request) (unique := u) (nodeid := node) (uid := who.uid) (gid := who.gid)
    (pid := who.pid) (padding := 0) (tail := [])
  obtain ⟨id, hdr, hid, hw, hh⟩ := message_caller (a := op.request) (node := node) (uid := who.uid) (gid := who.gid)
    (pid := who.pid) hu
  have hml := message_length (a := op.request) (unique := u) (nodeid := node) (uid := who.uid) (gid := who.gid)
    (pid := who.pid) (padding := 0)
  rw [List.append_nil] at hacc hopc
  rw [hmsg] at hq hacc hopc hml hh
  refine ⟨hacc, hml, ?_⟩
  have hhandle : cuseHandle (srv.handlers sock) msg (some s, w) = srv.answer sock (m.reqType srv.layout) ⟨msg⟩ s w := by
    unfold cuseHandle
    rw [hopc, hm]
    rfl
  rw [hhandle]
  have hop : (q : AnyRequest).devOp = .ok (some op) := hop
  have hact : srv.act ⟨hdr.uid, hdr.gid, hdr.pid⟩ op s = srv.act who op s := by rw [hw]
  rw [dev_answer_eq srv hh hq hop (a := (srv.act who op s).1) (s' := (srv.act who op s).2) hact, ← hid]
  exact dev_reply_runs sock put hput ha

/-- One request. -/
theorem dev_step (h9 : 9 ≤ srv.layout.versionMinor) {u node : UInt64} (hu : u ≠ 0) {who : Caller} {op : DevOp} {s : S}
    {buf : Bytes} (hok : op.Ok) (hp : ∀ handle events flags, op = .poll handle events flags → node ≠ 0)
    (hfit : 40 + op.request.body.length ≤ min buf.length 0xFFFFFFFF)
    (ha : op.kind.Allows (srv.act who op s).1) {heard : List Bytes} {k k' : List Bytes → Talk α}
    (hk : k heard = .say (op.request.message u node who.uid who.gid who.pid 0) k') :
    ∃ buf' out, buf'.length = buf.length ∧
      cuseServeStep (Wired.socket (Option S) α) (srv.handlers (Wired.socket (Option S) α)) (buf, (some s, heard, k)) =
        .inr (buf', (some (srv.act who op s).2, out, k')) ∧
      op.kind.hear u out = (srv.act who op s).1 := by
  obtain ⟨hacc, hml, out, e1, e2, e3⟩ := dev_handles srv (Wired.socket (Option S) α) (fun m w => (w.1 ++ [m], w.2))
    (fun hb w => mount_send hb w) h9 hu hok hp (by omega) ha (w := ([], k')) rfl
  generalize op.request.message u node who.uid who.gid who.pid 0 = msg at *
  have hr := mount_recv (content := some s) hk (show msg.length ≤ buf.length by omega)
  have htake : (msg ++ buf.drop msg.length).take msg.length = msg := List.take_left
  have hstep := cuse_serve_more (Wired.socket (Option S) α) (srv.handlers (Wired.socket (Option S) α)) hr
    (by rw [htake]; exact hacc)
  rw [htake, e1] at hstep
  refine ⟨msg ++ buf.drop msg.length, out, ?_, hstep.trans ?_, e2⟩
  · rw [List.length_append, List.length_drop]
    omega
  · rcases e3 with ⟨_, rfl⟩ | ⟨_, m, rfl, _⟩ <;> rfl

/-- A program, and what is made of its result. -/
theorem dev_serves (h9 : 9 ≤ srv.layout.versionMinor) {ids : Nat → UInt64} (hids : ∀ n, ids n ≠ 0) {β : Type} (g : α → β)
    (use : DevUse α) :
    ∀ (n : Nat) (s : S) (buf : Bytes), use.Valid srv.act buf.length s → use.PollsNode →
      ∀ (heard : List Bytes) (k : List Bytes → Talk β),
        k heard = (do let r ← use.talk ids n; return g r) →
        ∃ heard' k', CuseServes (Wired.socket (Option S) β) (srv.handlers (Wired.socket (Option S) β)) buf (some s, heard, k)
            (.err (.recv (.connectionClosed ())), (some (use.run srv.act s).2, heard', k')) ∧
          k' heard' = .done (g (use.run srv.act s).1) := by
  induction use with
  | done a =>
    intro n s buf _ _ heard k hk
    have hk : k heard = .done (g a) := hk
    refine ⟨heard, k, .of_step ?_, hk⟩
    have hr : (Wired.socket (Option S) β).recv buf (some s, heard, k) =
        ((.error (.connectionClosed ()), buf), (some s, heard, k)) := by
      show (match k heard with | .done _ => _ | .say m k => _) = _
      rw [hk]
    simp only [cuseServeStep, cuseRecv, hr]
    rfl
  | call who node op f ih =>
    intro n s buf hv hn heard k hk
    obtain ⟨h1, h2, h3, h4⟩ := hv
    obtain ⟨buf', out, e1, e2, e3⟩ := dev_step srv h9 (hids n) h1 hn.1 h2 h3 (α := β)
      (k' := fun out => do let r ← DevUse.talk ids (n + 1) (f (op.kind.hear (ids n) out)); return g r) (hk.trans rfl)
    obtain ⟨heard', k', e4, e5⟩ := ih (srv.act who op s).1 (n + 1) (srv.act who op s).2 buf' (by rw [e1]; exact h4) (hn.2 _)
      out (fun out => do let r ← DevUse.talk ids (n + 1) (f (op.kind.hear (ids n) out)); return g r) (by rw [e3])
    exact ⟨heard', k', .of_next e2 e4, e5⟩

theorem cuse_connects (server : CuseServer) (hname : server.deviceName.bytes.length + 97 < 2 ^ 32) (init : Bytes)
    (body : Bytes → Talk α)
    (hinit : init.length ≤ 8192 ∧ IsCuseInit init ∧ u32At init 40 = 7 ∧ 9 ≤ u32At init 44) (content : S)
    (newer : List Bytes) (hnewer : ∀ m ∈ newer, m.length ≤ 8192 ∧ IsCuseInit m ∧ u32At m 40 ≠ 7) :
    ∀ (buf : Bytes) (heard : List Bytes) (k : List Bytes → Talk (Option α)), buf.length = 8192 →
      k heard = Client.handshake init body newer →
      ∃ (conn : CuseConnection) (p q : Bytes) (k2 : List Bytes → Talk (Option α)),
        LoopReturns (cuseConnectStep (Wired.socket S _) server.deviceName server.deviceNumber server.initFn)
          (buf, (content, heard, k)) (.ok conn, (content, [p], k2)) ∧
        k2 [p] = (do let r ← body q; return some r) ∧
        conn.layout.versionMinor.toNat = min (u32At init 44) 36 ∧
        conn.recvBufLen = max (server.maxWrite.toNat + 4096) 8192 := by
  induction newer with
  | nil =>
    intro buf heard k hb hk
    have hmin : (UInt32.ofNat (min (u32At init 44) 36)).toNat = min (u32At init 44) 36 := by
      rw [UInt32.toNat_ofNat']; omega
    unfold Client.handshake at hk
    obtain ⟨k', hk, hk'⟩ := offer_say hk
    have hr := mount_recv (content := content) hk (show init.length ≤ buf.length by omega)
    have ht : (init ++ buf.drop init.length).take init.length = init := List.take_left
    obtain ⟨req, res, _, _, hso, hs⟩ := cuse_step_accept (name := server.deviceName) (num := server.deviceNumber)
      (initFn := server.initFn) hr (by rw [ht]; exact hinit.2.1) (by rw [ht]; exact hinit.2.2.1)
    rw [ht] at hso hs
    have hlen : ∀ reply : CuseInitResponse, reply.deviceName = some server.deviceName →
        (CuseReply.init reply).payload.length = 72 + 8 + server.deviceName.bytes.length + 1 := by
      intro reply h
      have hs : reply.raw.spare.bytes.length = 40 := Reserved.len _
      simp [CuseReply.payload, h, layout_cuse_init_out, hs, devname]
      omega
    obtain ⟨out, ho, hres⟩ := hso.1 (by rw [hlen _ rfl]; omega)
    rw [mount_send ho] at hres
    rw [hres] at hs
    have hl := hlen (cuseAcceptReply (server.initFn req (cuseBlank server.deviceName server.deviceNumber)
      ((content, [], k') : Wired S _)).1 (u32At init 44)) rfl
    have h0 : u32At (CuseReply.init (cuseAcceptReply (server.initFn req (cuseBlank server.deviceName server.deviceNumber)
        ((content, [], k') : Wired S _)).1 (u32At init 44))).payload 0 = 7 := by
      simp only [CuseReply.payload, layout_cuse_init_out, cuseAcceptReply]
      read_at; rfl
    have h4 : u32At (CuseReply.init (cuseAcceptReply (server.initFn req (cuseBlank server.deviceName server.deviceNumber)
        ((content, [], k') : Wired S _)).1 (u32At init 44))).payload 4 = min (u32At init 44) 36 := by
      simp only [CuseReply.payload, layout_cuse_init_out, cuseAcceptReply]
      read_at; exact hmin
    refine ⟨_, _, (CuseReply.init (cuseAcceptReply (server.initFn req (cuseBlank server.deviceName server.deviceNumber)
        ((content, [], k') : Wired S _)).1 (u32At init 44))).payload, k', .of_step hs, ?_, ?_, rfl⟩
    · refine (hk' _ (by omega) (by omega)).trans ?_
      rw [h0, h4]
      exact if_pos (by omega)
    · show (UInt16.ofNat (min (u32At init 44) 36)).toNat = _
      rw [UInt16.toNat_ofNat']; omega
  | cons m newer ih =>
    intro buf heard k hb hk
    unfold Client.handshake at hk
    obtain ⟨k', hk, hk'⟩ := offer_say hk
    obtain ⟨h1, h2, h3⟩ := hnewer m List.mem_cons_self
    have hr := mount_recv (content := content) hk (show m.length ≤ buf.length by omega)
    have ht : (m ++ buf.drop m.length).take m.length = m := List.take_left
    obtain ⟨out, ho, hs⟩ := cuse_step_reject (name := server.deviceName) (num := server.deviceNumber)
      (initFn := server.initFn) hr (by rw [ht]; exact h2) (by rw [ht]; exact h3)
    rw [ht] at ho
    rw [mount_send ho] at hs
    obtain ⟨conn, p, q, k2, e1, e2⟩ := ih (fun x hx => hnewer x (List.mem_cons_of_mem _ hx)) (m ++ buf.drop m.length)
      [frame (UInt64.ofNat (u64At m 8)) 0 cuseRejectionBytes] k' (by rw [List.length_append, List.length_drop]; omega)
      (by rw [hk' _ (by decide) (by decide), show u32At cuseRejectionBytes 0 = 7 from by decide]; rfl)
    exact ⟨conn, p, q, k2, .of_next hs e1, e2⟩

end

/-! ## The property -/

/-- C80: whatever the device does, a program that uses it through messages, served by `cuse_serve_local`, ends with the result
it would have had using the device directly, and the device is left in the same state.  The loop ends when the program has
finished. -/
def DevicesServed : Prop :=
  ∀ (S α : Type) (srv : DevServer S), 9 ≤ srv.layout.versionMinor → ∀ ids : Nat → UInt64, (∀ n, ids n ≠ 0) →
    ∀ (use : DevUse α) (s : S) (buf : Bytes), use.Valid srv.act buf.length s →
      ∃ heard k out, CuseServes (Wired.socket (Option S) α) (srv.handlers (Wired.socket (Option S) α)) buf
          (some s, [], fun _ => use.talk ids 0) (out, (some (use.run srv.act s).2, heard, k)) ∧
        k heard = .done (use.run srv.act s).1

/-- C80 as far as it holds: unless POLL requests are sent with node ID 0.  The loop reports the end of the connection as an
error. -/
theorem C80_partial {S α : Type} (srv : DevServer S) (h9 : 9 ≤ srv.layout.versionMinor) (ids : Nat → UInt64)
    (hids : ∀ n, ids n ≠ 0) (use : DevUse α) (s : S) (buf : Bytes) (hv : use.Valid srv.act buf.length s)
    (hn : use.PollsNode) :
    ∃ heard k, CuseServes (Wired.socket (Option S) α) (srv.handlers (Wired.socket (Option S) α)) buf
        (some s, [], fun _ => use.talk ids 0)
        (.err (.recv (.connectionClosed ())), (some (use.run srv.act s).2, heard, k)) ∧
      k heard = .done (use.run srv.act s).1 :=
  dev_serves srv h9 hids id use 0 s buf hv hn [] (fun _ => use.talk ids 0) (bind_done _).symm

/-- A session: the handshake, then the program. -/
def Spec.DevUse.session {α : Type} (ids : Nat → UInt64) (init : Bytes) (use : DevUse α) (newer : List Bytes) :
    Talk (Option α) :=
  Client.handshake init (fun _ => use.talk ids 0) newer

/-- C80: the same with the handshake.  A server made with the builder and any options accepts the first offer of major
version 7 it is made, after any number of others, and serves the program until it leaves, for every buffer of at least the
length the connection asks for. -/
theorem C80_session_partial {S α : Type} (act : Caller → DevOp → S → Ans × S) (server : CuseServer)
    (hname : server.deviceName.bytes.length + 97 < 2 ^ 32) (ids : Nat → UInt64) (hids : ∀ n, ids n ≠ 0)
    (newer : List Bytes) (init : Bytes) (hnewer : ∀ m ∈ newer, m.length ≤ 8192 ∧ IsCuseInit m ∧ u32At m 40 ≠ 7)
    (hinit : init.length ≤ 8192 ∧ IsCuseInit init ∧ u32At init 40 = 7 ∧ 9 ≤ u32At init 44) (use : DevUse α) (s : S)
    (hv : use.Valid act (max (server.maxWrite.toNat + 4096) 8192) s) (hn : use.PollsNode) :
    ∃ conn w, server.Connects (Wired.socket (Option S) _) (some s, [], fun _ => use.session ids init newer) (.ok conn, w) ∧
      ∀ buf : Bytes, conn.recvBufLen ≤ buf.length →
        ∃ heard k, CuseServes (Wired.socket (Option S) _) ((⟨act, conn.layout⟩ : DevServer S).handlers
            (Wired.socket (Option S) _)) buf w
            (.err (.recv (.connectionClosed ())), (some (use.run act s).2, heard, k)) ∧
          k heard = .done (some (use.run act s).1) := by
  obtain ⟨conn, p, q, k, h1, h2, h3, h4⟩ := cuse_connects server hname init (fun _ => use.talk ids 0) hinit (some s) newer
    hnewer minReadBuffer [] (fun _ => use.session ids init newer) (List.length_replicate ..) rfl
  refine ⟨conn, _, h1, fun buf hbuf => ?_⟩
  have h9 : 9 ≤ conn.layout.versionMinor := by
    rw [UInt16.le_iff_toNat_le, h3]
    show 9 ≤ min _ 36
    omega
  rw [h4] at hbuf
  exact dev_serves ⟨act, conn.layout⟩ h9 hids some use 0 s buf (DevUse.Valid.mono hbuf use hv) hn [p] k h2

/-! ## Concrete cases -/

section
variable {n : Nat}

instance (op : DevOp) : Decidable op.Ok := by
  unfold DevOp.Ok
  split <;> infer_instance

instance decidableDevValid {α S : Type} (act : Caller → DevOp → S → Ans × S) :
    (use : DevUse α) → (s : S) → Decidable (use.Valid act n s)
  | .done _, _ => .isTrue trivial
  | .call who _ op k, s =>
    have := decidableDevValid act (k (act who op s).1) (act who op s).2
    inferInstanceAs (Decidable (_ ∧ _ ∧ _ ∧ _))

end

namespace Dev

/-- Request IDs. -/
def ids (n : Nat) : UInt64 := if UInt64.ofNat n = 0 then 1 else .ofNat n

theorem ids_ne (n : Nat) : ids n ≠ 0 := by
  unfold ids
  split
  · decide
  · assumption

/-- Doing a list of things. -/
def script : List (Caller × UInt64 × DevOp) → List Ans → DevUse (List Ans)
  | [], as => .done as
  | (who, node, op) :: l, as => .call who node op fun a => script l (as ++ [a])

theorem script_polls (l : List (Caller × UInt64 × DevOp))
    (h : ∀ x ∈ l, ∀ handle events flags, x.2.2 = .poll handle events flags → x.2.1 ≠ 0) :
    ∀ as, (script l as).PollsNode := by
  induction l with
  | nil => exact fun _ => trivial
  | cons x l ih =>
    exact fun as => ⟨h x List.mem_cons_self, fun a => ih (fun y hy => h y (List.mem_cons_of_mem _ hy)) _⟩

/-- A queue of bytes, as a device: what is written is read later, once. -/
def queue (_ : Caller) (op : DevOp) (s : Bytes) : Ans × Bytes :=
  match op with
  | .open_ openFlags _ => (.opened openFlags.toUInt64 0, s)
  | .write _ _ data _ _ _ => (.written (.ofNat data.length), s ++ data)
  | .read _ _ size _ _ => if s = [] then (.error ⟨-11, by decide⟩, s) else (.data (s.take size.toNat), s.drop size.toNat)
  | .ioctl _ cmd _ _ _ _ =>
    if cmd = 1 then (.ioctl (.ofNat s.length) [], s) else (.error ⟨-25, by decide⟩, s)
  | .poll _ events _ => (.polled (if s = [] then events &&& 4 else events &&& 5), s)
  | .interrupt _ => (.silent, s)
  | _ => (.done, s)

/-- A program that goes on with what it is told.  POLL is sent with a node ID. -/
def program : DevUse (List Ans) :=
  .call Rpc.alice 0 (.open_ 2 0) fun
    | .opened fh _ =>
      .call Rpc.alice 0 (.write fh 0 [1, 2, 3] 0 none 2) fun
        | .written n =>
          .call Rpc.bob 0 (.write fh n.toUInt64 [4, 5] 2 (some 9) 2) fun _ =>
          script [(Rpc.bob, 0, .ioctl fh 1 0 0 [] 0), (Rpc.bob, 0, .ioctl fh 2 0 0 [7, 8] 0), (Rpc.bob, 1, .poll 77 0xFF 0),
            (Rpc.alice, 0, .read fh 0 4 none 2), (Rpc.alice, 0, .interrupt ⟨6, by decide⟩),
            (Rpc.alice, 5, .read fh 0 4 (some 8) 2), (Rpc.alice, 0, .read fh 0 4 none 2), (Rpc.bob, 1, .poll 77 0xFF 0),
            (Rpc.alice, 0, .flush fh 8), (Rpc.alice, 0, .fsync fh 1), (Rpc.alice, 0, .release fh 2 (some 8))] []
        | a => .done [a]
    | a => .done [a]

/-- What the program is told when it uses the device directly. -/
theorem program_run : program.run queue [] =
    ([.ioctl 5 [], .error ⟨-25, by decide⟩, .polled 5, .data [1, 2, 3, 4], .silent, .data [5], .error ⟨-11, by decide⟩,
      .polled 4, .done, .done, .done], []) := by decide +kernel

theorem program_polls : program.PollsNode := by
  refine ⟨(fun _ _ _ h => nomatch h), fun a => ?_⟩
  cases a <;> try trivial
  refine ⟨(fun _ _ _ h => nomatch h), fun a => ?_⟩
  cases a <;> try trivial
  refine ⟨(fun _ _ _ h => nomatch h), fun a => script_polls _ ?_ _⟩
  intro x hx
  simp only [List.mem_cons, List.not_mem_nil, or_false] at hx
  rcases hx with rfl | rfl | rfl | rfl | rfl | rfl | rfl | rfl | rfl | rfl | rfl <;>
    intro _ _ _ h <;>
    first
    | (cases h; done)
    | exact (by decide : (1 : UInt64) ≠ 0)

/-- C80_partial for it. -/
example : ∃ heard k, CuseServes (Wired.socket (Option Bytes) _)
      ((⟨queue, ⟨31⟩⟩ : DevServer Bytes).handlers (Wired.socket _ _)) (List.replicate 200 0)
      (some [], [], fun _ => program.talk ids 0)
      (.err (.recv (.connectionClosed ())), (some [], heard, k)) ∧
    k heard = .done (program.run queue []).1 := by
  have h := C80_partial (⟨queue, ⟨31⟩⟩ : DevServer Bytes) (by decide) ids ids_ne program []
    (List.replicate 200 0) (by decide +kernel) program_polls
  rwa [show (program.run queue []).2 = [] by rw [program_run]] at h

/-- C80_session_partial for it: a client that offers 8.0 and 7.40. -/
example : ∃ conn w, CuseServer.Connects ⟨⟨[0x71]⟩, ⟨1, 2⟩, 0, 0, 65536⟩ (Wired.socket (Option Bytes) _)
      (some [], [], fun _ => program.session (fun _ => 7) (cuseInitMessage 4 7 40) [cuseInitMessage 2 8 0]) (.ok conn, w) ∧
    ∀ buf : Bytes, conn.recvBufLen ≤ buf.length → ∃ heard k, CuseServes (Wired.socket (Option Bytes) _)
        ((⟨queue, conn.layout⟩ : DevServer Bytes).handlers (Wired.socket (Option Bytes) _)) buf w
        (.err (.recv (.connectionClosed ())), (some (program.run queue []).2, heard, k)) ∧
      k heard = .done (some (program.run queue []).1) :=
  C80_session_partial queue ⟨⟨[0x71]⟩, ⟨1, 2⟩, 0, 0, 65536⟩ (by show 1 + 97 < 2 ^ 32; omega) (fun _ => 7)
    (fun _ => show (7 : UInt64) ≠ 0 by decide) _ _ (by decide) (by decide) program []
    (DevUse.Valid.mono (n := 8192) (Nat.le_max_right ..) program (by decide +kernel)) program_polls

/-- What becomes of a program, running the model for at most `n` steps. -/
def outcome {S α : Type} (srv : DevServer S) (n len : Nat) (use : DevUse α) (s : S) : Option (Option α × Option S) :=
  match iterate (cuseServeStep (Wired.socket (Option S) α) (srv.handlers (Wired.socket (Option S) α))) n
      (List.replicate len 0, (some s, [], fun _ => use.talk ids 0)) with
  | .inl (_, (s, heard, k)) =>
    match k heard with
    | .done a => some (some a, s)
    | _ => some (none, s)
  | _ => none

/-- The same by running the model. -/
example : outcome ⟨queue, ⟨31⟩⟩ 15 200 program [] = some (some (program.run queue []).1, some []) := by decide +kernel

/-- A device that remembers what it has been asked. -/
def remember (who : Caller) (op : DevOp) (past : List (Caller × DevOp)) : Ans × List (Caller × DevOp) :=
  (Rpc.sample op.kind, past ++ [(who, op)])

/-- All operations. -/
def everything : List DevOp :=
  [.flush 18 19, .fsync 23 24, .interrupt ⟨42, by decide⟩, .ioctl 43 44 45 46 [47, 48] 49, .open_ 57 58, .poll 61 62 63,
    .read 64 65 66 (some 67) 68, .read 64 65 66 none 68, .release 77 78 (some 79), .release 77 78 none,
    .write 96 97 [98, 99] 6 (some 100) 101, .write 96 97 [] 4 none 101]

/-- All of them are possible. -/
example : (script (everything.map (Rpc.bob, 3, ·)) []).Valid remember 200 [] := by decide +kernel

/-- By running the model: all arrive as they were sent, and so do the answers. -/
example : outcome ⟨remember, ⟨36⟩⟩ 20 200 (script (everything.map (Rpc.bob, 3, ·)) []) [] =
    some (some (everything.map fun op => Rpc.sample op.kind), some (everything.map (Rpc.bob, ·))) := by decide +kernel

/-- With node ID 0, all but POLL do. -/
example : everything.map (fun op => decide (outcome ⟨remember, ⟨36⟩⟩ 20 200 (script [(Rpc.bob, 0, op)] []) [] =
      some (some [Rpc.sample op.kind], some [(Rpc.bob, op)]))) =
    [true, true, true, true, true, false, true, true, true, true, true, true] := by decide +kernel

end Dev

/-! ## The violation -/

/-- C80 does not hold: the request made for POLL, with node ID 0, is not decoded, and the device never sees it. -/
theorem C80_violated : ¬ DevicesServed := by
  intro h
  have hc : Dev.outcome ⟨Dev.remember, ⟨36⟩⟩ 2 64 (Dev.script [(Rpc.bob, 0, .poll 61 62 63)] []) [] =
      some (some [.broken], none) := by decide +kernel
  obtain ⟨heard, k, out, h1, -⟩ := h _ _ ⟨Dev.remember, ⟨36⟩⟩ (by decide) Dev.ids Dev.ids_ne
    (Dev.script [(Rpc.bob, 0, .poll 61 62 63)] []) [] (List.replicate 64 0) (by decide +kernel)
  unfold Dev.outcome at hc
  split at hc
  · rename_i out' s heard' k' he
    have := (LoopReturns.unique ⟨2, he⟩ h1)
    cases this
    split at hc <;> cases hc
  · cases hc

end Fuse
