import Verif.RpcOp
import Verif.RpcAns

/-!
# C78: any filesystem is served as it is

A filesystem is a function here: what it answers to an operation, and what becomes of its state.  The handlers of a server
take the operation from a request with the accessors of the library, and answer with the response types of the library.  A
program that uses the filesystem through messages, on a connection served by `serve_local`, sees what it would have seen
calling the function, and leaves the state it would have left.  There are 39 operations; requests that are not about an
operation (INIT, DESTROY, SYNCFS) are left out, and so are notifications.
-/

namespace Fuse
open Spec

/-- A program that only asks what the protocol can express, in requests of at most `n` bytes, of a filesystem that answers
what the protocol can express. -/
def Spec.Use.Valid {α S : Type} (act : Caller → Op → S → Ans × S) (ext : Bool) (n : Nat) : Use α → S → Prop
  | .done _, _ => True
  | .call who op k, s =>
    op.Ok ext ∧ 40 + (op.request ext).2.body.length ≤ min n 0xFFFFFFFF ∧ op.kind.Allows (act who op s).1 ∧
      (k (act who op s).1).Valid act ext n (act who op s).2

theorem Spec.Use.Valid.mono {α S : Type} {act : Caller → Op → S → Ans × S} {ext : Bool} {n n' : Nat} (hn : n ≤ n')
    (use : Use α) : ∀ {s : S}, use.Valid act ext n s → use.Valid act ext n' s := by
  induction use with
  | done a => exact fun _ => trivial
  | call who op k ih => exact fun ⟨h1, h2, h3, h4⟩ => ⟨h1, by omega, h3, ih _ h4⟩

section
variable {S α : Type} (srv : RpcServer S)

theorem hear_ok {k : Kind} {u : UInt64} {p : Bytes} {a : Ans} (hp : 16 + p.length < 2 ^ 32) (hr : k.read p = some a) :
    k.hear u [frame u 0 p] = a := by
  unfold Kind.hear
  cases k with
  | silent => cases hr
  | _ =>
    dsimp only
    rw [parse_frame_ok _ _ hp]
    dsimp only
    rw [hr]
    rfl

theorem hear_error {k : Kind} {u : UInt64} (e : FuseError) (hk : k ≠ .silent) :
    k.hear u [frame u e.val []] = .error e := by
  unfold Kind.hear
  cases k with
  | silent => exact absurd rfl hk
  | _ =>
    dsimp only
    rw [parse_frame_err]
    dsimp only
    rw [dif_pos e.2]

theorem message_caller {a : ClientReq} {u node : UInt64} {uid gid pid : UInt32} (hu : u ≠ 0) :
    ∃ (id : NonZeroU64) (hdr : FuseInHeader), id.val = u ∧ (⟨hdr.uid, hdr.gid, hdr.pid⟩ : Caller) = ⟨uid, gid, pid⟩ ∧
      Filesystem.idAndHeader ⟨a.message u node uid gid pid 0⟩ = .ok (id, hdr) := by
  have hh : Request.rawHeader ⟨a.message u node uid gid pid 0⟩ =
      .ok ⟨UInt32.ofNat (40 + a.body.length), UInt32.ofNat a.opcode, u, node, uid, gid, pid, 0⟩ := by
    have := hd_message (a := a) (unique := u) (nodeid := node) (uid := uid) (gid := gid) (pid := pid) (padding := 0)
      (tail := [])
    rw [List.append_nil] at this
    unfold Request.rawHeader
    rw [size_fuse_in_header, if_pos (by show 40 ≤ _; rw [message_length]; omega), ← this]
  refine ⟨⟨u, hu⟩, _, rfl, rfl, idAndHeader_ok hh ?_⟩
  simp only [FuseInHeader.requestId, NonZeroU64.newUnchecked, dif_pos hu]

theorem answer_eq {ω ε : Type} {sock : Socket (Option S × ω) ε} {t : ReqType} {r : Request} {s s' : S} {w : ω}
    {id : NonZeroU64} {hdr : FuseInHeader} {q : AnyRequest} {op : Op} {a : Ans}
    (h1 : Filesystem.idAndHeader r = .ok (id, hdr)) (h2 : r.decode (decodeAny t) = .ok q) (h3 : q.op = .ok (some op))
    (h4 : srv.act ⟨hdr.uid, hdr.gid, hdr.pid⟩ op s = (a, s')) :
    srv.answer sock t r s w = match a.reply srv.os (srv.addr op) op.room with
      | .ok (some a) =>
        match a.run (.new sock srv.layout id) (some s', w) with
        | (.ok (), w) => w
        | (.error _, w) => (none, w.2)
      | .ok none => (some s', w)
      | .error _ => (none, w) := by
  obtain ⟨act, layout, checks, os, addr⟩ := srv
  have h4 : act ⟨hdr.uid, hdr.gid, hdr.pid⟩ op s = (a, s') := h4
  unfold RpcServer.answer
  rw [h1, h2]
  dsimp only
  rw [h3]
  dsimp only
  rw [h4]
  dsimp only
  rcases a.reply os (addr op) op.room with f | _ | a
  · rfl
  · rfl
  · dsimp only
    rcases a.run (.new sock layout id) (some s', w) with ⟨_ | _, _⟩ <;> rfl

/-- `decode_own`, with WRITE of versions before 7.9 that is long enough to be decoded. -/
theorem decode_reached {t : ReqType} {a : ClientReq} {u node : UInt64} {uid gid pid : UInt32} (ht : a.HasType t)
    (hw : a.WellFormed node t.isCuse) (hne : a.ShiftFree) (hu : u ≠ 0) (hl : 40 + a.body.length < 2 ^ 32)
    (h80 : a.IsOldWrite → 80 ≤ 40 + a.body.length) :
    ∃ q, Request.decode ⟨a.message u node uid gid pid 0⟩ (decodeAny t) = .ok q ∧ a.Matches node t.isCuse q := by
  have hacc := message_acceptable (a := a) (unique := u) (nodeid := node) (uid := uid) (gid := gid) (pid := pid)
    (padding := 0) (tail := []) hu hl
  obtain ⟨r, h1, h2⟩ := decode_message (unique := u) (uid := uid) (gid := gid) (pid := pid) (padding := 0) (tail := [])
    ht hw hne hu hl h80
  rw [List.append_nil] at h1 hacc
  unfold decodeMessage at h1
  rw [acceptable_new hacc] at h1
  exact ⟨r, h1, h2⟩

/-- A request that reaches a handler, and from which one operation only can be taken. -/
theorem reaches_taken {layout : FuseLayout} {checks : Bool} {m : FuseMethod} {t : ReqType} {node : UInt64} {a : ClientReq}
    {op : Op} (hr : Reaches layout checks node a m t) (hmatch : ∀ q, a.Matches node false q → q.op = .ok (some op)) {u : UInt64}
    (hu : u ≠ 0) {who : Caller} (hl : 40 + a.body.length < 2 ^ 32) {msg : Bytes}
    (hmsg : a.message u node who.uid who.gid who.pid 0 = msg) :
    Acceptable msg ∧ msg.length = 40 + a.body.length ∧
      ∃ (m : FuseMethod) (t : ReqType) (id : NonZeroU64) (hdr : FuseInHeader) (q : AnyRequest),
        fuseMethodAt (u32At msg 4) = some m ∧ m.reqType layout checks = some t ∧
        Filesystem.idAndHeader ⟨msg⟩ = .ok (id, hdr) ∧ id.val = u ∧ (⟨hdr.uid, hdr.gid, hdr.pid⟩ : Caller) = who ∧
        Request.decode ⟨msg⟩ (decodeAny t) = .ok q ∧ q.op = .ok (some op) := by
  obtain ⟨hm, ht, h1, h2, h3, h4, h5⟩ := hr
  obtain ⟨q, hq, hmat⟩ := decode_reached (a := a) (u := u) (node := node) (uid := who.uid)
    (gid := who.gid) (pid := who.pid) (t := t) h1 (h3 ▸ h2) h4 hu hl h5
  rw [h3] at hmat
  have hop := hmatch q hmat
  have hacc := message_acceptable (a := a) (unique := u) (nodeid := node) (uid := who.uid)
    (gid := who.gid) (pid := who.pid) (padding := 0) (tail := []) hu hl
  have hopc := message_opcode (a := a) (unique := u) (nodeid := node) (uid := who.uid)
    (gid := who.gid) (pid := who.pid) (padding := 0) (tail := [])
  obtain ⟨id, hdr, hid, hw, hh⟩ := message_caller (a := a) (node := node) (uid := who.uid)
    (gid := who.gid) (pid := who.pid) hu
  have hml := message_length (a := a) (unique := u) (nodeid := node) (uid := who.uid)
    (gid := who.gid) (pid := who.pid) (padding := 0)
  rw [List.append_nil] at hacc hopc
  rw [hmsg] at hq hacc hopc hml hh
  exact ⟨hacc, hml, m, t, id, hdr, q, by rw [hopc, hm], ht, hh, hid, hw, hq, hop⟩

/-- The operation is taken from its request, by the method for it. -/
theorem request_taken {layout : FuseLayout} {checks : Bool} (h12 : 12 ≤ layout.versionMinor) {ext : Bool}
    (hext : ext = true ↔ layout.features &&& 1 ≠ 0) {u : UInt64} (hu : u ≠ 0) {who : Caller} {op : Op}
    (hok : op.Ok ext) (hl : 40 + (op.request ext).2.body.length < 2 ^ 32) {msg : Bytes}
    (hmsg : (op.request ext).2.message u (op.request ext).1 who.uid who.gid who.pid 0 = msg) :
    Acceptable msg ∧ msg.length = 40 + (op.request ext).2.body.length ∧
      ∃ (m : FuseMethod) (t : ReqType) (id : NonZeroU64) (hdr : FuseInHeader) (q : AnyRequest),
        fuseMethodAt (u32At msg 4) = some m ∧ m.reqType layout checks = some t ∧
        Filesystem.idAndHeader ⟨msg⟩ = .ok (id, hdr) ∧ id.val = u ∧ (⟨hdr.uid, hdr.gid, hdr.pid⟩ : Caller) = who ∧
        Request.decode ⟨msg⟩ (decodeAny t) = .ok q ∧ q.op = .ok (some op) := by
  obtain ⟨m, t, hr⟩ := request_reaches (checks := checks) (.of h12 op) hext hok hl
  exact reaches_taken hr (fun _ => op_of_matches hok) hu hl hmsg

/-- An answer is sent as a reply that is read as that answer, or is not sent if there is to be none. -/
theorem reply_runs {ω ε : Type} (sock : Socket (Option S × ω) ε) (put : Bytes → ω → ω)
    (hput : ∀ {b : SendBuf} {msg : Bytes}, Carries b msg → ∀ w, sock.send b w = (.ok (), (w.1, put msg w.2)))
    {layout : FuseLayout} (h12 : 12 ≤ layout.versionMinor) {os : Os} {addr : Nat} (haddr : addr % 8 = 0) {id : NonZeroU64}
    {op : Op} {a : Ans} (ha : op.kind.Allows a) {s' : S} {w : ω} :
    ∃ out : List Bytes,
      (match a.reply os addr op.room with
        | .ok (some a) =>
          match a.run (.new sock layout id) (some s', w) with
          | (.ok (), w) => w
          | (.error _, w) => (none, w.2)
        | .ok none => (some s', w)
        | .error _ => (none, w)) = (some s', out.foldl (fun w m => put m w) w) ∧
        op.hear id.val out = a ∧
        ((op.kind = .silent ∧ out = []) ∨ (op.kind ≠ .silent ∧ ∃ m, out = [m] ∧ u64At m 8 = id.val.toNat)) := by
  by_cases hs : a = .silent
  · subst hs
    have hk : op.kind = .silent := by
      generalize op.kind = kd at ha
      cases kd <;> first | rfl | exact ha.elim
    refine ⟨[], rfl, ?_, .inl ⟨hk, rfl⟩⟩
    unfold Op.hear
    rw [hk]
    rfl
  · have hk : op.kind ≠ .silent := by
      intro h
      rw [h] at ha
      exact hs ha
    by_cases he : ∃ e, a = .error e
    · obtain ⟨e, rfl⟩ := he
      obtain ⟨b, hb, hrun⟩ := C17_fuse sock layout id (.err e) (some s', w) (show 16 + 0 < 2 ^ 32 by decide)
      refine ⟨[frame id.val e.val []], ?_, hear_error e hk, .inr ⟨hk, _, rfl, (C17_frame id.val e.val [] (by decide)).2.2.1⟩⟩
      show (match (FuseAnswer.err e).run (.new sock layout id) (some s', w) with
        | (.ok (), w) => w
        | (.error _, w) => (none, w.2)) = _
      rw [hrun, hput hb]
      rfl
    · obtain ⟨r, r1, r2, r3, r4⟩ := reply_read (os := os) haddr
        (show 9 ≤ layout.versionMinor.toNat from Nat.le_trans (by decide) (UInt16.le_iff_toNat_le.mp h12)) ha hs
        (fun e h => he ⟨e, h⟩)
      obtain ⟨b, hb, hrun⟩ := C17_fuse sock layout id r (some s', w) r3
      refine ⟨[frame id.val 0 (r.payload layout.versionMinor.toNat)], ?_, hear_ok r3 r4,
        .inr ⟨hk, _, rfl, (C17_frame id.val 0 _ r3).2.2.1⟩⟩
      rw [r1]
      dsimp only
      rw [hrun, hput hb, r2]
      rfl

/-- Handling one request, with any socket that takes messages. -/
theorem rpc_handles {ω ε : Type} (sock : Socket (Option S × ω) ε) (put : Bytes → ω → ω)
    (hput : ∀ {b : SendBuf} {msg : Bytes}, Carries b msg → ∀ w, sock.send b w = (.ok (), (w.1, put msg w.2)))
    (haddr : ∀ op, srv.addr op % 8 = 0) (h12 : 12 ≤ srv.layout.versionMinor) {ext : Bool}
    (hext : ext = true ↔ srv.layout.features &&& 1 ≠ 0) {u : UInt64} (hu : u ≠ 0) {who : Caller} {op : Op} {s : S}
    (hok : op.Ok ext) (hl : 40 + (op.request ext).2.body.length < 2 ^ 32)
    (ha : op.kind.Allows (srv.act who op s).1) {w : ω} {msg : Bytes}
    (hmsg : (op.request ext).2.message u (op.request ext).1 who.uid who.gid who.pid 0 = msg) :
    Acceptable msg ∧ msg.length = 40 + (op.request ext).2.body.length ∧
      ∃ out : List Bytes, fuseHandle (srv.handlers sock) msg (some s, w) =
          (some (srv.act who op s).2, out.foldl (fun w m => put m w) w) ∧
        op.hear u out = (srv.act who op s).1 ∧
        ((op.kind = .silent ∧ out = []) ∨ (op.kind ≠ .silent ∧ ∃ m, out = [m] ∧ u64At m 8 = u.toNat)) := by
  obtain ⟨hacc, hml, m, t, id, hdr, q, hm, ht, hh, rfl, rfl, hq, hop⟩ :=
    request_taken (checks := srv.checks) h12 hext hu hok hl hmsg
  refine ⟨hacc, hml, ?_⟩
  have hhandle : fuseHandle (srv.handlers sock) msg (some s, w) = srv.answer sock t ⟨msg⟩ s w := by
    unfold fuseHandle
    rw [hm]
    dsimp only
    unfold RpcServer.handlers
    dsimp only
    rw [ht]
    rfl
  rw [hhandle, answer_eq srv hh hq hop rfl]
  exact reply_runs sock put hput h12 (haddr op) ha

/-- One request. -/
theorem rpc_step (haddr : ∀ op, srv.addr op % 8 = 0) (h12 : 12 ≤ srv.layout.versionMinor) {ext : Bool}
    (hext : ext = true ↔ srv.layout.features &&& 1 ≠ 0) {u : UInt64} (hu : u ≠ 0) {who : Caller} {op : Op} {s : S} {buf : Bytes}
    (hok : op.Ok ext) (hfit : 40 + (op.request ext).2.body.length ≤ min buf.length 0xFFFFFFFF)
    (ha : op.kind.Allows (srv.act who op s).1) {heard : List Bytes} {k k' : List Bytes → Talk α}
    (hk : k heard = .say ((op.request ext).2.message u (op.request ext).1 who.uid who.gid who.pid 0) k') :
    ∃ buf' out, buf'.length = buf.length ∧
      fuseServeStep (Wired.socket (Option S) α) (srv.handlers (Wired.socket (Option S) α)) (buf, (some s, heard, k)) =
        .inr (buf', (some (srv.act who op s).2, out, k')) ∧
      op.hear u out = (srv.act who op s).1 := by
  obtain ⟨hacc, hml, out, e1, e2, e3⟩ := rpc_handles srv (Wired.socket (Option S) α) (fun m w => (w.1 ++ [m], w.2))
    (fun hb w => mount_send hb w) haddr h12 hext hu hok (by omega) ha (w := ([], k')) rfl
  generalize (op.request ext).2.message u (op.request ext).1 who.uid who.gid who.pid 0 = msg at *
  have hr := mount_recv (content := some s) hk (show msg.length ≤ buf.length by omega)
  have htake : (msg ++ buf.drop msg.length).take msg.length = msg := List.take_left
  have hstep := fuse_serve_more (Wired.socket (Option S) α) (srv.handlers (Wired.socket (Option S) α)) hr
    (by rw [htake]; exact hacc)
  rw [htake, e1] at hstep
  refine ⟨msg ++ buf.drop msg.length, out, ?_, hstep.trans ?_, e2⟩
  · rw [List.length_append, List.length_drop]
    omega
  · rcases e3 with ⟨_, rfl⟩ | ⟨_, m, rfl, _⟩ <;> rfl

/-- A program, and what is made of its result. -/
theorem rpc_serves (haddr : ∀ op, srv.addr op % 8 = 0) (h12 : 12 ≤ srv.layout.versionMinor) {ext : Bool}
    (hext : ext = true ↔ srv.layout.features &&& 1 ≠ 0) {ids : Nat → UInt64} (hids : ∀ n, ids n ≠ 0) {β : Type} (g : α → β)
    (use : Use α) :
    ∀ (n : Nat) (s : S) (buf : Bytes), use.Valid srv.act ext buf.length s →
      ∀ (heard : List Bytes) (k : List Bytes → Talk β),
        k heard = (do let r ← use.talk ids ext n; return g r) →
        ∃ heard' k', FuseServes (Wired.socket (Option S) β) (srv.handlers (Wired.socket (Option S) β)) buf (some s, heard, k)
            (.ok (), (some (use.run srv.act s).2, heard', k')) ∧
          k' heard' = .done (g (use.run srv.act s).1) := by
  induction use with
  | done a =>
    intro n s buf _ heard k hk
    have hk : k heard = .done (g a) := hk
    refine ⟨heard, k, .of_step ?_, hk⟩
    have hr : (Wired.socket (Option S) β).recv buf (some s, heard, k) =
        ((.error (.connectionClosed ()), buf), (some s, heard, k)) := by
      show (match k heard with | .done _ => _ | .say m k => _) = _
      rw [hk]
    simp only [fuseServeStep, fuseRecv, hr]
    rfl
  | call who op f ih =>
    intro n s buf hv heard k hk
    obtain ⟨h1, h2, h3, h4⟩ := hv
    obtain ⟨buf', out, e1, e2, e3⟩ := rpc_step srv haddr h12 hext (hids n) h1 h2 h3 (α := β)
      (k' := fun out => do let r ← Use.talk ids ext (n + 1) (f (op.hear (ids n) out)); return g r) (hk.trans rfl)
    obtain ⟨heard', k', e4, e5⟩ := ih (srv.act who op s).1 (n + 1) (srv.act who op s).2 buf' (by rw [e1]; exact h4) out
      (fun out => do let r ← Use.talk ids ext (n + 1) (f (op.hear (ids n) out)); return g r) (by rw [e3])
    exact ⟨heard', k', .of_next e2 e4, e5⟩

theorem bind_done (t : Talk α) : (do let r ← t; return id r) = t := by
  show t.bind .done = t
  induction t with
  | done a => rfl
  | say m k ih =>
    show Talk.say m (fun out => (k out).bind .done) = _
    exact congrArg _ (funext ih)

end

/-! ## The property -/

/-- C78: whatever the filesystem does, a program that uses it through messages, served by `serve_local`, ends with the result
it would have had using the filesystem directly, and the filesystem is left in the same state.  Nothing else is sent, no
request fails to decode, and the loop ends without an error when the program has finished. -/
theorem C78 {S α : Type} (srv : RpcServer S) (haddr : ∀ op, srv.addr op % 8 = 0) (h12 : 12 ≤ srv.layout.versionMinor)
    (ext : Bool) (hext : ext = true ↔ srv.layout.features &&& 1 ≠ 0) (ids : Nat → UInt64) (hids : ∀ n, ids n ≠ 0)
    (use : Use α) (s : S) (buf : Bytes) (hv : use.Valid srv.act ext buf.length s) :
    ∃ heard k, FuseServes (Wired.socket (Option S) α) (srv.handlers (Wired.socket (Option S) α)) buf
        (some s, [], fun _ => use.talk ids ext 0) (.ok (), (some (use.run srv.act s).2, heard, k)) ∧
      k heard = .done (use.run srv.act s).1 :=
  rpc_serves srv haddr h12 hext hids id use 0 s buf hv [] (fun _ => use.talk ids ext 0) (bind_done _).symm

/-- A session: the handshake, then the program.  Whether extended SETXATTR requests are used is said by bit 29 of the flags in
the reply to INIT. -/
def Spec.Use.session {α : Type} (ids : Nat → UInt64) (init : Bytes) (use : Use α) (newer : List Bytes) : Talk (Option α) :=
  Client.handshake init (fun reply => use.talk ids ((u32At reply 12).testBit 29) 0) newer

/-- C78: the same through a whole mount.  A server made with the builder and any options accepts the first offer of major
version 7 it is made, after any number of others, and serves the program until it leaves, for every buffer of at least the
length the connection asks for. -/
theorem C78_mount {S α : Type} (act : Caller → Op → S → Ans × S) (checks : Bool) (os : Os) (addr : Op → Nat)
    (haddr : ∀ op, addr op % 8 = 0) (server : FuseServer) (ids : Nat → UInt64) (hids : ∀ n, ids n ≠ 0) (newer : List Bytes)
    (init : Bytes) (hnewer : ∀ m ∈ newer, m.length ≤ 8192 ∧ IsFuseInit m ∧ u32At m 40 ≠ 7)
    (hinit : init.length ≤ 8192 ∧ IsFuseInit init ∧ u32At init 40 = 7 ∧ 12 ≤ u32At init 44) (use : Use α) (s : S)
    (hv : ∀ ext, use.Valid act ext (max (server.initReply.maxWrite.toNat + 4096) 8192) s) :
    ∃ conn w, server.Connects (Wired.socket (Option S) _) (some s, [], fun _ => use.session ids init newer) (.ok conn, w) ∧
      ∀ buf : Bytes, conn.recvBufLen ≤ buf.length →
        ∃ heard k, FuseServes (Wired.socket (Option S) _) ((⟨act, conn.layout, checks, os, addr⟩ : RpcServer S).handlers
            (Wired.socket (Option S) _)) buf w (.ok (), (some (use.run act s).2, heard, k)) ∧
          k heard = .done (some (use.run act s).1) := by
  obtain ⟨conn, p, q, k, h1, h2, h3, h4, h5, -⟩ := connects server init
    (fun reply => use.talk ids ((u32At reply 12).testBit 29) 0) ⟨hinit.1, hinit.2.1, hinit.2.2.1, by omega⟩ (some s) newer hnewer
    minReadBuffer [] (fun _ => use.session ids init newer) (List.length_replicate ..) rfl
  refine ⟨conn, _, h1, fun buf hbuf => ?_⟩
  have h12 : 12 ≤ conn.layout.versionMinor := by
    rw [UInt16.le_iff_toNat_le, h4]
    show 12 ≤ min _ 36
    omega
  rw [h5] at hbuf
  exact rpc_serves ⟨act, conn.layout, checks, os, addr⟩ haddr h12 h3.symm hids some use 0 s buf
    (Use.Valid.mono hbuf use (hv _)) [p] k h2

/-! ## Concrete cases -/

section
variable {ext : Bool} {n : Nat}

instance (t : Option UnixTime) : Decidable (TimeOk t) :=
  match t with
  | none => .isTrue fun _ h => nomatch h
  | some x =>
    if h : x.nanos < 1000000000 then .isTrue fun _ e => Option.some.inj e ▸ h
    else .isFalse fun e => h (e x rfl)

instance (s : Span) : Decidable s.Ok := by
  unfold Span.Ok
  split <;> infer_instance

instance (op : Op) : Decidable (op.Ok ext) := by
  unfold Op.Ok NameOk
  split <;> infer_instance

instance (k : Kind) (a : Ans) : Decidable (k.Allows a) := by
  unfold Kind.Allows Found.Ok TimeoutOk NameOk
  split <;> infer_instance

instance decidableValid {α S : Type} (act : Caller → Op → S → Ans × S) : (use : Use α) → (s : S) → Decidable (use.Valid act ext n s)
  | .done _, _ => .isTrue trivial
  | .call who op k, s =>
    have := decidableValid act (k (act who op s).1) (act who op s).2
    inferInstanceAs (Decidable (_ ∧ _ ∧ _ ∧ _))

end

namespace Rpc

/-- A file, and who made it. -/
structure File where
  node : NodeId
  owner : Caller
  mode : UInt32
  data : Bytes
deriving DecidableEq

/-- A directory that files can be made, renamed and removed in, and the number of files made so far. -/
structure Store where
  made : Nat
  files : List (Bytes × File)
deriving DecidableEq

def File.info (f : File) : Info :=
  { node := f.node, mode := f.mode, size := .ofNat f.data.length, nlink := 1, uid := f.owner.uid, gid := f.owner.gid }

def File.found (f : File) : Found := ⟨f.info, 0, ⟨1, 500000000, by decide⟩, ⟨2, 0, by decide⟩⟩

def Store.number (n : Nat) : NodeId := if h : UInt64.ofNat (n + 2) ≠ 0 then ⟨_, h⟩ else ⟨1, by decide⟩

def notFound : FuseError := ⟨-2, by decide⟩

def Store.act (who : Caller) (op : Op) (s : Store) : Ans × Store :=
  match op with
  | .create _ name _ _ mode umask =>
    let f : File := ⟨Store.number s.made, who, mode &&& ~~~umask, []⟩
    (.created f.found f.node.val 0, ⟨s.made + 1, (name, f) :: s.files⟩)
  | .lookup _ name =>
    match s.files.find? (·.1 = name) with
    | some (_, f) => (.entry f.found, s)
    | none => (.absent ⟨3, 0, by decide⟩, s)
  | .write node _ offset data _ _ _ =>
    (.written (.ofNat data.length), { s with files := s.files.map fun (name, f) =>
      (name, if f.node = node then { f with data := f.data.take offset.toNat ++ data } else f) })
  | .read node _ offset size _ _ =>
    match s.files.find? (·.2.node = node) with
    | some (_, f) => (.data ((f.data.drop offset.toNat).take size.toNat), s)
    | none => (.error notFound, s)
  | .rename _ name _ newName _ =>
    (.done, { s with files := s.files.map fun (n, f) => (if n = name then newName else n, f) })
  | .unlink _ name =>
    if s.files.any (·.1 = name) then (.done, { s with files := s.files.filter (·.1 ≠ name) }) else (.error notFound, s)
  | .readdir _ _ _ _ _ =>
    (.items (s.files.map fun (name, f) => ⟨f.node, f.node, some .regular, name⟩), s)
  | .readdirplus _ _ _ _ _ =>
    (.plusItems (s.files.map fun (name, f) => ⟨f.found, f.node, name⟩), s)
  | .forget _ | .interrupt _ => (.silent, s)
  | _ => (.error ⟨-38, by decide⟩, s)

def alice : Caller := ⟨1000, 100, 7⟩
def bob : Caller := ⟨1001, 100, 8⟩
def root : NodeId := ⟨1, by decide⟩

/-- One after the other, with all answers. -/
def script : List (Caller × Op) → List Ans → Use (List Ans)
  | [], as => .done as
  | (who, op) :: ops, as => .call who op fun a => script ops (as ++ [a])

/-- A program that goes on with what it is told. -/
def program : Use (List Ans) :=
  .call alice (.create root [0x61] 2 0 0o100666 0o22) fun
    | .created f fh _ =>
      .call alice (.write f.info.node fh 0 [1, 2, 3] 0 none 0) fun
        | .written n =>
          .call bob (.rename root [0x61] root [0x62] 0) fun _ =>
          .call bob (.write f.info.node fh n.toUInt64 [4, 5] 2 (some 9) 0) fun _ =>
          script [(bob, .readdir root 0 0 4096 0), (bob, .readdirplus root 0 0 4096 0), (alice, .lookup root [0x61]),
            (alice, .lookup root [0x62]), (bob, .read f.info.node fh 1 3 none 0), (bob, .unlink root [0x61]),
            (bob, .forget [(f.info.node, 1), (root, 2)]), (alice, .unlink root [0x62]), (alice, .statfs root)] []
        | a => .done [a]
    | a => .done [a]

def theFile : File := ⟨⟨2, by decide⟩, alice, 0o100644, [1, 2, 3, 4, 5]⟩

/-- What the program is told when it uses the filesystem directly. -/
theorem program_run : program.run Store.act ⟨0, []⟩ =
    ([.items [⟨⟨2, by decide⟩, ⟨2, by decide⟩, some .regular, [0x62]⟩], .plusItems [⟨theFile.found, ⟨2, by decide⟩, [0x62]⟩],
      .absent ⟨3, 0, by decide⟩, .entry theFile.found, .data [2, 3, 4], .error ⟨-2, by decide⟩, .silent, .done,
      .error ⟨-38, by decide⟩], ⟨1, []⟩) := by decide +kernel

/-- C78 for it. -/
example : ∃ heard k, FuseServes (Wired.socket (Option Store) _)
      ((⟨Store.act, ⟨31, 0⟩, true, .linux, fun _ => 0x1000⟩ : RpcServer Store).handlers (Wired.socket _ _))
      (List.replicate 200 0) (some ⟨0, []⟩, [], fun _ => program.talk (fun n => if UInt64.ofNat n = 0 then 1 else .ofNat n) false 0)
      (.ok (), (some ⟨1, []⟩, heard, k)) ∧
    k heard = .done (program.run Store.act ⟨0, []⟩).1 := by
  have h := C78 (⟨Store.act, ⟨31, 0⟩, true, .linux, fun _ => 0x1000⟩ : RpcServer Store) (fun _ => (by decide : 0x1000 % 8 = 0)) (by decide) false
    (by decide) (fun n => if UInt64.ofNat n = 0 then 1 else .ofNat n) (fun n h => by
      split at h
      · cases h
      · contradiction) program ⟨0, []⟩ (List.replicate 200 0)
    (by decide +kernel)
  rwa [show (program.run Store.act ⟨0, []⟩).2 = ⟨1, []⟩ by rw [program_run]] at h

/-- What becomes of a program, running the model for at most `n` steps. -/
def outcome {S α : Type} (srv : RpcServer S) (ext : Bool) (n len : Nat) (use : Use α) (s : S) : Option (Option α × Option S) :=
  match iterate (fuseServeStep (Wired.socket (Option S) α) (srv.handlers (Wired.socket (Option S) α))) n
      (List.replicate len 0, (some s, [], fun _ => use.talk (fun n => .ofNat (n + 1)) ext 0)) with
  | .inl (.ok (), (s, heard, k)) =>
    match k heard with
    | .done a => some (some a, s)
    | _ => some (none, s)
  | _ => none

/-- The same by running the model. -/
example : outcome ⟨Store.act, ⟨31, 0⟩, true, .linux, fun _ => 0x1000⟩ false 14 200 program ⟨0, []⟩ =
    some (some (program.run Store.act ⟨0, []⟩).1, some ⟨1, []⟩) := by decide +kernel

/-- With another layout of SETXATTR than the client's, something else arrives than was sent. -/
example : outcome ⟨fun _ op s => (.done, s ++ [op]), ⟨36, 1⟩, true, .linux, fun _ => 0x1000⟩ false 3 200
      (script [(bob, .setxattr root [0x61, 0x61] [5, 6, 7, 8, 9, 10, 11, 12] 0 0)] []) ([] : List Op) ≠
    some (some [.done], some [.setxattr root [0x61, 0x61] [5, 6, 7, 8, 9, 10, 11, 12] 0 0]) := by decide +kernel

/-- C78_mount for it: a server with a limit on writes, a client that offers 8.0 and 7.34. -/
example : ∃ conn w, (({} : FuseServer).maxWrite 65536).Connects (Wired.socket (Option Store) _)
      (some ⟨0, []⟩, [], fun _ => program.session (fun _ => 7) (initMessage 4 7 34 [65536, 0]) [initMessage 2 8 0 [65536, 0]])
      (.ok conn, w) ∧
    ∀ buf : Bytes, conn.recvBufLen ≤ buf.length → ∃ heard k, FuseServes (Wired.socket (Option Store) _)
        ((⟨Store.act, conn.layout, true, .linux, fun _ => 0x1000⟩ : RpcServer Store).handlers (Wired.socket (Option Store) _)) buf w
        (.ok (), (some (program.run Store.act ⟨0, []⟩).2, heard, k)) ∧
      k heard = .done (some (program.run Store.act ⟨0, []⟩).1) :=
  C78_mount Store.act true .linux (fun _ => 0x1000) (fun _ => (by decide : 0x1000 % 8 = 0)) _ (fun _ => 7)
    (fun _ => show (7 : UInt64) ≠ 0 by decide) _ _ (by decide) (by decide) program ⟨0, []⟩ (fun ext =>
      Use.Valid.mono (n := 8192) (Nat.le_max_right ..) program (by cases ext <;> decide +kernel))

/-- Something to answer. -/
def sample : Kind → Ans
  | .silent => .silent
  | .empty => .done
  | .data _ => .data [1, 2, 3]
  | .items _ => .items [⟨root, ⟨7, by decide⟩, none, [0x61]⟩, ⟨⟨300, by decide⟩, ⟨8, by decide⟩, some .socket, [0x61, 0x62]⟩]
  | .plusItems _ => .plusItems [⟨theFile.found, ⟨7, by decide⟩, [0x61]⟩, ⟨theFile.found, ⟨8, by decide⟩, [0x61, 0x62]⟩]
  | .names _ => .names [[0x61, 0x62], [], [0x63]]
  | .entry => .absent ⟨5, 6, by decide⟩
  | .attr => .attr ⟨⟨9, by decide⟩, 1, 2, 3, ⟨-4, 5⟩, ⟨6, 7⟩, ⟨8, 9⟩, 10, 11, 12, 13, 14, false, true⟩ ⟨15, 16, by decide⟩
  | .created => .created theFile.found 17 18
  | .opened => .opened 19 20
  | .written => .written 21
  | .space => .space ⟨22, 23, 24, 25, 26, 27, 28, 29⟩
  | .size => .size 30
  | .lock => .lock 31 32 33 34
  | .position => .position 35
  | .polled => .polled 36
  | .block => .block 37
  | .ioctl _ => .ioctl (-38) [39, 40]

/-- A filesystem that remembers what it has been asked. -/
def remember (who : Caller) (op : Op) (past : List (Caller × Op)) : Ans × List (Caller × Op) :=
  (sample op.kind, past ++ [(who, op)])

/-- All operations. -/
def everything : List Op :=
  let f : NodeId := ⟨0x1122, by decide⟩
  [.access f 1, .bmap f 2 3, .copyFileRange f 4 5 root 6 7 8 9, .create f [0x61] 10 11 12 13, .fallocate f 14 15 16 17,
    .flush f 18 19, .forget [(f, 20)], .forget [(f, 21), (root, 22)], .forget [], .fsync f 23 24, .fsyncdir f 25 26,
    .getattr f (some 27), .getattr f none, .getlk f 28 29 2 ⟨30, some ⟨31, by decide⟩⟩, .getlk f 28 29 2 ⟨30, none⟩,
    .setlk f 32 33 1 true 1 ⟨34, some ⟨35, by decide⟩⟩ 36, .setlk f 32 33 1 false 2 ⟨34, none⟩ 0, .getxattr f [0x62] 37,
    .getxattr f [0x62] 0, .listxattr f 38, .listxattr f 0, .removexattr f [0x63], .setxattr f [0x64] [39, 40] 41 0,
    .interrupt ⟨42, by decide⟩, .ioctl f 43 44 45 46 [47, 48] 49, .link f root [0x65], .lookup f [0x66], .lseek f 50 51 52,
    .mkdir f [0x67] 53 54, .mknod f [0x68] 0x2001 55 (some 56), .mknod f [0x68] 0x8001 55 none, .open_ f 57 58,
    .opendir f 59 60, .poll f 61 62 63, .read f 64 65 66 (some 67) 68, .read f 64 65 66 none 68, .readdir f 69 70 500 72,
    .readdirplus f 73 74 500 76, .readlink f, .release f 77 78 (some 79), .release f 77 78 none, .releasedir f 80 81 (some 82),
    .rename f [0x69] root [0x6A] 0, .rename f [0x69] root [0x6A] 83, .rmdir f [0x6B],
    .setattr f { mode := some 84, uid := some 85, gid := some 86, size := some 87, atime := some ⟨-88, 89⟩, mtimeNow := true },
    .setattr f { mtime := some ⟨90, 91⟩, ctime := some ⟨92, 93⟩, atimeNow := true, fh := some 94, owner := some 95 },
    .statfs f, .symlink f [0x6C] [0x6D, 0x2F], .unlink f [0x6E], .write f 96 97 [98, 99] 6 (some 100) 101,
    .write f 96 97 [] 4 none 101]

/-- All of them are possible. -/
example : (script (everything.map (bob, ·)) []).Valid remember false 200 [] := by decide +kernel

/-- By running the model: all arrive as they were sent, and so do the answers. -/
example : outcome ⟨remember, ⟨36, 0⟩, true, .linux, fun _ => 0x1000⟩ false 60 200 (script (everything.map (bob, ·)) []) [] =
    some (some (everything.map fun op => sample op.kind), some (everything.map (bob, ·))) := by decide +kernel

/-- With extended SETXATTR requests. -/
def everythingExt : List Op := everything ++ [.setxattr root [0x61] [1] 2 3]

example : (script (everythingExt.map (alice, ·)) []).Valid remember true 200 [] ∧
    ¬ (script (everythingExt.map (alice, ·)) []).Valid remember false 200 [] := by
  constructor <;> decide +kernel

example : outcome ⟨remember, ⟨33, 1⟩, false, .freebsd, fun _ => 0x1000⟩ true 60 200
      (script (everythingExt.map (alice, ·)) []) [] =
    some (some (everythingExt.map fun op => sample op.kind), some (everythingExt.map (alice, ·))) := by decide +kernel

end Rpc

end Fuse
