import Verif.PropRpc
import Verif.Note

/-!
# C81: notifications reach the client beside the replies

Replies and notifications go through one socket, in any order.  Whatever the order, the client can tell which is which, which
request a reply is for, and what was announced.  A program that uses a filesystem that sends notifications is told what the
filesystem answers and announces, in that order.
-/

namespace Fuse
open Spec

/-! ## Any order -/

/-- What a client is to make of it. -/
def Sending.meaning (minor : Nat) : Sending → News
  | .reply id (.err e) => .reply id.val (.error e.val)
  | .reply id a => .reply id.val (.ok (a.payload minor))
  | .notice a => .notice a.meaning

/-- It fits into a message. -/
def Sending.Fits (minor : Nat) : Sending → Prop
  | .reply _ a => 16 + (a.payload minor).length < 2 ^ 32
  | .notice a => a.size < 2 ^ 32

theorem postbox_send {b : SendBuf} {msg : Bytes} (h : Carries b msg) (s : List Bytes) :
    postbox.send b s = (.ok (), s ++ [msg]) := by
  obtain ⟨cs, h1, _, h2, _⟩ := h
  show (match b.chunks with | .ok cs => _ | .error _ => _) = _
  rw [h1]
  dsimp only
  rw [h2]

theorem notice_id {m : Bytes} {n : Notice} (h : readNotice m = some n) : u64At m 8 = 0 := by
  unfold readNotice at h
  split at h
  · cases h
  · rename_i hn
    exact Decidable.byContradiction fun e => hn (.inr e)

theorem sending_run (layout : FuseLayout) (x : Sending) (hx : x.Fits layout.versionMinor.toNat) (s : List Bytes) :
    ∃ m, x.run postbox layout s = .ok (.ok (), s ++ [m]) ∧ readNews m = some (x.meaning layout.versionMinor.toNat) := by
  cases x with
  | notice a =>
    obtain ⟨buf, msg, h1, h2, h3, h4⟩ := C36_partial postbox a s hx
    refine ⟨msg, ?_, ?_⟩
    · show notify _ _ _ = _
      rw [h1, postbox_send h2]
    · unfold readNews
      rw [if_pos (notice_id h4), h4]
      rfl
  | reply id a =>
    obtain ⟨b, hb, hrun⟩ := C17_fuse postbox layout id a s hx
    refine ⟨_, congrArg Except.ok (hrun.trans (postbox_send hb s)), ?_⟩
    have h8 : u64At (frame id.val a.error (a.payload layout.versionMinor.toNat)) 8 = id.val.toNat :=
      (C17_frame id.val a.error _ hx).2.2.1
    have hn : id.val.toNat ≠ 0 := fun h => id.2 (UInt64.toNat_inj.mp h)
    unfold readNews
    rw [h8, if_neg hn, UInt64.ofNat_toNat]
    cases a with
    | err e =>
      show (parseReply id.val (frame id.val e.val [])).map _ = _
      rw [parse_frame_err]
      rfl
    | _ =>
      have := parse_frame_ok id.val _ hx
      exact congrArg (Option.map _) this

/-- C81: whatever is sent, in whatever order, through the replies and notifications of a connection, the client finds it in
the messages, in that order: which request a reply is for and what it says, and what is announced. -/
theorem C81_news (layout : FuseLayout) (l : List Sending) (hl : ∀ x ∈ l, x.Fits layout.versionMinor.toNat) :
    ∃ out, sendAll layout l [] = some out ∧ out.mapM readNews = some (l.map (·.meaning layout.versionMinor.toNat)) := by
  have go : ∀ (l : List Sending) (s : List Bytes), (∀ x ∈ l, x.Fits layout.versionMinor.toNat) →
      ∃ out, sendAll layout l s = some (s ++ out) ∧
        out.mapM readNews = some (l.map (·.meaning layout.versionMinor.toNat)) := by
    intro l
    induction l with
    | nil => exact fun s _ => ⟨[], by rw [List.append_nil]; rfl, rfl⟩
    | cons x l ih =>
      intro s hl
      obtain ⟨m, h1, h2⟩ := sending_run layout x (hl x List.mem_cons_self) s
      obtain ⟨out, h3, h4⟩ := ih (s ++ [m]) (fun y hy => hl y (List.mem_cons_of_mem _ hy))
      refine ⟨m :: out, ?_, ?_⟩
      · unfold sendAll
        rw [h1]
        dsimp only
        rw [h3, List.append_assoc]
        rfl
      · rw [List.mapM_cons, h2, h4]
        rfl
  exact go l [] hl

/-! ## Programs that listen -/

/-- What the protocol can express: announcements that fit into a message, and none after an answer that is not sent. -/
def Reaction.Ok (kind : Kind) (r : Reaction) : Prop :=
  kind.Allows r.ans ∧ (∀ a ∈ r.before, a.size < 2 ^ 32) ∧ (∀ a ∈ r.after, a.size < 2 ^ 32) ∧ (kind = .silent → r.after = [])

/-- A program that only asks what the protocol can express, in requests of at most `n` bytes, of a filesystem that answers
and announces what the protocol can express. -/
def Spec.Listener.Valid {α S : Type} (act : Caller → Op → S → Reaction × S) (ext : Bool) (n : Nat) : Listener α → S → Prop
  | .done _, _ => True
  | .call who op k, s =>
    op.Ok ext ∧ 40 + (op.request ext).2.body.length ≤ min n 0xFFFFFFFF ∧ (act who op s).1.Ok op.kind ∧
      (k (act who op s).1.told).Valid act ext n (act who op s).2

section
variable {S α : Type} (srv : NoteServer S)

theorem note_answer_eq {ω ε : Type} {sock : Socket (Option S × ω) ε} {t : ReqType} {r : Request} {s : S} {w : ω}
    {id : NonZeroU64} {hdr : FuseInHeader} {q : AnyRequest} {op : Op}
    (h1 : Filesystem.idAndHeader r = .ok (id, hdr)) (h2 : r.decode (decodeAny t) = .ok q) (h3 : q.op = .ok (some op))
    {a : Reaction} {s' : S} (h4 : srv.act ⟨hdr.uid, hdr.gid, hdr.pid⟩ op s = (a, s')) {w1 w2 : ω}
    (h5 : announceAll sock a.before (some s', w) = (some s', w1))
    (h6 : (match a.ans.reply srv.os (srv.addr op) op.room with
      | .ok (some a) =>
        match a.run (.new sock srv.layout id) (some s', w1) with
        | (.ok (), w) => w
        | (.error _, w) => (none, w.2)
      | .ok none => (some s', w1)
      | .error _ => (none, w1)) = (some s', w2)) :
    srv.answer sock t r s w = announceAll sock a.after (some s', w2) := by
  obtain ⟨act, layout, checks, os, addr⟩ := srv
  dsimp only at h4 h6
  unfold NoteServer.answer
  rw [h1, h2]
  dsimp only
  rw [h3]
  dsimp only
  rw [h4]
  dsimp only
  rw [h5]
  exact congrArg (fun x : Option S × ω => match x with
    | (none, w) => (none, w)
    | (some s, w) => announceAll sock a.after (some s, w)) h6

theorem announceAll_sends {ω ε : Type} (sock : Socket (Option S × ω) ε) (put : Bytes → ω → ω)
    (hput : ∀ {b : SendBuf} {msg : Bytes}, Carries b msg → ∀ w, sock.send b w = (.ok (), (w.1, put msg w.2))) (s : S)
    (l : List Announcement) : (∀ a ∈ l, a.size < 2 ^ 32) → ∀ w : ω,
    ∃ out : List Bytes, announceAll sock l (some s, w) = (some s, out.foldl (fun w m => put m w) w) ∧
      readNotices out = some (l.map (·.meaning)) ∧ ∀ m ∈ out, u64At m 8 = 0 := by
  induction l with
  | nil => exact fun _ w => ⟨[], rfl, rfl, fun _ h => nomatch h⟩
  | cons a l ih =>
    intro hl w
    obtain ⟨buf, msg, h1, h2, -, h4⟩ := C36_partial sock a (some s, w) (hl a List.mem_cons_self)
    obtain ⟨out, h5, h6, h7⟩ := ih (fun b hb => hl b (List.mem_cons_of_mem _ hb)) (put msg w)
    refine ⟨msg :: out, ?_, ?_, fun m hm => ?_⟩
    · unfold announceAll
      rw [h1, hput h2]
      exact h5
    · unfold readNotices at h6 ⊢
      rw [List.mapM_cons, h4, h6]
      rfl
    · rcases List.mem_cons.mp hm with rfl | hm
      · exact notice_id h4
      · exact h7 m hm

theorem takeWhile_notices {pre post : List Bytes} (hpre : ∀ m ∈ pre, u64At m 8 = 0)
    (hpost : ∀ m ∈ post.head?, u64At m 8 ≠ 0) :
    (pre ++ post).takeWhile (fun m => decide (u64At m 8 = 0)) = pre ∧
      (pre ++ post).dropWhile (fun m => decide (u64At m 8 = 0)) = post := by
  induction pre with
  | nil =>
    cases post with
    | nil => exact ⟨rfl, rfl⟩
    | cons m post =>
      have := hpost m rfl
      rw [List.nil_append, List.takeWhile_cons, List.dropWhile_cons]
      simp [this]
  | cons m pre ih =>
    obtain ⟨h1, h2⟩ := ih fun x hx => hpre x (List.mem_cons_of_mem _ hx)
    have := hpre m List.mem_cons_self
    rw [List.cons_append, List.takeWhile_cons, List.dropWhile_cons]
    simp [this, h1, h2]

/-- Handling one request, with any socket that takes messages. -/
theorem note_handles {ω ε : Type} (sock : Socket (Option S × ω) ε) (put : Bytes → ω → ω)
    (hput : ∀ {b : SendBuf} {msg : Bytes}, Carries b msg → ∀ w, sock.send b w = (.ok (), (w.1, put msg w.2)))
    (haddr : ∀ op, srv.addr op % 8 = 0) (h12 : 12 ≤ srv.layout.versionMinor) {ext : Bool}
    (hext : ext = true ↔ srv.layout.features &&& 1 ≠ 0) {u : UInt64} (hu : u ≠ 0) {who : Caller} {op : Op} {s : S}
    (hok : op.Ok ext) (hl : 40 + (op.request ext).2.body.length < 2 ^ 32)
    (ha : (srv.act who op s).1.Ok op.kind) {w : ω} {msg : Bytes}
    (hmsg : (op.request ext).2.message u (op.request ext).1 who.uid who.gid who.pid 0 = msg) :
    Acceptable msg ∧ msg.length = 40 + (op.request ext).2.body.length ∧
      ∃ out : List Bytes, fuseHandle (srv.handlers sock) msg (some s, w) =
          (some (srv.act who op s).2, out.foldl (fun w m => put m w) w) ∧
        op.listen u out = (srv.act who op s).1.told := by
  obtain ⟨hacc, hml, m, t, id, hdr, q, hm, ht, hh, rfl, rfl, hq, hop⟩ :=
    request_taken (checks := srv.checks) h12 hext hu hok hl hmsg
  refine ⟨hacc, hml, ?_⟩
  have hhandle : fuseHandle (srv.handlers sock) msg (some s, w) = srv.answer sock t ⟨msg⟩ s w := by
    unfold fuseHandle
    rw [hm]
    dsimp only
    unfold NoteServer.handlers
    dsimp only
    rw [ht]
    rfl
  generalize hr : srv.act ⟨hdr.uid, hdr.gid, hdr.pid⟩ op s = r at *
  obtain ⟨a, s'⟩ := r
  obtain ⟨h1, h2, h3, h4⟩ := ha
  obtain ⟨pre, p1, p2, p3⟩ := announceAll_sends sock put hput s' a.before h2 w
  obtain ⟨mid, m1, m2, m3⟩ := reply_runs sock put hput h12 (os := srv.os) (haddr op) (id := id) h1 (s' := s')
    (w := pre.foldl (fun w m => put m w) w)
  obtain ⟨post, q1, q2, q3⟩ := announceAll_sends sock put hput s' a.after h3
    (mid.foldl (fun w m => put m w) (pre.foldl (fun w m => put m w) w))
  refine ⟨pre ++ (mid ++ post), ?_, ?_⟩
  · rw [hhandle, note_answer_eq srv hh hq hop hr p1 m1, q1, List.foldl_append, List.foldl_append]
  · rcases m3 with ⟨e1, rfl⟩ | ⟨_, x, rfl, e2⟩
    · have e0 := h4 e1
      rw [e0] at q2
      have : post = [] := by
        cases post with
        | nil => rfl
        | cons y l =>
          unfold readNotices at q2
          rw [List.mapM_cons] at q2
          cases hy : readNotice y with
          | none => rw [hy] at q2; cases q2
          | some n =>
            cases hz : l.mapM readNotice with
            | none => rw [hy, hz] at q2; cases q2
            | some ns => rw [hy, hz] at q2; cases q2
      subst this
      obtain ⟨t1, t2⟩ := takeWhile_notices (post := []) p3 (fun _ h => nomatch h)
      unfold Op.listen
      rw [List.append_nil, t1, t2]
      dsimp only
      rw [p2]
      show (⟨_, op.hear id.val [], []⟩ : Told) = _
      rw [m2]
      show _ = (⟨_, _, a.after.map _⟩ : Told)
      rw [e0]
      rfl
    · have hx : u64At x 8 ≠ 0 := by
        rw [e2]
        exact fun h => id.2 (UInt64.toNat_inj.mp h)
      obtain ⟨t1, t2⟩ := takeWhile_notices (post := [x] ++ post) p3 (fun y hy => by cases hy; exact hx)
      unfold Op.listen
      rw [t1, t2]
      dsimp only
      rw [p2]
      show (match some _, readNotices post with
        | some before, some after => (⟨before, op.hear id.val [x], after⟩ : Told)
        | _, _ => ⟨[], .broken, []⟩) = _
      rw [q2]
      show (⟨_, op.hear id.val [x], _⟩ : Told) = _
      rw [m2]
      rfl

theorem wired_foldl {γ : Type} (out heard : List Bytes) (k : γ) :
    out.foldl (fun (w : List Bytes × γ) m => (w.1 ++ [m], w.2)) (heard, k) = (heard ++ out, k) := by
  induction out generalizing heard with
  | nil => rw [List.append_nil]; rfl
  | cons m out ih =>
    rw [List.foldl_cons, ih, List.append_assoc]
    rfl

/-- One request. -/
theorem note_step (haddr : ∀ op, srv.addr op % 8 = 0) (h12 : 12 ≤ srv.layout.versionMinor) {ext : Bool}
    (hext : ext = true ↔ srv.layout.features &&& 1 ≠ 0) {u : UInt64} (hu : u ≠ 0) {who : Caller} {op : Op} {s : S} {buf : Bytes}
    (hok : op.Ok ext) (hfit : 40 + (op.request ext).2.body.length ≤ min buf.length 0xFFFFFFFF)
    (ha : (srv.act who op s).1.Ok op.kind) {heard : List Bytes} {k k' : List Bytes → Talk α}
    (hk : k heard = .say ((op.request ext).2.message u (op.request ext).1 who.uid who.gid who.pid 0) k') :
    ∃ buf' out, buf'.length = buf.length ∧
      fuseServeStep (Wired.socket (Option S) α) (srv.handlers (Wired.socket (Option S) α)) (buf, (some s, heard, k)) =
        .inr (buf', (some (srv.act who op s).2, out, k')) ∧
      op.listen u out = (srv.act who op s).1.told := by
  obtain ⟨hacc, hml, out, e1, e2⟩ := note_handles srv (Wired.socket (Option S) α) (fun m w => (w.1 ++ [m], w.2))
    (fun hb w => mount_send hb w) haddr h12 hext hu hok (by omega) ha (w := ([], k')) rfl
  generalize (op.request ext).2.message u (op.request ext).1 who.uid who.gid who.pid 0 = msg at *
  have hr := mount_recv (content := some s) hk (show msg.length ≤ buf.length by omega)
  have htake : (msg ++ buf.drop msg.length).take msg.length = msg := List.take_left
  have hstep := fuse_serve_more (Wired.socket (Option S) α) (srv.handlers (Wired.socket (Option S) α)) hr
    (by rw [htake]; exact hacc)
  rw [htake, e1, wired_foldl, List.nil_append] at hstep
  refine ⟨msg ++ buf.drop msg.length, out, ?_, hstep, e2⟩
  rw [List.length_append, List.length_drop]
  omega

/-- A program, and what is made of its result. -/
theorem note_serves (haddr : ∀ op, srv.addr op % 8 = 0) (h12 : 12 ≤ srv.layout.versionMinor) {ext : Bool}
    (hext : ext = true ↔ srv.layout.features &&& 1 ≠ 0) {ids : Nat → UInt64} (hids : ∀ n, ids n ≠ 0) {β : Type} (g : α → β)
    (use : Listener α) :
    ∀ (n : Nat) (s : S) (buf : Bytes), use.Valid srv.act ext buf.length s →
      ∀ (heard : List Bytes) (k : List Bytes → Talk β),
        k heard = (do let r ← use.talk ids ext n; return g r) →
        ∃ heard' k', FuseServes (Wired.socket (Option S) β) (srv.handlers (Wired.socket (Option S) β)) buf (some s, heard, k)
            (.ok (), (some (use.run srv.act s).2, heard', k')) ∧
          k' heard' = .done (g (use.run srv.act s).1) := by
  induction use with
  | done a =>
    intro n s buf _ heard k hk
    have hk : k heard = .done (g a) := hk
    refine ⟨heard, k, .of_step ?_, hk⟩
    have hr : (Wired.socket (Option S) β).recv buf (some s, heard, k) =
        ((.error (.connectionClosed ()), buf), (some s, heard, k)) := by
      show (match k heard with | .done _ => _ | .say m k => _) = _
      rw [hk]
    simp only [fuseServeStep, fuseRecv, hr]
    rfl
  | call who op f ih =>
    intro n s buf hv heard k hk
    obtain ⟨h1, h2, h3, h4⟩ := hv
    obtain ⟨buf', out, e1, e2, e3⟩ := note_step srv haddr h12 hext (hids n) h1 h2 h3 (α := β)
      (k' := fun out => do let r ← Listener.talk ids ext (n + 1) (f (op.listen (ids n) out)); return g r) (hk.trans rfl)
    obtain ⟨heard', k', e4, e5⟩ := ih (srv.act who op s).1.told (n + 1) (srv.act who op s).2 buf' (by rw [e1]; exact h4) out
      (fun out => do let r ← Listener.talk ids ext (n + 1) (f (op.listen (ids n) out)); return g r) (by rw [e3])
    exact ⟨heard', k', .of_next e2 e4, e5⟩

end

/-- C81: whatever the filesystem does and announces, a program that uses it through messages, served by `serve_local`, is told
the same, in the same order, as if it used the filesystem directly; it ends with the same result, and the filesystem is left
in the same state. -/
theorem C81 {S α : Type} (srv : NoteServer S) (haddr : ∀ op, srv.addr op % 8 = 0) (h12 : 12 ≤ srv.layout.versionMinor)
    (ext : Bool) (hext : ext = true ↔ srv.layout.features &&& 1 ≠ 0) (ids : Nat → UInt64) (hids : ∀ n, ids n ≠ 0)
    (use : Listener α) (s : S) (buf : Bytes) (hv : use.Valid srv.act ext buf.length s) :
    ∃ heard k, FuseServes (Wired.socket (Option S) α) (srv.handlers (Wired.socket (Option S) α)) buf
        (some s, [], fun _ => use.talk ids ext 0) (.ok (), (some (use.run srv.act s).2, heard, k)) ∧
      k heard = .done (use.run srv.act s).1 :=
  note_serves srv haddr h12 hext hids id use 0 s buf hv [] (fun _ => use.talk ids ext 0) (bind_done _).symm

/-- A session: the handshake, then the program; see `Spec.Use.session`. -/
def Spec.Listener.session {α : Type} (ids : Nat → UInt64) (init : Bytes) (use : Listener α) (newer : List Bytes) :
    Talk (Option α) :=
  Client.handshake init (fun reply => use.talk ids ((u32At reply 12).testBit 29) 0) newer

theorem Spec.Listener.Valid.mono {α S : Type} {act : Caller → Op → S → Reaction × S} {ext : Bool} {n m : Nat} (h : n ≤ m)
    (use : Listener α) : ∀ {s : S}, use.Valid act ext n s → use.Valid act ext m s := by
  induction use with
  | done a => exact id
  | call who op f ih =>
    intro s hv
    obtain ⟨h1, h2, h3, h4⟩ := hv
    exact ⟨h1, by omega, h3, ih _ h4⟩

/-- C81: the same through a whole mount; see `C78_mount`. -/
theorem C81_mount {S α : Type} (act : Caller → Op → S → Reaction × S) (checks : Bool) (os : Os) (addr : Op → Nat)
    (haddr : ∀ op, addr op % 8 = 0) (server : FuseServer) (ids : Nat → UInt64) (hids : ∀ n, ids n ≠ 0) (newer : List Bytes)
    (init : Bytes) (hnewer : ∀ m ∈ newer, m.length ≤ 8192 ∧ IsFuseInit m ∧ u32At m 40 ≠ 7)
    (hinit : init.length ≤ 8192 ∧ IsFuseInit init ∧ u32At init 40 = 7 ∧ 12 ≤ u32At init 44) (use : Listener α) (s : S)
    (hv : ∀ ext, use.Valid act ext (max (server.initReply.maxWrite.toNat + 4096) 8192) s) :
    ∃ conn w, server.Connects (Wired.socket (Option S) _) (some s, [], fun _ => use.session ids init newer) (.ok conn, w) ∧
      ∀ buf : Bytes, conn.recvBufLen ≤ buf.length →
        ∃ heard k, FuseServes (Wired.socket (Option S) _) ((⟨act, conn.layout, checks, os, addr⟩ : NoteServer S).handlers
            (Wired.socket (Option S) _)) buf w (.ok (), (some (use.run act s).2, heard, k)) ∧
          k heard = .done (some (use.run act s).1) := by
  obtain ⟨conn, p, q, k, h1, h2, h3, h4, h5, -⟩ := connects server init
    (fun reply => use.talk ids ((u32At reply 12).testBit 29) 0) ⟨hinit.1, hinit.2.1, hinit.2.2.1, by omega⟩ (some s) newer hnewer
    minReadBuffer [] (fun _ => use.session ids init newer) (List.length_replicate ..) rfl
  refine ⟨conn, _, h1, fun buf hbuf => ?_⟩
  have h12 : 12 ≤ conn.layout.versionMinor := by
    rw [UInt16.le_iff_toNat_le, h4]
    show 12 ≤ min _ 36
    omega
  rw [h5] at hbuf
  exact note_serves ⟨act, conn.layout, checks, os, addr⟩ haddr h12 h3.symm hids some use 0 s buf
    (Listener.Valid.mono hbuf use (hv _)) [p] k h2

/-! ## Concrete cases -/

section
variable {ext : Bool} {n : Nat}

deriving instance DecidableEq for Kind

instance decidableReactionOk (kind : Kind) (r : Reaction) : Decidable (r.Ok kind) := by
  unfold Reaction.Ok
  infer_instance

instance decidableListenerValid {α S : Type} (act : Caller → Op → S → Reaction × S) :
    (use : Listener α) → (s : S) → Decidable (use.Valid act ext n s)
  | .done _, _ => .isTrue trivial
  | .call who op k, s =>
    have := decidableListenerValid act (k (act who op s).1.told) (act who op s).2
    inferInstanceAs (Decidable (_ ∧ _ ∧ _ ∧ _))

end

namespace Note

open Rpc (alice bob root)

/-- A file whose readers are told of changes: of a write before it is answered, of its removal before and after. -/
def act (_ : Caller) (op : Op) (s : Bytes) : Reaction × Bytes :=
  match op with
  | .write n _ off d _ _ _ =>
    ({ before := [.invalidateInode n (some off) none, .poll 5], ans := .written (.ofNat d.length) }, s ++ d)
  | .unlink p _ =>
    ({ before := [.invalidateEntry p ⟨[0x61]⟩], ans := .done,
       after := [.delete p ⟨2, by decide⟩ ⟨[0x61]⟩, .poll 6] }, [])
  | .forget _ => ({ before := [.poll 7], ans := .silent }, s)
  | .read _ _ off n _ _ => ({ ans := .data ((s.drop off.toNat).take n.toNat) }, s)
  | _ => ({ ans := .error ⟨-38, by decide⟩, after := [.poll 8] }, s)

/-- One after the other, with all that is told. -/
def script : List (Caller × Op) → List Told → Listener (List Told)
  | [], ts => .done ts
  | (who, op) :: ops, ts => .call who op fun t => script ops (ts ++ [t])

def program : Listener (List Told) :=
  script [(alice, .write ⟨2, by decide⟩ 3 0 [1, 2, 3] 0 none 0), (bob, .forget [(⟨2, by decide⟩, 1)]), (bob, .statfs root),
    (bob, .read ⟨2, by decide⟩ 3 1 8 none 0), (bob, .unlink root [0x61])] []

def told : List Told :=
  [⟨[.invalInode 2 0 0, .poll 5], .written 3, []⟩, ⟨[.poll 7], .silent, []⟩, ⟨[], .error ⟨-38, by decide⟩, [.poll 8]⟩,
    ⟨[], .data [2, 3], []⟩, ⟨[.invalEntry 1 [0x61]], .done, [.delete 1 2 [0x61], .poll 6]⟩]

theorem program_run : program.run act [] = (told, []) := by decide +kernel

theorem program_valid : ∀ ext, program.Valid act ext 200 [] := by decide +kernel

/-- C81 for it. -/
example : ∃ heard k, FuseServes (Wired.socket (Option Bytes) _)
      ((⟨act, ⟨31, 0⟩, true, .linux, fun _ => 0x1000⟩ : NoteServer Bytes).handlers (Wired.socket _ _))
      (List.replicate 200 0) (some [], [], fun _ => program.talk (fun _ => 7) false 0) (.ok (), (some [], heard, k)) ∧
    k heard = .done told := by
  have h := C81 (⟨act, ⟨31, 0⟩, true, .linux, fun _ => 0x1000⟩ : NoteServer Bytes) (fun _ => (by decide : 0x1000 % 8 = 0))
    (by decide) false (by decide) (fun _ => 7) (fun _ => by decide) program [] (List.replicate 200 0) (program_valid false)
  rwa [show (⟨act, ⟨31, 0⟩, true, .linux, fun _ => 0x1000⟩ : NoteServer Bytes).act = act from rfl, program_run] at h

/-- The same by running the model. -/
def outcome {S α : Type} (srv : NoteServer S) (n len : Nat) (use : Listener α) (s : S) : Option (Option α × Option S) :=
  match iterate (fuseServeStep (Wired.socket (Option S) α) (srv.handlers (Wired.socket (Option S) α))) n
      (List.replicate len 0, (some s, [], fun _ => use.talk (fun n => .ofNat (n + 1)) false 0)) with
  | .inl (.ok (), (s, heard, k)) =>
    match k heard with
    | .done a => some (some a, s)
    | _ => some (none, s)
  | _ => none

example : outcome ⟨act, ⟨31, 0⟩, true, .linux, fun _ => 0x1000⟩ 6 200 program [] = some (some told, some []) := by
  decide +kernel

/-- Two replies, for requests 9 and 4, and announcements among them. -/
def mixed : List Sending :=
  [.notice (.poll 5), .reply ⟨9, by decide⟩ (.err ⟨-2, by decide⟩), .notice (.delete ⟨1, by decide⟩ ⟨2, by decide⟩ ⟨[0x61]⟩),
    .reply ⟨4, by decide⟩ (.okBuf [1, 2, 3])]

/-- C81_news for them. -/
example : ∃ out, sendAll ⟨31, 0⟩ mixed [] = some out ∧
    out.mapM readNews = some [.notice (.poll 5), .reply 9 (.error (-2)), .notice (.delete 1 2 [0x61]), .reply 4 (.ok [1, 2, 3])] :=
  C81_news ⟨31, 0⟩ mixed (by
    intro x hx
    rcases List.mem_cons.mp hx with rfl | hx
    · exact (by decide : 24 < 2 ^ 32)
    rcases List.mem_cons.mp hx with rfl | hx
    · exact (by decide : 16 + 0 < 2 ^ 32)
    rcases List.mem_cons.mp hx with rfl | hx
    · exact (by decide : 40 + 1 + 1 < 2 ^ 32)
    rcases List.mem_cons.mp hx with rfl | hx
    · exact (by decide : 16 + 3 < 2 ^ 32)
    cases hx)

/-- What is sent for the second of them. -/
example : (sendAll ⟨31, 0⟩ mixed []).bind (·[1]?) = some [16, 0, 0, 0, 0xFE, 0xFF, 0xFF, 0xFF, 9, 0, 0, 0, 0, 0, 0, 0] := by
  decide +kernel

end Note

end Fuse
