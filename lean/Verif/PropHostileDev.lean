import Verif.HostileDev
import Verif.PropHostile
import Verif.PropDev

/-!
# C85: a client of a character device that sends anything brings about only what it asks for

For filesystems see C84.  None of what is excepted there can be sent to a device.
-/

namespace Fuse
open Spec

/-! ## What the server takes from any request -/

/-- Forms of requests in use from version 7.9 on. -/
def ClientReq.DevCurrent : ClientReq → Prop
  | .flush .. | .fsync .. | .interrupt .. | .ioctl .. | .open_ .. | .poll .. | .read .. | .release .. | .write .. => True
  | _ => False

theorem dev_operation_of_matches {a : ClientReq} {node : UInt64} {cuse : Bool} {q : AnyRequest} (hc : a.DevCurrent)
    (hw : a.WellFormed node cuse) (h : a.Matches node cuse q) : ∃ op, a.devOperation = some op ∧ q.devOp = .ok (some op) := by
  cases a <;> try exact hc.elim
  case flush b =>
    cases q <;> try exact h.elim
    obtain ⟨h1, h2, h3⟩ := h
    exact ⟨_, rfl, by simp only [AnyRequest.devOp, h2, h3, pure, Except.pure]⟩
  case fsync b =>
    cases q <;> try exact h.elim
    obtain ⟨h1, h2, h3⟩ := h
    exact ⟨_, rfl, by simp only [AnyRequest.devOp, h2, h3, pure, Except.pure]⟩
  case interrupt b =>
    cases q <;> try exact h.elim
    obtain ⟨u, h1, h2⟩ := h
    refine ⟨.interrupt ⟨b.unique, hw⟩, ?_, ?_⟩
    · show (nodeFrom b.unique).map _ = _
      rw [nodeFrom_ne hw]
      rfl
    · simp only [AnyRequest.devOp, h1, show u = ⟨b.unique, hw⟩ from Subtype.ext h2, bind, Except.bind, pure, Except.pure]
  case ioctl b input =>
    cases q <;> try exact h.elim
    obtain ⟨h1, h2, h3, h4, h5, h6, h7, h8⟩ := h
    exact ⟨_, rfl, by simp only [AnyRequest.devOp, h2, h3, h4, h6, h7, h8, pure, Except.pure]⟩
  case open_ b =>
    cases q <;> try exact h.elim
    obtain ⟨h1, h2, h3⟩ := h
    exact ⟨_, rfl, by simp only [AnyRequest.devOp, h2, h3, pure, Except.pure]⟩
  case poll b =>
    cases q <;> try exact h.elim
    obtain ⟨h1, h2, h3, h4⟩ := h
    exact ⟨_, rfl, by simp only [AnyRequest.devOp, h2, h3, h4, pure, Except.pure]⟩
  case read b =>
    cases q <;> try exact h.elim
    obtain ⟨h1, h2, h3, h4, h5, h6⟩ := h
    exact ⟨_, rfl, by simp only [AnyRequest.devOp, h2, h3, h4, h5, h6, bind, Except.bind, pure, Except.pure]⟩
  case release b =>
    cases q <;> try exact h.elim
    obtain ⟨h1, h2, h3, h4⟩ := h
    exact ⟨_, rfl, by simp only [AnyRequest.devOp, h2, h3, h4, bind, Except.bind, pure, Except.pure]⟩
  case write b data =>
    cases q <;> try exact h.elim
    obtain ⟨⟨n, h0, h1⟩, h2, h3, h4, h5, h6, h7⟩ := h
    exact ⟨_, rfl, by simp only [AnyRequest.devOp, h2, h3, h4, h5, h6, h7, bind, Except.bind, pure, Except.pure]⟩

/-! ## What is asked for -/

theorem devTypeFor_eq (layout : CuseLayout) (n : Nat) :
    devTypeFor layout n = (cuseMethodAt n).map (CuseMethod.reqType layout) := by
  unfold devTypeFor cuseMethodAt
  split <;> first | rfl | (split <;> first | rfl | contradiction)

theorem dev_current {layout : CuseLayout} (h9 : 9 ≤ layout.versionMinor) {m : CuseMethod} {a : ClientReq}
    (h : a.HasType (m.reqType layout)) : a.DevCurrent ∧ a.ShiftFree ∧ ¬ a.IsOldWrite := by
  have m9 : 9 ≤ layout.versionMinor.toUInt32 := by
    rw [UInt32.le_iff_toNat_le, UInt16.toNat_toUInt32]
    exact UInt16.le_iff_toNat_le.mp h9
  have m8 : 8 ≤ layout.versionMinor.toUInt32 := UInt32.le_trans (by decide) m9
  cases m <;> cases a <;> first
    | exact h.elim
    | exact ⟨trivial, trivial, fun h => h⟩
    | exact absurd h (UInt32.not_lt.mpr m9)
    | exact absurd h (UInt32.not_lt.mpr m8)

theorem devAsked_of_encodes {layout : CuseLayout} {t : ReqType} {m : Bytes} (ht : devTypeFor layout (u32At m 4) = some t)
    {a : ClientReq} (ha : Encodes t a m) : devAsked layout m = a.devOperation.map fun op => (senderOf m, op) := by
  have he : meaning t (u32At m 4) (argsOf m) = a := by
    obtain ⟨_, h2, h3, ⟨s, h4⟩, h5⟩ := ha
    rw [h3, ← h4]
    exact meaning_body h2 h5 s
  unfold devAsked
  rw [ht]
  show (if Encodes t (meaning t (u32At m 4) (argsOf m)) m then _ else none) = _
  rw [he, if_pos ha]
  cases a.devOperation <;> rfl

theorem devAsked_encodes {layout : CuseLayout} {m : Bytes} {who : Caller} {op : DevOp}
    (h : devAsked layout m = some (who, op)) :
    ∃ t a, devTypeFor layout (u32At m 4) = some t ∧ Encodes t a m ∧ a.devOperation = some op ∧ who = senderOf m := by
  unfold devAsked at h
  cases ht : devTypeFor layout (u32At m 4) with
  | none => rw [ht] at h; cases h
  | some t =>
    rw [ht] at h
    have h : (if Encodes t (meaning t (u32At m 4) (argsOf m)) m then
      (meaning t (u32At m 4) (argsOf m)).devOperation.bind fun op => some (senderOf m, op) else none) = some (who, op) := h
    split at h
    · rename_i hc
      obtain ⟨op', h1, h2⟩ := Option.bind_eq_some_iff.mp h
      cases h2
      exact ⟨t, _, rfl, hc, h1, rfl⟩
    · cases h

/-- What is asked for is as the protocol has it. -/
theorem devAsked_ok {layout : CuseLayout} {m : Bytes} {who : Caller} {op : DevOp} (h : devAsked layout m = some (who, op)) :
    op.Ok := by
  obtain ⟨t, a, _, _, h3, _⟩ := devAsked_encodes h
  cases a <;> first
    | (cases h3; done)
    | (cases h3; exact trivial)
    | (cases h3; exact selected_isSome)
    | (obtain ⟨i, _, rfl⟩ := Option.map_eq_some_iff.mp h3; exact trivial)

/-- The message for an operation asks for it. -/
theorem devAsked_own {layout : CuseLayout} (h9 : 9 ≤ layout.versionMinor) {u node : UInt64} (hu : u ≠ 0) {who : Caller}
    {op : DevOp} (hok : op.Ok) (hp : ∀ handle events flags, op = .poll handle events flags → node ≠ 0)
    (hl : 40 + op.request.body.length < 2 ^ 32) :
    devAsked layout (op.request.message u node who.uid who.gid who.pid 0) = some (who, op) := by
  obtain ⟨m, hm, h1, h2, h4, h5⟩ := dev_request_reaches h9 hp hl
  have henc := message_encodes (unique := u) (uid := who.uid) (gid := who.gid) (pid := who.pid) (padding := 0) (tail := [])
    h1 h2 hu hl
  obtain ⟨id, hdr, hid, hw, hh⟩ := message_caller (a := op.request) (node := node) (uid := who.uid) (gid := who.gid)
    (pid := who.pid) hu
  rw [List.append_nil] at henc
  have hopc := henc.2.2.1
  generalize op.request.message u node who.uid who.gid who.pid 0 = msg at *
  obtain ⟨id', hdr', _, hwho', hid'⟩ := acceptable_sender henc.1
  cases hh.symm.trans hid'
  obtain ⟨q, hq, hmat⟩ := C67_decodes_partial henc h4 (fun h => absurd h h5)
  obtain ⟨op', e1, e2⟩ := dev_operation_of_matches (dev_current h9 h1).1 henc.2.2.2.2 hmat
  cases (dev_op_of_matches hok hmat).symm.trans e2
  rw [devAsked_of_encodes (t := m.reqType layout) (by rw [hopc, devTypeFor_eq, hm]; rfl) henc, e1, ← hwho', hw]
  rfl

/-! ## One message -/

section
variable {S α : Type} (srv : DevServer S)

theorem dev_refuse_eq {ω ε : Type} (sock : Socket (Option S × ω) ε) (put : Bytes → ω → ω)
    (hput : ∀ {b : SendBuf} {msg : Bytes}, Carries b msg → ∀ w, sock.send b w = (.ok (), (w.1, put msg w.2)))
    {m : Bytes} (h : Acceptable m) (e : FuseError) (s : S) (w : ω) :
    srv.refuse sock e ⟨m⟩ (some s, w) = (some s, put (frame (.ofNat (u64At m 8)) e.val []) w) := by
  obtain ⟨id, hdr, h1, _, h3⟩ := acceptable_sender h
  unfold DevServer.refuse
  rw [h3]
  dsimp only
  obtain ⟨b, hb, hrun⟩ := C17_cuse sock srv.layout id (.err e) (some s, w) (show 16 + 0 < 2 ^ 32 by decide)
  rw [hrun, hput hb, h1]
  rfl

/-- A message is dealt with as it is to be. -/
theorem dev_guard_handles {ω ε : Type} (sock : Socket (Option S × ω) ε) (put : Bytes → ω → ω)
    (hput : ∀ {b : SendBuf} {msg : Bytes}, Carries b msg → ∀ w, sock.send b w = (.ok (), (w.1, put msg w.2)))
    (h9 : 9 ≤ srv.layout.versionMinor) {m : Bytes} (hacc : Acceptable m) (s : S)
    (hans : ∀ who op, devAsked srv.layout m = some (who, op) → op.kind.Allows (srv.act who op s).1) (w : ω) :
    ∃ out s', cuseHandle (srv.guards sock) m (some s, w) = (some s', out.foldl (fun w m => put m w) w) ∧
      DevDealt srv.act srv.layout m s out s' ∧ out.length ≤ 1 := by
  have m9 : 9 ≤ srv.layout.versionMinor.toUInt32 := by
    rw [UInt32.le_iff_toNat_le, UInt16.toNat_toUInt32]
    exact UInt16.le_iff_toNat_le.mp h9
  cases hm : cuseMethodAt (u32At m 4) with
  | none =>
    have ht : devTypeFor srv.layout (u32At m 4) = none := by rw [devTypeFor_eq, hm]; rfl
    refine ⟨[frame (.ofNat (u64At m 8)) (-38) []], s, ?_, ?_, Nat.le_refl 1⟩
    · unfold cuseHandle
      rw [hm]
      show srv.refuse sock refusalUnknown ⟨m⟩ (some s, w) = _
      rw [dev_refuse_eq srv sock put hput hacc]
      rfl
    · have ha : devAsked srv.layout m = none := by
        unfold devAsked
        rw [ht]
        rfl
      unfold DevDealt devRefusal
      rw [ha, ht, if_neg (by intro e; rw [e] at hm; cases hm)]
      exact ⟨rfl, rfl⟩
  | some meth =>
    have ht : devTypeFor srv.layout (u32At m 4) = some (meth.reqType srv.layout) := by rw [devTypeFor_eq, hm]; rfl
    have hhandle : cuseHandle (srv.guards sock) m (some s, w) =
        srv.guarded sock (meth = .interrupt) (meth.reqType srv.layout) ⟨m⟩ s w := by
      unfold cuseHandle
      rw [hm]
      rfl
    have hquiet : meth = .interrupt ↔ u32At m 4 = 36 := by
      have key : ∀ n, cuseMethodAt n = some meth → (meth = .interrupt ↔ n = 36) := by
        intro n h
        unfold cuseMethodAt at h
        split at h <;> cases h <;> decide
      exact key _ hm
    rw [hhandle]
    unfold DevServer.guarded
    have hd := decode_accepted hacc (meth.reqType srv.layout)
    rw [hd]
    cases hq : decodeMessage (meth.reqType srv.layout) m with
    | error f =>
      cases f with
      | fault f =>
        obtain ⟨_, hf⟩ := (C04_exact _ m).1.mp ⟨f, hq⟩
        cases meth <;> try exact hf.elim
        exact absurd hf.1 (UInt32.not_lt.mpr m9)
      | req e =>
        have ha : devAsked srv.layout m = none := by
          cases ha : devAsked srv.layout m with
          | none => rfl
          | some x =>
            obtain ⟨who, op⟩ := x
            obtain ⟨t1, a, h1, h2, h3, h4⟩ := devAsked_encodes ha
            cases ht.symm.trans h1
            obtain ⟨_, c2, c3⟩ := dev_current h9 h2.2.1
            obtain ⟨q, h5, _⟩ := C67_decodes_partial h2 c2 (fun h => absurd h c3)
            rw [hq] at h5
            cases h5
        dsimp only
        by_cases hu : meth = .interrupt
        · refine ⟨[], s, if_pos (decide_eq_true hu), ?_, Nat.zero_le 1⟩
          unfold DevDealt devRefusal
          rw [ha, if_pos (hquiet.mp hu)]
          exact ⟨rfl, rfl⟩
        · refine ⟨[frame (.ofNat (u64At m 8)) (-5) []], s, ?_, ?_, Nat.le_refl 1⟩
          · rw [if_neg (by rw [decide_eq_true_iff]; exact hu), dev_refuse_eq srv sock put hput hacc]
            rfl
          · unfold DevDealt devRefusal
            rw [ha, ht, if_neg (fun e => hu (hquiet.mpr e))]
            exact ⟨rfl, rfl⟩
    | ok q =>
      dsimp only
      have hx : ¬ q.EmptyXattrName := by
        intro hx
        cases q <;> try exact hx.elim
        rcases (C67_exact _ m).2 _ hq with ⟨a, ha, hm⟩ | ⟨y, hy, hn, he⟩
        · have := (dev_current h9 ha.2.1).1
          cases a <;> first | exact hm.elim | exact this.elim
        · obtain ⟨_, _, _, l, hl, _⟩ := he
          cases meth <;> cases hl
      obtain ⟨a, h1, h2, h3, h4⟩ := C67_only_partial hq hx
      obtain ⟨op, h5, h6⟩ := dev_operation_of_matches (dev_current h9 h1.2.1).1 h1.2.2.2.2 h4
      have ha : devAsked srv.layout m = some (senderOf m, op) := by
        rw [devAsked_of_encodes ht h1, h5]
        rfl
      obtain ⟨id, hdr, i1, i2, i3⟩ := acceptable_sender hacc
      rw [dev_answer_eq srv i3 (hd.trans hq) h6 rfl]
      have hal := hans _ _ ha
      rw [← i2] at hal
      obtain ⟨out, e1, e2, e3⟩ := dev_reply_runs sock put hput (layout := srv.layout) (id := id) hal
        (s' := (srv.act ⟨hdr.uid, hdr.gid, hdr.pid⟩ op s).2) (w := w)
      refine ⟨out, _, e1, ?_, ?_⟩
      · unfold DevDealt
        rw [ha]
        refine ⟨by rw [← i2], by rw [← i1, ← i2]; exact e2, ?_⟩
        rcases e3 with ⟨k1, k2⟩ | ⟨_, r, k1, k2⟩
        · exact .inl ⟨k1, k2⟩
        · refine .inr ⟨r, k1, k2.trans ?_⟩
          rw [i1]
          exact UInt64.toNat_ofNat_of_lt' (u64At_lt _ _)
      · rcases e3 with ⟨_, rfl⟩ | ⟨_, r, rfl, _⟩
        · exact Nat.zero_le 1
        · exact Nat.le_refl 1

/-- The operations of a device keep what they rely upon, and answer with what can be sent. -/
def Spec.DevKeeps {S : Type} (act : Caller → DevOp → S → Ans × S) (inv : S → Prop) : Prop :=
  ∀ who op s, inv s → op.Ok → op.kind.Allows (act who op s).1 ∧ inv (act who op s).2

/-! ## Conversations -/

theorem dev_held_serves (h9 : 9 ≤ srv.layout.versionMinor) {inv : S → Prop} (hinv : DevKeeps srv.act inv) {β : Type}
    (g : α → β) (talk : Talk α) :
      ∀ (s : S) (buf : Bytes), inv s → ∀ (heard : List Bytes) (k : List Bytes → Talk β),
        k heard = (do let r ← talk; return g r) →
        ∃ r s' e heard' k', DevHeld srv.act srv.layout buf.length talk s r s' ∧ inv s' ∧
          CuseServes (Wired.socket (Option S) β) (srv.guards (Wired.socket (Option S) β)) buf (some s, heard, k)
            (.err e, (some s', heard', k')) ∧
          ∀ a, r = some a → e = .recv (.connectionClosed ()) ∧ k' heard' = .done (g a) := by
  induction talk with
  | done a =>
    intro s buf hs heard k hk
    have hk : k heard = .done (g a) := hk
    refine ⟨some a, s, _, heard, k, .done a s, hs, .of_step ?_, fun a' e => ⟨rfl, ?_⟩⟩
    · have hr : (Wired.socket (Option S) β).recv buf (some s, heard, k) =
          ((.error (.connectionClosed ()), buf), (some s, heard, k)) := by
        show (match k heard with | .done _ => _ | .say m k => _) = _
        rw [hk]
      simp only [cuseServeStep, cuseRecv, hr]
    · cases e
      exact hk
  | say m f ih =>
    intro s buf hs heard k hk
    have hk : k heard = .say m (fun out => do let r ← f out; return g r) := hk
    by_cases hl : m.length ≤ buf.length
    · have hr := mount_recv (content := some s) hk hl
      have htake : (m ++ buf.drop m.length).take m.length = m := List.take_left
      by_cases hacc : Acceptable m
      · obtain ⟨out, s1, e1, e2, e3⟩ := dev_guard_handles srv (Wired.socket (Option S) β) (fun m w => (w.1 ++ [m], w.2))
          (fun hb w => mount_send hb w) h9 hacc s (fun who op ha => (hinv who op s hs (devAsked_ok ha)).1)
          ([], fun out => do let r ← f out; return g r)
        have hs1 : inv s1 := by
          unfold DevDealt at e2
          split at e2
          · rename_i who op ha
            rw [e2.1]
            exact (hinv who op s hs (devAsked_ok ha)).2
          · rw [e2.1]
            exact hs
        have hlen : (m ++ buf.drop m.length).length = buf.length := by
          rw [List.length_append, List.length_drop]
          omega
        have hfold : out.foldl (fun (w : List Bytes × (List Bytes → Talk β)) m => (w.1 ++ [m], w.2))
            ([], fun out => do let r ← f out; return g r) = (out, fun out => do let r ← f out; return g r) := by
          rcases out with _ | ⟨m, _ | ⟨m', l⟩⟩
          · rfl
          · rfl
          · exact absurd e3 (by simp only [List.length_cons]; omega)
        rw [hfold] at e1
        have hstep := cuse_serve_more (Wired.socket (Option S) β) (srv.guards (Wired.socket (Option S) β)) hr
          (by rw [htake]; exact hacc)
        rw [htake, e1] at hstep
        obtain ⟨r, s2, e, heard', k', i1, i2, i3, i4⟩ := ih out s1 (m ++ buf.drop m.length) hs1 out
          (fun out => do let r ← f out; return g r) rfl
        rw [hlen] at i1
        exact ⟨r, s2, e, heard', k', .say hl hacc e2 i1, i2, .of_next hstep i3, i4⟩
      · obtain ⟨o, e1, e2⟩ := cuse_serve_stop (Wired.socket (Option S) β) (srv.guards (Wired.socket (Option S) β)) hr
          (by rintro n ⟨⟩; rw [htake]; exact hacc)
        cases e1 <;> exact ⟨none, s, _, [], _, .stop (fun h => hacc h.2), hs, .of_step e2, fun a h => nomatch h⟩
    · have hr : (Wired.socket (Option S) β).recv buf (some s, heard, k) =
          ((.error (.other ()), buf), (some s, heard, k)) := by
        show (match k heard with | .done _ => _ | .say m k => _) = _
        rw [hk]
        exact if_neg hl
      obtain ⟨o, e1, e2⟩ := cuse_serve_stop (Wired.socket (Option S) β) (srv.guards (Wired.socket (Option S) β)) hr
        (fun n h => nomatch h)
      cases e1
      exact ⟨none, s, _, heard, k, .stop (fun h => hl h.1), hs, .of_step e2, fun a h => nomatch h⟩

end

/-- C85: whatever a client sends, only what it asks for reaches the device, in the order asked, and everything else is refused,
until the client is done or sends what no request begins with, or what is longer than the buffer. -/
theorem C85 {S α : Type} (srv : DevServer S) (h9 : 9 ≤ srv.layout.versionMinor) (inv : S → Prop)
    (hinv : DevKeeps srv.act inv) (talk : Talk α) (s : S) (buf : Bytes) (hs : inv s) :
    ∃ r s' e heard k, DevHeld srv.act srv.layout buf.length talk s r s' ∧ inv s' ∧
      CuseServes (Wired.socket (Option S) α) (srv.guards (Wired.socket (Option S) α)) buf (some s, [], fun _ => talk)
        (.err e, (some s', heard, k)) ∧
      ∀ a, r = some a → e = .recv (.connectionClosed ()) ∧ k heard = .done a :=
  dev_held_serves srv h9 hinv id talk s buf hs [] (fun _ => talk) (bind_done _).symm

/-- C85: the same through a whole session, with any server made with the builder, and a client that sends anything once it
has been accepted. -/
theorem C85_session {S α : Type} (act : Caller → DevOp → S → Ans × S) (server : CuseServer)
    (hname : server.deviceName.bytes.length + 97 < 2 ^ 32) (newer : List Bytes) (init : Bytes)
    (hnewer : ∀ m ∈ newer, m.length ≤ 8192 ∧ IsCuseInit m ∧ u32At m 40 ≠ 7)
    (hinit : init.length ≤ 8192 ∧ IsCuseInit init ∧ u32At init 40 = 7 ∧ 9 ≤ u32At init 44) (inv : S → Prop)
    (hinv : DevKeeps act inv) (body : Bytes → Talk α) (s : S) (hs : inv s) :
    ∃ conn reply w, server.Connects (Wired.socket (Option S) _) (some s, [], fun _ => Client.handshake init body newer)
        (.ok conn, w) ∧
      ∀ buf : Bytes, ∃ r s' e heard k, DevHeld act conn.layout buf.length (body reply) s r s' ∧ inv s' ∧
        CuseServes (Wired.socket (Option S) _) ((⟨act, conn.layout⟩ : DevServer S).guards (Wired.socket (Option S) _)) buf w
          (.err e, (some s', heard, k)) ∧
        ∀ a, r = some a → e = .recv (.connectionClosed ()) ∧ k heard = .done (some a) := by
  obtain ⟨conn, p, q, k, h1, h2, h3, -⟩ := cuse_connects server hname init body hinit (some s) newer hnewer
    minReadBuffer [] (fun _ => Client.handshake init body newer) (List.length_replicate ..) rfl
  refine ⟨conn, q, _, h1, fun buf => ?_⟩
  have h9 : 9 ≤ conn.layout.versionMinor := by
    rw [UInt16.le_iff_toNat_le, h3]
    show 9 ≤ min _ 36
    omega
  exact dev_held_serves ⟨act, conn.layout⟩ h9 hinv some (body q) s buf hs [p] k h2

/-- C85: what is asked for is as the protocol has it, and the message for a possible operation asks for it; that of POLL must
have a node ID, as in C80_partial. -/
theorem C85_asked {layout : CuseLayout} (h9 : 9 ≤ layout.versionMinor) :
    (∀ m who op, devAsked layout m = some (who, op) → op.Ok) ∧
    ∀ (u node : UInt64) (who : Caller) (op : DevOp), u ≠ 0 → op.Ok →
      (∀ handle events flags, op = .poll handle events flags → node ≠ 0) → 40 + op.request.body.length < 2 ^ 32 →
      devAsked layout (op.request.message u node who.uid who.gid who.pid 0) = some (who, op) :=
  ⟨fun _ _ _ h => devAsked_ok h, fun _ _ _ _ hu hok hp hl => devAsked_own h9 hu hok hp hl⟩

/-! ## Concrete cases -/

namespace HostileDev

/-- A device that notes what it is asked, and does nothing else. -/
def note (who : Caller) (op : DevOp) (past : List (Caller × DevOp)) : Ans × List (Caller × DevOp) :=
  (match op.kind with | .silent => .silent | _ => .error ⟨-2, by decide⟩, past ++ [(who, op)])

/-- It relies upon having been asked nothing that the protocol does not have. -/
def Clean (past : List (Caller × DevOp)) : Prop := ∀ x ∈ past, x.2.Ok

theorem note_keeps : DevKeeps note Clean := by
  intro who op s hs hok
  refine ⟨Hostile.note_allowed _, fun x hx => ?_⟩
  rcases List.mem_append.mp hx with hx | hx
  · exact hs x hx
  · cases List.mem_singleton.mp hx
    exact hok

/-- What becomes of a conversation, running the model for at most `n` steps: the result, whether serving ends because the
client is done, and the device. -/
def outcome {S α : Type} (srv : DevServer S) (n len : Nat) (talk : Talk α) (s : S) : Option (Option α × Bool × Option S) :=
  match iterate (cuseServeStep (Wired.socket (Option S) α) (srv.guards (Wired.socket (Option S) α))) n
      (List.replicate len 0, (some s, [], fun _ => talk)) with
  | .inl (o, (s, heard, k)) =>
    some (match k heard with | .done a => some a | _ => none,
      match o with | .err (.recv (.connectionClosed ())) => true | _ => false, s)
  | _ => none

instance decidableResult : DecidableEq (Option (List (List Bytes)) × Bool × Option (List (Caller × DevOp))) :=
  @instDecidableEqProd _ _ inferInstance (@instDecidableEqProd _ _ inferInstance inferInstance)

/-- READ cut short, WRITE that claims to be longer than it is, a request that only filesystems know, IOCTL cut short, POLL
without a node ID, INTERRUPT of nothing, INTERRUPT; then WRITE followed by something else, and READ for a lock owner. -/
def messages : List Bytes :=
  [Hostile.raw 15 11 0 (List.replicate 39 0),
    Hostile.raw 16 12 0 (List.replicate 16 0 ++ [9, 0, 0, 0] ++ List.replicate 20 0 ++ [1]),
    Hostile.raw 9 13 1 ([1, 0, 0, 0, 2, 0, 0, 0] ++ [0x64, 0]),
    Hostile.raw 39 14 0 (List.replicate 24 0 ++ [2, 0, 0, 0, 0, 0, 0, 0] ++ [1]), Hostile.raw 40 15 0 (List.replicate 24 0),
    Hostile.raw 36 16 0 (List.replicate 8 0), Hostile.raw 36 17 0 [11, 0, 0, 0, 0, 0, 0, 0],
    Hostile.raw 16 18 0 ([7, 0, 0, 0, 0, 0, 0, 0] ++ [8, 0, 0, 0, 0, 0, 0, 0] ++ [2, 0, 0, 0] ++ List.replicate 20 0 ++
      [1, 2, 3]),
    Hostile.raw 15 19 0 ([7, 0, 0, 0, 0, 0, 0, 0] ++ [8, 0, 0, 0, 0, 0, 0, 0] ++ [5, 0, 0, 0] ++ [2, 0, 0, 0] ++
      [9, 0, 0, 0, 0, 0, 0, 0] ++ [4, 0, 0, 0] ++ [0, 0, 0, 0])]

/-- What they ask for. -/
def wanted : List (Caller × DevOp) :=
  [(⟨5, 6, 7⟩, .interrupt ⟨11, by decide⟩), (⟨5, 6, 7⟩, .write 7 8 [1, 2] 0 none 0),
    (⟨5, 6, 7⟩, .read 7 8 5 (some 9) 4)]

example : messages.filterMap (devAsked ⟨31⟩) = wanted := by decide +kernel

example : outcome ⟨note, ⟨31⟩⟩ 10 200 (Hostile.sends messages []) [] =
    some (some [[frame 11 (-5) []], [frame 12 (-5) []], [frame 13 (-38) []], [frame 14 (-5) []], [frame 15 (-5) []], [], [],
        [frame 18 (-2) []], [frame 19 (-2) []]], true, some wanted) := by decide +kernel

/-- What is too short ends it. -/
example : outcome ⟨note, ⟨31⟩⟩ 20 200 (Hostile.sends (messages ++ [[1, 2, 3]] ++ messages) []) [] =
    some (none, false, some wanted) := by decide +kernel

/-- And so does what is too long. -/
example : outcome ⟨note, ⟨31⟩⟩ 20 200 (Hostile.sends (messages ++ [List.replicate 201 0] ++ messages) []) [] =
    some (none, false, some wanted) := by decide +kernel

/-- C85 for them. -/
example : ∃ r s' e heard k, DevHeld note ⟨31⟩ 200 (Hostile.sends messages []) [] r s' ∧ Clean s' ∧
    CuseServes (Wired.socket (Option _) _) ((⟨note, ⟨31⟩⟩ : DevServer _).guards (Wired.socket (Option _) _))
      (List.replicate 200 0) (some [], [], fun _ => Hostile.sends messages []) (.err e, (some s', heard, k)) ∧
    ∀ a, r = some a → e = .recv (.connectionClosed ()) ∧ k heard = .done a := by
  have h := C85 (⟨note, ⟨31⟩⟩ : DevServer _) (by decide) Clean note_keeps (Hostile.sends messages []) []
    (List.replicate 200 0) (fun _ h => nomatch h)
  rwa [List.length_replicate] at h

/-- C85_session for them: a client that offers 8.0 and 7.40. -/
example : ∃ conn reply w, CuseServer.Connects ⟨⟨[0x71]⟩, ⟨1, 2⟩, 0, 0, 65536⟩ (Wired.socket (Option _) _)
      (some [], [], fun _ => Client.handshake (cuseInitMessage 4 7 40) (fun _ => Hostile.sends messages [])
        [cuseInitMessage 2 8 0]) (.ok conn, w) ∧
    ∀ buf : Bytes, ∃ r s' e heard k,
      DevHeld note conn.layout buf.length ((fun _ => Hostile.sends messages [] : Bytes → _) reply) [] r s' ∧ Clean s' ∧
      CuseServes (Wired.socket (Option _) _) ((⟨note, conn.layout⟩ : DevServer _).guards (Wired.socket (Option _) _)) buf w
        (.err e, (some s', heard, k)) ∧
      ∀ a, r = some a → e = .recv (.connectionClosed ()) ∧ k heard = .done (some a) :=
  C85_session note ⟨⟨[0x71]⟩, ⟨1, 2⟩, 0, 0, 65536⟩ (by show 1 + 97 < 2 ^ 32; omega) _ _ (by decide) (by decide) Clean
    note_keeps (fun _ => Hostile.sends messages []) [] (fun _ h => nomatch h)

/-- C85_asked: a message as the client makes it. -/
example : devAsked ⟨36⟩ ((DevOp.ioctl 43 44 45 46 [47, 48] 49).request.message 9 0 5 6 7 0) =
    some (⟨5, 6, 7⟩, .ioctl 43 44 45 46 [47, 48] 49) := by decide +kernel

end HostileDev

end Fuse
