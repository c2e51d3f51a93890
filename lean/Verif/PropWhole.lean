import Verif.PropStack
import Verif.PropServe
import Verif.VfsHom

/-!
# C76: a whole mount, from the handshake to the end

C75 gives each message of a client to the VFS layer by itself.  Here the client is what the server's socket is connected
to.  The server is connected with `FuseServer::connect`, and then receives and dispatches requests in a loop until the
connection is closed.  The client offers versions until one is accepted, makes its calls, and leaves.
-/

namespace Fuse
open Spec

namespace Spec

/-! ## The client -/

/-- Offering a version; the version in the reply, and all of it. -/
def Client.offer (m : Bytes) : Talk (Option (Nat × Nat × Bytes)) :=
  .say m fun out =>
    .done (match out with
      | [r] =>
        match parseReply (UInt64.ofNat (u64At m 8)) r with
        | some (.ok p) => if 8 ≤ p.length then some (u32At p 0, u32At p 4, p) else none
        | _ => none
      | _ => none)

/-- A conversation after the handshake: the offers of `newer` are of other major versions, which the client also
understands, and are to be answered with version 7.  How it goes on may depend on the reply to `init`. -/
def Client.handshake {α : Type} (init : Bytes) (body : Bytes → Talk α) : List Bytes → Talk (Option α)
  | m :: newer => do
    match ← Client.offer m with
    | some (7, _, _) => Client.handshake init body newer
    | _ => return none
  | [] => do
    match ← Client.offer init with
    | some (7, minor, p) =>
      if 7 ≤ minor ∧ minor ≤ u32At init 44 then
        let r ← body p
        return some r
      else return none
    | _ => return none

/-- A whole session of one program. -/
def Client.session (cfg : ClientConfig) (init : Bytes) (cs : List FileCall) (newer : List Bytes) :
    Talk (Option (List FileAns × Client)) :=
  Client.handshake init (fun _ => Client.calls cfg cs ⟨0, [], [], fun _ => 0⟩) newer

/-- Names and data fit into the buffer of a server that announces `maxWrite`. -/
def FileCall.Fits (maxWrite : Nat) : FileCall → Prop
  | .openAt path | .stat path | .openDir path | .readLink path | .listXattr path _ | .statFs path =>
    ∀ name ∈ path, name.length ≤ 8151
  | .getXattr path attr _ => (∀ name ∈ path, name.length ≤ 8151) ∧ attr.length ≤ 8143
  | .write _ _ data => data.length ≤ max 4096 maxWrite
  | _ => True

end Spec

/-! ## The world of the server -/

/-- The state of a server, what the client has been sent since its last message, and how it goes on from there. -/
abbrev Wired (S α : Type) := S × List Bytes × (List Bytes → Talk α)

/-- A socket connected to the client.  The connection is closed when the client has finished. -/
def Wired.socket (S α : Type) : Socket (Wired S α) Unit where
  recv buf w :=
    match w.2.2 w.2.1 with
    | .done _ => ((.error (.connectionClosed ()), buf), w)
    | .say m k =>
      if m.length ≤ buf.length then ((.ok m.length, m ++ buf.drop m.length), (w.1, [], k))
      else ((.error (.other ()), buf), w)
  recv_length buf w := by
    split
    · rfl
    · split
      · simp only [List.length_append, List.length_drop]; omega
      · rfl
  send buf w :=
    match buf.chunks with
    | .ok cs => (.ok (), (w.1, w.2.1 ++ [cs.flatten], w.2.2))
    | .error _ => (.error (.other ()), w)

/-- The state is the contents of the files. -/
abbrev MountWorld (α : Type) := Wired (NodeId → Bytes) α

/-- See `Wired.socket`. -/
abbrev MountWorld.socket (α : Type) : Socket (MountWorld α) Unit := Wired.socket (NodeId → Bytes) α

/-- The filesystem on a connection. -/
def Spec.Tree.mounted (tree : Tree) (α : Type) (conn : FuseConnection) (os : OsErrors) (checks : Bool)
    (alloc : ReaddirRequest → Nat) : Filesystem NodeId NodeId NodeId (MountWorld α) Unit :=
  ⟨MountWorld.socket α, conn.layout, os, tree.impl alloc, checks⟩

/-- One iteration of a server's loop: `FuseConnection::recv`, then `Filesystem::dispatch`.  The loop ends when the
connection is closed or something fails.  The library has no such loop for the VFS layer; this is
`fuse_serve_local`, fuse/server.rs:1611-1625, with `Filesystem::dispatch` for its handlers. -/
def Filesystem.serveStep {ν φ η σ ε : Type} (fs : Filesystem ν φ η σ ε) (st : Bytes × Vfs ν φ η σ) :
    (Outcome ε Unit × Vfs ν φ η σ) ⊕ (Bytes × Vfs ν φ η σ) :=
  match fuseRecv fs.sock st.1 st.2.world with
  | ((.error e, _), w) => .inl (.err e, { st.2 with world := w })
  | ((.ok none, _), w) => .inl (.ok (), { st.2 with world := w })
  | ((.ok (some r), buf), w) =>
    match (fs.dispatch r).run { st.2 with world := w } with
    | (some (.err e), s) => .inl (.err e, s)
    | (some (.fault f), s) => .inl (.fault f, s)
    | (_, s) => .inr (buf, s)

/-! ## What the client says -/

/-- All messages of a conversation, however it goes. -/
def Spec.Talk.All {α : Type} (P : Bytes → Prop) : Talk α → Prop
  | .done _ => True
  | .say m k => P m ∧ ∀ out, (k out).All P

section
variable {α β : Type} {P : Bytes → Prop}

theorem Spec.Talk.All.bind {t : Talk α} {f : α → Talk β} (h : t.All P) (hf : ∀ a, (f a).All P) :
    (t >>= f : Talk β).All P := by
  show (t.bind f).All P
  induction t with
  | done a => exact hf a
  | say m k ih => exact ⟨h.1, fun out => ih out (h.2 out)⟩

/-- A message the server can receive with a buffer of `n` bytes. -/
def Receivable (n : Nat) (m : Bytes) : Prop := m.length ≤ n ∧ ∃ r, Request.new m = .ok r

variable {cfg : ClientConfig} {n : Nat}

theorem receivable {a : ClientReq} {unique node : UInt64} {uid gid pid : UInt32} (hu : unique ≠ 0)
    (hn : 40 + a.body.length ≤ n) (hl : 40 + a.body.length < 2 ^ 32) :
    Receivable n (a.message unique node uid gid pid 0) := by
  refine ⟨by rw [message_length]; exact hn, ⟨_, acceptable_new ?_⟩⟩
  have := message_acceptable (a := a) (nodeid := node) (uid := uid) (gid := gid) (pid := pid) (padding := 0)
    (tail := []) hu hl
  rwa [List.append_nil] at this

theorem request_all (hid : ∀ i, cfg.ids i ≠ 0) {c : Client} {a : ClientReq} {node : UInt64}
    (hn : 40 + a.body.length ≤ n) (hl : 40 + a.body.length < 2 ^ 32) :
    (c.request cfg a node).All (Receivable n) := ⟨receivable (hid _) hn hl, fun _ => trivial⟩

theorem request_all_short (hid : ∀ i, cfg.ids i ≠ 0) (h : 8192 ≤ n) {c : Client} {a : ClientReq} {node : UInt64}
    (hb : a.body.length ≤ 8152) : (c.request cfg a node).All (Receivable n) :=
  request_all hid (by omega) (by omega)

theorem walk_all (hid : ∀ i, cfg.ids i ≠ 0) (h : 8192 ≤ n) (path : List Bytes) (hp : ∀ x ∈ path, x.length ≤ 8151)
    (c : Client) (node : UInt64) : (c.walk cfg node path).All (Receivable n) := by
  induction path generalizing c node with
  | nil => exact trivial
  | cons name path ih =>
    unfold Client.walk
    refine (request_all_short hid h ?_).bind ?_
    · have := hp name List.mem_cons_self
      show (name ++ [0]).length ≤ _
      simp only [List.length_append, List.length_cons, List.length_nil]; omega
    · intro r
      split
      · split
        · exact trivial
        · dsimp only
          split
          · exact trivial
          · exact ih (fun x hx => hp x (List.mem_cons_of_mem _ hx)) _ _
      · exact trivial
      · exact trivial

theorem query_all (hid : ∀ i, cfg.ids i ≠ 0) (h : 8192 ≤ n) {path : List Bytes} (hp : ∀ x ∈ path, x.length ≤ 8151)
    (c : Client) (start : UInt64) {a : ClientReq} (hb : a.body.length ≤ 8152) (f : Bytes → FileAns) :
    (c.query cfg start path a f).All (Receivable n) := by
  unfold Client.query
  refine (walk_all hid h path hp c _).bind fun r => ?_
  split
  · exact trivial
  · refine (request_all_short hid h hb).bind fun r => ?_
    repeat' split
    all_goals exact trivial

theorem callFrom_all (hid : ∀ i, cfg.ids i ≠ 0) {maxWrite : Nat} (h : max (maxWrite + 4096) 8192 ≤ n) (call : FileCall)
    (hv : call.Valid) (hf : call.Fits maxWrite) (c : Client) (start : UInt64) :
    (c.callFrom cfg start call).All (Receivable n) := by
  have h8 : 8192 ≤ n := by omega
  cases call with
  | openAt path =>
    unfold Client.callFrom
    dsimp only
    refine (walk_all hid h8 path hf c _).bind fun r => ?_
    split
    · exact trivial
    · refine (request_all_short hid h8 (by simp [ClientReq.body, layout_fuse_open_in])).bind fun r => ?_
      repeat' split
      all_goals exact trivial
  | stat path =>
    unfold Client.callFrom
    dsimp only
    refine (walk_all hid h8 path hf c _).bind fun r => ?_
    split
    · exact trivial
    · refine (request_all_short hid h8 (by simp [ClientReq.body, layout_fuse_getattr_in])).bind fun r => ?_
      repeat' split
      all_goals exact trivial
  | openDir path =>
    unfold Client.callFrom
    dsimp only
    refine (walk_all hid h8 path hf c _).bind fun r => ?_
    split
    · exact trivial
    · refine (request_all_short hid h8 (by simp [ClientReq.body, layout_fuse_open_in])).bind fun r => ?_
      repeat' split
      all_goals exact trivial
  | read fd offset size =>
    unfold Client.callFrom
    dsimp only
    split
    · refine (request_all_short hid h8 (by simp [ClientReq.body, layout_fuse_read_in])).bind fun r => ?_
      repeat' split
      all_goals exact trivial
    · exact trivial
  | write fd offset data =>
    unfold Client.callFrom
    dsimp only
    have hv : data.length + 80 < 2 ^ 32 := hv
    have hf : data.length ≤ max 4096 maxWrite := hf
    split
    · rename_i i fh _
      have hb : (ClientReq.write { fh := fh, offset := offset, size := UInt32.ofNat data.length } data).body.length =
          40 + data.length := by
        simp only [ClientReq.body, List.length_append]
        simp [layout_fuse_write_in]
      refine (request_all hid (by rw [hb]; omega) (by rw [hb]; omega)).bind fun r => ?_
      repeat' split
      all_goals exact trivial
    · exact trivial
  | close fd =>
    unfold Client.callFrom
    dsimp only
    split
    · refine (request_all_short hid h8 (by simp [ClientReq.body, layout_fuse_release_in])).bind fun r => ?_
      repeat' split
      all_goals exact trivial
    · exact trivial
  | readDir dd size =>
    unfold Client.callFrom
    dsimp only
    split
    · refine (request_all_short hid h8 (by simp [ClientReq.body, layout_fuse_read_in])).bind fun r => ?_
      split
      · split
        · exact trivial
        · exact trivial
      · exact trivial
      · exact trivial
    · exact trivial
  | closeDir dd =>
    unfold Client.callFrom
    dsimp only
    split
    · refine (request_all_short hid h8 (by simp [ClientReq.body, layout_fuse_release_in])).bind fun r => ?_
      repeat' split
      all_goals exact trivial
    · exact trivial
  | readLink path => exact query_all hid h8 hf c start (Nat.zero_le _) _
  | getXattr path name size =>
    refine query_all hid h8 hf.1 c start ?_ _
    have := hf.2
    simp only [ClientReq.body, cstring, List.length_append]
    simp [layout_fuse_getxattr_in]
    omega
  | listXattr path size => exact query_all hid h8 hf c start (by simp [ClientReq.body, layout_fuse_getxattr_in]) _
  | statFs path => exact query_all hid h8 hf c start (Nat.zero_le _) _
  | forget node k =>
    unfold Client.callFrom
    dsimp only
    split
    · exact trivial
    · exact ⟨receivable (hid _) (by simp [ClientReq.body, layout_fuse_forget_in]; omega)
        (by simp [ClientReq.body, layout_fuse_forget_in]), fun _ => trivial⟩

theorem calls_all (hid : ∀ i, cfg.ids i ≠ 0) {maxWrite : Nat} (h : max (maxWrite + 4096) 8192 ≤ n) (cs : List FileCall)
    (hv : ∀ call ∈ cs, call.Valid) (hf : ∀ call ∈ cs, call.Fits maxWrite) (c : Client) :
    (Client.calls cfg cs c).All (Receivable n) := by
  induction cs generalizing c with
  | nil => exact trivial
  | cons call cs ih =>
    unfold Client.calls
    refine (callFrom_all hid h call (hv _ List.mem_cons_self) (hf _ List.mem_cons_self) c rootNode).bind fun r => ?_
    refine (ih (fun x hx => hv x (List.mem_cons_of_mem _ hx)) (fun x hx => hf x (List.mem_cons_of_mem _ hx)) _).bind
      fun r => trivial

end

/-! ## Serving -/

section
variable {α : Type} {tree : Tree} {conn : FuseConnection} {os : OsErrors} {checks : Bool} {alloc : ReaddirRequest → Nat}

local notation "FS" => tree.served conn.layout os checks alloc
local notation "MS" => tree.mounted α conn os checks alloc

/-- A world without the client's plans, with them. -/
def MountWorld.with_ (k : List Bytes → Talk α) (w : TreeWorld) : MountWorld α := (w.1, w.2, k)

theorem mounted_same (k : List Bytes → Talk α) : Filesystem.Same (MountWorld.with_ k) FS MS where
  layout := rfl
  os := rfl
  checks := rfl
  send b s := by
    show (TreeWorld.socket.send b s).1 = ((MountWorld.socket α).send b _).1 ∧
      MountWorld.with_ k (TreeWorld.socket.send b s).2 = ((MountWorld.socket α).send b _).2
    unfold TreeWorld.socket MountWorld.socket Wired.socket MountWorld.with_
    dsimp only
    cases b.chunks <;> exact ⟨rfl, rfl⟩
  asDirectory _ _ := ⟨rfl, rfl⟩
  asFile _ _ := ⟨rfl, rfl⟩
  asSymlink _ _ := ⟨rfl, rfl⟩
  getattr _ _ _ _ := ⟨rfl, rfl⟩
  getxattr _ _ _ _ := ⟨rfl, rfl⟩
  listxattr _ _ _ _ := ⟨rfl, rfl⟩
  statfs _ _ _ _ := ⟨rfl, rfl⟩
  lookup _ _ _ _ := ⟨rfl, rfl⟩
  opendir _ _ _ _ := ⟨rfl, rfl⟩
  open_ _ _ _ _ := ⟨rfl, rfl⟩
  readlink _ _ _ _ := ⟨rfl, rfl⟩
  asReaddirHandle _ _ := ⟨rfl, rfl⟩
  asReaddirplusHandle _ _ := ⟨rfl, rfl⟩
  releasedir _ _ _ _ := ⟨rfl, rfl⟩
  readdir _ _ _ _ := ⟨rfl, rfl⟩
  readdirplus _ _ _ _ := ⟨rfl, rfl⟩
  asReadHandle _ _ := ⟨rfl, rfl⟩
  asWriteHandle _ _ := ⟨rfl, rfl⟩
  release _ _ _ _ := ⟨rfl, rfl⟩
  read i _ q w := by
    show ((tree.impl alloc).read i _ q w).1 = ((tree.impl alloc).read i _ q (MountWorld.with_ k w)).1 ∧
      MountWorld.with_ k ((tree.impl alloc).read i _ q w).2 = ((tree.impl alloc).read i _ q (MountWorld.with_ k w)).2
    unfold Tree.impl
    dsimp only
    cases q.offset <;> cases q.size <;> exact ⟨rfl, rfl⟩
  write i _ q w := by
    show ((tree.impl alloc).write i _ q w).1 = ((tree.impl alloc).write i _ q (MountWorld.with_ k w)).1 ∧
      MountWorld.with_ k ((tree.impl alloc).write i _ q w).2 = ((tree.impl alloc).write i _ q (MountWorld.with_ k w)).2
    unfold Tree.impl
    dsimp only
    cases q.offset <;> cases q.value <;> exact ⟨rfl, rfl⟩

theorem run_none (fs : Filesystem NodeId NodeId NodeId TreeWorld Unit) (t : Talk α) : (t.run fs.ask none).2 = none := by
  induction t with
  | done a => rfl
  | say m k ih => exact ih _

theorem serves (t : Talk α) {a : α} {s' : Vfs NodeId NodeId NodeId TreeWorld} :
    ∀ (buf : Bytes) (s : Vfs NodeId NodeId NodeId TreeWorld) (k : List Bytes → Talk α), k s.world.2 = t →
      t.All (Receivable buf.length) → t.run (FS).ask (some s) = (a, some s') →
      ∃ (s2 : Vfs NodeId NodeId NodeId TreeWorld) (k2 : List Bytes → Talk α),
        LoopReturns (MS).serveStep (buf, s.mapWorld (MountWorld.with_ k))
          (.ok (), s2.mapWorld (MountWorld.with_ k2)) ∧ k2 s2.world.2 = .done a ∧ s2.world.1 = s'.world.1 := by
  induction t with
  | done b =>
    intro buf s k hk _ hr
    cases hr
    refine ⟨s', k, .of_step ?_, hk, rfl⟩
    have : (MountWorld.socket α).recv buf (s'.mapWorld (MountWorld.with_ k)).world =
        ((.error (.connectionClosed ()), buf), (s'.mapWorld (MountWorld.with_ k)).world) := by
      show (match k s'.world.2 with | .done _ => _ | .say m k => _) = _
      rw [hk]
    have hf : fuseRecv (MS).sock buf (s'.mapWorld (MountWorld.with_ k)).world =
        ((.ok none, buf), (s'.mapWorld (MountWorld.with_ k)).world) := by
      show fuseRecv (MountWorld.socket α) buf _ = _
      unfold fuseRecv
      rw [this]
    unfold Filesystem.serveStep
    dsimp only
    rw [hf]
  | say m k' ih =>
    intro buf s k hk hall hr
    obtain ⟨⟨hlen, r, hnew⟩, hall⟩ := hall
    have hrecv : (MountWorld.socket α).recv buf (s.mapWorld (MountWorld.with_ k)).world =
        ((.ok m.length, m ++ buf.drop m.length), (s.world.1, [], k')) := by
      show (match k s.world.2 with | .done _ => _ | .say m k => _) = _
      rw [hk]
      exact if_pos hlen
    have htr : truncateSlice (m ++ buf.drop m.length) m.length = m := by
      rw [truncateSlice_eq, List.take_left]
    have hf : fuseRecv (MS).sock buf (s.mapWorld (MountWorld.with_ k)).world =
        ((.ok (some r), m ++ buf.drop m.length), (s.world.1, [], k')) := by
      show fuseRecv (MountWorld.socket α) buf _ = _
      unfold fuseRecv
      rw [hrecv]
      dsimp only
      rw [htr, hnew]
    have hd := (mounted_same (tree := tree) (conn := conn) (os := os) (checks := checks) (alloc := alloc) k').dispatch r
      { s with world := (s.world.1, []) }
    cases hq : ((FS).dispatch r).run { s with world := (s.world.1, []) } with
    | mk o s1 =>
    rw [hq] at hd
    have hask : (FS).ask m (some s) = match (o, s1) with
        | (some (.ok ()), s') => (s'.world.2, some s')
        | _ => ([], none) := by
      unfold Filesystem.ask
      dsimp only
      rw [hnew]
      dsimp only
      rw [hq]
      rcases o with _ | (_ | _ | _) <;> rfl
    have hdead : ∀ l, (FS).ask m (some s) ≠ (l, none) := by
      intro l hl
      unfold Talk.run at hr
      rw [hl] at hr
      have := run_none (FS) (k' l)
      rw [hr] at this
      cases this
    obtain rfl : o = some (.ok ()) := by
      rcases o with _ | o
      · exact absurd hask (hdead _)
      · cases o
        · rfl
        · exact absurd hask (hdead _)
        · exact absurd hask (hdead _)
    have hask : (FS).ask m (some s) = (s1.world.2, some s1) := hask
    unfold Talk.run at hr
    rw [hask] at hr
    obtain ⟨s2, k2, h1, h2, h3⟩ := ih s1.world.2 (m ++ buf.drop m.length) s1 k' rfl (by
      have : (m ++ buf.drop m.length).length = buf.length := by
        rw [List.length_append, List.length_drop]; omega
      rw [this]; exact hall _) hr
    refine ⟨s2, k2, .of_next ?_ h1, h2, h3⟩
    unfold Filesystem.serveStep
    dsimp only
    rw [hf]
    dsimp only
    have : ((MS).dispatch r).run { s.mapWorld (MountWorld.with_ k) with world := (s.world.1, [], k') } =
        (some (.ok ()), s1.mapWorld (MountWorld.with_ k')) := Prod.ext hd.1.symm hd.2.symm
    rw [this]

end

/-! ## The handshake -/

section
variable {S α : Type}

theorem mount_send {out : SendBuf} {msg : Bytes} (h : Carries out msg) (w : Wired S α) :
    (Wired.socket S α).send out w = (.ok (), (w.1, w.2.1 ++ [msg], w.2.2)) := by
  obtain ⟨cs, h1, _, h2, _⟩ := h
  show (match out.chunks with | .ok cs => _ | .error _ => _) = _
  rw [h1]
  dsimp only
  rw [h2]

theorem mount_recv {buf m heard : _} {content : S} {k k' : List Bytes → Talk α} (hk : k heard = .say m k')
    (hl : m.length ≤ buf.length) :
    (Wired.socket S α).recv buf (content, heard, k) = ((.ok m.length, m ++ buf.drop m.length), (content, [], k')) := by
  show (match k heard with | .done _ => _ | .say m k => _) = _
  rw [hk]
  exact if_pos hl

theorem offer_say {β : Type} {m : Bytes} {f : Option (Nat × Nat × Bytes) → Talk β} {t : Talk β}
    (ht : t = (Client.offer m >>= f : Talk β)) : ∃ k, t = .say m k ∧ ∀ p : Bytes, 8 ≤ p.length → 16 + p.length < 2 ^ 32 →
      k [frame (UInt64.ofNat (u64At m 8)) 0 p] = f (some (u32At p 0, u32At p 4, p)) := by
  refine ⟨_, ht, fun p h8 hp => ?_⟩
  show f _ = f _
  dsimp only
  rw [parse_frame_ok _ _ hp]
  exact congrArg f (if_pos h8)

/-- Both sides find the extension in the reply. -/
theorem reply_setxattr_ext (x : FuseInitOut) : (FuseLayout.new2 x).features &&& 1 ≠ 0 ↔ x.flags.toNat.testBit 29 = true := by
  have h : (x.flags &&& 536870912).toNat = (x.flags.toNat.testBit 29).toNat * 2 ^ 29 := by
    rw [UInt32.toNat_and]
    show x.flags.toNat &&& 2 ^ 29 = _
    refine Nat.eq_of_testBit_eq fun i => ?_
    rw [Nat.testBit_and, Nat.testBit_two_pow]
    by_cases hi : 29 = i
    · subst hi
      cases x.flags.toNat.testBit 29 <;> decide
    · rw [decide_eq_false hi, Bool.and_false]
      cases x.flags.toNat.testBit 29
      · simp
      · rw [Bool.toNat_true, Nat.one_mul, Nat.testBit_two_pow, decide_eq_false hi]
  show (if x.flags &&& 536870912 ≠ 0 then (1 : UInt16) else 0) &&& 1 ≠ 0 ↔ _
  cases hb : x.flags.toNat.testBit 29 with
  | false =>
    rw [hb] at h
    rw [if_neg (fun e => e (UInt32.toNat_inj.mp h))]
    decide
  | true =>
    rw [hb] at h
    rw [if_pos (fun e => by rw [e] at h; exact absurd h (by decide))]
    decide

theorem connects (server : FuseServer) (init : Bytes) (body : Bytes → Talk α)
    (hinit : init.length ≤ 8192 ∧ IsFuseInit init ∧ u32At init 40 = 7 ∧ 7 ≤ u32At init 44) (content : S)
    (newer : List Bytes) (hnewer : ∀ m ∈ newer, m.length ≤ 8192 ∧ IsFuseInit m ∧ u32At m 40 ≠ 7) :
    ∀ (buf : Bytes) (heard : List Bytes) (k : List Bytes → Talk (Option α)), buf.length = 8192 →
      k heard = Client.handshake init body newer →
      ∃ (conn : FuseConnection) (p q : Bytes) (k2 : List Bytes → Talk (Option α)),
        LoopReturns (fuseConnectStep (Wired.socket S _) server.initFn) (buf, (content, heard, k))
          (.ok conn, (content, [p], k2)) ∧
        k2 [p] = (do let r ← body q; return some r) ∧
        (conn.layout.features &&& 1 ≠ 0 ↔ (u32At q 12).testBit 29 = true) ∧
        conn.layout.versionMinor.toNat = min (u32At init 44) 36 ∧
        conn.recvBufLen = max (server.initReply.maxWrite.toNat + 4096) 8192 ∧ u32At q 4 = min (u32At init 44) 36 := by
  induction newer with
  | nil =>
    intro buf heard k hb hk
    have hmin : (UInt32.ofNat (min (u32At init 44) 36)).toNat = min (u32At init 44) 36 := by
      rw [UInt32.toNat_ofNat']; omega
    unfold Client.handshake at hk
    obtain ⟨k', hk, hk'⟩ := offer_say hk
    have hr := mount_recv (content := content) hk (show init.length ≤ buf.length by omega)
    have ht : (init ++ buf.drop init.length).take init.length = init := List.take_left
    obtain ⟨req, out, _, ho, hs⟩ := fuse_step_accept (initFn := server.initFn) hr (by rw [ht]; exact hinit.2.1)
      (by rw [ht]; exact hinit.2.2.1)
    rw [ht] at ho hs
    rw [mount_send ho] at hs
    have hp := C19_init 0 (acceptReply (server.initFn req {} ((content, [], k') : Wired S _)).1 (u32At init 44))
    generalize hx : acceptReply (server.initFn req {} ((content, [], k') : Wired S _)).1 (u32At init 44) = x at *
    have hmaj : x.major.toNat = 7 := by rw [← hx]; rfl
    have hmi : x.minor.toNat = min (u32At init 44) 36 := by rw [← hx]; exact hmin
    have hl : (initBytes x).length = initOutSize (min (u32At init 44) 36) := by rw [← hmi]; exact hp.1
    have hsz : 8 ≤ initOutSize (min (u32At init 44) 36) ∧ 16 + initOutSize (min (u32At init 44) 36) < 2 ^ 32 := by
      unfold initOutSize; split
      · omega
      · split <;> omega
    have h4 : u32At (initBytes x) 4 = min (u32At init 44) 36 := hp.2.2.1.trans hmi
    refine ⟨_, frame (UInt64.ofNat (u64At init 8)) 0 (initBytes x), initBytes x, k', .of_step hs, ?_, ?_, ?_, ?_, h4⟩
    · rw [hk' _ (by omega) (by omega)]
      have h0 : u32At (initBytes x) 0 = 7 := hp.2.1.trans hmaj
      rw [h0, h4]
      exact if_pos (by omega)
    · have h12 : u32At (initBytes x) 12 = x.flags.toNat := (hp.2.2.2.1 (by omega)).2.1
      rw [h12]
      exact reply_setxattr_ext x
    · show x.minor.toUInt16.toNat = _
      rw [UInt32.toNat_toUInt16, hmi]; omega
    · rfl
  | cons m newer ih =>
    intro buf heard k hb hk
    unfold Client.handshake at hk
    obtain ⟨k', hk, hk'⟩ := offer_say hk
    obtain ⟨h1, h2, h3⟩ := hnewer m List.mem_cons_self
    have hr := mount_recv (content := content) hk (show m.length ≤ buf.length by omega)
    have ht : (m ++ buf.drop m.length).take m.length = m := List.take_left
    obtain ⟨out, ho, hs⟩ := fuse_step_reject (initFn := server.initFn) hr (by rw [ht]; exact h2) (by rw [ht]; exact h3)
    rw [ht] at ho
    rw [mount_send ho] at hs
    obtain ⟨conn, p, q, k2, e1, e2⟩ := ih (fun x hx => hnewer x (List.mem_cons_of_mem _ hx)) (m ++ buf.drop m.length)
      [frame (UInt64.ofNat (u64At m 8)) 0 rejectionBytes] k' (by rw [List.length_append, List.length_drop]; omega)
      (by rw [hk' _ (by decide) (by decide), show u32At rejectionBytes 0 = 7 from by decide]; rfl)
    exact ⟨conn, p, q, k2, .of_next hs e1, e2⟩

end

/-- A conversation with the right end is held over a connection made with the handshake. -/
theorem mount_serves (tree : Tree) (os : OsErrors) (checks : Bool) (alloc : ReaddirRequest → Nat)
    (content : NodeId → Bytes) (server : FuseServer) (newer : List Bytes) (init : Bytes)
    (hnewer : ∀ m ∈ newer, m.length ≤ 8192 ∧ IsFuseInit m ∧ u32At m 40 ≠ 7)
    (hinit : init.length ≤ 8192 ∧ IsFuseInit init ∧ u32At init 40 = 7 ∧ 9 ≤ u32At init 44) {α : Type} (body : Talk α)
    (hb : ∀ n, max (server.initReply.maxWrite.toNat + 4096) 8192 ≤ n → body.All (Receivable n))
    (P : α → (NodeId → Bytes) → Prop)
    (hr : ∀ (layout : FuseLayout) (p : Bytes), 9 ≤ layout.versionMinor → ∃ a s',
      body.run (tree.served layout os checks alloc).ask (some (Vfs.new NodeId.root (content, [p]))) = (a, some s') ∧
        P a s'.world.1) :
    ∃ conn w, server.Connects (MountWorld.socket _) (content, [], fun _ => Client.handshake init (fun _ => body) newer) (.ok conn, w) ∧
      ∀ buf : Bytes, conn.recvBufLen ≤ buf.length →
        ∃ content' heard k a, ∃ s : Vfs NodeId NodeId NodeId (MountWorld (Option α)),
          LoopReturns (tree.mounted _ conn os checks alloc).serveStep (buf, Vfs.new NodeId.root w) (.ok (), s) ∧
          s.world = (content', heard, k) ∧ k heard = .done (some a) ∧ P a content' := by
  obtain ⟨conn, p, _, k, h1, h2, -, h3, h4, -⟩ := connects server init (fun _ => body)
    ⟨hinit.1, hinit.2.1, hinit.2.2.1, Nat.le_trans (by decide) hinit.2.2.2⟩ content newer hnewer minReadBuffer []
    (fun _ => Client.handshake init (fun _ => body) newer) (List.length_replicate ..) rfl
  refine ⟨conn, _, h1, fun buf hbuf => ?_⟩
  have h9 : 9 ≤ conn.layout.versionMinor := by
    rw [UInt16.le_iff_toNat_le, h3]
    show 9 ≤ min _ 36
    omega
  obtain ⟨a, s', a1, a2⟩ := hr conn.layout p h9
  obtain ⟨s2, k2, b1, b2, b3⟩ := serves (tree := tree) (conn := conn) (os := os) (checks := checks) (alloc := alloc)
    (do let r ← body; return some r) (a := some a) (s' := s') buf
    (Vfs.new NodeId.root (content, [p])) k h2
    ((hb _ (h4 ▸ hbuf)).bind fun _ => trivial) (by rw [Talk.run_bind, a1]; rfl)
  exact ⟨s'.world.1, s2.world.2, k2, a, _, b1, by rw [← b3]; rfl, b2, a2⟩

/-! ## The property -/

/-- C76: a server made with the builder and any options accepts the first offer of major version 7 it is made, after any
number of others, and then serves the client until it leaves.  The client has seen what it would have seen using the
filesystem directly, and the filesystem is as it would have left it.  The loop ends without an error, for every buffer of at
least the length the connection asks for. -/
theorem C76 (tree : Tree) (os : OsErrors) (checks : Bool) (alloc : ReaddirRequest → Nat) (hal : ∀ q, alloc q % 8 = 0)
    (hnames : tree.Ok) (content : NodeId → Bytes) (server : FuseServer) (cfg : ClientConfig)
    (hid : ∀ n, cfg.ids n ≠ 0) (newer : List Bytes) (init : Bytes)
    (hnewer : ∀ m ∈ newer, m.length ≤ 8192 ∧ IsFuseInit m ∧ u32At m 40 ≠ 7)
    (hinit : init.length ≤ 8192 ∧ IsFuseInit init ∧ u32At init 40 = 7 ∧ 9 ≤ u32At init 44) (cs : List FileCall)
    (hv : ∀ call ∈ cs, call.Valid) (hf : ∀ call ∈ cs, call.Fits server.initReply.maxWrite.toNat)
    (hs : (cs.map FileCall.cost).sum + 1 < 2 ^ 64) :
    let plain := tree.calls os cs ⟨content, [], []⟩
    ∃ conn w, server.Connects (MountWorld.socket _) (content, [], fun _ => Client.session cfg init cs newer) (.ok conn, w) ∧
      ∀ buf : Bytes, conn.recvBufLen ≤ buf.length →
        ∃ heard k, ∃ s : Vfs NodeId NodeId NodeId (MountWorld (Option (List FileAns × Client))),
          LoopReturns (tree.mounted _ conn os checks alloc).serveStep (buf, Vfs.new NodeId.root w) (.ok (), s) ∧
          s.world = (plain.2.content, heard, k) ∧ ∃ c, k heard = .done (some (plain.1, c)) := by
  intro plain
  obtain ⟨conn, w, h1, h2⟩ := mount_serves tree os checks alloc content server newer init hnewer hinit
    (Client.calls cfg cs ⟨0, [], [], fun _ => 0⟩) (fun n hn => calls_all hid hn cs hv hf _)
    (fun a content' => a.1 = plain.1 ∧ content' = plain.2.content) (fun layout p h9 => by
      obtain ⟨c', s', a1, a2⟩ := calls_agree (tree := tree) (layout := layout) (os := os) (checks := checks)
        (alloc := alloc) h9 hnames hal hid cs hv (agree_new content [p]) (by show 0 + _ + 1 < _; omega)
      exact ⟨_, s', a2, rfl, a1.content⟩)
  refine ⟨conn, w, h1, fun buf hbuf => ?_⟩
  obtain ⟨content', heard, k, ⟨as, c⟩, s, b1, b2, b3, b4, b5⟩ := h2 buf hbuf
  cases b4
  cases b5
  exact ⟨heard, k, s, b1, b2, c, b3⟩

namespace Stack

theorem session_fits (n : Nat) : ∀ call ∈ session, call.Fits n := by
  unfold session
  simp only [List.forall_mem_cons]
  simp [FileCall.Fits]
  omega

/-- The limits on names are those of the smallest buffer. -/
example (name attr : Bytes) (x : FuseGetxattrIn) : (FileCall.getXattr [name] attr 0).Fits 0 ↔
    40 + (ClientReq.lookup name).body.length ≤ 8192 ∧ 40 + (ClientReq.getxattr x attr).body.length ≤ 8192 := by
  simp [FileCall.Fits, ClientReq.body, layout_fuse_getxattr_in, cstring]
  omega

/-- A client that offers 8.0 and 7.34, and a server with a limit on writes. -/
example : ∃ conn w, (({} : FuseServer).maxWrite 65536).Connects (MountWorld.socket _)
      (content, [], fun _ => Client.session ⟨fun _ => 7, 0, 0, 0⟩ (initMessage 4 7 34 [65536, 0]) session
        [initMessage 2 8 0 [65536, 0]]) (.ok conn, w) ∧
    ∀ buf : Bytes, conn.recvBufLen ≤ buf.length →
      ∃ heard k, ∃ s : Vfs NodeId NodeId NodeId (MountWorld (Option (List FileAns × Client))),
        LoopReturns (tree.mounted _ conn OsErrors.linux true fun _ => 0x1000).serveStep (buf, Vfs.new NodeId.root w)
          (.ok (), s) ∧
        s.world = ((tree.calls OsErrors.linux session ⟨content, [], []⟩).2.content, heard, k) ∧
        ∃ c, k heard = .done (some (expected, c)) := by
  rw [← session_plain]
  exact C76 tree OsErrors.linux true (fun _ => 0x1000) (fun _ => rfl) tree_ok content _ ⟨fun _ => 7, 0, 0, 0⟩
    (fun _ => show (7 : UInt64) ≠ 0 by decide) _ _ (by decide) (by decide) session session_valid (session_fits _) (by decide)

/-- What is seen of a whole mount, running the model for at most `n` steps. -/
def seen (server : FuseServer) (n len : Nat) (cs : List FileCall) (newer : List Bytes) (init : Bytes) :
    Option (Bool × List FileAns × Bytes) :=
  match iterate (fuseConnectStep (MountWorld.socket _) server.initFn) n
      (minReadBuffer, (content, [], fun _ => Client.session ⟨fun _ => 7, 0, 0, 0⟩ init cs newer)) with
  | .inl (.ok conn, w) =>
    match iterate (tree.mounted _ conn OsErrors.linux true fun _ => 8).serveStep n
        (List.replicate len 0, Vfs.new NodeId.root w) with
    | .inl (r, s) =>
      match s.world.2.2 s.world.2.1 with
      | .done (some (as, _)) => some (match r with | .ok _ => true | _ => false, as, s.world.1 ⟨9, by decide⟩)
      | _ => none
    | _ => none
  | _ => none

/-- The same by running the model. -/
example : seen {} 80 8192 session [initMessage 2 8 0 [65536, 0]] (initMessage 4 7 34 [65536, 0]) =
    some (true, expected, [1, 2, 0, 7, 8]) := by decide +kernel

/-- With a buffer that is too small the server fails at the first request that does not fit. -/
example : seen {} 60 100 [.stat [List.replicate 30 0x61], .stat [List.replicate 90 0x61]] [] (initMessage 4 7 34 [65536, 0]) =
    none := by decide +kernel

end Stack

end Fuse
