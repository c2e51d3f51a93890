import Verif.VfsMirror

/-!
# C89: the VFS layer on a device

Claims C76 and C77 are about a filesystem served through `fuse-vfs` on a socket that is connected to its client.  Here the
client is at the other side of a FUSE device, as in C87: messages are delivered by `read` and `writev`, which may be interrupted,
and are called by the sockets of `fuse-linux` and `fuse-libc`.
-/

namespace Fuse
open Spec

variable {C ν φ η ω τ σ ε ε' α : Type}

/-- User code with a state of its own, kept beside that of the socket. -/
def VfsImpl.beside (ω : Type) (u : VfsImpl ν φ η C) : VfsImpl ν φ η (C × ω) where
  asDirectory x w := ((u.asDirectory x w.1).1, (u.asDirectory x w.1).2, w.2)
  asFile x w := ((u.asFile x w.1).1, (u.asFile x w.1).2, w.2)
  asSymlink x w := ((u.asSymlink x w.1).1, (u.asSymlink x w.1).2, w.2)
  getattr x h q w := ((u.getattr x h q w.1).1, (u.getattr x h q w.1).2, w.2)
  getxattr x h q w := ((u.getxattr x h q w.1).1, (u.getxattr x h q w.1).2, w.2)
  listxattr x h q w := ((u.listxattr x h q w.1).1, (u.listxattr x h q w.1).2, w.2)
  statfs x h q w := ((u.statfs x h q w.1).1, (u.statfs x h q w.1).2, w.2)
  lookup x h q w := ((u.lookup x h q w.1).1, (u.lookup x h q w.1).2, w.2)
  opendir x h q w := ((u.opendir x h q w.1).1, (u.opendir x h q w.1).2, w.2)
  open_ x h q w := ((u.open_ x h q w.1).1, (u.open_ x h q w.1).2, w.2)
  readlink x h q w := ((u.readlink x h q w.1).1, (u.readlink x h q w.1).2, w.2)
  asReaddirHandle x w := ((u.asReaddirHandle x w.1).1, (u.asReaddirHandle x w.1).2, w.2)
  asReaddirplusHandle x w := ((u.asReaddirplusHandle x w.1).1, (u.asReaddirplusHandle x w.1).2, w.2)
  releasedir x h q w := ((u.releasedir x h q w.1).1, (u.releasedir x h q w.1).2, w.2)
  readdir x h q w := ((u.readdir x h q w.1).1, (u.readdir x h q w.1).2, w.2)
  readdirplus x h q w := ((u.readdirplus x h q w.1).1, (u.readdirplus x h q w.1).2, w.2)
  asReadHandle x w := ((u.asReadHandle x w.1).1, (u.asReadHandle x w.1).2, w.2)
  asWriteHandle x w := ((u.asWriteHandle x w.1).1, (u.asWriteHandle x w.1).2, w.2)
  release x h q w := ((u.release x h q w.1).1, (u.release x h q w.1).2, w.2)
  read x h q w := ((u.read x h q w.1).1, (u.read x h q w.1).2, w.2)
  write x h q w := ((u.write x h q w.1).1, (u.write x h q w.1).2, w.2)

theorem beside_together {Q : ω → τ → Prop} (f : C → α × C) :
    Together Q (fun w => ((f w.1).1, (f w.1).2, w.2)) (fun w => ((f w.1).1, (f w.1).2, w.2)) :=
  fun _ _ ht => ⟨congrArg (fun c => (f c).1) ht.1, congrArg (fun c => (f c).2) ht.1, ht.2⟩

theorem VfsImpl.together {Q : ω → τ → Prop} (u : VfsImpl ν φ η C) : (u.beside ω).Together Q (u.beside τ) where
  asDirectory _ := beside_together _
  asFile _ := beside_together _
  asSymlink _ := beside_together _
  getattr _ _ _ := beside_together _
  getxattr _ _ _ := beside_together _
  listxattr _ _ _ := beside_together _
  statfs _ _ _ := beside_together _
  lookup _ _ _ := beside_together _
  opendir _ _ _ := beside_together _
  open_ _ _ _ := beside_together _
  readlink _ _ _ := beside_together _
  asReaddirHandle _ := beside_together _
  asReaddirplusHandle _ := beside_together _
  releasedir _ _ _ := beside_together _
  readdir _ _ _ := beside_together _
  readdirplus _ _ _ := beside_together _
  asReadHandle _ := beside_together _
  asWriteHandle _ := beside_together _
  release _ _ _ := beside_together _
  read _ _ _ := beside_together _
  write _ _ _ := beside_together _

/-- Trees of directories keep their contents beside the socket, too. -/
def Spec.Tree.userCode (tree : Tree) (alloc : ReaddirRequest → Nat) : VfsImpl NodeId NodeId NodeId (NodeId → Bytes) where
  asDirectory i c := (((tree.impl alloc (κ := Unit)).asDirectory i (c, ())).1, c)
  asFile i c := (((tree.impl alloc (κ := Unit)).asFile i (c, ())).1, c)
  asSymlink i c := (((tree.impl alloc (κ := Unit)).asSymlink i (c, ())).1, c)
  getattr i h q c := (((tree.impl alloc (κ := Unit)).getattr i h q (c, ())).1, c)
  getxattr i h q c := (((tree.impl alloc (κ := Unit)).getxattr i h q (c, ())).1, c)
  listxattr i h q c := (((tree.impl alloc (κ := Unit)).listxattr i h q (c, ())).1, c)
  statfs i h q c := (((tree.impl alloc (κ := Unit)).statfs i h q (c, ())).1, c)
  lookup i h q c := (((tree.impl alloc (κ := Unit)).lookup i h q (c, ())).1, c)
  opendir i h q c := (((tree.impl alloc (κ := Unit)).opendir i h q (c, ())).1, c)
  open_ i h q c := (((tree.impl alloc (κ := Unit)).open_ i h q (c, ())).1, c)
  readlink i h q c := (((tree.impl alloc (κ := Unit)).readlink i h q (c, ())).1, c)
  asReaddirHandle i c := (((tree.impl alloc (κ := Unit)).asReaddirHandle i (c, ())).1, c)
  asReaddirplusHandle i c := (((tree.impl alloc (κ := Unit)).asReaddirplusHandle i (c, ())).1, c)
  releasedir i h q c := (((tree.impl alloc (κ := Unit)).releasedir i h q (c, ())).1, c)
  readdir i h q c := (((tree.impl alloc (κ := Unit)).readdir i h q (c, ())).1, c)
  readdirplus i h q c := (((tree.impl alloc (κ := Unit)).readdirplus i h q (c, ())).1, c)
  asReadHandle i c := (((tree.impl alloc (κ := Unit)).asReadHandle i (c, ())).1, c)
  asWriteHandle i c := (((tree.impl alloc (κ := Unit)).asWriteHandle i (c, ())).1, c)
  release i h q c := (((tree.impl alloc (κ := Unit)).release i h q (c, ())).1, c)
  read i h q c := (((tree.impl alloc (κ := Unit)).read i h q (c, ())).1, c)
  write i h q c :=
    (((tree.impl alloc (κ := Unit)).write i h q (c, ())).1, ((tree.impl alloc (κ := Unit)).write i h q (c, ())).2.1)

theorem tree_beside (tree : Tree) (alloc : ReaddirRequest → Nat) : (tree.userCode alloc).beside ω = tree.impl alloc := by
  unfold VfsImpl.beside Tree.userCode Tree.impl
  dsimp only
  congr 1
  · funext i h q w
    cases q.offset <;> cases q.size <;> rfl
  · funext i h q w
    cases q.offset <;> cases q.value <;> rfl

/-- The filesystem with this user code, on this socket. -/
def VfsImpl.on (u : VfsImpl ν φ η C) (sock : Socket σ ε) (layout : FuseLayout) (os : OsErrors) (checks : Bool) :
    Filesystem ν φ η (C × σ) ε :=
  ⟨sock.beside C, layout, os, u.beside σ, checks⟩

/-! ## Loops -/

/-- The states of two loops. -/
def TwinVfsLoop (Q : ω → τ → Prop) (x : Bytes × Vfs ν φ η (C × ω)) (y : Bytes × Vfs ν φ η (C × τ)) : Prop :=
  x.1.length = y.1.length ∧ TwinVfs Q x.2 y.2

/-- The ends of two loops. -/
def TwinVfsEnd (Q : ω → τ → Prop) (x : Outcome ε Unit × Vfs ν φ η (C × ω)) (y : Outcome ε' Unit × Vfs ν φ η (C × τ)) : Prop :=
  AlikeOutcome true x.1 y.1 ∧ TwinVfs Q x.2 y.2

theorem serveStep_mirror {Q : ω → τ → Prop} {fs : Filesystem ν φ η (C × ω) ε} {gs : Filesystem ν φ η (C × τ) ε'}
    (h : Filesystem.Alike true Q fs gs) (x : Bytes × Vfs ν φ η (C × ω)) (y : Bytes × Vfs ν φ η (C × τ))
    (ht : TwinVfsLoop Q x y) : StepsAlike (TwinVfsLoop Q) (TwinVfsEnd Q) (fs.serveStep x) (gs.serveStep y) := by
  obtain ⟨buf, x⟩ := x
  obtain ⟨buf', y⟩ := y
  obtain ⟨b, b', x', y', hl, ht', ⟨n, h1, h2, h3⟩ | ⟨e, e', h1, h2, h3⟩⟩ := h.sock.received ht.1 ht.2.2.2
  · unfold Filesystem.serveStep fuseRecv
    dsimp only
    dsimp only at h1 h2
    rw [h1, h2]
    dsimp only
    rw [h3]
    cases Request.new (truncateSlice b' n) with
    | error e => exact ⟨rfl, ht.2.1, ht.2.2.1, ht'⟩
    | ok r =>
      dsimp only
      obtain ⟨h4, h5⟩ := (h.dispatch r).runs { x with world := x' } { y with world := y' } ⟨ht.2.1, ht.2.2.1, ht'⟩
      generalize (fs.dispatch r).run { x with world := x' } = z at h4 h5
      generalize (gs.dispatch r).run { y with world := y' } = z' at h4 h5
      obtain ⟨o, s⟩ := z
      obtain ⟨o', s'⟩ := z'
      dsimp only at h4 h5
      cases o with
      | none =>
        cases o' with
        | none => exact ⟨hl, h5⟩
        | some o' => exact h4.elim
      | some o =>
        cases o' with
        | none => exact h4.elim
        | some o' =>
          cases o <;> cases o' <;> first | exact h4.elim | exact ⟨hl, h5⟩ | exact ⟨h4, h5⟩
  · unfold Filesystem.serveStep fuseRecv
    dsimp only
    dsimp only at h1 h2
    rw [h1, h2]
    cases e <;> cases e' <;> first
      | exact Bool.noConfusion (h3 : true = false)
      | exact ⟨rfl, ht.2.1, ht.2.2.1, ht'⟩
      | exact ⟨trivial, ht.2.1, ht.2.2.1, ht'⟩

/-- C89: a filesystem behind the VFS layer does on a device, whatever is interrupted, what it does when connected to the
client, and the other way round: it serves until the same point, with the same outcome, the same nodes and handles, the same
state of the user's code, and a client that has been sent the same. -/
theorem C89_serve {p : Peer σ (Convo α)} {sock : Socket σ ε} (hd : OnLine (talkLine _) sock p true) (u : VfsImpl ν φ η C)
    (layout : FuseLayout) (os : OsErrors) (checks : Bool) (buf : Bytes) (nodes : NodeMap ν) (handles : HandlesMap φ η)
    (c : C) (d : σ) :
    (∀ o nodes' handles' c' d',
      LoopReturns (u.on sock layout os checks).serveStep (buf, ⟨nodes, handles, (c, d)⟩)
        (o, ⟨nodes', handles', (c', d')⟩) →
      ∃ o', LoopReturns (⟨Wired.socket C α, layout, os, u.beside _, checks⟩ : Filesystem ν φ η _ _).serveStep
          (buf, ⟨nodes, handles, (c, p.client d)⟩) (o', ⟨nodes', handles', (c', p.client d')⟩) ∧ AlikeOutcome true o o') ∧
    (∀ o' nodes' handles' c' t,
      LoopReturns (⟨Wired.socket C α, layout, os, u.beside _, checks⟩ : Filesystem ν φ η _ _).serveStep
        (buf, ⟨nodes, handles, (c, p.client d)⟩) (o', ⟨nodes', handles', (c', t)⟩) →
      ∃ o d', LoopReturns (u.on sock layout os checks).serveStep (buf, ⟨nodes, handles, (c, d)⟩)
          (o, ⟨nodes', handles', (c', d')⟩) ∧ p.client d' = t ∧ AlikeOutcome true o o') := by
  have hm := line_mirrors (C := C) hd wired_line
  have h : Filesystem.Alike true _ (u.on sock layout os checks)
      (⟨Wired.socket C α, layout, os, u.beside _, checks⟩ : Filesystem ν φ η _ _) := ⟨rfl, rfl, rfl, hm, u.together⟩
  have h' : Filesystem.Alike true _ (⟨Wired.socket C α, layout, os, u.beside _, checks⟩ : Filesystem ν φ η _ _)
      (u.on sock layout os checks) := ⟨rfl, rfl, rfl, hm.symm, u.together⟩
  constructor
  · intro o nodes' handles' c' d' hl
    obtain ⟨⟨o', n1, m1, c1, t⟩, h1, h2, h3, h4, h5, h6⟩ := LoopReturns.alike (serveStep_mirror h)
      (a' := (buf, ⟨nodes, handles, (c, p.client d)⟩)) ⟨rfl, rfl, rfl, rfl, rfl⟩ hl
    dsimp only at h2 h3 h4 h5 h6
    subst h3 h4 h5 h6
    exact ⟨o', h1, h2⟩
  · intro o' nodes' handles' c' t hl
    obtain ⟨⟨o, n1, m1, c1, d'⟩, h1, h2, h3, h4, h5, h6⟩ := LoopReturns.alike (serveStep_mirror h')
      (a' := (buf, ⟨nodes, handles, (c, d)⟩)) ⟨rfl, rfl, rfl, rfl, rfl⟩ hl
    dsimp only at h2 h3 h4 h5 h6
    subst h3 h4 h5 h6
    exact ⟨o, d', h1, rfl, alikeOutcome_symm h2⟩

/-- C89: a mount of a tree of directories works from the handshake to the end, system call by system call: the client has seen
what it would have seen using the filesystem directly, and the filesystem is as it would have left it (compare C76). -/
theorem C89_mount {p : Peer σ (Convo (Option (List FileAns × Client)))} {sock : Socket σ ε}
    (hd : OnLine (talkLine _) sock p true) (tree : Tree) (os : OsErrors) (checks : Bool) (alloc : ReaddirRequest → Nat)
    (hal : ∀ q, alloc q % 8 = 0) (hnames : tree.Ok) (content : NodeId → Bytes) (server : FuseServer) (cfg : ClientConfig)
    (hid : ∀ n, cfg.ids n ≠ 0) (newer : List Bytes) (init : Bytes)
    (hnewer : ∀ m ∈ newer, m.length ≤ 8192 ∧ IsFuseInit m ∧ u32At m 40 ≠ 7)
    (hinit : init.length ≤ 8192 ∧ IsFuseInit init ∧ u32At init 40 = 7 ∧ 9 ≤ u32At init 44) (cs : List FileCall)
    (hv : ∀ call ∈ cs, call.Valid) (hf : ∀ call ∈ cs, call.Fits server.initReply.maxWrite.toNat)
    (hs : (cs.map FileCall.cost).sum + 1 < 2 ^ 64) (d : σ)
    (hp : p.client d = ([], fun _ => Client.session cfg init cs newer)) :
    let plain := tree.calls os cs ⟨content, [], []⟩
    ∃ conn w, server.Connects (sock.beside _) (content, d) (.ok conn, w) ∧
      ∀ buf : Bytes, conn.recvBufLen ≤ buf.length →
        ∃ nodes handles d' c,
          LoopReturns ((tree.userCode alloc).on sock conn.layout os checks).serveStep (buf, Vfs.new NodeId.root w)
            (.ok (), ⟨nodes, handles, (plain.2.content, d')⟩) ∧
          (p.client d').2 (p.client d').1 = .done (some (plain.1, c)) := by
  intro plain
  obtain ⟨conn, ⟨c, t⟩, h1, h2⟩ := C76 tree os checks alloc hal hnames content server cfg hid newer init hnewer hinit cs hv hf hs
  rw [← hp] at h1
  obtain ⟨o, d1, h3, h4, h5⟩ := (C87_connect hd server content d).2 _ _ _ h1
  cases o <;> try exact h5.elim
  cases h5
  refine ⟨conn, (c, d1), h3, fun buf hb => ?_⟩
  obtain ⟨heard, k, ⟨nodes, handles, world⟩, h6, h7, cl, h8⟩ := h2 buf hb
  dsimp only at h7
  subst h7 h4
  obtain ⟨o, d2, h9, h10, h11⟩ := (C89_serve hd (tree.userCode alloc) conn.layout os checks buf (NodeMap.new NodeId.root)
    HandlesMap.new c d1).2 _ _ _ _ _ (by rw [tree_beside]; exact h6)
  cases o <;> try exact h11.elim
  exact ⟨nodes, handles, d2, cl, h9, by rw [h10]; exact h8⟩

/-- C89: the same for programs that use the mount at the same time (compare C77_mount). -/
theorem C89_share {p : Peer σ (Convo (Option Shared))} {sock : Socket σ ε}
    (hd : OnLine (talkLine _) sock p true) (tree : Tree) (os : OsErrors) (checks : Bool) (alloc : ReaddirRequest → Nat)
    (hal : ∀ q, alloc q % 8 = 0) (hnames : tree.Ok) (content : NodeId → Bytes) (server : FuseServer) (cfg : ClientConfig)
    (hid : ∀ n, cfg.ids n ≠ 0) (newer : List Bytes) (init : Bytes)
    (hnewer : ∀ m ∈ newer, m.length ≤ 8192 ∧ IsFuseInit m ∧ u32At m 40 ≠ 7)
    (hinit : init.length ≤ 8192 ∧ IsFuseInit init ∧ u32At init 40 = 7 ∧ 9 ≤ u32At init 44) (programs : List Program)
    (hv : ∀ p ∈ programs, p.Valid) (hf : ∀ p ∈ programs, p.Fits server.initReply.maxWrite.toNat)
    (ts : List Nat) (hs : ts.length + 1 < 2 ^ 64) (d : σ)
    (hp : p.client d = ([], fun _ => Client.handshake init (fun _ => (Shared.start programs).turns cfg ts) newer)) :
    ∃ conn w, server.Connects (sock.beside _) (content, d) (.ok conn, w) ∧
      ∀ buf : Bytes, conn.recvBufLen ≤ buf.length →
        ∃ nodes handles content' d' x,
          LoopReturns ((tree.userCode alloc).on sock conn.layout os checks).serveStep (buf, Vfs.new NodeId.root w)
            (.ok (), ⟨nodes, handles, (content', d')⟩) ∧
          (p.client d').2 (p.client d').1 = .done (some x) ∧ x.Fair tree os content programs ts content' := by
  obtain ⟨conn, ⟨c, t⟩, h1, h2⟩ := C77_mount tree os checks alloc hal hnames content server cfg hid newer init hnewer hinit
    programs hv hf ts hs
  rw [← hp] at h1
  obtain ⟨o, d1, h3, h4, h5⟩ := (C87_connect hd server content d).2 _ _ _ h1
  cases o <;> try exact h5.elim
  cases h5
  refine ⟨conn, (c, d1), h3, fun buf hb => ?_⟩
  obtain ⟨content', heard, k, x, ⟨nodes, handles, world⟩, h6, h7, h8, hx⟩ := h2 buf hb
  dsimp only at h7
  subst h7 h4
  obtain ⟨o, d2, h9, h10, h11⟩ := (C89_serve hd (tree.userCode alloc) conn.layout os checks buf (NodeMap.new NodeId.root)
    HandlesMap.new c d1).2 _ _ _ _ _ (by rw [tree_beside]; exact h6)
  cases o <;> try exact h11.elim
  exact ⟨nodes, handles, content', d2, x, h9, by rw [h10]; exact h8, hx⟩

/-! ## Concrete cases -/

namespace VfsDevice

open Transport

/-- C89_mount: a session with a tree of directories, through `fuse-linux`, with 5 interruptions. -/
example : ∃ (sock : Socket (Chatty (Option (List FileAns × Client))) Errno) (conn : FuseConnection)
    (w : (NodeId → Bytes) × Chatty (Option (List FileAns × Client))),
    OnLinux (sys (Option (List FileAns × Client))) ⟨3, true⟩ sock ∧
    (({} : FuseServer).maxWrite 65536).Connects (sock.beside _)
      (Stack.content, ⟨([], fun _ => Client.session ⟨fun _ => 7, 0, 0, 0⟩ (initMessage 4 7 34 [65536, 0]) Stack.session
        [initMessage 2 8 0 [65536, 0]]), [true, true, false, true, false, false, true, true]⟩) (.ok conn, w) ∧
    ∀ buf : Bytes, conn.recvBufLen ≤ buf.length → ∃ nodes handles d' c,
      LoopReturns ((Stack.tree.userCode fun _ => 0x1000).on sock conn.layout OsErrors.linux true).serveStep
        (buf, Vfs.new NodeId.root w)
        (.ok (), ⟨nodes, handles, ((Stack.tree.calls OsErrors.linux Stack.session ⟨Stack.content, [], []⟩).2.content, d')⟩) ∧
      d'.client.2 d'.client.1 = .done (some (Stack.expected, c)) := by
  obtain ⟨sock, hs⟩ := linux_talk_socket (s := ⟨3, true⟩) (device (Option (List FileAns × Client)) 3)
  obtain ⟨conn, w, h1, h2⟩ := C89_mount (.linux (s := ⟨3, true⟩) (device (Option _) 3) hs) Stack.tree OsErrors.linux true
    (fun _ => 0x1000) (fun _ => rfl) Stack.tree_ok Stack.content (({} : FuseServer).maxWrite 65536) ⟨fun _ => 7, 0, 0, 0⟩
    (fun _ => show (7 : UInt64) ≠ 0 by decide) [initMessage 2 8 0 [65536, 0]] (initMessage 4 7 34 [65536, 0]) (by decide)
    (by decide) Stack.session Stack.session_valid (Stack.session_fits _) (by decide)
    ⟨([], fun _ => _), [true, true, false, true, false, false, true, true]⟩ rfl
  refine ⟨sock, conn, w, hs, h1, fun buf hb => ?_⟩
  rw [← Stack.session_plain]
  exact h2 buf hb

/-- C89_share: three programs at the same time, through `fuse-libc`, with 3 interruptions. -/
example : ∃ (sock : Socket (Libc.Thread (Chatty (Option Shared))) Libc.LibcError) (conn : FuseConnection)
    (w : (NodeId → Bytes) × Libc.Thread (Chatty (Option Shared))),
    OnLibc (sys (Option Shared)) ⟨3, true⟩ sock ∧
    (({} : FuseServer).maxWrite 65536).Connects (sock.beside _)
      (Stack.content, ⟨⟨([], fun _ => Client.handshake (initMessage 4 7 34 [65536, 0])
        (fun _ => (Shared.start [Stack.writer, Stack.reader, Stack.forgetter]).turns ⟨fun _ => 7, 0, 0, 0⟩ Stack.order) []),
          [false, true, true, true]⟩, 0⟩) (.ok conn, w) ∧
    ∀ buf : Bytes, conn.recvBufLen ≤ buf.length → ∃ nodes handles content' d' x,
      LoopReturns ((Stack.tree.userCode fun _ => 0x1000).on sock conn.layout OsErrors.linux true).serveStep
        (buf, Vfs.new NodeId.root w) (.ok (), ⟨nodes, handles, (content', d')⟩) ∧
      d'.sys.client.2 d'.sys.client.1 = .done (some x) ∧
      x.Fair Stack.tree OsErrors.linux Stack.content [Stack.writer, Stack.reader, Stack.forgetter] Stack.order content' := by
  obtain ⟨sock, hs⟩ := libc_talk_socket (s := ⟨3, true⟩) (device (Option Shared) 3)
  obtain ⟨conn, w, h⟩ := C89_share (.libc (s := ⟨3, true⟩) (device (Option _) 3) hs) Stack.tree OsErrors.linux true
    (fun _ => 0x1000) (fun _ => rfl) Stack.tree_ok Stack.content (({} : FuseServer).maxWrite 65536) ⟨fun _ => 7, 0, 0, 0⟩
    (fun _ => show (7 : UInt64) ≠ 0 by decide) [] (initMessage 4 7 34 [65536, 0]) nofun (by decide)
    [Stack.writer, Stack.reader, Stack.forgetter] Stack.programs_valid (by
      intro p hp
      simp only [List.mem_cons, List.not_mem_nil, or_false] at hp
      rcases hp with rfl | rfl | rfl
      · refine ⟨by simp [FileCall.Fits], fun a => ?_⟩
        cases a <;> first
          | exact trivial
          | exact ⟨by simp [FileCall.Fits]; omega, fun _ => ⟨trivial, fun _ => trivial⟩⟩
      · refine ⟨by simp [FileCall.Fits], fun a => ?_⟩
        cases a <;> first
          | exact trivial
          | (refine ⟨trivial, fun b => ?_⟩
             dsimp only
             split
             · exact ⟨trivial, fun _ => trivial⟩
             · exact trivial)
      · exact ⟨trivial, fun _ => ⟨trivial, fun _ => trivial⟩⟩) Stack.order (by decide)
    ⟨⟨([], fun _ => _), [false, true, true, true]⟩, 0⟩ rfl
  exact ⟨sock, conn, w, hs, h⟩

end VfsDevice

end Fuse
