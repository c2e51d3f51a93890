import Verif.Vfs

/-!
# Filesystems working on different worlds

If one world can be mapped to another such that the methods of a filesystem and its socket do the same in both, then so
does `Filesystem::dispatch`.  This is used to add something to the outside world that the methods do not look at.
-/

namespace Fuse

variable {ν φ η σ τ ε α β : Type}

/-- Two functions return the same and do the same, as seen through `F`. -/
def Commutes (F : σ → τ) (f : σ → α × σ) (g : τ → α × τ) : Prop :=
  ∀ s, (f s).1 = (g (F s)).1 ∧ F (f s).2 = (g (F s)).2

/-- A state in the other world. -/
def Vfs.mapWorld (F : σ → τ) (s : Vfs ν φ η σ) : Vfs ν φ η τ := ⟨s.nodes, s.handles, F s.world⟩

/-- Two programs running alone. -/
def Prog.Same (F : σ → τ) (p : Prog (Vfs ν φ η σ) α) (q : Prog (Vfs ν φ η τ) α) : Prop :=
  Commutes (Vfs.mapWorld F) p.run q.run

/-- Two filesystems that differ in the world only. -/
structure Filesystem.Same (F : σ → τ) (fs : Filesystem ν φ η σ ε) (gs : Filesystem ν φ η τ ε) : Prop where
  layout : fs.layout = gs.layout
  os : fs.os = gs.os
  checks : fs.checks = gs.checks
  send : ∀ b, Commutes F (fs.sock.send b) (gs.sock.send b)
  asDirectory : ∀ x, Commutes F (fs.impl.asDirectory x) (gs.impl.asDirectory x)
  asFile : ∀ x, Commutes F (fs.impl.asFile x) (gs.impl.asFile x)
  asSymlink : ∀ x, Commutes F (fs.impl.asSymlink x) (gs.impl.asSymlink x)
  getattr : ∀ x h q, Commutes F (fs.impl.getattr x h q) (gs.impl.getattr x h q)
  getxattr : ∀ x h q, Commutes F (fs.impl.getxattr x h q) (gs.impl.getxattr x h q)
  listxattr : ∀ x h q, Commutes F (fs.impl.listxattr x h q) (gs.impl.listxattr x h q)
  statfs : ∀ x h q, Commutes F (fs.impl.statfs x h q) (gs.impl.statfs x h q)
  lookup : ∀ x h q, Commutes F (fs.impl.lookup x h q) (gs.impl.lookup x h q)
  opendir : ∀ x h q, Commutes F (fs.impl.opendir x h q) (gs.impl.opendir x h q)
  open_ : ∀ x h q, Commutes F (fs.impl.open_ x h q) (gs.impl.open_ x h q)
  readlink : ∀ x h q, Commutes F (fs.impl.readlink x h q) (gs.impl.readlink x h q)
  asReaddirHandle : ∀ x, Commutes F (fs.impl.asReaddirHandle x) (gs.impl.asReaddirHandle x)
  asReaddirplusHandle : ∀ x, Commutes F (fs.impl.asReaddirplusHandle x) (gs.impl.asReaddirplusHandle x)
  releasedir : ∀ x h q, Commutes F (fs.impl.releasedir x h q) (gs.impl.releasedir x h q)
  readdir : ∀ x h q, Commutes F (fs.impl.readdir x h q) (gs.impl.readdir x h q)
  readdirplus : ∀ x h q, Commutes F (fs.impl.readdirplus x h q) (gs.impl.readdirplus x h q)
  asReadHandle : ∀ x, Commutes F (fs.impl.asReadHandle x) (gs.impl.asReadHandle x)
  asWriteHandle : ∀ x, Commutes F (fs.impl.asWriteHandle x) (gs.impl.asWriteHandle x)
  release : ∀ x h q, Commutes F (fs.impl.release x h q) (gs.impl.release x h q)
  read : ∀ x h q, Commutes F (fs.impl.read x h q) (gs.impl.read x h q)
  write : ∀ x h q, Commutes F (fs.impl.write x h q) (gs.impl.write x h q)

namespace Prog.Same

variable {F : σ → τ}

theorem done (a : α) : Prog.Same (ν := ν) (φ := φ) (η := η) F (.done a) (.done a) := fun _ => ⟨rfl, rfl⟩

theorem act {f : Vfs ν φ η σ → α × Vfs ν φ η σ} {g : Vfs ν φ η τ → α × Vfs ν φ η τ}
    (h : Commutes (Vfs.mapWorld F) f g) : Prog.Same F (.act f) (.act g) := h

theorem bind {p : Prog (Vfs ν φ η σ) α} {q : Prog (Vfs ν φ η τ) α} {k : α → Prog (Vfs ν φ η σ) β}
    {l : α → Prog (Vfs ν φ η τ) β} (h : Prog.Same F p q) (hk : ∀ a, Prog.Same F (k a) (l a)) :
    Prog.Same F (p.bind k) (q.bind l) := by
  have run_bind : ∀ {S : Type} (p : Prog S α) (g : α → Prog S β) (s : S),
      (p.bind g).run s = (g (p.run s).1).run (p.run s).2 := by
    intro S p g s
    induction p generalizing s with
    | done a => rfl
    | step f k ih => exact ih s (f s)
  intro s
  rw [run_bind, run_bind]
  have h1 := h s
  rw [← h1.1, ← h1.2]
  exact hk _ _

theorem ofFault (x : Except Fault α) :
    Prog.Same (ν := ν) (φ := φ) (η := η) F (VfsM.ofFault (ε := ε) x) (VfsM.ofFault x) := by
  cases x <;> exact done _

theorem decoded (x : Res α) :
    Prog.Same (ν := ν) (φ := φ) (η := η) F (VfsM.decoded (ε := ε) x) (VfsM.decoded x) := by
  rcases x with (_ | _) | _ <;> exact done _

theorem call {f : σ → α × σ} {g : τ → α × τ} (h : Commutes F f g) :
    Prog.Same (ν := ν) (φ := φ) (η := η) F (VfsM.call (ε := ε) f) (VfsM.call g) := by
  intro s
  have := h s.world
  constructor
  · show Outcome.ok (f s.world).1 = Outcome.ok (g (F s.world)).1; rw [this.1]
  · show (⟨_, _, F (f s.world).2⟩ : Vfs ν φ η τ) = ⟨_, _, (g (F s.world)).2⟩; rw [this.2]; rfl

theorem locked (f : HandlesMap φ η → Except Fault α × HandlesMap φ η) :
    Prog.Same (ν := ν) F (VfsM.locked (ε := ε) f) (VfsM.locked f) := fun _ => ⟨rfl, rfl⟩

/-- Going on in the same way. -/
theorem next {p : VfsM ν φ η σ ε α} {q : VfsM ν φ η τ ε α} {k : α → VfsM ν φ η σ ε β} {l : α → VfsM ν φ η τ ε β}
    (h : Prog.Same F p q) (hk : ∀ a, Prog.Same F (k a) (l a)) :
    Prog.Same F (p >>= k : VfsM ν φ η σ ε β) (q >>= l : VfsM ν φ η τ ε β) := by
  refine bind h fun o => ?_
  cases o with
  | ok a => exact hk a
  | err e => exact done _
  | fault f => exact done _

end Prog.Same

namespace Filesystem.Same

open Prog.Same

variable {F : σ → τ} {fs : Filesystem ν φ η σ ε} {gs : Filesystem ν φ η τ ε} (h : Filesystem.Same F fs gs)

include h

theorem reply (id : NonZeroU64) {f : FuseReplySender σ ε → σ → Except (SendError ε) Unit × σ}
    {g : FuseReplySender τ ε → τ → Except (SendError ε) Unit × τ}
    (hm : Commutes F (f (.new fs.sock fs.layout id)) (g (.new gs.sock gs.layout id))) :
    Prog.Same F (fs.reply id f) (gs.reply id g) := by
  intro s
  have := hm s.world
  constructor
  · show (match (f (.new fs.sock fs.layout id) s.world).1 with
      | .ok () => Outcome.ok ()
      | .error e => .err (.send e)) = (match (g (.new gs.sock gs.layout id) (F s.world)).1 with
      | .ok () => Outcome.ok ()
      | .error e => .err (.send e))
    rw [this.1]
  · show (⟨_, _, F (f (.new fs.sock fs.layout id) s.world).2⟩ : Vfs ν φ η τ) = ⟨_, _, (g _ (F s.world)).2⟩
    rw [this.2]; rfl

theorem send0 (id : UInt64) (e : Int32) :
    Commutes F (ReplySender.send0 ⟨fs.sock, id⟩ e) (ReplySender.send0 ⟨gs.sock, id⟩ e) := h.send _

theorem send1 (id : UInt64) (b : Bytes) :
    Commutes F (ReplySender.send1 ⟨fs.sock, id⟩ b) (ReplySender.send1 ⟨gs.sock, id⟩ b) := by
  intro s
  unfold ReplySender.send1
  dsimp only
  split
  · exact ⟨rfl, rfl⟩
  · exact h.send _ s

theorem err (id : NonZeroU64) (e : FuseError) : Prog.Same F (fs.reply id (·.err e)) (gs.reply id (·.err e)) :=
  h.reply id (h.send0 _ _)

theorem okEmpty (id : NonZeroU64) : Prog.Same F (fs.reply id (·.okEmpty)) (gs.reply id (·.okEmpty)) :=
  h.reply id (h.send0 _ _)

theorem okBuf (id : NonZeroU64) (b : Bytes) : Prog.Same F (fs.reply id (·.okBuf b)) (gs.reply id (·.okBuf b)) :=
  h.reply id (h.send1 _ _)

theorem attr (id : NonZeroU64) (x : FuseAttrOut) :
    Prog.Same F (fs.reply id (·.ok (.attr x))) (gs.reply id (·.ok (.attr x))) :=
  h.reply id (by
    show Commutes F (ReplySender.send1 _ (if fs.layout.minor < 9 then _ else _))
      (ReplySender.send1 _ (if gs.layout.minor < 9 then _ else _))
    rw [h.layout]; exact h.send1 _ _)

theorem entryOut (id : NonZeroU64) (x : FuseEntryOut) :
    Prog.Same F (fs.reply id (·.ok (.entryOut x))) (gs.reply id (·.ok (.entryOut x))) :=
  h.reply id (by
    show Commutes F (ReplySender.send1 _ (if fs.layout.minor < 9 then _ else _))
      (ReplySender.send1 _ (if gs.layout.minor < 9 then _ else _))
    rw [h.layout]; exact h.send1 _ _)

theorem statfsOut (id : NonZeroU64) (x : FuseStatfsOut) :
    Prog.Same F (fs.reply id (·.ok (.statfs x))) (gs.reply id (·.ok (.statfs x))) :=
  h.reply id (by
    show Commutes F (ReplySender.send1 _ (if fs.layout.minor < 4 then _ else _))
      (ReplySender.send1 _ (if gs.layout.minor < 4 then _ else _))
    rw [h.layout]; exact h.send1 _ _)

theorem openOut (id : NonZeroU64) (x : FuseOpenOut) :
    Prog.Same F (fs.reply id (·.ok (.open_ x))) (gs.reply id (·.ok (.open_ x))) := h.reply id (h.send1 _ _)

theorem writeOut (id : NonZeroU64) (x : FuseWriteOut) :
    Prog.Same F (fs.reply id (·.ok (.write x))) (gs.reply id (·.ok (.write x))) := h.reply id (h.send1 _ _)

theorem nodesGet (id : NodeId) : Prog.Same F (fs.nodesGet id) (gs.nodesGet id) := by
  intro s; unfold Filesystem.nodesGet; rw [h.os]; exact ⟨rfl, rfl⟩

omit h in
theorem nodesAdd (id : NodeId) (node : ν) :
    Prog.Same F (Filesystem.nodesAdd (φ := φ) (η := η) (ε := ε) id node) (Filesystem.nodesAdd id node) := fun _ => ⟨rfl, rfl⟩

theorem getFile (i : NodeId) (fh : UInt64) : Prog.Same F (fs.getFile i fh) (gs.getFile i fh) := by
  unfold Filesystem.getFile; rw [h.os]; exact locked _

theorem getDir (i : NodeId) (fh : UInt64) : Prog.Same F (fs.getDir i fh) (gs.getDir i fh) := by
  unfold Filesystem.getDir; rw [h.os]; exact locked _

theorem releaseLocked (hdr : FuseInHeader) (q : ReleaseRequest) (i : NodeId) (fh : UInt64) :
    Prog.Same F (fs.releaseLocked hdr q i fh) (gs.releaseLocked hdr q i fh) := by
  refine act fun s => ?_
  rw [h.os]
  have e : (Vfs.mapWorld F s).handles = s.handles := rfl
  rw [e]
  cases s.handles.getFile gs.os i fh with
  | error e => exact ⟨rfl, rfl⟩
  | ok x =>
    have h1 := h.release x hdr q s.world
    have e2 : (Vfs.mapWorld F s).world = F s.world := rfl
    dsimp only
    rw [e2]
    generalize fs.impl.release x hdr q s.world = a at h1
    generalize gs.impl.release x hdr q (F s.world) = b at h1
    obtain ⟨a1, a2⟩ := a
    obtain ⟨b1, b2⟩ := b
    obtain ⟨rfl, rfl⟩ := h1
    cases a1 <;> exact ⟨rfl, rfl⟩

theorem releasedirLocked (hdr : FuseInHeader) (q : ReleasedirRequest) (i : NodeId) (fh : UInt64) :
    Prog.Same F (fs.releasedirLocked hdr q i fh) (gs.releasedirLocked hdr q i fh) := by
  refine act fun s => ?_
  rw [h.os]
  have e : (Vfs.mapWorld F s).handles = s.handles := rfl
  rw [e]
  cases s.handles.getDir gs.os i fh with
  | error e => exact ⟨rfl, rfl⟩
  | ok x =>
    have h1 := h.releasedir x hdr q s.world
    have e2 : (Vfs.mapWorld F s).world = F s.world := rfl
    dsimp only
    rw [e2]
    generalize fs.impl.releasedir x hdr q s.world = a at h1
    generalize gs.impl.releasedir x hdr q (F s.world) = b at h1
    obtain ⟨a1, a2⟩ := a
    obtain ⟨b1, b2⟩ := b
    obtain ⟨rfl, rfl⟩ := h1
    cases a1 <;> exact ⟨rfl, rfl⟩

/-- The same choice of handlers. -/
inductive Chosen (F : σ → τ) : Option (VfsM ν φ η σ ε Unit) → Option (VfsM ν φ η τ ε Unit) → Prop
  | none : Chosen F none none
  | some {p : VfsM ν φ η σ ε Unit} {q : VfsM ν φ η τ ε Unit} (h : Prog.Same F p q) : Chosen F (some p) (some q)

omit h in
theorem Chosen.ite {c : Prop} [Decidable c] {a a' : Option (VfsM ν φ η σ ε Unit)} {b b' : Option (VfsM ν φ η τ ε Unit)}
    (h : Chosen F a b) (h' : Chosen F a' b') : Chosen F (if c then a else a') (if c then b else b') := by
  split
  · exact h
  · exact h'

/-- `Filesystem::dispatch` does the same in both worlds. -/
theorem dispatch (r : Request) : Prog.Same F (fs.dispatch r) (gs.dispatch r) := by
  unfold Filesystem.dispatch
  split
  · exact done _
  · rename_i hd _
    have hsel : Chosen F (fs.select hd.opcode r) (gs.select hd.opcode r) := by
      unfold Filesystem.select
      repeat' apply Chosen.ite
      all_goals first
        | exact .none
        | refine .some ?_
      all_goals first
        | unfold Filesystem.read | unfold Filesystem.write | unfold Filesystem.forget | unfold Filesystem.getattr
        | unfold Filesystem.getxattr | unfold Filesystem.listxattr | unfold Filesystem.lookup | unfold Filesystem.open_
        | unfold Filesystem.opendir | unfold Filesystem.readdir | unfold Filesystem.readdirplus
        | unfold Filesystem.readlink | unfold Filesystem.release | unfold Filesystem.releasedir
        | unfold Filesystem.statfs
      all_goals try rw [h.layout]
      all_goals try rw [h.checks]
      all_goals try rw [h.os]
      all_goals repeat' first
        | with_reducible exact done _
        | with_reducible exact ofFault _
        | with_reducible exact decoded _
        | with_reducible exact locked _
        | with_reducible exact h.err _ _
        | with_reducible exact h.okEmpty _
        | with_reducible exact h.okBuf _ _
        | with_reducible exact h.attr _ _
        | with_reducible exact h.entryOut _ _
        | with_reducible exact h.statfsOut _ _
        | with_reducible exact h.openOut _ _
        | with_reducible exact h.writeOut _ _
        | with_reducible exact h.nodesGet _
        | with_reducible exact nodesAdd _ _
        | with_reducible exact h.getFile _ _
        | with_reducible exact h.getDir _ _
        | with_reducible exact h.releaseLocked _ _ _ _
        | with_reducible exact h.releasedirLocked _ _ _ _
        | with_reducible exact call (h.asDirectory _)
        | with_reducible exact call (h.asFile _)
        | with_reducible exact call (h.asSymlink _)
        | with_reducible exact call (h.asReaddirHandle _)
        | with_reducible exact call (h.asReaddirplusHandle _)
        | with_reducible exact call (h.asReadHandle _)
        | with_reducible exact call (h.asWriteHandle _)
        | with_reducible exact call (h.getattr _ _ _)
        | with_reducible exact call (h.getxattr _ _ _)
        | with_reducible exact call (h.listxattr _ _ _)
        | with_reducible exact call (h.statfs _ _ _)
        | with_reducible exact call (h.lookup _ _ _)
        | with_reducible exact call (h.opendir _ _ _)
        | with_reducible exact call (h.open_ _ _ _)
        | with_reducible exact call (h.readlink _ _ _)
        | with_reducible exact call (h.readdir _ _ _)
        | with_reducible exact call (h.readdirplus _ _ _)
        | with_reducible exact call (h.read _ _ _)
        | with_reducible exact call (h.write _ _ _)
        | with_reducible refine next ?_ fun _ => ?_
        | split
        | exact fun _ => ⟨rfl, rfl⟩
    generalize fs.select hd.opcode r = a at hsel
    generalize gs.select hd.opcode r = b at hsel
    cases hsel with
    | none => exact done _
    | some h3 => exact bind h3 fun _ => done _

end Filesystem.Same

end Fuse
