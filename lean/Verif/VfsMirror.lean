import Verif.PropTransport
import Verif.VfsHom
import Verif.PropShare

/-!
# The VFS layer with sockets that cannot be told apart

Two filesystems with the same user code, whose sockets do the same (`Mirrors`), are followed step by step.  Unlike in
`Verif.VfsHom` the sockets may have errors of different types, and they are only known to do the same with replies that they
can send.
-/

namespace Fuse
open Spec

variable {C ω τ ν φ η ε ε' α β α' β' : Type}

/-- The same maps, and worlds that go together. -/
def TwinVfs (Q : ω → τ → Prop) (x : Vfs ν φ η (C × ω)) (y : Vfs ν φ η (C × τ)) : Prop :=
  x.nodes = y.nodes ∧ x.handles = y.handles ∧ Twin Q x.world y.world

/-- Two programs that do the same step by step, with results that go together. -/
inductive Prog.Alike (Q : ω → τ → Prop) (A : α → β → Prop) :
    Prog (Vfs ν φ η (C × ω)) α → Prog (Vfs ν φ η (C × τ)) β → Prop
  | done {a : α} {b : β} (h : A a b) : Prog.Alike Q A (.done a) (.done b)
  | step {f : Vfs ν φ η (C × ω) → Vfs ν φ η (C × ω)} {k : Vfs ν φ η (C × ω) → Prog (Vfs ν φ η (C × ω)) α}
      {g : Vfs ν φ η (C × τ) → Vfs ν φ η (C × τ)} {l : Vfs ν φ η (C × τ) → Prog (Vfs ν φ η (C × τ)) β}
      (h : ∀ x y, TwinVfs Q x y → TwinVfs Q (f x) (g y)) (hk : ∀ x y, TwinVfs Q x y → Prog.Alike Q A (k x) (l y)) :
      Prog.Alike Q A (.step f k) (.step g l)

/-- Functions on the world that do the same. -/
def Together (Q : ω → τ → Prop) (f : C × ω → α × C × ω) (g : C × τ → α × C × τ) : Prop :=
  ∀ x y, Twin Q x y → (f x).1 = (g y).1 ∧ Twin Q (f x).2 (g y).2

/-- User code that does the same. -/
structure VfsImpl.Together (Q : ω → τ → Prop) (f : VfsImpl ν φ η (C × ω)) (g : VfsImpl ν φ η (C × τ)) : Prop where
  asDirectory : ∀ x, Fuse.Together Q (f.asDirectory x) (g.asDirectory x)
  asFile : ∀ x, Fuse.Together Q (f.asFile x) (g.asFile x)
  asSymlink : ∀ x, Fuse.Together Q (f.asSymlink x) (g.asSymlink x)
  getattr : ∀ x h q, Fuse.Together Q (f.getattr x h q) (g.getattr x h q)
  getxattr : ∀ x h q, Fuse.Together Q (f.getxattr x h q) (g.getxattr x h q)
  listxattr : ∀ x h q, Fuse.Together Q (f.listxattr x h q) (g.listxattr x h q)
  statfs : ∀ x h q, Fuse.Together Q (f.statfs x h q) (g.statfs x h q)
  lookup : ∀ x h q, Fuse.Together Q (f.lookup x h q) (g.lookup x h q)
  opendir : ∀ x h q, Fuse.Together Q (f.opendir x h q) (g.opendir x h q)
  open_ : ∀ x h q, Fuse.Together Q (f.open_ x h q) (g.open_ x h q)
  readlink : ∀ x h q, Fuse.Together Q (f.readlink x h q) (g.readlink x h q)
  asReaddirHandle : ∀ x, Fuse.Together Q (f.asReaddirHandle x) (g.asReaddirHandle x)
  asReaddirplusHandle : ∀ x, Fuse.Together Q (f.asReaddirplusHandle x) (g.asReaddirplusHandle x)
  releasedir : ∀ x h q, Fuse.Together Q (f.releasedir x h q) (g.releasedir x h q)
  readdir : ∀ x h q, Fuse.Together Q (f.readdir x h q) (g.readdir x h q)
  readdirplus : ∀ x h q, Fuse.Together Q (f.readdirplus x h q) (g.readdirplus x h q)
  asReadHandle : ∀ x, Fuse.Together Q (f.asReadHandle x) (g.asReadHandle x)
  asWriteHandle : ∀ x, Fuse.Together Q (f.asWriteHandle x) (g.asWriteHandle x)
  release : ∀ x h q, Fuse.Together Q (f.release x h q) (g.release x h q)
  read : ∀ x h q, Fuse.Together Q (f.read x h q) (g.read x h q)
  write : ∀ x h q, Fuse.Together Q (f.write x h q) (g.write x h q)

/-- Two filesystems that differ in the socket only. -/
structure Filesystem.Alike (eof : Bool) (Q : ω → τ → Prop) (fs : Filesystem ν φ η (C × ω) ε)
    (gs : Filesystem ν φ η (C × τ) ε') : Prop where
  layout : fs.layout = gs.layout
  os : fs.os = gs.os
  checks : fs.checks = gs.checks
  sock : Mirrors eof Q fs.sock gs.sock
  impl : fs.impl.Together Q gs.impl

namespace Prog.Alike

variable {Q : ω → τ → Prop} {A : α → β → Prop} {B : α' → β' → Prop}

theorem act {f : Vfs ν φ η (C × ω) → α × Vfs ν φ η (C × ω)} {g : Vfs ν φ η (C × τ) → β × Vfs ν φ η (C × τ)}
    (h : ∀ x y, TwinVfs Q x y → A (f x).1 (g y).1 ∧ TwinVfs Q (f x).2 (g y).2) : Prog.Alike Q A (.act f) (.act g) :=
  .step (fun x y ht => (h x y ht).2) fun x y ht => .done (h x y ht).1

theorem bind {p : Prog (Vfs ν φ η (C × ω)) α} {q : Prog (Vfs ν φ η (C × τ)) β} {k : α → Prog (Vfs ν φ η (C × ω)) α'}
    {l : β → Prog (Vfs ν φ η (C × τ)) β'} (h : Prog.Alike Q A p q) (hk : ∀ a b, A a b → Prog.Alike Q B (k a) (l b)) :
    Prog.Alike Q B (p.bind k) (q.bind l) := by
  induction h with
  | done h => exact hk _ _ h
  | step h _ ih => exact .step h ih

/-- Running alone. -/
theorem runs {p : Prog (Vfs ν φ η (C × ω)) α} {q : Prog (Vfs ν φ η (C × τ)) β} (h : Prog.Alike Q A p q) :
    ∀ x y, TwinVfs Q x y → A (p.run x).1 (q.run y).1 ∧ TwinVfs Q (p.run x).2 (q.run y).2 := by
  induction h with
  | done h => exact fun x y ht => ⟨h, ht⟩
  | step h _ ih => exact fun x y ht => ih x y ht _ _ (h x y ht)

/-- Programs with the same results, but for errors of the socket. -/
abbrev M (Q : ω → τ → Prop) (p : VfsM ν φ η (C × ω) ε α) (q : VfsM ν φ η (C × τ) ε' α) : Prop :=
  Prog.Alike Q (AlikeOutcome true) p q

theorem ofFault (x : Except Fault α) :
    M Q (VfsM.ofFault (ν := ν) (φ := φ) (η := η) (σ := C × ω) (ε := ε) x) (VfsM.ofFault (σ := C × τ) (ε := ε') x) := by
  cases x <;> exact .done rfl

theorem decoded (x : Res α) :
    M Q (VfsM.decoded (ν := ν) (φ := φ) (η := η) (σ := C × ω) (ε := ε) x) (VfsM.decoded (σ := C × τ) (ε := ε') x) := by
  rcases x with (_ | _) | _ <;> exact .done rfl

theorem call {f : C × ω → α × C × ω} {g : C × τ → α × C × τ} (h : Together Q f g) :
    M Q (VfsM.call (ν := ν) (φ := φ) (η := η) (ε := ε) f) (VfsM.call (ε := ε') g) :=
  act fun _ _ ht => ⟨(h _ _ ht.2.2).1, ht.1, ht.2.1, (h _ _ ht.2.2).2⟩

theorem locked (f : HandlesMap φ η → Except Fault α × HandlesMap φ η) :
    M Q (VfsM.locked (ν := ν) (σ := C × ω) (ε := ε) f) (VfsM.locked (σ := C × τ) (ε := ε') f) :=
  act fun x y ht => by
    dsimp only
    rw [ht.2.1]
    generalize f y.handles = z
    obtain ⟨r, m⟩ := z
    cases r <;> exact ⟨rfl, ht.1, rfl, ht.2.2⟩

/-- Going on in the same way. -/
theorem next {p : VfsM ν φ η (C × ω) ε α} {q : VfsM ν φ η (C × τ) ε' α} {k : α → VfsM ν φ η (C × ω) ε α'}
    {l : α → VfsM ν φ η (C × τ) ε' α'} (h : M Q p q) (hk : ∀ a, M Q (k a) (l a)) :
    M Q (p >>= k : VfsM ν φ η (C × ω) ε α') (q >>= l : VfsM ν φ η (C × τ) ε' α') := by
  refine bind h fun o o' ho => ?_
  cases o <;> cases o' <;> try exact ho.elim
  · cases ho; exact hk _
  · exact .done ho
  · exact .done ho

end Prog.Alike

namespace Filesystem.Alike

open Prog.Alike

variable {eof : Bool} {Q : ω → τ → Prop} {fs : Filesystem ν φ η (C × ω) ε} {gs : Filesystem ν φ η (C × τ) ε'}
  (h : Filesystem.Alike eof Q fs gs)

include h

theorem reply (id : NonZeroU64) {f : FuseReplySender (C × ω) ε → C × ω → Except (SendError ε) Unit × C × ω}
    {g : FuseReplySender (C × τ) ε' → C × τ → Except (SendError ε') Unit × C × τ} {error : Int32} {payload : Bytes}
    (hf : ∀ s, SendsOnce fs.sock id.val error payload s (f (.new fs.sock fs.layout id) s))
    (hg : ∀ s, SendsOnce gs.sock id.val error payload s (g (.new gs.sock gs.layout id) s)) :
    M Q (fs.reply id f) (gs.reply id g) :=
  act fun x y ht => by
    obtain ⟨h1, h2⟩ := sends_mirror h.sock ht.2.2 (hf x.world) (hg y.world)
    dsimp only
    rcases h2 with ⟨h2, h3⟩ | ⟨n, h2, h3⟩ <;> rw [h2, h3] <;> exact ⟨rfl, ht.1, ht.2.1, h1⟩

theorem err (id : NonZeroU64) (e : FuseError) : M Q (fs.reply id (·.err e)) (gs.reply id (·.err e)) :=
  h.reply id (send0_once _ _ _) (send0_once _ _ _)

theorem okEmpty (id : NonZeroU64) : M Q (fs.reply id (·.okEmpty)) (gs.reply id (·.okEmpty)) :=
  h.reply id (send0_once _ _ _) (send0_once _ _ _)

theorem okBuf (id : NonZeroU64) (b : Bytes) : M Q (fs.reply id (·.okBuf b)) (gs.reply id (·.okBuf b)) :=
  h.reply id (send1_once _ _ _) (send1_once _ _ _)

theorem ok (id : NonZeroU64) (x : FuseReply) :
    M Q (fs.reply id (·.ok x)) (gs.reply id (·.ok x)) :=
  h.reply id (fuse_reply_once _ _ _ x) (by rw [h.layout]; exact fuse_reply_once _ _ _ x)

theorem nodesGet (id : NodeId) : M Q (fs.nodesGet id) (gs.nodesGet id) :=
  act fun x y ht => by rw [h.os, ht.1]; exact ⟨rfl, ht⟩

omit h in
theorem nodesAdd (id : NodeId) (node : ν) :
    M Q (Filesystem.nodesAdd (φ := φ) (η := η) (σ := C × ω) (ε := ε) id node) (Filesystem.nodesAdd (σ := C × τ) (ε := ε') id node) :=
  act fun x y ht => by
    dsimp only
    rw [ht.1]
    generalize y.nodes.add id node = z
    obtain ⟨r, m⟩ := z
    cases r <;> exact ⟨rfl, rfl, ht.2⟩

omit h in
theorem nodesForget (items : List ForgetItem) :
    M Q (Filesystem.nodesForget (ν := ν) (φ := φ) (η := η) (σ := C × ω) (ε := ε) items)
      (Filesystem.nodesForget (σ := C × τ) (ε := ε') items) :=
  act fun x y ht => by
    dsimp only
    rw [ht.1]
    exact ⟨rfl, rfl, ht.2⟩

theorem getFile (i : NodeId) (fh : UInt64) : M Q (fs.getFile i fh) (gs.getFile i fh) := by
  unfold Filesystem.getFile; rw [h.os]; exact locked _

theorem getDir (i : NodeId) (fh : UInt64) : M Q (fs.getDir i fh) (gs.getDir i fh) := by
  unfold Filesystem.getDir; rw [h.os]; exact locked _

theorem releaseLocked (hdr : FuseInHeader) (q : ReleaseRequest) (i : NodeId) (fh : UInt64) :
    M Q (fs.releaseLocked hdr q i fh) (gs.releaseLocked hdr q i fh) :=
  act fun x y ht => by
    rw [h.os, ht.2.1]
    cases y.handles.getFile gs.os i fh with
    | error e => exact ⟨rfl, ht⟩
    | ok z =>
      dsimp only
      have h1 := h.impl.release z hdr q x.world y.world ht.2.2
      generalize fs.impl.release z hdr q x.world = a at h1
      generalize gs.impl.release z hdr q y.world = b at h1
      obtain ⟨a1, a2⟩ := a
      obtain ⟨b1, b2⟩ := b
      obtain ⟨h2, h3⟩ := h1
      cases h2
      cases a1
      · exact ⟨rfl, ht.1, rfl, h3⟩
      · exact ⟨rfl, ht.1, rfl, h3⟩

theorem releasedirLocked (hdr : FuseInHeader) (q : ReleasedirRequest) (i : NodeId) (fh : UInt64) :
    M Q (fs.releasedirLocked hdr q i fh) (gs.releasedirLocked hdr q i fh) :=
  act fun x y ht => by
    rw [h.os, ht.2.1]
    cases y.handles.getDir gs.os i fh with
    | error e => exact ⟨rfl, ht⟩
    | ok z =>
      dsimp only
      have h1 := h.impl.releasedir z hdr q x.world y.world ht.2.2
      generalize fs.impl.releasedir z hdr q x.world = a at h1
      generalize gs.impl.releasedir z hdr q y.world = b at h1
      obtain ⟨a1, a2⟩ := a
      obtain ⟨b1, b2⟩ := b
      obtain ⟨h2, h3⟩ := h1
      cases h2
      cases a1
      · exact ⟨rfl, ht.1, rfl, h3⟩
      · exact ⟨rfl, ht.1, rfl, h3⟩

/-- The same choice of handlers. -/
inductive Chosen (Q : ω → τ → Prop) : Option (VfsM ν φ η (C × ω) ε Unit) → Option (VfsM ν φ η (C × τ) ε' Unit) → Prop
  | none : Chosen Q none none
  | some {p : VfsM ν φ η (C × ω) ε Unit} {q : VfsM ν φ η (C × τ) ε' Unit} (h : M Q p q) : Chosen Q (some p) (some q)

omit h in
theorem Chosen.ite {c : Prop} [Decidable c] {a a' : Option (VfsM ν φ η (C × ω) ε Unit)}
    {b b' : Option (VfsM ν φ η (C × τ) ε' Unit)}
    (h : Chosen Q a b) (h' : Chosen Q a' b') : Chosen Q (if c then a else a') (if c then b else b') := by
  split
  · exact h
  · exact h'

/-- Results of `Filesystem::dispatch` that are the same. -/
def AlikeDispatch : Option (Outcome ε Unit) → Option (Outcome ε' Unit) → Prop
  | none, none => True
  | some o, some o' => AlikeOutcome true o o'
  | _, _ => False

/-- `Filesystem::dispatch` does the same step by step. -/
theorem dispatch (r : Request) : Prog.Alike Q AlikeDispatch (fs.dispatch r) (gs.dispatch r) := by
  unfold Filesystem.dispatch
  cases r.rawHeader with
  | error f => exact .done rfl
  | ok hd =>
    dsimp only
    have hsel : Chosen Q (fs.select hd.opcode r) (gs.select hd.opcode r) := by
      unfold Filesystem.select
      repeat' apply Chosen.ite
      all_goals first
        | exact .none
        | refine .some ?_
      all_goals first
        | unfold Filesystem.read | unfold Filesystem.write | unfold Filesystem.forget | unfold Filesystem.getattr
        | unfold Filesystem.getxattr | unfold Filesystem.listxattr | unfold Filesystem.lookup | unfold Filesystem.open_
        | unfold Filesystem.opendir | unfold Filesystem.readdir | unfold Filesystem.readdirplus
        | unfold Filesystem.readlink | unfold Filesystem.release | unfold Filesystem.releasedir
        | unfold Filesystem.statfs
      all_goals try rw [h.layout]
      all_goals try rw [h.checks]
      all_goals try rw [h.os]
      all_goals repeat' first
        | with_reducible exact Prog.Alike.ofFault _
        | with_reducible exact Prog.Alike.decoded _
        | with_reducible exact Prog.Alike.locked _
        | with_reducible exact h.err _ _
        | with_reducible exact h.okEmpty _
        | with_reducible exact h.okBuf _ _
        | with_reducible exact h.ok _ _
        | with_reducible exact h.nodesGet _
        | with_reducible exact nodesAdd _ _
        | with_reducible exact nodesForget _
        | with_reducible exact h.getFile _ _
        | with_reducible exact h.getDir _ _
        | with_reducible exact h.releaseLocked _ _ _ _
        | with_reducible exact h.releasedirLocked _ _ _ _
        | with_reducible exact Prog.Alike.call (h.impl.asDirectory _)
        | with_reducible exact Prog.Alike.call (h.impl.asFile _)
        | with_reducible exact Prog.Alike.call (h.impl.asSymlink _)
        | with_reducible exact Prog.Alike.call (h.impl.asReaddirHandle _)
        | with_reducible exact Prog.Alike.call (h.impl.asReaddirplusHandle _)
        | with_reducible exact Prog.Alike.call (h.impl.asReadHandle _)
        | with_reducible exact Prog.Alike.call (h.impl.asWriteHandle _)
        | with_reducible exact Prog.Alike.call (h.impl.getattr _ _ _)
        | with_reducible exact Prog.Alike.call (h.impl.getxattr _ _ _)
        | with_reducible exact Prog.Alike.call (h.impl.listxattr _ _ _)
        | with_reducible exact Prog.Alike.call (h.impl.statfs _ _ _)
        | with_reducible exact Prog.Alike.call (h.impl.lookup _ _ _)
        | with_reducible exact Prog.Alike.call (h.impl.opendir _ _ _)
        | with_reducible exact Prog.Alike.call (h.impl.open_ _ _ _)
        | with_reducible exact Prog.Alike.call (h.impl.readlink _ _ _)
        | with_reducible exact Prog.Alike.call (h.impl.readdir _ _ _)
        | with_reducible exact Prog.Alike.call (h.impl.readdirplus _ _ _)
        | with_reducible exact Prog.Alike.call (h.impl.read _ _ _)
        | with_reducible exact Prog.Alike.call (h.impl.write _ _ _)
        | with_reducible refine Prog.Alike.next ?_ fun _ => ?_
        | split
        | exact Prog.Alike.done rfl
    generalize fs.select hd.opcode r = a at hsel
    generalize gs.select hd.opcode r = b at hsel
    cases hsel with
    | none => exact .done trivial
    | some h3 => exact h3.bind fun _ _ ho => .done ho

end Filesystem.Alike

end Fuse
