import Verif.PropVfsReplyAll
import Verif.PropVfsDevice
import Verif.PropVfsCall

/-!
# C90: a client that sends anything to the VFS layer

The claims about mounts of directory trees (C75, C76, C77) have a client that keeps to the protocol.  Here the client sends what
it likes, and may make it depend upon what it has been sent.
-/

namespace Fuse
open Spec VfsEv

section
variable {ν φ η C σ ε α : Type}

/-! ## What the user's code may be asked to do -/

/-- The message, handled by the VFS layer, is this request. -/
def Spec.Requests (layout : FuseLayout) (checks : Bool) (m : Bytes) (q : AnyRequest) : Prop :=
  ∃ ty, vfsRequestType layout checks (u32At m 4) = some ty ∧ decodeMessage ty m = .ok q

/-- An object is asked whether it is of a kind. -/
inductive VfsImpl.Asks (u : VfsImpl ν φ η C) : VfsKind → C → C → Prop
  | directory (v c) : Asks u .directory c (u.asDirectory v c).2
  | file (v c) : Asks u .file c (u.asFile v c).2
  | symlink (v c) : Asks u .symlink c (u.asSymlink v c).2
  | readdir (h c) : Asks u .readdir c (u.asReaddirHandle h c).2
  | readdirplus (h c) : Asks u .readdirplus c (u.asReaddirplusHandle h c).2
  | read (h c) : Asks u .read c (u.asReadHandle h c).2
  | write (h c) : Asks u .write c (u.asWriteHandle h c).2

/-- The request's method is called; if its result has no fixed size, this is it. -/
inductive VfsImpl.Does (u : VfsImpl ν φ η C) (hdr : FuseInHeader) : AnyRequest → C → Option (Except FuseError Bytes) → C → Prop
  | getattr (v q c) : Does u hdr (.getattr q) c none (u.getattr v hdr q c).2
  | getxattr (v q c) : Does u hdr (.getxattr q) c (some (u.getxattr v hdr q c).1) (u.getxattr v hdr q c).2
  | listxattr (v q c) : Does u hdr (.listxattr q) c (some (u.listxattr v hdr q c).1) (u.listxattr v hdr q c).2
  | statfs (v q c) : Does u hdr (.statfs q) c none (u.statfs v hdr q c).2
  | lookup (v q c) : Does u hdr (.lookup q) c none (u.lookup v hdr q c).2
  | opendir (v q c) : Does u hdr (.opendir q) c none (u.opendir v hdr q c).2
  | open_ (v q c) : Does u hdr (.open_ q) c none (u.open_ v hdr q c).2
  | readlink (v q c) : Does u hdr (.readlink q) c (some ((u.readlink v hdr q c).1.map (·.bytes))) (u.readlink v hdr q c).2
  | readdir (h q c) : Does u hdr (.readdir q) c (some (u.readdir h hdr q c).1) (u.readdir h hdr q c).2
  | readdirplus (h q c) : Does u hdr (.readdirplus q) c (some (u.readdirplus h hdr q c).1) (u.readdirplus h hdr q c).2
  | read (h q c) : Does u hdr (.read q) c (some (u.read h hdr q c).1) (u.read h hdr q c).2
  | write (h q c) : Does u hdr (.write q) c none (u.write h hdr q c).2
  | release (h q c) : Does u hdr (.release q) c none (u.release h hdr q c).2
  | releasedir (h q c) : Does u hdr (.releasedir q) c none (u.releasedir h hdr q c).2

/-- What the message brings about: nothing, or a question for the kind that the request needs, or the request's method, with
the header of the message, after this question if there is a kind that the request needs. -/
inductive VfsImpl.Touches (u : VfsImpl ν φ η C) (layout : FuseLayout) (checks : Bool) (m : Bytes) :
    C → Option (Except FuseError Bytes) → C → Prop
  | nothing (c) : Touches u layout checks m c none c
  | asked {q k c c'} : Requests layout checks m q → q.kind = some k → u.Asks k c c' → Touches u layout checks m c none c'
  | called {q hdr c r c'} : Requests layout checks m q → q.kind = none → layout_fuse_in_header hdr = m.take 40 →
      u.Does hdr q c r c' → Touches u layout checks m c r c'
  | both {q k hdr c c1 r c'} : Requests layout checks m q → q.kind = some k → layout_fuse_in_header hdr = m.take 40 →
      u.Asks k c c1 → u.Does hdr q c1 r c' → Touches u layout checks m c r c'

/-- How it goes with a client that sends anything, when there is room for messages of `n` bytes: what the client has got in the
end, if it came to its end; how serving ends; and the state of the user's code. -/
inductive Spec.Tours (u : VfsImpl ν φ η C) (layout : FuseLayout) (checks : Bool) (n : Nat) :
    Talk α → C → Option α → Outcome Unit Unit → C → Prop
  | finished (a c) : Tours u layout checks n (.done a) c (some a) (.ok ()) c
  | tooLong {m k c} : n < m.length → Tours u layout checks n (.say m k) c none (.err (.recv (.other ()))) c
  | rejected {m k c e} : m.length ≤ n → ¬ Acceptable m → Request.new m = .error e →
      Tours u layout checks n (.say m k) c none (.err (.request e)) c
  | goes {m k c c1 c' res heard o r out} : m.length ≤ n → Acceptable m → o = none ∨ o = some (.ok ()) →
      u.Touches layout checks m c res c1 →
      Dispatched (ε := Unit) layout checks m (fun a => ∃ d, res = some (.ok d) ∧ a = .okBuf d) (heard.map (·, true)) o →
      Tours u layout checks n (k heard) c1 r out c' → Tours u layout checks n (.say m k) c r out c'
  | ends {m k c c' res out} : m.length ≤ n → Acceptable m → out ≠ .ok () →
      u.Touches layout checks m c res c' →
      Dispatched (ε := Unit) layout checks m (fun a => ∃ d, res = some (.ok d) ∧ a = .okBuf d) [] (some out) →
      Tours u layout checks n (.say m k) c none out c'

/-- The conversation has at most so many messages, however it goes. -/
def Spec.Talk.Within : Nat → Talk α → Prop
  | _, .done _ => True
  | 0, .say _ _ => False
  | n + 1, .say _ k => ∀ out, (k out).Within n

/-- What the user's code can rely upon: if its methods keep `inv`, when used on objects with `N` (nodes), `F` (open files) and
`D` (open directories), and only ever hand out such objects.  Objects that it has said to be of a kind may have a property of
their own: `N (some .file)` is for nodes that it has made into files, `F (some .write)` for handles that can be written. -/
structure VfsImpl.Confines (u : VfsImpl ν φ η C) (inv : C → Prop) (N : Option VfsKind → ν → Prop) (F : Option VfsKind → φ → Prop)
    (D : Option VfsKind → η → Prop) : Prop where
  asDirectory : ∀ v c, N none v → inv c → inv (u.asDirectory v c).2 ∧ ∀ y, (u.asDirectory v c).1 = some y → N (some .directory) y
  asFile : ∀ v c, N none v → inv c → inv (u.asFile v c).2 ∧ ∀ y, (u.asFile v c).1 = some y → N (some .file) y
  asSymlink : ∀ v c, N none v → inv c → inv (u.asSymlink v c).2 ∧ ∀ y, (u.asSymlink v c).1 = some y → N (some .symlink) y
  asReaddirHandle : ∀ h c, D none h → inv c →
    inv (u.asReaddirHandle h c).2 ∧ ∀ y, (u.asReaddirHandle h c).1 = some y → D (some .readdir) y
  asReaddirplusHandle : ∀ h c, D none h → inv c →
    inv (u.asReaddirplusHandle h c).2 ∧ ∀ y, (u.asReaddirplusHandle h c).1 = some y → D (some .readdirplus) y
  asReadHandle : ∀ h c, F none h → inv c → inv (u.asReadHandle h c).2 ∧ ∀ y, (u.asReadHandle h c).1 = some y → F (some .read) y
  asWriteHandle : ∀ h c, F none h → inv c →
    inv (u.asWriteHandle h c).2 ∧ ∀ y, (u.asWriteHandle h c).1 = some y → F (some .write) y
  getattr : ∀ v hdr q c, N none v → inv c → inv (u.getattr v hdr q c).2
  getxattr : ∀ v hdr q c, N none v → inv c → inv (u.getxattr v hdr q c).2
  listxattr : ∀ v hdr q c, N none v → inv c → inv (u.listxattr v hdr q c).2
  statfs : ∀ v hdr q c, N none v → inv c → inv (u.statfs v hdr q c).2
  lookup : ∀ v hdr q c, N (some .directory) v → inv c → inv (u.lookup v hdr q c).2 ∧
    ∀ res w attr, (u.lookup v hdr q c).1 = .ok res → res.node = some (w, attr) → N none w ∧ attr.raw.ino ≠ 0
  opendir : ∀ v hdr q c, N (some .directory) v → inv c →
    inv (u.opendir v hdr q c).2 ∧ ∀ res, (u.opendir v hdr q c).1 = .ok res → D none res.handle
  open_ : ∀ v hdr q c, N (some .file) v → inv c →
    inv (u.open_ v hdr q c).2 ∧ ∀ res, (u.open_ v hdr q c).1 = .ok res → F none res.handle
  readlink : ∀ v hdr q c, N (some .symlink) v → inv c → inv (u.readlink v hdr q c).2
  releasedir : ∀ h hdr q c, D none h → inv c → inv (u.releasedir h hdr q c).2
  readdir : ∀ h hdr q c, D (some .readdir) h → inv c → inv (u.readdir h hdr q c).2
  readdirplus : ∀ h hdr q c, D (some .readdirplus) h → inv c → inv (u.readdirplus h hdr q c).2
  release : ∀ h hdr q c, F none h → inv c → inv (u.release h hdr q c).2
  read : ∀ h hdr q c, F (some .read) h → inv c → inv (u.read h hdr q c).2
  write : ∀ h hdr q c, F (some .write) h → inv c → inv (u.write h hdr q c).2

/-! ## One event -/

/-- The tables hold only such objects, and the user's code is in such a state. -/
structure Fine (inv : C → Prop) (N : Option VfsKind → ν → Prop) (F : Option VfsKind → φ → Prop)
    (D : Option VfsKind → η → Prop) (s : Vfs ν φ η (C × σ)) : Prop where
  world : inv s.world.1
  nodes : ∀ i x, s.nodes i = some x → N none x.node
  files : ∀ fh h, s.handles.openFiles fh = some h → F none h
  dirs : ∀ fh h, s.handles.openDirs fh = some h → D none h

/-- The objects that an event needs. -/
def EvPre (N : Option VfsKind → ν → Prop) (F : Option VfsKind → φ → Prop) (D : Option VfsKind → η → Prop) : VfsEv ν φ η ε → Prop
  | .asDirectory v _ | .asFile v _ | .asSymlink v _ | .getattr v _ _ | .getxattr v _ _ | .listxattr v _ _ | .statfs v _ _
  | .added _ v => N none v
  | .lookup v _ _ | .opendir v _ _ => N (some .directory) v
  | .open_ v _ _ => N (some .file) v
  | .readlink v _ _ => N (some .symlink) v
  | .asReaddir h _ | .asReaddirplus h _ | .openedDir _ h => D none h
  | .readdir h _ _ => D (some .readdir) h
  | .readdirplus h _ _ => D (some .readdirplus) h
  | .asRead h _ | .asWrite h _ | .openedFile _ h => F none h
  | .read h _ _ => F (some .read) h
  | .write h _ _ => F (some .write) h
  | _ => True

/-- The objects that an event gives. -/
def EvPost (N : Option VfsKind → ν → Prop) (F : Option VfsKind → φ → Prop) (D : Option VfsKind → η → Prop) : VfsEv ν φ η ε → Prop
  | .gotNode _ (some v) => N none v
  | .asDirectory _ (some v) => N (some .directory) v
  | .asFile _ (some v) => N (some .file) v
  | .asSymlink _ (some v) => N (some .symlink) v
  | .gotFile _ (some h) => F none h
  | .asRead _ (some h) => F (some .read) h
  | .asWrite _ (some h) => F (some .write) h
  | .gotDir _ (some h) => D none h
  | .asReaddir _ (some h) => D (some .readdir) h
  | .asReaddirplus _ (some h) => D (some .readdirplus) h
  | .lookup _ _ (.ok res) => ∀ w attr, res.node = some (w, attr) → N none w ∧ attr.raw.ino ≠ 0
  | .open_ _ _ (.ok res) => F none res.handle
  | .opendir _ _ (.ok res) => D none res.handle
  | _ => True

/-- What an event does to the user's state. -/
def EvTouch (u : VfsImpl ν φ η C) (hdr : FuseInHeader) (c c' : C) : VfsEv ν φ η ε → Prop
  | .asDirectory .. => u.Asks .directory c c'
  | .asFile .. => u.Asks .file c c'
  | .asSymlink .. => u.Asks .symlink c c'
  | .asReaddir .. => u.Asks .readdir c c'
  | .asReaddirplus .. => u.Asks .readdirplus c c'
  | .asRead .. => u.Asks .read c c'
  | .asWrite .. => u.Asks .write c c'
  | .getattr _ q _ => u.Does hdr (.getattr q) c none c'
  | .getxattr _ q r => u.Does hdr (.getxattr q) c (some r) c'
  | .listxattr _ q r => u.Does hdr (.listxattr q) c (some r) c'
  | .statfs _ q _ => u.Does hdr (.statfs q) c none c'
  | .lookup _ q _ => u.Does hdr (.lookup q) c none c'
  | .opendir _ q _ => u.Does hdr (.opendir q) c none c'
  | .open_ _ q _ => u.Does hdr (.open_ q) c none c'
  | .readlink _ q r => u.Does hdr (.readlink q) c (some (r.map (·.bytes))) c'
  | .readdir _ q r => u.Does hdr (.readdir q) c (some r) c'
  | .readdirplus _ q r => u.Does hdr (.readdirplus q) c (some r) c'
  | .read _ q r => u.Does hdr (.read q) c (some r) c'
  | .write _ q _ => u.Does hdr (.write q) c none c'
  | .releaseFailed _ _ q _ | .released _ _ q => u.Does hdr (.release q) c none c'
  | .releasedirFailed _ _ q _ | .releasedDir _ _ q => u.Does hdr (.releasedir q) c none c'
  | _ => c' = c

variable {fs : Filesystem ν φ η (C × σ) ε} {u : VfsImpl ν φ η C} {hdr : FuseInHeader}

theorem beside_called {β : Type} {f : C → β × C} {a : β} {s s' : Vfs ν φ η (C × σ)}
    (h : Called (fun w => ((f w.1).1, (f w.1).2, w.2)) a s s') :
    a = (f s.world.1).1 ∧ s'.world.1 = (f s.world.1).2 ∧ s'.world.2 = s.world.2 ∧ s'.nodes = s.nodes ∧ s'.handles = s.handles := by
  obtain ⟨h1, h2⟩ := h
  injection h1 with h1 h3
  refine ⟨h1.symm, by rw [← h3], by rw [← h3], ?_, ?_⟩ <;> rw [h2]

theorem ev_touch (hu : fs.impl = u.beside σ) (hsend : ∀ buf w, (fs.sock.send buf w).2.1 = w.1) {e : VfsEv ν φ η ε}
    {s s' : Vfs ν φ η (C × σ)} (h : e.Effect fs hdr s s') : EvTouch u hdr s.world.1 s'.world.1 e := by
  cases e <;> dsimp only [VfsEv.Effect] at h <;> try rw [hu] at h
  case sent a r =>
    obtain ⟨h1, h2⟩ := h
    by_cases hs : 16 + (a.payload fs.layout.versionMinor.toNat).length < 2 ^ 32
    · obtain ⟨buf, _, h3⟩ := h1.1 hs
      show s'.world.1 = s.world.1
      have := congrArg (·.2.1) h3
      exact this.trans (hsend _ _)
    · have h3 := h1.2 hs
      exact congrArg (·.2.1) h3
  case gotNode => exact congrArg (·.world.1) h.2
  case gotFile => exact congrArg (·.world.1) h.2
  case gotDir => exact congrArg (·.world.1) h.2
  case openedFile => exact congrArg (·.world.1) h.2.2
  case openedDir => exact congrArg (·.world.1) h.2.2
  case handlesFull => exact congrArg (·.world.1) h.2
  case countFull => exact congrArg (·.world.1) h.2
  case forgot => exact congrArg (·.world.1) h
  case added =>
    obtain ⟨x, h1, _⟩ := h
    exact congrArg (·.world.1) h1
  case released =>
    have h1 := congrArg (·.2.1) h.2.1
    show u.Does _ _ _ _ s'.world.1
    rw [← (h1 : _ = s'.world.1)]
    constructor
  case releasedDir =>
    have h1 := congrArg (·.2.1) h.2.1
    show u.Does _ _ _ _ s'.world.1
    rw [← (h1 : _ = s'.world.1)]
    constructor
  case releaseFailed =>
    obtain ⟨h1, h2, h3, _⟩ := beside_called (f := u.release _ hdr _) h.2
    show u.Does _ _ _ _ s'.world.1
    rw [h2]; constructor
  case releasedirFailed =>
    obtain ⟨h1, h2, h3, _⟩ := beside_called (f := u.releasedir _ hdr _) h.2
    show u.Does _ _ _ _ s'.world.1
    rw [h2]; constructor
  case asDirectory => obtain ⟨h1, h2, _⟩ := beside_called (f := u.asDirectory _) h; dsimp only [EvTouch]; rw [h2]; constructor
  case asFile => obtain ⟨h1, h2, _⟩ := beside_called (f := u.asFile _) h; dsimp only [EvTouch]; rw [h2]; constructor
  case asSymlink => obtain ⟨h1, h2, _⟩ := beside_called (f := u.asSymlink _) h; dsimp only [EvTouch]; rw [h2]; constructor
  case asReaddir => obtain ⟨h1, h2, _⟩ := beside_called (f := u.asReaddirHandle _) h; dsimp only [EvTouch]; rw [h2]; constructor
  case asReaddirplus =>
    obtain ⟨h1, h2, _⟩ := beside_called (f := u.asReaddirplusHandle _) h; dsimp only [EvTouch]; rw [h2]; constructor
  case asRead => obtain ⟨h1, h2, _⟩ := beside_called (f := u.asReadHandle _) h; dsimp only [EvTouch]; rw [h2]; constructor
  case asWrite => obtain ⟨h1, h2, _⟩ := beside_called (f := u.asWriteHandle _) h; dsimp only [EvTouch]; rw [h2]; constructor
  case getattr => obtain ⟨h1, h2, _⟩ := beside_called (f := u.getattr _ hdr _) h; dsimp only [EvTouch]; rw [h2]; constructor
  case getxattr => obtain ⟨h1, h2, _⟩ := beside_called (f := u.getxattr _ hdr _) h; dsimp only [EvTouch]; rw [h1, h2]; constructor
  case listxattr => obtain ⟨h1, h2, _⟩ := beside_called (f := u.listxattr _ hdr _) h; dsimp only [EvTouch]; rw [h1, h2]; constructor
  case statfs => obtain ⟨h1, h2, _⟩ := beside_called (f := u.statfs _ hdr _) h; dsimp only [EvTouch]; rw [h2]; constructor
  case lookup => obtain ⟨h1, h2, _⟩ := beside_called (f := u.lookup _ hdr _) h; dsimp only [EvTouch]; rw [h2]; constructor
  case opendir => obtain ⟨h1, h2, _⟩ := beside_called (f := u.opendir _ hdr _) h; dsimp only [EvTouch]; rw [h2]; constructor
  case open_ => obtain ⟨h1, h2, _⟩ := beside_called (f := u.open_ _ hdr _) h; dsimp only [EvTouch]; rw [h2]; constructor
  case readlink => obtain ⟨h1, h2, _⟩ := beside_called (f := u.readlink _ hdr _) h; dsimp only [EvTouch]; rw [h1, h2]; constructor
  case readdir => obtain ⟨h1, h2, _⟩ := beside_called (f := u.readdir _ hdr _) h; dsimp only [EvTouch]; rw [h1, h2]; constructor
  case readdirplus =>
    obtain ⟨h1, h2, _⟩ := beside_called (f := u.readdirplus _ hdr _) h; dsimp only [EvTouch]; rw [h1, h2]; constructor
  case read => obtain ⟨h1, h2, _⟩ := beside_called (f := u.read _ hdr _) h; dsimp only [EvTouch]; rw [h1, h2]; constructor
  case write => obtain ⟨h1, h2, _⟩ := beside_called (f := u.write _ hdr _) h; dsimp only [EvTouch]; rw [h2]; constructor

theorem ev_fine (hu : fs.impl = u.beside σ) (hsend : ∀ buf w, (fs.sock.send buf w).2.1 = w.1) {inv : C → Prop} {N : Option VfsKind → ν → Prop}
    {F : Option VfsKind → φ → Prop}
    {D : Option VfsKind → η → Prop} (hc : u.Confines inv N F D) {e : VfsEv ν φ η ε} {s s' : Vfs ν φ η (C × σ)}
    (h : e.Effect fs hdr s s') (hs : Fine inv N F D s) (hp : EvPre N F D e) : Fine inv N F D s' ∧ EvPost N F D e := by
  have keep : s'.nodes = s.nodes → s'.handles = s.handles → inv s'.world.1 → Fine inv N F D s' := by
    intro h1 h2 h3
    exact ⟨h3, by rw [h1]; exact hs.nodes, by rw [h2]; exact hs.files, by rw [h2]; exact hs.dirs⟩
  have ht := ev_touch hu hsend h
  cases e <;> dsimp only [VfsEv.Effect] at h <;> try rw [hu] at h
  case sent a r =>
    obtain ⟨h1, h2⟩ := h
    refine ⟨keep (by rw [h2]) (by rw [h2]) ?_, trivial⟩
    rw [(ht : s'.world.1 = s.world.1)]
    exact hs.world
  case gotNode id r =>
    obtain ⟨h1, rfl⟩ := h
    refine ⟨hs, ?_⟩
    cases r with
    | none => trivial
    | some v =>
      cases hx : s'.nodes id with
      | none => rw [hx] at h1; cases h1
      | some x =>
        rw [hx] at h1
        cases h1
        exact hs.nodes _ _ hx
  case gotFile fh r =>
    obtain ⟨h1, rfl⟩ := h
    refine ⟨hs, ?_⟩
    cases r with
    | none => trivial
    | some v => exact hs.files _ _ h1
  case gotDir fh r =>
    obtain ⟨h1, rfl⟩ := h
    refine ⟨hs, ?_⟩
    cases r with
    | none => trivial
    | some v => exact hs.dirs _ _ h1
  case openedFile fh x =>
    obtain ⟨-, -, rfl⟩ := h
    refine ⟨⟨hs.world, hs.nodes, fun i y hy => ?_, hs.dirs⟩, trivial⟩
    dsimp only at hy
    split at hy
    · cases hy; exact hp
    · exact hs.files _ _ hy
  case openedDir fh x =>
    obtain ⟨-, -, rfl⟩ := h
    refine ⟨⟨hs.world, hs.nodes, hs.files, fun i y hy => ?_⟩, trivial⟩
    dsimp only at hy
    split at hy
    · cases hy; exact hp
    · exact hs.dirs _ _ hy
  case handlesFull => obtain ⟨-, rfl⟩ := h; exact ⟨hs, trivial⟩
  case countFull => obtain ⟨-, rfl⟩ := h; exact ⟨hs, trivial⟩
  case forgot items =>
    subst h
    refine ⟨⟨hs.world, fun i x hx => ?_, hs.files, hs.dirs⟩, trivial⟩
    obtain ⟨z, h1, h2, _⟩ := forget_some hx
    rw [← h2]
    exact hs.nodes _ _ h1
  case added id v =>
    obtain ⟨x, rfl, h2⟩ := h
    refine ⟨⟨hs.world, fun i y hy => ?_, hs.files, hs.dirs⟩, trivial⟩
    dsimp only at hy
    split at hy
    · cases hy
      cases hx : s.nodes id with
      | none => rw [hx] at h2; dsimp only at h2; rw [h2]; exact hp
      | some z => rw [hx] at h2; dsimp only at h2; rw [h2.1]; exact hs.nodes _ _ hx
    · exact hs.nodes _ _ hy
  case released fh x q =>
    obtain ⟨h0, h1, h2⟩ := h
    have h1 := congrArg (·.2.1) h1
    refine ⟨⟨?_, by rw [h2]; exact hs.nodes, ?_, by rw [h2]; exact hs.dirs⟩, trivial⟩
    · rw [← (h1 : _ = s'.world.1)]
      exact hc.release _ _ _ _ (hs.files _ _ h0) hs.world
    · rw [h2]
      intro i y hy
      dsimp only at hy
      split at hy
      · cases hy
      · exact hs.files _ _ hy
  case releasedDir fh x q =>
    obtain ⟨h0, h1, h2⟩ := h
    have h1 := congrArg (·.2.1) h1
    refine ⟨⟨?_, by rw [h2]; exact hs.nodes, by rw [h2]; exact hs.files, ?_⟩, trivial⟩
    · rw [← (h1 : _ = s'.world.1)]
      exact hc.releasedir _ _ _ _ (hs.dirs _ _ h0) hs.world
    · rw [h2]
      intro i y hy
      dsimp only at hy
      split at hy
      · cases hy
      · exact hs.dirs _ _ hy
  case releaseFailed =>
    obtain ⟨h1, h2, _, h3, h4⟩ := beside_called (f := u.release _ hdr _) h.2
    refine ⟨keep h3 h4 ?_, trivial⟩
    rw [h2]
    exact hc.release _ _ _ _ (hs.files _ _ h.1) hs.world
  case releasedirFailed =>
    obtain ⟨h1, h2, _, h3, h4⟩ := beside_called (f := u.releasedir _ hdr _) h.2
    refine ⟨keep h3 h4 ?_, trivial⟩
    rw [h2]
    exact hc.releasedir _ _ _ _ (hs.dirs _ _ h.1) hs.world
  case asDirectory v r =>
    obtain ⟨h1, h2, _, h3, h4⟩ := beside_called (f := u.asDirectory _) h
    have h5 := hc.asDirectory _ _ hp hs.world
    refine ⟨keep h3 h4 (by rw [h2]; exact h5.1), ?_⟩
    cases r with
    | none => trivial
    | some y => exact h5.2 _ h1.symm
  case asFile v r =>
    obtain ⟨h1, h2, _, h3, h4⟩ := beside_called (f := u.asFile _) h
    have h5 := hc.asFile _ _ hp hs.world
    refine ⟨keep h3 h4 (by rw [h2]; exact h5.1), ?_⟩
    cases r with
    | none => trivial
    | some y => exact h5.2 _ h1.symm
  case asSymlink v r =>
    obtain ⟨h1, h2, _, h3, h4⟩ := beside_called (f := u.asSymlink _) h
    have h5 := hc.asSymlink _ _ hp hs.world
    refine ⟨keep h3 h4 (by rw [h2]; exact h5.1), ?_⟩
    cases r with
    | none => trivial
    | some y => exact h5.2 _ h1.symm
  case asReaddir v r =>
    obtain ⟨h1, h2, _, h3, h4⟩ := beside_called (f := u.asReaddirHandle _) h
    have h5 := hc.asReaddirHandle _ _ hp hs.world
    refine ⟨keep h3 h4 (by rw [h2]; exact h5.1), ?_⟩
    cases r with
    | none => trivial
    | some y => exact h5.2 _ h1.symm
  case asReaddirplus v r =>
    obtain ⟨h1, h2, _, h3, h4⟩ := beside_called (f := u.asReaddirplusHandle _) h
    have h5 := hc.asReaddirplusHandle _ _ hp hs.world
    refine ⟨keep h3 h4 (by rw [h2]; exact h5.1), ?_⟩
    cases r with
    | none => trivial
    | some y => exact h5.2 _ h1.symm
  case asRead v r =>
    obtain ⟨h1, h2, _, h3, h4⟩ := beside_called (f := u.asReadHandle _) h
    have h5 := hc.asReadHandle _ _ hp hs.world
    refine ⟨keep h3 h4 (by rw [h2]; exact h5.1), ?_⟩
    cases r with
    | none => trivial
    | some y => exact h5.2 _ h1.symm
  case asWrite v r =>
    obtain ⟨h1, h2, _, h3, h4⟩ := beside_called (f := u.asWriteHandle _) h
    have h5 := hc.asWriteHandle _ _ hp hs.world
    refine ⟨keep h3 h4 (by rw [h2]; exact h5.1), ?_⟩
    cases r with
    | none => trivial
    | some y => exact h5.2 _ h1.symm
  case getattr =>
    obtain ⟨h1, h2, _, h3, h4⟩ := beside_called (f := u.getattr _ hdr _) h
    exact ⟨keep h3 h4 (by rw [h2]; exact hc.getattr _ _ _ _ hp hs.world), trivial⟩
  case getxattr =>
    obtain ⟨h1, h2, _, h3, h4⟩ := beside_called (f := u.getxattr _ hdr _) h
    exact ⟨keep h3 h4 (by rw [h2]; exact hc.getxattr _ _ _ _ hp hs.world), trivial⟩
  case listxattr =>
    obtain ⟨h1, h2, _, h3, h4⟩ := beside_called (f := u.listxattr _ hdr _) h
    exact ⟨keep h3 h4 (by rw [h2]; exact hc.listxattr _ _ _ _ hp hs.world), trivial⟩
  case statfs =>
    obtain ⟨h1, h2, _, h3, h4⟩ := beside_called (f := u.statfs _ hdr _) h
    exact ⟨keep h3 h4 (by rw [h2]; exact hc.statfs _ _ _ _ hp hs.world), trivial⟩
  case readlink =>
    obtain ⟨h1, h2, _, h3, h4⟩ := beside_called (f := u.readlink _ hdr _) h
    exact ⟨keep h3 h4 (by rw [h2]; exact hc.readlink _ _ _ _ hp hs.world), trivial⟩
  case readdir =>
    obtain ⟨h1, h2, _, h3, h4⟩ := beside_called (f := u.readdir _ hdr _) h
    exact ⟨keep h3 h4 (by rw [h2]; exact hc.readdir _ _ _ _ hp hs.world), trivial⟩
  case readdirplus =>
    obtain ⟨h1, h2, _, h3, h4⟩ := beside_called (f := u.readdirplus _ hdr _) h
    exact ⟨keep h3 h4 (by rw [h2]; exact hc.readdirplus _ _ _ _ hp hs.world), trivial⟩
  case read =>
    obtain ⟨h1, h2, _, h3, h4⟩ := beside_called (f := u.read _ hdr _) h
    exact ⟨keep h3 h4 (by rw [h2]; exact hc.read _ _ _ _ hp hs.world), trivial⟩
  case write =>
    obtain ⟨h1, h2, _, h3, h4⟩ := beside_called (f := u.write _ hdr _) h
    exact ⟨keep h3 h4 (by rw [h2]; exact hc.write _ _ _ _ hp hs.world), trivial⟩
  case lookup v q r =>
    obtain ⟨h1, h2, _, h3, h4⟩ := beside_called (f := u.lookup _ hdr _) h
    have h5 := hc.lookup _ hdr q _ hp hs.world
    refine ⟨keep h3 h4 (by rw [h2]; exact h5.1), ?_⟩
    cases r with
    | error e => trivial
    | ok res => exact fun w attr hn => h5.2 _ _ _ h1.symm hn
  case open_ v q r =>
    obtain ⟨h1, h2, _, h3, h4⟩ := beside_called (f := u.open_ _ hdr _) h
    have h5 := hc.open_ _ hdr q _ hp hs.world
    refine ⟨keep h3 h4 (by rw [h2]; exact h5.1), ?_⟩
    cases r with
    | error e => trivial
    | ok res => exact h5.2 _ h1.symm
  case opendir v q r =>
    obtain ⟨h1, h2, _, h3, h4⟩ := beside_called (f := u.opendir _ hdr _) h
    have h5 := hc.opendir _ hdr q _ hp hs.world
    refine ⟨keep h3 h4 (by rw [h2]; exact h5.1), ?_⟩
    cases r with
    | error e => trivial
    | ok res => exact h5.2 _ h1.symm

/-! ## One message -/

/-- The objects that the events of a request need are given by the events before them. -/
theorem VfsTrace.objects {fs : Filesystem ν φ η σ ε} {q : AnyRequest} {evs : List (VfsEv ν φ η ε)} {out : Outcome ε Unit}
    (h : VfsTrace fs q evs out) (N : Option VfsKind → ν → Prop) (F : Option VfsKind → φ → Prop) (D : Option VfsKind → η → Prop) :
    Guarded (fun past e => (∀ e' ∈ past, EvPost N F D e') → EvPre N F D e) [] evs := by
  cases h <;> simp +contextual [Guarded, EvPre, EvPost, *]

/-- The events of one message. -/
inductive EvChain (fs : Filesystem ν φ η σ ε) (hdr : FuseInHeader) :
    Vfs ν φ η σ → List (VfsEv ν φ η ε) → Vfs ν φ η σ → Prop
  | nil (s) : EvChain fs hdr s [] s
  | cons {s s1 s' e evs} : e.Effect fs hdr s s1 → EvChain fs hdr s1 evs s' → EvChain fs hdr s (e :: evs) s'

theorem Sat.chain {fs : Filesystem ν φ η σ ε} {β : Type} {p : Prog (Vfs ν φ η σ) β} {P : List (VfsEv ν φ η ε) → β → Prop}
    (h : Sat fs hdr p P) (s : Vfs ν φ η σ) : ∃ evs, P evs (p.run s).1 ∧ EvChain fs hdr s evs (p.run s).2 := by
  induction p generalizing s P with
  | done a => exact ⟨[], h, .nil s⟩
  | step f k ih =>
    obtain ⟨e, h1, h2⟩ := h s
    obtain ⟨evs, h3, h4⟩ := ih s h2 (f s)
    exact ⟨e :: evs, h3, .cons h1 h4⟩

theorem EvChain.hist {fs : Filesystem ν φ η σ ε} {s s' : Vfs ν φ η σ} {evs : List (VfsEv ν φ η ε)}
    (h : EvChain fs hdr s evs s') : Hist fs (fun _ => hdr) s (evs.map (Prod.mk 0)) s' := by
  induction h with
  | nil s => exact .nil s
  | cons he _ ih => exact .cons he ih

theorem EvChain.fine (hu : fs.impl = u.beside σ) (hsend : ∀ buf w, (fs.sock.send buf w).2.1 = w.1) {inv : C → Prop} {N : Option VfsKind → ν → Prop}
    {F : Option VfsKind → φ → Prop}
    {D : Option VfsKind → η → Prop} (hc : u.Confines inv N F D) {s s' : Vfs ν φ η (C × σ)} {evs past : List (VfsEv ν φ η ε)}
    (h : EvChain fs hdr s evs s') (hs : Fine inv N F D s) (hp : ∀ e ∈ past, EvPost N F D e)
    (hg : Guarded (fun past e => (∀ e' ∈ past, EvPost N F D e') → EvPre N F D e) past evs) :
    Fine inv N F D s' ∧ ∀ e ∈ evs, EvPost N F D e := by
  induction h generalizing past with
  | nil s => exact ⟨hs, nofun⟩
  | cons he _ ih =>
    obtain ⟨h1, h2⟩ := ev_fine hu hsend hc he hs (hg.1 hp)
    obtain ⟨h3, h4⟩ := ih h1 (past := _ :: past) (by
      intro e' hm
      rcases List.mem_cons.mp hm with rfl | hm
      · exact h2
      · exact hp _ hm) hg.2
    refine ⟨h3, fun e' hm => ?_⟩
    rcases List.mem_cons.mp hm with rfl | hm
    · exact h2
    · exact h4 _ hm

/-- What the events do to the user's state. -/
inductive TouchAll (u : VfsImpl ν φ η C) (hdr : FuseInHeader) : C → List (VfsEv ν φ η ε) → C → Prop
  | nil (c) : TouchAll u hdr c [] c
  | cons {c c1 c' e evs} : EvTouch u hdr c c1 e → TouchAll u hdr c1 evs c' → TouchAll u hdr c (e :: evs) c'

theorem EvChain.touches (hu : fs.impl = u.beside σ) (hsend : ∀ buf w, (fs.sock.send buf w).2.1 = w.1)
    {s s' : Vfs ν φ η (C × σ)} {evs : List (VfsEv ν φ η ε)} (h : EvChain fs hdr s evs s') :
    TouchAll u hdr s.world.1 evs s'.world.1 := by
  induction h with
  | nil s => exact .nil _
  | cons he _ ih => exact .cons (ev_touch hu hsend he) ih

theorem entry_small (x : FuseEntryOut) (minor : Nat) : ¬ 2 ^ 32 ≤ 16 + ((FuseAnswer.ok (.entryOut x)).payload minor).length := by
  show ¬ 2 ^ 32 ≤ 16 + (entryBytes minor x).length
  rw [entryBytes_length]
  unfold entryOutSize
  split <;> omega

theorem attr_small (x : FuseAttrOut) (minor : Nat) : ¬ 2 ^ 32 ≤ 16 + ((FuseAnswer.ok (.attr x)).payload minor).length := by
  show ¬ 2 ^ 32 ≤ 16 + (attrOutBytes minor x).length
  have : (attrOutBytes minor x).length ≤ 1000 := by
    simp only [attrOutBytes, List.length_append, attrBytes_length, le64_length, le32_length]
    split <;> omega
  omega

theorem write_small (x : FuseWriteOut) (minor : Nat) : ¬ 2 ^ 32 ≤ 16 + ((FuseAnswer.ok (.write x)).payload minor).length := by
  simp [FuseAnswer.payload, FuseReply.payload]

theorem statfs_small (x : FuseStatfsOut) (minor : Nat) : ¬ 2 ^ 32 ≤ 16 + ((FuseAnswer.ok (.statfs x)).payload minor).length := by
  show ¬ 2 ^ 32 ≤ 16 + (statfsBytes minor x.st).length
  have : (statfsBytes minor x.st).length ≤ 1000 := by
    unfold statfsBytes
    split <;> simp [x.st.spare.len]
  omega

theorem empty_small (minor : Nat) : ¬ 2 ^ 32 ≤ 16 + (FuseAnswer.okEmpty.payload minor).length := by
  simp [FuseAnswer.payload]

theorem touchAll_nil {c c' : C} : TouchAll u hdr c ([] : List (VfsEv ν φ η ε)) c' ↔ c' = c :=
  ⟨fun h => by cases h; rfl, fun h => by subst h; exact .nil _⟩

theorem touchAll_cons {c c' : C} {e : VfsEv ν φ η ε} {evs : List (VfsEv ν φ η ε)} :
    TouchAll u hdr c (e :: evs) c' ↔ ∃ c1, EvTouch u hdr c c1 e ∧ TouchAll u hdr c1 evs c' :=
  ⟨fun h => by cases h; exact ⟨_, ‹_›, ‹_›⟩, fun ⟨_, h1, h2⟩ => .cons h1 h2⟩

/-- Answers of a fixed size. -/
def SmallAns : FuseAnswer → Prop
  | .okBuf _ => False
  | .ok (.attr _) | .ok (.entryOut _) | .ok (.write _) | .ok (.statfs _) | .ok (.open_ _) => True
  | .ok _ => False
  | .okEmpty | .err _ => True

theorem small_ans {a : FuseAnswer} {minor : Nat} (h : 2 ^ 32 ≤ 16 + (a.payload minor).length) : ¬ SmallAns a := by
  intro hs
  cases a with
  | okBuf b => exact hs
  | okEmpty => exact empty_small _ h
  | err e => exact error_small _ _ h
  | ok r =>
    cases r with
    | attr x => exact attr_small _ _ h
    | entryOut x => exact entry_small _ _ h
    | write x => exact write_small _ _ h
    | statfs x => exact statfs_small _ _ h
    | open_ x => simp [FuseAnswer.payload, FuseReply.payload] at h
    | _ => exact hs

set_option maxHeartbeats 1000000 in
/-- What the events of a request do to the user's state, and what a large answer is. -/
theorem VfsTrace.touched {fs : Filesystem ν φ η σ ε} {layout : FuseLayout} {checks : Bool} {m : Bytes} {q : AnyRequest}
    {evs : List (VfsEv ν φ η ε)} {out : Outcome ε Unit} (h : VfsTrace fs q evs out) (hq : Requests layout checks m q)
    (hh : layout_fuse_in_header hdr = m.take 40) {c c' : C} (ht : TouchAll u hdr c evs c') (minor : Nat) :
    ∃ res, u.Touches layout checks m c res c' ∧
      ∀ a r, .sent a r ∈ evs → 2 ^ 32 ≤ 16 + (a.payload minor).length → ∃ d, res = some (.ok d) ∧ a = .okBuf d := by
  cases h <;> simp only [touchAll_cons, touchAll_nil, EvTouch, exists_eq_left, exists_eq_right'] at ht <;>
    (first
      | refine ⟨_, .called hq rfl hh ht, fun a r hm hbig => ?_⟩
      | refine ⟨none, .asked hq rfl ht, fun a r hm hbig => ?_⟩
      | (obtain ⟨c1, h1, h2⟩ := ht; refine ⟨_, .both hq rfl hh h1 h2, fun a r hm hbig => ?_⟩)
      | (subst ht; refine ⟨none, .nothing _, fun a r hm hbig => ?_⟩)) <;>
    simp only [List.mem_cons, List.mem_nil_iff, or_false, reduceCtorEq, false_or, VfsEv.sent.injEq] at hm <;>
    (first
      | exact hm.elim
      | (obtain ⟨rfl, _⟩ := hm
         first
          | exact absurd trivial (small_ans hbig)
          | exact ⟨_, rfl, rfl⟩))

/-- Only sending changes what the client has heard. -/
theorem ev_heard (hu : fs.impl = u.beside σ) {e : VfsEv ν φ η ε} {s s' : Vfs ν φ η (C × σ)} (h : e.Effect fs hdr s s')
    (he : e.sends = none) : s'.world.2 = s.world.2 := by
  cases e <;> dsimp only [VfsEv.Effect] at h <;> try rw [hu] at h
  case sent => cases he
  case gotNode => exact congrArg (·.world.2) h.2
  case gotFile => exact congrArg (·.world.2) h.2
  case gotDir => exact congrArg (·.world.2) h.2
  case openedFile => exact congrArg (·.world.2) h.2.2
  case openedDir => exact congrArg (·.world.2) h.2.2
  case handlesFull => exact congrArg (·.world.2) h.2
  case countFull => exact congrArg (·.world.2) h.2
  case forgot => exact congrArg (·.world.2) h
  case added =>
    obtain ⟨x, h1, _⟩ := h
    exact congrArg (·.world.2) h1
  case released => exact (congrArg (·.2.2) h.2.1).symm
  case releasedDir => exact (congrArg (·.2.2) h.2.1).symm
  case releaseFailed => exact (beside_called (f := u.release _ hdr _) h.2).2.2.1
  case releasedirFailed => exact (beside_called (f := u.releasedir _ hdr _) h.2).2.2.1
  case asDirectory => exact (beside_called (f := u.asDirectory _) h).2.2.1
  case asFile => exact (beside_called (f := u.asFile _) h).2.2.1
  case asSymlink => exact (beside_called (f := u.asSymlink _) h).2.2.1
  case asReaddir => exact (beside_called (f := u.asReaddirHandle _) h).2.2.1
  case asReaddirplus => exact (beside_called (f := u.asReaddirplusHandle _) h).2.2.1
  case asRead => exact (beside_called (f := u.asReadHandle _) h).2.2.1
  case asWrite => exact (beside_called (f := u.asWriteHandle _) h).2.2.1
  case getattr => exact (beside_called (f := u.getattr _ hdr _) h).2.2.1
  case getxattr => exact (beside_called (f := u.getxattr _ hdr _) h).2.2.1
  case listxattr => exact (beside_called (f := u.listxattr _ hdr _) h).2.2.1
  case statfs => exact (beside_called (f := u.statfs _ hdr _) h).2.2.1
  case readlink => exact (beside_called (f := u.readlink _ hdr _) h).2.2.1
  case readdir => exact (beside_called (f := u.readdir _ hdr _) h).2.2.1
  case readdirplus => exact (beside_called (f := u.readdirplus _ hdr _) h).2.2.1
  case read => exact (beside_called (f := u.read _ hdr _) h).2.2.1
  case write => exact (beside_called (f := u.write _ hdr _) h).2.2.1
  case lookup => exact (beside_called (f := u.lookup _ hdr _) h).2.2.1
  case open_ => exact (beside_called (f := u.open_ _ hdr _) h).2.2.1
  case opendir => exact (beside_called (f := u.opendir _ hdr _) h).2.2.1

theorem EvChain.heard (hu : fs.impl = u.beside σ) {s s' : Vfs ν φ η (C × σ)} {evs : List (VfsEv ν φ η ε)}
    (h : EvChain fs hdr s evs s') (he : ∀ e ∈ evs, e.sends = none) : s'.world.2 = s.world.2 := by
  induction h with
  | nil s => rfl
  | cons h1 _ ih =>
    rw [ih fun e hm => he e (List.mem_cons_of_mem _ hm)]
    exact ev_heard hu h1 (he _ (List.mem_cons_self ..))

theorem EvChain.split {fs : Filesystem ν φ η σ ε} {s s' : Vfs ν φ η σ} {A B : List (VfsEv ν φ η ε)} {e : VfsEv ν φ η ε}
    (h : EvChain fs hdr s (A ++ e :: B) s') :
    ∃ s1 s2, EvChain fs hdr s A s1 ∧ e.Effect fs hdr s1 s2 ∧ EvChain fs hdr s2 B s' := by
  induction A generalizing s with
  | nil => cases h with | cons h1 h2 => exact ⟨_, _, .nil _, h1, h2⟩
  | cons x A ih =>
    cases h with
    | cons h1 h2 =>
      obtain ⟨s1, s2, h3, h4, h5⟩ := ih h2
      exact ⟨s1, s2, .cons h1 h3, h4, h5⟩

/-- How far the counters have got. -/
def Counted (n : Nat) (s : Vfs ν φ η σ) : Prop := s.handles.nextHandleId.toNat ≤ n ∧ ∀ i, s.count i ≤ n

theorem EvChain.counted {fs : Filesystem ν φ η σ ε} {s s' : Vfs ν φ η σ} {evs : List (VfsEv ν φ η ε)} {n : Nat}
    (h : EvChain fs hdr s evs s') (hn : Counted n s) : Counted (n + evs.length) s' := by
  have h1 := h.hist.next_le
  refine ⟨?_, fun i => ?_⟩
  · rw [List.length_map] at h1
    have := hn.1
    omega
  · have h2 := h.hist.count_upper i
    have h3 := total_addsFor_le i (evs.map (Prod.mk 0))
    rw [List.length_map] at h3
    have := hn.2 i
    omega

end

section
variable {ν φ η C α : Type}

/-- The filesystem with this user code, connected to the client. -/
abbrev VfsImpl.wired (u : VfsImpl ν φ η C) (α : Type) (layout : FuseLayout) (os : OsErrors) (checks : Bool) :
    Filesystem ν φ η (Wired C α) Unit := ⟨Wired.socket C α, layout, os, u.beside _, checks⟩

variable {u : VfsImpl ν φ η C} {layout : FuseLayout} {os : OsErrors} {checks : Bool}

theorem wired_keeps (buf : SendBuf) (w : Wired C α) : ((Wired.socket C α).send buf w).2.1 = w.1 := by
  show ((match buf.chunks with | .ok cs => _ | .error _ => _ : Except (SendError Unit) Unit × Wired C α)).2.1 = _
  cases buf.chunks <;> rfl

theorem vfs_message {inv : C → Prop} {N : Option VfsKind → ν → Prop} {F : Option VfsKind → φ → Prop}
    {D : Option VfsKind → η → Prop} (hc : u.Confines inv N F D) {m : Bytes}
    (hm : Acceptable m) {s : Vfs ν φ η (Wired C α)} {c : C} {k : List Bytes → Talk α} (hw : s.world = (c, [], k))
    (hs : Fine inv N F D s) {n : Nat} (hn : Counted n s) (hn2 : n + 10 < 2 ^ 64) :
    ∃ o s' c' heard res, ((u.wired α layout os checks).dispatch ⟨m⟩).run s = (o, s') ∧ s'.world = (c', heard, k) ∧
      Fine inv N F D s' ∧ Counted (n + 5) s' ∧ u.Touches layout checks m c res c' ∧
      Dispatched layout checks m (fun a => ∃ d, res = some (.ok d) ∧ a = .okBuf d) (heard.map (·, true)) o ∧
      ((∃ x, o = some x ∧ x ≠ .ok ()) → heard = []) := by
  have ha := acceptable_new hm
  obtain ⟨h1, ⟨id, h2⟩, h3, h4⟩ := hdrOf_ok ha
  have hhdr : layout_fuse_in_header (hdrOf m) = m.take 40 := by
    rw [← enc_fuse_in_header]
    have := hm.1
    exact Wire.enc_dec _ (by rw [List.length_take]; show _ = 40; omega)
  obtain ⟨evs, h5, h6⟩ := (dispatch_sat (u.wired α layout os checks) h1 h2).chain s
  generalize hr : ((u.wired α layout os checks).dispatch ⟨m⟩).run s = z at h5 h6
  obtain ⟨o, s'⟩ := z
  dsimp only at h5 h6
  have quiet : evs = [] → s' = s := by
    rintro rfl
    cases h6
    rfl
  have ht := h6.touches (u := u) rfl wired_keeps
  have hw1 : s.world.1 = c := by rw [hw]
  have hw2 : s.world.2 = ([], k) := by rw [hw]
  have more : Counted (n + 5) s := ⟨by have := hn.1; omega, fun i => by have := hn.2 i; omega⟩
  cases h5 with
  | unsupported hty =>
    obtain rfl := quiet rfl
    rw [h3] at hty
    exact ⟨_, _, c, [], none, rfl, hw, hs, more, .nothing c, .unknown (vfsRequestType_none.mp hty), fun _ => rfl⟩
  | malformed hty hd =>
    obtain rfl := quiet rfl
    rw [h3] at hty
    exact ⟨_, _, c, [], none, rfl, hw, hs, more, .nothing c, .malformed hty (by unfold decodeMessage; rw [ha]; exact hd),
      fun _ => rfl⟩
  | broken hty hb =>
    obtain rfl := quiet rfl
    rw [h3] at hty
    rename_i ty f
    refine ⟨_, _, c, [], none, rfl, hw, hs, more, .nothing c, .ruin hty ?_, fun _ => rfl⟩
    rcases hb with ⟨f, hd⟩ | ⟨a, hd, hna⟩
    · exact (C04_exact ty m).1.mp ⟨f, by unfold decodeMessage; rw [ha]; exact hd⟩
    · exact absurd ((C04_exact ty m).2 a (by unfold decodeMessage; rw [ha]; exact hd)) hna
  | handled hty hd hv =>
    rename_i ty q out
    rw [h3] at hty
    have hd : decodeMessage ty m = .ok q := by unfold decodeMessage; rw [ha]; exact hd
    obtain ⟨f1, f2⟩ := h6.fine (u := u) rfl wired_keeps hc hs (past := []) nofun (hv.objects N F D)
    have hcnt : Counted (n + 5) s' := by
      have h7 := h6.counted hn
      have := hv.short
      exact ⟨by have := h7.1; omega, fun i => by have := h7.2 i; omega⟩
    obtain ⟨res, g1, g2⟩ := hv.touched (u := u) (hdr := hdrOf m) ⟨ty, hty, hd⟩ hhdr ht layout.versionMinor.toNat
    rw [hw1] at g1
    have hends : ∀ {x : _}, x = out → (∃ f, out = .fault f) → False := by
      rintro _ - ⟨f, rfl⟩
      rcases hv.faults with ⟨e, he, v, hf⟩ | he | ⟨i, he⟩
      · have hp := f2 e he
        cases e <;> try (cases hf; done)
        rename_i r
        cases r with
        | error e => cases hf
        | ok res =>
          dsimp only [finds] at hf
          cases hn : res.node with
          | none => rw [hn] at hf; cases hf
          | some x =>
            rw [hn] at hf
            injection hf with hf
            injection hf with _ hf
            exact (hp _ _ hn).2 hf
      · obtain ⟨A, B, rfl⟩ := List.append_of_mem he
        obtain ⟨s1, s2, k1, k2, _⟩ := h6.split
        have k3 := (k1.counted hn).1
        have k4 : s1.handles.nextHandleId.toNat + 1 = 2 ^ 64 := k2.1
        have := hv.short
        simp only [List.length_append, List.length_cons] at this
        omega
      · obtain ⟨A, B, rfl⟩ := List.append_of_mem he
        obtain ⟨s1, s2, k1, k2, _⟩ := h6.split
        obtain ⟨⟨y, hy, k4⟩, _⟩ := k2
        have k3 := (k1.counted hn).2 i
        have k5 : s1.count i = y.lookupCount.toNat := by
          unfold Vfs.count
          rw [hy]
          rfl
        have := hv.short
        simp only [List.length_append, List.length_cons] at this
        omega
    rcases hv.ends with hf | ⟨f, rfl, rfl, rfl⟩ | ⟨hq, A, a, r, B, rfl, k1, rfl⟩
    · exact (hends rfl hf).elim
    · refine ⟨_, s', s'.world.1, [], res, rfl, ?_, f1, hcnt, g1, .silent hty hd, fun _ => rfl⟩
      have := h6.heard (u := u) rfl (by simp [sends])
      rw [hw2] at this
      exact Prod.ext rfl this
    · obtain ⟨s1, s2, e1, e2, e3⟩ := h6.split
      have w1 := e1.heard (u := u) rfl fun e he => k1 e (List.mem_append_left _ he)
      have w2 := e3.heard (u := u) rfl fun e he => k1 e (List.mem_append_right _ he)
      rw [hw2] at w1
      obtain ⟨e2, -⟩ := e2
      by_cases hsm : 16 + (a.payload layout.versionMinor.toNat).length < 2 ^ 32
      · obtain ⟨buf, e4, e5⟩ := e2.1 hsm
        rw [show s1.world = (s1.world.1, [], k) from Prod.ext rfl w1] at e5
        rw [show (u.wired α layout os checks).sock = Wired.socket C α from rfl, mount_send e4] at e5
        injection e5 with e5 e6
        subst e5
        refine ⟨_, s', s'.world.1, [frame (hdrOf m).unique a.error (a.payload layout.versionMinor.toNat)], res, rfl, ?_, f1, hcnt,
          g1, .answered hty hd hq ?_ (C17_frame _ _ _ hsm).1, ?_⟩
        · refine Prod.ext rfl ?_
          rw [w2, e6]
          rfl
        · rw [frame_id]
          exact h4
        · rintro ⟨x, hx, hne⟩
          cases hx
          exact absurd rfl hne
      · have e4 := e2.2 hsm
        injection e4 with e4 e5
        subst e4
        have hbig : 2 ^ 32 ≤ 16 + (a.payload layout.versionMinor.toNat).length := Nat.le_of_not_lt hsm
        refine ⟨_, s', s'.world.1, [], res, rfl, ?_, f1, hcnt, g1, .tooBig hty hd hq (g2 a _ (List.mem_append_right _ (List.mem_cons_self ..)) hbig) hbig, fun _ => rfl⟩
        refine Prod.ext rfl ?_
        rw [w2, e5]
        exact w1

/-! ## All messages -/

theorem tours {inv : C → Prop} {N : Option VfsKind → ν → Prop} {F : Option VfsKind → φ → Prop}
    {D : Option VfsKind → η → Prop} (hc : u.Confines inv N F D) {β : Type} (g : α → β)
    (talk : Talk α) : ∀ (d : Nat), talk.Within d → ∀ (s : Vfs ν φ η (Wired C β)) (c : C) (buf : Bytes) (heard : List Bytes)
      (k : List Bytes → Talk β) (n : Nat), k heard = (do let r ← talk; return g r) → s.world = (c, heard, k) →
      Fine inv N F D s → Counted n s → n + 5 * d + 10 < 2 ^ 64 →
      ∃ r out nodes handles c' heard' k', Tours u layout checks buf.length talk c r out c' ∧ inv c' ∧
        LoopReturns (u.wired β layout os checks).serveStep (buf, s) (out, ⟨nodes, handles, (c', heard', k')⟩) ∧
        ∀ a, r = some a → k' heard' = .done (g a) := by
  induction talk with
  | done a =>
    intro d _ s c buf heard k n hk hw hs _ _
    have hk : k heard = .done (g a) := hk
    have hr : (Wired.socket C β).recv buf s.world = ((.error (.connectionClosed ()), buf), s.world) := by
      rw [hw]
      show (match k heard with | .done _ => _ | .say m k => _) = _
      rw [hk]
    refine ⟨some a, .ok (), s.nodes, s.handles, c, heard, k, .finished a c, ?_, .of_step ?_, ?_⟩
    · have := hs.world
      rw [hw] at this
      exact this
    · unfold Filesystem.serveStep fuseRecv
      dsimp only
      rw [hr]
      dsimp only
      rw [← hw]
    · rintro _ ⟨⟩
      exact hk
  | say m f ih =>
    intro d hd s c buf heard k n hk hw hs hn hlt
    have hk : k heard = .say m (fun out => do let r ← f out; return g r) := hk
    have hinv : inv c := by
      have := hs.world
      rw [hw] at this
      exact this
    cases d with
    | zero => exact hd.elim
    | succ d =>
    by_cases hl : m.length ≤ buf.length
    · have hr : (Wired.socket C β).recv buf s.world =
          ((.ok m.length, m ++ buf.drop m.length), (c, [], fun out => do let r ← f out; return g r)) := by
        rw [hw]
        exact mount_recv hk hl
      have htake : truncateSlice (m ++ buf.drop m.length) m.length = m := by
        rw [truncateSlice_eq]
        exact List.take_left
      by_cases hacc : Acceptable m
      · obtain ⟨o, s1, c1, out1, res, e1, e2, e3, e4, e5, e6, e7⟩ := vfs_message (layout := layout) (os := os) (checks := checks)
          hc hacc (s := { s with world := (c, [], fun out => do let r ← f out; return g r) }) rfl
          ⟨hinv, hs.nodes, hs.files, hs.dirs⟩ hn (by omega)
        have hstep : (u.wired β layout os checks).serveStep (buf, s) =
            (match (o, s1) with
              | (some (.err e), s) => .inl (.err e, s)
              | (some (.fault f), s) => .inl (.fault f, s)
              | (_, s) => .inr (m ++ buf.drop m.length, s)) := by
          unfold Filesystem.serveStep fuseRecv
          dsimp only
          rw [hr]
          dsimp only
          rw [htake, acceptable_new hacc]
          dsimp only
          rw [e1]
          rcases o with _ | (_ | e | e) <;> rfl
        have hi1 : inv c1 := by
          have := e3.world
          rw [e2] at this
          exact this
        have more : o = none ∨ o = some (.ok ()) → ∃ r out nodes handles c' heard' k',
            Tours u layout checks buf.length (.say m f) c r out c' ∧ inv c' ∧
            LoopReturns (u.wired β layout os checks).serveStep (buf, s) (out, ⟨nodes, handles, (c', heard', k')⟩) ∧
            ∀ a, r = some a → k' heard' = .done (g a) := by
          intro ho
          have hlen : (m ++ buf.drop m.length).length = buf.length := by
            rw [List.length_append, List.length_drop]
            omega
          obtain ⟨r, out, nodes, handles, c', heard', k', i1, i2, i3, i4⟩ := ih out1 d (hd out1) s1 c1 (m ++ buf.drop m.length)
            out1 _ (n + 5) rfl e2 e3 e4 (by omega)
          rw [hlen] at i1
          refine ⟨r, out, nodes, handles, c', heard', k', .goes hl hacc ho e5 e6 i1, i2, .of_next ?_ i3, i4⟩
          rw [hstep]
          rcases ho with rfl | rfl <;> rfl
        have stop : ∀ x, o = some x → x ≠ .ok () → (u.wired β layout os checks).serveStep (buf, s) = .inl (x, s1) →
            ∃ r out nodes handles c' heard' k',
            Tours u layout checks buf.length (.say m f) c r out c' ∧ inv c' ∧
            LoopReturns (u.wired β layout os checks).serveStep (buf, s) (out, ⟨nodes, handles, (c', heard', k')⟩) ∧
            ∀ a, r = some a → k' heard' = .done (g a) := by
          intro x ho hx hst
          obtain rfl := e7 ⟨x, ho, hx⟩
          subst ho
          refine ⟨none, x, s1.nodes, s1.handles, c1, [], fun out => do let r ← f out; return g r, .ends hl hacc hx e5 e6, hi1, .of_step ?_, nofun⟩
          rw [hst, ← e2]
        rcases o with _ | (_ | e | e)
        · exact more (.inl rfl)
        · exact more (.inr rfl)
        · exact stop _ rfl nofun hstep
        · exact stop _ rfl nofun hstep
      · obtain ⟨e, he, _⟩ := unacceptable_new hacc
        refine ⟨none, .err (.request e), s.nodes, s.handles, c, [], fun out => do let r ← f out; return g r, .rejected hl hacc he, hinv, .of_step ?_, nofun⟩
        unfold Filesystem.serveStep fuseRecv
        dsimp only
        rw [hr]
        dsimp only
        rw [htake, he]
    · have hr : (Wired.socket C β).recv buf s.world = ((.error (.other ()), buf), s.world) := by
        rw [hw]
        show (match k heard with | .done _ => _ | .say m k => _) = _
        rw [hk]
        exact if_neg hl
      refine ⟨none, .err (.recv (.other ())), s.nodes, s.handles, c, heard, k, .tooLong (Nat.lt_of_not_le hl), hinv,
        .of_step ?_, nofun⟩
      unfold Filesystem.serveStep fuseRecv
      dsimp only
      rw [hr]
      dsimp only
      rw [← hw]

theorem new_fine {inv : C → Prop} {N : Option VfsKind → ν → Prop} {F : Option VfsKind → φ → Prop} {D : Option VfsKind → η → Prop} {root : ν} (hr : N none root) {c : C} (hi : inv c)
    {σ : Type} (w : σ) : Fine inv N F D (Vfs.new root (c, w)) ∧ Counted 1 (Vfs.new root (c, w) : Vfs ν φ η (C × σ)) := by
  refine ⟨⟨hi, fun i x hx => ?_, nofun, nofun⟩, Nat.le_refl 1, fun i => ?_⟩
  · rw [(new_entry hx).2]
    exact hr
  · rw [new_count]
    omega

/-! ## The properties -/

/-- **C90**: whatever a client sends, and however it makes that depend upon what it is sent, the VFS layer deals with its
messages one after the other, as `Tours` says: each that is a message is dispatched (see `Dispatched`), and brings about nothing
but the request's own method, called once, with the header of the message; and serving goes on, unless the message is not
survived, is malformed, or has an answer too big to send.  The user's code is only ever asked to work on objects that it
has handed out, and so what it relies upon is kept. -/
theorem C90_confined {inv : C → Prop} {N : Option VfsKind → ν → Prop} {F : Option VfsKind → φ → Prop}
    {D : Option VfsKind → η → Prop} (hc : u.Confines inv N F D) {root : ν}
    (hr : N none root) {c : C} (hi : inv c) (talk : Talk α) {n : Nat} (ht : talk.Within n) (hn : n < 2 ^ 61) (buf : Bytes) :
    ∃ r out nodes handles c' heard k, Tours u layout checks buf.length talk c r out c' ∧ inv c' ∧
      LoopReturns (u.wired α layout os checks).serveStep (buf, Vfs.new root (c, [], fun _ => talk))
        (out, ⟨nodes, handles, (c', heard, k)⟩) ∧
      ∀ a, r = some a → k heard = .done a := by
  obtain ⟨h1, h2⟩ := new_fine (F := F) (D := D) hr hi (([], fun _ => talk) : List Bytes × (List Bytes → Talk α))
  exact tours hc id talk n ht _ c buf [] _ 1 (bind_done _).symm rfl h1 h2 (by omega)

/-- **C90**: the same through a whole mount, with any server made with the builder, and a client that sends anything once it has
been accepted. -/
theorem C90_mount {inv : C → Prop} {N : Option VfsKind → ν → Prop} {F : Option VfsKind → φ → Prop}
    {D : Option VfsKind → η → Prop} (hc : u.Confines inv N F D) {root : ν}
    (hr : N none root) {c : C} (hi : inv c) (server : FuseServer) (newer : List Bytes) (init : Bytes)
    (hnewer : ∀ m ∈ newer, m.length ≤ 8192 ∧ IsFuseInit m ∧ u32At m 40 ≠ 7)
    (hinit : init.length ≤ 8192 ∧ IsFuseInit init ∧ u32At init 40 = 7 ∧ 7 ≤ u32At init 44) (body : Bytes → Talk α) {n : Nat}
    (ht : ∀ reply, (body reply).Within n) (hn : n < 2 ^ 61) :
    ∃ conn reply w, server.Connects (Wired.socket C _) (c, [], fun _ => Client.handshake init body newer) (.ok conn, w) ∧
      ∀ buf : Bytes, ∃ r out nodes handles c' heard k, Tours u conn.layout checks buf.length (body reply) c r out c' ∧ inv c' ∧
        LoopReturns (u.wired (Option α) conn.layout os checks).serveStep (buf, Vfs.new root w)
          (out, ⟨nodes, handles, (c', heard, k)⟩) ∧
        ∀ a, r = some a → k heard = .done (some a) := by
  obtain ⟨conn, p, q, k, h1, h2, h3, h4, h5, -⟩ := connects server init body
    hinit c newer hnewer
    minReadBuffer [] (fun _ => Client.handshake init body newer) (List.length_replicate ..) rfl
  refine ⟨conn, q, _, h1, fun buf => ?_⟩
  obtain ⟨h6, h7⟩ := new_fine (F := F) (D := D) hr hi ([p], k)
  exact tours hc some (body q) n (ht q) _ c buf [p] _ 1 h2 rfl h6 h7 (by omega)

/-- **C90**: the same on a device, system call by system call, whatever is interrupted. -/
theorem C90_device {σ ε : Type} {p : Peer σ (Convo (Option α))} {sock : Socket σ ε} (hd : OnLine (talkLine _) sock p true)
    {inv : C → Prop} {N : Option VfsKind → ν → Prop} {F : Option VfsKind → φ → Prop}
    {D : Option VfsKind → η → Prop} (hc : u.Confines inv N F D) {root : ν}
    (hr : N none root) {c : C} (hi : inv c) (server : FuseServer) (newer : List Bytes) (init : Bytes)
    (hnewer : ∀ m ∈ newer, m.length ≤ 8192 ∧ IsFuseInit m ∧ u32At m 40 ≠ 7)
    (hinit : init.length ≤ 8192 ∧ IsFuseInit init ∧ u32At init 40 = 7 ∧ 7 ≤ u32At init 44) (body : Bytes → Talk α) {n : Nat}
    (ht : ∀ reply, (body reply).Within n) (hn : n < 2 ^ 61) (d : σ)
    (hp : p.client d = ([], fun _ => Client.handshake init body newer)) :
    ∃ conn reply w, server.Connects (sock.beside _) (c, d) (.ok conn, w) ∧
      ∀ buf : Bytes, ∃ r out out' nodes handles c' d', Tours u conn.layout checks buf.length (body reply) c r out c' ∧ inv c' ∧
        LoopReturns (u.on sock conn.layout os checks).serveStep (buf, Vfs.new root w) (out', ⟨nodes, handles, (c', d')⟩) ∧
        AlikeOutcome true out' out ∧ ∀ a, r = some a → (p.client d').2 (p.client d').1 = .done (some a) := by
  obtain ⟨conn, reply, ⟨c1, t⟩, h1, h2⟩ := C90_mount (os := os) (checks := checks) hc hr hi server newer init hnewer hinit body ht hn
  rw [← hp] at h1
  obtain ⟨o, d1, h3, h4, h5⟩ := (C87_connect hd server c d).2 _ _ _ h1
  cases o <;> try exact h5.elim
  cases h5
  refine ⟨conn, reply, (c1, d1), h3, fun buf => ?_⟩
  obtain ⟨r, out, nodes, handles, c', heard, k, h6, h7, h8, h9⟩ := h2 buf
  subst h4
  obtain ⟨o, d2, h10, h11, h12⟩ := (C89_serve hd u conn.layout os checks buf (NodeMap.new root)
    HandlesMap.new c1 d1).2 _ _ _ _ _ h8
  refine ⟨r, out, o, nodes, handles, c', d2, h6, h7, h10, h12, fun a ha => ?_⟩
  rw [h11]
  exact h9 a ha

/-! ## Trees of directories -/

/-- The nodes that have a name below the root. -/
inductive Spec.Tree.Reach (tree : Tree) : NodeId → Prop
  | root : Reach tree NodeId.root
  | entry {i j es name} : Reach tree i → tree.dirs i = some es → (name, j) ∈ es → Reach tree j

theorem lookup_mem {β : Type} {k : Bytes} {v : β} {l : List (Bytes × β)} (h : l.lookup k = some v) : (k, v) ∈ l := by
  induction l with
  | nil => exact nomatch h
  | cons e l ih =>
    obtain ⟨a, b⟩ := e
    rw [List.lookup_cons] at h
    by_cases hk : k = a
    · subst hk
      simp only [beq_self_eq_true, Option.some.injEq] at h
      exact h ▸ List.mem_cons_self ..
    · rw [beq_eq_false_iff_ne.mpr hk] at h
      exact List.mem_cons_of_mem _ (ih h)

/-- What is not a file with a name keeps its contents. -/
def Spec.Tree.Spares (tree : Tree) (content content' : NodeId → Bytes) : Prop :=
  ∀ i, ¬ (tree.Reach i ∧ tree.notFile i = false) → content' i = content i

theorem tree_confines (tree : Tree) (alloc : ReaddirRequest → Nat) (content : NodeId → Bytes) :
    (tree.userCode alloc).Confines (tree.Spares content)
      (fun k i => tree.Reach i ∧ (k = some .file → tree.notFile i = false))
      (fun _ i => tree.Reach i ∧ tree.notFile i = false) (fun _ _ => True) where
  asDirectory v c hv hc := ⟨hc, fun y hy => by
    dsimp only [Tree.userCode, Tree.impl] at hy
    split at hy
    · cases hy; exact ⟨hv.1, nofun⟩
    · cases hy⟩
  asFile v c hv hc := ⟨hc, fun y hy => by
    dsimp only [Tree.userCode, Tree.impl] at hy
    split at hy
    · cases hy
    · cases hy
      refine ⟨hv.1, fun _ => ?_⟩
      cases h : tree.notFile v
      · rfl
      · contradiction⟩
  asSymlink v c hv hc := ⟨hc, fun y hy => by
    dsimp only [Tree.userCode, Tree.impl] at hy
    split at hy
    · cases hy; exact ⟨hv.1, nofun⟩
    · cases hy⟩
  asReaddirHandle h c hh hc := ⟨hc, fun _ _ => trivial⟩
  asReaddirplusHandle h c hh hc := ⟨hc, fun _ _ => trivial⟩
  asReadHandle h c hh hc := ⟨hc, fun y hy => by cases hy; exact hh⟩
  asWriteHandle h c hh hc := ⟨hc, fun y hy => by cases hy; exact hh⟩
  getattr v hdr q c hv hc := hc
  getxattr v hdr q c hv hc := hc
  listxattr v hdr q c hv hc := hc
  statfs v hdr q c hv hc := hc
  lookup v hdr q c hv hc := ⟨hc, fun res w attr h hn => by
    dsimp only [Tree.userCode, Tree.impl] at h
    cases hd : ((tree.dirs v).getD []).lookup q.name.bytes with
    | some j =>
      rw [hd] at h
      cases h
      cases hn
      refine ⟨⟨?_, nofun⟩, w.2⟩
      cases he : tree.dirs v with
      | none => rw [he] at hd; cases hd
      | some es => rw [he] at hd; exact .entry hv.1 he (lookup_mem hd)
    | none =>
      rw [hd] at h
      cases ha : tree.absent <;> rw [ha] at h <;> cases h
      cases hn⟩
  opendir v hdr q c hv hc := ⟨hc, fun _ _ => trivial⟩
  open_ v hdr q c hv hc := ⟨hc, fun res h => by cases h; exact ⟨hv.1, hv.2 rfl⟩⟩
  readlink v hdr q c hv hc := hc
  releasedir h hdr q c hh hc := hc
  readdir h hdr q c hh hc := hc
  readdirplus h hdr q c hh hc := hc
  release h hdr q c hh hc := hc
  read h hdr q c hh hc := hc
  write h hdr q c hh hc := by
    dsimp only [Tree.userCode, Tree.impl]
    split
    · intro i hi
      dsimp only
      rw [if_neg (fun e : i = h => hi (e ▸ hh))]
      exact hc i hi
    · exact hc

/-- **C90**: whatever is sent to a mounted tree of directories on a device, only files with a name in the tree can be changed. -/
theorem C90_tree {σ ε : Type} {p : Peer σ (Convo (Option α))} {sock : Socket σ ε} (hd : OnLine (talkLine _) sock p true)
    (tree : Tree) (alloc : ReaddirRequest → Nat) (content : NodeId → Bytes) (server : FuseServer) (newer : List Bytes)
    (init : Bytes) (hnewer : ∀ m ∈ newer, m.length ≤ 8192 ∧ IsFuseInit m ∧ u32At m 40 ≠ 7)
    (hinit : init.length ≤ 8192 ∧ IsFuseInit init ∧ u32At init 40 = 7 ∧ 7 ≤ u32At init 44) (body : Bytes → Talk α) {n : Nat}
    (ht : ∀ reply, (body reply).Within n) (hn : n < 2 ^ 61) (d : σ)
    (hp : p.client d = ([], fun _ => Client.handshake init body newer)) :
    ∃ conn w, server.Connects (sock.beside _) (content, d) (.ok conn, w) ∧
      ∀ buf : Bytes, ∃ out nodes handles content' d',
        LoopReturns ((tree.userCode alloc).on sock conn.layout os checks).serveStep (buf, Vfs.new NodeId.root w)
          (out, ⟨nodes, handles, (content', d')⟩) ∧
        ∀ i, ¬ (tree.Reach i ∧ tree.dirs i = none ∧ tree.links i = none) → content' i = content i := by
  obtain ⟨conn, reply, w, h1, h2⟩ := C90_device (os := os) (checks := checks) hd (tree_confines tree alloc content)
    (root := NodeId.root) ⟨.root, nofun⟩ (fun _ _ => rfl) server newer init hnewer hinit body ht hn d hp
  refine ⟨conn, w, h1, fun buf => ?_⟩
  obtain ⟨r, out, out', nodes, handles, c', d', -, h4, h5, -⟩ := h2 buf
  refine ⟨out', nodes, handles, c', d', h5, fun i hi => h4 i fun ⟨hr, hf⟩ => hi ⟨hr, ?_⟩⟩
  unfold Tree.notFile at hf
  cases hx : tree.dirs i <;> cases hy : tree.links i <;> rw [hx, hy] at hf <;> first | exact ⟨rfl, rfl⟩ | cases hf

end

/-! ## Concrete cases -/

namespace VfsHostile

/-- Reading and writing a file that was never opened, opening a node that the client was never told of, and one that is a
directory, an opcode that the VFS layer does not know; then looking up `/f`, opening it, and writing with the open file and the
ID of another node. -/
def messages : List Bytes :=
  [Hostile.raw 15 11 9 (le64 1 ++ le64 0 ++ le32 10 ++ le32 0 ++ le64 0 ++ le32 0 ++ le32 0),
    Hostile.raw 16 12 9 (le64 1 ++ le64 0 ++ le32 1 ++ le32 0 ++ le64 0 ++ le32 0 ++ le32 0 ++ [5]),
    Hostile.raw 14 13 9 (le32 0 ++ le32 0), Hostile.raw 14 14 1 (le32 0 ++ le32 0), Hostile.raw 9 15 1 [0, 1, 2],
    Hostile.raw 1 17 1 [0x66, 0], Hostile.raw 14 18 9 (le32 0 ++ le32 0),
    Hostile.raw 16 19 5 (le64 1 ++ le64 1 ++ le32 2 ++ le32 0 ++ le64 0 ++ le32 0 ++ le32 0 ++ [5, 6])]

/-- What becomes of it, running the model. -/
def outcome (n len : Nat) (talk : Talk (List (List Bytes))) :
    Option (Option (List (List Bytes)) × Option RequestError × List Bytes) :=
  match iterate ((Stack.tree.userCode fun _ => 0x1000).wired (List (List Bytes)) ⟨31, 0⟩ OsErrors.linux true).serveStep n
      (List.replicate len 0, Vfs.new NodeId.root (Stack.content, [], fun _ => talk)) with
  | .inl (o, ⟨_, _, c, heard, k⟩) =>
    let a := match k heard with | .done a => some a | _ => none
    let c := [c NodeId.root, c ⟨5, by decide⟩, c ⟨9, by decide⟩]
    match o with
    | .ok () => some (a, none, c)
    | .err (.request e) => some (a, some e, c)
    | _ => none
  | _ => none


/-- The answers. -/
def answers : List (List Bytes) :=
  [[frame 11 (-22) []], [frame 12 (-22) []], [frame 13 (-22) []], [frame 14 (-95) []], [],
    [frame 17 0 (le64 9 ++ le64 0 ++ le64 1 ++ le64 1 ++ le64 0 ++ le64 9 ++ le64 2 ++ List.replicate 44 0 ++ le32 0o100644 ++
      List.replicate 24 0)],
    [frame 18 0 (le64 1 ++ le64 0)], [frame 19 0 (le64 2)]]

example : outcome 10 200 (Hostile.sends messages []) = some (some answers, none, [[], [], [1, 5, 6]]) := by decide +kernel

/-- A name without an end, and a message that is cut short: the loop ends, and what is sent afterwards has no effect. -/
example : outcome 10 200 (Hostile.sends (messages ++ [Hostile.raw 1 16 1 [0x66]] ++ messages) []) =
      some (none, some .unexpectedEof, [[], [], [1, 5, 6]]) ∧
    outcome 10 200 (Hostile.sends ([[1, 2, 3]] ++ messages) []) = some (none, some .unexpectedEof, [[], [], [1, 2]]) := by
  constructor <;> decide +kernel

theorem sends_within (ms : List Bytes) (heard : List (List Bytes)) : (Hostile.sends ms heard).Within ms.length := by
  induction ms generalizing heard with
  | nil => trivial
  | cons m ms ih => exact fun out => ih _

/-- C90_confined: of all nodes, only `/f` can be changed by a client without a mount. -/
example : ∃ r out nodes handles c' heard k,
    Tours (Stack.tree.userCode fun _ => 0x1000) ⟨31, 0⟩ true 200 (Hostile.sends messages []) Stack.content r out c' ∧
    Stack.tree.Spares Stack.content c' ∧
    LoopReturns ((Stack.tree.userCode fun _ => 0x1000).wired (List (List Bytes)) ⟨31, 0⟩ OsErrors.linux true).serveStep
      (List.replicate 200 0, Vfs.new NodeId.root (Stack.content, [], fun _ => Hostile.sends messages []))
      (out, ⟨nodes, handles, (c', heard, k)⟩) ∧ ∀ a, r = some a → k heard = .done a := by
  have h := C90_confined (os := OsErrors.linux) (checks := true) (layout := ⟨31, 0⟩)
    (tree_confines Stack.tree (fun _ => 0x1000) Stack.content) (root := NodeId.root) ⟨.root, nofun⟩ (fun _ _ => rfl) _
    (sends_within messages []) (by decide) (List.replicate 200 0)
  rw [List.length_replicate] at h
  exact h

theorem reach {i : NodeId} (h : Stack.tree.Reach i) : i.val = 1 ∨ i.val = 5 ∨ i.val = 9 ∨ i.val = 12 := by
  induction h with
  | root => exact .inl rfl
  | entry _ hd hm ih =>
    dsimp only [Stack.tree] at hd
    split at hd
    · cases hd
      simp only [List.mem_cons, Prod.mk.injEq, List.not_mem_nil, or_false] at hm
      rcases hm with ⟨_, rfl⟩ | ⟨_, rfl⟩ <;> simp
    · split at hd
      · cases hd
        simp only [List.mem_cons, Prod.mk.injEq, List.not_mem_nil, or_false] at hm
        rcases hm with ⟨_, rfl⟩ | ⟨_, rfl⟩ | ⟨_, rfl⟩
        · simp
        · exact .inl rfl
        · simp
      · cases hd

open Transport

/-- C90_tree: the same client through `fuse-linux`, with 5 interruptions. -/
example : ∃ (sock : Socket (Chatty (Option (List (List Bytes)))) Errno) (conn : FuseConnection)
    (w : (NodeId → Bytes) × Chatty (Option (List (List Bytes)))), OnLinux (sys (Option (List (List Bytes)))) ⟨3, true⟩ sock ∧
    ({} : FuseServer).Connects (sock.beside _)
      (Stack.content, ⟨([], fun _ => Client.handshake (initMessage 4 7 34 [65536, 0])
        (fun reply => Hostile.sends (messages ++ [reply, [1, 2, 3]]) []) [initMessage 2 8 0 [65536, 0]]),
        [true, true, false, true, false, false, true, true]⟩) (.ok conn, w) ∧
    ∀ buf : Bytes, ∃ out nodes handles content' d',
      LoopReturns ((Stack.tree.userCode fun _ => 0x1000).on sock conn.layout OsErrors.linux true).serveStep
        (buf, Vfs.new NodeId.root w) (out, ⟨nodes, handles, (content', d')⟩) ∧
      ∀ i : NodeId, i.val ≠ 9 → content' i = Stack.content i := by
  obtain ⟨sock, hs⟩ := linux_talk_socket (s := ⟨3, true⟩) (device (Option (List (List Bytes))) 3)
  obtain ⟨conn, w, h1, h2⟩ := C90_tree (os := OsErrors.linux) (checks := true) (.linux (s := ⟨3, true⟩) (device (Option _) 3) hs)
    Stack.tree (fun _ => 0x1000) Stack.content {} [initMessage 2 8 0 [65536, 0]] (initMessage 4 7 34 [65536, 0]) (by decide)
    (by decide) (fun reply => Hostile.sends (messages ++ [reply, [1, 2, 3]]) []) (n := 10)
    (fun reply => sends_within (messages ++ [reply, [1, 2, 3]]) []) (by decide)
    ⟨([], fun _ => _), [true, true, false, true, false, false, true, true]⟩ rfl
  refine ⟨sock, conn, w, hs, h1, fun buf => ?_⟩
  obtain ⟨out, nodes, handles, c', d', h3, h4⟩ := h2 buf
  refine ⟨out, nodes, handles, c', d', h3, fun i hi => h4 i fun ⟨hr, hd, hl⟩ => ?_⟩
  obtain ⟨v, hv⟩ := i
  rcases reach hr with h | h | h | h <;> dsimp only at h <;> subst h
  · cases hd
  · cases hd
  · exact hi rfl
  · cases hl

end VfsHostile

end Fuse
