import Verif.Dirent
import Verif.Requests
import Verif.Ioctl

/-!
# The VFS layer (fuse-vfs/fuse-vfs.rs)

`Filesystem::dispatch` may be called by several threads at once.  A handler is therefore modelled as a
sequence of atomic steps on the shared state (`Prog`), not as one function: other threads may act
between any two steps.  A step is one of

* an access to the node map or to the handle map under its lock (a critical section is one step; that
  includes the user's `release` method, which is called with the lock held);
* a call of user code (a method of a node or of a handle), which may do anything to the outside world `σ`
  and return anything;
* sending one reply on the connection's socket, which is part of the outside world.

Nodes and handles (`Arc<dyn Node>`, `Arc<dyn FileHandle>`, `Arc<dyn DirectoryHandle>`) are values of
arbitrary types `ν`, `φ`, `η`.

User code that panics or does not return, and poisoned locks, are in `Verif.VfsLocks`, where critical sections
are not atomic either.
-/

namespace Fuse

/-! ## Sequences of atomic steps -/

/-- A program working on a shared state `S`: finished with a result, or an atomic step changing the state,
after which it goes on in a way that depends on the state the step found. -/
inductive Prog (S α : Type) where
  | done (a : α)
  | step (f : S → S) (k : S → Prog S α)

namespace Prog

variable {S α β : Type}

/-- One program after the other. -/
def bind : Prog S α → (α → Prog S β) → Prog S β
  | .done a, g => g a
  | .step f k, g => .step f fun s => (k s).bind g

/-- One atomic step with a result. -/
def act (f : S → α × S) : Prog S α := .step (fun s => (f s).2) fun s => .done (f s).1

/-- Running a program alone. -/
def run : Prog S α → S → α × S
  | .done a, s => (a, s)
  | .step f k, s => (k s).run (f s)

/-- `p.Partial tr q`: `p` can make the steps `tr` (each given by the states before and after it) and then
has `q` left to do.  Between its steps others may change the state arbitrarily. -/
inductive Partial : Prog S α → List (S × S) → Prog S α → Prop
  | nil (p) : Partial p [] p
  | cons {f : S → S} {k : S → Prog S α} {tr q} (s : S) :
      Partial (k s) tr q → Partial (.step f k) ((s, f s) :: tr) q

/-- `p.Exec tr a`: `p` can make the steps `tr` and then end with the result `a`. -/
def Exec (p : Prog S α) (tr : List (S × S)) (a : α) : Prop := p.Partial tr (.done a)

end Prog

/-! ## The two maps -/

/-- `NodeLookup`, fuse-vfs/fuse-vfs.rs:926-929. -/
structure NodeLookup (ν : Type) where
  node : ν
  lookupCount : UInt64

/-- `NodeMap`, fuse-vfs/fuse-vfs.rs:922-924: a hash map is a partial function. -/
abbrev NodeMap (ν : Type) := NodeId → Option (NodeLookup ν)

/-- The `OsError` constants used by the VFS layer. -/
structure OsErrors where
  invalidArgument : FuseError
  notDirectory : FuseError
  notSupported : FuseError

/-- The constants of the platform, `fuse::os::OsError`, fuse/os.rs:25-29. -/
def OsErrors.of (os : OsErrorName → FuseError) : OsErrors :=
  ⟨os .invalidArgument, os .notDirectory, os .notSupported⟩

/-- fuse/os.rs:28-29. -/
def OsErrors.linux : OsErrors := .of OsErrorName.linux

/-- fuse/os.rs:25-26. -/
def OsErrors.freebsd : OsErrors := .of OsErrorName.freebsd

namespace NodeMap

variable {ν : Type}

/-- `HashMap::insert`. -/
def insert (m : NodeMap ν) (id : NodeId) (x : NodeLookup ν) : NodeMap ν :=
  fun i => if i = id then some x else m i

/-- `HashMap::remove`. -/
def remove (m : NodeMap ν) (id : NodeId) : NodeMap ν := fun i => if i = id then none else m i

/-- `NodeMap::new`, fuse-vfs/fuse-vfs.rs:932-941. -/
def new (root : ν) : NodeMap ν := insert (fun _ => none) NodeId.root ⟨root, 0⟩

/-- `NodeMap::add`, fuse-vfs/fuse-vfs.rs:943-959.  The addition overflows at `2^64` lookups. -/
def add (m : NodeMap ν) (id : NodeId) (node : ν) : Except Fault Unit × NodeMap ν :=
  match m id with
  | some entry =>
    if entry.lookupCount.toNat + 1 < 2 ^ 64 then
      (.ok (), m.insert id { entry with lookupCount := entry.lookupCount + 1 })
    else (.error .panic, m)
  | none => (.ok (), m.insert id ⟨node, 1⟩)

/-- `u64::saturating_sub(1)`. -/
def satPred (n : UInt64) : UInt64 := if n = 0 then 0 else n - 1

/-- One turn of the loop in `NodeMap::forget`, fuse-vfs/fuse-vfs.rs:967-977. -/
def forgetOne (m : NodeMap ν) (item : ForgetItem) : NodeMap ν :=
  match m item.nodeId with
  | some entry =>
    let newCount := satPred entry.lookupCount
    if newCount = 0 then m.remove item.nodeId
    else m.insert item.nodeId { entry with lookupCount := newCount }
  | none => m

/-- `NodeMap::forget`, fuse-vfs/fuse-vfs.rs:961-978. -/
def forget (m : NodeMap ν) (items : List ForgetItem) : NodeMap ν := items.foldl forgetOne m

/-- `NodeMap::get`, fuse-vfs/fuse-vfs.rs:980-987. -/
def get (os : OsErrors) (m : NodeMap ν) (id : NodeId) : Except FuseError ν :=
  match m id with
  | some entry => .ok entry.node
  | none => .error os.invalidArgument

end NodeMap

/-- `HandlesMap`, fuse-vfs/fuse-vfs.rs:994-998. -/
structure HandlesMap (φ η : Type) where
  nextHandleId : UInt64
  openDirs : UInt64 → Option η
  openFiles : UInt64 → Option φ

namespace HandlesMap

variable {φ η : Type}

/-- `HandlesMap::new`, fuse-vfs/fuse-vfs.rs:1001-1007. -/
def new : HandlesMap φ η := ⟨1, fun _ => none, fun _ => none⟩

/-- `HandlesMap::open_file`, fuse-vfs/fuse-vfs.rs:1009-1014.  The addition overflows after `2^64 - 1`
calls. -/
def openFile (m : HandlesMap φ η) (h : φ) : Except Fault UInt64 × HandlesMap φ η :=
  let handleId := m.nextHandleId
  if m.nextHandleId.toNat + 1 < 2 ^ 64 then
    (.ok handleId, { m with nextHandleId := m.nextHandleId + 1,
                            openFiles := fun i => if i = handleId then some h else m.openFiles i })
  else (.error .panic, m)

/-- `HandlesMap::open_dir`, fuse-vfs/fuse-vfs.rs:1016-1021. -/
def openDir (m : HandlesMap φ η) (h : η) : Except Fault UInt64 × HandlesMap φ η :=
  let handleId := m.nextHandleId
  if m.nextHandleId.toNat + 1 < 2 ^ 64 then
    (.ok handleId, { m with nextHandleId := m.nextHandleId + 1,
                            openDirs := fun i => if i = handleId then some h else m.openDirs i })
  else (.error .panic, m)

/-- `HandlesMap::get_file`, fuse-vfs/fuse-vfs.rs:1023-1032; the node ID is ignored. -/
def getFile (os : OsErrors) (m : HandlesMap φ η) (_nodeId : NodeId) (handle : UInt64) :
    Except FuseError φ :=
  match m.openFiles handle with
  | some h => .ok h
  | none => .error os.invalidArgument

/-- `HandlesMap::get_dir`, fuse-vfs/fuse-vfs.rs:1034-1043. -/
def getDir (os : OsErrors) (m : HandlesMap φ η) (_nodeId : NodeId) (handle : UInt64) :
    Except FuseError η :=
  match m.openDirs handle with
  | some h => .ok h
  | none => .error os.invalidArgument

/-- `HandlesMap::close_file`, fuse-vfs/fuse-vfs.rs:1045-1050. -/
def closeFile (m : HandlesMap φ η) (_nodeId : NodeId) (handle : UInt64) : HandlesMap φ η :=
  { m with openFiles := fun i => if i = handle then none else m.openFiles i }

/-- `HandlesMap::close_dir`, fuse-vfs/fuse-vfs.rs:1052-1057. -/
def closeDir (m : HandlesMap φ η) (_nodeId : NodeId) (handle : UInt64) : HandlesMap φ η :=
  { m with openDirs := fun i => if i = handle then none else m.openDirs i }

end HandlesMap

/-! ## User code -/

/-- `GetattrResult`, fuse-vfs/fuse-vfs.rs:129-132. -/
structure GetattrResult where
  nodeAttr : NodeAttr
  cacheTimeout : Duration

/-- `LookupResult`, fuse-vfs/fuse-vfs.rs:213-218. -/
structure LookupResult (ν : Type) where
  node : Option (ν × NodeAttr)
  generation : UInt64
  entryCacheTimeout : Duration
  attrCacheTimeout : Duration

/-- `OpenResult` and `OpendirResult`, fuse-vfs/fuse-vfs.rs:347-350 and 245-248. -/
structure OpenResult (κ : Type) where
  handle : κ
  openFlags : UInt32

/-- The user's implementations of the traits `Node`, `Directory`, `File`, `Symlink`, `DirectoryHandle`,
`ReaddirHandle`, `ReaddirplusHandle`, `FileHandle`, `ReadHandle`, `WriteHandle`,
fuse-vfs/fuse-vfs.rs:85-127, 199-211, 264-333, 339-345, 366-431 and 437-443.  Results that only carry bytes or a
number (`GetxattrResult`, `ReadResult`, …) are represented by those. -/
structure VfsImpl (ν φ η σ : Type) where
  asDirectory : ν → σ → Option ν × σ
  asFile : ν → σ → Option ν × σ
  asSymlink : ν → σ → Option ν × σ
  getattr : ν → FuseInHeader → GetattrRequest → σ → Except FuseError GetattrResult × σ
  getxattr : ν → FuseInHeader → GetxattrRequest → σ → Except FuseError Bytes × σ
  listxattr : ν → FuseInHeader → ListxattrRequest → σ → Except FuseError Bytes × σ
  statfs : ν → FuseInHeader → StatfsRequest → σ → Except FuseError FuseKstatfs × σ
  lookup : ν → FuseInHeader → LookupRequest → σ → Except FuseError (LookupResult ν) × σ
  opendir : ν → FuseInHeader → OpendirRequest → σ → Except FuseError (OpenResult η) × σ
  open_ : ν → FuseInHeader → OpenRequest → σ → Except FuseError (OpenResult φ) × σ
  readlink : ν → FuseInHeader → ReadlinkRequest → σ → Except FuseError CStr × σ
  asReaddirHandle : η → σ → Option η × σ
  asReaddirplusHandle : η → σ → Option η × σ
  releasedir : η → FuseInHeader → ReleasedirRequest → σ → Except FuseError Unit × σ
  readdir : η → FuseInHeader → ReaddirRequest → σ → Except FuseError Bytes × σ
  readdirplus : η → FuseInHeader → ReaddirplusRequest → σ → Except FuseError Bytes × σ
  asReadHandle : φ → σ → Option φ × σ
  asWriteHandle : φ → σ → Option φ × σ
  release : φ → FuseInHeader → ReleaseRequest → σ → Except FuseError Unit × σ
  read : φ → FuseInHeader → ReadRequest → σ → Except FuseError Bytes × σ
  write : φ → FuseInHeader → WriteRequest → σ → Except FuseError UInt32 × σ

/-! ## The filesystem -/

/-- The constant parts of a `Filesystem`, fuse-vfs/fuse-vfs.rs:462-466: the connection's socket and
layout, and the environment: error numbers, user code, overflow checks on or off. -/
structure Filesystem (ν φ η σ ε : Type) where
  sock : Socket σ ε
  layout : FuseLayout
  os : OsErrors
  impl : VfsImpl ν φ η σ
  checks : Bool

/-- The shared state: the two maps, and the outside world including the socket. -/
structure Vfs (ν φ η σ : Type) where
  nodes : NodeMap ν
  handles : HandlesMap φ η
  world : σ

/-- The maps of a new filesystem, `Filesystem::new`, fuse-vfs/fuse-vfs.rs:470-479. -/
def Vfs.new {ν φ η σ : Type} (root : ν) (world : σ) : Vfs ν φ η σ :=
  ⟨NodeMap.new root, HandlesMap.new, world⟩

/-- Programs that may end early with an error (the `?` operator) or a fault. -/
def VfsM (ν φ η σ ε α : Type) := Prog (Vfs ν φ η σ) (Outcome ε α)

namespace VfsM

variable {ν φ η σ ε α β : Type}

/-- Going on after a successful program. -/
def andThen (f : α → VfsM ν φ η σ ε β) : Outcome ε α → VfsM ν φ η σ ε β
  | .ok a => f a
  | .err e => Prog.done (.err e)
  | .fault f => Prog.done (.fault f)

instance : Monad (VfsM ν φ η σ ε) where
  pure a := Prog.done (.ok a)
  bind x f := Prog.bind x (andThen f)

/-- An unchecked operation. -/
def ofFault : Except Fault α → VfsM ν φ η σ ε α
  | .ok a => Prog.done (.ok a)
  | .error f => Prog.done (.fault f)

/-- Decoding a request with `try_from(request)?`. -/
def decoded : Res α → VfsM ν φ η σ ε α
  | .ok a => Prog.done (.ok a)
  | .error (.req e) => Prog.done (.err (.request e))
  | .error (.fault f) => Prog.done (.fault f)

/-- A call of user code. -/
def call (f : σ → α × σ) : VfsM ν φ η σ ε α :=
  Prog.act fun s => (.ok (f s.world).1, { s with world := (f s.world).2 })

/-- A critical section of the handle map's lock. -/
def locked (f : HandlesMap φ η → Except Fault α × HandlesMap φ η) : VfsM ν φ η σ ε α :=
  Prog.act fun s =>
    let (r, handles) := f s.handles
    (match r with
      | .ok a => .ok a
      | .error f => .fault f, { s with handles := handles })

end VfsM

namespace Filesystem

variable {ν φ η σ ε : Type} (fs : Filesystem ν φ η σ ε)

/-- `Ok(send_reply.err(err)?)` and the like, with `send_reply = self.conn.reply(id)`. -/
def reply (id : NonZeroU64)
    (method : FuseReplySender σ ε → σ → Except (SendError ε) Unit × σ) : VfsM ν φ η σ ε Unit :=
  Prog.act fun s =>
    let (r, world) := method (FuseReplySender.new fs.sock fs.layout id) s.world
    (match r with
      | .ok () => .ok ()
      | .error e => .err (.send e), { s with world := world })

/-- `self.nodes.get(id)`. -/
def nodesGet (id : NodeId) : VfsM ν φ η σ ε (Except FuseError ν) :=
  Prog.act fun s => (.ok (s.nodes.get fs.os id), s)

/-- `self.nodes.add(id, node)`. -/
def nodesAdd (id : NodeId) (node : ν) : VfsM ν φ η σ ε Unit :=
  Prog.act fun s =>
    let (r, nodes) := s.nodes.add id node
    (match r with
      | .ok () => .ok ()
      | .error f => .fault f, { s with nodes := nodes })

/-- `self.nodes.forget(items)`. -/
def nodesForget (items : List ForgetItem) : VfsM ν φ η σ ε Unit :=
  Prog.act fun s => (.ok (), { s with nodes := s.nodes.forget items })

/-- `handles.get_file(..).cloned()` under the read lock, e.g. fuse-vfs/fuse-vfs.rs:710-714. -/
def getFile (nodeId : NodeId) (handle : UInt64) : VfsM ν φ η σ ε (Except FuseError φ) :=
  VfsM.locked fun m => (.ok (m.getFile fs.os nodeId handle), m)

/-- `handles.get_dir(..).cloned()` under the read lock, e.g. fuse-vfs/fuse-vfs.rs:739-743. -/
def getDir (nodeId : NodeId) (handle : UInt64) : VfsM ν φ η σ ε (Except FuseError η) :=
  VfsM.locked fun m => (.ok (m.getDir fs.os nodeId handle), m)

/-- The identifier of a request and its header: `request.id()` and `request.header()`,
fuse/server.rs:492-500. -/
def idAndHeader (r : Request) : Except Fault (NonZeroU64 × FuseInHeader) := do
  let h ← r.rawHeader
  let id ← h.requestId
  return (id, h)

/-- `Filesystem::forget`, fuse-vfs/fuse-vfs.rs:515-522. -/
def forget (r : Request) : VfsM ν φ η σ ε Unit := do
  let request ← VfsM.decoded (r.decode (decodeForget fs.checks))
  nodesForget request.items

/-- `Filesystem::getattr`, fuse-vfs/fuse-vfs.rs:524-549. -/
def getattr (r : Request) : VfsM ν φ η σ ε Unit := do
  let (id, header) ← VfsM.ofFault (idAndHeader r)
  let request ← VfsM.decoded (r.decode (decodeGetattr fs.layout))
  let nodeId ← VfsM.ofFault request.nodeId
  match ← fs.nodesGet nodeId with
  | .error e => fs.reply id (·.err e)
  | .ok node =>
    match ← VfsM.call (fs.impl.getattr node header request) with
    | .error e => fs.reply id (·.err e)
    | .ok result =>
      let valid := vfsSplitDuration result.cacheTimeout 0 0
      fs.reply id (·.ok (.attr { attr := result.nodeAttr.raw, attr_valid := valid.1,
                                 attr_valid_nsec := valid.2 }))

/-- `Filesystem::getxattr`, fuse-vfs/fuse-vfs.rs:551-568. -/
def getxattr (r : Request) : VfsM ν φ η σ ε Unit := do
  let (id, header) ← VfsM.ofFault (idAndHeader r)
  let request ← VfsM.decoded (r.decode decodeGetxattr)
  let nodeId ← VfsM.ofFault request.nodeId
  match ← fs.nodesGet nodeId with
  | .error e => fs.reply id (·.err e)
  | .ok node =>
    match ← VfsM.call (fs.impl.getxattr node header request) with
    | .error e => fs.reply id (·.err e)
    | .ok buf => fs.reply id (·.okBuf buf)

/-- `Filesystem::listxattr`, fuse-vfs/fuse-vfs.rs:570-587. -/
def listxattr (r : Request) : VfsM ν φ η σ ε Unit := do
  let (id, header) ← VfsM.ofFault (idAndHeader r)
  let request ← VfsM.decoded (r.decode decodeListxattr)
  let nodeId ← VfsM.ofFault request.nodeId
  match ← fs.nodesGet nodeId with
  | .error e => fs.reply id (·.err e)
  | .ok node =>
    match ← VfsM.call (fs.impl.listxattr node header request) with
    | .error e => fs.reply id (·.err e)
    | .ok buf => fs.reply id (·.okBuf buf)

/-- The `fuse_entry_out` built in `Filesystem::lookup`, fuse-vfs/fuse-vfs.rs:606-627. -/
def lookupEntry (result : LookupResult ν) : FuseEntryOut :=
  let entryValid := vfsSplitDuration result.entryCacheTimeout 0 0
  let reply : FuseEntryOut := { entry_valid := entryValid.1, entry_valid_nsec := entryValid.2 }
  match result.node with
  | none => reply
  | some (_, attr) =>
    let attrValid := vfsSplitDuration result.attrCacheTimeout 0 0
    { reply with nodeid := attr.raw.ino, attr := attr.raw, generation := result.generation,
                 attr_valid := attrValid.1, attr_valid_nsec := attrValid.2 }

/-- `Filesystem::lookup`, fuse-vfs/fuse-vfs.rs:589-634: the reply is sent before the node is added. -/
def lookup (r : Request) : VfsM ν φ η σ ε Unit := do
  let (id, header) ← VfsM.ofFault (idAndHeader r)
  let request ← VfsM.decoded (r.decode decodeLookup)
  match ← fs.nodesGet request.parentId with
  | .error e => fs.reply id (·.err e)
  | .ok parent =>
    match ← VfsM.call (fs.impl.asDirectory parent) with
    | none => fs.reply id (·.err fs.os.notDirectory)
    | some dir =>
      match ← VfsM.call (fs.impl.lookup dir header request) with
      | .error e => fs.reply id (·.err e)
      | .ok result =>
        match result.node with
        | some (node, attr) => do
          let nodeId ← VfsM.ofFault attr.nodeId
          fs.reply id (·.ok (.entryOut (lookupEntry result)))
          nodesAdd nodeId node
        | none => fs.reply id (·.ok (.entryOut (lookupEntry result)))

/-- `Filesystem::open`, fuse-vfs/fuse-vfs.rs:636-666. -/
def open_ (r : Request) : VfsM ν φ η σ ε Unit := do
  let (id, header) ← VfsM.ofFault (idAndHeader r)
  let request ← VfsM.decoded (r.decode (decodeOpen false))
  match ← fs.nodesGet request.nodeId with
  | .error e => fs.reply id (·.err e)
  | .ok node =>
    match ← VfsM.call (fs.impl.asFile node) with
    | none => fs.reply id (·.err fs.os.notSupported)
    | some file =>
      match ← VfsM.call (fs.impl.open_ file header request) with
      | .error e => fs.reply id (·.err e)
      | .ok result => do
        let handleId ← VfsM.locked (·.openFile result.handle)
        fs.reply id (·.ok (.open_ { fh := handleId, open_flags := result.openFlags }))

/-- `Filesystem::opendir`, fuse-vfs/fuse-vfs.rs:668-700. -/
def opendir (r : Request) : VfsM ν φ η σ ε Unit := do
  let (id, header) ← VfsM.ofFault (idAndHeader r)
  let request ← VfsM.decoded (r.decode decodeOpendir)
  let nodeId ← VfsM.ofFault request.nodeId
  match ← fs.nodesGet nodeId with
  | .error e => fs.reply id (·.err e)
  | .ok node =>
    match ← VfsM.call (fs.impl.asDirectory node) with
    | none => fs.reply id (·.err fs.os.notDirectory)
    | some dir =>
      match ← VfsM.call (fs.impl.opendir dir header request) with
      | .error e => fs.reply id (·.err e)
      | .ok result => do
        let handleId ← VfsM.locked (·.openDir result.handle)
        fs.reply id (·.ok (.open_ { fh := handleId, open_flags := result.openFlags }))

/-- `Filesystem::read`, fuse-vfs/fuse-vfs.rs:702-729. -/
def read (r : Request) : VfsM ν φ η σ ε Unit := do
  let (id, header) ← VfsM.ofFault (idAndHeader r)
  let request ← VfsM.decoded (r.decode (decodeRead fs.layout.minor false))
  let handle ← VfsM.ofFault request.handle
  match ← fs.getFile request.nodeId handle with
  | .error e => fs.reply id (·.err e)
  | .ok fileHandle =>
    match ← VfsM.call (fs.impl.asReadHandle fileHandle) with
    | none => fs.reply id (·.err fs.os.notSupported)
    | some h =>
      match ← VfsM.call (fs.impl.read h header request) with
      | .error e => fs.reply id (·.err e)
      | .ok data => fs.reply id (·.okBuf data)

/-- `Filesystem::readdir`, fuse-vfs/fuse-vfs.rs:731-757. -/
def readdir (r : Request) : VfsM ν φ η σ ε Unit := do
  let (id, header) ← VfsM.ofFault (idAndHeader r)
  let request ← VfsM.decoded (r.decode (decodeReaddir fs.layout))
  let nodeId ← VfsM.ofFault request.nodeId
  let handle ← VfsM.ofFault request.handle
  match ← fs.getDir nodeId handle with
  | .error e => fs.reply id (·.err e)
  | .ok dirHandle =>
    match ← VfsM.call (fs.impl.asReaddirHandle dirHandle) with
    | none => fs.reply id (·.err fs.os.notSupported)
    | some h =>
      match ← VfsM.call (fs.impl.readdir h header request) with
      | .error e => fs.reply id (·.err e)
      | .ok entries => fs.reply id (·.okBuf entries)

/-- `Filesystem::readdirplus`, fuse-vfs/fuse-vfs.rs:759-785. -/
def readdirplus (r : Request) : VfsM ν φ η σ ε Unit := do
  let (id, header) ← VfsM.ofFault (idAndHeader r)
  let request ← VfsM.decoded (r.decode (decodeReaddirplus fs.layout))
  let nodeId ← VfsM.ofFault request.nodeId
  let handle ← VfsM.ofFault request.handle
  match ← fs.getDir nodeId handle with
  | .error e => fs.reply id (·.err e)
  | .ok dirHandle =>
    match ← VfsM.call (fs.impl.asReaddirplusHandle dirHandle) with
    | none => fs.reply id (·.err fs.os.notSupported)
    | some h =>
      match ← VfsM.call (fs.impl.readdirplus h header request) with
      | .error e => fs.reply id (·.err e)
      | .ok entries => fs.reply id (·.okBuf entries)

/-- `Filesystem::readlink`, fuse-vfs/fuse-vfs.rs:787-808. -/
def readlink (r : Request) : VfsM ν φ η σ ε Unit := do
  let (id, header) ← VfsM.ofFault (idAndHeader r)
  let request ← VfsM.decoded (r.decode decodeReadlink)
  match ← fs.nodesGet request.nodeId with
  | .error e => fs.reply id (·.err e)
  | .ok node =>
    match ← VfsM.call (fs.impl.asSymlink node) with
    | none => fs.reply id (·.err fs.os.notSupported)
    | some symlink =>
      match ← VfsM.call (fs.impl.readlink symlink header request) with
      | .error e => fs.reply id (·.err e)
      | .ok target => fs.reply id (·.okBuf target.bytes)

/-- The critical section of `Filesystem::release`, fuse-vfs/fuse-vfs.rs:820-834. -/
def releaseLocked (header : FuseInHeader) (request : ReleaseRequest) (nodeId : NodeId)
    (handle : UInt64) : VfsM ν φ η σ ε (Except FuseError Unit) :=
  Prog.act fun s =>
    match s.handles.getFile fs.os nodeId handle with
    | .error e => (.ok (.error e), s)
    | .ok fileHandle =>
      match fs.impl.release fileHandle header request s.world with
      | (.error e, world) => (.ok (.error e), { s with world := world })
      | (.ok (), world) =>
        (.ok (.ok ()), { s with handles := s.handles.closeFile nodeId handle, world := world })

/-- `Filesystem::release`, fuse-vfs/fuse-vfs.rs:810-836. -/
def release (r : Request) : VfsM ν φ η σ ε Unit := do
  let (id, header) ← VfsM.ofFault (idAndHeader r)
  let request ← VfsM.decoded (r.decode (decodeRelease fs.layout.minor false))
  let handle ← VfsM.ofFault request.handle
  match ← fs.releaseLocked header request request.nodeId handle with
  | .error e => fs.reply id (·.err e)
  | .ok () => fs.reply id (·.okEmpty)

/-- The critical section of `Filesystem::releasedir`, fuse-vfs/fuse-vfs.rs:848-862. -/
def releasedirLocked (header : FuseInHeader) (request : ReleasedirRequest) (nodeId : NodeId)
    (handle : UInt64) : VfsM ν φ η σ ε (Except FuseError Unit) :=
  Prog.act fun s =>
    match s.handles.getDir fs.os nodeId handle with
    | .error e => (.ok (.error e), s)
    | .ok dirHandle =>
      match fs.impl.releasedir dirHandle header request s.world with
      | (.error e, world) => (.ok (.error e), { s with world := world })
      | (.ok (), world) =>
        (.ok (.ok ()), { s with handles := s.handles.closeDir nodeId handle, world := world })

/-- `Filesystem::releasedir`, fuse-vfs/fuse-vfs.rs:838-864. -/
def releasedir (r : Request) : VfsM ν φ η σ ε Unit := do
  let (id, header) ← VfsM.ofFault (idAndHeader r)
  let request ← VfsM.decoded (r.decode (decodeReleasedir fs.layout))
  let nodeId ← VfsM.ofFault request.nodeId
  let handle ← VfsM.ofFault request.handle
  match ← fs.releasedirLocked header request nodeId handle with
  | .error e => fs.reply id (·.err e)
  | .ok () => fs.reply id (·.okEmpty)

/-- `Filesystem::statfs`, fuse-vfs/fuse-vfs.rs:866-885. -/
def statfs (r : Request) : VfsM ν φ η σ ε Unit := do
  let (id, header) ← VfsM.ofFault (idAndHeader r)
  let request ← VfsM.decoded (r.decode decodeStatfs)
  match ← fs.nodesGet request.nodeId with
  | .error e => fs.reply id (·.err e)
  | .ok node =>
    match ← VfsM.call (fs.impl.statfs node header request) with
    | .error e => fs.reply id (·.err e)
    | .ok st => fs.reply id (·.ok (.statfs { st := st }))

/-- `Filesystem::write`, fuse-vfs/fuse-vfs.rs:887-915. -/
def write (r : Request) : VfsM ν φ η σ ε Unit := do
  let (id, header) ← VfsM.ofFault (idAndHeader r)
  let request ← VfsM.decoded (r.decode (decodeWrite fs.layout.minor false))
  let nodeId ← VfsM.ofFault request.nodeId
  let handle ← VfsM.ofFault request.handle
  match ← fs.getFile nodeId handle with
  | .error e => fs.reply id (·.err e)
  | .ok fileHandle =>
    match ← VfsM.call (fs.impl.asWriteHandle fileHandle) with
    | none => fs.reply id (·.err fs.os.notSupported)
    | some h =>
      match ← VfsM.call (fs.impl.write h header request) with
      | .error e => fs.reply id (·.err e)
      | .ok size => fs.reply id (·.ok (.write { size := size }))

/-- The handler chosen by `Filesystem::dispatch`, fuse-vfs/fuse-vfs.rs:484-513. -/
def select (opcode : UInt32) (r : Request) : Option (VfsM ν φ η σ ε Unit) :=
  if opcode = FUSE_READ then some (fs.read r)
  else if opcode = FUSE_WRITE then some (fs.write r)
  else if opcode = FUSE_BATCH_FORGET then some (fs.forget r)
  else if opcode = FUSE_FORGET then some (fs.forget r)
  else if opcode = FUSE_GETATTR then some (fs.getattr r)
  else if opcode = FUSE_GETXATTR then some (fs.getxattr r)
  else if opcode = FUSE_LISTXATTR then some (fs.listxattr r)
  else if opcode = FUSE_LOOKUP then some (fs.lookup r)
  else if opcode = FUSE_OPEN then some (fs.open_ r)
  else if opcode = FUSE_OPENDIR then some (fs.opendir r)
  else if opcode = FUSE_READDIR then some (fs.readdir r)
  else if opcode = FUSE_READDIRPLUS then some (fs.readdirplus r)
  else if opcode = FUSE_READLINK then some (fs.readlink r)
  else if opcode = FUSE_RELEASE then some (fs.release r)
  else if opcode = FUSE_RELEASEDIR then some (fs.releasedir r)
  else if opcode = FUSE_STATFS then some (fs.statfs r)
  else none

/-- `Filesystem::dispatch`, fuse-vfs/fuse-vfs.rs:484-513. -/
def dispatch (r : Request) : Prog (Vfs ν φ η σ) (Option (Outcome ε Unit)) :=
  match r.rawHeader with
  | .error f => .done (some (.fault f))
  | .ok h =>
    match fs.select h.opcode r with
    | none => .done none
    | some p => Prog.bind p fun out => .done (some out)

end Filesystem

/-! ## Static directories -/

/-- `StaticDirectoryEntry`, fuse-vfs/fuse-vfs.rs:1075-1081. -/
structure StaticDirectoryEntry where
  name : NodeName
  nodeAttr : NodeAttr
  generation : UInt64
  entryCacheTimeout : Duration
  attrCacheTimeout : Duration

/-- `NonZeroU64::saturating_add`. -/
def NonZeroU64.saturatingAdd (n : NonZeroU64) (m : UInt64) : NonZeroU64 :=
  if h : n.val.toNat + m.toNat < 2 ^ 64 then
    ⟨n.val + m, fun e => by
      have h1 : (n.val + m).toNat = n.val.toNat + m.toNat := by
        rw [UInt64.toNat_add, Nat.mod_eq_of_lt h]
      rw [e] at h1
      have h2 : n.val.toNat = 0 := by
        have : (0 : UInt64).toNat = 0 := rfl
        omega
      exact n.2 (UInt64.toNat_inj.mp h2)⟩
  else ⟨0xFFFFFFFFFFFFFFFF, by decide⟩

namespace StaticDirectory

variable {T : Type} [Dirent T]

/-- The loop over the entries, fuse-vfs/fuse-vfs.rs:1126-1138 and 1163-1174: pushing records until one
does not fit. -/
def pushLoop (record : StaticDirectoryEntry → NonZeroU64 → Except Fault (DirRecord T)) :
    DirWriter → NonZeroU64 → List StaticDirectoryEntry → Except Fault DirWriter
  | w, _, [] => .ok w
  | w, offset, e :: es => do
    let dirent ← record e offset
    let (pushed, w) ← w.tryPush dirent
    if pushed then pushLoop record w (offset.saturatingAdd 1) es else .ok w

/-- The body shared by `readdir` and `readdirplus`, fuse-vfs/fuse-vfs.rs:1117-1142 and 1154-1178.  `addr` is
the address of the vector allocated for the result. -/
def page (record : StaticDirectoryEntry → NonZeroU64 → Except Fault (DirRecord T))
    (entries : List StaticDirectoryEntry) (addr : Nat) (offset : Option NonZeroU64) (size : UInt32) :
    Except Fault Bytes :=
  let startOffset : UInt64 := match offset with
    | none => 0
    | some o => o.val
  if startOffset.toNat ≥ entries.length then .ok []
  else do
    let size := min size.toNat 65535
    let w := DirWriter.new addr (List.replicate size 0)
    let offset := NonZeroU64.saturatingAdd ⟨1, by decide⟩ startOffset
    let w ← pushLoop record w offset (entries.drop startOffset.toNat)
    return w.buf.take w.position

/-- The record pushed by `StaticDirectoryHandle::readdir`, fuse-vfs/fuse-vfs.rs:1128-1134. -/
def readdirRecord (e : StaticDirectoryEntry) (offset : NonZeroU64) : Except Fault ReaddirEntry := do
  let nodeId ← e.nodeAttr.nodeId
  let dirent := ReaddirEntry.new nodeId e.name offset
  match FileType.fromMode e.nodeAttr.mode with
  | some t => return dirent.setFileType t
  | none => return dirent

/-- The record pushed by `StaticDirectoryHandle::readdirplus`, fuse-vfs/fuse-vfs.rs:1165-1169. -/
def readdirplusRecord (e : StaticDirectoryEntry) (offset : NonZeroU64) :
    Except Fault ReaddirplusEntry :=
  let entry := ((Entry.new e.nodeAttr).setGeneration e.generation).setCacheTimeout e.entryCacheTimeout
  ReaddirplusEntry.new e.name offset (entry.setAttributeCacheTimeout e.attrCacheTimeout)

/-- `StaticDirectoryHandle::readdir`, fuse-vfs/fuse-vfs.rs:1110-1143. -/
def readdir (entries : List StaticDirectoryEntry) (addr : Nat) (request : ReaddirRequest) :
    Except Fault Bytes := do
  page readdirRecord entries addr (← request.offset) (← request.size)

/-- `StaticDirectoryHandle::readdirplus`, fuse-vfs/fuse-vfs.rs:1147-1179. -/
def readdirplus (entries : List StaticDirectoryEntry) (addr : Nat) (request : ReaddirplusRequest) :
    Except Fault Bytes := do
  page readdirplusRecord entries addr (← request.offset) (← request.size)

end StaticDirectory

end Fuse
