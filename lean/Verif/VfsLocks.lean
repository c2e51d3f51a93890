import Verif.VfsHist

/-!
# The VFS layer at the level of its locks (fuse-vfs/fuse-vfs.rs)

In `Verif.Vfs` a critical section is one atomic step.  Here it is not: taking a lock, every single access to
the map it protects, the call of the user's `release` method made with the lock held, and giving the lock back
are separate steps, and a thread that wants a lock waits until it is free.  `LProg.erase` gives back the
program with atomic critical sections.

`std::sync::RwLock`: any number of readers or one writer; a lock is poisoned when a thread panics while it has
the lock for writing, and taking a poisoned lock and `unwrap` panics.
-/

namespace Fuse

variable {ν φ η σ ε α β : Type}

/-- The two locks: `NodeMap::nodes`, fuse-vfs/fuse-vfs.rs:923, and `Filesystem::handles`,
fuse-vfs/fuse-vfs.rs:465. -/
inductive Lck
  | nodes
  | handles
deriving DecidableEq

/-- What a lock protects. -/
abbrev Mem (ν φ η : Type) : Lck → Type
  | .nodes => NodeMap ν
  | .handles => HandlesMap φ η

namespace Vfs

/-- The map protected by a lock. -/
def get (s : Vfs ν φ η σ) : (l : Lck) → Mem ν φ η l
  | .nodes => s.nodes
  | .handles => s.handles

/-- Changing the map protected by a lock. -/
def put (s : Vfs ν φ η σ) : (l : Lck) → Mem ν φ η l → Vfs ν φ η σ
  | .nodes, m => { s with nodes := m }
  | .handles, m => { s with handles := m }

end Vfs

/-- The rest of a critical section in which no more user code is called: accesses to the protected map, and a
result or a panic. -/
inductive Tail (M β : Type)
  | done (r : Except Fault β)
  | step (f : M → M) (k : M → Tail M β)

/-- A critical section: accesses to the protected map, at most one call of user code, and a result or a
panic. -/
inductive Sec (M σ β : Type)
  | done (r : Except Fault β)
  | step (f : M → M) (k : M → Sec M σ β)
  | call (f : σ → σ) (k : σ → Tail M β)

/-- Running the rest of a critical section without interruption. -/
def Tail.run {M : Type} : Tail M β → M → Except Fault β × M
  | .done r, m => (r, m)
  | .step f k, m => (k m).run (f m)

/-- Running a critical section without interruption. -/
def Sec.run {M : Type} : Sec M σ β → M → σ → Except Fault β × M × σ
  | .done r, m, w => (r, m, w)
  | .step f k, m, w => (k m).run (f m) w
  | .call f k, m, w => (((k w).run m).1, ((k w).run m).2, f w)

/-- A handler at the level of locks: finished, a step outside all locks (a call of user code or sending a
reply), a look at a map under its lock taken for reading, or a critical section of a lock taken for writing. -/
inductive LProg (ν φ η σ : Type) (α : Type) : Type 1
  | done (a : α)
  | world (f : σ → σ) (k : σ → LProg ν φ η σ α)
  | read (l : Lck) (k : Mem ν φ η l → LProg ν φ η σ α)
  | write (l : Lck) {γ : Type} (sec : Sec (Mem ν φ η l) σ γ) (k : Except Fault γ → LProg ν φ η σ α)

namespace LProg

/-- One program after the other. -/
def bind : LProg ν φ η σ α → (α → LProg ν φ η σ β) → LProg ν φ η σ β
  | .done a, g => g a
  | .world f k, g => .world f fun w => (k w).bind g
  | .read l k, g => .read l fun m => (k m).bind g
  | .write l sec k, g => .write l sec fun r => (k r).bind g

/-- The program with atomic critical sections. -/
def erase : LProg ν φ η σ α → Prog (Vfs ν φ η σ) α
  | .done a => .done a
  | .world f k => .step (fun s => { s with world := f s.world }) fun s => (k s.world).erase
  | .read l k => .step id fun s => (k (s.get l)).erase
  | .write l sec k =>
    .step (fun s => { s.put l (sec.run (s.get l) s.world).2.1 with world := (sec.run (s.get l) s.world).2.2 })
      fun s => (k (sec.run (s.get l) s.world).1).erase

theorem erase_bind (p : LProg ν φ η σ α) (g : α → LProg ν φ η σ β) :
    (p.bind g).erase = p.erase.bind fun a => (g a).erase := by
  induction p with
  | done a => rfl
  | world f k ih => exact congrArg (Prog.step _) (funext fun s => ih _)
  | read l k ih => exact congrArg (Prog.step _) (funext fun s => ih _)
  | write l sec k ih => exact congrArg (Prog.step _) (funext fun s => ih _)

end LProg

/-- Programs that may end early with an error or a fault. -/
def LM (ν φ η σ ε α : Type) := LProg ν φ η σ (Outcome ε α)

namespace LM

/-- Going on after a successful program. -/
def andThen (f : α → LM ν φ η σ ε β) : Outcome ε α → LM ν φ η σ ε β
  | .ok a => f a
  | .err e => LProg.done (.err e)
  | .fault f => LProg.done (.fault f)

instance : Monad (LM ν φ η σ ε) where
  pure a := LProg.done (.ok a)
  bind x f := LProg.bind x (andThen f)

/-- The program with atomic critical sections. -/
def erase (p : LM ν φ η σ ε α) : VfsM ν φ η σ ε α := LProg.erase p

/-- An unchecked operation. -/
def ofFault : Except Fault α → LM ν φ η σ ε α
  | .ok a => LProg.done (.ok a)
  | .error f => LProg.done (.fault f)

/-- Decoding a request with `try_from(request)?`. -/
def decoded : Res α → LM ν φ η σ ε α
  | .ok a => LProg.done (.ok a)
  | .error (.req e) => LProg.done (.err (.request e))
  | .error (.fault f) => LProg.done (.fault f)

/-- A call of user code with no lock held. -/
def call (f : σ → α × σ) : LM ν φ η σ ε α :=
  LProg.world (fun w => (f w).2) fun w => LProg.done (.ok (f w).1)

/-- A look at the map protected by `l`: `let guard = lock.read().unwrap();`, a lookup whose result is cloned,
and dropping the guard. -/
def reading (l : Lck) (f : Mem ν φ η l → α) : LM ν φ η σ ε α :=
  LProg.read l fun m => LProg.done (.ok (f m))

/-- A critical section: `let guard = lock.write().unwrap();` and dropping the guard at its end. -/
def writing (l : Lck) (sec : Sec (Mem ν φ η l) σ α) : LM ν φ η σ ε α :=
  LProg.write l sec fun
    | .ok a => LProg.done (.ok a)
    | .error f => LProg.done (.fault f)

end LM

/-! ## The critical sections -/

namespace NodeMap

/-- `NodeMap::add`, fuse-vfs/fuse-vfs.rs:948-958: finding the entry and writing it are separate accesses. -/
def addSec (id : NodeId) (node : ν) : Sec (NodeMap ν) σ Unit :=
  .step (fun m => m) fun m =>
    match m id with
    | some entry =>
      if entry.lookupCount.toNat + 1 < 2 ^ 64 then
        .step (fun m => m.insert id { entry with lookupCount := entry.lookupCount + 1 }) fun _ => .done (.ok ())
      else .done (.error .panic)
    | none => .step (fun m => m.insert id ⟨node, 1⟩) fun _ => .done (.ok ())

/-- `NodeMap::forget`, fuse-vfs/fuse-vfs.rs:967-977. -/
def forgetSec : List ForgetItem → Sec (NodeMap ν) σ Unit
  | [] => .done (.ok ())
  | item :: items =>
    .step (fun m => m) fun m =>
      match m item.nodeId with
      | some entry =>
        if satPred entry.lookupCount = 0 then
          .step (fun m => m.remove item.nodeId) fun _ => forgetSec items
        else
          .step (fun m => m.insert item.nodeId { entry with lookupCount := satPred entry.lookupCount })
            fun _ => forgetSec items
      | none => forgetSec items

end NodeMap

namespace HandlesMap

/-- `HandlesMap::open_file`, fuse-vfs/fuse-vfs.rs:1009-1014. -/
def openFileSec (h : φ) : Sec (HandlesMap φ η) σ UInt64 :=
  .step (fun m => m) fun m =>
    if m.nextHandleId.toNat + 1 < 2 ^ 64 then
      .step (fun m => { m with nextHandleId := m.nextHandleId + 1 }) fun _ =>
        .step (fun m' => { m' with openFiles := fun i => if i = m.nextHandleId then some h else m'.openFiles i })
          fun _ => .done (.ok m.nextHandleId)
    else .done (.error .panic)

/-- `HandlesMap::open_dir`, fuse-vfs/fuse-vfs.rs:1016-1021. -/
def openDirSec (h : η) : Sec (HandlesMap φ η) σ UInt64 :=
  .step (fun m => m) fun m =>
    if m.nextHandleId.toNat + 1 < 2 ^ 64 then
      .step (fun m => { m with nextHandleId := m.nextHandleId + 1 }) fun _ =>
        .step (fun m' => { m' with openDirs := fun i => if i = m.nextHandleId then some h else m'.openDirs i })
          fun _ => .done (.ok m.nextHandleId)
    else .done (.error .panic)

end HandlesMap

/-! ## The handlers -/

namespace Filesystem.Locked

variable (fs : Filesystem ν φ η σ ε)

/-- The replies: `Ok(send_reply.err(err)?)` and the like; no lock is held. -/
def reply (id : NonZeroU64)
    (method : FuseReplySender σ ε → σ → Except (SendError ε) Unit × σ) : LM ν φ η σ ε Unit :=
  LProg.world (fun w => (method (FuseReplySender.new fs.sock fs.layout id) w).2) fun w =>
    LProg.done (match (method (FuseReplySender.new fs.sock fs.layout id) w).1 with
      | .ok () => .ok ()
      | .error e => .err (.send e))

/-- `self.nodes.get(id)`, fuse-vfs/fuse-vfs.rs:980-987. -/
def nodesGet (id : NodeId) : LM ν φ η σ ε (Except FuseError ν) :=
  LM.reading .nodes fun m => NodeMap.get fs.os m id

/-- `self.nodes.add(id, node)`, fuse-vfs/fuse-vfs.rs:943-959. -/
def nodesAdd (id : NodeId) (node : ν) : LM ν φ η σ ε Unit := LM.writing .nodes (NodeMap.addSec id node)

/-- `self.nodes.forget(items)`, fuse-vfs/fuse-vfs.rs:961-978. -/
def nodesForget (items : List ForgetItem) : LM ν φ η σ ε Unit := LM.writing .nodes (NodeMap.forgetSec items)

/-- `handles.get_file(..).cloned()`, fuse-vfs/fuse-vfs.rs:710-714 and 895-899. -/
def getFile (nodeId : NodeId) (handle : UInt64) : LM ν φ η σ ε (Except FuseError φ) :=
  LM.reading .handles fun m => HandlesMap.getFile fs.os m nodeId handle

/-- `handles.get_dir(..).cloned()`, fuse-vfs/fuse-vfs.rs:739-743 and 767-771. -/
def getDir (nodeId : NodeId) (handle : UInt64) : LM ν φ η σ ε (Except FuseError η) :=
  LM.reading .handles fun m => HandlesMap.getDir fs.os m nodeId handle

/-- The critical section of `Filesystem::release`, fuse-vfs/fuse-vfs.rs:820-834: the user's `release` method is
called with the lock held. -/
def releaseSec (header : FuseInHeader) (request : ReleaseRequest) (nodeId : NodeId) (handle : UInt64) :
    Sec (HandlesMap φ η) σ (Except FuseError Unit) :=
  .step (fun m => m) fun m =>
    match m.getFile fs.os nodeId handle with
    | .error e => .done (.ok (.error e))
    | .ok h =>
      .call (fun w => (fs.impl.release h header request w).2) fun w =>
        match (fs.impl.release h header request w).1 with
        | .error e => .done (.ok (.error e))
        | .ok () => .step (fun m => m.closeFile nodeId handle) fun _ => .done (.ok (.ok ()))

/-- The critical section of `Filesystem::releasedir`, fuse-vfs/fuse-vfs.rs:848-862. -/
def releasedirSec (header : FuseInHeader) (request : ReleasedirRequest) (nodeId : NodeId) (handle : UInt64) :
    Sec (HandlesMap φ η) σ (Except FuseError Unit) :=
  .step (fun m => m) fun m =>
    match m.getDir fs.os nodeId handle with
    | .error e => .done (.ok (.error e))
    | .ok h =>
      .call (fun w => (fs.impl.releasedir h header request w).2) fun w =>
        match (fs.impl.releasedir h header request w).1 with
        | .error e => .done (.ok (.error e))
        | .ok () => .step (fun m => m.closeDir nodeId handle) fun _ => .done (.ok (.ok ()))

/-- `Filesystem::forget`, fuse-vfs/fuse-vfs.rs:515-522. -/
def forget (r : Request) : LM ν φ η σ ε Unit := do
  let request ← LM.decoded (r.decode (decodeForget fs.checks))
  nodesForget request.items

/-- `Filesystem::getattr`, fuse-vfs/fuse-vfs.rs:524-549. -/
def getattr (r : Request) : LM ν φ η σ ε Unit := do
  let (id, header) ← LM.ofFault (idAndHeader r)
  let request ← LM.decoded (r.decode (decodeGetattr fs.layout))
  let nodeId ← LM.ofFault request.nodeId
  match ← nodesGet fs nodeId with
  | .error e => reply fs id (·.err e)
  | .ok node =>
    match ← LM.call (fs.impl.getattr node header request) with
    | .error e => reply fs id (·.err e)
    | .ok result =>
      let valid := vfsSplitDuration result.cacheTimeout 0 0
      reply fs id (·.ok (.attr { attr := result.nodeAttr.raw, attr_valid := valid.1,
                                 attr_valid_nsec := valid.2 }))

/-- `Filesystem::getxattr`, fuse-vfs/fuse-vfs.rs:551-568. -/
def getxattr (r : Request) : LM ν φ η σ ε Unit := do
  let (id, header) ← LM.ofFault (idAndHeader r)
  let request ← LM.decoded (r.decode decodeGetxattr)
  let nodeId ← LM.ofFault request.nodeId
  match ← nodesGet fs nodeId with
  | .error e => reply fs id (·.err e)
  | .ok node =>
    match ← LM.call (fs.impl.getxattr node header request) with
    | .error e => reply fs id (·.err e)
    | .ok buf => reply fs id (·.okBuf buf)

/-- `Filesystem::listxattr`, fuse-vfs/fuse-vfs.rs:570-587. -/
def listxattr (r : Request) : LM ν φ η σ ε Unit := do
  let (id, header) ← LM.ofFault (idAndHeader r)
  let request ← LM.decoded (r.decode decodeListxattr)
  let nodeId ← LM.ofFault request.nodeId
  match ← nodesGet fs nodeId with
  | .error e => reply fs id (·.err e)
  | .ok node =>
    match ← LM.call (fs.impl.listxattr node header request) with
    | .error e => reply fs id (·.err e)
    | .ok buf => reply fs id (·.okBuf buf)

/-- `Filesystem::lookup`, fuse-vfs/fuse-vfs.rs:589-634: the reply is sent before the node is added. -/
def lookup (r : Request) : LM ν φ η σ ε Unit := do
  let (id, header) ← LM.ofFault (idAndHeader r)
  let request ← LM.decoded (r.decode decodeLookup)
  match ← nodesGet fs request.parentId with
  | .error e => reply fs id (·.err e)
  | .ok parent =>
    match ← LM.call (fs.impl.asDirectory parent) with
    | none => reply fs id (·.err fs.os.notDirectory)
    | some dir =>
      match ← LM.call (fs.impl.lookup dir header request) with
      | .error e => reply fs id (·.err e)
      | .ok result =>
        match result.node with
        | some (node, attr) => do
          let nodeId ← LM.ofFault attr.nodeId
          reply fs id (·.ok (.entryOut (lookupEntry result)))
          nodesAdd nodeId node
        | none => reply fs id (·.ok (.entryOut (lookupEntry result)))

/-- `Filesystem::open`, fuse-vfs/fuse-vfs.rs:636-666. -/
def open_ (r : Request) : LM ν φ η σ ε Unit := do
  let (id, header) ← LM.ofFault (idAndHeader r)
  let request ← LM.decoded (r.decode (decodeOpen false))
  match ← nodesGet fs request.nodeId with
  | .error e => reply fs id (·.err e)
  | .ok node =>
    match ← LM.call (fs.impl.asFile node) with
    | none => reply fs id (·.err fs.os.notSupported)
    | some file =>
      match ← LM.call (fs.impl.open_ file header request) with
      | .error e => reply fs id (·.err e)
      | .ok result => do
        let handleId ← LM.writing .handles (HandlesMap.openFileSec result.handle)
        reply fs id (·.ok (.open_ { fh := handleId, open_flags := result.openFlags }))

/-- `Filesystem::opendir`, fuse-vfs/fuse-vfs.rs:668-700. -/
def opendir (r : Request) : LM ν φ η σ ε Unit := do
  let (id, header) ← LM.ofFault (idAndHeader r)
  let request ← LM.decoded (r.decode decodeOpendir)
  let nodeId ← LM.ofFault request.nodeId
  match ← nodesGet fs nodeId with
  | .error e => reply fs id (·.err e)
  | .ok node =>
    match ← LM.call (fs.impl.asDirectory node) with
    | none => reply fs id (·.err fs.os.notDirectory)
    | some dir =>
      match ← LM.call (fs.impl.opendir dir header request) with
      | .error e => reply fs id (·.err e)
      | .ok result => do
        let handleId ← LM.writing .handles (HandlesMap.openDirSec result.handle)
        reply fs id (·.ok (.open_ { fh := handleId, open_flags := result.openFlags }))

/-- `Filesystem::read`, fuse-vfs/fuse-vfs.rs:702-729. -/
def read (r : Request) : LM ν φ η σ ε Unit := do
  let (id, header) ← LM.ofFault (idAndHeader r)
  let request ← LM.decoded (r.decode (decodeRead fs.layout.minor false))
  let handle ← LM.ofFault request.handle
  match ← getFile fs request.nodeId handle with
  | .error e => reply fs id (·.err e)
  | .ok fileHandle =>
    match ← LM.call (fs.impl.asReadHandle fileHandle) with
    | none => reply fs id (·.err fs.os.notSupported)
    | some h =>
      match ← LM.call (fs.impl.read h header request) with
      | .error e => reply fs id (·.err e)
      | .ok data => reply fs id (·.okBuf data)

/-- `Filesystem::readdir`, fuse-vfs/fuse-vfs.rs:731-757. -/
def readdir (r : Request) : LM ν φ η σ ε Unit := do
  let (id, header) ← LM.ofFault (idAndHeader r)
  let request ← LM.decoded (r.decode (decodeReaddir fs.layout))
  let nodeId ← LM.ofFault request.nodeId
  let handle ← LM.ofFault request.handle
  match ← getDir fs nodeId handle with
  | .error e => reply fs id (·.err e)
  | .ok dirHandle =>
    match ← LM.call (fs.impl.asReaddirHandle dirHandle) with
    | none => reply fs id (·.err fs.os.notSupported)
    | some h =>
      match ← LM.call (fs.impl.readdir h header request) with
      | .error e => reply fs id (·.err e)
      | .ok entries => reply fs id (·.okBuf entries)

/-- `Filesystem::readdirplus`, fuse-vfs/fuse-vfs.rs:759-785. -/
def readdirplus (r : Request) : LM ν φ η σ ε Unit := do
  let (id, header) ← LM.ofFault (idAndHeader r)
  let request ← LM.decoded (r.decode (decodeReaddirplus fs.layout))
  let nodeId ← LM.ofFault request.nodeId
  let handle ← LM.ofFault request.handle
  match ← getDir fs nodeId handle with
  | .error e => reply fs id (·.err e)
  | .ok dirHandle =>
    match ← LM.call (fs.impl.asReaddirplusHandle dirHandle) with
    | none => reply fs id (·.err fs.os.notSupported)
    | some h =>
      match ← LM.call (fs.impl.readdirplus h header request) with
      | .error e => reply fs id (·.err e)
      | .ok entries => reply fs id (·.okBuf entries)

/-- `Filesystem::readlink`, fuse-vfs/fuse-vfs.rs:787-808. -/
def readlink (r : Request) : LM ν φ η σ ε Unit := do
  let (id, header) ← LM.ofFault (idAndHeader r)
  let request ← LM.decoded (r.decode decodeReadlink)
  match ← nodesGet fs request.nodeId with
  | .error e => reply fs id (·.err e)
  | .ok node =>
    match ← LM.call (fs.impl.asSymlink node) with
    | none => reply fs id (·.err fs.os.notSupported)
    | some symlink =>
      match ← LM.call (fs.impl.readlink symlink header request) with
      | .error e => reply fs id (·.err e)
      | .ok target => reply fs id (·.okBuf target.bytes)

/-- `Filesystem::release`, fuse-vfs/fuse-vfs.rs:810-836. -/
def release (r : Request) : LM ν φ η σ ε Unit := do
  let (id, header) ← LM.ofFault (idAndHeader r)
  let request ← LM.decoded (r.decode (decodeRelease fs.layout.minor false))
  let handle ← LM.ofFault request.handle
  match ← LM.writing .handles (releaseSec fs header request request.nodeId handle) with
  | .error e => reply fs id (·.err e)
  | .ok () => reply fs id (·.okEmpty)

/-- `Filesystem::releasedir`, fuse-vfs/fuse-vfs.rs:838-864. -/
def releasedir (r : Request) : LM ν φ η σ ε Unit := do
  let (id, header) ← LM.ofFault (idAndHeader r)
  let request ← LM.decoded (r.decode (decodeReleasedir fs.layout))
  let nodeId ← LM.ofFault request.nodeId
  let handle ← LM.ofFault request.handle
  match ← LM.writing .handles (releasedirSec fs header request nodeId handle) with
  | .error e => reply fs id (·.err e)
  | .ok () => reply fs id (·.okEmpty)

/-- `Filesystem::statfs`, fuse-vfs/fuse-vfs.rs:866-885. -/
def statfs (r : Request) : LM ν φ η σ ε Unit := do
  let (id, header) ← LM.ofFault (idAndHeader r)
  let request ← LM.decoded (r.decode decodeStatfs)
  match ← nodesGet fs request.nodeId with
  | .error e => reply fs id (·.err e)
  | .ok node =>
    match ← LM.call (fs.impl.statfs node header request) with
    | .error e => reply fs id (·.err e)
    | .ok st => reply fs id (·.ok (.statfs { st := st }))

/-- `Filesystem::write`, fuse-vfs/fuse-vfs.rs:887-915. -/
def write (r : Request) : LM ν φ η σ ε Unit := do
  let (id, header) ← LM.ofFault (idAndHeader r)
  let request ← LM.decoded (r.decode (decodeWrite fs.layout.minor false))
  let nodeId ← LM.ofFault request.nodeId
  let handle ← LM.ofFault request.handle
  match ← getFile fs nodeId handle with
  | .error e => reply fs id (·.err e)
  | .ok fileHandle =>
    match ← LM.call (fs.impl.asWriteHandle fileHandle) with
    | none => reply fs id (·.err fs.os.notSupported)
    | some h =>
      match ← LM.call (fs.impl.write h header request) with
      | .error e => reply fs id (·.err e)
      | .ok size => reply fs id (·.ok (.write { size := size }))

/-- The handler chosen by `Filesystem::dispatch`, fuse-vfs/fuse-vfs.rs:484-513. -/
def select (opcode : UInt32) (r : Request) : Option (LM ν φ η σ ε Unit) :=
  if opcode = FUSE_READ then some (read fs r)
  else if opcode = FUSE_WRITE then some (write fs r)
  else if opcode = FUSE_BATCH_FORGET then some (forget fs r)
  else if opcode = FUSE_FORGET then some (forget fs r)
  else if opcode = FUSE_GETATTR then some (getattr fs r)
  else if opcode = FUSE_GETXATTR then some (getxattr fs r)
  else if opcode = FUSE_LISTXATTR then some (listxattr fs r)
  else if opcode = FUSE_LOOKUP then some (lookup fs r)
  else if opcode = FUSE_OPEN then some (open_ fs r)
  else if opcode = FUSE_OPENDIR then some (opendir fs r)
  else if opcode = FUSE_READDIR then some (readdir fs r)
  else if opcode = FUSE_READDIRPLUS then some (readdirplus fs r)
  else if opcode = FUSE_READLINK then some (readlink fs r)
  else if opcode = FUSE_RELEASE then some (release fs r)
  else if opcode = FUSE_RELEASEDIR then some (releasedir fs r)
  else if opcode = FUSE_STATFS then some (statfs fs r)
  else none

/-- `Filesystem::dispatch`, fuse-vfs/fuse-vfs.rs:484-513. -/
def dispatch (r : Request) : LProg ν φ η σ (Option (Outcome ε Unit)) :=
  match r.rawHeader with
  | .error f => .done (some (.fault f))
  | .ok h =>
    match select fs h.opcode r with
    | none => .done none
    | some p => LProg.bind p fun out => .done (some out)

end Filesystem.Locked

end Fuse
