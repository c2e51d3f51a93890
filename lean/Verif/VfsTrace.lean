import Verif.Vfs
import Verif.PropReply
import Verif.PropRequest

/-!
# What the VFS handlers do, as traces of events

Every atomic step of a handler is described by an event (`VfsEv`), whose meaning in terms of the shared
state before and after the step is `VfsEv.Effect`.  `VfsTrace` lists, request by request, the sequences
of events a handler may go through; `dispatch_exec` shows that the model's handlers follow it under any
interference by other threads.
-/

namespace Fuse

variable {ν φ η σ ε : Type}

/-! ## Events -/

/-- What one atomic step of a handler does. -/
inductive VfsEv (ν φ η ε : Type)
  | gotNode (id : NodeId) (r : Option ν)
  | gotFile (fh : UInt64) (r : Option φ)
  | gotDir (fh : UInt64) (r : Option η)
  | asDirectory (v : ν) (r : Option ν)
  | asFile (v : ν) (r : Option ν)
  | asSymlink (v : ν) (r : Option ν)
  | asReaddir (h : η) (r : Option η)
  | asReaddirplus (h : η) (r : Option η)
  | asRead (h : φ) (r : Option φ)
  | asWrite (h : φ) (r : Option φ)
  | getattr (v : ν) (q : GetattrRequest) (r : Except FuseError GetattrResult)
  | getxattr (v : ν) (q : GetxattrRequest) (r : Except FuseError Bytes)
  | listxattr (v : ν) (q : ListxattrRequest) (r : Except FuseError Bytes)
  | statfs (v : ν) (q : StatfsRequest) (r : Except FuseError FuseKstatfs)
  | lookup (v : ν) (q : LookupRequest) (r : Except FuseError (LookupResult ν))
  | opendir (v : ν) (q : OpendirRequest) (r : Except FuseError (OpenResult η))
  | open_ (v : ν) (q : OpenRequest) (r : Except FuseError (OpenResult φ))
  | readlink (v : ν) (q : ReadlinkRequest) (r : Except FuseError CStr)
  | readdir (h : η) (q : ReaddirRequest) (r : Except FuseError Bytes)
  | readdirplus (h : η) (q : ReaddirplusRequest) (r : Except FuseError Bytes)
  | read (h : φ) (q : ReadRequest) (r : Except FuseError Bytes)
  | write (h : φ) (q : WriteRequest) (r : Except FuseError UInt32)
  | openedFile (fh : UInt64) (h : φ)
  | openedDir (fh : UInt64) (h : η)
  | handlesFull
  | releaseFailed (fh : UInt64) (h : φ) (q : ReleaseRequest) (e : FuseError)
  | released (fh : UInt64) (h : φ) (q : ReleaseRequest)
  | releasedirFailed (fh : UInt64) (h : η) (q : ReleasedirRequest) (e : FuseError)
  | releasedDir (fh : UInt64) (h : η) (q : ReleasedirRequest)
  | added (id : NodeId) (v : ν)
  | countFull (id : NodeId)
  | forgot (items : List ForgetItem)
  | sent (a : FuseAnswer) (r : Except (SendError ε) Unit)

/-- A call of user code: the result and the new world come from the method, the maps stay. -/
def Called {α : Type} (f : σ → α × σ) (a : α) (s s' : Vfs ν φ η σ) : Prop :=
  f s.world = (a, s'.world) ∧ s' = { s with world := s'.world }

/-- The meaning of an event of a thread handling the request with header `hdr`: `s` and `s'` are the states
before and after the step. -/
def VfsEv.Effect (fs : Filesystem ν φ η σ ε) (hdr : FuseInHeader) (s s' : Vfs ν φ η σ) :
    VfsEv ν φ η ε → Prop
  | .gotNode id r => (s.nodes id).map (·.node) = r ∧ s' = s
  | .gotFile fh r => s.handles.openFiles fh = r ∧ s' = s
  | .gotDir fh r => s.handles.openDirs fh = r ∧ s' = s
  | .asDirectory v r => Called (fs.impl.asDirectory v) r s s'
  | .asFile v r => Called (fs.impl.asFile v) r s s'
  | .asSymlink v r => Called (fs.impl.asSymlink v) r s s'
  | .asReaddir h r => Called (fs.impl.asReaddirHandle h) r s s'
  | .asReaddirplus h r => Called (fs.impl.asReaddirplusHandle h) r s s'
  | .asRead h r => Called (fs.impl.asReadHandle h) r s s'
  | .asWrite h r => Called (fs.impl.asWriteHandle h) r s s'
  | .getattr v q r => Called (fs.impl.getattr v hdr q) r s s'
  | .getxattr v q r => Called (fs.impl.getxattr v hdr q) r s s'
  | .listxattr v q r => Called (fs.impl.listxattr v hdr q) r s s'
  | .statfs v q r => Called (fs.impl.statfs v hdr q) r s s'
  | .lookup v q r => Called (fs.impl.lookup v hdr q) r s s'
  | .opendir v q r => Called (fs.impl.opendir v hdr q) r s s'
  | .open_ v q r => Called (fs.impl.open_ v hdr q) r s s'
  | .readlink v q r => Called (fs.impl.readlink v hdr q) r s s'
  | .readdir h q r => Called (fs.impl.readdir h hdr q) r s s'
  | .readdirplus h q r => Called (fs.impl.readdirplus h hdr q) r s s'
  | .read h q r => Called (fs.impl.read h hdr q) r s s'
  | .write h q r => Called (fs.impl.write h hdr q) r s s'
  | .openedFile fh h =>
    fh = s.handles.nextHandleId ∧ fh.toNat + 1 < 2 ^ 64 ∧
    s' = { s with handles := ⟨fh + 1, s.handles.openDirs,
                              fun i => if i = fh then some h else s.handles.openFiles i⟩ }
  | .openedDir fh h =>
    fh = s.handles.nextHandleId ∧ fh.toNat + 1 < 2 ^ 64 ∧
    s' = { s with handles := ⟨fh + 1, fun i => if i = fh then some h else s.handles.openDirs i,
                              s.handles.openFiles⟩ }
  | .handlesFull => s.handles.nextHandleId.toNat + 1 = 2 ^ 64 ∧ s' = s
  | .releaseFailed fh h q e =>
    s.handles.openFiles fh = some h ∧ Called (fs.impl.release h hdr q) (.error e) s s'
  | .released fh h q =>
    s.handles.openFiles fh = some h ∧ fs.impl.release h hdr q s.world = (.ok (), s'.world) ∧
    s' = { s with
      handles := { s.handles with openFiles := fun i => if i = fh then none else s.handles.openFiles i }
      world := s'.world }
  | .releasedirFailed fh h q e =>
    s.handles.openDirs fh = some h ∧ Called (fs.impl.releasedir h hdr q) (.error e) s s'
  | .releasedDir fh h q =>
    s.handles.openDirs fh = some h ∧ fs.impl.releasedir h hdr q s.world = (.ok (), s'.world) ∧
    s' = { s with
      handles := { s.handles with openDirs := fun i => if i = fh then none else s.handles.openDirs i }
      world := s'.world }
  | .added id v =>
    ∃ x : NodeLookup ν, s' = { s with nodes := fun i => if i = id then some x else s.nodes i } ∧
      match s.nodes id with
      | none => x = ⟨v, 1⟩
      | some y => x.node = y.node ∧ x.lookupCount.toNat = y.lookupCount.toNat + 1
  | .countFull id => (∃ y, s.nodes id = some y ∧ y.lookupCount.toNat + 1 = 2 ^ 64) ∧ s' = s
  | .forgot items => s' = { s with nodes := s.nodes.forget items }
  | .sent a r =>
    SendsOnce fs.sock hdr.unique a.error (a.payload fs.layout.versionMinor.toNat) s.world (r, s'.world) ∧
    s' = { s with world := s'.world }

/-- The events `evs` of a thread explain its steps `tr`. -/
inductive Explains (fs : Filesystem ν φ η σ ε) (hdr : FuseInHeader) :
    List (VfsEv ν φ η ε) → List (Vfs ν φ η σ × Vfs ν φ η σ) → Prop
  | nil : Explains fs hdr [] []
  | cons {e evs s s' tr} : e.Effect fs hdr s s' → Explains fs hdr evs tr →
      Explains fs hdr (e :: evs) ((s, s') :: tr)

/-! ## The traces of each request -/

/-- The request is about the node `id`. -/
def OnNode (id : NodeId) : AnyRequest → Prop
  | .getattr q => q.nodeId = .ok id
  | .getxattr q => q.nodeId = .ok id
  | .listxattr q => q.nodeId = .ok id
  | .statfs q => q.nodeId = id
  | .lookup q => q.parentId = id
  | .open_ q => q.nodeId = id
  | .opendir q => q.nodeId = .ok id
  | .readlink q => q.nodeId = id
  | _ => False

/-- The request is about the open file `fh`. -/
def OnFile (fh : UInt64) : AnyRequest → Prop
  | .read q => q.handle = .ok fh
  | .write q => q.handle = .ok fh
  | .release q => q.handle = .ok fh
  | _ => False

/-- The request is about the open directory `fh`. -/
def OnDir (fh : UInt64) : AnyRequest → Prop
  | .readdir q => q.handle = .ok fh
  | .readdirplus q => q.handle = .ok fh
  | .releasedir q => q.handle = .ok fh
  | _ => False

/-- What `dispatch` returns after sending a reply with the result `r`. -/
def afterSend : Except (SendError ε) Unit → Outcome ε Unit
  | .ok () => .ok ()
  | .error e => .err (.send e)

/-- A timeout as announced to the client: seconds and nanoseconds, at most `2^63 - 1` seconds. -/
def cappedTime (d : Duration) : UInt64 × UInt32 :=
  if d.secs.toNat < 2 ^ 63 then (d.secs, d.nanos) else (0x7FFFFFFFFFFFFFFF, 0)

theorem vfsSplitDuration_eq (d : Duration) : vfsSplitDuration d 0 0 = cappedTime d := by
  unfold vfsSplitDuration cappedTime
  by_cases h : d.secs = 0 ∧ d.nanos = 0
  · rw [if_pos h, h.1, h.2]
    rfl
  · rw [if_neg h]
    have h63 : (I64_MAX : UInt64).toNat = 2 ^ 63 - 1 := rfl
    by_cases hs : d.secs.toNat < 2 ^ 63
    · rw [if_pos hs, if_pos]
      rw [UInt64.le_iff_toNat_le, h63]
      omega
    · rw [if_neg hs, if_neg]
      rw [UInt64.le_iff_toNat_le, h63]
      omega

/-- The reply to GETATTR. -/
def attrReply (res : GetattrResult) : FuseAnswer :=
  .ok (.attr { attr := res.nodeAttr.raw
               attr_valid := (cappedTime res.cacheTimeout).1
               attr_valid_nsec := (cappedTime res.cacheTimeout).2 })

/-- The reply to a LOOKUP that found nothing: no node ID, only the time for which that may be cached. -/
def negativeEntry (res : LookupResult ν) : FuseAnswer :=
  .ok (.entryOut { entry_valid := (cappedTime res.entryCacheTimeout).1
                   entry_valid_nsec := (cappedTime res.entryCacheTimeout).2 })

/-- The reply to a LOOKUP that found a node. -/
def foundEntry (res : LookupResult ν) (attr : NodeAttr) : FuseAnswer :=
  .ok (.entryOut { nodeid := attr.raw.ino
                   generation := res.generation
                   attr := attr.raw
                   entry_valid := (cappedTime res.entryCacheTimeout).1
                   entry_valid_nsec := (cappedTime res.entryCacheTimeout).2
                   attr_valid := (cappedTime res.attrCacheTimeout).1
                   attr_valid_nsec := (cappedTime res.attrCacheTimeout).2 })

/-- The reply to OPEN and OPENDIR. -/
def openReply (fh : UInt64) (flags : UInt32) : FuseAnswer := .ok (.open_ { fh := fh, open_flags := flags })

/-- The complete traces of a decoded request: events, and the value returned by the handler. -/
inductive VfsTrace (fs : Filesystem ν φ η σ ε) : AnyRequest → List (VfsEv ν φ η ε) → Outcome ε Unit → Prop
  | noNode {q id} (r) : OnNode id q →
      VfsTrace fs q [.gotNode id none, .sent (.err fs.os.invalidArgument) r] (afterSend r)
  | noFile {q fh} (r) : OnFile fh q →
      VfsTrace fs q [.gotFile fh none, .sent (.err fs.os.invalidArgument) r] (afterSend r)
  | noDir {q fh} (r) : OnDir fh q →
      VfsTrace fs q [.gotDir fh none, .sent (.err fs.os.invalidArgument) r] (afterSend r)
  | getattrErr {q id} (v e r) : OnNode id (.getattr q) →
      VfsTrace fs (.getattr q) [.gotNode id (some v), .getattr v q (.error e), .sent (.err e) r] (afterSend r)
  | getattrOk {q id} (v res r) : OnNode id (.getattr q) →
      VfsTrace fs (.getattr q) [.gotNode id (some v), .getattr v q (.ok res), .sent (attrReply res) r] (afterSend r)
  | getxattrErr {q id} (v e r) : OnNode id (.getxattr q) →
      VfsTrace fs (.getxattr q) [.gotNode id (some v), .getxattr v q (.error e), .sent (.err e) r] (afterSend r)
  | getxattrOk {q id} (v res r) : OnNode id (.getxattr q) →
      VfsTrace fs (.getxattr q) [.gotNode id (some v), .getxattr v q (.ok res), .sent (.okBuf res) r] (afterSend r)
  | listxattrErr {q id} (v e r) : OnNode id (.listxattr q) →
      VfsTrace fs (.listxattr q) [.gotNode id (some v), .listxattr v q (.error e), .sent (.err e) r] (afterSend r)
  | listxattrOk {q id} (v res r) : OnNode id (.listxattr q) →
      VfsTrace fs (.listxattr q) [.gotNode id (some v), .listxattr v q (.ok res), .sent (.okBuf res) r] (afterSend r)
  | statfsErr {q id} (v e r) : OnNode id (.statfs q) →
      VfsTrace fs (.statfs q) [.gotNode id (some v), .statfs v q (.error e), .sent (.err e) r] (afterSend r)
  | statfsOk {q id} (v res r) : OnNode id (.statfs q) →
      VfsTrace fs (.statfs q) [.gotNode id (some v), .statfs v q (.ok res), .sent (.ok (.statfs { st := res })) r] (afterSend r)
  | lookupNot {q id} (v r) : OnNode id (.lookup q) →
      VfsTrace fs (.lookup q) [.gotNode id (some v), .asDirectory v none, .sent (.err fs.os.notDirectory) r] (afterSend r)
  | lookupErr {q id} (v d e r) : OnNode id (.lookup q) →
      VfsTrace fs (.lookup q) [.gotNode id (some v), .asDirectory v (some d), .lookup d q (.error e), .sent (.err e) r] (afterSend r)
  | lookupNone {q id} (v d res r) : OnNode id (.lookup q) → res.node = none →
      VfsTrace fs (.lookup q) [.gotNode id (some v), .asDirectory v (some d), .lookup d q (.ok res), .sent (negativeEntry res) r] (afterSend r)
  | lookupBad {q id} (v d res w attr) : OnNode id (.lookup q) → res.node = some (w, attr) → attr.raw.ino = 0 →
      VfsTrace fs (.lookup q) [.gotNode id (some v), .asDirectory v (some d), .lookup d q (.ok res)] (.fault .invalid)
  | lookupUnsent {q id} (v d res w attr e) : OnNode id (.lookup q) → res.node = some (w, attr) → attr.raw.ino ≠ 0 →
      VfsTrace fs (.lookup q) [.gotNode id (some v), .asDirectory v (some d), .lookup d q (.ok res), .sent (foundEntry res attr) (.error e)] (.err (.send e))
  | lookupFound {q id} (v d res w attr nid) : OnNode id (.lookup q) → res.node = some (w, attr) → nid.val = attr.raw.ino →
      VfsTrace fs (.lookup q) [.gotNode id (some v), .asDirectory v (some d), .lookup d q (.ok res), .sent (foundEntry res attr) (.ok ()), .added nid w] (.ok ())
  | lookupFull {q id} (v d res w attr nid) : OnNode id (.lookup q) → res.node = some (w, attr) → nid.val = attr.raw.ino →
      VfsTrace fs (.lookup q) [.gotNode id (some v), .asDirectory v (some d), .lookup d q (.ok res), .sent (foundEntry res attr) (.ok ()), .countFull nid] (.fault .panic)
  | open_Not {q id} (v r) : OnNode id (.open_ q) →
      VfsTrace fs (.open_ q) [.gotNode id (some v), .asFile v none, .sent (.err fs.os.notSupported) r] (afterSend r)
  | open_Err {q id} (v d e r) : OnNode id (.open_ q) →
      VfsTrace fs (.open_ q) [.gotNode id (some v), .asFile v (some d), .open_ d q (.error e), .sent (.err e) r] (afterSend r)
  | open_Ok {q id} (v d res fh r) : OnNode id (.open_ q) →
      VfsTrace fs (.open_ q) [.gotNode id (some v), .asFile v (some d), .open_ d q (.ok res), .openedFile fh res.handle, .sent (openReply fh res.openFlags) r] (afterSend r)
  | open_Full {q id} (v d res) : OnNode id (.open_ q) →
      VfsTrace fs (.open_ q) [.gotNode id (some v), .asFile v (some d), .open_ d q (.ok res), .handlesFull] (.fault .panic)
  | opendirNot {q id} (v r) : OnNode id (.opendir q) →
      VfsTrace fs (.opendir q) [.gotNode id (some v), .asDirectory v none, .sent (.err fs.os.notDirectory) r] (afterSend r)
  | opendirErr {q id} (v d e r) : OnNode id (.opendir q) →
      VfsTrace fs (.opendir q) [.gotNode id (some v), .asDirectory v (some d), .opendir d q (.error e), .sent (.err e) r] (afterSend r)
  | opendirOk {q id} (v d res fh r) : OnNode id (.opendir q) →
      VfsTrace fs (.opendir q) [.gotNode id (some v), .asDirectory v (some d), .opendir d q (.ok res), .openedDir fh res.handle, .sent (openReply fh res.openFlags) r] (afterSend r)
  | opendirFull {q id} (v d res) : OnNode id (.opendir q) →
      VfsTrace fs (.opendir q) [.gotNode id (some v), .asDirectory v (some d), .opendir d q (.ok res), .handlesFull] (.fault .panic)
  | readlinkNot {q id} (v r) : OnNode id (.readlink q) →
      VfsTrace fs (.readlink q) [.gotNode id (some v), .asSymlink v none, .sent (.err fs.os.notSupported) r] (afterSend r)
  | readlinkErr {q id} (v d e r) : OnNode id (.readlink q) →
      VfsTrace fs (.readlink q) [.gotNode id (some v), .asSymlink v (some d), .readlink d q (.error e), .sent (.err e) r] (afterSend r)
  | readlinkOk {q id} (v d res r) : OnNode id (.readlink q) →
      VfsTrace fs (.readlink q) [.gotNode id (some v), .asSymlink v (some d), .readlink d q (.ok res), .sent (.okBuf res.bytes) r] (afterSend r)
  | readNot {q fh} (v r) : OnFile fh (.read q) →
      VfsTrace fs (.read q) [.gotFile fh (some v), .asRead v none, .sent (.err fs.os.notSupported) r] (afterSend r)
  | readErr {q fh} (v d e r) : OnFile fh (.read q) →
      VfsTrace fs (.read q) [.gotFile fh (some v), .asRead v (some d), .read d q (.error e), .sent (.err e) r] (afterSend r)
  | readOk {q fh} (v d res r) : OnFile fh (.read q) →
      VfsTrace fs (.read q) [.gotFile fh (some v), .asRead v (some d), .read d q (.ok res), .sent (.okBuf res) r] (afterSend r)
  | writeNot {q fh} (v r) : OnFile fh (.write q) →
      VfsTrace fs (.write q) [.gotFile fh (some v), .asWrite v none, .sent (.err fs.os.notSupported) r] (afterSend r)
  | writeErr {q fh} (v d e r) : OnFile fh (.write q) →
      VfsTrace fs (.write q) [.gotFile fh (some v), .asWrite v (some d), .write d q (.error e), .sent (.err e) r] (afterSend r)
  | writeOk {q fh} (v d res r) : OnFile fh (.write q) →
      VfsTrace fs (.write q) [.gotFile fh (some v), .asWrite v (some d), .write d q (.ok res), .sent (.ok (.write { size := res })) r] (afterSend r)
  | readdirNot {q fh} (v r) : OnDir fh (.readdir q) →
      VfsTrace fs (.readdir q) [.gotDir fh (some v), .asReaddir v none, .sent (.err fs.os.notSupported) r] (afterSend r)
  | readdirErr {q fh} (v d e r) : OnDir fh (.readdir q) →
      VfsTrace fs (.readdir q) [.gotDir fh (some v), .asReaddir v (some d), .readdir d q (.error e), .sent (.err e) r] (afterSend r)
  | readdirOk {q fh} (v d res r) : OnDir fh (.readdir q) →
      VfsTrace fs (.readdir q) [.gotDir fh (some v), .asReaddir v (some d), .readdir d q (.ok res), .sent (.okBuf res) r] (afterSend r)
  | readdirplusNot {q fh} (v r) : OnDir fh (.readdirplus q) →
      VfsTrace fs (.readdirplus q) [.gotDir fh (some v), .asReaddirplus v none, .sent (.err fs.os.notSupported) r] (afterSend r)
  | readdirplusErr {q fh} (v d e r) : OnDir fh (.readdirplus q) →
      VfsTrace fs (.readdirplus q) [.gotDir fh (some v), .asReaddirplus v (some d), .readdirplus d q (.error e), .sent (.err e) r] (afterSend r)
  | readdirplusOk {q fh} (v d res r) : OnDir fh (.readdirplus q) →
      VfsTrace fs (.readdirplus q) [.gotDir fh (some v), .asReaddirplus v (some d), .readdirplus d q (.ok res), .sent (.okBuf res) r] (afterSend r)
  | releaseErr {q fh} (v e r) : OnFile fh (.release q) →
      VfsTrace fs (.release q) [.releaseFailed fh v q e, .sent (.err e) r] (afterSend r)
  | releaseOk {q fh} (v r) : OnFile fh (.release q) →
      VfsTrace fs (.release q) [.released fh v q, .sent .okEmpty r] (afterSend r)
  | releasedirErr {q fh} (v e r) : OnDir fh (.releasedir q) →
      VfsTrace fs (.releasedir q) [.releasedirFailed fh v q e, .sent (.err e) r] (afterSend r)
  | releasedirOk {q fh} (v r) : OnDir fh (.releasedir q) →
      VfsTrace fs (.releasedir q) [.releasedDir fh v q, .sent .okEmpty r] (afterSend r)
  | forget (q) : VfsTrace fs (.forget q) [.forgot q.items] (.ok ())

/-- The request type `dispatch` decodes for an opcode. -/
def vfsRequestType (layout : FuseLayout) (checks : Bool) (opcode : Nat) : Option ReqType :=
  match opcode with
  | 1 => some .lookup
  | 2 => some (.forget checks)
  | 3 => some (.getattr layout)
  | 5 => some .readlink
  | 14 => some (.open_ false)
  | 15 => some (.read layout.minor false)
  | 16 => some (.write layout.minor false)
  | 17 => some .statfs
  | 18 => some (.release layout.minor false)
  | 22 => some .getxattr
  | 23 => some .listxattr
  | 27 => some .opendir
  | 28 => some (.readdir layout)
  | 29 => some (.releasedir layout)
  | 42 => some (.forget checks)
  | 44 => some (.readdirplus layout)
  | _ => none

/-- The complete traces of `dispatch` on the request `r` with header `hdr`. -/
inductive DispatchTrace (fs : Filesystem ν φ η σ ε) (r : Request) (hdr : FuseInHeader) :
    List (VfsEv ν φ η ε) → Option (Outcome ε Unit) → Prop
  | unsupported : vfsRequestType fs.layout fs.checks hdr.opcode.toNat = none → DispatchTrace fs r hdr [] none
  | malformed {t e} : vfsRequestType fs.layout fs.checks hdr.opcode.toNat = some t →
      r.decode (decodeAny t) = .error (.req e) → DispatchTrace fs r hdr [] (some (.err (.request e)))
  | broken {t f} : vfsRequestType fs.layout fs.checks hdr.opcode.toNat = some t →
      ((∃ f, r.decode (decodeAny t) = .error (.fault f)) ∨
        ∃ a, r.decode (decodeAny t) = .ok a ∧ ¬ a.AccessorsReturn) →
      DispatchTrace fs r hdr [] (some (.fault f))
  | handled {t q evs out} : vfsRequestType fs.layout fs.checks hdr.opcode.toNat = some t →
      r.decode (decodeAny t) = .ok q → VfsTrace fs q evs out → DispatchTrace fs r hdr evs (some out)

/-! ## Programs and traces -/

/-- Every execution of `p`, whatever happens between its steps, is explained by events allowed by `P`. -/
def Sat (fs : Filesystem ν φ η σ ε) (hdr : FuseInHeader) {α : Type} :
    Prog (Vfs ν φ η σ) α → (List (VfsEv ν φ η ε) → α → Prop) → Prop
  | .done a, P => P [] a
  | .step f k, P => ∀ s, ∃ e : VfsEv ν φ η ε, e.Effect fs hdr s (f s) ∧
      Sat fs hdr (k s) fun evs a => P (e :: evs) a

section
variable {fs : Filesystem ν φ η σ ε} {hdr : FuseInHeader} {α β : Type}

theorem Sat.mono {p : Prog (Vfs ν φ η σ) α} {P Q : List (VfsEv ν φ η ε) → α → Prop}
    (h : Sat fs hdr p P) (hpq : ∀ evs a, P evs a → Q evs a) : Sat fs hdr p Q := by
  induction p generalizing P Q with
  | done a => exact hpq _ _ h
  | step f k ih =>
    intro s
    obtain ⟨e, h1, h2⟩ := h s
    exact ⟨e, h1, ih s h2 fun evs a => hpq _ _⟩

theorem Sat.bind {p : Prog (Vfs ν φ η σ) α} {g : α → Prog (Vfs ν φ η σ) β}
    {P : List (VfsEv ν φ η ε) → β → Prop}
    (h : Sat fs hdr p fun evs a => Sat fs hdr (g a) fun evs' b => P (evs ++ evs') b) :
    Sat fs hdr (p.bind g) P := by
  induction p generalizing P with
  | done a => exact h
  | step f k ih =>
    intro s
    obtain ⟨e, h1, h2⟩ := h s
    exact ⟨e, h1, ih s h2⟩

theorem Sat.act {f : Vfs ν φ η σ → α × Vfs ν φ η σ} {P : List (VfsEv ν φ η ε) → α → Prop}
    (h : ∀ s, ∃ e : VfsEv ν φ η ε, e.Effect fs hdr s (f s).2 ∧ P [e] (f s).1) :
    Sat fs hdr (Prog.act f) P := h

/-- A partial execution is explained by a prefix of an allowed trace. -/
theorem Sat.partial {p q : Prog (Vfs ν φ η σ) α} {tr} {P : List (VfsEv ν φ η ε) → α → Prop}
    (h : Sat fs hdr p P) (hp : p.Partial tr q) :
    ∃ evs, Explains fs hdr evs tr ∧ Sat fs hdr q fun evs' a => P (evs ++ evs') a := by
  induction hp generalizing P with
  | nil p => exact ⟨[], .nil, h⟩
  | cons s _ ih =>
    obtain ⟨e, h1, h2⟩ := h s
    obtain ⟨evs, h3, h4⟩ := ih h2
    exact ⟨e :: evs, .cons h1 h3, h4⟩

theorem Sat.exec {p : Prog (Vfs ν φ η σ) α} {tr a} {P : List (VfsEv ν φ η ε) → α → Prop}
    (h : Sat fs hdr p P) (hp : p.Exec tr a) : ∃ evs, Explains fs hdr evs tr ∧ P evs a := by
  obtain ⟨evs, h1, h2⟩ := h.partial hp
  have h3 : P (evs ++ []) a := h2
  rw [List.append_nil] at h3
  exact ⟨evs, h1, h3⟩

/-- A program can always be completed. -/
theorem Sat.complete {p : Prog (Vfs ν φ η σ) α} {P : List (VfsEv ν φ η ε) → α → Prop}
    (s : Vfs ν φ η σ) (h : Sat fs hdr p P) : ∃ evs a, P evs a := by
  induction p generalizing P with
  | done a => exact ⟨_, _, h⟩
  | step f k ih =>
    obtain ⟨e, h1, h2⟩ := h s
    obtain ⟨evs, a, h3⟩ := ih s h2
    exact ⟨_, _, h3⟩

end

end Fuse
