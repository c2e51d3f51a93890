import Verif.Dirent
import Verif.Requests
import Verif.MountCall
import Verif.Std

/-!
# The example filesystem (examples/helloworld/helloworld.rs)

The only complete program in the repository: one directory with one file.  Every `unwrap` of a failed
operation is `Fault.panic`.  `getuid` and `getgid` return the same values throughout.  Not modelled: the
FreeBSD variants of the error numbers, reading the command line, failing allocations.
-/

namespace Fuse

/-- `HELLO_WORLD`, examples/helloworld/helloworld.rs:30. -/
def HELLO_WORLD : Bytes := "Hello, world!\n".toUTF8.toList

/-- `HelloTxt::name`, examples/helloworld/helloworld.rs:35-37. -/
def helloName : Except Fault NodeName :=
  match NodeName.fromBytes "hello.txt".toUTF8.toList with
  | .ok name => .ok name
  | .error _ => .error .panic

/-- `HelloTxt::node_id`, examples/helloworld/helloworld.rs:39-41. -/
def helloNodeId : NodeId := ⟨100, by decide⟩

/-- The error numbers used by the example: `ENOSYS`, `ENOENT` and `EINVAL`, fuse/os/linux.rs:205, 220
and 245. -/
def helloUnimplemented : FuseError := ⟨-38, by decide⟩
/-- See `helloUnimplemented`. -/
def helloNotFound : FuseError := ⟨-2, by decide⟩
/-- See `helloUnimplemented`. -/
def helloInvalidArgument : FuseError := ⟨-22, by decide⟩

/-- What the handlers use: the connection (`HelloWorldFS`, examples/helloworld/helloworld.rs:54-56), the
process's user and group, and the address at which `vec![0u8; n]` allocates. -/
structure Hello (σ ε : Type) where
  sock : Socket σ ε
  layout : FuseLayout
  uid : UInt32
  gid : UInt32
  alloc : Nat → Nat

/-- A handler: it may panic, and changes the world. -/
abbrev HelloM (σ : Type) := ExceptT Fault (StateM σ)

namespace Hello

variable {σ ε : Type} (fs : Hello σ ε)

/-- An unchecked operation. -/
def checked {α : Type} (x : Except Fault α) : HelloM σ α := ExceptT.mk (pure x)

/-- `try_from(request).unwrap()`. -/
def decoded {α : Type} (x : Res α) : HelloM σ α :=
  match x with
  | .ok a => pure a
  | .error (.req _) => throw .panic
  | .error (.fault f) => throw f

/-- `request.id()`, fuse/server.rs:496-500. -/
def requestId (r : Request) : HelloM σ NonZeroU64 := checked do
  let h ← r.rawHeader
  h.requestId

/-- `send_reply.err(..).unwrap()` and the like, with `send_reply = self.conn.reply(id)`. -/
def reply (id : NonZeroU64)
    (method : FuseReplySender σ ε → σ → Except (SendError ε) Unit × σ) : HelloM σ Unit :=
  ExceptT.mk fun s =>
    match method (FuseReplySender.new fs.sock fs.layout id) s with
    | (.ok (), s) => (.ok (), s)
    | (.error _, s) => (.error .panic, s)

/-- `HelloTxt::set_attr`, examples/helloworld/helloworld.rs:43-49; `S_IFREG` is fuse/file_mode.rs:47. -/
def setAttr (a : NodeAttr) : NodeAttr :=
  ((((a.setUserId fs.uid).setGroupId fs.gid).setMode (FileType.regular.asMode.bitor 0o644)).setSize
    (UInt64.ofNat HELLO_WORLD.length)).setLinkCount 1

/-- `unimplemented`, examples/helloworld/helloworld.rs:63-65. -/
def unimplemented (r : Request) : HelloM σ Unit := do
  let id ← requestId r
  fs.reply id (·.err helloUnimplemented)

/-- `lookup`, examples/helloworld/helloworld.rs:67-84. -/
def lookup (r : Request) : HelloM σ Unit := do
  let id ← requestId r
  let request ← decoded (r.decode decodeLookup)
  if !request.parentId.isRoot then fs.reply id (·.err helloNotFound)
  else
    let name ← checked helloName
    if request.name ≠ name then fs.reply id (·.err helloNotFound)
    else
      let attr := fs.setAttr (NodeAttr.new helloNodeId)
      fs.reply id (·.ok (.entry (Entry.new attr)))

/-- `getattr`, examples/helloworld/helloworld.rs:86-112; `S_IFDIR` is fuse/file_mode.rs:38. -/
def getattr (r : Request) : HelloM σ Unit := do
  let id ← requestId r
  let request ← decoded (r.decode (decodeGetattr fs.layout))
  let nodeId ← checked request.nodeId
  let attr := NodeAttr.new nodeId
  if nodeId.isRoot then
    let attr := (((attr.setUserId fs.uid).setGroupId fs.gid).setMode
      (FileType.directory.asMode.bitor 0o755)).setLinkCount 2
    fs.reply id (·.ok (.attr { attr := attr.raw }))
  else if nodeId = helloNodeId then
    fs.reply id (·.ok (.attr { attr := (fs.setAttr attr).raw }))
  else fs.reply id (·.err helloNotFound)

/-- `open`, examples/helloworld/helloworld.rs:114-124. -/
def open_ (r : Request) : HelloM σ Unit := do
  let id ← requestId r
  let request ← decoded (r.decode (decodeOpen false))
  if request.nodeId ≠ helloNodeId then fs.reply id (·.err helloNotFound)
  else fs.reply id (·.ok (.open_ { fh := 1001 }))

/-- `read`, examples/helloworld/helloworld.rs:126-134. -/
def read (r : Request) : HelloM σ Unit := do
  let id ← requestId r
  let request ← decoded (r.decode (decodeRead fs.layout.versionMinor.toUInt32 false))
  let handle ← checked request.handle
  if handle ≠ 1001 then fs.reply id (·.err helloInvalidArgument)
  else fs.reply id (·.okBuf HELLO_WORLD)

/-- `opendir`, examples/helloworld/helloworld.rs:136-146. -/
def opendir (r : Request) : HelloM σ Unit := do
  let id ← requestId r
  let request ← decoded (r.decode decodeOpendir)
  let nodeId ← checked request.nodeId
  if !nodeId.isRoot then fs.reply id (·.err helloNotFound)
  else fs.reply id (·.ok (.open_ { fh := 1002 }))

/-- `readdir`, examples/helloworld/helloworld.rs:148-175. -/
def readdir (r : Request) : HelloM σ Unit := do
  let id ← requestId r
  let request ← decoded (r.decode (decodeReaddir fs.layout))
  let handle ← checked request.handle
  if handle ≠ 1002 then fs.reply id (·.err helloInvalidArgument)
  else
    let offset ← checked request.offset
    if offset.isSome then fs.reply id (·.okEmpty)
    else
      let size ← checked request.size
      let entries := DirWriter.new (fs.alloc size.toNat) (List.replicate size.toNat 0)
      let name ← checked helloName
      let entry := (ReaddirEntry.new helloNodeId name ⟨1, by decide⟩).setFileType .regular
      let (pushed, entries) ← checked (entries.tryPush entry)
      if !pushed then throw .panic
      else
        let buf ← checked entries.intoEntries
        fs.reply id (·.ok (.readdirEntries buf))

/-- `releasedir`, examples/helloworld/helloworld.rs:177-185. -/
def releasedir (r : Request) : HelloM σ Unit := do
  let id ← requestId r
  let request ← decoded (r.decode (decodeReleasedir fs.layout))
  let handle ← checked request.handle
  if handle ≠ 1002 then fs.reply id (·.err helloInvalidArgument)
  else fs.reply id (·.okEmpty)

/-- Running a handler on a world that is marked with the first panic, if any. -/
def run (h : HelloM σ Unit) (s : Option Fault × σ) : Option Fault × σ :=
  match h.run s.2 with
  | (.ok (), w) => (s.1, w)
  | (.error f, w) => (some (s.1.getD f), w)

/-- The implementation of `FuseHandlers`, examples/helloworld/helloworld.rs:58-186. -/
def handlers : Handlers FuseMethod (Option Fault × σ) where
  unimplemented r := run (fs.unimplemented r)
  overridden
    | .lookup => some fun r => run (fs.lookup r)
    | .getattr => some fun r => run (fs.getattr r)
    | .open_ => some fun r => run (fs.open_ r)
    | .read => some fun r => run (fs.read r)
    | .opendir => some fun r => run (fs.opendir r)
    | .readdir => some fun r => run (fs.readdir r)
    | .releasedir => some fun r => run (fs.releasedir r)
    | _ => none

/-- `handlers.dispatch(request)`; a panicking handler ends its thread. -/
def dispatch (r : Request) (s : σ) : Except Fault σ :=
  match fuseDispatch fs.handlers r (none, s) with
  | .error f => .error f
  | .ok (some f, _) => .error f
  | .ok (none, s) => .ok s

/-- What `fuse_std::serve_fuse(&conn, &handlers)` runs in each thread, examples/helloworld/helloworld.rs:232. -/
def service : Service σ ε where
  recv := fuseRecv fs.sock
  dispatch := fs.dispatch

end Hello

/-- The string `c"helloworld"` of examples/helloworld/helloworld.rs:202-203. -/
def helloCStr : CName := ⟨"helloworld".toUTF8.toList, by decide +kernel⟩

/-- `mount`, examples/helloworld/helloworld.rs:196-211, of the target given on the command line (226). -/
def helloMount {δ : Type} (sys : Sys δ) (uid gid : UInt32) (target : Bytes) (t : Libc.Thread δ) :
    Except Fault (DeviceSocket × Libc.Thread δ) := do
  if h : 0 ∈ target then throw .panic
  else
    match MountSource.new helloCStr, FuseSubtype.new helloCStr with
    | some source, some subtype =>
      let opts : MountOptions :=
        { mountSource := source, subtype := some subtype, userId := some uid, groupId := some gid }
      match ← Libc.mount sys ⟨target, h⟩ { opts := opts } t with
      | (.ok s, t) => return (s, t)
      | (.error _, _) => throw .panic
    | _, _ => throw .panic

end Fuse
