import Verif.PropStack
import Verif.PropServe
import Verif.PropDirent
import Verif.PropXattr
import Verif.Ioctl

/-!
# A filesystem by its operations

The operations of the protocol with what they mean, as a caller and a filesystem would state them to each other
directly; how a client says them in messages and reads the replies; and how a server with the trait `FuseHandlers`
takes requests apart with the accessors of the request types, and replies with the response types.
-/

namespace Fuse

namespace Spec

/-! ## Operations and answers -/

/-- Who asks. -/
structure Caller where
  uid : UInt32
  gid : UInt32
  pid : UInt32
deriving DecidableEq, Repr

/-- What is to be changed about a file. -/
structure Changes where
  mode : Option UInt32 := none
  uid : Option UInt32 := none
  gid : Option UInt32 := none
  size : Option UInt64 := none
  atime : Option UnixTime := none
  mtime : Option UnixTime := none
  ctime : Option UnixTime := none
  atimeNow : Bool := false
  mtimeNow : Bool := false
  fh : Option UInt64 := none
  owner : Option UInt64 := none
deriving DecidableEq, Repr

/-- The bytes a lock is about: `length` of them from `start` on, or all. -/
structure Span where
  start : UInt64
  length : Option NonZeroU64
deriving DecidableEq, Repr

/-- An operation.  `fh` is always a file handle, `owner` a lock owner. -/
inductive Op
  | access (node : NodeId) (mask : UInt32)
  | bmap (node : NodeId) (block : UInt64) (blockSize : UInt32)
  | copyFileRange (node : NodeId) (fh off : UInt64) (outNode : NodeId) (outFh outOff len flags : UInt64)
  | create (parent : NodeId) (name : Bytes) (openFlags flags mode umask : UInt32)
  | fallocate (node : NodeId) (fh offset length : UInt64) (mode : UInt32)
  | flush (node : NodeId) (fh owner : UInt64)
  | forget (items : List (NodeId × UInt64))
  | fsync (node : NodeId) (fh : UInt64) (flags : UInt32)
  | fsyncdir (node : NodeId) (fh : UInt64) (flags : UInt32)
  | getattr (node : NodeId) (fh : Option UInt64)
  | getlk (node : NodeId) (fh owner : UInt64) (mode : UInt32) (span : Span)
  | setlk (node : NodeId) (fh owner : UInt64) (flags : UInt32) (wait : Bool) (mode : UInt32) (span : Span) (pid : UInt32)
  | getxattr (node : NodeId) (name : Bytes) (size : UInt32)
  | listxattr (node : NodeId) (size : UInt32)
  | removexattr (node : NodeId) (name : Bytes)
  | setxattr (node : NodeId) (name value : Bytes) (flags extFlags : UInt32)
  | interrupt (id : NonZeroU64)
  | ioctl (node : NodeId) (fh : UInt64) (cmd : UInt32) (arg : UInt64) (flags : UInt32) (input : Bytes) (outSize : UInt32)
  | link (node parent : NodeId) (name : Bytes)
  | lookup (parent : NodeId) (name : Bytes)
  | lseek (node : NodeId) (fh offset : UInt64) (whence : UInt32)
  | mkdir (parent : NodeId) (name : Bytes) (mode umask : UInt32)
  | mknod (parent : NodeId) (name : Bytes) (mode umask : UInt32) (device : Option UInt32)
  | open_ (node : NodeId) (openFlags flags : UInt32)
  | opendir (node : NodeId) (openFlags flags : UInt32)
  | poll (node : NodeId) (handle : UInt64) (events flags : UInt32)
  | read (node : NodeId) (fh offset : UInt64) (size : UInt32) (owner : Option UInt64) (openFlags : UInt32)
  | readdir (node : NodeId) (fh offset : UInt64) (size openFlags : UInt32)
  | readdirplus (node : NodeId) (fh offset : UInt64) (size openFlags : UInt32)
  | readlink (node : NodeId)
  | release (node : NodeId) (fh : UInt64) (openFlags : UInt32) (owner : Option UInt64)
  | releasedir (node : NodeId) (fh : UInt64) (openFlags : UInt32) (owner : Option UInt64)
  | rename (parent : NodeId) (name : Bytes) (newParent : NodeId) (newName : Bytes) (flags : UInt32)
  | rmdir (parent : NodeId) (name : Bytes)
  | setattr (node : NodeId) (changes : Changes)
  | statfs (node : NodeId)
  | symlink (parent : NodeId) (name content : Bytes)
  | unlink (parent : NodeId) (name : Bytes)
  | write (node : NodeId) (fh offset : UInt64) (data : Bytes) (flags : UInt32) (owner : Option UInt64) (openFlags : UInt32)
deriving DecidableEq

/-- What there is to know about a file. -/
structure Info where
  node : NodeId
  mode : UInt32 := 0
  size : UInt64 := 0
  blocks : UInt64 := 0
  atime : UnixTime := ⟨0, 0⟩
  mtime : UnixTime := ⟨0, 0⟩
  ctime : UnixTime := ⟨0, 0⟩
  nlink : UInt32 := 0
  uid : UInt32 := 0
  gid : UInt32 := 0
  device : UInt32 := 0
  blockSize : UInt32 := 0
  submount : Bool := false
  dax : Bool := false
deriving DecidableEq, Repr

/-- A file found under a name, and for how long this and the rest may be relied upon. -/
structure Found where
  info : Info
  generation : UInt64
  timeout : Duration
  attrTimeout : Duration
deriving DecidableEq, Repr

/-- An entry of a directory. -/
structure Item where
  node : NodeId
  offset : NonZeroU64
  type : Option FileType
  name : Bytes
deriving DecidableEq, Repr

/-- An entry of a directory, with what it leads to. -/
structure PlusItem where
  found : Found
  offset : NonZeroU64
  name : Bytes
deriving DecidableEq, Repr

/-- What an operation answers. -/
inductive Ans
  | error (e : FuseError)
  | done
  | data (b : Bytes)
  | items (l : List Item)
  | plusItems (l : List PlusItem)
  | names (l : List Bytes)
  /-- Found. -/
  | entry (f : Found)
  /-- Not found, which may be relied upon for some time. -/
  | absent (timeout : Duration)
  | attr (info : Info) (timeout : Duration)
  | created (f : Found) (fh : UInt64) (flags : UInt32)
  | opened (fh : UInt64) (flags : UInt32)
  | written (n : UInt32)
  | space (a : Space)
  | size (n : UInt32)
  | lock (type : UInt32) (start end_ : UInt64) (pid : UInt32)
  | position (n : UInt64)
  | polled (events : UInt32)
  | block (n : UInt64)
  | ioctl (result : Int32) (output : Bytes)
  /-- Nothing is answered. -/
  | silent
  /-- The client could not make sense of what it received. -/
  | broken
deriving DecidableEq

/-! ## The client -/

/-- A set bit, if there is something to say it about. -/
def flagIf (c : Bool) (bit : UInt32) : UInt32 := if c then bit else 0

/-- The mask of what is to be changed. -/
def Changes.mask (c : Changes) : UInt32 :=
  flagIf c.mode.isSome 1 ||| flagIf c.uid.isSome 2 ||| flagIf c.gid.isSome 4 ||| flagIf c.size.isSome 8 |||
    flagIf c.atime.isSome 16 ||| flagIf c.mtime.isSome 32 ||| flagIf c.fh.isSome 64 ||| flagIf c.atimeNow 128 |||
    flagIf c.mtimeNow 256 ||| flagIf c.owner.isSome 512 ||| flagIf c.ctime.isSome 1024

/-- Seconds of a time. -/
def secondsOf (t : Option UnixTime) : UInt64 := (t.getD ⟨0, 0⟩).seconds.toUInt64

/-- Nanoseconds of a time. -/
def nanosOf (t : Option UnixTime) : UInt32 := (t.getD ⟨0, 0⟩).nanos

/-- The last byte of a span. -/
def Span.last (s : Span) : UInt64 :=
  match s.length with
  | none => 0x7FFFFFFFFFFFFFFF
  | some n => s.start + n.val - 1

/-- The request for an operation, and the node in its header.  With the extension of SETXATTR requests have another
form. -/
def Op.request (ext : Bool) : Op → UInt64 × ClientReq
  | .access node mask => (node.val, .access { mask := mask })
  | .bmap node block blockSize => (node.val, .bmap { block := block, blocksize := blockSize })
  | .copyFileRange node fh off outNode outFh outOff len flags =>
    (node.val, .copyFileRange ⟨fh, off, outNode.val, outFh, outOff, len, flags⟩)
  | .create parent name openFlags flags mode umask => (parent.val, .create ⟨openFlags, mode, umask, flags⟩ name)
  | .fallocate node fh offset length mode => (node.val, .fallocate ⟨fh, offset, length, mode, 0⟩)
  | .flush node fh owner => (node.val, .flush ⟨fh, 0, 0, owner⟩)
  | .forget [(node, n)] => (node.val, .forget ⟨n⟩)
  | .forget items =>
    (0, .batchForget ⟨UInt32.ofNat items.length, 0⟩ (items.map fun i => ⟨i.1.val, i.2⟩))
  | .fsync node fh flags => (node.val, .fsync ⟨fh, flags, 0⟩)
  | .fsyncdir node fh flags => (node.val, .fsyncdir ⟨fh, flags, 0⟩)
  | .getattr node fh => (node.val, .getattr ⟨flagIf fh.isSome 1, 0, fh.getD 0⟩)
  | .getlk node fh owner mode span => (node.val, .getlk ⟨fh, owner, ⟨span.start, span.last, mode, 0⟩, 0, 0⟩)
  | .setlk node fh owner flags wait mode span pid =>
    let body : FuseLkIn := ⟨fh, owner, ⟨span.start, span.last, mode, pid⟩, flags, 0⟩
    (node.val, if wait then .setlkw body else .setlk body)
  | .getxattr node name size => (node.val, .getxattr ⟨size, 0⟩ name)
  | .listxattr node size => (node.val, .listxattr ⟨size, 0⟩)
  | .removexattr node name => (node.val, .removexattr name)
  | .setxattr node name value flags extFlags =>
    (node.val, if ext then .setxattr ⟨UInt32.ofNat value.length, flags, extFlags, 0⟩ name value
      else .setxattrOld ⟨UInt32.ofNat value.length, flags⟩ name value)
  | .interrupt id => (0, .interrupt ⟨id.val⟩)
  | .ioctl node fh cmd arg flags input outSize =>
    (node.val, .ioctl ⟨fh, flags, cmd, arg, UInt32.ofNat input.length, outSize⟩ input)
  | .link node parent name => (parent.val, .link ⟨node.val⟩ name)
  | .lookup parent name => (parent.val, .lookup name)
  | .lseek node fh offset whence => (node.val, .lseek ⟨fh, offset, whence, 0⟩)
  | .mkdir parent name mode umask => (parent.val, .mkdir ⟨mode, umask⟩ name)
  | .mknod parent name mode umask device => (parent.val, .mknod ⟨mode, device.getD 0, umask, 0⟩ name)
  | .open_ node openFlags flags => (node.val, .open_ ⟨openFlags, flags⟩)
  | .opendir node openFlags flags => (node.val, .opendir ⟨openFlags, flags⟩)
  | .poll node handle events flags => (node.val, .poll ⟨0, handle, flags, events⟩)
  | .read node fh offset size owner openFlags =>
    (node.val, .read ⟨fh, offset, size, flagIf owner.isSome 2, owner.getD 0, openFlags, 0⟩)
  | .readdir node fh offset size openFlags => (node.val, .readdir ⟨fh, offset, size, 0, 0, openFlags, 0⟩)
  | .readdirplus node fh offset size openFlags => (node.val, .readdirplus ⟨fh, offset, size, 0, 0, openFlags, 0⟩)
  | .readlink node => (node.val, .readlink)
  | .release node fh openFlags owner => (node.val, .release ⟨fh, openFlags, flagIf owner.isSome 2, owner.getD 0⟩)
  | .releasedir node fh openFlags owner => (node.val, .releasedir ⟨fh, openFlags, flagIf owner.isSome 2, owner.getD 0⟩)
  | .rename parent name newParent newName flags =>
    (parent.val, if flags = 0 then .rename ⟨newParent.val⟩ name newName else .rename2 ⟨newParent.val, flags, 0⟩ name newName)
  | .rmdir parent name => (parent.val, .rmdir name)
  | .setattr node c =>
    (node.val, .setattr {
      valid := c.mask, fh := c.fh.getD 0, size := c.size.getD 0, lock_owner := c.owner.getD 0
      atime := secondsOf c.atime, mtime := secondsOf c.mtime, ctime := secondsOf c.ctime
      atimensec := nanosOf c.atime, mtimensec := nanosOf c.mtime, ctimensec := nanosOf c.ctime
      mode := c.mode.getD 0, uid := c.uid.getD 0, gid := c.gid.getD 0 })
  | .statfs node => (node.val, .statfs)
  | .symlink parent name content => (parent.val, .symlink content name)
  | .unlink parent name => (parent.val, .unlink name)
  | .write node fh offset data flags owner openFlags =>
    (node.val, .write ⟨fh, offset, UInt32.ofNat data.length, flags, owner.getD 0, openFlags, 0⟩ data)

/-- What is read from the reply to an operation. -/
inductive Kind
  | silent
  | empty
  | data (max : Nat)
  | items (max : Nat)
  | plusItems (max : Nat)
  | names (max : Nat)
  | entry
  | attr
  | created
  | opened
  | written
  | space
  | size
  | lock
  | position
  | polled
  | block
  | ioctl (max : Nat)

/-- The kind of the reply. -/
def Op.kind : Op → Kind
  | .forget _ | .interrupt _ => .silent
  | .access .. | .fallocate .. | .flush .. | .fsync .. | .fsyncdir .. | .setlk .. | .removexattr .. | .setxattr ..
  | .release .. | .releasedir .. | .rename .. | .rmdir .. | .unlink .. => .empty
  | .read _ _ _ size _ _ => .data size.toNat
  | .readlink _ => .data 4096
  | .readdir _ _ _ size _ => .items size.toNat
  | .readdirplus _ _ _ size _ => .plusItems size.toNat
  | .getxattr _ _ size => if size = 0 then .size else .data size.toNat
  | .listxattr _ size => if size = 0 then .size else .names size.toNat
  | .lookup .. | .link .. | .mkdir .. | .mknod .. | .symlink .. => .entry
  | .getattr .. | .setattr .. => .attr
  | .create .. => .created
  | .open_ .. | .opendir .. => .opened
  | .write .. | .copyFileRange .. => .written
  | .statfs _ => .space
  | .getlk .. => .lock
  | .lseek .. => .position
  | .poll .. => .polled
  | .bmap .. => .block
  | .ioctl _ _ _ _ _ _ outSize => .ioctl outSize.toNat

/-- A length of time. -/
def durationOf (secs nanos : Nat) : Option Duration :=
  if h : UInt32.ofNat nanos < 1000000000 then some ⟨.ofNat secs, .ofNat nanos, h⟩ else none

/-- A point in time. -/
def readTime (secs nanos : Nat) : UnixTime := ⟨Int64.ofUInt64 (.ofNat secs), .ofNat nanos⟩

/-- `struct fuse_attr` at `o`. -/
def readInfo (p : Bytes) (o : Nat) : Option Info :=
  if h : UInt64.ofNat (u64At p o) ≠ 0 then
    some {
      node := ⟨.ofNat (u64At p o), h⟩
      size := .ofNat (u64At p (o + 8))
      blocks := .ofNat (u64At p (o + 16))
      atime := readTime (u64At p (o + 24)) (u32At p (o + 48))
      mtime := readTime (u64At p (o + 32)) (u32At p (o + 52))
      ctime := readTime (u64At p (o + 40)) (u32At p (o + 56))
      mode := .ofNat (u32At p (o + 60))
      nlink := .ofNat (u32At p (o + 64))
      uid := .ofNat (u32At p (o + 68))
      gid := .ofNat (u32At p (o + 72))
      device := .ofNat (u32At p (o + 76))
      blockSize := .ofNat (u32At p (o + 80))
      submount := (u32At p (o + 84)).testBit 0
      dax := (u32At p (o + 84)).testBit 1 }
  else none

/-- `struct fuse_entry_out` at `o`; its two node numbers agree. -/
def readFound (p : Bytes) (o : Nat) : Option Found := do
  let info ← readInfo p (o + 40)
  let timeout ← durationOf (u64At p (o + 16)) (u32At p (o + 32))
  let attrTimeout ← durationOf (u64At p (o + 24)) (u32At p (o + 36))
  if info.node.val.toNat = u64At p o then some ⟨info, .ofNat (u64At p (o + 8)), timeout, attrTimeout⟩ else none

/-- The `DT_*` codes. -/
def readType : Nat → Option FileType
  | 1 => some .namedPipe
  | 2 => some .characterDevice
  | 4 => some .directory
  | 6 => some .blockDevice
  | 8 => some .regular
  | 10 => some .symlink
  | 12 => some .socket
  | _ => none

/-- A record of READDIR. -/
def readItem (e : SeenEntry) : Option Item :=
  if h : UInt64.ofNat e.ino ≠ 0 ∧ UInt64.ofNat e.off ≠ 0 then
    some ⟨⟨.ofNat e.ino, h.1⟩, ⟨.ofNat e.off, h.2⟩, readType e.type, e.name⟩
  else none

/-- A record of READDIRPLUS. -/
def readPlusItem (e : SeenEntry) : Option PlusItem :=
  if h : UInt64.ofNat e.off ≠ 0 then
    match readFound e.entry 0 with
    | some f => if f.info.node.val.toNat = e.ino then some ⟨f, ⟨.ofNat e.off, h⟩, e.name⟩ else none
    | none => none
  else none

/-- The records in a reply to READDIR or READDIRPLUS; at most `fuel`. -/
def readRecords (skip : Nat) : Nat → Bytes → Option (List SeenEntry)
  | 0, bs => if bs.length < skip + 24 then some [] else none
  | fuel + 1, bs =>
    if bs.length < skip + 24 then some []
    else if u32At bs (skip + 16) = 0 ∨ bs.length < align8 (skip + 24 + u32At bs (skip + 16)) then none
    else
      (readRecords skip fuel (bs.drop (align8 (skip + 24 + u32At bs (skip + 16))))).map
        (⟨bs.take skip, u64At bs skip, u64At bs (skip + 8), u32At bs (skip + 20),
          (bs.drop (skip + 24)).take (u32At bs (skip + 16))⟩ :: ·)

/-- Strings that end with a NUL each. -/
def readStrings : Bytes → Option (List Bytes)
  | [] => some []
  | b :: bs =>
    match readStrings bs with
    | none => none
    | some l => if b = 0 then some ([] :: l) else match l with
      | [] => none
      | n :: l => some ((b :: n) :: l)

/-- Making sense of a payload. -/
def Kind.read (k : Kind) (p : Bytes) : Option Ans :=
  match k with
  | .silent => none
  | .empty => if p.length = 0 then some .done else none
  | .data max => if p.length ≤ max then some (.data p) else none
  | .items max => do
    if max < p.length then none
    else
      let l ← readRecords 0 p.length p
      let l ← l.mapM readItem
      return .items l
  | .plusItems max => do
    if max < p.length then none
    else
      let l ← readRecords 128 p.length p
      let l ← l.mapM readPlusItem
      return .plusItems l
  | .names max => if max < p.length then none else (readStrings p).map .names
  | .entry =>
    if p.length ≠ 128 then none
    else if u64At p 0 = 0 then (durationOf (u64At p 16) (u32At p 32)).map .absent
    else (readFound p 0).map .entry
  | .attr =>
    if p.length ≠ 104 then none
    else do
      let info ← readInfo p 16
      let timeout ← durationOf (u64At p 0) (u32At p 8)
      return .attr info timeout
  | .created =>
    if p.length ≠ 144 then none
    else (readFound p 0).map fun f => .created f (.ofNat (u64At p 128)) (.ofNat (u32At p 136))
  | .opened => if p.length ≠ 16 then none else some (.opened (.ofNat (u64At p 0)) (.ofNat (u32At p 8)))
  | .written => if p.length ≠ 8 then none else some (.written (.ofNat (u32At p 0)))
  | .space =>
    if p.length ≠ 80 then none
    else some (.space ⟨.ofNat (u64At p 0), .ofNat (u64At p 8), .ofNat (u64At p 16), .ofNat (u64At p 24),
      .ofNat (u64At p 32), .ofNat (u32At p 40), .ofNat (u32At p 44), .ofNat (u32At p 48)⟩)
  | .size => if p.length ≠ 8 then none else some (.size (.ofNat (u32At p 0)))
  | .lock =>
    if p.length ≠ 24 then none
    else some (.lock (.ofNat (u32At p 16)) (.ofNat (u64At p 0)) (.ofNat (u64At p 8)) (.ofNat (u32At p 20)))
  | .position => if p.length ≠ 8 then none else some (.position (.ofNat (u64At p 0)))
  | .polled => if p.length ≠ 8 then none else some (.polled (.ofNat (u32At p 0)))
  | .block => if p.length ≠ 8 then none else some (.block (.ofNat (u64At p 0)))
  | .ioctl max =>
    if p.length < 16 ∨ 16 + max < p.length ∨ u32At p 4 ≠ 0 then none
    else some (.ioctl (UInt32.ofNat (u32At p 0)).toInt32 (p.drop 16))

/-- Making sense of what has been heard since the request. -/
def Kind.hear (kind : Kind) (unique : UInt64) (out : List Bytes) : Ans :=
  match kind, out with
  | .silent, [] => .silent
  | .silent, _ => .broken
  | k, [m] =>
    match parseReply unique m with
    | some (.error e) => if h : e ≠ 0 then .error ⟨e, h⟩ else .broken
    | some (.ok p) => (k.read p).getD .broken
    | none => .broken
  | _, _ => .broken

/-- The same for an operation. -/
def Op.hear (op : Op) : UInt64 → List Bytes → Ans := op.kind.hear

/-- How a program uses a filesystem: what it does next depends on the answers. -/
inductive Use (α : Type)
  | done (a : α)
  | call (who : Caller) (op : Op) (k : Ans → Use α)

/-- Using it directly. -/
def Use.run {α S : Type} (act : Caller → Op → S → Ans × S) : Use α → S → α × S
  | .done a, s => (a, s)
  | .call who op k, s => (k (act who op s).1).run act (act who op s).2

/-- Using it through messages, of which `n` have been sent. -/
def Use.talk {α : Type} (ids : Nat → UInt64) (ext : Bool) : Nat → Use α → Talk α
  | _, .done a => .done a
  | n, .call who op k =>
    .say ((op.request ext).2.message (ids n) (op.request ext).1 who.uid who.gid who.pid 0) fun out =>
      Use.talk ids ext (n + 1) (k (op.hear (ids n) out))

end Spec

open Spec

/-! ## The server -/

/-- What the server takes from a request, with the accessors of the request types, fuse/operations/*.rs; each accessor
carries its own citation. -/
def AnyRequest.op : AnyRequest → Except Fault (Option Op)
  | .access r => return some (.access r.nodeId r.mask)
  | .bmap r => return some (.bmap (← r.nodeId) r.block r.blockSize)
  | .copyFileRange r =>
    return some (.copyFileRange (← r.inputNodeId) r.inputHandle r.inputOffset (← r.outputNodeId) r.outputHandle
      r.outputOffset r.len r.flags)
  | .create r =>
    return some (.create (← r.nodeId) r.name.bytes (← r.openFlags) (← r.flags) (← r.mode).bits (← r.umask))
  | .fallocate r => return some (.fallocate (← r.nodeId) r.handle r.offset r.length r.fallocateFlags)
  | .flush r => return some (.flush r.nodeId r.handle r.lockOwner)
  | .forget r => return some (.forget (r.items.map fun i => (i.nodeId, i.lookupCount)))
  | .fsync r => return some (.fsync r.nodeId r.handle r.flags)
  | .fsyncdir r => return some (.fsyncdir (← r.nodeId) r.handle r.flags)
  | .getattr r => return some (.getattr (← r.nodeId) (← r.handle))
  | .getlk r =>
    return some (.getlk (← r.nodeId) r.handle r.owner r.lockMode ⟨r.lockRange.start, r.lockRange.length⟩)
  | .setlk r =>
    return some (.setlk (← r.nodeId) r.handle r.owner r.flags r.mayBlock r.lock.mode
      ⟨r.lock.range.start, r.lock.range.length⟩ ((r.lock.processId.map Subtype.val).getD 0))
  | .getxattr r =>
    return some (.getxattr (← r.nodeId) r.name.bytes (.ofNat ((r.size.map Subtype.val).getD 0)))
  | .listxattr r => return some (.listxattr (← r.nodeId) (.ofNat ((r.size.map Subtype.val).getD 0)))
  | .removexattr r => return some (.removexattr (← r.nodeId) r.name.bytes)
  | .setxattr r => return some (.setxattr (← r.nodeId) r.name.bytes r.value (← r.setxattrFlags) (← r.flags))
  | .interrupt r => return some (.interrupt (← r.requestId))
  | .ioctl r => return some (.ioctl r.nodeId r.handle r.command r.arg r.flags r.input r.outputLen)
  | .link r => return some (.link r.nodeId r.newParentId r.newName.bytes)
  | .lookup r => return some (.lookup r.parentId r.name.bytes)
  | .lseek r => return some (.lseek r.nodeId r.handle r.offset r.whence)
  | .mkdir r => return some (.mkdir r.parentId r.name.bytes r.mode.bits r.umask)
  | .mknod r =>
    return some (.mknod (← r.parentId) r.name.bytes (← r.mode).bits (← r.umask) (← r.deviceNumber))
  | .open_ r => return some (.open_ r.nodeId r.openFlags r.flags)
  | .opendir r => return some (.opendir (← r.nodeId) r.openFlags r.flags)
  | .poll r => return some (.poll (← r.nodeId) r.pollHandle r.pollEvents r.flags)
  | .read r =>
    return some (.read r.nodeId (← r.handle) (← r.offset) (← r.size) (← r.lockOwner) (← r.openFlags))
  | .readdir r =>
    return some (.readdir (← r.nodeId) (← r.handle) (((← r.offset).map Subtype.val).getD 0) (← r.size) (← r.openFlags))
  | .readdirplus r =>
    return some (.readdirplus (← r.nodeId) (← r.handle) (((← r.offset).map Subtype.val).getD 0) (← r.size)
      (← r.openFlags))
  | .readlink r => return some (.readlink r.nodeId)
  | .release r => return some (.release r.nodeId (← r.handle) (← r.openFlags) (← r.lockOwner))
  | .releasedir r => return some (.releasedir (← r.nodeId) (← r.handle) (← r.openFlags) (← r.lockOwner))
  | .rename r =>
    return some (.rename r.oldDirectoryId r.oldName.bytes r.newDirectoryId r.newName.bytes r.renameFlags)
  | .rmdir r => return some (.rmdir r.parentId r.name.bytes)
  | .setattr r =>
    return some (.setattr (← r.nodeId) {
      mode := r.mode.map FileMode.bits, uid := r.userId, gid := r.groupId, size := r.size
      atime := ← r.atime, mtime := ← r.mtime, ctime := ← r.ctime
      atimeNow := r.atimeNow, mtimeNow := r.mtimeNow, fh := r.handle, owner := r.lockOwner })
  | .statfs r => return some (.statfs r.nodeId)
  | .symlink r => return some (.symlink r.parentId r.name.bytes r.content.bytes)
  | .unlink r => return some (.unlink r.parentId r.name.bytes)
  | .write r =>
    return some (.write (← r.nodeId) (← r.handle) (← r.offset) (← r.value) (← r.flags) (← r.lockOwner) (← r.openFlags))
  | .fuseInit _ => return none
  | .cuseInit _ => return none

/-- The attributes of a file, with the setters of `NodeAttr`, fuse/node_attr.rs:33-274. -/
def Spec.Info.attr (i : Info) : NodeAttr :=
  ((((((((((((NodeAttr.new i.node).setMode ⟨i.mode⟩).setSize i.size).setAtime i.atime).setMtime i.mtime).setCtime
    i.ctime).setLinkCount i.nlink).setUserId i.uid).setGroupId i.gid).setDeviceNumber i.device).setBlockCount
    i.blocks).setBlockSize i.blockSize).setFlagSubmount i.submount |>.setFlagDax i.dax

/-- A file that has been found, with the setters of `Entry`, fuse/entry.rs:37-118. -/
def Spec.Found.entry (f : Found) : Entry :=
  (((Entry.new f.info.attr).setGeneration f.generation).setCacheTimeout f.timeout).setAttributeCacheTimeout f.attrTimeout

/-- An entry for `ReaddirEntriesWriter`, with `ReaddirEntry::new` and `set_file_type`,
fuse/operations/readdir.rs:114-157. -/
def Spec.Item.record (i : Item) : Except Fault ReaddirEntry := do
  let name ← NodeName.fromBytesUnchecked i.name
  let e := ReaddirEntry.new i.node name i.offset
  return match i.type with
  | some t => e.setFileType t
  | none => e

/-- An entry for `ReaddirplusEntriesWriter`, with `ReaddirplusEntry::new`, fuse/operations/readdirplus.rs:113-151. -/
def Spec.PlusItem.record (i : PlusItem) : Except Fault ReaddirplusEntry := do
  let name ← NodeName.fromBytesUnchecked i.name
  ReaddirplusEntry.new name i.offset i.found.entry

/-- The number of bytes the client asks for. -/
def Spec.Op.room : Op → Nat
  | .readdir _ _ _ size _ => size.toNat
  | .readdirplus _ _ _ size _ => size.toNat
  | .listxattr _ size => size.toNat
  | _ => 0

/-- A listing in a new buffer of `room` bytes at the address `addr`, with `new`, `try_push` and `into_entries`,
fuse/operations/readdir.rs:221-273 and fuse/operations/readdirplus.rs:205-257.  What does not fit is left out. -/
def writeRecords {T : Type} [Dirent T] (addr room : Nat) (l : List (DirRecord T)) : Except Fault Bytes := do
  let (_, w) ← (DirWriter.new addr (List.replicate room 0)).pushAll l
  w.intoEntries

/-- The names for `ListxattrNamesWriter`. -/
def cnames (l : List Bytes) : Except Fault (List CName) :=
  l.mapM fun n => if h : 0 ∉ n then .ok ⟨n, h⟩ else .error .invalid

/-- Replying, with the methods of a reply sender, fuse/server.rs:729-752, and the response types; `ListxattrNamesWriter` is
at fuse/operations/listxattr.rs:145-199. -/
def Spec.Ans.reply (os : Os) (addr room : Nat) : Ans → Except Fault (Option FuseAnswer)
  | .error e => return some (.err e)
  | .done => return some .okEmpty
  | .data b => return some (.okBuf b)
  | .items l => do return some (.ok (.readdirEntries (← writeRecords addr room (← l.mapM Item.record))))
  | .plusItems l => do return some (.ok (.readdirEntries (← writeRecords addr room (← l.mapM PlusItem.record))))
  | .names l => do
    let (_, w) ← (NamesWriter.new os (List.replicate room 0)).pushAll (← cnames l)
    return some (.ok (.listxattrNames (← w.intoNames)))
  | .entry f => return some (.ok (.entry f.entry))
  | .absent timeout =>
    return some (.ok (.entryOut { entry_valid := (splitDuration timeout).1, entry_valid_nsec := (splitDuration timeout).2 }))
  | .attr info timeout =>
    return some (.ok (.attr { attr_valid := (splitDuration timeout).1, attr_valid_nsec := (splitDuration timeout).2,
                              attr := info.attr.raw }))
  | .created f fh flags => return some (.ok (.create ⟨f.entry, { fh := fh, open_flags := flags }⟩))
  | .opened fh flags => return some (.ok (.open_ { fh := fh, open_flags := flags }))
  | .written n => return some (.ok (.write { size := n }))
  | .space a =>
    return some (.ok (.statfs { st := { blocks := a.blocks, bfree := a.bfree, bavail := a.bavail, files := a.files,
                                        ffree := a.ffree, bsize := a.bsize, namelen := a.namelen, frsize := a.frsize } }))
  | .size n => return some (.ok (.getxattr { size := n }))
  | .lock type start end_ pid => return some (.ok (.lk { lk := ⟨start, end_, type, pid⟩ }))
  | .position n => return some (.ok (.lseek { offset := n }))
  | .polled events => return some (.ok (.poll { revents := events }))
  | .block n => return some (.ok (.bmap { block := n }))
  | .ioctl result output => return some (.ok (.ioctl ((IoctlResponse.new output).setResult result)))
  | .silent => return none
  | .broken => .error .panic

/-- The request type a handler method, fuse/server.rs:890-1111, decodes its requests with; there is none for DESTROY and
SYNCFS. -/
def FuseMethod.reqType (layout : FuseLayout) (checks : Bool) : FuseMethod → Option ReqType
  | .access => some .access
  | .batchForget => some (.forget checks)
  | .bmap => some .bmap
  | .copyFileRange => some .copyFileRange
  | .create => some (.create layout)
  | .destroy => none
  | .fallocate => some .fallocate
  | .flush => some (.flush false)
  | .forget => some (.forget checks)
  | .fsync => some (.fsync false)
  | .fsyncdir => some .fsyncdir
  | .getattr => some (.getattr layout)
  | .getlk => some .getlk
  | .getxattr => some .getxattr
  | .interrupt => some .interrupt
  | .ioctl => some (.ioctl false)
  | .link => some .link
  | .listxattr => some .listxattr
  | .lookup => some .lookup
  | .lseek => some .lseek
  | .mkdir => some .mkdir
  | .mknod => some (.mknod layout)
  | .open_ => some (.open_ false)
  | .opendir => some .opendir
  | .poll => some .poll
  | .read => some (.read layout.minor false)
  | .readdir => some (.readdir layout)
  | .readdirplus => some (.readdirplus layout)
  | .readlink => some .readlink
  | .release => some (.release layout.minor false)
  | .releasedir => some (.releasedir layout)
  | .removexattr => some .removexattr
  | .rename => some .rename
  | .rename2 => some .rename
  | .rmdir => some .rmdir
  | .setattr => some .setattr
  | .setlk => some .setlk
  | .setlkw => some .setlk
  | .setxattr => some (.setxattr layout)
  | .statfs => some .statfs
  | .symlink => some .symlink
  | .syncfs => none
  | .unlink => some .unlink
  | .write => some (.write layout.minor false)

/-- A filesystem, and what the server that serves it depends on. -/
structure RpcServer (S : Type) where
  act : Caller → Op → S → Ans × S
  layout : FuseLayout
  checks : Bool
  os : Os
  /-- The address of the buffer for listings. -/
  addr : Op → Nat

section
variable {S ω ε : Type}

/-- Answering a request, in the way of the methods at examples/helloworld/helloworld.rs:67-183.  The state is lost if
anything fails on the way. -/
def RpcServer.answer (srv : RpcServer S) (sock : Socket (Option S × ω) ε) (t : ReqType) (r : Request) (s : S) (w : ω) :
    Option S × ω :=
  match Filesystem.idAndHeader r, r.decode (decodeAny t) with
  | .ok (id, header), .ok q =>
    match q.op with
    | .ok (some op) =>
      let (a, s) := srv.act ⟨header.uid, header.gid, header.pid⟩ op s
      match a.reply srv.os (srv.addr op) op.room with
      | .ok (some a) =>
        match a.run (.new sock srv.layout id) (some s, w) with
        | (.ok (), w) => w
        | (.error _, w) => (none, w.2)
      | .ok none => (some s, w)
      | .error _ => (none, w)
    | _ => (none, w)
  | _, _ => (none, w)

/-- An implementation of the trait `FuseHandlers`, fuse/server.rs:827-1111, with all methods that there is a request type
for. -/
def RpcServer.handlers (srv : RpcServer S) (sock : Socket (Option S × ω) ε) : Handlers FuseMethod (Option S × ω) where
  unimplemented _ w := (none, w.2)
  overridden m := (m.reqType srv.layout srv.checks).map fun t r w =>
    match w.1 with
    | none => w
    | some s => srv.answer sock t r s w.2

end

end Fuse
