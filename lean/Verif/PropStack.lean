import Verif.PropHello
import Verif.VfsRun
import Verif.PropVfs
import Verif.PropVfsStatic

/-!
# Programs using a filesystem that is served through the VFS layer: property C75

A program's calls go through a client that turns them into messages, as a kernel does; the messages are decoded and
dispatched by the library, which calls the methods of a filesystem; the client reads the library's replies.  What the
program sees is compared with a filesystem without any of this in between.
-/

namespace Fuse

namespace Spec

/-! ## The filesystem without anything in between -/

/-- How much there is of everything: blocks, of these free, and available, files, of these free; the sizes of blocks, of
names, of fragments. -/
structure Space where
  blocks : UInt64
  bfree : UInt64
  bavail : UInt64
  files : UInt64
  ffree : UInt64
  bsize : UInt32
  namelen : UInt32
  frsize : UInt32
deriving DecidableEq

/-- The directories, and what is fixed about files: `dirs i` are the entries of directory `i`, or nothing if `i` is not
one.  Entries may lead anywhere, also upwards.  `links i` is what the symbolic link `i` leads to.  What is neither is a
file.  `absent` is the error for names that do not exist; without one the filesystem says so with a negative entry. -/
structure Tree where
  dirs : NodeId → Option (List (Bytes × NodeId))
  links : NodeId → Option Bytes
  xattrs : NodeId → List (Bytes × Bytes)
  modes : NodeId → UInt32
  space : NodeId → Space
  absent : Option FuseError
  timeout : Duration

/-- Nodes that cannot be opened as files. -/
def Tree.notFile (tree : Tree) (i : NodeId) : Bool := (tree.dirs i).isSome || (tree.links i).isSome

/-- The calls of a program. -/
inductive FileCall
  | openAt (path : List Bytes)
  | read (fd : Nat) (offset : UInt64) (size : UInt32)
  | write (fd : Nat) (offset : UInt64) (data : Bytes)
  | close (fd : Nat)
  | stat (path : List Bytes)
  | openDir (path : List Bytes)
  | readDir (dd : Nat) (size : UInt32)
  | closeDir (dd : Nat)
  | readLink (path : List Bytes)
  /-- The value of an extended attribute, or its size if `size` is zero. -/
  | getXattr (path : List Bytes) (name : Bytes) (size : UInt32)
  /-- The names of the extended attributes, each with a zero byte, or the size of all this if `size` is zero. -/
  | listXattr (path : List Bytes) (size : UInt32)
  | statFs (path : List Bytes)
  /-- Not a call of the program: the client forgets about a node, of which it has been told `n` times. -/
  | forget (node : UInt64) (n : UInt64)

/-- What a call returns. -/
inductive FileAns
  | fd (n : Nat)
  | data (b : Bytes)
  | written (n : UInt32)
  | stat (ino size : UInt64) (mode : UInt32)
  | dir (n : Nat)
  /-- Number, type and name of directory entries. -/
  | entries (l : List (Nat × Nat × Bytes))
  | size (n : Nat)
  | space (a : Space)
  | done
  | error (e : Int32)
  /-- The client could not make sense of what it received. -/
  | broken
deriving DecidableEq

/-- Contents of files, the files open under each descriptor, and open directories with the number of entries read. -/
structure Plain where
  content : NodeId → Bytes
  fds : List (Option NodeId)
  dirs : List (Option (NodeId × Nat))

/-- The bytes of a file with `data` written at `offset`. -/
def splice (old data : Bytes) (offset : Nat) : Bytes :=
  (old ++ List.replicate (offset - old.length) 0).take offset ++ data ++ old.drop (offset + data.length)

/-- The node at the end of a path. -/
def Tree.resolve (tree : Tree) (notDirectory : Int32) : NodeId → List Bytes → Except Int32 NodeId
  | i, [] => .ok i
  | i, name :: path =>
    match tree.dirs i with
    | none => .error notDirectory
    | some es =>
      match es.lookup name with
      | none => .error (match tree.absent with | some e => e.val | none => -2)
      | some j => tree.resolve notDirectory j path

/-- How many entries are read at once: as many as fit. -/
def fit : Nat → List Bytes → Nat
  | _, [] => 0
  | room, name :: names => if align8 (24 + name.length) ≤ room then fit (room - align8 (24 + name.length)) names + 1 else 0

/-- The error for an extended attribute that does not exist, `ENODATA`. -/
def noXattr : FuseError := ⟨-61, by decide⟩

/-- The error for a buffer that is too small, `ERANGE`. -/
def smallBuffer : FuseError := ⟨-34, by decide⟩

/-- The answer to a question for `size` bytes, or the number of bytes. -/
def sized (size : UInt32) (value : Bytes) : FileAns :=
  if size = 0 then .size value.length
  else if value.length ≤ size.toNat then .data value
  else .error smallBuffer.val

/-- A question about the node at the end of a path. -/
def Tree.query (tree : Tree) (os : OsErrors) (start : NodeId) (path : List Bytes) (answer : NodeId → FileAns) : FileAns :=
  match tree.resolve os.notDirectory.val start path with
  | .error e => .error e
  | .ok i => answer i

/-- The names of extended attributes as a program gets them. -/
def xattrNames (l : List (Bytes × Bytes)) : Bytes := l.flatMap fun a => a.1 ++ [0]

/-- One call, with paths that start at some node. -/
def Tree.callFrom (tree : Tree) (os : OsErrors) (start : NodeId) (p : Plain) : FileCall → FileAns × Plain
  | .openAt path =>
    match tree.resolve os.notDirectory.val start path with
    | .error e => (.error e, p)
    | .ok i =>
      if tree.notFile i then (.error os.notSupported.val, p)
      else (.fd p.fds.length, { p with fds := p.fds ++ [some i] })
  | .read fd offset size =>
    match p.fds[fd]? with
    | some (some i) => (.data (((p.content i).drop offset.toNat).take size.toNat), p)
    | _ => (.error (-9), p)
  | .write fd offset data =>
    match p.fds[fd]? with
    | some (some i) =>
      (.written (UInt32.ofNat data.length),
        { p with content := fun j => if j = i then splice (p.content i) data offset.toNat else p.content j })
    | _ => (.error (-9), p)
  | .close fd =>
    match p.fds[fd]? with
    | some (some _) => (.done, { p with fds := p.fds.set fd none })
    | _ => (.error (-9), p)
  | .stat path =>
    match tree.resolve os.notDirectory.val start path with
    | .error e => (.error e, p)
    | .ok i => (.stat i.val (UInt64.ofNat (p.content i).length) (tree.modes i), p)
  | .openDir path =>
    match tree.resolve os.notDirectory.val start path with
    | .error e => (.error e, p)
    | .ok i =>
      if (tree.dirs i).isSome then (.dir p.dirs.length, { p with dirs := p.dirs ++ [some (i, 0)] })
      else (.error os.notDirectory.val, p)
  | .readDir dd size =>
    match p.dirs[dd]? with
    | some (some (i, pos)) =>
      let rest := ((tree.dirs i).getD []).drop pos
      let n := fit (min size.toNat 65535) (rest.map (·.1))
      (.entries ((rest.take n).map fun e => (e.2.val.toNat, dtOfMode (tree.modes e.2), e.1)),
        { p with dirs := p.dirs.set dd (some (i, pos + n)) })
    | _ => (.error (-9), p)
  | .closeDir dd =>
    match p.dirs[dd]? with
    | some (some _) => (.done, { p with dirs := p.dirs.set dd none })
    | _ => (.error (-9), p)
  | .readLink path =>
    (tree.query os start path fun i =>
      match tree.links i with
      | some target => .data target
      | none => .error os.notSupported.val, p)
  | .getXattr path name size =>
    (tree.query os start path fun i =>
      match (tree.xattrs i).lookup name with
      | some value => sized size value
      | none => .error noXattr.val, p)
  | .listXattr path size => (tree.query os start path fun i => sized size (xattrNames (tree.xattrs i)), p)
  | .statFs path => (tree.query os start path fun i => .space (tree.space i), p)
  | .forget _ _ => (.done, p)

/-- One call. -/
def Tree.call (tree : Tree) (os : OsErrors) (p : Plain) (call : FileCall) : FileAns × Plain :=
  tree.callFrom os NodeId.root p call

/-- A whole program. -/
def Tree.calls (tree : Tree) (os : OsErrors) : List FileCall → Plain → List FileAns × Plain
  | [], p => ([], p)
  | c :: cs, p =>
    let (a, p) := tree.call os p c
    let (as, p) := tree.calls os cs p
    (a :: as, p)

/-! ## The client -/

/-- What the client keeps: how many messages it has sent, the node and the handle of each descriptor, and how often it
has been told of each node; for open directories also the offset of the last entry read. -/
structure Client where
  sent : Nat
  fds : List (Option (UInt64 × UInt64))
  dirs : List (Option (UInt64 × UInt64 × UInt64))
  held : UInt64 → Nat

/-- Who uses the client, and how it numbers its requests. -/
structure ClientConfig where
  ids : Nat → UInt64
  uid : UInt32
  gid : UInt32
  pid : UInt32

/-- A reply: an error, or a payload. -/
def parseReply (unique : UInt64) (m : Bytes) : Option (Except Int32 Bytes) :=
  if 16 ≤ m.length ∧ u32At m 0 = m.length ∧ u64At m 8 = unique.toNat then
    if u32At m 4 = 0 then some (.ok (m.drop 16))
    else if m.length = 16 then some (.error (UInt32.ofNat (u32At m 4)).toInt32)
    else none
  else none

/-- The entries in a reply to READDIR; at most `fuel`. -/
def parseListing : Nat → Bytes → Option (List SeenEntry)
  | 0, bs => if bs.length < 24 then some [] else none
  | fuel + 1, bs =>
    if bs.length < 24 then some []
    else if u32At bs 16 = 0 ∨ bs.length < align8 (24 + u32At bs 16) then none
    else
      (parseListing fuel (bs.drop (align8 (24 + u32At bs 16)))).map
        (⟨[], u64At bs 0, u64At bs 8, u32At bs 20, (bs.drop 24).take (u32At bs 16)⟩ :: ·)

/-- How a client conducts itself: it has finished, or it sends a message and goes on according to what it has heard when
its turn comes again. -/
inductive Talk (α : Type)
  | done (a : α)
  | say (m : Bytes) (k : List Bytes → Talk α)

/-- One conversation after the other. -/
def Talk.bind {α β : Type} : Talk α → (α → Talk β) → Talk β
  | .done a, f => f a
  | .say m k, f => .say m fun out => (k out).bind f

instance : Monad Talk where
  pure := .done
  bind := .bind

/-- A conversation with something that answers each message at once. -/
def Talk.run {α S : Type} (ask : Bytes → S → List Bytes × S) : Talk α → S → α × S
  | .done a, s => (a, s)
  | .say m k, s => (k (ask m s).1).run ask (ask m s).2

section
variable (cfg : ClientConfig)

/-- Sending a request and reading the one reply. -/
def Client.request (c : Client) (a : ClientReq) (node : UInt64) : Talk (Option (Except Int32 Bytes) × Client) :=
  .say (a.message (cfg.ids c.sent) node cfg.uid cfg.gid cfg.pid 0) fun out =>
    .done (match out with
      | [m] => parseReply (cfg.ids c.sent) m
      | _ => none, { c with sent := c.sent + 1 })

/-- Following a path from a node on, one LOOKUP per name. -/
def Client.walk : Client → UInt64 → List Bytes → Talk (Except FileAns UInt64 × Client)
  | c, node, [] => return (.ok node, c)
  | c, node, name :: path => do
    match ← c.request cfg (.lookup name) node with
    | (some (.ok p), c) =>
      if p.length ≠ 128 then return (.error .broken, c)
      else
        let i := UInt64.ofNat (u64At p 0)
        if i = 0 then return (.error (.error (-2)), c)
        else Client.walk { c with held := fun j => if j = i then c.held i + 1 else c.held j } i path
    | (some (.error e), c) => return (.error (.error e), c)
    | (none, c) => return (.error .broken, c)

/-- The root. -/
def rootNode : UInt64 := 1

/-- A question about the node at the end of a path. -/
def Client.query (c : Client) (start : UInt64) (path : List Bytes) (a : ClientReq) (f : Bytes → FileAns) :
    Talk (FileAns × Client) := do
  match ← c.walk cfg start path with
  | (.error a, c) => return (a, c)
  | (.ok i, c) =>
    match ← c.request cfg a i with
    | (some (.ok p), c) => return (f p, c)
    | (some (.error e), c) => return (.error e, c)
    | (none, c) => return (.broken, c)

/-- A reply to a question for `size` bytes, or the number of bytes. -/
def readSized (size : UInt32) (p : Bytes) : FileAns :=
  if size = 0 then if p.length = 8 then .size (u32At p 0) else .broken
  else if p.length ≤ size.toNat then .data p
  else .broken

/-- The reply to STATFS. -/
def readSpace (p : Bytes) : FileAns :=
  if p.length = 80 then
    .space ⟨.ofNat (u64At p 0), .ofNat (u64At p 8), .ofNat (u64At p 16), .ofNat (u64At p 24), .ofNat (u64At p 32),
      .ofNat (u32At p 40), .ofNat (u32At p 44), .ofNat (u32At p 48)⟩
  else .broken

/-- One call, with paths that start at some node. -/
def Client.callFrom (c : Client) (start : UInt64) : FileCall → Talk (FileAns × Client)
  | .openAt path => do
    match ← c.walk cfg start path with
    | (.error a, c) => return (a, c)
    | (.ok i, c) =>
      match ← c.request cfg (.open_ {}) i with
      | (some (.ok p), c) =>
        if p.length ≠ 16 then return (.broken, c)
        else return (.fd c.fds.length, { c with fds := c.fds ++ [some (i, UInt64.ofNat (u64At p 0))] })
      | (some (.error e), c) => return (.error e, c)
      | (none, c) => return (.broken, c)
  | .read fd offset size =>
    match c.fds[fd]? with
    | some (some (i, fh)) => do
      match ← c.request cfg (.read { fh := fh, offset := offset, size := size }) i with
      | (some (.ok p), c) => return (if p.length ≤ size.toNat then .data p else .broken, c)
      | (some (.error e), c) => return (.error e, c)
      | (none, c) => return (.broken, c)
    | _ => return (.error (-9), c)
  | .write fd offset data =>
    match c.fds[fd]? with
    | some (some (i, fh)) => do
      match ← c.request cfg (.write { fh := fh, offset := offset, size := UInt32.ofNat data.length } data) i with
      | (some (.ok p), c) => return (if p.length = 8 then .written (UInt32.ofNat (u32At p 0)) else .broken, c)
      | (some (.error e), c) => return (.error e, c)
      | (none, c) => return (.broken, c)
    | _ => return (.error (-9), c)
  | .close fd =>
    match c.fds[fd]? with
    | some (some (i, fh)) => do
      match ← c.request cfg (.release { fh := fh }) i with
      | (some (.ok p), c) => return (if p = [] then .done else .broken, { c with fds := c.fds.set fd none })
      | (some (.error e), c) => return (.error e, c)
      | (none, c) => return (.broken, c)
    | _ => return (.error (-9), c)
  | .stat path => do
    match ← c.walk cfg start path with
    | (.error a, c) => return (a, c)
    | (.ok i, c) =>
      match ← c.request cfg (.getattr {}) i with
      | (some (.ok p), c) =>
        return (if p.length = 104 then
          .stat (UInt64.ofNat (u64At p 16)) (UInt64.ofNat (u64At p 24)) (UInt32.ofNat (u32At p 76)) else .broken, c)
      | (some (.error e), c) => return (.error e, c)
      | (none, c) => return (.broken, c)
  | .openDir path => do
    match ← c.walk cfg start path with
    | (.error a, c) => return (a, c)
    | (.ok i, c) =>
      match ← c.request cfg (.opendir {}) i with
      | (some (.ok p), c) =>
        if p.length ≠ 16 then return (.broken, c)
        else return (.dir c.dirs.length, { c with dirs := c.dirs ++ [some (i, UInt64.ofNat (u64At p 0), 0)] })
      | (some (.error e), c) => return (.error e, c)
      | (none, c) => return (.broken, c)
  | .readDir dd size =>
    match c.dirs[dd]? with
    | some (some (i, fh, offset)) => do
      match ← c.request cfg (.readdir { fh := fh, offset := offset, size := size }) i with
      | (some (.ok p), c) =>
        match (if p.length ≤ size.toNat then parseListing p.length p else none) with
        | some l =>
          let offset := match l.getLast? with
            | some e => UInt64.ofNat e.off
            | none => offset
          return (.entries (l.map fun e => (e.ino, e.type, e.name)), { c with dirs := c.dirs.set dd (some (i, fh, offset)) })
        | none => return (.broken, c)
      | (some (.error e), c) => return (.error e, c)
      | (none, c) => return (.broken, c)
    | _ => return (.error (-9), c)
  | .closeDir dd =>
    match c.dirs[dd]? with
    | some (some (i, fh, _)) => do
      match ← c.request cfg (.releasedir { fh := fh }) i with
      | (some (.ok p), c) => return (if p = [] then .done else .broken, { c with dirs := c.dirs.set dd none })
      | (some (.error e), c) => return (.error e, c)
      | (none, c) => return (.broken, c)
    | _ => return (.error (-9), c)
  | .readLink path => c.query cfg start path .readlink .data
  | .getXattr path name size => c.query cfg start path (.getxattr { size := size } name) (readSized size)
  | .listXattr path size => c.query cfg start path (.listxattr { size := size }) (readSized size)
  | .statFs path => c.query cfg start path .statfs readSpace
  | .forget node n =>
    if node = rootNode ∨ c.held node < n.toNat then return (.done, c)
    else
      .say ((ClientReq.forget { nlookup := n }).message (cfg.ids c.sent) node cfg.uid cfg.gid cfg.pid 0) fun out =>
        return (if out = [] then .done else .broken,
          { c with sent := c.sent + 1, held := fun j => if j = node then c.held j - n.toNat else c.held j })

/-- One call. -/
def Client.call (c : Client) (call : FileCall) : Talk (FileAns × Client) := c.callFrom cfg rootNode call

/-- A whole program. -/
def Client.calls : List FileCall → Client → Talk (List FileAns × Client)
  | [], c => return ([], c)
  | call :: cs, c => do
    let (a, c) ← c.call cfg call
    let (as, c) ← Client.calls cs c
    return (a :: as, c)

end

/-- The node that is forgotten. -/
def FileCall.forgets : FileCall → Option UInt64
  | .forget node _ => some node
  | _ => none

/-- How many messages a call takes at most. -/
def FileCall.cost : FileCall → Nat
  | .openAt path | .stat path | .openDir path | .readLink path | .getXattr path _ _ | .listXattr path _ | .statFs path =>
    path.length + 1
  | _ => 1

/-- Names are names, and what is read or written fits into a message. -/
def FileCall.Valid : FileCall → Prop
  | .openAt path | .stat path | .openDir path | .readLink path | .listXattr path _ | .statFs path =>
    ∀ name ∈ path, NameOk name ∧ name.length + 41 < 2 ^ 32
  | .getXattr path attr _ =>
    (∀ name ∈ path, NameOk name ∧ name.length + 41 < 2 ^ 32) ∧ 0 ∉ attr ∧ attr.length + 49 < 2 ^ 32
  | .read _ _ size => size.toNat + 16 < 2 ^ 32
  | .readDir _ _ => True
  | .write _ _ data => data.length + 80 < 2 ^ 32
  | .forget _ n => n ≠ 0
  | .close _ | .closeDir _ => True

/-- The names in the directories are names, and everything fits into a message. -/
structure Tree.Ok (tree : Tree) : Prop where
  names : ∀ i es, tree.dirs i = some es → (∀ e ∈ es, NameOk e.1) ∧ es.length < 2 ^ 63
  targets : ∀ i target, tree.links i = some target → target.length + 16 < 2 ^ 32
  values : ∀ i name value, (tree.xattrs i).lookup name = some value → value.length + 16 < 2 ^ 32
  attrs : ∀ i, (xattrNames (tree.xattrs i)).length + 16 < 2 ^ 32

end Spec

/-! ## The filesystem given to the library -/

/-- The contents of files, and the messages sent. -/
abbrev TreeWorld := (NodeId → Bytes) × List Bytes

/-- A socket that delivers every message. -/
def TreeWorld.socket : Socket TreeWorld Unit where
  recv buf s := ((.error (.connectionClosed ()), buf), s)
  recv_length _ _ := rfl
  send buf s :=
    match buf.chunks with
    | .ok cs => (.ok (), (s.1, s.2 ++ [cs.flatten]))
    | .error _ => (.error (.other ()), s)

namespace Spec.Tree

variable (tree : Tree) {κ : Type}

/-- The attributes of a node.  Of the world only the contents of files matter here and in the following. -/
def attr (i : NodeId) (w : (NodeId → Bytes) × κ) : NodeAttr :=
  ((NodeAttr.new i).setSize (UInt64.ofNat (w.1 i).length)).setMode ⟨tree.modes i⟩

/-- The entries of a directory, for the library's static directories. -/
def statics (i : NodeId) (w : (NodeId → Bytes) × κ) : List StaticDirectoryEntry :=
  ((tree.dirs i).getD []).map fun e => ⟨⟨e.1⟩, tree.attr e.2 w, 0, tree.timeout, tree.timeout⟩

/-- `statfs` fields as the library takes them. -/
def _root_.Fuse.Spec.Space.raw (a : Space) : FuseKstatfs :=
  { blocks := a.blocks, bfree := a.bfree, bavail := a.bavail, files := a.files, ffree := a.ffree, bsize := a.bsize,
    namelen := a.namelen, frsize := a.frsize }

/-- The reply for a value: `GetxattrResult::size` or `GetxattrResult::value`, fuse-vfs/fuse-vfs.rs:150-161, and likewise
`ListxattrResult`, lines 170-181. -/
def sizedResult (size : Option { k : Nat // k ≠ 0 }) (value : Bytes) : Except FuseError Bytes :=
  match size with
  | none => .ok (Wire.enc ({ size := UInt32.ofNat value.length } : FuseGetxattrOut))
  | some n => if value.length ≤ n.val then .ok value else .error smallBuffer

/-- The methods: nodes and handles are node IDs.  Listings are made by `StaticDirectoryHandle::readdir`, with a buffer at
the address `alloc` gives. -/
def impl (alloc : ReaddirRequest → Nat) : VfsImpl NodeId NodeId NodeId ((NodeId → Bytes) × κ) where
  asDirectory i w := (if (tree.dirs i).isSome then some i else none, w)
  asFile i w := (if tree.notFile i then none else some i, w)
  asSymlink i w := (if (tree.links i).isSome then some i else none, w)
  getattr i _ _ w := (.ok ⟨tree.attr i w, tree.timeout⟩, w)
  getxattr i _ q w :=
    (match (tree.xattrs i).lookup q.name.bytes with
      | some value => sizedResult q.size value
      | none => .error noXattr, w)
  listxattr i _ q w := (sizedResult q.size (xattrNames (tree.xattrs i)), w)
  statfs i _ _ w := (.ok (tree.space i).raw, w)
  lookup i _ q w :=
    (match ((tree.dirs i).getD []).lookup q.name.bytes with
      | some j => .ok ⟨some (j, tree.attr j w), 0, tree.timeout, tree.timeout⟩
      | none =>
        match tree.absent with
        | some e => .error e
        | none => .ok ⟨none, 0, tree.timeout, tree.timeout⟩, w)
  opendir i _ _ w := (.ok ⟨i, 0⟩, w)
  open_ i _ _ w := (.ok ⟨i, 0⟩, w)
  readlink i _ _ w := (.ok ⟨(tree.links i).getD []⟩, w)
  asReaddirHandle i w := (some i, w)
  asReaddirplusHandle _ w := (none, w)
  releasedir _ _ _ w := (.ok (), w)
  readdir i _ q w :=
    (match StaticDirectory.readdir (tree.statics i w) (alloc q) q with
      | .ok bytes => .ok bytes
      | .error _ => .ok [], w)
  readdirplus _ _ _ w := (.ok [], w)
  asReadHandle i w := (some i, w)
  asWriteHandle i w := (some i, w)
  release _ _ _ w := (.ok (), w)
  read i _ q w :=
    match q.offset, q.size with
    | .ok o, .ok n => (.ok (((w.1 i).drop o.toNat).take n.toNat), w)
    | _, _ => (.ok [], w)
  write i _ q w :=
    match q.offset, q.value with
    | .ok o, .ok d =>
      (.ok (UInt32.ofNat d.length), (fun j => if j = i then splice (w.1 i) d o.toNat else w.1 j, w.2))
    | _, _ => (.ok 0, w)

/-- The filesystem served through the VFS layer. -/
def served (layout : FuseLayout) (os : OsErrors) (checks : Bool) (alloc : ReaddirRequest → Nat) :
    Filesystem NodeId NodeId NodeId TreeWorld Unit :=
  ⟨TreeWorld.socket, layout, os, tree.impl alloc, checks⟩

end Spec.Tree

/-- Handling one message: `FuseRequest::new`, as in `FuseConnection::recv`, and `Filesystem::dispatch`; what is sent
meanwhile is the answer.  There is no state left when the message is refused, or `dispatch` does not handle it, panics
or returns an error: such a server does not answer any more. -/
def Filesystem.ask (fs : Filesystem NodeId NodeId NodeId TreeWorld Unit) (m : Bytes) :
    Option (Vfs NodeId NodeId NodeId TreeWorld) → List Bytes × Option (Vfs NodeId NodeId NodeId TreeWorld)
  | none => ([], none)
  | some s =>
    match Request.new m with
    | .error _ => ([], none)
    | .ok r =>
      match (fs.dispatch r).run { s with world := (s.world.1, []) } with
      | (some (.ok ()), s') => (s'.world.2, some s')
      | _ => ([], none)

/-! ## Proofs -/

open Spec

theorem Prog.run_bind {S α β : Type} (p : Prog S α) (g : α → Prog S β) (s : S) :
    (p.bind g).run s = (g (p.run s).1).run (p.run s).2 := by
  induction p generalizing s with
  | done a => rfl
  | step f k ih => exact ih s (f s)

/-- Running a handler alone. -/
def VfsM.runAlone {ν φ η σ ε α : Type} (p : VfsM ν φ η σ ε α) (s : Vfs ν φ η σ) : Outcome ε α × Vfs ν φ η σ :=
  Prog.run p s

section
variable {tree : Tree} {layout : FuseLayout} {os : OsErrors} {checks : Bool} {alloc : ReaddirRequest → Nat}

local notation "FS" => tree.served layout os checks alloc

theorem run_reply (id : NonZeroU64) (a : FuseAnswer) (s : Vfs NodeId NodeId NodeId TreeWorld)
    (h : 16 + (a.payload layout.versionMinor.toNat).length < 2 ^ 32) :
    ((FS).reply id (fun r => a.run r)).runAlone s = (.ok (), { s with world :=
      (s.world.1, s.world.2 ++ [frame id.val a.error (a.payload layout.versionMinor.toNat)]) }) := by
  obtain ⟨buf, ⟨cs, h1, _, h2, _⟩, h3⟩ := C17_fuse TreeWorld.socket layout id a s.world h
  show (_, _) = _
  simp only [Tree.served]
  rw [h3]
  simp only [TreeWorld.socket, h1, h2]

theorem parse_frame_ok (u : UInt64) (p : Bytes) (h : 16 + p.length < 2 ^ 32) :
    parseReply u (frame u 0 p) = some (.ok p) := by
  obtain ⟨h1, h2, h3, h4⟩ := C17_frame u 0 p h
  unfold parseReply
  rw [if_pos ⟨by rw [frame_length]; omega, h1, h3⟩, if_pos (by rw [h2]; rfl), h4]

theorem parse_frame_err (u : UInt64) (e : FuseError) : parseReply u (frame u e.val []) = some (.error e.val) := by
  obtain ⟨h1, h2, h3, h4⟩ := C17_frame u e.val [] (by decide)
  unfold parseReply
  rw [if_pos ⟨by rw [frame_length]; omega, h1, h3⟩, if_neg, if_pos (by rw [frame_length]; rfl), h2]
  · rw [UInt32.ofNat_toNat]; rfl
  · intro h0
    exact e.2 (frame_error_zero h0)

section
variable {a : ClientReq} {u node : UInt64} {uid gid pid : UInt32}

theorem message_hd (hu : u ≠ 0) : ∃ (id : NonZeroU64) (hdr : FuseInHeader), id.val = u ∧
    Request.rawHeader ⟨a.message u node uid gid pid 0⟩ = .ok hdr ∧ hdr.opcode = UInt32.ofNat a.opcode ∧
    Filesystem.idAndHeader ⟨a.message u node uid gid pid 0⟩ = .ok (id, hdr) := by
  have hh : Request.rawHeader ⟨a.message u node uid gid pid 0⟩ =
      .ok ⟨UInt32.ofNat (40 + a.body.length), UInt32.ofNat a.opcode, u, node, uid, gid, pid, 0⟩ := by
    have := hd_message (a := a) (unique := u) (nodeid := node) (uid := uid) (gid := gid) (pid := pid) (padding := 0)
      (tail := [])
    rw [List.append_nil] at this
    unfold Request.rawHeader
    rw [size_fuse_in_header, if_pos (by show 40 ≤ _; rw [message_length]; omega), ← this]
  refine ⟨⟨u, hu⟩, _, rfl, hh, rfl, idAndHeader_ok hh ?_⟩
  simp only [FuseInHeader.requestId, NonZeroU64.newUnchecked, dif_pos hu]

/-- Handling a message is running its handler. -/
theorem ask_eq (hu : u ≠ 0) (hl : 40 + a.body.length < 2 ^ 32)
    {p : Request → VfsM NodeId NodeId NodeId TreeWorld Unit Unit}
    (hsel : ∀ r, (FS).select (UInt32.ofNat a.opcode) r = some (p r)) (s : Vfs NodeId NodeId NodeId TreeWorld)
    {s'} (hr : (p ⟨a.message u node uid gid pid 0⟩).runAlone { s with world := (s.world.1, []) } = (.ok (), s')) :
    (FS).ask (a.message u node uid gid pid 0) (some s) = (s'.world.2, some s') := by
  have hacc := message_acceptable (a := a) (unique := u) (nodeid := node) (uid := uid) (gid := gid) (pid := pid)
    (padding := 0) (tail := []) hu hl
  rw [List.append_nil] at hacc
  obtain ⟨id, hdr, _, h1, h2, _⟩ := message_hd (a := a) (node := node) (uid := uid) (gid := gid) (pid := pid) hu
  unfold Filesystem.ask
  rw [acceptable_new hacc]
  dsimp only
  unfold Filesystem.dispatch
  rw [h1]
  dsimp only
  rw [h2, hsel]
  dsimp only
  have := Prog.run_bind (p ⟨a.message u node uid gid pid 0⟩) (fun out => .done (some out))
    { s with world := (s.world.1, []) }
  rw [show Prog.run (p ⟨a.message u node uid gid pid 0⟩) { s with world := (s.world.1, []) } = (.ok (), s') from hr] at this
  rw [this]
  rfl

theorem decode_own {t : ReqType} {α : Type} {f : α → AnyRequest} {dm : DecM α} (ht : a.HasType t)
    (hw : a.WellFormed node t.isCuse) (hne : a.ShiftFree) (hu : u ≠ 0) (hl : 40 + a.body.length < 2 ^ 32)
    (h80 : ¬ a.IsOldWrite) (hd : decodeAny t = f <$> dm) :
    ∃ x, Request.decode ⟨a.message u node uid gid pid 0⟩ dm = .ok x ∧ a.Matches node t.isCuse (f x) := by
  have hacc := message_acceptable (a := a) (unique := u) (nodeid := node) (uid := uid) (gid := gid) (pid := pid)
    (padding := 0) (tail := []) hu hl
  obtain ⟨r, h1, h2⟩ := decode_message (unique := u) (uid := uid) (gid := gid) (pid := pid) (padding := 0) (tail := [])
    ht hw hne hu hl (fun h => absurd h h80)
  rw [List.append_nil] at h1 hacc
  obtain ⟨x, h3, rfl⟩ := decode_request hacc hd h1
  exact ⟨x, h3, h2⟩

end

theorem decoded_ok_bind {ν φ η σ ε α β : Type} (a : α) (k : α → VfsM ν φ η σ ε β) :
    (VfsM.decoded (.ok a) >>= k) = k a := rfl

theorem run_nodesGet {β : Type} (id : NodeId) (k : Except FuseError NodeId → VfsM NodeId NodeId NodeId TreeWorld Unit β)
    (s : Vfs NodeId NodeId NodeId TreeWorld) :
    ((FS).nodesGet id >>= k).runAlone s = (k (s.nodes.get os id)).runAlone s := rfl

theorem run_getDir {β : Type} (id : NodeId) (fh : UInt64)
    (k : Except FuseError NodeId → VfsM NodeId NodeId NodeId TreeWorld Unit β) (s : Vfs NodeId NodeId NodeId TreeWorld) :
    ((FS).getDir id fh >>= k).runAlone s = (k (s.handles.getDir os id fh)).runAlone s := rfl

theorem run_getFile {β : Type} (id : NodeId) (fh : UInt64)
    (k : Except FuseError NodeId → VfsM NodeId NodeId NodeId TreeWorld Unit β) (s : Vfs NodeId NodeId NodeId TreeWorld) :
    ((FS).getFile id fh >>= k).runAlone s = (k (s.handles.getFile os id fh)).runAlone s := rfl

theorem run_call {α β : Type} {f : TreeWorld → α × TreeWorld} {s : Vfs NodeId NodeId NodeId TreeWorld} {a : α}
    {w : TreeWorld} (h : f s.world = (a, w)) (k : α → VfsM NodeId NodeId NodeId TreeWorld Unit β) :
    ((VfsM.call f : VfsM NodeId NodeId NodeId TreeWorld Unit α) >>= k).runAlone s =
      (k a).runAlone { s with world := w } := by
  show (k (f s.world).1).runAlone { s with world := (f s.world).2 } = _
  rw [h]

theorem run_locked {α : Type} {f : HandlesMap NodeId NodeId → Except Fault α × HandlesMap NodeId NodeId}
    {s : Vfs NodeId NodeId NodeId TreeWorld} {a : α} {m : HandlesMap NodeId NodeId} (h : f s.handles = (.ok a, m)) :
    (VfsM.locked f : VfsM NodeId NodeId NodeId TreeWorld Unit α).runAlone s = (.ok a, { s with handles := m }) := by
  simp only [VfsM.runAlone, VfsM.locked, Prog.act, Prog.run, h]

theorem run_bind {α β : Type} (x : VfsM NodeId NodeId NodeId TreeWorld Unit α)
    (k : α → VfsM NodeId NodeId NodeId TreeWorld Unit β) {s s' : Vfs NodeId NodeId NodeId TreeWorld} {a : α}
    (h : x.runAlone s = (.ok a, s')) : (x >>= k).runAlone s = (k a).runAlone s' := by
  have := Prog.run_bind x (VfsM.andThen k) s
  rw [show Prog.run x s = (.ok a, s') from h] at this
  exact this

section
variable {u : UInt64} {uid gid pid : UInt32} {i : NodeId} {x : NodeLookup NodeId}
  {s : Vfs NodeId NodeId NodeId TreeWorld} {name : Bytes}

theorem nodes_get (hx : s.nodes i = some x) : s.nodes.get os i = .ok x.node := by
  unfold NodeMap.get; rw [hx]

theorem run_err (id : NonZeroU64) (e : FuseError) (s : Vfs NodeId NodeId NodeId TreeWorld) :
    ((FS).reply id (·.err e)).runAlone s = (.ok (), { s with world :=
      (s.world.1, s.world.2 ++ [frame id.val e.val []]) }) := run_reply id (.err e) s (by decide : 16 + 0 < 2 ^ 32)

/-- What LOOKUP does to the node map. -/
def Spec.Tree.after (tree : Tree) (m : NodeMap NodeId) (i : NodeId) (name : Bytes) : NodeMap NodeId :=
  match tree.dirs i with
  | none => m
  | some es => match es.lookup name with
    | none => m
    | some j => (m.add j j).2

/-- What LOOKUP answers. -/
def Spec.Tree.found (tree : Tree) (os : OsErrors) (w : TreeWorld) (i : NodeId) (name : Bytes) : FuseAnswer :=
  match tree.dirs i with
  | none => .err os.notDirectory
  | some es => match es.lookup name with
    | none => match tree.absent with
      | some e => .err e
      | none => .ok (.entryOut (Filesystem.lookupEntry (ν := NodeId) ⟨none, 0, tree.timeout, tree.timeout⟩))
    | some j => .ok (.entryOut (Filesystem.lookupEntry ⟨some (j, tree.attr j w), 0, tree.timeout, tree.timeout⟩))

theorem entry_length (x : FuseEntryOut) (minor : Nat) : 16 + (entryBytes minor x).length < 2 ^ 32 := by
  have := Hello.attr_len minor x.attr
  unfold entryBytes
  simp only [List.length_append, le64, le32]
  simp
  omega

theorem attr_nodeId (j : NodeId) (w : TreeWorld) : (tree.attr j w).nodeId = .ok j := by
  unfold NodeAttr.nodeId NodeId.newUnchecked
  exact dif_pos j.2

theorem ask_lookup (hu : u ≠ 0) (hn : NameOk name) (hl : name.length + 41 < 2 ^ 32) (hx : s.nodes i = some x)
    (hxi : x.node = i) (hc : ∀ j y, s.nodes j = some y → y.lookupCount.toNat + 1 < 2 ^ 64) :
    (FS).ask ((ClientReq.lookup name).message u i.val uid gid pid 0) (some s) =
      ([frame u (tree.found os s.world i name).error
        ((tree.found os s.world i name).payload layout.versionMinor.toNat)],
        some ⟨tree.after s.nodes i name, s.handles, s.world.1, [frame u (tree.found os s.world i name).error
          ((tree.found os s.world i name).payload layout.versionMinor.toNat)]⟩) := by
  have hb : 40 + (ClientReq.lookup name).body.length < 2 ^ 32 := by
    show 40 + (name ++ [0]).length < _; rw [List.length_append]; simp only [List.length_cons, List.length_nil]; omega
  obtain ⟨id, hdr, h1, _, _, h2⟩ := message_hd (a := .lookup name) (node := i.val) (uid := uid) (gid := gid) (pid := pid) hu
  obtain ⟨q, h3, h4, h5⟩ := decode_own (a := .lookup name) (t := .lookup) (f := .lookup) (dm := decodeLookup)
    (node := i.val) (u := u) (uid := uid) (gid := gid) (pid := pid) trivial ⟨i.2, hn⟩ trivial hu hb (fun h => h) rfl
  refine ask_eq (p := (FS).lookup) (s' := ⟨tree.after s.nodes i name, s.handles, s.world.1, [frame u
    (tree.found os s.world i name).error ((tree.found os s.world i name).payload layout.versionMinor.toNat)]⟩) hu hb
    (fun _ => rfl) s ?_
  unfold Filesystem.lookup
  rw [h2, ofFault_ok_bind]
  dsimp only
  rw [h3, decoded_ok_bind, show q.parentId = i from Subtype.ext h4, run_nodesGet, nodes_get hx, hxi]
  dsimp only
  unfold Tree.found Tree.after
  rw [← h1]
  cases hd : tree.dirs i with
  | none =>
    rw [run_call (a := none) (w := (s.world.1, [])) (by
      show (if (tree.dirs i).isSome then some i else none, _) = _; rw [hd]; rfl)]
    exact run_err id _ _
  | some es =>
    rw [run_call (a := some i) (w := (s.world.1, [])) (by
      show (if (tree.dirs i).isSome then some i else none, _) = _; rw [hd]; rfl)]
    dsimp only
    rw [run_call (w := (s.world.1, [])) (by
      show (match ((tree.dirs i).getD []).lookup q.name.bytes with | some j => _ | none => _, _) = (_, _)
      rw [hd, h5, Option.getD_some])]
    cases he : es.lookup name with
    | none =>
      dsimp only
      cases ha : tree.absent with
      | some e => exact run_err id _ _
      | none => exact run_reply id (.ok (.entryOut _)) _ (entry_length _ _)
    | some j =>
      dsimp only
      rw [attr_nodeId, ofFault_ok_bind]
      refine (run_bind _ _ (run_reply id (.ok (.entryOut _)) _ (entry_length _ _))).trans ?_
      show (_, _) = _
      unfold NodeMap.add
      cases hj : s.nodes j with
      | none => simp only [hj]; rfl
      | some y => simp only [hj, if_pos (hc j y hj)]; rfl

theorem ask_getattr (h9 : 9 ≤ layout.versionMinor) (hu : u ≠ 0) (hx : s.nodes i = some x) (hxi : x.node = i) :
    ∃ p : FuseAttrOut, p.attr = (tree.attr i s.world).raw ∧
    (FS).ask ((ClientReq.getattr {}).message u i.val uid gid pid 0) (some s) =
      ([frame u 0 (attrOutBytes layout.versionMinor.toNat p)],
        some ⟨s.nodes, s.handles, s.world.1, [frame u 0 (attrOutBytes layout.versionMinor.toNat p)]⟩) := by
  have hb : 40 + (ClientReq.getattr {}).body.length < 2 ^ 32 := by decide
  obtain ⟨id, hdr, h1, _, _, h2⟩ := message_hd (a := .getattr {}) (node := i.val) (uid := uid) (gid := gid) (pid := pid) hu
  obtain ⟨q, h3, ⟨n, h4, h4'⟩, h5⟩ := decode_own (a := .getattr {}) (t := .getattr layout) (f := .getattr)
    (dm := decodeGetattr layout) (node := i.val) (u := u) (uid := uid) (gid := gid) (pid := pid) h9 i.2 trivial hu hb
    (fun h => h) rfl
  cases Subtype.ext h4'
  let p : FuseAttrOut :=
    { attr := (tree.attr i s.world).raw, attr_valid := (vfsSplitDuration tree.timeout 0 0).1
      attr_valid_nsec := (vfsSplitDuration tree.timeout 0 0).2 }
  refine ⟨p, rfl, ?_⟩
  refine ask_eq (p := (FS).getattr) (s' := ⟨s.nodes, s.handles, s.world.1,
    [frame u 0 (attrOutBytes layout.versionMinor.toNat p)]⟩) hu hb (fun _ => rfl) s ?_
  unfold Filesystem.getattr
  rw [h2, ofFault_ok_bind]
  dsimp only
  rw [show (FS).layout = layout from rfl, h3, decoded_ok_bind, h4, ofFault_ok_bind, run_nodesGet, nodes_get hx, hxi,
    ← h1]
  dsimp only
  rw [run_call (a := .ok ⟨tree.attr i (s.world.1, []), tree.timeout⟩) (w := (s.world.1, [])) rfl]
  refine run_reply id (.ok (.attr p)) _ ?_
  show 16 + (attrOutBytes layout.versionMinor.toNat p).length < 2 ^ 32
  have := Hello.attr_len layout.versionMinor.toNat p.attr
  unfold attrOutBytes
  simp only [List.length_append, le64, le32]
  simp
  omega

theorem ask_open_dir (hu : u ≠ 0) (hx : s.nodes i = some x) (hxi : x.node = i) (hd : tree.notFile i = true) :
    (FS).ask ((ClientReq.open_ {}).message u i.val uid gid pid 0) (some s) =
      ([frame u os.notSupported.val []], some ⟨s.nodes, s.handles, s.world.1, [frame u os.notSupported.val []]⟩) := by
  have hb : 40 + (ClientReq.open_ {}).body.length < 2 ^ 32 := by decide
  obtain ⟨id, hdr, h1, _, _, h2⟩ := message_hd (a := .open_ {}) (node := i.val) (uid := uid) (gid := gid) (pid := pid) hu
  obtain ⟨q, h3, h4, h5⟩ := decode_own (a := .open_ {}) (t := .open_ false) (f := .open_)
    (dm := decodeOpen false) (node := i.val) (u := u) (uid := uid) (gid := gid) (pid := pid) trivial (.inr i.2) trivial hu
    hb (fun h => h) rfl
  have hq : q.nodeId = i := Subtype.ext (h4.trans (if_neg i.2))
  refine ask_eq (p := (FS).open_) (s' := ⟨s.nodes, s.handles, s.world.1,
    [frame u os.notSupported.val []]⟩) hu hb (fun _ => rfl) s ?_
  unfold Filesystem.open_
  rw [h2, ofFault_ok_bind]
  dsimp only
  rw [h3, decoded_ok_bind, hq, run_nodesGet, nodes_get hx, hxi, ← h1]
  dsimp only
  rw [run_call (a := none) (w := (s.world.1, [])) (by
    show (if tree.notFile i then none else some i, _) = _; rw [hd]; rfl)]
  exact run_err id _ _

theorem ask_open_file (hu : u ≠ 0) (hx : s.nodes i = some x) (hxi : x.node = i) (hd : tree.notFile i = false)
    (hc : s.handles.nextHandleId.toNat + 1 < 2 ^ 64) :
    let p := layout_fuse_open_out { fh := s.handles.nextHandleId, open_flags := 0 }
    (FS).ask ((ClientReq.open_ {}).message u i.val uid gid pid 0) (some s) =
      ([frame u 0 p], some ⟨s.nodes, (s.handles.openFile i).2, s.world.1, [frame u 0 p]⟩) := by
  intro p
  have hb : 40 + (ClientReq.open_ {}).body.length < 2 ^ 32 := by decide
  obtain ⟨id, hdr, h1, _, _, h2⟩ := message_hd (a := .open_ {}) (node := i.val) (uid := uid) (gid := gid) (pid := pid) hu
  obtain ⟨q, h3, h4, h5⟩ := decode_own (a := .open_ {}) (t := .open_ false) (f := .open_)
    (dm := decodeOpen false) (node := i.val) (u := u) (uid := uid) (gid := gid) (pid := pid) trivial (.inr i.2) trivial hu
    hb (fun h => h) rfl
  have hq : q.nodeId = i := Subtype.ext (h4.trans (if_neg i.2))
  refine ask_eq (p := (FS).open_) (s' := ⟨s.nodes, (s.handles.openFile i).2, s.world.1,
    [frame u 0 p]⟩) hu hb (fun _ => rfl) s ?_
  unfold Filesystem.open_
  rw [h2, ofFault_ok_bind]
  dsimp only
  rw [h3, decoded_ok_bind, hq, run_nodesGet, nodes_get hx, hxi, ← h1]
  dsimp only
  rw [run_call (a := some i) (w := (s.world.1, [])) (by
    show (if tree.notFile i then none else some i, _) = _; rw [hd]; rfl)]
  dsimp only
  rw [run_call (a := .ok ⟨i, 0⟩) (w := (s.world.1, [])) rfl]
  dsimp only
  have hf : s.handles.openFile i = (.ok s.handles.nextHandleId, (s.handles.openFile i).2) := by
    unfold HandlesMap.openFile; dsimp only; rw [if_pos hc]
  refine (run_bind (a := s.handles.nextHandleId)
    (s' := ⟨s.nodes, (s.handles.openFile i).2, s.world.1, []⟩) _ _ ?_).trans ?_
  · exact run_locked hf
  · exact run_reply id (.ok (.open_ _)) _ (by show 16 + (layout_fuse_open_out _).length < _; unfold layout_fuse_open_out; simp)

theorem ask_read (h9 : 9 ≤ layout.versionMinor) (hu : u ≠ 0) {fh offset : UInt64} {size : UInt32}
    (hs : size.toNat + 16 < 2 ^ 32) {node : NodeId} (hf : s.handles.openFiles fh = some i) :
    let p := ((s.world.1 i).drop offset.toNat).take size.toNat
    (FS).ask ((ClientReq.read { fh := fh, offset := offset, size := size }).message u node.val uid gid pid 0) (some s) =
      ([frame u 0 p], some ⟨s.nodes, s.handles, s.world.1, [frame u 0 p]⟩) := by
  intro p
  let a : ClientReq := .read { fh := fh, offset := offset, size := size }
  have hb : 40 + a.body.length < 2 ^ 32 := by show 40 + (layout_fuse_read_in _).length < _; unfold layout_fuse_read_in; simp
  obtain ⟨id, hdr, h1, _, _, h2⟩ := message_hd (a := a) (node := node.val) (uid := uid) (gid := gid) (pid := pid) hu
  obtain ⟨q, h3, h4, h5, h6, h7, _⟩ := decode_own (a := a) (t := .read layout.minor false) (f := .read)
    (dm := decodeRead layout.minor false) (node := node.val) (u := u) (uid := uid) (gid := gid) (pid := pid)
    (by have := UInt16.le_iff_toNat_le.mp h9; exact UInt32.le_iff_toNat_le.mpr this) (.inr node.2) trivial hu
    hb (fun h => h) rfl
  refine ask_eq (p := (FS).read) (s' := ⟨s.nodes, s.handles, s.world.1,
    [frame u 0 p]⟩) hu hb (fun _ => rfl) s ?_
  unfold Filesystem.read
  rw [h2, ofFault_ok_bind]
  dsimp only
  rw [show (FS).layout = layout from rfl, h3, decoded_ok_bind, h7, ofFault_ok_bind, run_getFile, ← h1]
  unfold HandlesMap.getFile
  dsimp only
  rw [hf]
  dsimp only
  rw [run_call (a := some i) (w := (s.world.1, [])) rfl]
  dsimp only
  rw [run_call (a := .ok p) (w := (s.world.1, [])) (by
    show (match q.offset, q.size with | .ok o, .ok n => _ | _, _ => _) = _
    rw [h5, h6])]
  refine run_reply id (.okBuf p) _ ?_
  show 16 + (((s.world.1 i).drop offset.toNat).take size.toNat).length < _
  rw [List.length_take]
  omega

theorem ask_write (h9 : 9 ≤ layout.versionMinor) (hu : u ≠ 0) {fh offset : UInt64} {data : Bytes}
    (hs : data.length + 80 < 2 ^ 32) {node : NodeId} (hf : s.handles.openFiles fh = some i) :
    let p := layout_fuse_write_out { size := UInt32.ofNat data.length }
    (FS).ask ((ClientReq.write { fh := fh, offset := offset, size := UInt32.ofNat data.length } data).message u node.val
        uid gid pid 0) (some s) =
      ([frame u 0 p], some ⟨s.nodes, s.handles,
        fun j => if j = i then splice (s.world.1 i) data offset.toNat else s.world.1 j, [frame u 0 p]⟩) := by
  intro p
  let a : ClientReq := .write { fh := fh, offset := offset, size := UInt32.ofNat data.length } data
  have hb : 40 + a.body.length < 2 ^ 32 := by
    show 40 + (layout_fuse_write_in _ ++ data).length < _; unfold layout_fuse_write_in; simp; omega
  obtain ⟨id, hdr, h1, _, _, h2⟩ := message_hd (a := a) (node := node.val) (uid := uid) (gid := gid) (pid := pid) hu
  obtain ⟨q, h3, ⟨n, h4, _⟩, h5, h6, h7, _⟩ := decode_own (a := a) (t := .write layout.minor false) (f := .write)
    (dm := decodeWrite layout.minor false) (node := node.val) (u := u) (uid := uid) (gid := gid) (pid := pid)
    (by have := UInt16.le_iff_toNat_le.mp h9; exact UInt32.le_iff_toNat_le.mpr this)
    ⟨.inr node.2, UInt32.toNat_ofNat_of_lt' (by show data.length < 2 ^ 32; omega)⟩ trivial hu hb (fun h => h) rfl
  refine ask_eq (p := (FS).write) (s' := ⟨s.nodes, s.handles,
        fun j => if j = i then splice (s.world.1 i) data offset.toNat else s.world.1 j,
    [frame u 0 p]⟩) hu hb (fun _ => rfl) s ?_
  unfold Filesystem.write
  rw [h2, ofFault_ok_bind]
  dsimp only
  rw [show (FS).layout = layout from rfl, h3, decoded_ok_bind, h4, ofFault_ok_bind, h6, ofFault_ok_bind, run_getFile, ← h1]
  unfold HandlesMap.getFile
  dsimp only
  rw [hf]
  dsimp only
  rw [run_call (a := some i) (w := (s.world.1, [])) rfl]
  dsimp only
  rw [run_call (a := .ok (UInt32.ofNat data.length))
    (w := (fun j => if j = i then splice (s.world.1 i) data offset.toNat else s.world.1 j, [])) (by
    show (match q.offset, q.value with | .ok o, .ok n => _ | _, _ => _) = _
    rw [h5, h7])]
  exact run_reply id (.ok (.write _)) _ (by show 16 + (layout_fuse_write_out _).length < _; unfold layout_fuse_write_out; simp)

theorem ask_release (h9 : 9 ≤ layout.versionMinor) (hu : u ≠ 0) {fh : UInt64} {node : NodeId}
    (hf : s.handles.openFiles fh = some i) :
    (FS).ask ((ClientReq.release { fh := fh }).message u node.val uid gid pid 0) (some s) =
      ([frame u 0 []], some ⟨s.nodes, s.handles.closeFile node fh, s.world.1, [frame u 0 []]⟩) := by
  let a : ClientReq := .release { fh := fh }
  have hb : 40 + a.body.length < 2 ^ 32 := by
    show 40 + (layout_fuse_release_in _).length < _; unfold layout_fuse_release_in; simp
  obtain ⟨id, hdr, h1, _, _, h2⟩ := message_hd (a := a) (node := node.val) (uid := uid) (gid := gid) (pid := pid) hu
  obtain ⟨q, h3, h4, h5, _⟩ := decode_own (a := a) (t := .release layout.minor false) (f := .release)
    (dm := decodeRelease layout.minor false) (node := node.val) (u := u) (uid := uid) (gid := gid) (pid := pid)
    (by have := UInt16.le_iff_toNat_le.mp h9; exact UInt32.le_iff_toNat_le.mpr (Nat.le_trans (by decide : 8 ≤ 9) this))
    (.inr node.2) trivial hu hb (fun h => h) rfl
  refine ask_eq (p := (FS).release) (s' := ⟨s.nodes, s.handles.closeFile node fh, s.world.1,
    [frame u 0 []]⟩) hu hb (fun _ => rfl) s ?_
  unfold Filesystem.release
  rw [h2, ofFault_ok_bind]
  dsimp only
  rw [show (FS).layout = layout from rfl, h3, decoded_ok_bind, h5, ofFault_ok_bind, ← h1]
  refine (run_bind (a := .ok ()) (s' := ⟨s.nodes, s.handles.closeFile node fh, s.world.1, []⟩) _ _ ?_).trans ?_
  · simp only [VfsM.runAlone, Filesystem.releaseLocked, Prog.act, Prog.run, HandlesMap.getFile, hf]
    rfl
  · exact run_reply id .okEmpty _ (by decide : 16 + 0 < 2 ^ 32)

theorem ask_opendir_file (hu : u ≠ 0) (hx : s.nodes i = some x) (hxi : x.node = i)
    (hd : (tree.dirs i).isSome = false) :
    (FS).ask ((ClientReq.opendir {}).message u i.val uid gid pid 0) (some s) =
      ([frame u os.notDirectory.val []], some ⟨s.nodes, s.handles, s.world.1, [frame u os.notDirectory.val []]⟩) := by
  have hb : 40 + (ClientReq.opendir {}).body.length < 2 ^ 32 := by decide
  obtain ⟨id, hdr, h1, _, _, h2⟩ := message_hd (a := .opendir {}) (node := i.val) (uid := uid) (gid := gid) (pid := pid) hu
  obtain ⟨q, h3, ⟨n, h4, h4'⟩, h5⟩ := decode_own (a := .opendir {}) (t := .opendir) (f := .opendir)
    (dm := decodeOpendir) (node := i.val) (u := u) (uid := uid) (gid := gid) (pid := pid) trivial i.2 trivial hu
    hb (fun h => h) rfl
  cases Subtype.ext h4'
  refine ask_eq (p := (FS).opendir) (s' := ⟨s.nodes, s.handles, s.world.1,
    [frame u os.notDirectory.val []]⟩) hu hb (fun _ => rfl) s ?_
  unfold Filesystem.opendir
  rw [h2, ofFault_ok_bind]
  dsimp only
  rw [h3, decoded_ok_bind, h4, ofFault_ok_bind, run_nodesGet, nodes_get hx, hxi, ← h1]
  dsimp only
  rw [run_call (a := none) (w := (s.world.1, [])) (by
    show (if (tree.dirs i).isSome then some i else none, _) = _; rw [hd]; rfl)]
  exact run_err id _ _

theorem ask_opendir (hu : u ≠ 0) (hx : s.nodes i = some x) (hxi : x.node = i) (hd : (tree.dirs i).isSome = true)
    (hc : s.handles.nextHandleId.toNat + 1 < 2 ^ 64) :
    let p := layout_fuse_open_out { fh := s.handles.nextHandleId, open_flags := 0 }
    (FS).ask ((ClientReq.opendir {}).message u i.val uid gid pid 0) (some s) =
      ([frame u 0 p], some ⟨s.nodes, (s.handles.openDir i).2, s.world.1, [frame u 0 p]⟩) := by
  intro p
  have hb : 40 + (ClientReq.opendir {}).body.length < 2 ^ 32 := by decide
  obtain ⟨id, hdr, h1, _, _, h2⟩ := message_hd (a := .opendir {}) (node := i.val) (uid := uid) (gid := gid) (pid := pid) hu
  obtain ⟨q, h3, ⟨n, h4, h4'⟩, h5⟩ := decode_own (a := .opendir {}) (t := .opendir) (f := .opendir)
    (dm := decodeOpendir) (node := i.val) (u := u) (uid := uid) (gid := gid) (pid := pid) trivial i.2 trivial hu
    hb (fun h => h) rfl
  cases Subtype.ext h4'
  refine ask_eq (p := (FS).opendir) (s' := ⟨s.nodes, (s.handles.openDir i).2, s.world.1,
    [frame u 0 p]⟩) hu hb (fun _ => rfl) s ?_
  unfold Filesystem.opendir
  rw [h2, ofFault_ok_bind]
  dsimp only
  rw [h3, decoded_ok_bind, h4, ofFault_ok_bind, run_nodesGet, nodes_get hx, hxi, ← h1]
  dsimp only
  rw [run_call (a := some i) (w := (s.world.1, [])) (by
    show (if (tree.dirs i).isSome then some i else none, _) = _; rw [hd]; rfl)]
  dsimp only
  rw [run_call (a := .ok ⟨i, 0⟩) (w := (s.world.1, [])) rfl]
  dsimp only
  have hf : s.handles.openDir i = (.ok s.handles.nextHandleId, (s.handles.openDir i).2) := by
    unfold HandlesMap.openDir; dsimp only; rw [if_pos hc]
  refine (run_bind (a := s.handles.nextHandleId)
    (s' := ⟨s.nodes, (s.handles.openDir i).2, s.world.1, []⟩) _ _ ?_).trans ?_
  · exact run_locked hf
  · exact run_reply id (.ok (.open_ _)) _ (by show 16 + (layout_fuse_open_out _).length < _; unfold layout_fuse_open_out; simp)

theorem ask_releasedir (h9 : 9 ≤ layout.versionMinor) (hu : u ≠ 0) {fh : UInt64} {node : NodeId}
    (hf : s.handles.openDirs fh = some i) :
    (FS).ask ((ClientReq.releasedir { fh := fh }).message u node.val uid gid pid 0) (some s) =
      ([frame u 0 []], some ⟨s.nodes, s.handles.closeDir node fh, s.world.1, [frame u 0 []]⟩) := by
  let a : ClientReq := .releasedir { fh := fh }
  have hb : 40 + a.body.length < 2 ^ 32 := by
    show 40 + (layout_fuse_release_in _).length < _; unfold layout_fuse_release_in; simp
  obtain ⟨id, hdr, h1, _, _, h2⟩ := message_hd (a := a) (node := node.val) (uid := uid) (gid := gid) (pid := pid) hu
  obtain ⟨q, h3, ⟨n, h4, h4'⟩, h5, _⟩ := decode_own (a := a) (t := .releasedir layout) (f := .releasedir)
    (dm := decodeReleasedir layout) (node := node.val) (u := u) (uid := uid) (gid := gid) (pid := pid)
    (by have := UInt16.le_iff_toNat_le.mp h9; exact UInt16.le_iff_toNat_le.mpr (Nat.le_trans (by decide : 8 ≤ 9) this))
    node.2 trivial hu hb (fun h => h) rfl
  cases Subtype.ext h4'
  refine ask_eq (p := (FS).releasedir) (s' := ⟨s.nodes, s.handles.closeDir node fh, s.world.1,
    [frame u 0 []]⟩) hu hb (fun _ => rfl) s ?_
  unfold Filesystem.releasedir
  rw [h2, ofFault_ok_bind]
  dsimp only
  rw [show (FS).layout = layout from rfl, h3, decoded_ok_bind, h4, ofFault_ok_bind, h5, ofFault_ok_bind, ← h1]
  refine (run_bind (a := .ok ()) (s' := ⟨s.nodes, s.handles.closeDir node fh, s.world.1, []⟩) _ _ ?_).trans ?_
  · simp only [VfsM.runAlone, Filesystem.releasedirLocked, Prog.act, Prog.run, HandlesMap.getDir, hf]
    rfl
  · exact run_reply id .okEmpty _ (by decide : 16 + 0 < 2 ^ 32)

theorem statics_typed (hn : tree.Ok) (w : TreeWorld) :
    (∀ e, e ∈ tree.statics i w → e.WellTyped) ∧ (tree.statics i w).length < 2 ^ 63 := by
  unfold Tree.statics
  cases hd : tree.dirs i with
  | none => exact ⟨fun e he => absurd he List.not_mem_nil, by show 0 < 2 ^ 63; decide⟩
  | some es =>
    obtain ⟨h1, h2⟩ := hn.names i es hd
    refine ⟨fun e he => ?_, by rw [List.length_map]; exact h2⟩
    obtain ⟨x, hx, rfl⟩ := List.mem_map.mp he
    exact ⟨h1 x hx, x.2.2⟩

theorem ask_readdir (h9 : 9 ≤ layout.versionMinor) (hn : tree.Ok) (hal : ∀ q, alloc q % 8 = 0) (hu : u ≠ 0)
    {fh offset : UInt64} {size : UInt32} {node : NodeId} (hf : s.handles.openDirs fh = some i) :
    ∃ n p, offset.toNat + n ≤ max offset.toNat (tree.statics i s.world).length ∧
      ClientReads 0 p (listing StaticDirectoryEntry.seen (offset.toNat + 1)
        (((tree.statics i s.world).drop offset.toNat).take n)) ∧ p.length ≤ min size.toNat 65535 ∧
      p.length = ((((tree.statics i s.world).drop offset.toNat).take n).map
        fun e => align8 (24 + e.name.bytes.length)).sum ∧
      (∀ e, ((tree.statics i s.world).drop offset.toNat)[n]? = some e →
        min size.toNat 65535 < p.length + align8 (24 + e.name.bytes.length)) ∧
    (FS).ask ((ClientReq.readdir { fh := fh, offset := offset, size := size }).message u node.val uid gid pid 0) (some s) =
      ([frame u 0 p], some ⟨s.nodes, s.handles, s.world.1, [frame u 0 p]⟩) := by
  let a : ClientReq := .readdir { fh := fh, offset := offset, size := size }
  have hb : 40 + a.body.length < 2 ^ 32 := by show 40 + (layout_fuse_read_in _).length < _; unfold layout_fuse_read_in; simp
  obtain ⟨id, hdr, h1, _, _, h2⟩ := message_hd (a := a) (node := node.val) (uid := uid) (gid := gid) (pid := pid) hu
  obtain ⟨q, h3, ⟨n, h4, h4'⟩, h5, h6, _, o, h7, h8⟩ := decode_own (a := a) (t := .readdir layout) (f := .readdir)
    (dm := decodeReaddir layout) (node := node.val) (u := u) (uid := uid) (gid := gid) (pid := pid)
    h9 node.2 trivial hu hb (fun h => h) rfl
  cases Subtype.ext h4'
  have ho : o = NonZeroU64.new offset := by
    unfold NonZeroU64.new
    by_cases h0 : offset = 0
    · have h8' : o.map Subtype.val = none := h8.trans (if_pos h0)
      rw [dif_neg (fun h => h h0)]
      exact Option.map_eq_none_iff.mp h8'
    · have h8' : o.map Subtype.val = some offset := h8.trans (if_neg h0)
      rw [dif_pos h0]
      obtain ⟨y, hy, hy'⟩ := Option.map_eq_some_iff.mp h8'
      rw [hy]; exact congrArg some (Subtype.ext hy')
  rw [ho] at h7
  obtain ⟨hw, hlen⟩ := statics_typed (i := i) hn s.world
  obtain ⟨n, p, e1, e2, e3, e4, e5, _, e6⟩ := C47_page_partial (tree.statics i s.world) hw hlen (alloc q) (hal q) offset
    size q h7 h5
  refine ⟨n, p, e1, e3, e4, e5, e6, ?_⟩
  refine ask_eq (p := (FS).readdir) (s' := ⟨s.nodes, s.handles, s.world.1,
    [frame u 0 p]⟩) hu hb (fun _ => rfl) s ?_
  unfold Filesystem.readdir
  rw [h2, ofFault_ok_bind]
  dsimp only
  rw [show (FS).layout = layout from rfl, h3, decoded_ok_bind, h4, ofFault_ok_bind, h6, ofFault_ok_bind, run_getDir, ← h1]
  unfold HandlesMap.getDir
  dsimp only
  rw [hf]
  dsimp only
  rw [run_call (a := some i) (w := (s.world.1, [])) rfl]
  dsimp only
  rw [run_call (a := .ok p) (w := (s.world.1, [])) (by
    show (match StaticDirectory.readdir (tree.statics i s.world) (alloc q) q with | .ok b => _ | .error _ => _, _) = _
    rw [e2])]
  refine run_reply id (.okBuf p) _ ?_
  show 16 + p.length < _
  omega

/-- The reply for a result. -/
def resultFrame (u : UInt64) : Except FuseError Bytes → Bytes
  | .ok p => frame u 0 p
  | .error e => frame u e.val []

theorem run_result (id : NonZeroU64) (r : Except FuseError Bytes) (hr : ∀ p, r = .ok p → 16 + p.length < 2 ^ 32)
    (w : NodeId → Bytes) :
    (match r with
      | .error e => (FS).reply id (·.err e)
      | .ok b => (FS).reply id (·.okBuf b)).runAlone ⟨s.nodes, s.handles, (w, [])⟩ =
      (.ok (), ⟨s.nodes, s.handles, (w, [resultFrame id.val r])⟩) := by
  cases r with
  | error e => exact run_err id e _
  | ok b => exact run_reply id (.okBuf b) _ (hr b rfl)

theorem sizedResult_map {x : Option { k : Nat // k ≠ 0 }} {size : UInt32}
    (h : x.map Subtype.val = if size = 0 then none else some size.toNat) (value : Bytes) :
    Tree.sizedResult x value = Tree.sizedResult (nonZeroSize size) value := by
  congr 1
  unfold nonZeroSize
  cases x with
  | none =>
    by_cases h0 : size = 0
    · subst h0; rfl
    · rw [if_neg h0] at h; cases h
  | some k =>
    by_cases h0 : size = 0
    · rw [if_pos h0] at h; cases h
    · rw [if_neg h0] at h
      injection h with h
      rw [dif_pos (show size.toNat ≠ 0 from fun hz => h0 (UInt32.toNat_inj.1 hz))]
      exact congrArg some (Subtype.ext h)

theorem sizedResult_fits {size : UInt32} {value : Bytes} (h : value.length + 16 < 2 ^ 32) (p : Bytes)
    (hp : Tree.sizedResult (nonZeroSize size) value = .ok p) : 16 + p.length < 2 ^ 32 := by
  unfold Tree.sizedResult at hp
  split at hp
  · cases hp; rw [enc_fuse_getxattr_out]; unfold layout_fuse_getxattr_out; simp
  · split at hp
    · cases hp; omega
    · cases hp

theorem ask_readlink (hu : u ≠ 0) (hx : s.nodes i = some x) (hxi : x.node = i) (hok : tree.Ok) :
    let r := match tree.links i with | some t => .ok t | none => .error os.notSupported
    (FS).ask (ClientReq.readlink.message u i.val uid gid pid 0) (some s) =
      ([resultFrame u r], some ⟨s.nodes, s.handles, s.world.1, [resultFrame u r]⟩) := by
  intro r
  have hb : 40 + ClientReq.readlink.body.length < 2 ^ 32 := by decide
  obtain ⟨id, hdr, h1, _, _, h2⟩ := message_hd (a := .readlink) (node := i.val) (uid := uid) (gid := gid) (pid := pid) hu
  obtain ⟨q, h3, h4⟩ := decode_own (a := .readlink) (t := .readlink) (f := .readlink) (dm := decodeReadlink)
    (node := i.val) (u := u) (uid := uid) (gid := gid) (pid := pid) trivial i.2 trivial hu hb (fun h => h) rfl
  refine ask_eq (p := (FS).readlink) (s' := ⟨s.nodes, s.handles, s.world.1, [resultFrame u r]⟩) hu hb (fun _ => rfl) s ?_
  unfold Filesystem.readlink
  rw [h2, ofFault_ok_bind]
  dsimp only
  rw [h3, decoded_ok_bind, show q.nodeId = i from Subtype.ext h4, run_nodesGet, nodes_get hx, hxi, ← h1]
  dsimp only
  cases hl : tree.links i with
  | none =>
    rw [run_call (a := none) (w := (s.world.1, [])) (by
      show (if (tree.links i).isSome then some i else none, _) = _; rw [hl]; rfl), show r = .error os.notSupported by
        show (match tree.links i with | some t => _ | none => _) = _; rw [hl]]
    exact run_err id _ _
  | some t =>
    rw [run_call (a := some i) (w := (s.world.1, [])) (by
      show (if (tree.links i).isSome then some i else none, _) = _; rw [hl]; rfl), show r = .ok t by
        show (match tree.links i with | some t => _ | none => _) = _; rw [hl]]
    dsimp only
    rw [run_call (a := .ok ⟨t⟩) (w := (s.world.1, [])) (by
      show (Except.ok (⟨(tree.links i).getD []⟩ : CStr), _) = _; rw [hl]; rfl)]
    exact run_reply id (.okBuf t) _ (by have := hok.targets i t hl; show 16 + t.length < _; omega)

theorem ask_getxattr (hu : u ≠ 0) (hx : s.nodes i = some x) (hxi : x.node = i) (hok : tree.Ok) {name : Bytes} {size : UInt32}
    (hn : 0 ∉ name ∧ name.length + 49 < 2 ^ 32) :
    let r := match (tree.xattrs i).lookup name with
      | some value => Tree.sizedResult (nonZeroSize size) value
      | none => .error noXattr
    (FS).ask ((ClientReq.getxattr { size := size } name).message u i.val uid gid pid 0) (some s) =
      ([resultFrame u r], some ⟨s.nodes, s.handles, s.world.1, [resultFrame u r]⟩) := by
  intro r
  have hb : 40 + (ClientReq.getxattr { size := size } name).body.length < 2 ^ 32 := by
    simp only [ClientReq.body, cstring, layout_fuse_getxattr_in, List.length_append]
    simp
    omega
  obtain ⟨id, hdr, h1, _, _, h2⟩ := message_hd (a := .getxattr { size := size } name) (node := i.val) (uid := uid)
    (gid := gid) (pid := pid) hu
  obtain ⟨q, h3, ⟨n, h4, h4'⟩, h5, h6⟩ := decode_own (a := .getxattr { size := size } name) (t := .getxattr)
    (f := .getxattr) (dm := decodeGetxattr)
    (node := i.val) (u := u) (uid := uid) (gid := gid) (pid := pid) trivial ⟨i.2, hn.1⟩ trivial hu hb (fun h => h) rfl
  cases Subtype.ext h4'
  refine ask_eq (p := (FS).getxattr) (s' := ⟨s.nodes, s.handles, s.world.1, [resultFrame u r]⟩) hu hb (fun _ => rfl) s ?_
  unfold Filesystem.getxattr
  rw [h2, ofFault_ok_bind]
  dsimp only
  rw [h3, decoded_ok_bind, h4, ofFault_ok_bind, run_nodesGet, nodes_get hx, hxi, ← h1]
  dsimp only
  cases hl : (tree.xattrs i).lookup name with
  | none =>
    have hr : r = .error noXattr := by
      show (match (tree.xattrs i).lookup name with | some v => _ | none => _) = _
      rw [hl]
    have hc : ((FS).impl.getxattr i hdr q) (s.world.1, []) = (.error noXattr, s.world.1, []) := by
      show (match (tree.xattrs i).lookup q.name.bytes with | some v => Tree.sizedResult q.size v | none => .error noXattr, _) = _
      rw [h5, hl]
    rw [run_call hc, hr]
    exact run_err id _ _
  | some v =>
    have hr : r = Tree.sizedResult (nonZeroSize size) v := by
      show (match (tree.xattrs i).lookup name with | some v => _ | none => _) = _
      rw [hl]
    have hc : ((FS).impl.getxattr i hdr q) (s.world.1, []) = (Tree.sizedResult (nonZeroSize size) v, s.world.1, []) := by
      show (match (tree.xattrs i).lookup q.name.bytes with | some v => Tree.sizedResult q.size v | none => .error noXattr, _) = _
      rw [h5, hl]
      exact congrArg (·, _) (sizedResult_map h6 v)
    rw [run_call hc, hr]
    exact run_result id _ (sizedResult_fits (hok.values i name v hl)) _

theorem ask_listxattr (hu : u ≠ 0) (hx : s.nodes i = some x) (hxi : x.node = i) (hok : tree.Ok) {size : UInt32} :
    let r := Tree.sizedResult (nonZeroSize size) (xattrNames (tree.xattrs i))
    (FS).ask ((ClientReq.listxattr { size := size }).message u i.val uid gid pid 0) (some s) =
      ([resultFrame u r], some ⟨s.nodes, s.handles, s.world.1, [resultFrame u r]⟩) := by
  intro r
  have hb : 40 + (ClientReq.listxattr { size := size }).body.length < 2 ^ 32 := by
    simp [ClientReq.body, layout_fuse_getxattr_in]
  obtain ⟨id, hdr, h1, _, _, h2⟩ := message_hd (a := .listxattr { size := size }) (node := i.val) (uid := uid)
    (gid := gid) (pid := pid) hu
  obtain ⟨q, h3, ⟨n, h4, h4'⟩, h6⟩ := decode_own (a := .listxattr { size := size }) (t := .listxattr)
    (f := .listxattr) (dm := decodeListxattr)
    (node := i.val) (u := u) (uid := uid) (gid := gid) (pid := pid) trivial i.2 trivial hu hb (fun h => h) rfl
  cases Subtype.ext h4'
  refine ask_eq (p := (FS).listxattr) (s' := ⟨s.nodes, s.handles, s.world.1, [resultFrame u r]⟩) hu hb (fun _ => rfl) s ?_
  unfold Filesystem.listxattr
  rw [h2, ofFault_ok_bind]
  dsimp only
  rw [h3, decoded_ok_bind, h4, ofFault_ok_bind, run_nodesGet, nodes_get hx, hxi, ← h1]
  dsimp only
  rw [run_call (a := r) (w := (s.world.1, [])) (congrArg (·, _) (sizedResult_map h6 _))]
  exact run_result id r (sizedResult_fits (hok.attrs i)) _

theorem ask_statfs (hu : u ≠ 0) (hx : s.nodes i = some x) (hxi : x.node = i) :
    let p := statfsBytes layout.versionMinor.toNat (tree.space i).raw
    (FS).ask (ClientReq.statfs.message u i.val uid gid pid 0) (some s) =
      ([frame u 0 p], some ⟨s.nodes, s.handles, s.world.1, [frame u 0 p]⟩) := by
  intro p
  have hb : 40 + ClientReq.statfs.body.length < 2 ^ 32 := by decide
  obtain ⟨id, hdr, h1, _, _, h2⟩ := message_hd (a := .statfs) (node := i.val) (uid := uid) (gid := gid) (pid := pid) hu
  obtain ⟨q, h3, h4⟩ := decode_own (a := .statfs) (t := .statfs) (f := .statfs) (dm := decodeStatfs)
    (node := i.val) (u := u) (uid := uid) (gid := gid) (pid := pid) trivial i.2 trivial hu hb (fun h => h) rfl
  refine ask_eq (p := (FS).statfs) (s' := ⟨s.nodes, s.handles, s.world.1, [frame u 0 p]⟩) hu hb (fun _ => rfl) s ?_
  unfold Filesystem.statfs
  rw [h2, ofFault_ok_bind]
  dsimp only
  rw [h3, decoded_ok_bind, show q.nodeId = i from Subtype.ext h4, run_nodesGet, nodes_get hx, hxi, ← h1]
  dsimp only
  rw [run_call (a := .ok (tree.space i).raw) (w := (s.world.1, [])) rfl]
  refine run_reply id (.ok (.statfs _)) _ ?_
  show 16 + (statfsBytes _ _).length < _
  have := (tree.space i).raw.spare.len
  unfold statfsBytes
  simp only [List.length_append, le64_length, le32_length]
  split <;> simp <;> omega

theorem ask_forget (hu : u ≠ 0) {n : UInt64} :
    (FS).ask ((ClientReq.forget { nlookup := n }).message u i.val uid gid pid 0) (some s) =
      ([], some ⟨s.nodes.forgetOne ⟨i, n⟩, s.handles, s.world.1, []⟩) := by
  let a : ClientReq := .forget { nlookup := n }
  have hb : 40 + a.body.length < 2 ^ 32 := by
    show 40 + (layout_fuse_forget_in _).length < _; unfold layout_fuse_forget_in; simp
  obtain ⟨q, h3, h4⟩ := decode_own (a := a) (t := .forget checks) (f := .forget)
    (dm := decodeForget checks) (node := i.val) (u := u) (uid := uid) (gid := gid) (pid := pid) trivial trivial trivial hu
    hb (fun h => h) rfl
  have h5 : q.items.map (fun t => (t.nodeId.val, t.lookupCount)) = [(i.val, n)] := h4.trans (if_neg i.2)
  have h6 : q.items = [⟨i, n⟩] := by
    obtain ⟨t, hq, ht⟩ := List.map_eq_singleton_iff.mp h5
    rw [Prod.mk.injEq] at ht
    rw [hq, ← ht.2, ← show t.nodeId = i from Subtype.ext ht.1]
  refine ask_eq (p := (FS).forget) (s' := ⟨s.nodes.forgetOne ⟨i, n⟩, s.handles, s.world.1, []⟩) hu hb
    (fun _ => rfl) s ?_
  unfold Filesystem.forget
  rw [show (FS).checks = checks from rfl, h3, decoded_ok_bind, h6]
  rfl

end

/-! ### What the client makes of the answers -/

section
variable {cfg : ClientConfig} {S : Type} {ask : Bytes → S → List Bytes × S} {c : Client} {a : ClientReq} {node : UInt64}
  {s s' : S}

theorem Talk.run_bind {α β S : Type} (ask : Bytes → S → List Bytes × S) (t : Talk α) (f : α → Talk β) (s : S) :
    (t >>= f : Talk β).run ask s = (f (t.run ask s).1).run ask (t.run ask s).2 := by
  show (t.bind f).run ask s = _
  induction t generalizing s with
  | done a => rfl
  | say m k ih => exact ih _ _

theorem request_ok {p : Bytes} (h : ask (a.message (cfg.ids c.sent) node cfg.uid cfg.gid cfg.pid 0) s =
    ([frame (cfg.ids c.sent) 0 p], s')) (hp : 16 + p.length < 2 ^ 32) :
    (c.request cfg a node).run ask s = ((some (.ok p), { c with sent := c.sent + 1 }), s') := by
  simp only [Client.request, Talk.run, h, parse_frame_ok _ _ hp]

theorem request_err {e : FuseError} (h : ask (a.message (cfg.ids c.sent) node cfg.uid cfg.gid cfg.pid 0) s =
    ([frame (cfg.ids c.sent) e.val []], s')) :
    (c.request cfg a node).run ask s = ((some (.error e.val), { c with sent := c.sent + 1 }), s') := by
  simp only [Client.request, Talk.run, h, parse_frame_err]

end

/-! ### The state of the client, of the library and of the filesystem -/

/-- The client's handles and the objects they stand for: `m` is the library's table, `next` the next handle. -/
structure Table {D E : Type} (fh : D → UInt64) (node : E → NodeId) (R : D → E → Prop) (m : UInt64 → Option NodeId)
    (next : Nat) (cl : List (Option D)) (pl : List (Option E)) : Prop where
  length : cl.length = pl.length
  same : ∀ (k : Nat) (d : Option D) (e : Option E), cl[k]? = some d → pl[k]? = some e →
    (d = none ∧ e = none) ∨ ∃ x y, d = some x ∧ e = some y ∧ R x y ∧ m (fh x) = some (node y)
  distinct : ∀ (k l : Nat) (x y : D), cl[k]? = some (some x) → cl[l]? = some (some y) → fh x = fh y → k = l
  below : ∀ (k : Nat) (x : D), cl[k]? = some (some x) → (fh x).toNat < next

namespace Table

variable {D E : Type} {fh : D → UInt64} {node : E → NodeId} {R : D → E → Prop} {m : UInt64 → Option NodeId} {next : Nat}
  {cl : List (Option D)} {pl : List (Option E)}

/-- What is at a descriptor. -/
theorem at_ (h : Table fh node R m next cl pl) (k : Nat) :
    (∃ x y, cl[k]? = some (some x) ∧ pl[k]? = some (some y) ∧ R x y ∧ m (fh x) = some (node y)) ∨
    (cl[k]? = none ∧ pl[k]? = none) ∨ (cl[k]? = some none ∧ pl[k]? = some none) := by
  cases h1 : cl[k]? with
  | none =>
    refine .inr (.inl ⟨rfl, List.getElem?_eq_none ?_⟩)
    rw [← h.length]; exact List.getElem?_eq_none_iff.mp h1
  | some d =>
    obtain ⟨hk, _⟩ := List.getElem?_eq_some_iff.mp h1
    have h2 : pl[k]? = some (pl[k]'(h.length ▸ hk)) := List.getElem?_eq_getElem _
    rcases h.same k d _ h1 h2 with ⟨rfl, he⟩ | ⟨x, y, rfl, he, h3⟩
    · rw [he] at h2; exact .inr (.inr ⟨rfl, h2⟩)
    · rw [he] at h2; exact .inl ⟨x, y, rfl, h2, h3⟩

theorem push (h : Table fh node R m next cl pl) (x : D) (y : E) (hR : R x y) (hf : (fh x).toNat = next) :
    Table fh node R (fun k => if k = fh x then some (node y) else m k) (next + 1) (cl ++ [some x]) (pl ++ [some y]) := by
  have hget {α : Type} {l : List α} {a d : α} {k : Nat} (hk : (l ++ [a])[k]? = some d) :
      (k < l.length ∧ l[k]? = some d) ∨ (k = l.length ∧ d = a) := by
    rw [List.getElem?_append] at hk
    split at hk
    · exact .inl ⟨‹_›, hk⟩
    · rw [List.getElem?_singleton] at hk
      split at hk
      · exact .inr ⟨by omega, (Option.some.inj hk).symm⟩
      · cases hk
  refine ⟨by simp only [List.length_append, h.length, List.length_cons, List.length_nil], ?_, ?_, ?_⟩
  · intro k d e h1 h2
    rcases hget h1 with ⟨h3, h1⟩ | ⟨h3, rfl⟩
    · rcases hget h2 with ⟨h4, h2⟩ | ⟨h4, _⟩
      · rcases h.same k d e h1 h2 with h5 | ⟨x', y', rfl, rfl, h5, h6⟩
        · exact .inl h5
        · refine .inr ⟨x', y', rfl, rfl, h5, ?_⟩
          rw [if_neg fun e => by have := h.below k x' h1; rw [e] at this; omega]
          exact h6
      · have := h.length; omega
    · rcases hget h2 with ⟨h4, h2⟩ | ⟨h4, rfl⟩
      · have := h.length; omega
      · exact .inr ⟨x, y, rfl, rfl, hR, if_pos rfl⟩
  · intro k l a b h1 h2 h3
    rcases hget h1 with ⟨h4, h1⟩ | ⟨h4, h1⟩ <;> rcases hget h2 with ⟨h5, h2⟩ | ⟨h5, h2⟩
    · exact h.distinct k l a b h1 h2 h3
    · cases h2; have := h.below k a h1; rw [h3] at this; omega
    · cases h1; have := h.below l b h2; rw [← h3] at this; omega
    · omega
  · intro k a h1
    rcases hget h1 with ⟨h4, h1⟩ | ⟨h4, h1⟩
    · have := h.below k a h1; omega
    · cases h1; omega

theorem set_some {α : Type} {l : List (Option α)} {k j : Nat} {o : Option α} {x : α}
    (h : (l.set k o)[j]? = some (some x)) : (k = j ∧ o = some x) ∨ (k ≠ j ∧ l[j]? = some (some x)) := by
  rw [List.getElem?_set] at h
  split at h
  · split at h
    · exact .inl ⟨‹_›, Option.some.inj h⟩
    · cases h
  · exact .inr ⟨‹_›, h⟩

theorem remove (h : Table fh node R m next cl pl) {k : Nat} {x : D} (hk : cl[k]? = some (some x)) :
    Table fh node R (fun j => if j = fh x then none else m j) next (cl.set k none) (pl.set k none) := by
  refine ⟨by simp only [List.length_set, h.length], ?_, ?_, ?_⟩
  · intro j d e h1 h2
    rw [List.getElem?_set] at h1 h2
    by_cases hj : k = j
    · rw [if_pos hj] at h1 h2
      split at h1 <;> split at h2
      · exact .inl ⟨(Option.some.inj h1).symm, (Option.some.inj h2).symm⟩
      · cases h2
      · cases h1
      · cases h1
    · rw [if_neg hj] at h1 h2
      rcases h.same j d e h1 h2 with h5 | ⟨x', y', rfl, rfl, h5, h6⟩
      · exact .inl h5
      · exact .inr ⟨x', y', rfl, rfl, h5, by
          rw [if_neg fun e => hj (h.distinct k j x x' hk h1 e.symm)]
          exact h6⟩
  · intro j l a b h1 h2 h3
    rcases set_some h1 with ⟨_, h1⟩ | ⟨_, h1⟩
    · cases h1
    · rcases set_some h2 with ⟨_, h2⟩ | ⟨_, h2⟩
      · cases h2
      · exact h.distinct j l a b h1 h2 h3
  · intro j a h1
    rcases set_some h1 with ⟨_, h1⟩ | ⟨_, h1⟩
    · cases h1
    · exact h.below j a h1

theorem update (h : Table fh node R m next cl pl) {k : Nat} {x x' : D} {y y' : E} (hk : cl[k]? = some (some x))
    (hk' : pl[k]? = some (some y)) (hR : R x' y') (hx : fh x' = fh x) (hy : node y' = node y) :
    Table fh node R m next (cl.set k (some x')) (pl.set k (some y')) := by
  refine ⟨by simp only [List.length_set, h.length], ?_, ?_, ?_⟩
  · intro j d e h1 h2
    rw [List.getElem?_set] at h1 h2
    by_cases hj : k = j
    · rw [if_pos hj] at h1 h2
      split at h1 <;> split at h2
      · refine .inr ⟨x', y', (Option.some.inj h1).symm, (Option.some.inj h2).symm, hR, ?_⟩
        rw [hx, hy]
        rcases h.same k _ _ hk hk' with ⟨h5, _⟩ | ⟨_, _, h5, h6, _, h7⟩
        · cases h5
        · cases h5; cases h6; exact h7
      · cases h2
      · cases h1
      · cases h1
    · rw [if_neg hj] at h1 h2
      exact h.same j d e h1 h2
  · intro j l a b h1 h2 h3
    rcases set_some h1 with ⟨e1, h1⟩ | ⟨e1, h1⟩ <;> rcases set_some h2 with ⟨e2, h2⟩ | ⟨e2, h2⟩
    · omega
    · cases h1; rw [← e1]; exact h.distinct k l x b hk h2 (hx ▸ h3)
    · cases h2; rw [← e2]; exact h.distinct j k a x h1 hk (hx ▸ h3)
    · exact h.distinct j l a b h1 h2 h3
  · intro j a h1
    rcases set_some h1 with ⟨e1, h1⟩ | ⟨e1, h1⟩
    · cases h1; rw [hx]; exact h.below k x hk
    · exact h.below j a h1

theorem grow (h : Table fh node R m next cl pl) {next' : Nat} (hn : next ≤ next') : Table fh node R m next' cl pl :=
  ⟨h.length, h.same, h.distinct, fun k x hx => Nat.lt_of_lt_of_le (h.below k x hx) hn⟩

end Table

/-- The client and the library agree about the filesystem, and the library knows the nodes `pin`. -/
structure Agree (pin : NodeId → Prop) (c : Client) (s : Vfs NodeId NodeId NodeId TreeWorld) (p : Plain) : Prop where
  content : s.world.1 = p.content
  root : ∃ x, s.nodes NodeId.root = some x
  pins : ∀ i, pin i → ∃ x, s.nodes i = some x
  nodes : ∀ i x, s.nodes i = some x → x.node = i ∧ x.lookupCount.toNat ≤ c.sent
  held : ∀ i : NodeId, 0 < c.held i.val → ∃ x, s.nodes i = some x ∧ c.held i.val ≤ x.lookupCount.toNat
  zero : c.held 0 = 0
  files : Table (·.2) id (fun d i => d.1 = i.val) s.handles.openFiles s.handles.nextHandleId.toNat c.fds p.fds
  dirs : Table (·.2.1) (·.1) (fun d e => d.1 = e.1.val ∧ d.2.2.toNat = e.2) s.handles.openDirs
    s.handles.nextHandleId.toNat c.dirs p.dirs
  next : s.handles.nextHandleId.toNat ≤ c.sent + 1

section
variable {pin : NodeId → Prop} {c : Client} {s : Vfs NodeId NodeId NodeId TreeWorld} {p : Plain}

theorem Agree.sent (h : Agree pin c s p) (w : List Bytes) :
    Agree pin { c with sent := c.sent + 1 } ⟨s.nodes, s.handles, s.world.1, w⟩ p :=
  ⟨h.content, h.root, h.pins, fun i x hx => ⟨(h.nodes i x hx).1, Nat.le_succ_of_le (h.nodes i x hx).2⟩, h.held, h.zero, h.files,
    h.dirs, Nat.le_succ_of_le h.next⟩

/-- A node was announced. -/
theorem Agree.added (h : Agree pin c s p) (w : List Bytes) (j : NodeId) (hs : c.sent + 1 < 2 ^ 64) :
    Agree pin { c with sent := c.sent + 1, held := fun k => if k = j.val then c.held j.val + 1 else c.held k }
      ⟨(s.nodes.add j j).2, s.handles, s.world.1, w⟩ p ∧ ∃ y, (s.nodes.add j j).2 j = some y := by
  have key : ∃ y : NodeLookup NodeId, (s.nodes.add j j).2 = s.nodes.insert j y ∧ y.node = j ∧
      y.lookupCount.toNat ≤ c.sent + 1 ∧ c.held j.val + 1 ≤ y.lookupCount.toNat := by
    unfold NodeMap.add
    cases hj : s.nodes j with
    | none =>
      refine ⟨⟨j, 1⟩, rfl, rfl, Nat.le_add_left _ _, ?_⟩
      rcases Nat.eq_zero_or_pos (c.held j.val) with h0 | h0
      · rw [h0]; exact Nat.le_refl 1
      · obtain ⟨x, hx, _⟩ := h.held j h0
        rw [hj] at hx; cases hx
    | some x =>
      obtain ⟨h1, h2⟩ := h.nodes j x hj
      have h3 : x.lookupCount.toNat + 1 < 2 ^ 64 := by omega
      have h4 : (x.lookupCount + 1).toNat = x.lookupCount.toNat + 1 := by
        rw [UInt64.toNat_add]; exact Nat.mod_eq_of_lt h3
      refine ⟨⟨x.node, x.lookupCount + 1⟩, by simp only [if_pos h3], h1, by rw [h4]; omega, ?_⟩
      rw [h4]
      rcases Nat.eq_zero_or_pos (c.held j.val) with h0 | h0
      · omega
      · obtain ⟨x', hx, h5⟩ := h.held j h0
        rw [hj] at hx; cases hx
        omega
  obtain ⟨y, h1, h2, h3, h4⟩ := key
  rw [h1]
  have hins (i : NodeId) : s.nodes.insert j y i = if i = j then some y else s.nodes i := rfl
  refine ⟨⟨h.content, ?_, ?_, ?_, ?_, (if_neg (Ne.symm j.2)).trans h.zero, h.files, h.dirs, Nat.le_succ_of_le h.next⟩, y, by
    rw [hins, if_pos rfl]⟩
  · show ∃ x, s.nodes.insert j y NodeId.root = some x
    rw [hins]; split
    · exact ⟨y, rfl⟩
    · exact h.root
  · intro i hi
    show ∃ x, s.nodes.insert j y i = some x
    rw [hins]; split
    · exact ⟨y, rfl⟩
    · exact h.pins i hi
  · intro i x
    show s.nodes.insert j y i = some x → _
    rw [hins]
    split
    · rename_i e; intro hx; cases hx; cases e; exact ⟨h2, h3⟩
    · intro hx; exact ⟨(h.nodes i x hx).1, Nat.le_succ_of_le (h.nodes i x hx).2⟩
  · intro i
    show 0 < (if i.val = j.val then c.held j.val + 1 else c.held i.val) → ∃ x, s.nodes.insert j y i = some x ∧
      (if i.val = j.val then c.held j.val + 1 else c.held i.val) ≤ _
    rw [hins]
    by_cases e : i = j
    · cases e
      simp only [if_pos]
      exact fun _ => ⟨y, rfl, h4⟩
    · rw [if_neg e, if_neg fun e' => e (Subtype.ext e')]
      exact h.held i

/-- A node was forgotten. -/
theorem Agree.forgotten (h : Agree pin c s p) (j : NodeId) (n : UInt64) (hn : n ≠ 0) (hpin : ¬ pin j) (hr : j ≠ NodeId.root)
    (hh : n.toNat ≤ c.held j.val) :
    Agree pin { c with sent := c.sent + 1, held := fun k => if k = j.val then c.held k - n.toNat else c.held k }
      ⟨s.nodes.forgetOne ⟨j, n⟩, s.handles, s.world.1, []⟩ p := by
  have hn' : 0 < n.toNat := by
    rcases Nat.eq_zero_or_pos n.toNat with h0 | h0
    · exact absurd (UInt64.toNat_inj.mp h0) hn
    · exact h0
  obtain ⟨x, hx, hxc⟩ := h.held j (by omega)
  have hp : (NodeMap.satPred x.lookupCount).toNat = x.lookupCount.toNat - 1 := by
    unfold NodeMap.satPred
    split
    · rename_i e; rw [e]; rfl
    · rw [UInt64.toNat_sub_of_le _ _ (UInt64.le_iff_toNat_le.mpr (by show 1 ≤ _; omega))]; rfl
  have key (i : NodeId) : s.nodes.forgetOne ⟨j, n⟩ i = if i = j then
      (if x.lookupCount.toNat = 1 then none else some ⟨x.node, NodeMap.satPred x.lookupCount⟩) else s.nodes i := by
    unfold NodeMap.forgetOne
    simp only [hx]
    by_cases h1 : x.lookupCount.toNat = 1
    · rw [if_pos (UInt64.toNat_inj.mp (by rw [hp, h1]; rfl)), if_pos h1]; rfl
    · rw [if_neg (fun e => by have := congrArg UInt64.toNat e; rw [hp] at this; simp at this; omega), if_neg h1]; rfl
  refine ⟨h.content, ?_, ?_, ?_, ?_, (if_neg (Ne.symm j.2)).trans h.zero, h.files, h.dirs, Nat.le_succ_of_le h.next⟩
  · show ∃ x, s.nodes.forgetOne ⟨j, n⟩ NodeId.root = some x
    rw [key, if_neg (Ne.symm hr)]
    exact h.root
  · intro i hi
    show ∃ x, s.nodes.forgetOne ⟨j, n⟩ i = some x
    rw [key, if_neg (fun e : i = j => hpin (e ▸ hi))]
    exact h.pins i hi
  · intro i y
    show s.nodes.forgetOne ⟨j, n⟩ i = some y → _
    rw [key]
    split
    · rename_i e
      cases e
      split
      · intro hy; cases hy
      · intro hy; cases hy
        refine ⟨(h.nodes j x hx).1, ?_⟩
        have := (h.nodes j x hx).2
        show (NodeMap.satPred x.lookupCount).toNat ≤ c.sent + 1
        omega
    · intro hy; exact ⟨(h.nodes i y hy).1, Nat.le_succ_of_le (h.nodes i y hy).2⟩
  · intro i
    show 0 < (if i.val = j.val then c.held i.val - n.toNat else c.held i.val) → ∃ x, s.nodes.forgetOne ⟨j, n⟩ i = some x ∧
      (if i.val = j.val then c.held i.val - n.toNat else c.held i.val) ≤ _
    rw [key]
    by_cases e : i = j
    · cases e
      simp only [if_pos]
      intro h0
      rw [if_neg (by omega)]
      exact ⟨_, rfl, by show _ ≤ (NodeMap.satPred x.lookupCount).toNat; omega⟩
    · rw [if_neg e, if_neg fun e' => e (Subtype.ext e')]
      exact h.held i

/-- A file was opened. -/
theorem Agree.opened (h : Agree pin c s p) (w : List Bytes) (i : NodeId) (hs : c.sent + 2 < 2 ^ 64) :
    Agree pin { c with sent := c.sent + 1, fds := c.fds ++ [some (i.val, s.handles.nextHandleId)] }
      ⟨s.nodes, (s.handles.openFile i).2, s.world.1, w⟩ { p with fds := p.fds ++ [some i] } := by
  have hn := h.next
  have hc : s.handles.nextHandleId.toNat + 1 < 2 ^ 64 := by omega
  have h4 : (s.handles.nextHandleId + 1).toNat = s.handles.nextHandleId.toNat + 1 := by
    rw [UInt64.toNat_add]; exact Nat.mod_eq_of_lt hc
  have ho : (s.handles.openFile i).2 = ⟨s.handles.nextHandleId + 1, s.handles.openDirs,
      fun k => if k = s.handles.nextHandleId then some i else s.handles.openFiles k⟩ := by
    unfold HandlesMap.openFile; simp only [if_pos hc]
  rw [ho]
  refine ⟨h.content, h.root, h.pins, fun i x hx => ⟨(h.nodes i x hx).1, Nat.le_succ_of_le (h.nodes i x hx).2⟩, h.held, h.zero,
    ?_, ?_, ?_⟩
  · show Table _ _ _ _ (s.handles.nextHandleId + 1).toNat _ _
    rw [h4]
    exact h.files.push (i.val, s.handles.nextHandleId) i rfl rfl
  · show Table _ _ _ _ (s.handles.nextHandleId + 1).toNat _ _
    rw [h4]
    exact h.dirs.grow (Nat.le_succ _)
  · show (s.handles.nextHandleId + 1).toNat ≤ c.sent + 1 + 1
    omega

/-- A directory was opened. -/
theorem Agree.openedDir (h : Agree pin c s p) (w : List Bytes) (i : NodeId) (hs : c.sent + 2 < 2 ^ 64) :
    Agree pin { c with sent := c.sent + 1, dirs := c.dirs ++ [some (i.val, s.handles.nextHandleId, 0)] }
      ⟨s.nodes, (s.handles.openDir i).2, s.world.1, w⟩ { p with dirs := p.dirs ++ [some (i, 0)] } := by
  have hn := h.next
  have hc : s.handles.nextHandleId.toNat + 1 < 2 ^ 64 := by omega
  have h4 : (s.handles.nextHandleId + 1).toNat = s.handles.nextHandleId.toNat + 1 := by
    rw [UInt64.toNat_add]; exact Nat.mod_eq_of_lt hc
  have ho : (s.handles.openDir i).2 = ⟨s.handles.nextHandleId + 1,
      fun k => if k = s.handles.nextHandleId then some i else s.handles.openDirs k, s.handles.openFiles⟩ := by
    unfold HandlesMap.openDir; simp only [if_pos hc]
  rw [ho]
  refine ⟨h.content, h.root, h.pins, fun i x hx => ⟨(h.nodes i x hx).1, Nat.le_succ_of_le (h.nodes i x hx).2⟩, h.held, h.zero,
    ?_, ?_, ?_⟩
  · show Table _ _ _ _ (s.handles.nextHandleId + 1).toNat _ _
    rw [h4]
    exact h.files.grow (Nat.le_succ _)
  · show Table _ _ _ _ (s.handles.nextHandleId + 1).toNat _ _
    rw [h4]
    exact h.dirs.push (i.val, s.handles.nextHandleId, 0) (i, 0) ⟨rfl, rfl⟩ rfl
  · show (s.handles.nextHandleId + 1).toNat ≤ c.sent + 1 + 1
    omega

end

/-! ### Calls -/

section
variable {pin : NodeId → Prop} {cfg : ClientConfig} {c : Client} {s : Vfs NodeId NodeId NodeId TreeWorld} {p : Plain}

theorem ofNat_u64 {p : Bytes} {k : Nat} {v : UInt64} (h : u64At p k = v.toNat) : UInt64.ofNat (u64At p k) = v := by
  rw [h, UInt64.ofNat_toNat]

theorem ofNat_u32 {p : Bytes} {k : Nat} {v : UInt32} (h : u32At p k = v.toNat) : UInt32.ofNat (u32At p k) = v := by
  rw [h, UInt32.ofNat_toNat]

theorem entry_read (h9 : 9 ≤ layout.versionMinor) (x : FuseEntryOut) :
    (entryBytes layout.versionMinor.toNat x).length = 128 ∧
    UInt64.ofNat (u64At (entryBytes layout.versionMinor.toNat x) 0) = x.nodeid := by
  have h9' : 9 ≤ layout.versionMinor.toNat := UInt16.le_iff_toNat_le.mp h9
  refine ⟨?_, ?_⟩
  · rw [entryBytes_length]; unfold entryOutSize; rw [if_neg (by omega)]
  · have := (client_entry layout.versionMinor.toNat x []).1
    rw [List.append_nil] at this
    exact ofNat_u64 this

theorem attr_read (h9 : 9 ≤ layout.versionMinor) (x : FuseAttrOut) :
    let p := attrOutBytes layout.versionMinor.toNat x
    p.length = 104 ∧ UInt64.ofNat (u64At p 16) = x.attr.ino ∧ UInt64.ofNat (u64At p 24) = x.attr.size ∧
    UInt32.ofNat (u32At p 76) = x.attr.mode := by
  have h9' : 9 ≤ layout.versionMinor.toNat := UInt16.le_iff_toNat_le.mp h9
  intro p
  have hp : p = attrOutBytes layout.versionMinor.toNat x := rfl
  unfold attrOutBytes attrBytes at hp
  rw [if_neg (by omega)] at hp
  unfold layout_fuse_attr at hp
  refine ⟨?_, ofNat_u64 ?_, ofNat_u64 ?_, ?_⟩
  · rw [hp]; simp
  · rw [hp]; read_at
  · rw [hp]; read_at
  · have : u32At p 76 = x.attr.mode.toNat := by rw [hp]; read_at
    rw [this, UInt32.ofNat_toNat]

/-- Following a path. -/
theorem walk_agrees (h9 : 9 ≤ layout.versionMinor) (hid : ∀ n, cfg.ids n ≠ 0) (path : List Bytes)
    (hv : ∀ name ∈ path, NameOk name ∧ name.length + 41 < 2 ^ 32) (i : NodeId) (h : Agree pin c s p)
    (hi : ∃ x, s.nodes i = some x) (hs : c.sent + path.length < 2 ^ 64) :
    ∃ c' s', Agree pin c' s' p ∧ c'.sent ≤ c.sent + path.length ∧
      match tree.resolve os.notDirectory.val i path with
      | .error e => (c.walk cfg i.val path).run (FS).ask (some s) = ((.error (.error e), c'), some s')
      | .ok j => (c.walk cfg i.val path).run (FS).ask (some s) = ((.ok j.val, c'), some s') ∧ ∃ y, s'.nodes j = some y := by
  induction path generalizing c s i with
  | nil => exact ⟨c, s, h, Nat.le_refl _, rfl, hi⟩
  | cons name path ih =>
    obtain ⟨x, hx⟩ := hi
    obtain ⟨hn, hl⟩ := hv name List.mem_cons_self
    rw [List.length_cons] at hs
    have ha := ask_lookup (tree := tree) (layout := layout) (os := os) (checks := checks) (alloc := alloc) (u := cfg.ids c.sent)
      (uid := cfg.uid) (gid := cfg.gid) (pid := cfg.pid) (hid _) hn hl hx (h.nodes i x hx).1
      (fun j y hy => by have := (h.nodes j y hy).2; omega)
    unfold Client.walk Tree.resolve
    unfold Tree.found Tree.after at ha
    cases hd : tree.dirs i with
    | none =>
      simp only [hd] at ha ⊢
      rw [Talk.run_bind, request_err ha]
      exact ⟨_, _, h.sent _, by simp only [List.length_cons]; omega, rfl⟩
    | some es =>
      simp only [hd] at ha ⊢
      cases he : es.lookup name with
      | none =>
        simp only [he] at ha ⊢
        cases hab : tree.absent with
        | some e =>
          simp only [hab] at ha ⊢
          rw [Talk.run_bind, request_err ha]
          exact ⟨_, _, h.sent _, by simp only [List.length_cons]; omega, rfl⟩
        | none =>
          simp only [hab] at ha ⊢
          obtain ⟨h1, h2⟩ := entry_read h9 (Filesystem.lookupEntry (ν := NodeId) ⟨none, 0, tree.timeout, tree.timeout⟩)
          rw [Talk.run_bind, request_ok (p := entryBytes layout.versionMinor.toNat _) ha (entry_length _ _)]
          simp only [h1, h2]
          exact ⟨_, _, h.sent _, by simp only [List.length_cons]; omega, rfl⟩
      | some j =>
        simp only [he] at ha ⊢
        obtain ⟨h1, h2⟩ := entry_read h9
          (Filesystem.lookupEntry ⟨some (j, tree.attr j s.world), 0, tree.timeout, tree.timeout⟩)
        rw [Talk.run_bind, request_ok (p := entryBytes layout.versionMinor.toNat _) ha (entry_length _ _)]
        have h3 : (Filesystem.lookupEntry ⟨some (j, tree.attr j s.world), 0, tree.timeout, tree.timeout⟩).nodeid = j.val :=
          rfl
        rw [h3] at h2
        simp only [h1, h2, ne_eq, not_true_eq_false, if_false, if_neg j.2]
        obtain ⟨h4, h5⟩ := h.added [frame (cfg.ids c.sent) 0 (entryBytes layout.versionMinor.toNat
          (Filesystem.lookupEntry ⟨some (j, tree.attr j s.world), 0, tree.timeout, tree.timeout⟩))] j (by omega)
        obtain ⟨c', s', h6, h7, h8⟩ := ih (fun name hm => hv name (List.mem_cons_of_mem _ hm)) j h4 h5 (by
          show c.sent + 1 + _ < _; omega)
        refine ⟨c', s', h6, ?_, h8⟩
        rw [List.length_cons]
        have : c'.sent ≤ c.sent + 1 + path.length := h7
        omega

theorem parse_listing {bs : Bytes} {l : List SeenEntry} (h : ClientReads 0 bs l) (fuel : Nat) (hf : bs.length ≤ fuel) :
    parseListing fuel bs = some l := by
  induction h generalizing fuel with
  | done h =>
    cases fuel <;> (unfold parseListing; rw [if_pos (by omega)])
  | @entry bs es h hne hfit _ ih =>
    simp only [Nat.zero_add] at h hne hfit ih ⊢
    cases fuel with
    | zero => omega
    | succ fuel =>
      have h8 : 24 + u32At bs 16 ≤ align8 (24 + u32At bs 16) := by unfold align8; omega
      have := ih fuel (by rw [List.length_drop]; omega)
      unfold parseListing
      rw [if_neg (by omega), if_neg (by omega), this]
      rfl

/-- How many entries fit is determined by what is said of them. -/
theorem fit_eq (names : List Bytes) (room n : Nat) (hn : n ≤ names.length)
    (hs : ((names.take n).map fun x => align8 (24 + x.length)).sum ≤ room)
    (hm : ∀ x, names[n]? = some x → room < ((names.take n).map fun x => align8 (24 + x.length)).sum + align8 (24 + x.length)) :
    fit room names = n := by
  induction names generalizing room n with
  | nil => exact (Nat.le_zero.mp hn).symm
  | cons x names ih =>
    unfold fit
    cases n with
    | zero =>
      have := hm x rfl
      simp only [List.take_zero, List.map_nil, List.sum_nil, Nat.zero_add] at this
      rw [if_neg (by omega)]
    | succ n =>
      simp only [List.take_succ_cons, List.map_cons, List.sum_cons, List.length_cons, List.getElem?_cons_succ] at hn hs hm
      rw [if_pos (by omega), ih _ n (by omega) (by omega) (fun y hy => by have := hm y hy; omega)]

theorem listing_map (f : Nat → Nat → Bytes → Nat × Nat × Bytes) (n : Nat) (es : List StaticDirectoryEntry) :
    (listing StaticDirectoryEntry.seen n es).map (fun e => f e.ino e.type e.name) =
      es.map fun e => f e.nodeAttr.raw.ino.toNat (dtOfMode e.nodeAttr.raw.mode) e.name.bytes := by
  induction es generalizing n with
  | nil => rfl
  | cons e es ih =>
    show _ :: _ = _ :: _
    rw [ih]
    rfl

theorem listing_getLast (n : Nat) (es : List StaticDirectoryEntry) :
    (listing StaticDirectoryEntry.seen (n + 1) es).getLast?.map SeenEntry.off = if es = [] then none else some (n + es.length) := by
  induction es generalizing n with
  | nil => rfl
  | cons e es ih =>
    rw [if_neg (List.cons_ne_nil _ _)]
    show (_ :: listing StaticDirectoryEntry.seen (n + 1 + 1) es).getLast?.map SeenEntry.off = _
    have := ih (n + 1)
    cases es with
    | nil => rfl
    | cons e' es =>
      rw [if_neg (List.cons_ne_nil _ _)] at this
      have hl : ∀ (a : SeenEntry) (l : List SeenEntry) (b : SeenEntry), (a :: b :: l).getLast? = (b :: l).getLast? :=
        fun _ _ _ => rfl
      show (_ :: _ :: _).getLast?.map _ = _
      rw [hl]
      refine this.trans ?_
      simp only [List.length_cons]
      congr 1
      omega

/-- One call. -/
theorem query_agrees (i : NodeId) (hi : ∃ x, s.nodes i = some x) (h9 : 9 ≤ layout.versionMinor) (hid : ∀ n, cfg.ids n ≠ 0) (path : List Bytes)
    (hv : ∀ name ∈ path, NameOk name ∧ name.length + 41 < 2 ^ 32) (h : Agree pin c s p)
    (hs : c.sent + (path.length + 1) + 1 < 2 ^ 64) {a : ClientReq} {f : Bytes → FileAns} {ans : NodeId → FileAns}
    (hq : ∀ (u : UInt64) (i : NodeId) (s : Vfs NodeId NodeId NodeId TreeWorld) (x), u ≠ 0 → s.nodes i = some x →
      x.node = i → ∃ r,
        (FS).ask (a.message u i.val cfg.uid cfg.gid cfg.pid 0) (some s) =
          ([resultFrame u r], some ⟨s.nodes, s.handles, s.world.1, [resultFrame u r]⟩) ∧
        (∀ p, r = .ok p → 16 + p.length < 2 ^ 32 ∧ f p = ans i) ∧ ∀ e, r = .error e → ans i = .error e.val) :
    ∃ c' s', Agree pin c' s' p ∧ c'.sent ≤ c.sent + (path.length + 1) ∧
      (c.query cfg i.val path a f).run (FS).ask (some s) = ((tree.query os i path ans, c'), some s') := by
  obtain ⟨c', s', h1, h2, h3⟩ := walk_agrees (tree := tree) (os := os) (checks := checks) (alloc := alloc) h9 hid path hv
    i h hi (by omega)
  unfold Client.query Tree.query
  cases hr : tree.resolve os.notDirectory.val i path with
  | error e =>
    simp only [hr] at h3 ⊢
    rw [Talk.run_bind, h3]
    exact ⟨c', s', h1, by omega, rfl⟩
  | ok j =>
    simp only [hr] at h3 ⊢
    obtain ⟨h3, y, hy⟩ := h3
    rw [Talk.run_bind, h3]
    simp only
    obtain ⟨r, q1, q2, q3⟩ := hq (cfg.ids c'.sent) j s' y (hid _) hy (h1.nodes j y hy).1
    cases r with
    | error e =>
      rw [Talk.run_bind, request_err q1, q3 e rfl]
      exact ⟨_, _, h1.sent _, by show c'.sent + 1 ≤ _; omega, rfl⟩
    | ok b =>
      obtain ⟨q4, q5⟩ := q2 b rfl
      rw [Talk.run_bind, request_ok q1 q4, ← q5]
      exact ⟨_, _, h1.sent _, by show c'.sent + 1 ≤ _; omega, rfl⟩

theorem readSized_ok {size : UInt32} {value : Bytes} (h : value.length + 16 < 2 ^ 32) :
    (∀ p, Tree.sizedResult (nonZeroSize size) value = .ok p → 16 + p.length < 2 ^ 32 ∧ readSized size p = sized size value) ∧
      ∀ e, Tree.sizedResult (nonZeroSize size) value = .error e → sized size value = .error e.val := by
  unfold Tree.sizedResult nonZeroSize readSized sized
  by_cases h0 : size = 0
  · subst h0
    refine ⟨fun p hp => ?_, nofun⟩
    cases hp
    have hl : (Wire.enc ({ size := UInt32.ofNat value.length } : FuseGetxattrOut)).length = 8 := by
      rw [enc_fuse_getxattr_out]; unfold layout_fuse_getxattr_out; simp
    have hz : u32At (Wire.enc ({ size := UInt32.ofNat value.length } : FuseGetxattrOut)) 0 = value.length := by
      rw [enc_fuse_getxattr_out]
      unfold layout_fuse_getxattr_out
      have : u32At (le32 (UInt32.ofNat value.length) ++ le32 0) 0 = (UInt32.ofNat value.length).toNat := by read_at
      exact this.trans (UInt32.toNat_ofNat_of_lt' (by show _ < 2 ^ 32; omega))
    exact ⟨by rw [hl]; decide, by rw [if_pos rfl, if_pos hl, if_pos rfl, hz]⟩
  · have hz : size.toNat ≠ 0 := fun hz => h0 (UInt32.toNat_inj.1 hz)
    rw [dif_pos hz]
    dsimp only
    simp only [if_neg h0]
    by_cases hle : value.length ≤ size.toNat
    · simp only [if_pos hle]
      exact ⟨fun p hp => by cases hp; exact ⟨by omega, if_pos hle⟩, nofun⟩
    · simp only [if_neg hle]
      exact ⟨nofun, fun e he => by cases he; rfl⟩

theorem readSpace_ok (h9 : 9 ≤ layout.versionMinor) (a : Space) :
    (statfsBytes layout.versionMinor.toNat a.raw).length = 80 ∧
      readSpace (statfsBytes layout.versionMinor.toNat a.raw) = .space a := by
  have h4 : ¬ layout.versionMinor.toNat < 4 := by
    have := UInt16.le_iff_toNat_le.1 h9
    simp at this
    omega
  have e : statfsBytes layout.versionMinor.toNat a.raw =
      le64 a.blocks ++ le64 a.bfree ++ le64 a.bavail ++ le64 a.files ++ le64 a.ffree ++ le32 a.bsize ++ le32 a.namelen ++
        (le32 a.frsize ++ le32 0 ++ List.replicate 24 0) := by
    unfold statfsBytes
    rw [if_neg h4]
    rfl
  have hl : (statfsBytes layout.versionMinor.toNat a.raw).length = 80 := by rw [e]; simp
  refine ⟨hl, ?_⟩
  unfold readSpace
  rw [if_pos hl, e]
  congr 2
  · exact ofNat_u64 (by read_at)
  · exact ofNat_u64 (by read_at)
  · exact ofNat_u64 (by read_at)
  · exact ofNat_u64 (by read_at)
  · exact ofNat_u64 (by read_at)
  · exact ofNat_u32 (by read_at)
  · exact ofNat_u32 (by read_at)
  · exact ofNat_u32 (by read_at)

theorem callFrom_agrees (start : NodeId) (hi : ∃ x, s.nodes start = some x) (h9 : 9 ≤ layout.versionMinor) (hnames : tree.Ok) (hal : ∀ q, alloc q % 8 = 0) (hid : ∀ n, cfg.ids n ≠ 0) (call : FileCall) (hv : call.Valid)
    (h : Agree pin c s p) (hs : c.sent + call.cost + 1 < 2 ^ 64)
    (hp : ∀ j : NodeId, call.forgets = some j.val → ¬ pin j) :
    ∃ c' s', Agree pin c' s' (tree.callFrom os start p call).2 ∧ c'.sent ≤ c.sent + call.cost ∧
      (c.callFrom cfg start.val call).run (FS).ask (some s) = (((tree.callFrom os start p call).1, c'), some s') := by
  cases call with
  | openAt path =>
    obtain ⟨c', s', h1, h2, h3⟩ := walk_agrees (tree := tree) (os := os) (checks := checks) (alloc := alloc) h9 hid path hv start h
      hi (by simp only [FileCall.cost] at hs; omega)
    simp only [FileCall.cost] at hs ⊢
    unfold Client.callFrom Tree.callFrom
    cases hr : tree.resolve os.notDirectory.val start path with
    | error e =>
      simp only [hr] at h3 ⊢
      rw [Talk.run_bind, h3]
      exact ⟨c', s', h1, by omega, rfl⟩
    | ok j =>
      simp only [hr] at h3 ⊢
      obtain ⟨h3, y, hy⟩ := h3
      rw [Talk.run_bind, h3]
      simp only
      cases hd : tree.notFile j with
      | true =>
        rw [Talk.run_bind, request_err (ask_open_dir (hid _) hy (h1.nodes j y hy).1 hd)]
        exact ⟨_, _, h1.sent _, by show c'.sent + 1 ≤ _; omega, rfl⟩
      | false =>
        rw [Talk.run_bind, request_ok (ask_open_file (hid _) hy (h1.nodes j y hy).1 hd (by have := h1.next; omega)) (by
          unfold layout_fuse_open_out; simp)]
        have hlen : (layout_fuse_open_out { fh := s'.handles.nextHandleId, open_flags := 0 }).length = 16 := by
          unfold layout_fuse_open_out; simp
        have hfh : UInt64.ofNat (u64At (layout_fuse_open_out { fh := s'.handles.nextHandleId, open_flags := 0 }) 0) =
            s'.handles.nextHandleId := ofNat_u64 (by unfold layout_fuse_open_out; read_at)
        simp only [hlen, hfh, ne_eq, not_true_eq_false, if_false]
        exact ⟨_, _, h1.opened [frame (cfg.ids c'.sent) 0 (layout_fuse_open_out { fh := s'.handles.nextHandleId })] j
          (by omega), by show c'.sent + 1 ≤ _; omega, by rw [h1.files.length]; rfl⟩
  | stat path =>
    obtain ⟨c', s', h1, h2, h3⟩ := walk_agrees (tree := tree) (os := os) (checks := checks) (alloc := alloc) h9 hid path hv start h
      hi (by simp only [FileCall.cost] at hs; omega)
    simp only [FileCall.cost] at hs ⊢
    unfold Client.callFrom Tree.callFrom
    cases hr : tree.resolve os.notDirectory.val start path with
    | error e =>
      simp only [hr] at h3 ⊢
      rw [Talk.run_bind, h3]
      exact ⟨c', s', h1, by omega, rfl⟩
    | ok j =>
      simp only [hr] at h3 ⊢
      obtain ⟨h3, y, hy⟩ := h3
      rw [Talk.run_bind, h3]
      simp only
      obtain ⟨q, hq, ha⟩ := ask_getattr (tree := tree) (os := os) (checks := checks) (alloc := alloc) (uid := cfg.uid) (gid := cfg.gid)
        (pid := cfg.pid) h9 (hid c'.sent) hy (h1.nodes j y hy).1
      obtain ⟨h4, h5, h6, h7⟩ := attr_read h9 q
      rw [Talk.run_bind, request_ok ha (by omega)]
      simp only [h4, h5, h6, h7, if_pos, hq]
      exact ⟨_, _, h1.sent [frame (cfg.ids c'.sent) 0 (attrOutBytes layout.versionMinor.toNat q)],
        by show c'.sent + 1 ≤ _; omega, by rw [← h1.content]; rfl⟩
  | openDir path =>
    obtain ⟨c', s', h1, h2, h3⟩ := walk_agrees (tree := tree) (os := os) (checks := checks) (alloc := alloc) h9 hid path hv
      start h hi (by simp only [FileCall.cost] at hs; omega)
    simp only [FileCall.cost] at hs ⊢
    unfold Client.callFrom Tree.callFrom
    cases hr : tree.resolve os.notDirectory.val start path with
    | error e =>
      simp only [hr] at h3 ⊢
      rw [Talk.run_bind, h3]
      exact ⟨c', s', h1, by omega, rfl⟩
    | ok j =>
      simp only [hr] at h3 ⊢
      obtain ⟨h3, y, hy⟩ := h3
      rw [Talk.run_bind, h3]
      simp only
      cases hd : (tree.dirs j).isSome with
      | false =>
        rw [Talk.run_bind, request_err (ask_opendir_file (hid _) hy (h1.nodes j y hy).1 hd)]
        exact ⟨_, _, h1.sent _, by show c'.sent + 1 ≤ _; omega, rfl⟩
      | true =>
        rw [Talk.run_bind, request_ok (ask_opendir (hid _) hy (h1.nodes j y hy).1 hd (by have := h1.next; omega)) (by
          unfold layout_fuse_open_out; simp)]
        have hlen : (layout_fuse_open_out { fh := s'.handles.nextHandleId, open_flags := 0 }).length = 16 := by
          unfold layout_fuse_open_out; simp
        have hfh : UInt64.ofNat (u64At (layout_fuse_open_out { fh := s'.handles.nextHandleId, open_flags := 0 }) 0) =
            s'.handles.nextHandleId := ofNat_u64 (by unfold layout_fuse_open_out; read_at)
        simp only [hlen, hfh, ne_eq, not_true_eq_false, if_false]
        exact ⟨_, _, h1.openedDir [frame (cfg.ids c'.sent) 0 (layout_fuse_open_out { fh := s'.handles.nextHandleId })] j
          (by omega), by show c'.sent + 1 ≤ _; omega, by rw [h1.dirs.length]; rfl⟩
  | read fd offset size =>
    unfold Client.callFrom Tree.callFrom
    simp only [FileCall.cost]
    rcases h.files.at_ fd with ⟨⟨v, fh⟩, i, e1, e2, e3, hf⟩ | ⟨e1, e2⟩ | ⟨e1, e2⟩
    · cases e3
      have hf : s.handles.openFiles fh = some i := hf
      rw [e1, e2]
      simp only
      have hlen : (((s.world.1 i).drop offset.toNat).take size.toNat).length ≤ size.toNat := by
        rw [List.length_take]; omega
      have hv' : size.toNat + 16 < 2 ^ 32 := hv
      rw [Talk.run_bind, request_ok (ask_read h9 (hid _) hv hf) (by omega)]
      simp only [if_pos hlen]
      exact ⟨_, _, h.sent [frame (cfg.ids c.sent) 0 (((s.world.1 i).drop offset.toNat).take size.toNat)],
        Nat.le_refl _, by rw [← h.content]; rfl⟩
    · rw [e1, e2]; exact ⟨c, s, h, by omega, rfl⟩
    · rw [e1, e2]; exact ⟨c, s, h, by omega, rfl⟩
  | write fd offset data =>
    unfold Client.callFrom Tree.callFrom
    simp only [FileCall.cost]
    rcases h.files.at_ fd with ⟨⟨v, fh⟩, i, e1, e2, e3, hf⟩ | ⟨e1, e2⟩ | ⟨e1, e2⟩
    · cases e3
      have hf : s.handles.openFiles fh = some i := hf
      rw [e1, e2]
      simp only
      have hlen : (layout_fuse_write_out { size := UInt32.ofNat data.length }).length = 8 := by
        unfold layout_fuse_write_out; simp
      have hsz : u32At (layout_fuse_write_out { size := UInt32.ofNat data.length }) 0 =
          (UInt32.ofNat data.length).toNat := by unfold layout_fuse_write_out; read_at
      rw [Talk.run_bind, request_ok (ask_write h9 (hid _) hv hf) (by omega)]
      simp only [if_pos hlen, hsz, UInt32.ofNat_toNat]
      have h1 := h.sent (p := p) []
      exact ⟨_, ⟨s.nodes, s.handles, fun j => if j = i then splice (s.world.1 i) data offset.toNat else s.world.1 j,
          [frame (cfg.ids c.sent) 0 (layout_fuse_write_out { size := UInt32.ofNat data.length })]⟩,
        ⟨by rw [← h.content], h.root, h.pins, h1.nodes, h.held, h.zero, h.files, h.dirs, h1.next⟩,
        Nat.le_refl _, rfl⟩
    · rw [e1, e2]; exact ⟨c, s, h, by omega, rfl⟩
    · rw [e1, e2]; exact ⟨c, s, h, by omega, rfl⟩
  | close fd =>
    unfold Client.callFrom Tree.callFrom
    simp only [FileCall.cost]
    rcases h.files.at_ fd with ⟨⟨v, fh⟩, i, e1, e2, e3, hf⟩ | ⟨e1, e2⟩ | ⟨e1, e2⟩
    · cases e3
      have hf : s.handles.openFiles fh = some i := hf
      have h1 := h.sent (p := p) []
      have h2 := h.files.remove e1
      rw [e1, e2]
      simp only
      rw [Talk.run_bind, request_ok (ask_release h9 (hid _) hf) (by decide)]
      exact ⟨{ c with sent := c.sent + 1, fds := c.fds.set fd none }, ⟨s.nodes, s.handles.closeFile i fh, s.world.1, [frame (cfg.ids c.sent) 0 []]⟩,
        ⟨h.content, h.root, h.pins, h1.nodes, h.held, h.zero, h2, h.dirs, h1.next⟩, Nat.le_refl _, rfl⟩
    · rw [e1, e2]; exact ⟨c, s, h, by omega, rfl⟩
    · rw [e1, e2]; exact ⟨c, s, h, by omega, rfl⟩
  | closeDir dd =>
    unfold Client.callFrom Tree.callFrom
    simp only [FileCall.cost]
    rcases h.dirs.at_ dd with ⟨⟨v, fh, off⟩, ⟨i, pos⟩, e1, e2, ⟨e3, _⟩, hf⟩ | ⟨e1, e2⟩ | ⟨e1, e2⟩
    · cases e3
      have hf : s.handles.openDirs fh = some i := hf
      have h1 := h.sent (p := p) []
      have h2 := h.dirs.remove e1
      rw [e1, e2]
      simp only
      rw [Talk.run_bind, request_ok (ask_releasedir h9 (hid _) hf) (by decide)]
      exact ⟨{ c with sent := c.sent + 1, dirs := c.dirs.set dd none }, ⟨s.nodes, s.handles.closeDir i fh, s.world.1, [frame (cfg.ids c.sent) 0 []]⟩,
        ⟨h.content, h.root, h.pins, h1.nodes, h.held, h.zero, h.files, h2, h1.next⟩, Nat.le_refl _, rfl⟩
    · rw [e1, e2]; exact ⟨c, s, h, by omega, rfl⟩
    · rw [e1, e2]; exact ⟨c, s, h, by omega, rfl⟩
  | readDir dd size =>
    unfold Client.callFrom Tree.callFrom
    simp only [FileCall.cost]
    rcases h.dirs.at_ dd with ⟨⟨v, fh, off⟩, ⟨i, pos⟩, e1, e2, ⟨e3, e4⟩, hf⟩ | ⟨e1, e2⟩ | ⟨e1, e2⟩
    · cases e3
      have e4 : off.toNat = pos := e4
      subst e4
      have hf : s.handles.openDirs fh = some i := hf
      have h1 := h.sent (p := p) []
      have hset := fun n off' => h.dirs.update (x' := (i.val, fh, off')) (y' := (i, n)) e1 e2
      rw [e1, e2]
      simp only
      obtain ⟨n, q, a1, a2, a3, a4, a5, a6⟩ := ask_readdir (tree := tree) (layout := layout) (os := os) (checks := checks)
        (uid := cfg.uid) (gid := cfg.gid) (pid := cfg.pid) (offset := off) (size := size) (node := i) h9 hnames hal
        (hid c.sent) hf
      rw [Talk.run_bind, request_ok a6 (by omega)]
      simp only [if_pos (show q.length ≤ size.toNat by omega), parse_listing a2 _ (Nat.le_refl _)]
      generalize hL : (tree.dirs i).getD [] = L at *
      have hst : tree.statics i s.world = L.map fun e => ⟨⟨e.1⟩, tree.attr e.2 s.world, 0, tree.timeout, tree.timeout⟩ := by
        unfold Tree.statics; rw [hL]
      have hlen63 : L.length < 2 ^ 63 := by
        have := (statics_typed (i := i) hnames s.world).2
        rwa [hst, List.length_map] at this
      rw [hst, List.length_map] at a1
      have hn : n ≤ (L.drop off.toNat).length := by rw [List.length_drop]; omega
      have htake : ((tree.statics i s.world).drop off.toNat).take n = ((L.drop off.toNat).take n).map
          fun e => ⟨⟨e.1⟩, tree.attr e.2 s.world, 0, tree.timeout, tree.timeout⟩ := by
        rw [hst, List.map_take, List.map_drop]
      have hfit : fit (min size.toNat 65535) ((L.drop off.toNat).map (·.1)) = n := by
        rw [htake, List.map_map] at a4
        refine fit_eq _ _ _ (by rw [List.length_map]; exact hn) ?_ ?_
        · rw [← List.map_take, List.map_map]
          exact Nat.le_trans (Nat.le_of_eq a4.symm) a3
        · intro x hx
          rw [List.getElem?_map] at hx
          obtain ⟨e, he, rfl⟩ := Option.map_eq_some_iff.mp hx
          have := a5 _ (by rw [hst, ← List.map_drop, List.getElem?_map, he]; rfl)
          rw [← List.map_take, List.map_map]
          refine Nat.lt_of_lt_of_le this (Nat.le_of_eq ?_)
          rw [a4]
          rfl
      rw [hfit]
      have hans : (listing StaticDirectoryEntry.seen (off.toNat + 1) (((tree.statics i s.world).drop off.toNat).take n)).map
          (fun e => (e.ino, e.type, e.name)) =
          ((L.drop off.toNat).take n).map fun e => (e.2.val.toNat, dtOfMode (tree.modes e.2), e.1) := by
        rw [listing_map (fun a b c => (a, b, c)), htake, List.map_map]
        rfl
      have hoff := listing_getLast off.toNat (((tree.statics i s.world).drop off.toNat).take n)
      generalize listing StaticDirectoryEntry.seen (off.toNat + 1) (((tree.statics i s.world).drop off.toNat).take n) = l
        at hans hoff
      have hn' : (((tree.statics i s.world).drop off.toNat).take n).length = n := by
        rw [htake, List.length_map, List.length_take]; omega
      rw [hn'] at hoff
      have hnext : (match l.getLast? with | some e => UInt64.ofNat e.off | none => off).toNat = off.toNat + n := by
        cases hl : l.getLast? with
        | none =>
          rw [hl] at hoff
          split at hoff
          · rename_i h0; rw [h0] at hn'; simp only [← hn', List.length_nil, Nat.add_zero]
          · cases hoff
        | some e =>
          rw [hl] at hoff
          split at hoff
          · cases hoff
          · rename_i h0
            have h0 : n ≠ 0 := fun h1 => h0 (List.length_eq_zero_iff.mp (hn'.trans h1))
            simp only [Option.map_some, Option.some.injEq] at hoff
            show (UInt64.ofNat e.off).toNat = _
            rw [hoff]
            exact UInt64.toNat_ofNat_of_lt' (by show _ < 2 ^ 64; omega)
      refine ⟨{ c with sent := c.sent + 1, dirs := c.dirs.set dd (some (i.val, fh,
            match l.getLast? with | some e => UInt64.ofNat e.off | none => off)) },
        ⟨s.nodes, s.handles, s.world.1, [frame (cfg.ids c.sent) 0 q]⟩,
        ⟨h.content, h.root, h.pins, h1.nodes, h.held, h.zero, h.files, hset _ _ ⟨rfl, hnext⟩ rfl rfl, h1.next⟩, Nat.le_refl _, ?_⟩
      rw [← hans]
      rfl
    · rw [e1, e2]; exact ⟨c, s, h, by omega, rfl⟩
    · rw [e1, e2]; exact ⟨c, s, h, by omega, rfl⟩
  | readLink path =>
    refine query_agrees start hi h9 hid path hv h (by simp only [FileCall.cost] at hs; omega) fun u i s x hu hx hxi => ⟨_,
      ask_readlink hu hx hxi hnames, fun b hb => ?_, fun e he => ?_⟩
    · cases hl : tree.links i with
      | none => rw [hl] at hb; cases hb
      | some t => rw [hl] at hb; cases hb; exact ⟨by have := hnames.targets i _ hl; omega, rfl⟩
    · cases hl : tree.links i with
      | none => rw [hl] at he; cases he; rfl
      | some t => rw [hl] at he; cases he
  | getXattr path name size =>
    refine query_agrees start hi h9 hid path hv.1 h (by simp only [FileCall.cost] at hs; omega) fun u i s x hu hx hxi => ⟨_,
      ask_getxattr hu hx hxi hnames hv.2, ?_⟩
    cases hl : (tree.xattrs i).lookup name with
    | none => exact ⟨nofun, fun e he => by cases he; rfl⟩
    | some v => exact readSized_ok (hnames.values i name v hl)
  | listXattr path size =>
    exact query_agrees start hi h9 hid path hv h (by simp only [FileCall.cost] at hs; omega) fun u i s x hu hx hxi => ⟨_,
      ask_listxattr hu hx hxi hnames, readSized_ok (hnames.attrs i)⟩
  | statFs path =>
    refine query_agrees start hi h9 hid path hv h (by simp only [FileCall.cost] at hs; omega) fun u i s x hu hx hxi => ⟨.ok _,
      ask_statfs hu hx hxi, fun b hb => ?_, nofun⟩
    cases hb
    obtain ⟨e1, e2⟩ := readSpace_ok h9 (tree.space i)
    exact ⟨by rw [e1]; decide, e2⟩
  | forget node n =>
    unfold Client.callFrom Tree.callFrom
    simp only [FileCall.cost]
    by_cases hb : node = rootNode ∨ c.held node < n.toNat
    · rw [if_pos hb]
      exact ⟨c, s, h, by omega, rfl⟩
    · rw [if_neg hb]
      have hn : 0 < n.toNat := by
        rcases Nat.eq_zero_or_pos n.toNat with h0 | h0
        · exact absurd (UInt64.toNat_inj.mp h0) hv
        · exact h0
      by_cases h0 : node = 0
      · rw [h0, h.zero] at hb
        exact absurd hn (fun h1 => hb (.inr h1))
      · obtain ⟨j, rfl⟩ : ∃ j : NodeId, j.val = node := ⟨⟨node, h0⟩, rfl⟩
        simp only [Talk.run]
        rw [ask_forget (hid _)]
        exact ⟨_, _, h.forgotten j n hv (hp j rfl) (fun e => hb (.inl (congrArg Subtype.val e))) (by omega), Nat.le_refl _, rfl⟩

/-- A whole program. -/
theorem calls_agree (h9 : 9 ≤ layout.versionMinor) (hnames : tree.Ok) (hal : ∀ q, alloc q % 8 = 0) (hid : ∀ n, cfg.ids n ≠ 0) (cs : List FileCall)
    (hv : ∀ call ∈ cs, call.Valid) (h : Agree (fun _ => False) c s p)
    (hs : c.sent + (cs.map FileCall.cost).sum + 1 < 2 ^ 64) :
    ∃ c' s', Agree (fun _ => False) c' s' (tree.calls os cs p).2 ∧
      (c.calls cfg cs).run (FS).ask (some s) = (((tree.calls os cs p).1, c'), some s') := by
  induction cs generalizing c s p with
  | nil => exact ⟨c, s, h, rfl⟩
  | cons call cs ih =>
    rw [List.map_cons, List.sum_cons] at hs
    obtain ⟨c1, s1, h1, h2, h3⟩ := callFrom_agrees (tree := tree) (os := os) (checks := checks) NodeId.root
      h.root h9 hnames hal hid call (hv call List.mem_cons_self) h (by omega) (fun _ _ => id)
    have h3 : (c.call cfg call).run (FS).ask (some s) = (((tree.call os p call).1, c1), some s1) := h3
    obtain ⟨c2, s2, h4, h5⟩ := ih (fun x hx => hv x (List.mem_cons_of_mem _ hx)) h1 (by omega)
    refine ⟨c2, s2, h4, ?_⟩
    unfold Client.calls
    rw [Talk.run_bind, h3]
    simp only
    rw [Talk.run_bind, h5]
    rfl

end

end

theorem agree_new (content : NodeId → Bytes) (heard : List Bytes) :
    Agree (fun _ => False) ⟨0, [], [], fun _ => 0⟩ (Vfs.new NodeId.root (content, heard)) ⟨content, [], []⟩ := by
  have hroot : (NodeMap.new NodeId.root) NodeId.root = some ⟨NodeId.root, 0⟩ := by
    unfold NodeMap.new NodeMap.insert; exact if_pos rfl
  refine ⟨rfl, ⟨_, hroot⟩, fun _ => False.elim, ?_, fun i h0 => absurd h0 (Nat.lt_irrefl 0), rfl, ⟨rfl, ?_, ?_, ?_⟩, ⟨rfl, ?_, ?_, ?_⟩,
    Nat.le_refl 1⟩
  · intro i x
    show (if i = NodeId.root then _ else none) = some x → _
    split
    · rename_i e; intro hx; cases hx; exact ⟨e.symm, Nat.le_refl _⟩
    · intro hx; cases hx
  · intro k d e h1; cases h1
  · intro k l x y h1; cases h1
  · intro k x h1; cases h1
  · intro k d e h1; cases h1
  · intro k l x y h1; cases h1
  · intro k x h1; cases h1

/-- C75: a program that uses a filesystem through a client, the protocol, the library's decoders, its VFS layer and its
replies sees what it would see using the filesystem directly, and leaves the filesystem as it would have left it.  This
holds for every tree (also for one with several names for a file, or loops), all contents, every sufficiently aligned
buffer for listings (otherwise making them is undefined behaviour, `C47_violated_misaligned`), every sequence of calls with
whatever nodes the client forgets in between, every numbering of requests, and every minor version from 9 on; up to
`2^64 - 2` messages. -/
theorem C75 (tree : Tree) (layout : FuseLayout) (os : OsErrors) (checks : Bool) (alloc : ReaddirRequest → Nat)
    (hal : ∀ q, alloc q % 8 = 0) (cfg : ClientConfig) (h9 : 9 ≤ layout.versionMinor) (hnames : tree.Ok)
    (hid : ∀ n, cfg.ids n ≠ 0) (content : NodeId → Bytes) (cs : List FileCall)
    (hv : ∀ call ∈ cs, call.Valid) (hs : (cs.map FileCall.cost).sum + 1 < 2 ^ 64) :
    let plain := tree.calls os cs ⟨content, [], []⟩
    let served := (Client.calls cfg cs ⟨0, [], [], fun _ => 0⟩).run (tree.served layout os checks alloc).ask
      (some (Vfs.new NodeId.root (content, [])))
    served.1.1 = plain.1 ∧ served.2.map (·.world.1) = some plain.2.content := by
  intro plain served
  obtain ⟨c', s', h1, h2⟩ := calls_agree (tree := tree) (layout := layout) (os := os) (checks := checks) (alloc := alloc) h9
    hnames hal hid cs hv (agree_new content [])
    (by show 0 + _ + 1 < _; omega)
  have h3 : served = ((plain.1, c'), some s') := h2
  rw [h3]
  exact ⟨rfl, congrArg some h1.content⟩

/-! ## What this means for programs -/

/-- The single bytes of a file after a write: those written are the data, the others stay, a gap is filled with zeros. -/
theorem splice_get (old data : Bytes) (offset k : Nat) :
    (splice old data offset)[k]? =
      if k < offset then some (old[k]?.getD 0)
      else if k < offset + data.length then data[k - offset]?
      else old[k]? := by
  have hlen : ((old ++ List.replicate (offset - old.length) 0).take offset).length = offset := by
    rw [List.length_take, List.length_append, List.length_replicate]; omega
  unfold splice
  rw [List.append_assoc]
  split
  · rename_i h
    rw [List.getElem?_append_left (by omega), List.getElem?_take, if_pos h]
    rcases Nat.lt_or_ge k old.length with h1 | h1
    · rw [List.getElem?_append_left h1, List.getElem?_eq_getElem h1]; rfl
    · rw [List.getElem?_append_right h1, List.getElem?_replicate, if_pos (by omega), List.getElem?_eq_none h1]; rfl
  · rw [List.getElem?_append_right (by omega), hlen]
    split
    · rw [List.getElem?_append_left (by omega)]
    · rw [List.getElem?_append_right (by omega), List.getElem?_drop]
      congr 1; omega

theorem splice_read (old data : Bytes) (offset : Nat) :
    ((splice old data offset).drop offset).take data.length = data := by
  apply List.ext_getElem?
  intro k
  rw [List.getElem?_take, List.getElem?_drop, splice_get]
  split
  · rw [if_neg (by omega), if_pos (by omega)]; congr 1; omega
  · rw [List.getElem?_eq_none (by omega)]

/-- A program that has the same file open twice reads through one descriptor what it wrote through the other. -/
theorem C75_read_back (tree : Tree) (layout : FuseLayout) (os : OsErrors) (checks : Bool) (alloc : ReaddirRequest → Nat)
    (hal : ∀ q, alloc q % 8 = 0) (cfg : ClientConfig) (h9 : 9 ≤ layout.versionMinor) (hnames : tree.Ok)
    (hid : ∀ n, cfg.ids n ≠ 0) (content : NodeId → Bytes) (path path' : List Bytes) (i : NodeId)
    (hp : tree.resolve os.notDirectory.val NodeId.root path = .ok i)
    (hp' : tree.resolve os.notDirectory.val NodeId.root path' = .ok i) (hf : tree.notFile i = false)
    (offset : UInt64) (data : Bytes)
    (hv : ∀ call ∈ [FileCall.openAt path, .openAt path', .write 0 offset data, .read 1 offset (UInt32.ofNat data.length)],
      call.Valid)
    (hs : path.length + path'.length + 5 < 2 ^ 64) :
    ((Client.calls cfg
      [.openAt path, .openAt path', .write 0 offset data, .read 1 offset (UInt32.ofNat data.length)]
      ⟨0, [], [], fun _ => 0⟩).run (tree.served layout os checks alloc).ask
        (some (Vfs.new NodeId.root (content, [])))).1.1 =
        [.fd 0, .fd 1, .written (UInt32.ofNat data.length), .data data] := by
  rw [(C75 tree layout os checks alloc hal cfg h9 hnames hid content _ hv (by
    simp only [List.map_cons, List.map_nil, List.sum_cons, List.sum_nil, FileCall.cost]; omega)).1]
  have hl : data.length < 2 ^ 32 := by
    have := hv (.write 0 offset data) (by simp)
    have : data.length + 80 < 2 ^ 32 := this
    omega
  simp only [Tree.calls, Tree.call, Tree.callFrom, hp, hp', hf, Bool.false_eq_true, if_false, List.length_nil,
    List.nil_append, List.length_singleton, List.singleton_append, List.getElem?_cons_zero, List.getElem?_cons_succ, if_true]
  rw [show (UInt32.ofNat data.length).toNat = data.length from UInt32.toNat_ofNat_of_lt' hl, splice_read]

/-- The entries in what the calls returned. -/
def Spec.FileAns.listed : FileAns → List (Nat × Nat × Bytes)
  | .entries l => l
  | _ => []

/-- Reading a directory often enough, with buffers that hold at least one entry each, gives all entries, each once. -/
theorem plain_listing (tree : Tree) (os : OsErrors) (i : NodeId) (es : List (Bytes × NodeId)) (hd : tree.dirs i = some es)
    (dd : Nat) (sizes : List UInt32)
    (hsz : ∀ size ∈ sizes, ∀ e ∈ es, align8 (24 + e.1.length) ≤ min size.toNat 65535) (p : Plain) (pos : Nat)
    (hp : p.dirs[dd]? = some (some (i, pos))) (hn : es.length ≤ pos + sizes.length) :
    ((tree.calls os (sizes.map (.readDir dd)) p).1.flatMap FileAns.listed) =
      (es.drop pos).map fun e => (e.2.val.toNat, dtOfMode (tree.modes e.2), e.1) := by
  induction sizes generalizing p pos with
  | nil =>
    rw [List.drop_eq_nil_of_le (by simpa using hn)]; rfl
  | cons size sizes ih =>
    rw [List.map_cons]
    unfold Tree.calls
    simp only [Tree.call, Tree.callFrom, hp, hd, Option.getD_some]
    have hlt : dd < p.dirs.length := by
      rcases Nat.lt_or_ge dd p.dirs.length with h | h
      · exact h
      · rw [List.getElem?_eq_none h] at hp; cases hp
    have hle : fit (min size.toNat 65535) ((es.drop pos).map (·.1)) ≤ (es.drop pos).length := by
      generalize min size.toNat 65535 = room
      generalize es.drop pos = l
      induction l generalizing room with
      | nil => exact Nat.le_refl 0
      | cons e l ihl =>
        rw [List.map_cons, fit]
        split
        · exact Nat.succ_le_succ (ihl _)
        · exact Nat.zero_le _
    rw [List.flatMap_cons, ih (fun s hs => hsz s (List.mem_cons_of_mem _ hs)) _ (pos + _)
      (by rw [List.getElem?_set_self hlt]) ?_]
    · show List.map _ _ ++ _ = _
      rw [← List.drop_drop, ← List.map_append, List.take_append_drop]
    · rw [List.length_cons] at hn
      rcases Nat.lt_or_ge pos es.length with h | h
      · have : 1 ≤ fit (min size.toNat 65535) ((es.drop pos).map (·.1)) := by
          rw [List.drop_eq_getElem_cons h, List.map_cons, fit,
            if_pos (hsz size List.mem_cons_self _ (List.getElem_mem h))]
          exact Nat.le_add_left 1 _
        omega
      · omega

/-- A program that opens a directory and reads it often enough is told of all its entries, each once and in order,
whatever the sizes of its buffers, as long as any entry fits. -/
theorem C75_whole_directory (tree : Tree) (layout : FuseLayout) (os : OsErrors) (checks : Bool)
    (alloc : ReaddirRequest → Nat) (hal : ∀ q, alloc q % 8 = 0) (cfg : ClientConfig) (h9 : 9 ≤ layout.versionMinor)
    (hnames : tree.Ok) (hid : ∀ n, cfg.ids n ≠ 0) (content : NodeId → Bytes) (path : List Bytes) (i : NodeId)
    (hp : tree.resolve os.notDirectory.val NodeId.root path = .ok i) (es : List (Bytes × NodeId))
    (hd : tree.dirs i = some es) (hv : (FileCall.openDir path).Valid) (sizes : List UInt32)
    (hsz : ∀ size ∈ sizes, ∀ e ∈ es, align8 (24 + e.1.length) ≤ min size.toNat 65535) (hn : es.length ≤ sizes.length)
    (hs : path.length + sizes.length + 2 < 2 ^ 64) :
    ((Client.calls cfg (.openDir path :: sizes.map (.readDir 0)) ⟨0, [], [], fun _ => 0⟩).run
      (tree.served layout os checks alloc).ask (some (Vfs.new NodeId.root (content, [])))).1.1.flatMap FileAns.listed =
        es.map fun e => (e.2.val.toNat, dtOfMode (tree.modes e.2), e.1) := by
  have hsum : ((sizes.map (FileCall.readDir 0)).map FileCall.cost).sum = sizes.length := by
    clear hs hn hsz
    induction sizes with
    | nil => rfl
    | cons a l ih => rw [List.map_cons, List.map_cons, List.sum_cons, ih, List.length_cons]; exact Nat.add_comm 1 _
  rw [(C75 tree layout os checks alloc hal cfg h9 hnames hid content _ (by
    intro call hc
    rcases List.mem_cons.1 hc with rfl | hc
    · exact hv
    · obtain ⟨size, _, rfl⟩ := List.mem_map.1 hc
      exact trivial) (by
    rw [List.map_cons, List.sum_cons, hsum, FileCall.cost]; omega)).1]
  unfold Tree.calls
  simp only [Tree.call, Tree.callFrom, hp, hd, Option.isSome_some, if_true]
  rw [List.flatMap_cons]
  exact plain_listing tree os i es hd 0 sizes hsz _ 0 rfl (by omega)

namespace Stack

/-- `/d`, `/f` and `/d/g`, another name of the same file; `/d/u` leads back to the root, `/d/l` is a symbolic link. -/
def tree : Tree where
  dirs i :=
    if i.val = 1 then some [([0x64], ⟨5, by decide⟩), ([0x66], ⟨9, by decide⟩)]
    else if i.val = 5 then some [([0x67], ⟨9, by decide⟩), ([0x75], NodeId.root), ([0x6C], ⟨12, by decide⟩)]
    else none
  links i := if i.val = 12 then some [0x2E, 0x2E] else none
  xattrs i := if i.val = 9 then [([0x61, 0x62], [1, 2, 3]), ([0x63], [])] else []
  modes i := if i.val = 9 then 0o100644 else if i.val = 12 then 0o120777 else 0o040755
  space i := ⟨10, 9, 8, 7, i.val, 5, 4, 3⟩
  absent := none
  timeout := ⟨1, 0, by decide⟩

/-- Opening the file under both its names, writing through one descriptor, reading through the other, after the client
forgot the file; names that do not exist, files taken for directories, directories opened as files, closed
descriptors; reading a directory entry by entry, while another descriptor of the same directory reads all at once;
links and extended attributes. -/
def session : List FileCall :=
  [.openAt [[0x66]], .openAt [[0x64], [0x75], [0x64], [0x67]], .forget 9 2, .write 1 3 [7, 8], .read 0 1 9,
    .stat [[0x66]], .openAt [[0x78]], .stat [[0x66], [0x78]], .openAt [[0x64]], .close 0, .read 0 0 1, .read 1 4 1,
    .openDir [[0x66]], .openDir [], .openDir [[0x64], [0x75]], .readDir 0 40, .readDir 1 4096, .readDir 0 31, .readDir 0 32,
    .readDir 0 4096, .closeDir 0, .readDir 0 40, .readLink [[0x64], [0x6C]], .readLink [[0x66]], .openAt [[0x64], [0x6C]],
    .getXattr [[0x66]] [0x61, 0x62] 0, .getXattr [[0x66]] [0x61, 0x62] 3, .getXattr [[0x66]] [0x61, 0x62] 2,
    .getXattr [[0x66]] [0x78] 3, .listXattr [[0x66]] 0, .listXattr [[0x66]] 100, .listXattr [] 1, .statFs [[0x66]], .statFs [[0x78]]]

/-- What is expected of the session. -/
def expected : List FileAns :=
  [.fd 0, .fd 1, .done, .written 2, .data [2, 0, 7, 8], .stat 9 5 0o100644, .error (-2),
    .error OsErrors.linux.notDirectory.val, .error OsErrors.linux.notSupported.val, .done, .error (-9), .data [8],
    .error OsErrors.linux.notDirectory.val, .dir 0, .dir 1, .entries [(5, 4, [0x64])],
    .entries [(5, 4, [0x64]), (9, 8, [0x66])], .entries [], .entries [(9, 8, [0x66])], .entries [], .done, .error (-9), .data [0x2E, 0x2E],
    .error OsErrors.linux.notSupported.val, .error OsErrors.linux.notSupported.val, .size 3, .data [1, 2, 3], .error (-34),
    .error (-61), .size 5, .data [0x61, 0x62, 0, 0x63, 0], .data [], .space ⟨10, 9, 8, 7, 9, 5, 4, 3⟩, .error (-2)]

def content : NodeId → Bytes := fun i => if i.val = 9 then [1, 2] else []

theorem session_valid : ∀ call ∈ session, call.Valid := by
  unfold session
  simp only [List.forall_mem_cons]
  simp [FileCall.Valid, NameOk]

theorem tree_ok : tree.Ok where
  names i es h := by
    unfold tree at h
    simp only at h
    split at h
    · cases h; simp [NameOk]
    · split at h
      · cases h; simp [NameOk]
      · cases h
  targets i t h := by
    unfold tree at h
    simp only at h
    split at h <;> cases h
    decide
  values i name v h := by
    unfold tree at h
    simp only at h
    split at h
    · simp only [List.lookup] at h
      split at h
      · cases h; decide
      · split at h
        · cases h; decide
        · cases h
    · cases h
  attrs i := by
    unfold tree
    dsimp only
    split <;> decide

theorem session_plain : (tree.calls OsErrors.linux session ⟨content, [], []⟩).1 = expected := by decide +kernel

example : ((Client.calls ⟨fun n => UInt64.ofNat (2 * n % 1000) + 2, 0, 0, 0⟩ session ⟨0, [], [], fun _ => 0⟩).run
    (tree.served ⟨31, 0⟩ OsErrors.linux true fun _ => 0x1000).ask (some (Vfs.new NodeId.root (content, [])))).1.1 =
      expected := by
  rw [← session_plain]
  exact (C75 tree ⟨31, 0⟩ OsErrors.linux true (fun _ => 0x1000) (fun _ => rfl) ⟨fun n => UInt64.ofNat (2 * n % 1000) + 2, 0, 0, 0⟩ (by decide) tree_ok (by
    intro n h
    have := congrArg UInt64.toNat h
    rw [UInt64.toNat_add, UInt64.toNat_ofNat_of_lt' (by show _ < 2 ^ 64; omega)] at this
    simp at this
    omega) content session session_valid (by decide)).1

/-- The same by running the model, on another version of the protocol. -/
example : ((Client.calls ⟨fun _ => 7, 0, 0, 0⟩ session ⟨0, [], [], fun _ => 0⟩).run
    (tree.served ⟨9, 0⟩ OsErrors.linux false fun _ => 8).ask (some (Vfs.new NodeId.root (content, [])))).1.1 = expected := by decide +kernel

/-- Before version 9 entries and attributes are shorter: a client that expects the newer ones cannot read them. -/
example : ((Client.calls ⟨fun _ => 7, 0, 0, 0⟩ [.stat [[0x66]]] ⟨0, [], [], fun _ => 0⟩).run
    (tree.served ⟨8, 0⟩ OsErrors.linux false fun _ => 8).ask (some (Vfs.new NodeId.root (content, [])))).1.1 = [.broken] := by decide +kernel

/-- Writing to `/f` and reading from `/d/g`. -/
example : ((Client.calls ⟨fun _ => 7, 0, 0, 0⟩ [.openAt [[0x66]], .openAt [[0x64], [0x67]], .write 0 3 [7, 8], .read 1 3 2]
    ⟨0, [], [], fun _ => 0⟩).run (tree.served ⟨31, 0⟩ OsErrors.linux false fun _ => 8).ask
      (some (Vfs.new NodeId.root (content, [])))).1.1 = [.fd 0, .fd 1, .written 2, .data [7, 8]] := by
  rw [show (2 : UInt32) = UInt32.ofNat ([7, 8] : Bytes).length from rfl]
  exact C75_read_back tree ⟨31, 0⟩ OsErrors.linux false (fun _ => 8) (fun _ => rfl) ⟨fun _ => 7, 0, 0, 0⟩ (by decide) tree_ok
    (fun _ => show (7 : UInt64) ≠ 0 by decide) content _ _ ⟨9, by decide⟩ rfl rfl rfl 3 [7, 8]
    (by
      intro call h
      simp only [List.mem_cons, List.not_mem_nil, or_false] at h
      rcases h with rfl | rfl | rfl | rfl <;> simp [FileCall.Valid, NameOk]) (by decide)

/-- The directory `/d` with three buffers. -/
example : ((Client.calls ⟨fun _ => 7, 0, 0, 0⟩ (.openDir [[0x64]] :: [32, 4096, 33].map (.readDir 0)) ⟨0, [], [], fun _ => 0⟩).run
    (tree.served ⟨31, 0⟩ OsErrors.linux false fun _ => 8).ask (some (Vfs.new NodeId.root (content, [])))).1.1.flatMap FileAns.listed = [(9, 8, [0x67]), (1, 4, [0x75]), (12, 10, [0x6C])] :=
  C75_whole_directory tree ⟨31, 0⟩ OsErrors.linux false (fun _ => 8) (fun _ => rfl) ⟨fun _ => 7, 0, 0, 0⟩ (by decide)
    tree_ok (fun _ => show (7 : UInt64) ≠ 0 by decide) content _ ⟨5, by decide⟩ rfl _ rfl (by simp [FileCall.Valid, NameOk]) _
    (by decide) (by decide) (by decide)

end Stack

end Fuse
