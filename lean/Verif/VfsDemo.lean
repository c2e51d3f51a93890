import Verif.VfsHist

/-!
# A small filesystem, for concrete executions of the VFS layer

Nodes, open files and open directories are numbers.  Every name in every directory leads to the node 200 with
number 2; opening gives the file 7 or the directory 8; everything succeeds.  READDIRPLUS announces one entry,
`b` with node number 3.
-/

namespace Fuse

open Spec

/-- A socket that accepts everything. -/
def demoSocket : Socket Unit Unit where
  recv := fun buf s => ((.error (.connectionClosed ()), buf), s)
  recv_length := fun _ _ => rfl
  send := fun _ s => (.ok (), s)

/-- The node number of everything found. -/
def demoAttr : NodeAttr := ⟨{ ino := 2, mode := 0x81A4 }⟩

/-- A directory entry with a lookup: `fuse_direntplus` for `b`, node 3. -/
def demoEntry : Bytes :=
  le64 3 ++ le64 0 ++ le64 1 ++ le64 1 ++ le32 0 ++ le32 0 ++ -- fuse_entry_out
  le64 3 ++ List.replicate 80 0 ++ -- fuse_attr
  le64 3 ++ le64 1 ++ le32 1 ++ le32 8 ++ [98] ++ List.replicate 7 0 -- fuse_dirent and name

/-- The methods of the small filesystem. -/
def demoImpl : VfsImpl Nat Nat Nat Unit where
  asDirectory := fun v s => (some v, s)
  asFile := fun v s => (some v, s)
  asSymlink := fun _ s => (none, s)
  getattr := fun _ _ _ s => (.ok ⟨demoAttr, ⟨1, 0, by decide⟩⟩, s)
  getxattr := fun _ _ _ s => (.ok [], s)
  listxattr := fun _ _ _ s => (.ok [], s)
  statfs := fun _ _ _ s => (.ok {}, s)
  lookup := fun _ _ _ s => (.ok ⟨some (200, demoAttr), 0, ⟨1, 0, by decide⟩, ⟨1, 0, by decide⟩⟩, s)
  opendir := fun _ _ _ s => (.ok ⟨8, 0⟩, s)
  open_ := fun _ _ _ s => (.ok ⟨7, 0⟩, s)
  readlink := fun _ _ _ s => (.ok ⟨[97]⟩, s)
  asReaddirHandle := fun h s => (some h, s)
  asReaddirplusHandle := fun h s => (some h, s)
  releasedir := fun _ _ _ s => (.ok (), s)
  readdir := fun _ _ _ s => (.ok [], s)
  readdirplus := fun _ _ _ s => (.ok demoEntry, s)
  asReadHandle := fun h s => (some h, s)
  asWriteHandle := fun h s => (some h, s)
  release := fun _ _ _ s => (.ok (), s)
  read := fun _ _ _ s => (.ok [104, 105], s)
  write := fun _ _ _ s => (.ok 3, s)

/-- The small filesystem on Linux, protocol 7.31. -/
def demoFs : Filesystem Nat Nat Nat Unit Unit := ⟨demoSocket, ⟨31, 0⟩, .linux, demoImpl, true⟩

/-- A request message. -/
def demoMsg (opcode : UInt32) (unique nodeid : UInt64) (body : Bytes) : Bytes :=
  le32 (40 + UInt32.ofNat body.length) ++ le32 opcode ++ le64 unique ++ le64 nodeid ++
    List.replicate 16 0 ++ body

/-- A STATFS request, handled by the threads without a message of their own. -/
def demoIdle : Bytes := demoMsg 17 99 1 []

/-- Message `t` of a list. -/
def demoBufs (msgs : List Bytes) (t : Nat) : Bytes := (msgs[t]?).getD demoIdle

/-- Thread `t` handles message `t` of the list, and the threads make steps in the order `ts`; the root node
is 100. -/
def demoSched (msgs : List Bytes) (ts : List Nat) :=
  sched (fun t => demoFs.recorded.dispatch ⟨demoBufs msgs t⟩) (Vfs.new 100 ((), [])) ts

/-- What is observed, messages abridged to error word and first eight bytes of the payload. -/
def abridge : Nat × Obs Nat Nat Nat → Nat × Obs Nat Nat Nat
  | (t, .sent m b) => (t, .sent (m.drop 4 |>.take 4 |>.append (m.drop 16 |>.take 8)) b)
  | x => x

/-- Whether a thread is finished. -/
def Prog.isDone {S α : Type} : Prog S α → Bool
  | .done _ => true
  | .step _ _ => false

/-- What is observed of `demoSched`, without arguments and results of methods. -/
def demoRun (msgs : List Bytes) (ts : List Nat) : List (Nat × Obs Nat Nat Nat) :=
  ((observed (demoSched msgs ts).1).filter fun x => match x.2 with
    | .returned _ | .asked .. | .called .. => false
    | _ => true).map abridge

example : demoRun [demoMsg 1 10 1 [97, 0]] [0, 0, 0, 0, 0] =
    [(0, .node 100), (0, .found 200 2), (0, .sent [0, 0, 0, 0, 2, 0, 0, 0, 0, 0, 0, 0] true)] := by
  decide +kernel

/-- FORGET of `n` lookups. -/
def demoForget (id : UInt64) (n : UInt64) : Bytes := demoMsg 2 20 id (le64 n)

/-- READ through a handle. -/
def demoRead (fh : UInt64) : Bytes := demoMsg 15 30 2 (le64 fh ++ List.replicate 32 0)

/-- RELEASE of a handle. -/
def demoRelease (fh : UInt64) : Bytes := demoMsg 18 40 2 (le64 fh ++ List.replicate 16 0)

/-- READDIR through a handle. -/
def demoReaddir (fh : UInt64) : Bytes := demoMsg 28 50 1 (le64 fh ++ List.replicate 32 0)

/-- READDIRPLUS through a handle. -/
def demoReaddirplus (fh : UInt64) : Bytes := demoMsg 44 55 1 (le64 fh ++ List.replicate 32 0)

/-- LOOKUP of `a` in the root. -/
def demoLookup : Bytes := demoMsg 1 10 1 [97, 0]

/-- GETATTR. -/
def demoGetattr (id : UInt64) : Bytes := demoMsg 3 60 id (List.replicate 16 0)

/-- OPEN. -/
def demoOpen (id : UInt64) : Bytes := demoMsg 14 70 id (List.replicate 8 0)

/-- OPENDIR. -/
def demoOpendir (id : UInt64) : Bytes := demoMsg 27 80 id (List.replicate 8 0)

end Fuse
