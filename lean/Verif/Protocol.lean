import Verif.Layout
import Verif.RequestSpec

/-!
# What clients send: a description of request messages independent of the decoders

`ClientReq` lists the requests a FUSE or CUSE client can send, each with the protocol record it
carries (whose byte layout is `layout_...`, see `Layout.lean`) and its strings and payloads.
`body` gives the bytes after the 40-byte message header, `WellFormed` the side conditions of the
protocol, and `Matches` what the server-side API must report for it.
-/

namespace Fuse
open Spec

/-- The requests of the protocol.  Variants differing by negotiated version are separate. -/
inductive ClientReq
  | access (b : FuseAccessIn)
  | bmap (b : FuseBmapIn)
  | copyFileRange (b : FuseCopyFileRangeIn)
  | createOld (b : FuseCreateInV7p1) (name : Bytes)
  | create (b : FuseCreateIn) (name : Bytes)
  | fallocate (b : FuseFallocateIn)
  | flush (b : FuseFlushIn)
  | forget (b : FuseForgetIn)
  | batchForget (b : FuseBatchForgetIn) (items : List FuseForgetOne)
  | fsync (b : FuseFsyncIn)
  | fsyncdir (b : FuseFsyncIn)
  | getattrOld
  | getattr (b : FuseGetattrIn)
  | getlk (b : FuseLkIn)
  | setlk (b : FuseLkIn)
  | setlkw (b : FuseLkIn)
  | getxattr (b : FuseGetxattrIn) (name : Bytes)
  | listxattr (b : FuseGetxattrIn)
  | removexattr (name : Bytes)
  | setxattrOld (b : FuseSetxattrInV7p1) (name value : Bytes)
  | setxattr (b : FuseSetxattrIn) (name value : Bytes)
  | interrupt (b : FuseInterruptIn)
  | ioctl (b : FuseIoctlIn) (input : Bytes)
  | link (b : FuseLinkIn) (name : Bytes)
  | lookup (name : Bytes)
  | lseek (b : FuseLseekIn)
  | mkdir (b : FuseMkdirIn) (name : Bytes)
  | mknodOld (b : FuseMknodInV7p1) (name : Bytes)
  | mknod (b : FuseMknodIn) (name : Bytes)
  | open_ (b : FuseOpenIn)
  | opendir (b : FuseOpenIn)
  | poll (b : FusePollIn)
  | readOld (b : FuseReadInV7p1)
  | read (b : FuseReadIn)
  | readdirOld (b : FuseReadInV7p1)
  | readdir (b : FuseReadIn)
  | readdirplusOld (b : FuseReadInV7p1)
  | readdirplus (b : FuseReadIn)
  | readlink
  | releaseOld (b : FuseReleaseInV7p1)
  | release (b : FuseReleaseIn)
  | releasedirOld (b : FuseReleaseInV7p1)
  | releasedir (b : FuseReleaseIn)
  | rename (b : FuseRenameIn) (oldName newName : Bytes)
  | rename2 (b : FuseRename2In) (oldName newName : Bytes)
  | rmdir (name : Bytes)
  | setattr (b : FuseSetattrIn)
  | statfs
  | symlink (content name : Bytes)
  | unlink (name : Bytes)
  | writeOld (b : FuseWriteInV7p1) (data : Bytes)
  | write (b : FuseWriteIn) (data : Bytes)
  | initV1 (major minor : UInt32)
  | initV6 (major minor maxReadahead flags : UInt32)
  | init (b : FuseInitIn)
  | cuseInit (b : CuseInitIn)
deriving DecidableEq, Repr

/-- A string as it appears in a message: its bytes and a terminating NUL. -/
def cstring (s : Bytes) : Bytes := s ++ [0]

/-- The bytes following the message header. -/
def ClientReq.body : ClientReq → Bytes
  | .access b => layout_fuse_access_in b
  | .bmap b => layout_fuse_bmap_in b
  | .copyFileRange b => layout_fuse_copy_file_range_in b
  | .createOld b name => layout_fuse_create_in_v7p1 b ++ cstring name
  | .create b name => layout_fuse_create_in b ++ cstring name
  | .fallocate b => layout_fuse_fallocate_in b
  | .flush b => layout_fuse_flush_in b
  | .forget b => layout_fuse_forget_in b
  | .batchForget b items => layout_fuse_batch_forget_in b ++ items.flatMap layout_fuse_forget_one
  | .fsync b => layout_fuse_fsync_in b
  | .fsyncdir b => layout_fuse_fsync_in b
  | .getattrOld => []
  | .getattr b => layout_fuse_getattr_in b
  | .getlk b => layout_fuse_lk_in b
  | .setlk b => layout_fuse_lk_in b
  | .setlkw b => layout_fuse_lk_in b
  | .getxattr b name => layout_fuse_getxattr_in b ++ cstring name
  | .listxattr b => layout_fuse_getxattr_in b
  | .removexattr name => cstring name
  | .setxattrOld b name value => layout_fuse_setxattr_in_v7p1 b ++ cstring name ++ value
  | .setxattr b name value => layout_fuse_setxattr_in b ++ cstring name ++ value
  | .interrupt b => layout_fuse_interrupt_in b
  | .ioctl b input => layout_fuse_ioctl_in b ++ input
  | .link b name => layout_fuse_link_in b ++ cstring name
  | .lookup name => cstring name
  | .lseek b => layout_fuse_lseek_in b
  | .mkdir b name => layout_fuse_mkdir_in b ++ cstring name
  | .mknodOld b name => layout_fuse_mknod_in_v7p1 b ++ cstring name
  | .mknod b name => layout_fuse_mknod_in b ++ cstring name
  | .open_ b => layout_fuse_open_in b
  | .opendir b => layout_fuse_open_in b
  | .poll b => layout_fuse_poll_in b
  | .readOld b => layout_fuse_read_in_v7p1 b
  | .read b => layout_fuse_read_in b
  | .readdirOld b => layout_fuse_read_in_v7p1 b
  | .readdir b => layout_fuse_read_in b
  | .readdirplusOld b => layout_fuse_read_in_v7p1 b
  | .readdirplus b => layout_fuse_read_in b
  | .readlink => []
  | .releaseOld b => layout_fuse_release_in_v7p1 b
  | .release b => layout_fuse_release_in b
  | .releasedirOld b => layout_fuse_release_in_v7p1 b
  | .releasedir b => layout_fuse_release_in b
  | .rename b oldName newName => layout_fuse_rename_in b ++ cstring oldName ++ cstring newName
  | .rename2 b oldName newName => layout_fuse_rename2_in b ++ cstring oldName ++ cstring newName
  | .rmdir name => cstring name
  | .setattr b => layout_fuse_setattr_in b
  | .statfs => []
  | .symlink content name => cstring content ++ cstring name
  | .unlink name => cstring name
  | .writeOld b data => layout_fuse_write_in_v7p1 b ++ data
  | .write b data => layout_fuse_write_in b ++ data
  | .initV1 major minor => le32 major ++ le32 minor
  | .initV6 major minor maxReadahead flags =>
    le32 major ++ le32 minor ++ le32 maxReadahead ++ le32 flags
  | .init b => layout_fuse_init_in b
  | .cuseInit b => layout_cuse_init_in b

/-- The opcode in the message header. -/
def ClientReq.opcode : ClientReq → Nat
  | .lookup _ => 1
  | .forget _ => 2
  | .getattrOld | .getattr _ => 3
  | .setattr _ => 4
  | .readlink => 5
  | .symlink _ _ => 6
  | .mknodOld _ _ | .mknod _ _ => 8
  | .mkdir _ _ => 9
  | .unlink _ => 10
  | .rmdir _ => 11
  | .rename _ _ _ => 12
  | .link _ _ => 13
  | .open_ _ => 14
  | .readOld _ | .read _ => 15
  | .writeOld _ _ | .write _ _ => 16
  | .statfs => 17
  | .releaseOld _ | .release _ => 18
  | .fsync _ => 20
  | .setxattrOld _ _ _ | .setxattr _ _ _ => 21
  | .getxattr _ _ => 22
  | .listxattr _ => 23
  | .removexattr _ => 24
  | .flush _ => 25
  | .initV1 _ _ | .initV6 _ _ _ _ | .init _ => 26
  | .opendir _ => 27
  | .readdirOld _ | .readdir _ => 28
  | .releasedirOld _ | .releasedir _ => 29
  | .fsyncdir _ => 30
  | .getlk _ => 31
  | .setlk _ => 32
  | .setlkw _ => 33
  | .access _ => 34
  | .create _ _ | .createOld _ _ => 35
  | .interrupt _ => 36
  | .bmap _ => 37
  | .ioctl _ _ => 39
  | .poll _ => 40
  | .batchForget _ _ => 42
  | .fallocate _ => 43
  | .readdirplusOld _ | .readdirplus _ => 44
  | .rename2 _ _ _ => 45
  | .lseek _ => 46
  | .copyFileRange _ => 47
  | .cuseInit _ => 4096

/-- The request variant sent in a session with the given negotiated version (and set-xattr
extension) that the request type `t` stands for. -/
def ClientReq.HasType : ClientReq → ReqType → Prop
  | .access _, .access => True
  | .bmap _, .bmap => True
  | .copyFileRange _, .copyFileRange => True
  | .createOld _ _, .create l => l.versionMinor < 12
  | .create _ _, .create l => 12 ≤ l.versionMinor
  | .fallocate _, .fallocate => True
  | .flush _, .flush _ => True
  | .forget _, .forget _ => True
  | .batchForget _ _, .forget _ => True
  | .fsync _, .fsync _ => True
  | .fsyncdir _, .fsyncdir => True
  | .getattrOld, .getattr l => l.versionMinor < 9
  | .getattr _, .getattr l => 9 ≤ l.versionMinor
  | .getlk _, .getlk => True
  | .setlk _, .setlk => True
  | .setlkw _, .setlk => True
  | .getxattr _ _, .getxattr => True
  | .listxattr _, .listxattr => True
  | .removexattr _, .removexattr => True
  | .setxattrOld _ _ _, .setxattr l => l.features &&& 1 = 0
  | .setxattr _ _ _, .setxattr l => l.features &&& 1 ≠ 0
  | .interrupt _, .interrupt => True
  | .ioctl _ _, .ioctl _ => True
  | .link _ _, .link => True
  | .lookup _, .lookup => True
  | .lseek _, .lseek => True
  | .mkdir _ _, .mkdir => True
  | .mknodOld _ _, .mknod l => l.versionMinor < 12
  | .mknod _ _, .mknod l => 12 ≤ l.versionMinor
  | .open_ _, .open_ _ => True
  | .opendir _, .opendir => True
  | .poll _, .poll => True
  | .readOld _, .read v _ => v < 9
  | .read _, .read v _ => 9 ≤ v
  | .readdirOld _, .readdir l => l.versionMinor < 9
  | .readdir _, .readdir l => 9 ≤ l.versionMinor
  | .readdirplusOld _, .readdirplus l => l.versionMinor < 9
  | .readdirplus _, .readdirplus l => 9 ≤ l.versionMinor
  | .readlink, .readlink => True
  | .releaseOld _, .release v _ => v < 8
  | .release _, .release v _ => 8 ≤ v
  | .releasedirOld _, .releasedir l => l.versionMinor < 8
  | .releasedir _, .releasedir l => 8 ≤ l.versionMinor
  | .rename _ _ _, .rename => True
  | .rename2 _ _ _, .rename => True
  | .rmdir _, .rmdir => True
  | .setattr _, .setattr => True
  | .statfs, .statfs => True
  | .symlink _ _, .symlink => True
  | .unlink _, .unlink => True
  | .writeOld _ _, .write v _ => v < 9
  | .write _ _, .write v _ => 9 ≤ v
  | .initV1 _ _, .fuseInit => True
  | .initV6 _ _ _ _, .fuseInit => True
  | .init _, .fuseInit => True
  | .cuseInit _, .cuseInit => True
  | _, _ => False

/-- A file name within a directory. -/
def NameOk (s : Bytes) : Prop := s ≠ [] ∧ 0 ∉ s ∧ 0x2F ∉ s

/-- A timestamp selected by `bit` has fewer than `10^9` nanoseconds. -/
def NanosOk (valid bit nanos : UInt32) : Prop := valid &&& bit ≠ 0 → nanos < 1000000000

/-- A lock that covers at least one byte (ranges may be given end first). -/
def LockOk (l : FuseFileLock) : Prop := l.start ≤ l.end_ ∨ l.end_.toNat + 1 < l.start.toNat

/-- The side conditions of the protocol on a request whose header carries `nodeid`.  A request
decoded for a CUSE session (`cuse`) needs no node ID. -/
def ClientReq.WellFormed (nodeid : UInt64) (cuse : Bool) : ClientReq → Prop
  | .access _ => nodeid ≠ 0
  | .bmap _ => nodeid ≠ 0
  | .copyFileRange b => nodeid ≠ 0 ∧ b.nodeid_out ≠ 0
  | .createOld _ name => nodeid ≠ 0 ∧ NameOk name
  | .create _ name => nodeid ≠ 0 ∧ NameOk name
  | .fallocate _ => nodeid ≠ 0
  | .flush _ => cuse = true ∨ nodeid ≠ 0
  | .forget _ => True
  | .batchForget b items => b.count.toNat = items.length
  | .fsync _ => cuse = true ∨ nodeid ≠ 0
  | .fsyncdir _ => nodeid ≠ 0
  | .getattrOld => nodeid ≠ 0
  | .getattr _ => nodeid ≠ 0
  | .getlk b => nodeid ≠ 0 ∧ LockOk b.lk
  | .setlk b => nodeid ≠ 0 ∧ LockOk b.lk
  | .setlkw b => nodeid ≠ 0 ∧ LockOk b.lk
  | .getxattr _ name => nodeid ≠ 0 ∧ 0 ∉ name
  | .listxattr _ => nodeid ≠ 0
  | .removexattr name => nodeid ≠ 0 ∧ 0 ∉ name
  | .setxattrOld b name value => nodeid ≠ 0 ∧ 0 ∉ name ∧ b.size.toNat = value.length
  | .setxattr b name value => nodeid ≠ 0 ∧ 0 ∉ name ∧ b.size.toNat = value.length
  | .interrupt b => b.unique ≠ 0
  | .ioctl b input => (cuse = true ∨ nodeid ≠ 0) ∧ b.in_size.toNat = input.length
  | .link b name => nodeid ≠ 0 ∧ b.oldnodeid ≠ 0 ∧ NameOk name
  | .lookup name => nodeid ≠ 0 ∧ NameOk name
  | .lseek _ => nodeid ≠ 0
  | .mkdir _ name => nodeid ≠ 0 ∧ NameOk name
  | .mknodOld _ name => nodeid ≠ 0 ∧ NameOk name
  | .mknod _ name => nodeid ≠ 0 ∧ NameOk name
  | .open_ _ => cuse = true ∨ nodeid ≠ 0
  | .opendir _ => nodeid ≠ 0
  | .poll _ => nodeid ≠ 0
  | .readOld _ => cuse = true ∨ nodeid ≠ 0
  | .read _ => cuse = true ∨ nodeid ≠ 0
  | .readdirOld _ => nodeid ≠ 0
  | .readdir _ => nodeid ≠ 0
  | .readdirplusOld _ => nodeid ≠ 0
  | .readdirplus _ => nodeid ≠ 0
  | .readlink => nodeid ≠ 0
  | .releaseOld _ => cuse = true ∨ nodeid ≠ 0
  | .release _ => cuse = true ∨ nodeid ≠ 0
  | .releasedirOld _ => nodeid ≠ 0
  | .releasedir _ => nodeid ≠ 0
  | .rename b oldName newName => nodeid ≠ 0 ∧ b.newdir ≠ 0 ∧ NameOk oldName ∧ NameOk newName
  | .rename2 b oldName newName => nodeid ≠ 0 ∧ b.newdir ≠ 0 ∧ NameOk oldName ∧ NameOk newName
  | .rmdir name => nodeid ≠ 0 ∧ NameOk name
  | .setattr b => nodeid ≠ 0 ∧ NanosOk b.valid 16 b.atimensec ∧ NanosOk b.valid 32 b.mtimensec ∧
      NanosOk b.valid 1024 b.ctimensec
  | .statfs => nodeid ≠ 0
  | .symlink content name => nodeid ≠ 0 ∧ 0 ∉ content ∧ NameOk name
  | .unlink name => nodeid ≠ 0 ∧ NameOk name
  | .writeOld b data => (cuse = true ∨ nodeid ≠ 0) ∧ b.size.toNat = data.length
  | .write b data => (cuse = true ∨ nodeid ≠ 0) ∧ b.size.toNat = data.length
  | .initV1 major minor => minor < 6 ∨ major ≠ 7
  | .initV6 major minor _ _ => major = 7 ∧ 6 ≤ minor ∧ minor < 36
  | .init b => b.major = 7 ∧ 36 ≤ b.minor
  | .cuseInit _ => True

/-- The API reports the node ID `id`. -/
def IdIs (x : Except Fault NodeId) (id : UInt64) : Prop := ∃ n : NodeId, x = .ok n ∧ n.val = id

/-- The node ID reported for operations shared with CUSE: the root if the client sent none. -/
def IdOrRoot (x : NodeId) (id : UInt64) : Prop := x.val = if id = 0 then 1 else id

/-- A `FATTR_*`-selected value. -/
def selected {α} (valid bit : UInt32) (x : α) : Option α := if valid &&& bit = 0 then none else some x

/-- The timestamp a client means by (seconds, nanoseconds): seconds are two's complement. -/
def timespec (secs : UInt64) (nanos : UInt32) : UnixTime := ⟨Int64.ofUInt64 secs, nanos⟩

/-- The byte range a client means by a lock record: `start..=end`, with the ends swapped if given in
descending order (then exclusive of both), unbounded from `2^63 - 1` on. -/
def LockMeans (l : FuseFileLock) (r : LockRange) : Prop :=
  if l.end_ < l.start then
    r.start.toNat = l.end_.toNat + 1 ∧
      ∃ n : NonZeroU64, r.length = some n ∧ n.val.toNat = l.start.toNat - (l.end_.toNat + 1)
  else if 2 ^ 63 - 1 ≤ l.end_.toNat then r.start = l.start ∧ r.length = none
  else r.start = l.start ∧
      ∃ n : NonZeroU64, r.length = some n ∧ n.val.toNat = l.end_.toNat - l.start.toNat + 1

/-- The owning process, if any. -/
def PidMeans (pid : UInt32) (x : Option { n : UInt32 // n ≠ 0 }) : Prop :=
  x.map Subtype.val = if pid = 0 then none else some pid

/-- What the server API must report for a client request. -/
def ClientReq.Matches (nodeid : UInt64) (cuse : Bool) : ClientReq → AnyRequest → Prop
  | .access b, .access r => r.nodeId.val = nodeid ∧ r.mask = b.mask
  | .bmap b, .bmap r => IdIs r.nodeId nodeid ∧ r.block = b.block ∧ r.blockSize = b.blocksize
  | .copyFileRange b, .copyFileRange r =>
    IdIs r.inputNodeId nodeid ∧ r.inputHandle = b.fh_in ∧ r.inputOffset = b.off_in ∧
      IdIs r.outputNodeId b.nodeid_out ∧ r.outputHandle = b.fh_out ∧ r.outputOffset = b.off_out ∧
      r.len = b.len ∧ r.flags = b.flags
  | .createOld b name, .create r =>
    IdIs r.nodeId nodeid ∧ r.name.bytes = name ∧ r.openFlags = .ok b.flags ∧ r.flags = .ok 0 ∧
      r.mode = .ok ⟨0⟩ ∧ r.umask = .ok 0
  | .create b name, .create r =>
    IdIs r.nodeId nodeid ∧ r.name.bytes = name ∧ r.openFlags = .ok b.flags ∧
      r.flags = .ok b.open_flags ∧ r.mode = .ok ⟨b.mode⟩ ∧ r.umask = .ok b.umask
  | .fallocate b, .fallocate r =>
    IdIs r.nodeId nodeid ∧ r.handle = b.fh ∧ r.offset = b.offset ∧ r.length = b.length ∧
      r.fallocateFlags = b.mode
  | .flush b, .flush r =>
    r.nodeId.val = (if cuse then 1 else nodeid) ∧ r.handle = b.fh ∧ r.lockOwner = b.lock_owner
  | .forget b, .forget r =>
    r.items.map (fun i => (i.nodeId.val, i.lookupCount)) =
      if nodeid = 0 then [] else [(nodeid, b.nlookup)]
  | .batchForget _ items, .forget r =>
    r.items.map (fun i => (i.nodeId.val, i.lookupCount)) =
      (items.filter (·.nodeid ≠ 0)).map (fun i => (i.nodeid, i.nlookup))
  | .fsync b, .fsync r => IdOrRoot r.nodeId nodeid ∧ r.handle = b.fh ∧ r.flags = b.fsync_flags
  | .fsyncdir b, .fsyncdir r => IdIs r.nodeId nodeid ∧ r.handle = b.fh ∧ r.flags = b.fsync_flags
  | .getattrOld, .getattr r => IdIs r.nodeId nodeid ∧ r.handle = .ok none
  | .getattr b, .getattr r =>
    IdIs r.nodeId nodeid ∧ r.handle = .ok (selected b.getattr_flags 1 b.fh)
  | .getlk b, .getlk r =>
    IdIs r.nodeId nodeid ∧ r.handle = b.fh ∧ r.owner = b.owner ∧ r.lockMode = b.lk.type_ ∧
      LockMeans b.lk r.lockRange
  | .setlk b, .setlk r =>
    IdIs r.nodeId nodeid ∧ r.handle = b.fh ∧ r.owner = b.owner ∧ r.flags = b.lk_flags ∧
      r.mayBlock = false ∧ r.lock.mode = b.lk.type_ ∧ LockMeans b.lk r.lock.range ∧
      PidMeans b.lk.pid r.lock.processId
  | .setlkw b, .setlk r =>
    IdIs r.nodeId nodeid ∧ r.handle = b.fh ∧ r.owner = b.owner ∧ r.flags = b.lk_flags ∧
      r.mayBlock = true ∧ r.lock.mode = b.lk.type_ ∧ LockMeans b.lk r.lock.range ∧
      PidMeans b.lk.pid r.lock.processId
  | .getxattr b name, .getxattr r =>
    IdIs r.nodeId nodeid ∧ r.name.bytes = name ∧
      r.size.map Subtype.val = if b.size = 0 then none else some b.size.toNat
  | .listxattr b, .listxattr r =>
    IdIs r.nodeId nodeid ∧ r.size.map Subtype.val = if b.size = 0 then none else some b.size.toNat
  | .removexattr name, .removexattr r => IdIs r.nodeId nodeid ∧ r.name.bytes = name
  | .setxattrOld b name value, .setxattr r =>
    IdIs r.nodeId nodeid ∧ r.name.bytes = name ∧ r.value = value ∧
      r.setxattrFlags = .ok b.flags ∧ r.flags = .ok 0
  | .setxattr b name value, .setxattr r =>
    IdIs r.nodeId nodeid ∧ r.name.bytes = name ∧ r.value = value ∧
      r.setxattrFlags = .ok b.flags ∧ r.flags = .ok b.setxattr_flags
  | .interrupt b, .interrupt r => ∃ u : NonZeroU64, r.requestId = .ok u ∧ u.val = b.unique
  | .ioctl b input, .ioctl r =>
    IdOrRoot r.nodeId nodeid ∧ r.handle = b.fh ∧ r.command = b.cmd ∧ r.arg = b.arg ∧
      r.inputLen = b.in_size ∧ r.outputLen = b.out_size ∧ r.flags = b.flags ∧ r.input = input
  | .link b name, .link r =>
    r.nodeId.val = b.oldnodeid ∧ r.newParentId.val = nodeid ∧ r.newName.bytes = name
  | .lookup name, .lookup r => r.parentId.val = nodeid ∧ r.name.bytes = name
  | .lseek b, .lseek r =>
    r.nodeId.val = nodeid ∧ r.handle = b.fh ∧ r.offset = b.offset ∧ r.whence = b.whence
  | .mkdir b name, .mkdir r =>
    r.parentId.val = nodeid ∧ r.name.bytes = name ∧ r.mode = ⟨b.mode⟩ ∧ r.umask = b.umask
  | .mknodOld b name, .mknod r =>
    IdIs r.parentId nodeid ∧ r.name.bytes = name ∧ r.mode = .ok ⟨b.mode⟩ ∧ r.umask = .ok 0 ∧
      r.deviceNumber = .ok (if b.mode &&& 0xF000 = 0x2000 ∨ b.mode &&& 0xF000 = 0x6000 then
        some b.rdev else none)
  | .mknod b name, .mknod r =>
    IdIs r.parentId nodeid ∧ r.name.bytes = name ∧ r.mode = .ok ⟨b.mode⟩ ∧
      r.umask = .ok b.umask ∧
      r.deviceNumber = .ok (if b.mode &&& 0xF000 = 0x2000 ∨ b.mode &&& 0xF000 = 0x6000 then
        some b.rdev else none)
  | .open_ b, .open_ r =>
    IdOrRoot r.nodeId nodeid ∧ r.flags = b.open_flags ∧ r.openFlags = b.flags
  | .opendir b, .opendir r =>
    IdIs r.nodeId nodeid ∧ r.flags = b.open_flags ∧ r.openFlags = b.flags
  | .poll b, .poll r =>
    IdIs r.nodeId nodeid ∧ r.pollEvents = b.events ∧ r.pollHandle = b.kh ∧ r.flags = b.flags
  | .readOld b, .read r =>
    IdOrRoot r.nodeId nodeid ∧ r.size = .ok b.size ∧ r.offset = .ok b.offset ∧
      r.handle = .ok b.fh ∧ r.lockOwner = .ok none ∧ r.openFlags = .ok 0
  | .read b, .read r =>
    IdOrRoot r.nodeId nodeid ∧ r.size = .ok b.size ∧ r.offset = .ok b.offset ∧
      r.handle = .ok b.fh ∧ r.lockOwner = .ok (selected b.read_flags 2 b.lock_owner) ∧
      r.openFlags = .ok b.flags
  | .readdirOld b, .readdir r =>
    IdIs r.nodeId nodeid ∧ r.size = .ok b.size ∧ r.handle = .ok b.fh ∧ r.openFlags = .ok 0 ∧
      ∃ o : Option NonZeroU64, r.offset = .ok o ∧
        o.map Subtype.val = if b.offset = 0 then none else some b.offset
  | .readdir b, .readdir r =>
    IdIs r.nodeId nodeid ∧ r.size = .ok b.size ∧ r.handle = .ok b.fh ∧ r.openFlags = .ok b.flags ∧
      ∃ o : Option NonZeroU64, r.offset = .ok o ∧
        o.map Subtype.val = if b.offset = 0 then none else some b.offset
  | .readdirplusOld b, .readdirplus r =>
    IdIs r.nodeId nodeid ∧ r.size = .ok b.size ∧ r.handle = .ok b.fh ∧ r.openFlags = .ok 0 ∧
      ∃ o : Option NonZeroU64, r.offset = .ok o ∧
        o.map Subtype.val = if b.offset = 0 then none else some b.offset
  | .readdirplus b, .readdirplus r =>
    IdIs r.nodeId nodeid ∧ r.size = .ok b.size ∧ r.handle = .ok b.fh ∧ r.openFlags = .ok b.flags ∧
      ∃ o : Option NonZeroU64, r.offset = .ok o ∧
        o.map Subtype.val = if b.offset = 0 then none else some b.offset
  | .readlink, .readlink r => r.nodeId.val = nodeid
  | .releaseOld b, .release r =>
    IdOrRoot r.nodeId nodeid ∧ r.handle = .ok b.fh ∧ r.openFlags = .ok b.flags ∧
      r.lockOwner = .ok none
  | .release b, .release r =>
    IdOrRoot r.nodeId nodeid ∧ r.handle = .ok b.fh ∧ r.openFlags = .ok b.flags ∧
      r.lockOwner = .ok (selected b.release_flags 2 b.lock_owner)
  | .releasedirOld b, .releasedir r =>
    IdIs r.nodeId nodeid ∧ r.handle = .ok b.fh ∧ r.openFlags = .ok b.flags ∧
      r.lockOwner = .ok none
  | .releasedir b, .releasedir r =>
    IdIs r.nodeId nodeid ∧ r.handle = .ok b.fh ∧ r.openFlags = .ok b.flags ∧
      r.lockOwner = .ok (selected b.release_flags 2 b.lock_owner)
  | .rename b oldName newName, .rename r =>
    r.oldDirectoryId.val = nodeid ∧ r.oldName.bytes = oldName ∧ r.newDirectoryId.val = b.newdir ∧
      r.newName.bytes = newName ∧ r.renameFlags = 0
  | .rename2 b oldName newName, .rename r =>
    r.oldDirectoryId.val = nodeid ∧ r.oldName.bytes = oldName ∧ r.newDirectoryId.val = b.newdir ∧
      r.newName.bytes = newName ∧ r.renameFlags = b.flags
  | .rmdir name, .rmdir r => r.parentId.val = nodeid ∧ r.name.bytes = name
  | .setattr b, .setattr r =>
    IdIs r.nodeId nodeid ∧ r.mode = selected b.valid 1 ⟨b.mode⟩ ∧
      r.userId = selected b.valid 2 b.uid ∧ r.groupId = selected b.valid 4 b.gid ∧
      r.size = selected b.valid 8 b.size ∧
      r.atime = .ok (selected b.valid 16 (timespec b.atime b.atimensec)) ∧
      r.mtime = .ok (selected b.valid 32 (timespec b.mtime b.mtimensec)) ∧
      r.handle = selected b.valid 64 b.fh ∧
      (r.atimeNow = true ↔ b.valid &&& 128 ≠ 0) ∧ (r.mtimeNow = true ↔ b.valid &&& 256 ≠ 0) ∧
      r.lockOwner = selected b.valid 512 b.lock_owner ∧
      r.ctime = .ok (selected b.valid 1024 (timespec b.ctime b.ctimensec))
  | .statfs, .statfs r => r.nodeId.val = nodeid
  | .symlink content name, .symlink r =>
    r.parentId.val = nodeid ∧ r.name.bytes = name ∧ r.content.bytes = content
  | .unlink name, .unlink r => r.parentId.val = nodeid ∧ r.name.bytes = name
  | .writeOld b data, .write r =>
    (∃ n, r.nodeId = .ok n ∧ IdOrRoot n nodeid) ∧ r.offset = .ok b.offset ∧ r.handle = .ok b.fh ∧
      r.value = .ok data ∧ r.flags = .ok b.write_flags ∧ r.lockOwner = .ok none ∧
      r.openFlags = .ok 0
  | .write b data, .write r =>
    (∃ n, r.nodeId = .ok n ∧ IdOrRoot n nodeid) ∧ r.offset = .ok b.offset ∧ r.handle = .ok b.fh ∧
      r.value = .ok data ∧ r.flags = .ok b.write_flags ∧
      r.lockOwner = .ok (selected b.write_flags 2 b.lock_owner) ∧ r.openFlags = .ok b.flags
  | .initV1 major minor, .fuseInit r =>
    r.version = ⟨major, minor⟩ ∧ r.maxReadahead = 0 ∧ r.flags = 0
  | .initV6 major minor maxReadahead flags, .fuseInit r =>
    r.version = ⟨major, minor⟩ ∧ r.maxReadahead = maxReadahead ∧ r.flags.toNat = flags.toNat
  | .init b, .fuseInit r =>
    r.version = ⟨b.major, b.minor⟩ ∧ r.maxReadahead = b.max_readahead ∧
      r.flags.toNat = b.flags.toNat + 2 ^ 32 * b.flags2.toNat
  | .cuseInit b, .cuseInit r => r.version = ⟨b.major, b.minor⟩ ∧ r.flags = b.flags
  | _, _ => False

end Fuse
