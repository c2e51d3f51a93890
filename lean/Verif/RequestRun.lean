import Verif.RequestMatch

/-!
# Every well-formed request message decodes to a request reporting what the client sent
-/

set_option linter.unusedSimpArgs false

namespace Fuse
open Spec

variable {mem : Bytes} {H : Nat} {s : Bytes}

/-- Advances a `Run` goal through the steps of a decoder. -/
macro "run_step" : tactic => `(tactic| first
  | with_reducible refine Run.expectOpcode_bind (by assumption) ?_
  | with_reducible refine Run.header_bind ?_
  | with_reducible refine Run.nodeId_bind (by assumption) ?_
  | with_reducible refine Run.nextSized_bind (by simp) (by simp) (by simp) (fun _ => ?_)
  | with_reducible refine Run.nextNodeName_bind (by assumption) ?_
  | with_reducible refine Run.nextCstr_bind (by assumption) (by assumption) (fun _ => ?_)
  | with_reducible refine Run.nextBytes_bind (by assumption) (by assumption) ?_
  | simp only [pure_bind, bind_assoc])

/-- The claim proved for every request. -/
abbrev RunsTo (mem : Bytes) (H : Nat) (s : Bytes) (a : ClientReq) (t : ReqType) : Prop :=
  Run mem H 40 (a.body ++ s) (decodeAny t)
    (fun r s' => s' = s ∧ a.Matches (hd mem).nodeid t.isCuse r)

theorem run_access (hop : (hd mem).opcode = 34) (hid : (hd mem).nodeid ≠ 0) {b : FuseAccessIn}  :
    RunsTo mem H s (.access b) (.access) := by
  refine Run.map ?_
  simp only [ClientReq.body, cstring, List.append_assoc, ← enc_fuse_access_in]
  unfold decodeAccess
  repeat' run_step
  exact Run.pure ⟨rfl, match_access hid _⟩

theorem run_bmap (hop : (hd mem).opcode = 37) (hid : (hd mem).nodeid ≠ 0) {b : FuseBmapIn}  :
    RunsTo mem H s (.bmap b) (.bmap) := by
  refine Run.map ?_
  simp only [ClientReq.body, cstring, List.append_assoc, ← enc_fuse_bmap_in]
  unfold decodeBmap
  repeat' run_step
  exact Run.pure ⟨rfl, match_bmap hid _⟩

theorem run_copyFileRange (hop : (hd mem).opcode = 47) (hid : (hd mem).nodeid ≠ 0) {b : FuseCopyFileRangeIn} (ho : b.nodeid_out ≠ 0) :
    RunsTo mem H s (.copyFileRange b) (.copyFileRange) := by
  refine Run.map ?_
  simp only [ClientReq.body, cstring, List.append_assoc, ← enc_fuse_copy_file_range_in]
  unfold decodeCopyFileRange
  repeat' run_step
  exact Run.pure ⟨rfl, match_copyFileRange hid ho _⟩

theorem run_fallocate (hop : (hd mem).opcode = 43) (hid : (hd mem).nodeid ≠ 0) {b : FuseFallocateIn}  :
    RunsTo mem H s (.fallocate b) (.fallocate) := by
  refine Run.map ?_
  simp only [ClientReq.body, cstring, List.append_assoc, ← enc_fuse_fallocate_in]
  unfold decodeFallocate
  repeat' run_step
  exact Run.pure ⟨rfl, match_fallocate hid _⟩

theorem run_fsyncdir (hop : (hd mem).opcode = 30) (hid : (hd mem).nodeid ≠ 0) {b : FuseFsyncIn}  :
    RunsTo mem H s (.fsyncdir b) (.fsyncdir) := by
  refine Run.map ?_
  simp only [ClientReq.body, cstring, List.append_assoc, ← enc_fuse_fsync_in]
  unfold decodeFsyncdir
  repeat' run_step
  exact Run.pure ⟨rfl, match_fsyncdir hid _⟩

theorem run_listxattr (hop : (hd mem).opcode = 23) (hid : (hd mem).nodeid ≠ 0) {b : FuseGetxattrIn}  :
    RunsTo mem H s (.listxattr b) (.listxattr) := by
  refine Run.map ?_
  simp only [ClientReq.body, cstring, List.append_assoc, ← enc_fuse_getxattr_in]
  unfold decodeListxattr
  repeat' run_step
  exact Run.pure ⟨rfl, match_listxattr hid _⟩

theorem run_lseek (hop : (hd mem).opcode = 46) (hid : (hd mem).nodeid ≠ 0) {b : FuseLseekIn}  :
    RunsTo mem H s (.lseek b) (.lseek) := by
  refine Run.map ?_
  simp only [ClientReq.body, cstring, List.append_assoc, ← enc_fuse_lseek_in]
  unfold decodeLseek
  repeat' run_step
  exact Run.pure ⟨rfl, match_lseek hid _⟩

theorem run_opendir (hop : (hd mem).opcode = 27) (hid : (hd mem).nodeid ≠ 0) {b : FuseOpenIn}  :
    RunsTo mem H s (.opendir b) (.opendir) := by
  refine Run.map ?_
  simp only [ClientReq.body, cstring, List.append_assoc, ← enc_fuse_open_in]
  unfold decodeOpendir
  repeat' run_step
  exact Run.pure ⟨rfl, match_opendir hid _⟩

theorem run_poll (hop : (hd mem).opcode = 40) (hid : (hd mem).nodeid ≠ 0) {b : FusePollIn}  :
    RunsTo mem H s (.poll b) (.poll) := by
  refine Run.map ?_
  simp only [ClientReq.body, cstring, List.append_assoc, ← enc_fuse_poll_in]
  unfold decodePoll
  repeat' run_step
  exact Run.pure ⟨rfl, match_poll hid _⟩

theorem run_readlink (hop : (hd mem).opcode = 5) (hid : (hd mem).nodeid ≠ 0)   :
    RunsTo mem H s (.readlink) (.readlink) := by
  refine Run.map ?_
  simp only [ClientReq.body, cstring, List.append_assoc]
  unfold decodeReadlink
  repeat' run_step
  exact Run.pure ⟨rfl, match_readlink hid _⟩

theorem run_statfs (hop : (hd mem).opcode = 17) (hid : (hd mem).nodeid ≠ 0)   :
    RunsTo mem H s (.statfs) (.statfs) := by
  refine Run.map ?_
  simp only [ClientReq.body, cstring, List.append_assoc]
  unfold decodeStatfs
  repeat' run_step
  exact Run.pure ⟨rfl, match_statfs hid _⟩

theorem run_cuseInit (hop : (hd mem).opcode = 4096)  {b : CuseInitIn}  :
    RunsTo mem H s (.cuseInit b) (.cuseInit) := by
  refine Run.map ?_
  simp only [ClientReq.body, cstring, List.append_assoc, ← enc_cuse_init_in]
  unfold decodeCuseInit
  repeat' run_step
  exact Run.pure ⟨rfl, match_cuseInit (h := hd mem) _⟩

theorem run_lookup (hop : (hd mem).opcode = 1) (hid : (hd mem).nodeid ≠ 0) {name : Bytes} (hv : NodeName.Valid name) :
    RunsTo mem H s (.lookup name) (.lookup) := by
  refine Run.map ?_
  simp only [ClientReq.body, cstring, List.append_assoc]
  unfold decodeLookup
  repeat' run_step
  exact Run.pure ⟨rfl, match_lookup hid _⟩

theorem run_rmdir (hop : (hd mem).opcode = 11) (hid : (hd mem).nodeid ≠ 0) {name : Bytes} (hv : NodeName.Valid name) :
    RunsTo mem H s (.rmdir name) (.rmdir) := by
  refine Run.map ?_
  simp only [ClientReq.body, cstring, List.append_assoc]
  unfold decodeRmdir
  repeat' run_step
  exact Run.pure ⟨rfl, match_rmdir hid _⟩

theorem run_unlink (hop : (hd mem).opcode = 10) (hid : (hd mem).nodeid ≠ 0) {name : Bytes} (hv : NodeName.Valid name) :
    RunsTo mem H s (.unlink name) (.unlink) := by
  refine Run.map ?_
  simp only [ClientReq.body, cstring, List.append_assoc]
  unfold decodeUnlink
  repeat' run_step
  exact Run.pure ⟨rfl, match_unlink hid _⟩

theorem run_mkdir (hop : (hd mem).opcode = 9) (hid : (hd mem).nodeid ≠ 0) {b : FuseMkdirIn} {name : Bytes} (hv : NodeName.Valid name) :
    RunsTo mem H s (.mkdir b name) (.mkdir) := by
  refine Run.map ?_
  simp only [ClientReq.body, cstring, List.append_assoc, ← enc_fuse_mkdir_in]
  unfold decodeMkdir
  repeat' run_step
  exact Run.pure ⟨rfl, match_mkdir hid _⟩

theorem run_link (hop : (hd mem).opcode = 13) (hid : (hd mem).nodeid ≠ 0) {b : FuseLinkIn} {name : Bytes} (hv : NodeName.Valid name) (ho : b.oldnodeid ≠ 0) :
    RunsTo mem H s (.link b name) (.link) := by
  refine Run.map ?_
  simp only [ClientReq.body, cstring, List.append_assoc, ← enc_fuse_link_in]
  unfold decodeLink
  repeat' run_step
  exact Run.pure ⟨rfl, match_link hid ho _⟩

theorem run_symlink (hop : (hd mem).opcode = 6) (hid : (hd mem).nodeid ≠ 0) {content name : Bytes} (hv : NodeName.Valid name) (hc : 0 ∉ content) (hne : content ≠ []) :
    RunsTo mem H s (.symlink content name) (.symlink) := by
  refine Run.map ?_
  simp only [ClientReq.body, cstring, List.append_assoc]
  unfold decodeSymlink
  repeat' run_step
  exact Run.pure ⟨rfl, match_symlink hid _⟩

theorem run_getxattr (hop : (hd mem).opcode = 22) (hid : (hd mem).nodeid ≠ 0) {b : FuseGetxattrIn} {name : Bytes} (hc : 0 ∉ name) (hne : name ≠ []) :
    RunsTo mem H s (.getxattr b name) (.getxattr) := by
  refine Run.map ?_
  simp only [ClientReq.body, cstring, List.append_assoc, ← enc_fuse_getxattr_in]
  unfold decodeGetxattr
  repeat' run_step
  exact Run.pure ⟨rfl, match_getxattr hid _⟩

theorem run_removexattr (hop : (hd mem).opcode = 24) (hid : (hd mem).nodeid ≠ 0) {name : Bytes} (hc : 0 ∉ name) (hne : name ≠ []) :
    RunsTo mem H s (.removexattr name) (.removexattr) := by
  refine Run.map ?_
  simp only [ClientReq.body, cstring, List.append_assoc]
  unfold decodeRemovexattr
  repeat' run_step
  exact Run.pure ⟨rfl, match_removexattr hid _⟩

theorem run_getlk (hop : (hd mem).opcode = 31) (hid : (hd mem).nodeid ≠ 0) {b : FuseLkIn} {r} (hl : LockRange.decode b.lk = .ok r) (hm : LockMeans b.lk r) :
    RunsTo mem H s (.getlk b) (.getlk) := by
  refine Run.map ?_
  simp only [ClientReq.body, cstring, List.append_assoc, ← enc_fuse_lk_in]
  unfold decodeGetlk
  repeat' run_step
  refine Run.ofRes_bind hl ?_
  repeat' run_step
  exact Run.pure ⟨rfl, match_getlk hid hm _⟩

theorem run_setlk (hop : (hd mem).opcode = 32) (hid : (hd mem).nodeid ≠ 0) {b : FuseLkIn} {r} (hl : LockRange.decode b.lk = .ok r) (hm : LockMeans b.lk r) :
    RunsTo mem H s (.setlk b) (.setlk) := by
  refine Run.map ?_
  simp only [ClientReq.body, cstring, List.append_assoc, ← enc_fuse_lk_in]
  unfold decodeSetlk
  refine Run.header_bind ?_
  rw [if_pos (by rw [hop]; decide)]
  repeat' run_step
  refine Run.ofRes_bind (lock_decode hl) ?_
  repeat' run_step
  exact Run.pure ⟨rfl, match_setlk hid hop hm _⟩

theorem run_setlkw (hop : (hd mem).opcode = 33) (hid : (hd mem).nodeid ≠ 0) {b : FuseLkIn} {r} (hl : LockRange.decode b.lk = .ok r) (hm : LockMeans b.lk r) :
    RunsTo mem H s (.setlkw b) (.setlk) := by
  refine Run.map ?_
  simp only [ClientReq.body, cstring, List.append_assoc, ← enc_fuse_lk_in]
  unfold decodeSetlk
  refine Run.header_bind ?_
  rw [if_neg (by rw [hop]; decide)]
  repeat' run_step
  refine Run.ofRes_bind (lock_decode hl) ?_
  repeat' run_step
  exact Run.pure ⟨rfl, match_setlkw hid hop hm _⟩

theorem run_interrupt (hop : (hd mem).opcode = 36)  {b : FuseInterruptIn} (hu : b.unique ≠ 0) :
    RunsTo mem H s (.interrupt b) (.interrupt) := by
  refine Run.map ?_
  simp only [ClientReq.body, cstring, List.append_assoc, ← enc_fuse_interrupt_in]
  unfold decodeInterrupt
  repeat' run_step
  rw [if_neg hu]
  repeat' run_step
  exact Run.pure ⟨rfl, match_interrupt (h := hd mem) hu _⟩

theorem run_create (hop : (hd mem).opcode = 35) (hid : (hd mem).nodeid ≠ 0) {b : FuseCreateIn} {name : Bytes} {l : FuseLayout} (hv : NodeName.Valid name)(hl : l.minor ≥ 12) :
    RunsTo mem H s (.create b name) (.create l) := by
  refine Run.map ?_
  simp only [ClientReq.body, cstring, List.append_assoc, ← enc_fuse_create_in]
  unfold decodeCreate
  repeat' run_step
  rw [if_pos hl]
  repeat' run_step
  exact Run.pure ⟨rfl, match_create hid hl _⟩

theorem run_mknod (hop : (hd mem).opcode = 8) (hid : (hd mem).nodeid ≠ 0) {b : FuseMknodIn} {name : Bytes} {l : FuseLayout} (hv : NodeName.Valid name)(hl : l.minor ≥ 12) :
    RunsTo mem H s (.mknod b name) (.mknod l) := by
  refine Run.map ?_
  simp only [ClientReq.body, cstring, List.append_assoc, ← enc_fuse_mknod_in]
  unfold decodeMknod
  repeat' run_step
  rw [if_pos hl]
  repeat' run_step
  exact Run.pure ⟨rfl, match_mknod hid hl _⟩

theorem run_getattr (hop : (hd mem).opcode = 3) (hid : (hd mem).nodeid ≠ 0) {b : FuseGetattrIn} {l : FuseLayout} (hl : l.minor ≥ 9) :
    RunsTo mem H s (.getattr b) (.getattr l) := by
  refine Run.map ?_
  simp only [ClientReq.body, cstring, List.append_assoc, ← enc_fuse_getattr_in]
  unfold decodeGetattr
  repeat' run_step
  rw [if_pos hl]
  repeat' run_step
  exact Run.pure ⟨rfl, match_getattr hid hl _⟩

theorem run_readdir (hop : (hd mem).opcode = 28) (hid : (hd mem).nodeid ≠ 0) {b : FuseReadIn} {l : FuseLayout} (hl : l.minor ≥ 9) :
    RunsTo mem H s (.readdir b) (.readdir l) := by
  refine Run.map ?_
  simp only [ClientReq.body, cstring, List.append_assoc, ← enc_fuse_read_in]
  unfold decodeReaddir readBody
  repeat' run_step
  rw [if_pos hl]
  repeat' run_step
  exact Run.pure ⟨rfl, match_readdir hid hl _⟩

theorem run_readdirplus (hop : (hd mem).opcode = 44) (hid : (hd mem).nodeid ≠ 0) {b : FuseReadIn} {l : FuseLayout} (hl : l.minor ≥ 9) :
    RunsTo mem H s (.readdirplus b) (.readdirplus l) := by
  refine Run.map ?_
  simp only [ClientReq.body, cstring, List.append_assoc, ← enc_fuse_read_in]
  unfold decodeReaddirplus readBody
  repeat' run_step
  rw [if_pos hl]
  repeat' run_step
  exact Run.pure ⟨rfl, match_readdirplus hid hl _⟩

theorem run_releasedir (hop : (hd mem).opcode = 29) (hid : (hd mem).nodeid ≠ 0) {b : FuseReleaseIn} {l : FuseLayout} (hl : l.minor ≥ 8) :
    RunsTo mem H s (.releasedir b) (.releasedir l) := by
  refine Run.map ?_
  simp only [ClientReq.body, cstring, List.append_assoc, ← enc_fuse_release_in]
  unfold decodeReleasedir releaseBody
  repeat' run_step
  rw [if_pos hl]
  repeat' run_step
  exact Run.pure ⟨rfl, match_releasedir hid hl _⟩

theorem run_setxattr (hop : (hd mem).opcode = 21) (hid : (hd mem).nodeid ≠ 0) {b : FuseSetxattrIn} {name value : Bytes} {l : FuseLayout} (hc : 0 ∉ name) (hne : name ≠ []) (hn : b.size.toNat = value.length) (hl : l.haveSetxattrExt = true) :
    RunsTo mem H s (.setxattr b name value) (.setxattr l) := by
  refine Run.map ?_
  simp only [ClientReq.body, cstring, List.append_assoc, ← enc_fuse_setxattr_in]
  unfold decodeSetxattr
  repeat' run_step
  rw [if_pos hl]
  repeat' run_step
  refine Run.ofFault_bind (get_setxattr_old _) ?_
  repeat' run_step
  exact Run.pure ⟨rfl, match_setxattr hid _⟩

theorem run_read_cuse (hop : (hd mem).opcode = 15)  {b : FuseReadIn} {v : UInt32} (hl : v ≥ 9) :
    RunsTo mem H s (.read b) (.read v true) := by
  refine Run.map ?_
  simp only [ClientReq.body, cstring, List.append_assoc, ← enc_fuse_read_in]
  unfold decodeRead readBody
  refine Run.expectOpcode_bind hop ?_
  refine Run.header_bind ?_
  simp only [Bool.not_true, Bool.not_false, Bool.false_eq_true, ↓reduceIte, pure_bind, bind_assoc]
  repeat' run_step
  rw [if_pos hl]
  repeat' run_step
  exact Run.pure ⟨rfl, match_read hl _⟩

theorem run_release_cuse (hop : (hd mem).opcode = 18)  {b : FuseReleaseIn} {v : UInt32} (hl : v ≥ 8) :
    RunsTo mem H s (.release b) (.release v true) := by
  refine Run.map ?_
  simp only [ClientReq.body, cstring, List.append_assoc, ← enc_fuse_release_in]
  unfold decodeRelease releaseBody
  refine Run.expectOpcode_bind hop ?_
  refine Run.header_bind ?_
  simp only [Bool.not_true, Bool.not_false, Bool.false_eq_true, ↓reduceIte, pure_bind, bind_assoc]
  repeat' run_step
  rw [if_pos hl]
  repeat' run_step
  exact Run.pure ⟨rfl, match_release hl _⟩

theorem run_write_cuse (hop : (hd mem).opcode = 16)  {b : FuseWriteIn} {v : UInt32} (hl : v ≥ 9)
    {data : Bytes} (hn : b.size.toNat = data.length) (h80 : 80 ≤ mem.length) :
    RunsTo mem H s (.write b data) (.write v true) := by
  refine Run.map ?_
  refine Run.ok (fun hok hr => ?_)
  simp only [ClientReq.body, List.append_assoc, ← enc_fuse_write_in] at hr ⊢
  unfold decodeWrite
  refine Run.expectOpcode_bind hop ?_
  refine Run.header_bind ?_
  simp only [Bool.not_true, Bool.not_false, Bool.false_eq_true, ↓reduceIte, pure_bind, bind_assoc]
  repeat' run_step
  rw [if_pos hl]
  repeat' run_step
  refine Run.get_bind ?_
  rw [if_pos (show WRITE_MSG_SIZE ≤ mem.length from h80)]
  exact Run.pure ⟨rfl, match_write (mem := mem) (by omega) hl hr hn _⟩

theorem run_flush_cuse (hop : (hd mem).opcode = 25)  {b : FuseFlushIn}  :
    RunsTo mem H s (.flush b) (.flush true) := by
  refine Run.map ?_
  simp only [ClientReq.body, cstring, List.append_assoc, ← enc_fuse_flush_in]
  unfold decodeFlush
  refine Run.expectOpcode_bind hop ?_
  simp only [Bool.not_true, Bool.not_false, Bool.false_eq_true, ↓reduceIte, pure_bind, bind_assoc]
  repeat' run_step
  exact Run.pure ⟨rfl, match_flush_cuse (h := hd mem)⟩

theorem run_fsync_cuse (hop : (hd mem).opcode = 20)  {b : FuseFsyncIn}  :
    RunsTo mem H s (.fsync b) (.fsync true) := by
  refine Run.map ?_
  simp only [ClientReq.body, cstring, List.append_assoc, ← enc_fuse_fsync_in]
  unfold decodeFsync
  repeat' run_step
  simp only [Bool.not_true, Bool.not_false, Bool.false_eq_true, ↓reduceIte, pure_bind, bind_assoc]
  repeat' run_step
  exact Run.pure ⟨rfl, match_fsync _⟩

theorem run_open_cuse (hop : (hd mem).opcode = 14)  {b : FuseOpenIn}  :
    RunsTo mem H s (.open_ b) (.open_ true) := by
  refine Run.map ?_
  simp only [ClientReq.body, cstring, List.append_assoc, ← enc_fuse_open_in]
  unfold decodeOpen
  repeat' run_step
  simp only [Bool.not_true, Bool.not_false, Bool.false_eq_true, ↓reduceIte, pure_bind, bind_assoc]
  repeat' run_step
  exact Run.pure ⟨rfl, match_open_ _⟩

theorem run_ioctl_cuse (hop : (hd mem).opcode = 39)  {b : FuseIoctlIn} {input : Bytes} (hn : b.in_size.toNat = input.length) :
    RunsTo mem H s (.ioctl b input) (.ioctl true) := by
  refine Run.map ?_
  simp only [ClientReq.body, cstring, List.append_assoc, ← enc_fuse_ioctl_in]
  unfold decodeIoctl
  repeat' run_step
  simp only [Bool.not_true, Bool.not_false, Bool.false_eq_true, ↓reduceIte, pure_bind, bind_assoc]
  repeat' run_step
  exact Run.pure ⟨rfl, match_ioctl _⟩

theorem run_read_fuse (hop : (hd mem).opcode = 15) (hid : (hd mem).nodeid ≠ 0) {b : FuseReadIn} {v : UInt32} (hl : v ≥ 9) :
    RunsTo mem H s (.read b) (.read v false) := by
  refine Run.map ?_
  simp only [ClientReq.body, cstring, List.append_assoc, ← enc_fuse_read_in]
  unfold decodeRead readBody
  refine Run.expectOpcode_bind hop ?_
  refine Run.header_bind ?_
  simp only [Bool.not_true, Bool.not_false, Bool.false_eq_true, ↓reduceIte, pure_bind, bind_assoc]
  repeat' run_step
  rw [if_pos hl]
  repeat' run_step
  exact Run.pure ⟨rfl, match_read hl _⟩

theorem run_release_fuse (hop : (hd mem).opcode = 18) (hid : (hd mem).nodeid ≠ 0) {b : FuseReleaseIn} {v : UInt32} (hl : v ≥ 8) :
    RunsTo mem H s (.release b) (.release v false) := by
  refine Run.map ?_
  simp only [ClientReq.body, cstring, List.append_assoc, ← enc_fuse_release_in]
  unfold decodeRelease releaseBody
  refine Run.expectOpcode_bind hop ?_
  refine Run.header_bind ?_
  simp only [Bool.not_true, Bool.not_false, Bool.false_eq_true, ↓reduceIte, pure_bind, bind_assoc]
  repeat' run_step
  rw [if_pos hl]
  repeat' run_step
  exact Run.pure ⟨rfl, match_release hl _⟩

theorem run_write_fuse (hop : (hd mem).opcode = 16) (hid : (hd mem).nodeid ≠ 0) {b : FuseWriteIn} {v : UInt32} (hl : v ≥ 9)
    {data : Bytes} (hn : b.size.toNat = data.length) (h80 : 80 ≤ mem.length) :
    RunsTo mem H s (.write b data) (.write v false) := by
  refine Run.map ?_
  refine Run.ok (fun hok hr => ?_)
  simp only [ClientReq.body, List.append_assoc, ← enc_fuse_write_in] at hr ⊢
  unfold decodeWrite
  refine Run.expectOpcode_bind hop ?_
  refine Run.header_bind ?_
  simp only [Bool.not_true, Bool.not_false, Bool.false_eq_true, ↓reduceIte, pure_bind, bind_assoc]
  repeat' run_step
  rw [if_pos hl]
  repeat' run_step
  refine Run.get_bind ?_
  rw [if_pos (show WRITE_MSG_SIZE ≤ mem.length from h80)]
  exact Run.pure ⟨rfl, match_write (mem := mem) (by omega) hl hr hn _⟩

theorem run_flush_fuse (hop : (hd mem).opcode = 25) (hid : (hd mem).nodeid ≠ 0) {b : FuseFlushIn}  :
    RunsTo mem H s (.flush b) (.flush false) := by
  refine Run.map ?_
  simp only [ClientReq.body, cstring, List.append_assoc, ← enc_fuse_flush_in]
  unfold decodeFlush
  refine Run.expectOpcode_bind hop ?_
  simp only [Bool.not_true, Bool.not_false, Bool.false_eq_true, ↓reduceIte, pure_bind, bind_assoc]
  repeat' run_step
  exact Run.pure ⟨rfl, match_flush_fuse hid⟩

theorem run_fsync_fuse (hop : (hd mem).opcode = 20) (hid : (hd mem).nodeid ≠ 0) {b : FuseFsyncIn}  :
    RunsTo mem H s (.fsync b) (.fsync false) := by
  refine Run.map ?_
  simp only [ClientReq.body, cstring, List.append_assoc, ← enc_fuse_fsync_in]
  unfold decodeFsync
  repeat' run_step
  simp only [Bool.not_true, Bool.not_false, Bool.false_eq_true, ↓reduceIte, pure_bind, bind_assoc]
  repeat' run_step
  exact Run.pure ⟨rfl, match_fsync _⟩

theorem run_open_fuse (hop : (hd mem).opcode = 14) (hid : (hd mem).nodeid ≠ 0) {b : FuseOpenIn}  :
    RunsTo mem H s (.open_ b) (.open_ false) := by
  refine Run.map ?_
  simp only [ClientReq.body, cstring, List.append_assoc, ← enc_fuse_open_in]
  unfold decodeOpen
  repeat' run_step
  simp only [Bool.not_true, Bool.not_false, Bool.false_eq_true, ↓reduceIte, pure_bind, bind_assoc]
  repeat' run_step
  exact Run.pure ⟨rfl, match_open_ _⟩

theorem run_ioctl_fuse (hop : (hd mem).opcode = 39) (hid : (hd mem).nodeid ≠ 0) {b : FuseIoctlIn} {input : Bytes} (hn : b.in_size.toNat = input.length) :
    RunsTo mem H s (.ioctl b input) (.ioctl false) := by
  refine Run.map ?_
  simp only [ClientReq.body, cstring, List.append_assoc, ← enc_fuse_ioctl_in]
  unfold decodeIoctl
  repeat' run_step
  simp only [Bool.not_true, Bool.not_false, Bool.false_eq_true, ↓reduceIte, pure_bind, bind_assoc]
  repeat' run_step
  exact Run.pure ⟨rfl, match_ioctl _⟩

theorem run_createOld (hop : (hd mem).opcode = 35) (hid : (hd mem).nodeid ≠ 0) {b : FuseCreateInV7p1} {name : Bytes} {l : FuseLayout} (hv : NodeName.Valid name)(hl : ¬ l.minor ≥ 12) :
    RunsTo mem H s (.createOld b name) (.create l) := by
  refine Run.map ?_
  simp only [ClientReq.body, cstring, List.append_assoc, ← enc_fuse_create_in_v7p1]
  unfold decodeCreate
  repeat' run_step
  rw [if_neg hl]
  repeat' run_step
  exact Run.pure ⟨rfl, match_createOld hid hl _⟩

theorem run_mknodOld (hop : (hd mem).opcode = 8) (hid : (hd mem).nodeid ≠ 0) {b : FuseMknodInV7p1} {name : Bytes} {l : FuseLayout} (hv : NodeName.Valid name)(hl : ¬ l.minor ≥ 12) :
    RunsTo mem H s (.mknodOld b name) (.mknod l) := by
  refine Run.map ?_
  simp only [ClientReq.body, cstring, List.append_assoc, ← enc_fuse_mknod_in_v7p1]
  unfold decodeMknod
  repeat' run_step
  rw [if_neg hl]
  repeat' run_step
  exact Run.pure ⟨rfl, match_mknodOld hid hl _⟩

theorem run_getattrOld (hop : (hd mem).opcode = 3) (hid : (hd mem).nodeid ≠ 0) {l : FuseLayout} (hl : ¬ l.minor ≥ 9) :
    RunsTo mem H s (.getattrOld) (.getattr l) := by
  refine Run.map ?_
  simp only [ClientReq.body, cstring, List.append_assoc]
  unfold decodeGetattr
  repeat' run_step
  rw [if_neg hl]
  repeat' run_step
  exact Run.pure ⟨rfl, match_getattrOld hid hl _⟩

theorem run_readdirOld (hop : (hd mem).opcode = 28) (hid : (hd mem).nodeid ≠ 0) {b : FuseReadInV7p1} {l : FuseLayout} (hl : ¬ l.minor ≥ 9) :
    RunsTo mem H s (.readdirOld b) (.readdir l) := by
  refine Run.map ?_
  simp only [ClientReq.body, cstring, List.append_assoc, ← enc_fuse_read_in_v7p1]
  unfold decodeReaddir readBody
  repeat' run_step
  rw [if_neg hl]
  repeat' run_step
  exact Run.pure ⟨rfl, match_readdirOld hid hl _⟩

theorem run_readdirplusOld (hop : (hd mem).opcode = 44) (hid : (hd mem).nodeid ≠ 0) {b : FuseReadInV7p1} {l : FuseLayout} (hl : ¬ l.minor ≥ 9) :
    RunsTo mem H s (.readdirplusOld b) (.readdirplus l) := by
  refine Run.map ?_
  simp only [ClientReq.body, cstring, List.append_assoc, ← enc_fuse_read_in_v7p1]
  unfold decodeReaddirplus readBody
  repeat' run_step
  rw [if_neg hl]
  repeat' run_step
  exact Run.pure ⟨rfl, match_readdirplusOld hid hl _⟩

theorem run_releasedirOld (hop : (hd mem).opcode = 29) (hid : (hd mem).nodeid ≠ 0) {b : FuseReleaseInV7p1} {l : FuseLayout} (hl : ¬ l.minor ≥ 8) :
    RunsTo mem H s (.releasedirOld b) (.releasedir l) := by
  refine Run.map ?_
  simp only [ClientReq.body, cstring, List.append_assoc, ← enc_fuse_release_in_v7p1]
  unfold decodeReleasedir releaseBody
  repeat' run_step
  rw [if_neg hl]
  repeat' run_step
  exact Run.pure ⟨rfl, match_releasedirOld hid hl _⟩

theorem run_setxattrOld (hop : (hd mem).opcode = 21) (hid : (hd mem).nodeid ≠ 0) {b : FuseSetxattrInV7p1} {name value : Bytes} {l : FuseLayout} (hc : 0 ∉ name) (hne : name ≠ []) (hn : b.size.toNat = value.length) (hl : ¬ l.haveSetxattrExt = true) :
    RunsTo mem H s (.setxattrOld b name value) (.setxattr l) := by
  refine Run.map ?_
  simp only [ClientReq.body, cstring, List.append_assoc, ← enc_fuse_setxattr_in_v7p1]
  unfold decodeSetxattr
  repeat' run_step
  rw [if_neg hl]
  repeat' run_step
  refine Run.ofFault_bind (Versioned.get_self) ?_
  repeat' run_step
  exact Run.pure ⟨rfl, match_setxattrOld hid _⟩

theorem run_readOld_cuse (hop : (hd mem).opcode = 15)  {b : FuseReadInV7p1} {v : UInt32} (hl : ¬ v ≥ 9) :
    RunsTo mem H s (.readOld b) (.read v true) := by
  refine Run.map ?_
  simp only [ClientReq.body, cstring, List.append_assoc, ← enc_fuse_read_in_v7p1]
  unfold decodeRead readBody
  refine Run.expectOpcode_bind hop ?_
  refine Run.header_bind ?_
  simp only [Bool.not_true, Bool.not_false, Bool.false_eq_true, ↓reduceIte, pure_bind, bind_assoc]
  repeat' run_step
  rw [if_neg hl]
  repeat' run_step
  exact Run.pure ⟨rfl, match_readOld hl _⟩

theorem run_releaseOld_cuse (hop : (hd mem).opcode = 18)  {b : FuseReleaseInV7p1} {v : UInt32} (hl : ¬ v ≥ 8) :
    RunsTo mem H s (.releaseOld b) (.release v true) := by
  refine Run.map ?_
  simp only [ClientReq.body, cstring, List.append_assoc, ← enc_fuse_release_in_v7p1]
  unfold decodeRelease releaseBody
  refine Run.expectOpcode_bind hop ?_
  refine Run.header_bind ?_
  simp only [Bool.not_true, Bool.not_false, Bool.false_eq_true, ↓reduceIte, pure_bind, bind_assoc]
  repeat' run_step
  rw [if_neg hl]
  repeat' run_step
  exact Run.pure ⟨rfl, match_releaseOld hl _⟩

theorem run_writeOld_cuse (hop : (hd mem).opcode = 16)  {b : FuseWriteInV7p1} {v : UInt32} (hl : ¬ v ≥ 9)
    {data : Bytes} (hn : b.size.toNat = data.length) (h80 : 80 ≤ mem.length) :
    RunsTo mem H s (.writeOld b data) (.write v true) := by
  refine Run.map ?_
  refine Run.ok (fun hok hr => ?_)
  simp only [ClientReq.body, List.append_assoc, ← enc_fuse_write_in_v7p1] at hr ⊢
  unfold decodeWrite
  refine Run.expectOpcode_bind hop ?_
  refine Run.header_bind ?_
  simp only [Bool.not_true, Bool.not_false, Bool.false_eq_true, ↓reduceIte, pure_bind, bind_assoc]
  repeat' run_step
  rw [if_neg hl]
  repeat' run_step
  refine Run.get_bind ?_
  rw [if_pos (show WRITE_MSG_SIZE ≤ mem.length from h80)]
  exact Run.pure ⟨rfl, match_writeOld (mem := mem) (by omega) hl hr hn _⟩

theorem run_readOld_fuse (hop : (hd mem).opcode = 15) (hid : (hd mem).nodeid ≠ 0) {b : FuseReadInV7p1} {v : UInt32} (hl : ¬ v ≥ 9) :
    RunsTo mem H s (.readOld b) (.read v false) := by
  refine Run.map ?_
  simp only [ClientReq.body, cstring, List.append_assoc, ← enc_fuse_read_in_v7p1]
  unfold decodeRead readBody
  refine Run.expectOpcode_bind hop ?_
  refine Run.header_bind ?_
  simp only [Bool.not_true, Bool.not_false, Bool.false_eq_true, ↓reduceIte, pure_bind, bind_assoc]
  repeat' run_step
  rw [if_neg hl]
  repeat' run_step
  exact Run.pure ⟨rfl, match_readOld hl _⟩

theorem run_releaseOld_fuse (hop : (hd mem).opcode = 18) (hid : (hd mem).nodeid ≠ 0) {b : FuseReleaseInV7p1} {v : UInt32} (hl : ¬ v ≥ 8) :
    RunsTo mem H s (.releaseOld b) (.release v false) := by
  refine Run.map ?_
  simp only [ClientReq.body, cstring, List.append_assoc, ← enc_fuse_release_in_v7p1]
  unfold decodeRelease releaseBody
  refine Run.expectOpcode_bind hop ?_
  refine Run.header_bind ?_
  simp only [Bool.not_true, Bool.not_false, Bool.false_eq_true, ↓reduceIte, pure_bind, bind_assoc]
  repeat' run_step
  rw [if_neg hl]
  repeat' run_step
  exact Run.pure ⟨rfl, match_releaseOld hl _⟩

theorem run_writeOld_fuse (hop : (hd mem).opcode = 16) (hid : (hd mem).nodeid ≠ 0) {b : FuseWriteInV7p1} {v : UInt32} (hl : ¬ v ≥ 9)
    {data : Bytes} (hn : b.size.toNat = data.length) (h80 : 80 ≤ mem.length) :
    RunsTo mem H s (.writeOld b data) (.write v false) := by
  refine Run.map ?_
  refine Run.ok (fun hok hr => ?_)
  simp only [ClientReq.body, List.append_assoc, ← enc_fuse_write_in_v7p1] at hr ⊢
  unfold decodeWrite
  refine Run.expectOpcode_bind hop ?_
  refine Run.header_bind ?_
  simp only [Bool.not_true, Bool.not_false, Bool.false_eq_true, ↓reduceIte, pure_bind, bind_assoc]
  repeat' run_step
  rw [if_neg hl]
  repeat' run_step
  refine Run.get_bind ?_
  rw [if_pos (show WRITE_MSG_SIZE ≤ mem.length from h80)]
  exact Run.pure ⟨rfl, match_writeOld (mem := mem) (by omega) hl hr hn _⟩

theorem run_rename (hop : (hd mem).opcode = 12) (hid : (hd mem).nodeid ≠ 0) {b : FuseRenameIn} {o n : Bytes} (ho : NodeName.Valid o) (hn : NodeName.Valid n) (hd : b.newdir ≠ 0) :
    RunsTo mem H s (.rename b o n) (.rename) := by
  refine Run.map ?_
  simp only [ClientReq.body, cstring, List.append_assoc, ← enc_fuse_rename_in]
  unfold decodeRename
  refine Run.header_bind ?_
  rw [if_neg (by rw [hop]; decide)]
  repeat' run_step
  exact Run.pure ⟨rfl, match_rename hid hd _⟩

theorem run_rename2 (hop : (hd mem).opcode = 45) (hid : (hd mem).nodeid ≠ 0) {b : FuseRename2In} {o n : Bytes} (ho : NodeName.Valid o) (hn : NodeName.Valid n) (hd : b.newdir ≠ 0) :
    RunsTo mem H s (.rename2 b o n) (.rename) := by
  refine Run.map ?_
  simp only [ClientReq.body, cstring, List.append_assoc, ← enc_fuse_rename2_in]
  unfold decodeRename
  refine Run.header_bind ?_
  rw [if_pos hop]
  repeat' run_step
  exact Run.pure ⟨rfl, match_rename2 hid hd _⟩

theorem run_setattr (hop : (hd mem).opcode = 4) (hid : (hd mem).nodeid ≠ 0) {b : FuseSetattrIn}
    (h1 : NanosOk b.valid 16 b.atimensec) (h2 : NanosOk b.valid 32 b.mtimensec)
    (h3 : NanosOk b.valid 1024 b.ctimensec) : RunsTo mem H s (.setattr b) .setattr := by
  have step : ∀ {c bs} {bit n : UInt32} {f : Unit → DecM SetattrRequest} {Q}, NanosOk b.valid bit n →
      Run mem H c bs (f ()) Q →
      Run mem H c bs (if b.valid &&& bit > 0 then checkTimespecNanos n >>= f else f ()) Q := by
    intro c bs bit n f Q hn hf
    by_cases h0 : b.valid &&& bit > 0
    · rw [if_pos h0]
      exact Run.checkTimespecNanos_bind (nanos_le.mpr (hn (and_pos_iff.mp h0))) hf
    · rw [if_neg h0]; exact hf
  refine Run.map ?_
  simp only [ClientReq.body, ← enc_fuse_setattr_in]
  unfold decodeSetattr
  refine Run.expectOpcode_bind hop (Run.header_bind (Run.nodeId_bind hid ?_))
  refine Run.nextSized_bind (by simp) (by simp) (by simp) (fun _ => ?_)
  refine step h1 ?_
  refine step h2 ?_
  refine step h3 ?_
  exact Run.pure ⟨rfl, match_setattr hid h1 h2 h3 _⟩

theorem run_forget (hop : (hd mem).opcode = 2) {b : FuseForgetIn} (k : Bool) :
    RunsTo mem H s (.forget b) (.forget k) := by
  refine Run.map ?_
  simp only [ClientReq.body, ← enc_fuse_forget_in]
  unfold decodeForget
  refine Run.header_bind ?_
  rw [if_neg (by rw [hop]; decide)]
  repeat' run_step
  exact Run.pure ⟨rfl, match_forget (h := hd mem) _⟩

theorem run_batchForget (hop : (hd mem).opcode = 42) {b : FuseBatchForgetIn} {items : List FuseForgetOne}
    (hn : b.count.toNat = items.length) (k : Bool) :
    RunsTo mem H s (.batchForget b items) (.forget k) := by
  refine Run.map ?_
  refine Run.ok (fun hok hr => ?_)
  have hfm : items.flatMap layout_fuse_forget_one = items.flatMap enc := by
    congr 1; funext x; exact (enc_fuse_forget_one x).symm
  simp only [ClientReq.body, List.append_assoc, ← enc_fuse_batch_forget_in, hfm] at hr ⊢
  have hl := hok.rest_length
  rw [hr] at hl
  simp only [List.length_append, Wire.enc_length, size_fuse_batch_forget_in, flatMap_enc_length,
    size_fuse_forget_one] at hl
  have hH := hok.len_lt
  have hle := hok.len_le
  simp only at hH hle
  have hmul : (b.count * 16).toNat = (items.flatMap (enc (α := FuseForgetOne))).length := by
    rw [UInt32.toNat_mul, show (16 : UInt32).toNat = 16 from rfl, Nat.mod_eq_of_lt (by omega),
      flatMap_enc_length, hn]; rfl
  unfold decodeForget
  refine Run.header_bind ?_
  rw [if_pos hop]
  refine Run.nextSized_bind (by simp) (by simp) (by simp) (fun _ => ?_)
  rw [if_neg (by simp only [size_fuse_forget_one]; omega)]
  refine Run.get_bind ?_
  refine Run.nextBytes_bind hmul (by assumption) ?_
  refine Run.get_bind ?_
  simp only [size_fuse_batch_forget_in, align_fuse_forget_one, size_fuse_forget_one]
  rw [if_pos trivial]
  refine Run.ofRes_bind (a := items.flatMap enc) ?_ ?_
  · unfold Decoder.read
    simp only
    rw [if_pos (by omega)]
    have hm : (mem.take H).drop 48 = items.flatMap enc ++ s := by
      have : (mem.take H).drop 40 = enc b ++ (items.flatMap enc ++ s) := hr
      rw [show 48 = 40 + 8 from rfl, ← List.drop_drop, this, List.drop_left' (by simp)]
    have h2 : (mem.drop 48).take (b.count.toNat * 16) = ((mem.take H).drop 48).take (b.count.toNat * 16) := by
      rw [List.drop_take, List.take_take]
      congr 1; omega
    rw [h2, hm, List.take_left' (by rw [flatMap_enc_length, hn]; rfl)]
  · rw [hn, decMany_enc]
    exact Run.pure ⟨rfl, match_batchForget (h := hd mem) _⟩

theorem enc_init_v6 (major minor ra fl : UInt32) :
    le32 major ++ (le32 minor ++ (le32 ra ++ (le32 fl ++ s))) = enc (⟨major, minor, ra, fl⟩ : FuseInitInV7p6) ++ s := by
  show _ = enc (major, minor, ra, fl) ++ s
  simp only [enc_prod, enc_u32, List.append_assoc]

theorem enc_init_v1 (major minor : UInt32) {s : Bytes} :
    le32 major ++ (le32 minor ++ s) = enc (⟨major, minor⟩ : FuseInitInV7p1) ++ s := by
  show _ = enc (major, minor) ++ s
  simp only [enc_prod, enc_u32, List.append_assoc]

theorem run_initV1 (hop : (hd mem).opcode = 26) {major minor : UInt32} (h : minor < 6 ∨ major ≠ 7) :
    Run mem H 40 ((ClientReq.initV1 major minor).body ++ s) (decodeAny .fuseInit)
      (fun r _ => (ClientReq.initV1 major minor).Matches (hd mem).nodeid false r) := by
  refine Run.map ?_
  simp only [ClientReq.body, List.append_assoc, enc_init_v1]
  unfold decodeFuseInit
  refine Run.expectOpcode_bind hop ?_
  refine Run.peekSized_bind (by simp) (by simp) (by simp) ?_
  rw [if_pos h]
  exact Run.pure (match_initV1 (h := hd mem) _)

theorem run_initV6 (hop : (hd mem).opcode = 26) {major minor ra fl : UInt32}
    (h : major = 7 ∧ 6 ≤ minor ∧ minor < 36) :
    RunsTo mem H s (.initV6 major minor ra fl) .fuseInit := by
  refine Run.map ?_
  simp only [ClientReq.body, List.append_assoc]
  unfold decodeFuseInit
  refine Run.expectOpcode_bind hop ?_
  rw [enc_init_v1]
  refine Run.peekSized_bind (by simp) (by simp) (by simp) ?_
  rw [if_neg (by
    rintro (h' | h')
    · rw [UInt32.lt_iff_toNat_lt] at h'
      have := UInt32.le_iff_toNat_le.mp h.2.1
      simp only at h'
      omega
    · exact h' h.1), if_pos h.2.2, ← enc_init_v1, enc_init_v6]
  repeat' run_step
  exact Run.pure ⟨rfl, match_initV6 (h := hd mem) _⟩

theorem run_init (hop : (hd mem).opcode = 26) {b : FuseInitIn} (h : b.major = 7 ∧ 36 ≤ b.minor) :
    RunsTo mem H s (.init b) .fuseInit := by
  refine Run.map ?_
  simp only [ClientReq.body]
  unfold decodeFuseInit
  refine Run.expectOpcode_bind hop ?_
  have hsplit : layout_fuse_init_in b ++ s = enc (⟨b.major, b.minor⟩ : FuseInitInV7p1) ++
      ((enc b).drop 8 ++ s) := by
    rw [← enc_init_v1, ← List.append_assoc, ← List.append_assoc, ← enc_fuse_init_in]
    congr 1
    have : (enc b).take 8 = le32 b.major ++ le32 b.minor := by
      rw [enc_fuse_init_in, layout_fuse_init_in]
      simp only [List.append_assoc]
      rw [← List.append_assoc, List.take_left' (by rfl)]
    rw [← this, List.take_append_drop]
  have hm := UInt32.le_iff_toNat_le.mp h.2
  have h36 : (36 : UInt32).toNat = 36 := rfl
  have h6 : (6 : UInt32).toNat = 6 := rfl
  rw [hsplit]
  refine Run.peekSized_bind (by simp) (by simp) (by simp) ?_
  rw [if_neg (by
    rintro (h' | h')
    · rw [UInt32.lt_iff_toNat_lt] at h'
      simp only at h'
      omega
    · exact h' h.1), if_neg (by rw [UInt32.lt_iff_toNat_lt]; simp only; omega), ← hsplit, ← enc_fuse_init_in]
  repeat' run_step
  exact Run.pure ⟨rfl, match_init (h := hd mem) _⟩

end Fuse
