import Verif.DecodeSafe
import Verif.RequestSpec

/-!
# Every request decoder is fault free

One lemma per decoder; `safe_step` applies the rule matching the next action.
-/

namespace Fuse

theorem Returns.ok {α} {a : α} : Returns (.ok a) := ⟨a, rfl⟩

theorem Versioned.get_enc {T} [Wire T] (v : UInt32) (x : T) (U) [Wire U]
    (h : Wire.size U ≤ Wire.size T) :
    (Versioned.mk v (enc x)).get U = .ok (dec ((enc x).take (Wire.size U))) := by
  simp only [Versioned.get, Wire.enc_length]
  rw [if_pos h]

theorem LockRange.decode_no_fault (raw : FuseFileLock) (e : Fault) :
    LockRange.decode raw ≠ .error (.fault e) := by
  unfold LockRange.decode
  intro h
  split at h
  · rename_i hgt
    simp only at h
    split at h
    · rename_i hlt
      simp only [satAdd64] at hlt
      rw [gt_iff_lt, UInt64.lt_iff_toNat_lt] at hgt
      have := raw.start.toNat_lt
      rw [if_pos (by simp only [UInt64.toNat_one]; omega)] at hlt
      rw [UInt64.lt_iff_toNat_lt, UInt64.toNat_add] at hlt
      simp only [UInt64.toNat_one] at hlt
      omega
    · split at h <;> cases h
  · split at h
    · cases h
    · rename_i h1 h2
      simp only [NonZeroU64.newUnchecked] at h
      split at h
      · cases h
      · rename_i heq
        split at heq
        · cases heq
        · rename_i hz
          simp only [satAdd64, ne_eq, Classical.not_not] at hz
          split at hz
          · rename_i hlt
            have h3 := congrArg UInt64.toNat hz
            rw [UInt64.toNat_add, UInt64.toNat_one, Nat.mod_eq_of_lt (by simpa using hlt)] at h3
            simp at h3
          · simp at hz

theorem Lock.decode_no_fault (raw : FuseFileLock) (e : Fault) :
    Lock.decode raw ≠ .error (.fault e) := by
  intro h
  unfold Lock.decode at h
  cases h1 : LockRange.decode raw with
  | ok r => rw [h1] at h; cases h
  | error e' =>
    rw [h1] at h
    simp only [Bind.bind, Except.bind, Except.error.injEq] at h
    exact LockRange.decode_no_fault raw e (h ▸ h1)

/-- Applies the rule for the next decoder action. -/
macro "safe_step" : tactic => `(tactic| first
  | (with_reducible refine SafeAt.expectOpcode_bind (fun _ => ?_))
  | (with_reducible refine SafeAt.header_bind ?_)
  | (with_reducible refine SafeAt.nodeId_bind (fun _ => ?_))
  | (with_reducible refine SafeAt.nextSized_bind (by simp) (by simp) (fun _ _ => ?_))
  | (with_reducible refine SafeAt.peekSized_bind (by simp) (by simp) (fun _ _ => ?_))
  | (with_reducible refine SafeAt.nextBytes_bind (fun _ _ _ => ?_))
  | (with_reducible refine SafeAt.nextNodeName_bind (fun _ _ _ _ => ?_))
  | (with_reducible refine SafeAt.nextCstr_bind (fun _ _ _ _ => ?_))
  | (with_reducible refine SafeAt.checkTimespecNanos_bind (fun _ => ?_))
  | (with_reducible refine SafeAt.ofRes_bind (LockRange.decode_no_fault _) (fun _ _ => ?_))
  | (with_reducible refine SafeAt.ofRes_bind (Lock.decode_no_fault _) (fun _ _ => ?_))
  | (with_reducible exact SafeAt.throwReq)
  | (with_reducible refine SafeAt.pure ?_)
  | (simp only [pure_bind, bind_assoc])
  | split)

/-- What the fault-freedom lemmas establish of a request `r` decoded as type `t` from a buffer whose
header is `h`. -/
structure Good (t : ReqType) (h : FuseInHeader) (r : AnyRequest) : Prop where
  accessors : r.AccessorsReturn
  names : ∀ n ∈ r.names, NodeName.Valid n.bytes
  opcode : h.opcode ∈ t.opcodes
  ids : ∀ id ∈ r.nodeIds, Returns id
  headId : t.isCuse = false → ∀ id ∈ r.nodeIds.head?, ∃ hn : h.nodeid ≠ 0, id = .ok ⟨h.nodeid, hn⟩

theorem newUnchecked_ok {n : UInt64} (h : n ≠ 0) : NonZeroU64.newUnchecked n = .ok ⟨n, h⟩ := by
  simp [NonZeroU64.newUnchecked, h]

theorem nodeIdUnchecked_ok {h : FuseInHeader} (hn : h.nodeid ≠ 0) :
    h.nodeIdUnchecked = .ok ⟨h.nodeid, hn⟩ := newUnchecked_ok hn

theorem nodeIdOrRoot_eq {h : FuseInHeader} (hn : h.nodeid ≠ 0) :
    h.nodeIdOrRoot = ⟨h.nodeid, hn⟩ := by
  simp [FuseInHeader.nodeIdOrRoot, NodeId.new, NonZeroU64.new, hn]

theorem Returns.getSince {T} [Wire T] {v : Versioned} {k : UInt32}
    (h : v.versionMinor ≥ k → Wire.size T ≤ v.bytes.length) : Returns (v.getSince k T) := by
  unfold Versioned.getSince
  split
  · rename_i hk
    simp only [Versioned.get, h hk, ↓reduceIte]
    exact ⟨_, rfl⟩
  · exact ⟨_, rfl⟩

theorem Returns.get {T} [Wire T] {v : Versioned} (h : Wire.size T ≤ v.bytes.length) :
    Returns (v.get T) := by
  simp only [Versioned.get, h, ↓reduceIte]
  exact ⟨_, rfl⟩

theorem Returns.map {α β} {f : α → β} {x : Except Fault α} (h : Returns x) : Returns (f <$> x) := by
  obtain ⟨a, rfl⟩ := h; exact ⟨_, rfl⟩

theorem Returns.bind {α β} {x : Except Fault α} {f : α → Except Fault β} (h : Returns x)
    (hf : ∀ a, Returns (f a)) : Returns (x >>= f) := by
  obtain ⟨a, rfl⟩ := h; exact hf a

theorem Returns.pure {α} {a : α} : Returns (Pure.pure a) := ⟨a, rfl⟩

/-- Discharges "accessor returns" goals. -/
macro "returns" : tactic => `(tactic| repeat' first
  | assumption
  | exact Returns.pure
  | exact Returns.ok
  | exact ⟨_, nodeIdUnchecked_ok (by assumption)⟩
  | exact ⟨_, newUnchecked_ok (by assumption)⟩
  | (refine Returns.map ?_)
  | (refine Returns.bind ?_ (fun _ => ?_))
  | (refine Returns.getSince (fun _ => ?_); simp; done)
  | (refine Returns.get ?_; simp; done)
  | (refine Returns.getSince (fun _ => ?_); simp; omega)
  | (refine Returns.getSince (fun _ => ?_); exfalso; contradiction)
  | (refine Returns.get ?_; simp; omega)
  | split)

/-- Splits `Good` into its parts and discharges them. -/
macro "good" : tactic => `(tactic| (
  refine ⟨?_, ?_, ?_, ?_, ?_⟩
  · simp only [AnyRequest.AccessorsReturn]; (repeat' (first | apply And.intro | exact trivial)); all_goals returns
  · simp only [AnyRequest.names, List.mem_cons, List.not_mem_nil, or_false, forall_eq_or_imp, forall_eq]
    <;> first | trivial | assumption | (constructor <;> assumption) | (intro _ h; exact h.elim)
  · simp_all [ReqType.opcodes]
  · simp only [AnyRequest.nodeIds, List.mem_cons, List.not_mem_nil, or_false, forall_eq_or_imp, forall_eq]
    first
      | (intro _ h; exact h.elim)
      | (repeat' apply And.intro) <;> returns
  · simp only [AnyRequest.nodeIds, List.head?_cons, List.head?_nil, Option.mem_def, Option.some.injEq, forall_eq']
    intro _
    first
      | (exact ⟨by assumption, nodeIdUnchecked_ok (by assumption)⟩)
      | (exact ⟨by assumption, congrArg _ (nodeIdOrRoot_eq (by assumption))⟩)
      | (exact ⟨by assumption, rfl⟩)
      | (simp_all [ReqType.isCuse]; done)))

variable {mem : Bytes} {H : Nat}

theorem safe_access : SafeAt mem H 40 decodeAccess
    (fun r _ => Good .access (dec (mem.take 40)) (.access r)) := by
  unfold decodeAccess
  repeat' safe_step
  all_goals good

theorem safe_bmap : SafeAt mem H 40 decodeBmap
    (fun r _ => Good .bmap (dec (mem.take 40)) (.bmap r)) := by
  unfold decodeBmap
  repeat' safe_step
  all_goals good

theorem safe_copyFileRange : SafeAt mem H 40 decodeCopyFileRange
    (fun r _ => Good .copyFileRange (dec (mem.take 40)) (.copyFileRange r)) := by
  unfold decodeCopyFileRange
  repeat' safe_step
  all_goals good

theorem safe_fallocate : SafeAt mem H 40 decodeFallocate
    (fun r _ => Good .fallocate (dec (mem.take 40)) (.fallocate r)) := by
  unfold decodeFallocate
  repeat' safe_step
  all_goals good

theorem safe_fsyncdir : SafeAt mem H 40 decodeFsyncdir
    (fun r _ => Good .fsyncdir (dec (mem.take 40)) (.fsyncdir r)) := by
  unfold decodeFsyncdir
  repeat' safe_step
  all_goals good

theorem safe_getlk : SafeAt mem H 40 decodeGetlk
    (fun r _ => Good .getlk (dec (mem.take 40)) (.getlk r)) := by
  unfold decodeGetlk
  repeat' safe_step
  all_goals good

theorem safe_getxattr : SafeAt mem H 40 decodeGetxattr
    (fun r _ => Good .getxattr (dec (mem.take 40)) (.getxattr r)) := by
  unfold decodeGetxattr
  repeat' safe_step
  all_goals good

theorem safe_interrupt : SafeAt mem H 40 decodeInterrupt
    (fun r _ => Good .interrupt (dec (mem.take 40)) (.interrupt r)) := by
  unfold decodeInterrupt
  repeat' safe_step
  all_goals good

theorem safe_link : SafeAt mem H 40 decodeLink
    (fun r _ => Good .link (dec (mem.take 40)) (.link r)) := by
  unfold decodeLink
  repeat' safe_step
  all_goals good

theorem safe_listxattr : SafeAt mem H 40 decodeListxattr
    (fun r _ => Good .listxattr (dec (mem.take 40)) (.listxattr r)) := by
  unfold decodeListxattr
  repeat' safe_step
  all_goals good

theorem safe_lookup : SafeAt mem H 40 decodeLookup
    (fun r _ => Good .lookup (dec (mem.take 40)) (.lookup r)) := by
  unfold decodeLookup
  repeat' safe_step
  all_goals good

theorem safe_lseek : SafeAt mem H 40 decodeLseek
    (fun r _ => Good .lseek (dec (mem.take 40)) (.lseek r)) := by
  unfold decodeLseek
  repeat' safe_step
  all_goals good

theorem safe_mkdir : SafeAt mem H 40 decodeMkdir
    (fun r _ => Good .mkdir (dec (mem.take 40)) (.mkdir r)) := by
  unfold decodeMkdir
  repeat' safe_step
  all_goals good

theorem safe_opendir : SafeAt mem H 40 decodeOpendir
    (fun r _ => Good .opendir (dec (mem.take 40)) (.opendir r)) := by
  unfold decodeOpendir
  repeat' safe_step
  all_goals good

theorem safe_poll : SafeAt mem H 40 decodePoll
    (fun r _ => Good .poll (dec (mem.take 40)) (.poll r)) := by
  unfold decodePoll
  repeat' safe_step
  all_goals good

theorem safe_readlink : SafeAt mem H 40 decodeReadlink
    (fun r _ => Good .readlink (dec (mem.take 40)) (.readlink r)) := by
  unfold decodeReadlink
  repeat' safe_step
  all_goals good

theorem safe_removexattr : SafeAt mem H 40 decodeRemovexattr
    (fun r _ => Good .removexattr (dec (mem.take 40)) (.removexattr r)) := by
  unfold decodeRemovexattr
  repeat' safe_step
  all_goals good

theorem safe_rename : SafeAt mem H 40 decodeRename
    (fun r _ => Good .rename (dec (mem.take 40)) (.rename r)) := by
  unfold decodeRename
  repeat' safe_step
  all_goals good

theorem safe_rmdir : SafeAt mem H 40 decodeRmdir
    (fun r _ => Good .rmdir (dec (mem.take 40)) (.rmdir r)) := by
  unfold decodeRmdir
  repeat' safe_step
  all_goals good

theorem safe_setattr : SafeAt mem H 40 decodeSetattr
    (fun r _ => Good .setattr (dec (mem.take 40)) (.setattr r)) := by
  unfold decodeSetattr
  refine SafeAt.expectOpcode_bind (fun hop => ?_)
  refine SafeAt.header_bind ?_
  refine SafeAt.nodeId_bind (fun hid => ?_)
  refine SafeAt.nextSized_bind (by simp) (by simp) (fun raw _ => ?_)
  have fin : (raw.valid &&& FATTR_ATIME > 0 → raw.atimensec ≤ MAX_NANOS) →
      (raw.valid &&& FATTR_MTIME > 0 → raw.mtimensec ≤ MAX_NANOS) →
      (raw.valid &&& FATTR_CTIME > 0 → raw.ctimensec ≤ MAX_NANOS) →
      Good .setattr (dec (mem.take 40)) (.setattr ⟨dec (mem.take 40), raw⟩) := by
    intro ha hm hc
    have key : ∀ (mask : UInt32) (s : UInt64) (n : UInt32),
        (raw.valid &&& mask > 0 → n ≤ MAX_NANOS) →
        Returns (SetattrRequest.getTimestamp ⟨dec (mem.take 40), raw⟩ mask s n) := by
      intro mask s n h
      unfold SetattrRequest.getTimestamp
      split
      · exact ⟨_, rfl⟩
      · rename_i hne
        have hpos : raw.valid &&& mask > 0 := by
          have h0 : (raw.valid &&& mask) ≠ 0 := hne
          rw [gt_iff_lt, UInt32.lt_iff_toNat_lt]
          have h1 : (raw.valid &&& mask).toNat ≠ 0 := fun h2 => h0 (UInt32.toNat_inj.mp h2)
          have h2 : (0 : UInt32).toNat = 0 := rfl
          omega
        simp only [UnixTime.fromTimespecUnchecked, h hpos, ↓reduceIte]
        exact ⟨_, rfl⟩
    refine ⟨⟨⟨_, nodeIdUnchecked_ok hid⟩, key _ _ _ ha, key _ _ _ hm, key _ _ _ hc⟩, ?_, ?_, ?_, ?_⟩
    · simp [AnyRequest.names]
    · simp [ReqType.opcodes, hop]
    · simp only [AnyRequest.nodeIds, List.mem_cons, List.not_mem_nil, or_false, forall_eq]
      exact ⟨_, nodeIdUnchecked_ok hid⟩
    · simp only [AnyRequest.nodeIds, List.head?_cons, Option.mem_def, Option.some.injEq, forall_eq']
      exact fun _ => ⟨hid, nodeIdUnchecked_ok hid⟩
  repeat' safe_step
  all_goals
    refine fin (fun h => ?_) (fun h => ?_) (fun h => ?_) <;>
      first | assumption | exact absurd h (by assumption)

theorem safe_setlk : SafeAt mem H 40 decodeSetlk
    (fun r _ => Good .setlk (dec (mem.take 40)) (.setlk r)) := by
  unfold decodeSetlk
  repeat' safe_step
  all_goals good

theorem safe_statfs : SafeAt mem H 40 decodeStatfs
    (fun r _ => Good .statfs (dec (mem.take 40)) (.statfs r)) := by
  unfold decodeStatfs
  repeat' safe_step
  all_goals good

theorem safe_symlink : SafeAt mem H 40 decodeSymlink
    (fun r _ => Good .symlink (dec (mem.take 40)) (.symlink r)) := by
  unfold decodeSymlink
  repeat' safe_step
  all_goals good

theorem safe_unlink : SafeAt mem H 40 decodeUnlink
    (fun r _ => Good .unlink (dec (mem.take 40)) (.unlink r)) := by
  unfold decodeUnlink
  repeat' safe_step
  all_goals good

theorem safe_fuseInit : SafeAt mem H 40 decodeFuseInit
    (fun r _ => Good .fuseInit (dec (mem.take 40)) (.fuseInit r)) := by
  unfold decodeFuseInit
  repeat' safe_step
  all_goals good

theorem safe_cuseInit : SafeAt mem H 40 decodeCuseInit
    (fun r _ => Good .cuseInit (dec (mem.take 40)) (.cuseInit r)) := by
  unfold decodeCuseInit
  repeat' safe_step
  all_goals good

theorem safe_create (l : FuseLayout) : SafeAt mem H 40 (decodeCreate l)
    (fun r _ => Good (.create l) (dec (mem.take 40)) (.create r)) := by
  unfold decodeCreate
  repeat' safe_step
  all_goals good

theorem safe_getattr (l : FuseLayout) : SafeAt mem H 40 (decodeGetattr l)
    (fun r _ => Good (.getattr l) (dec (mem.take 40)) (.getattr r)) := by
  unfold decodeGetattr
  repeat' safe_step
  all_goals good

theorem safe_mknod (l : FuseLayout) : SafeAt mem H 40 (decodeMknod l)
    (fun r _ => Good (.mknod l) (dec (mem.take 40)) (.mknod r)) := by
  unfold decodeMknod
  repeat' safe_step
  all_goals good

theorem safe_readdir (l : FuseLayout) : SafeAt mem H 40 (decodeReaddir l)
    (fun r _ => Good (.readdir l) (dec (mem.take 40)) (.readdir r)) := by
  unfold decodeReaddir readBody
  repeat' safe_step
  all_goals good

theorem safe_readdirplus (l : FuseLayout) : SafeAt mem H 40 (decodeReaddirplus l)
    (fun r _ => Good (.readdirplus l) (dec (mem.take 40)) (.readdirplus r)) := by
  unfold decodeReaddirplus readBody
  repeat' safe_step
  all_goals good

theorem safe_releasedir (l : FuseLayout) : SafeAt mem H 40 (decodeReleasedir l)
    (fun r _ => Good (.releasedir l) (dec (mem.take 40)) (.releasedir r)) := by
  unfold decodeReleasedir releaseBody
  repeat' safe_step
  all_goals good

theorem safe_setxattr (l : FuseLayout) : SafeAt mem H 40 (decodeSetxattr l)
    (fun r _ => Good (.setxattr l) (dec (mem.take 40)) (.setxattr r)) := by
  unfold decodeSetxattr
  repeat' safe_step
  · refine SafeAt.ofFault_bind (Versioned.get_enc _ _ _ (by simp)) ?_
    repeat' safe_step
    good
  · refine SafeAt.ofFault_bind (Versioned.get_enc _ _ _ (by simp)) ?_
    repeat' safe_step
    good

theorem safe_flush (k : Bool) : SafeAt mem H 40 (decodeFlush k)
    (fun r _ => Good (.flush k) (dec (mem.take 40)) (.flush r)) := by
  unfold decodeFlush
  repeat' safe_step
  all_goals good

theorem safe_fsync (k : Bool) : SafeAt mem H 40 (decodeFsync k)
    (fun r _ => Good (.fsync k) (dec (mem.take 40)) (.fsync r)) := by
  unfold decodeFsync
  repeat' safe_step
  all_goals good

theorem safe_ioctl (k : Bool) : SafeAt mem H 40 (decodeIoctl k)
    (fun r _ => Good (.ioctl k) (dec (mem.take 40)) (.ioctl r)) := by
  unfold decodeIoctl
  repeat' safe_step
  all_goals good

theorem safe_open (k : Bool) : SafeAt mem H 40 (decodeOpen k)
    (fun r _ => Good (.open_ k) (dec (mem.take 40)) (.open_ r)) := by
  unfold decodeOpen
  repeat' safe_step
  all_goals good

theorem safe_read (v : UInt32) (k : Bool) : SafeAt mem H 40 (decodeRead v k)
    (fun r _ => Good (.read v k) (dec (mem.take 40)) (.read r)) := by
  unfold decodeRead readBody
  repeat' safe_step
  all_goals good

theorem safe_release (v : UInt32) (k : Bool) : SafeAt mem H 40 (decodeRelease v k)
    (fun r _ => Good (.release v k) (dec (mem.take 40)) (.release r)) := by
  unfold decodeRelease releaseBody
  repeat' safe_step
  all_goals good

theorem write_size_eq (bs : Bytes) :
    (dec (bs.take 24) : FuseWriteInV7p1).size = (dec (bs.take 40) : FuseWriteIn).size := by
  show (dec (List.take 4 (List.drop 8 (List.drop 8 (bs.take 24)))) : UInt32) =
    dec (List.take 4 (List.drop 8 (List.drop 8 (bs.take 40))))
  simp [List.drop_take, List.take_take]

/-- All accessors of a decoded WRITE request are fault free. -/
theorem good_write {v : UInt32} {k : Bool} {off : Nat} (hH : H ≤ mem.length)
    (hk : k = false → (dec (mem.take 40) : FuseInHeader).nodeid ≠ 0)
    (hop : (dec (mem.take 40) : FuseInHeader).opcode = FUSE_WRITE)
    (hoff : off = if v ≥ 9 then 80 else 64)
    (hlen : off + (dec (((mem.take H).drop 40).take 24) : FuseWriteInV7p1).size.toNat ≤ H) :
    Good (.write v k) (dec (mem.take 40)) (.write ⟨mem.take H, v⟩) := by
  have hH64 : 64 ≤ H := by subst hoff; split at hlen <;> omega
  have hl : (mem.take H).length = H := by simp; omega
  have hhdr : WriteRequest.header ⟨mem.take H, v⟩ = .ok (dec (mem.take 40)) := by
    simp only [WriteRequest.header, Versioned.get, size_fuse_in_header]
    rw [if_pos (by omega), List.take_take, Nat.min_eq_left (by omega)]
  have hb1 : WriteRequest.bodyV7p1 ⟨mem.take H, v⟩ =
      .ok (dec (((mem.take H).drop 40).take 24)) := by
    simp only [WriteRequest.bodyV7p1, Versioned.get, size_fuse_in_header, size_fuse_write_in_v7p1]
    rw [if_pos (by rw [List.length_drop]; omega)]
  have hb9 : Returns (WriteRequest.bodyV7p9 ⟨mem.take H, v⟩) := by
    apply Returns.getSince
    intro h9
    simp only [size_fuse_in_header, size_fuse_write_in, List.length_drop] at *
    rw [if_pos h9] at hoff
    omega
  have hval : Returns (WriteRequest.value ⟨mem.take H, v⟩) := by
    refine ⟨((mem.take H).drop off).take
        (dec (((mem.take H).drop 40).take 24) : FuseWriteInV7p1).size.toNat, ?_⟩
    · simp only [WriteRequest.value, hb1, Bind.bind, Except.bind, size_fuse_in_header,
        size_fuse_write_in, size_fuse_write_in_v7p1]
      have e : (if v ≥ 9 then 40 + 40 else 40 + 24) = off := by subst hoff; rfl
      rw [e, if_pos (by omega)]
      rfl
  have hid : Returns (WriteRequest.nodeId ⟨mem.take H, v⟩) := by
    rw [WriteRequest.nodeId, hhdr]; exact ⟨_, rfl⟩
  refine ⟨⟨hid, ?_, ?_, hval, ?_, ?_, ?_⟩, ?_, ?_, ?_, ?_⟩
  · rw [WriteRequest.offset, hb1]; exact ⟨_, rfl⟩
  · rw [WriteRequest.handle, hb1]; exact ⟨_, rfl⟩
  · rw [WriteRequest.flags, hb1]; exact ⟨_, rfl⟩
  · exact Returns.bind hb9 (fun a => by split <;> exact ⟨_, rfl⟩)
  · exact Returns.bind hb9 (fun a => by split <;> exact ⟨_, rfl⟩)
  · simp [AnyRequest.names]
  · simp [ReqType.opcodes, hop]
  · simpa [AnyRequest.nodeIds] using hid
  · simp only [AnyRequest.nodeIds, List.head?_cons, Option.mem_def, Option.some.injEq, forall_eq']
    intro hc
    have hn := hk hc
    refine ⟨hn, ?_⟩
    rw [WriteRequest.nodeId, hhdr]
    exact congrArg Except.ok (nodeIdOrRoot_eq hn)

theorem safe_write (v : UInt32) (k : Bool) (hv : v ≥ 9 ∨ 80 ≤ mem.length) :
    SafeAt mem H 40 (decodeWrite v k)
      (fun r _ => Good (.write v k) (dec (mem.take 40)) (.write r)) := by
  apply SafeAt.ok
  intro hok
  have hH : H ≤ mem.length := hok.len_le
  unfold decodeWrite
  refine SafeAt.expectOpcode_bind (fun hop => ?_)
  refine SafeAt.header_bind ?_
  have main : (k = false → (dec (mem.take 40) : FuseInHeader).nodeid ≠ 0) →
      SafeAt mem H 40 (do
        let valueLen ←
          if v ≥ 9 then do
            let body ← nextSized FuseWriteIn
            pure body.size
          else do
            let body ← nextSized FuseWriteInV7p1
            pure body.size
        let _ ← nextBytes valueLen
        let d ← get
        if WRITE_MSG_SIZE ≤ d.mem.length then
          pure (WriteRequest.mk (d.mem.take d.headerLen) v)
        else DecM.ofFault (.error .oob))
      (fun r _ => Good (.write v k) (dec (mem.take 40)) (.write r)) := by
    intro hk
    split
    · rename_i h9
      simp only [pure_bind]
      refine SafeAt.nextSized_bind_val (by simp) (by simp) (fun h1 => ?_)
      refine SafeAt.nextBytes_bind (fun bs hbs h2 => ?_)
      refine SafeAt.get_bind ?_
      simp only [size_fuse_write_in] at h1 h2 ⊢
      rw [if_pos (show WRITE_MSG_SIZE ≤ mem.length from (show 80 ≤ mem.length by omega))]
      refine SafeAt.pure (good_write hH hk hop rfl ?_)
      rw [if_pos h9, write_size_eq]
      exact h2
    · rename_i h9
      simp only [pure_bind]
      refine SafeAt.nextSized_bind_val (by simp) (by simp) (fun h1 => ?_)
      refine SafeAt.nextBytes_bind (fun bs hbs h2 => ?_)
      refine SafeAt.get_bind ?_
      simp only [size_fuse_write_in_v7p1] at h1 h2 ⊢
      have h80 : 80 ≤ mem.length := hv.resolve_left h9
      rw [if_pos (show WRITE_MSG_SIZE ≤ mem.length from h80)]
      refine SafeAt.pure (good_write hH hk hop rfl ?_)
      rw [if_neg h9]
      exact h2
  cases k with
  | false =>
    simp only [Bool.not_false, ↓reduceIte]
    refine SafeAt.nodeId_bind (fun hid => ?_)
    have := main (fun _ => hid)
    split at this <;> rename_i h9
    · rw [if_pos h9]; simpa only [bind_assoc, pure_bind] using this
    · rw [if_neg h9]; simpa only [bind_assoc, pure_bind] using this
  | true =>
    simp only [Bool.not_true, Bool.false_eq_true, ↓reduceIte]
    have := main (fun h => absurd h (by decide))
    split at this <;> rename_i h9
    · rw [if_pos h9]; simpa only [bind_assoc, pure_bind] using this
    · rw [if_neg h9]; simpa only [bind_assoc, pure_bind] using this

theorem safe_forget (checks : Bool)
    (hc : (dec (mem.take 40) : FuseInHeader).opcode = FUSE_BATCH_FORGET →
      (dec ((mem.drop 40).take 4) : UInt32).toNat < 2 ^ 28) :
    SafeAt mem H 40 (decodeForget checks)
      (fun r _ => Good (.forget checks) (dec (mem.take 40)) (.forget r)) := by
  have fin : ∀ r, (dec (mem.take 40) : FuseInHeader).opcode ∈ (ReqType.forget checks).opcodes →
      Good (.forget checks) (dec (mem.take 40)) (.forget r) := by
    intro r h
    exact ⟨trivial, by simp [AnyRequest.names], h, by simp [AnyRequest.nodeIds],
      by simp [AnyRequest.nodeIds]⟩
  unfold decodeForget
  refine SafeAt.header_bind ?_
  split
  · rename_i hop
    refine SafeAt.nextSized_bind_val (by simp) (by simp) (fun h1 => ?_)
    have hcount : (dec ((((mem.take H).drop 40).take (Wire.size FuseBatchForgetIn))) :
        FuseBatchForgetIn).count = dec ((mem.drop 40).take 4) := by
      show (dec (List.take 4 (List.take 8 (List.drop 40 (List.take H mem)))) : UInt32) = _
      simp only [size_fuse_batch_forget_in] at h1
      simp only [List.drop_take, List.take_take]
      congr 2; omega
    have hlt := hc hop
    rw [hcount]
    generalize (dec ((mem.drop 40).take 4) : UInt32) = count at hlt
    rw [if_neg (by simp only [size_fuse_forget_one]; omega)]
    refine SafeAt.get_bind ?_
    refine SafeAt.nextBytes_bind (fun bs _ h2 => ?_)
    refine SafeAt.get_bind ?_
    simp only [size_fuse_batch_forget_in, align_fuse_forget_one] at h1 h2 ⊢
    rw [if_pos trivial]
    have hmul : (count * 16).toNat = count.toNat * 16 := by
      rw [UInt32.toNat_mul, show (16 : UInt32).toNat = 16 from rfl, Nat.mod_eq_of_lt (by omega)]
    apply SafeAt.ok
    intro hok
    refine SafeAt.ofRes_bind (fun e he => ?_) (fun a _ => ?_)
    · have h3 : H ≤ mem.length := hok.len_le
      simp only [Decoder.read, size_fuse_forget_one] at he
      rw [if_pos (by omega)] at he
      cases he
    · exact SafeAt.pure (fin _ (by simp [ReqType.opcodes, hop]))
  · refine SafeAt.expectOpcode_bind (fun hop => ?_)
    refine SafeAt.nextSized_bind (by simp) (by simp) (fun _ _ => ?_)
    exact SafeAt.pure (fin _ (by simp [ReqType.opcodes, hop]))

/-- The two circumstances in which decoding can fault (both are faults of the code): a
BATCH_FORGET whose item count overflows a `u32` byte length, and a WRITE of protocol 7.8 or older
in a receive buffer holding fewer than 80 bytes. -/
def ReqType.Pre (t : ReqType) (buf : Bytes) : Prop :=
  match t with
  | .forget _ => (dec (buf.take 40) : FuseInHeader).opcode = FUSE_BATCH_FORGET →
      (dec ((buf.drop 40).take 4) : UInt32).toNat < 2 ^ 28
  | .write v _ => v ≥ 9 ∨ 80 ≤ buf.length
  | _ => True

theorem safe_any (t : ReqType) (hp : t.Pre mem) :
    SafeAt mem H 40 (decodeAny t) (fun r _ => Good t (dec (mem.take 40)) r) := by
  cases t with
  | access => exact SafeAt.map safe_access
  | bmap => exact SafeAt.map safe_bmap
  | copyFileRange => exact SafeAt.map safe_copyFileRange
  | fallocate => exact SafeAt.map safe_fallocate
  | forget c => exact SafeAt.map (safe_forget c hp)
  | fsyncdir => exact SafeAt.map safe_fsyncdir
  | getlk => exact SafeAt.map safe_getlk
  | getxattr => exact SafeAt.map safe_getxattr
  | interrupt => exact SafeAt.map safe_interrupt
  | link => exact SafeAt.map safe_link
  | listxattr => exact SafeAt.map safe_listxattr
  | lookup => exact SafeAt.map safe_lookup
  | lseek => exact SafeAt.map safe_lseek
  | mkdir => exact SafeAt.map safe_mkdir
  | opendir => exact SafeAt.map safe_opendir
  | poll => exact SafeAt.map safe_poll
  | readlink => exact SafeAt.map safe_readlink
  | removexattr => exact SafeAt.map safe_removexattr
  | rename => exact SafeAt.map safe_rename
  | rmdir => exact SafeAt.map safe_rmdir
  | setattr => exact SafeAt.map safe_setattr
  | setlk => exact SafeAt.map safe_setlk
  | statfs => exact SafeAt.map safe_statfs
  | symlink => exact SafeAt.map safe_symlink
  | unlink => exact SafeAt.map safe_unlink
  | fuseInit => exact SafeAt.map safe_fuseInit
  | cuseInit => exact SafeAt.map safe_cuseInit
  | create l => exact SafeAt.map (safe_create l)
  | getattr l => exact SafeAt.map (safe_getattr l)
  | mknod l => exact SafeAt.map (safe_mknod l)
  | readdir l => exact SafeAt.map (safe_readdir l)
  | readdirplus l => exact SafeAt.map (safe_readdirplus l)
  | releasedir l => exact SafeAt.map (safe_releasedir l)
  | setxattr l => exact SafeAt.map (safe_setxattr l)
  | flush k => exact SafeAt.map (safe_flush k)
  | fsync k => exact SafeAt.map (safe_fsync k)
  | ioctl k => exact SafeAt.map (safe_ioctl k)
  | open_ k => exact SafeAt.map (safe_open k)
  | read v k => exact SafeAt.map (safe_read v k)
  | release v k => exact SafeAt.map (safe_release v k)
  | write v k => exact SafeAt.map (safe_write v k hp)

end Fuse
