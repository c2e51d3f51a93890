import Verif.DecodeSound
import Verif.Protocol
import Verif.RequestSafe

/-!
# Request decoding against the protocol description

For every request type: a well-formed message decodes to a request reporting what the client sent
(`run_*`), and every message that decodes is a well-formed message of that type reporting what the
client sent (`snd_*`).
-/

namespace Fuse
open Spec

/-- The header at the start of the buffer. -/
abbrev hd (mem : Bytes) : FuseInHeader := dec (mem.take 40)

theorem idIs_header {h : FuseInHeader} (hid : h.nodeid ≠ 0) : IdIs h.nodeIdUnchecked h.nodeid :=
  ⟨⟨h.nodeid, hid⟩, nodeIdUnchecked_ok hid, rfl⟩

theorem idOrRoot_header (h : FuseInHeader) : IdOrRoot h.nodeIdOrRoot h.nodeid := by
  unfold IdOrRoot FuseInHeader.nodeIdOrRoot NodeId.new NonZeroU64.new
  by_cases h0 : h.nodeid = 0
  · simp [h0, NodeId.root]
  · simp [h0]

theorem idIs_new {x : UInt64} (hx : x ≠ 0) : IdIs (NodeId.newUnchecked x) x :=
  ⟨⟨x, hx⟩, newUnchecked_ok hx, rfl⟩

theorem nonZeroSize_val (n : UInt32) :
    (nonZeroSize n).map Subtype.val = if n = 0 then none else some n.toNat := by
  unfold nonZeroSize
  by_cases h : n = 0
  · simp [h]
  · have : n.toNat ≠ 0 := fun h' => h (UInt32.toNat_inj.mp h')
    simp [h, this]

theorem nonZero_val (n : UInt64) :
    (NonZeroU64.new n).map Subtype.val = if n = 0 then none else some n := by
  unfold NonZeroU64.new
  by_cases h : n = 0 <;> simp [h]

theorem Versioned.get_prefix {T} [Wire T] {v : UInt32} {bs r : Bytes} {x : T} (h : bs = enc x ++ r) :
    (Versioned.mk v bs).get T = .ok x := by
  subst h
  unfold Versioned.get
  rw [if_pos (by simp), List.take_left' (Wire.enc_length x), Wire.dec_enc]

theorem Versioned.get_self {T} [Wire T] {v : UInt32} {x : T} :
    (Versioned.mk v (enc x)).get T = .ok x := get_prefix (List.append_nil _).symm

theorem Versioned.getSince_ge {T} [Wire T] {v k : UInt32} {x : T} (h : v ≥ k) :
    (Versioned.mk v (enc x)).getSince k T = .ok (some x) := by
  unfold Versioned.getSince
  rw [if_pos h, get_self]; rfl

theorem Versioned.getSince_lt {T} [Wire T] {v k : UInt32} {bs : Bytes} (h : ¬ v ≥ k) :
    (Versioned.mk v bs).getSince k T = .ok none := by
  unfold Versioned.getSince
  rw [if_neg h]

theorem get_create_old {v : UInt32} (b : FuseCreateIn) :
    (Versioned.mk v (enc b)).get FuseCreateInV7p1 = .ok ⟨b.flags, b.mode⟩ :=
  Versioned.get_prefix (r := le32 b.umask ++ le32 b.open_flags) (by
    simp [enc_fuse_create_in, enc_fuse_create_in_v7p1, layout_fuse_create_in, layout_fuse_create_in_v7p1])

theorem get_mknod_old {v : UInt32} (b : FuseMknodIn) :
    (Versioned.mk v (enc b)).get FuseMknodInV7p1 = .ok ⟨b.mode, b.rdev⟩ :=
  Versioned.get_prefix (r := le32 b.umask ++ le32 b.padding) (by
    simp [enc_fuse_mknod_in, enc_fuse_mknod_in_v7p1, layout_fuse_mknod_in, layout_fuse_mknod_in_v7p1])

theorem get_setxattr_old {v : UInt32} (b : FuseSetxattrIn) :
    (Versioned.mk v (enc b)).get FuseSetxattrInV7p1 = .ok ⟨b.size, b.flags⟩ :=
  Versioned.get_prefix (r := le32 b.setxattr_flags ++ le32 b.padding) (by
    simp [enc_fuse_setxattr_in, enc_fuse_setxattr_in_v7p1, layout_fuse_setxattr_in, layout_fuse_setxattr_in_v7p1])

theorem get_read_old {v : UInt32} (b : FuseReadIn) :
    (Versioned.mk v (enc b)).get FuseReadInV7p1 = .ok ⟨b.fh, b.offset, b.size, b.read_flags⟩ :=
  Versioned.get_prefix (r := le64 b.lock_owner ++ le32 b.flags ++ le32 b.padding) (by
    simp [enc_fuse_read_in, enc_fuse_read_in_v7p1, layout_fuse_read_in, layout_fuse_read_in_v7p1])

theorem get_release_old {v : UInt32} (b : FuseReleaseIn) :
    (Versioned.mk v (enc b)).get FuseReleaseInV7p1 = .ok ⟨b.fh, b.flags, b.release_flags⟩ :=
  Versioned.get_prefix (r := le64 b.lock_owner) (by
    simp [enc_fuse_release_in, enc_fuse_release_in_v7p1, layout_fuse_release_in, layout_fuse_release_in_v7p1])

theorem enc_write_old (b : FuseWriteIn) : enc b = enc (⟨b.fh, b.offset, b.size, b.write_flags⟩ : FuseWriteInV7p1) ++
    (le64 b.lock_owner ++ le32 b.flags ++ le32 b.padding) := by
  simp [enc_fuse_write_in, enc_fuse_write_in_v7p1, layout_fuse_write_in, layout_fuse_write_in_v7p1]

theorem minor_ge {l : FuseLayout} {k : UInt16} (h : k ≤ l.versionMinor) : l.minor ≥ k.toUInt32 := by
  rw [ge_iff_le, UInt32.le_iff_toNat_le, FuseLayout.minor, UInt16.toNat_toUInt32, UInt16.toNat_toUInt32]
  exact UInt16.le_iff_toNat_le.mp h

theorem minor_lt {l : FuseLayout} {k : UInt16} (h : l.versionMinor < k) : ¬ l.minor ≥ k.toUInt32 := by
  rw [ge_iff_le, UInt32.le_iff_toNat_le, FuseLayout.minor, UInt16.toNat_toUInt32, UInt16.toNat_toUInt32]
  have := UInt16.lt_iff_toNat_lt.mp h
  omega

theorem minor_ge_inv {l : FuseLayout} {k : UInt16} (h : l.minor ≥ k.toUInt32) : k ≤ l.versionMinor := by
  rw [ge_iff_le, UInt32.le_iff_toNat_le, FuseLayout.minor, UInt16.toNat_toUInt32, UInt16.toNat_toUInt32] at h
  exact UInt16.le_iff_toNat_le.mpr h

theorem minor_lt_inv {l : FuseLayout} {k : UInt16} (h : ¬ l.minor ≥ k.toUInt32) : l.versionMinor < k := by
  rw [ge_iff_le, UInt32.le_iff_toNat_le, FuseLayout.minor, UInt16.toNat_toUInt32, UInt16.toNat_toUInt32] at h
  exact UInt16.lt_iff_toNat_lt.mpr (by omega)

theorem not_ge32 {a b : UInt32} : ¬ a ≥ b ↔ a < b := by
  rw [ge_iff_le, UInt32.le_iff_toNat_le, UInt32.lt_iff_toNat_lt]; omega

theorem and_pos_iff {a : UInt32} : a > 0 ↔ a ≠ 0 := by
  rw [gt_iff_lt, UInt32.lt_iff_toNat_lt]
  constructor
  · intro h h0; rw [h0] at h; exact Nat.lt_irrefl _ h
  · intro h
    have : a.toNat ≠ 0 := fun h' => h (UInt32.toNat_inj.mp h')
    have h0 : (0 : UInt32).toNat = 0 := rfl
    omega

theorem nanos_le {n : UInt32} : n ≤ MAX_NANOS ↔ n < 1000000000 := by
  rw [UInt32.le_iff_toNat_le, UInt32.lt_iff_toNat_lt]
  have : (MAX_NANOS : UInt32).toNat = 999999999 := rfl
  have : (1000000000 : UInt32).toNat = 1000000000 := rfl
  omega

/-! ## Locks -/

theorem lock_run {l : FuseFileLock} (h : LockOk l) :
    ∃ r, LockRange.decode l = .ok r ∧ LockMeans l r := by
  unfold LockOk at h
  rw [UInt64.le_iff_toNat_le] at h
  have he := UInt64.toNat_lt l.end_
  have hs := UInt64.toNat_lt l.start
  by_cases hlt : l.end_ < l.start
  · rw [UInt64.lt_iff_toNat_lt] at hlt
    have h1 : (satAdd64 l.end_ 1).toNat = l.end_.toNat + 1 := by
      unfold satAdd64
      rw [if_pos (by rw [show (1 : UInt64).toNat = 1 from rfl]; omega), UInt64.toNat_add,
        show (1 : UInt64).toNat = 1 from rfl, Nat.mod_eq_of_lt (by omega)]
    have h2 : (l.start - satAdd64 l.end_ 1).toNat = l.start.toNat - (l.end_.toNat + 1) := by
      rw [UInt64.toNat_sub_of_le _ _ (by rw [UInt64.le_iff_toNat_le]; omega), h1]
    have h3 : l.start - satAdd64 l.end_ 1 ≠ 0 := by
      intro h0; rw [h0] at h2
      have : (0 : UInt64).toNat = 0 := rfl
      omega
    refine ⟨⟨satAdd64 l.end_ 1, some ⟨_, h3⟩⟩, ?_, ?_⟩
    · unfold LockRange.decode
      rw [if_pos (by rw [gt_iff_lt, UInt64.lt_iff_toNat_lt]; omega)]
      simp only
      rw [if_neg (by rw [UInt64.lt_iff_toNat_lt]; omega)]
      simp only [NonZeroU64.new, dif_pos h3]
    · unfold LockMeans
      rw [if_pos (by rw [UInt64.lt_iff_toNat_lt]; omega)]
      exact ⟨h1, _, rfl, h2⟩
  · have hlt' := hlt
    rw [UInt64.lt_iff_toNat_lt] at hlt'
    by_cases hmax : l.end_ ≥ OFFSET_MAX
    · refine ⟨⟨l.start, none⟩, ?_, ?_⟩
      · unfold LockRange.decode
        rw [if_neg hlt, if_pos hmax]
      · unfold LockMeans
        rw [if_neg hlt, if_pos]
        · exact ⟨rfl, rfl⟩
        · rw [ge_iff_le, UInt64.le_iff_toNat_le] at hmax; exact hmax
    · have hmax' := hmax
      rw [ge_iff_le, UInt64.le_iff_toNat_le, show (OFFSET_MAX : UInt64).toNat = 2 ^ 63 - 1 from rfl] at hmax'
      have h0 : (l.end_ - l.start).toNat = l.end_.toNat - l.start.toNat :=
        UInt64.toNat_sub_of_le _ _ (by rw [UInt64.le_iff_toNat_le]; omega)
      have h1 : (satAdd64 (l.end_ - l.start) 1).toNat = l.end_.toNat - l.start.toNat + 1 := by
        unfold satAdd64
        rw [if_pos (by rw [show (1 : UInt64).toNat = 1 from rfl]; omega), UInt64.toNat_add,
          show (1 : UInt64).toNat = 1 from rfl, Nat.mod_eq_of_lt (by omega), h0]
      have h3 : satAdd64 (l.end_ - l.start) 1 ≠ 0 := by
        intro h0; rw [h0] at h1
        have : (0 : UInt64).toNat = 0 := rfl
        omega
      refine ⟨⟨l.start, some ⟨_, h3⟩⟩, ?_, ?_⟩
      · unfold LockRange.decode
        rw [if_neg hlt, if_neg hmax]
        simp only [NonZeroU64.newUnchecked, dif_pos h3]
      · unfold LockMeans
        rw [if_neg hlt, if_neg (by omega)]
        exact ⟨rfl, _, rfl, h1⟩

theorem lock_error {l : FuseFileLock} (h : ¬ LockOk l) :
    LockRange.decode l = .error (.req (.lockError .emptyRange)) := by
  unfold LockOk at h
  rw [UInt64.le_iff_toNat_le] at h
  have hs := UInt64.toNat_lt l.start
  have h1 : (satAdd64 l.end_ 1).toNat = l.end_.toNat + 1 := by
    unfold satAdd64
    rw [if_pos (by rw [show (1 : UInt64).toNat = 1 from rfl]; omega), UInt64.toNat_add,
      show (1 : UInt64).toNat = 1 from rfl, Nat.mod_eq_of_lt (by omega)]
  have h2 : l.start = satAdd64 l.end_ 1 := UInt64.toNat_inj.mp (by omega)
  unfold LockRange.decode
  rw [if_pos (by rw [gt_iff_lt, UInt64.lt_iff_toNat_lt]; omega)]
  simp only [← h2]
  rw [if_neg (by rw [UInt64.lt_iff_toNat_lt]; omega)]
  simp only [UInt64.sub_self, NonZeroU64.new, ne_eq, not_true_eq_false, ↓reduceDIte]

theorem lock_snd {l : FuseFileLock} {r} (h : LockRange.decode l = .ok r) : LockOk l ∧ LockMeans l r := by
  by_cases hl : LockOk l
  · obtain ⟨r', h1, h2⟩ := lock_run hl
    rw [h] at h1; cases h1
    exact ⟨hl, h2⟩
  · rw [lock_error hl] at h; cases h

theorem pid_means (pid : UInt32) : PidMeans pid (ProcessId.new pid) := by
  unfold PidMeans ProcessId.new
  by_cases h : pid = 0 <;> simp [h]

theorem lock_decode {l : FuseFileLock} {r} (h : LockRange.decode l = .ok r) :
    Lock.decode l = .ok ⟨l.type_, r, ProcessId.new l.pid⟩ := by
  simp only [Lock.decode, h]; rfl

theorem lock_decode_inv {l : FuseFileLock} {x} (h : Lock.decode l = .ok x) :
    ∃ r, LockRange.decode l = .ok r ∧ x = ⟨l.type_, r, ProcessId.new l.pid⟩ := by
  cases hr : LockRange.decode l with
  | error e => simp only [Lock.decode, hr] at h; cases h
  | ok r => rw [lock_decode hr] at h; cases h; exact ⟨r, rfl, rfl⟩

/-! ## Forget -/

theorem decMany_enc {T} [Wire T] (xs : List T) :
    decMany T xs.length (xs.flatMap enc) = xs := by
  induction xs with
  | nil => rfl
  | cons x xs ih =>
    simp only [List.flatMap_cons, List.length_cons, decMany,
      List.take_left' (Wire.enc_length x), List.drop_left' (Wire.enc_length x), Wire.dec_enc, ih]

theorem enc_decMany {T} [Wire T] (n : Nat) (bs : Bytes) (h : bs.length = n * Wire.size T) :
    (decMany T n bs).flatMap enc = bs ∧ (decMany T n bs).length = n := by
  induction n generalizing bs with
  | zero => exact ⟨(List.eq_nil_of_length_eq_zero (by omega)).symm, rfl⟩
  | succ n ih =>
    have h1 : Wire.size T ≤ bs.length := by rw [h, Nat.add_mul]; omega
    have := ih (bs.drop (Wire.size T)) (by rw [List.length_drop, h, Nat.add_mul]; omega)
    simp only [decMany, List.flatMap_cons, List.length_cons, this.2, and_true]
    rw [Wire.enc_dec _ (by rw [List.length_take]; omega), this.1, List.take_append_drop]

theorem flatMap_enc_length {T} [Wire T] (xs : List T) :
    (xs.flatMap enc).length = xs.length * Wire.size T := by
  induction xs with
  | nil => simp
  | cons x xs ih => simp only [List.flatMap_cons, List.length_append, Wire.enc_length, ih,
      List.length_cons, Nat.add_mul]; omega

/-- The items a batch yields. -/
def batchItems (xs : List FuseForgetOne) : List ForgetItem :=
  xs.filterMap (fun x => (NodeId.new x.nodeid).map (fun id => ⟨id, x.nlookup⟩))

theorem nextBatchItem_eq (xs : List FuseForgetOne) :
    (nextBatchItem xs).1 = (batchItems xs).head? ∧
    batchItems (nextBatchItem xs).2 = (batchItems xs).tail ∧
    (nextBatchItem xs).2.length ≤ xs.length ∧
    ((nextBatchItem xs).1.isSome → (nextBatchItem xs).2.length < xs.length) := by
  induction xs with
  | nil => simp [nextBatchItem, batchItems]
  | cons x xs ih =>
    unfold nextBatchItem
    cases hn : NodeId.new x.nodeid with
    | none =>
      simp only
      have : batchItems (x :: xs) = batchItems xs := by
        simp [batchItems, hn]
      rw [this]
      refine ⟨ih.1, ih.2.1, ?_, fun h => ?_⟩
      · simp only [List.length_cons]; omega
      · simp only [List.length_cons]; omega
    | some id => simp [batchItems, hn]

theorem collect_batch (n : Nat) (xs : List FuseForgetOne) (h : xs.length < n) :
    (ForgetIter.batch xs).collect n = batchItems xs := by
  induction n generalizing xs with
  | zero => omega
  | succ n ih =>
    have hx := nextBatchItem_eq xs
    unfold ForgetIter.collect ForgetIter.next
    cases hb : nextBatchItem xs with
    | mk head tail =>
      rw [hb] at hx
      simp only [hb]
      cases head with
      | none =>
        simp only at hx ⊢
        have := hx.1.symm
        rw [List.head?_eq_none_iff] at this
        rw [this]
      | some y =>
        simp only [Option.isSome_some, forall_const] at hx ⊢
        rw [ih tail (by omega), hx.2.1]
        cases hbi : batchItems xs with
        | nil => rw [hbi] at hx; cases hx.1
        | cons z zs =>
          rw [hbi] at hx
          simp only [List.head?_cons, Option.some.injEq] at hx
          simp [hx.1]

theorem batchItems_means (xs : List FuseForgetOne) :
    (batchItems xs).map (fun i => (i.nodeId.val, i.lookupCount)) =
      (xs.filter (·.nodeid ≠ 0)).map (fun i => (i.nodeid, i.nlookup)) := by
  induction xs with
  | nil => rfl
  | cons x xs ih =>
    by_cases h : x.nodeid = 0
    · have h1 : batchItems (x :: xs) = batchItems xs := by
        simp [batchItems, NodeId.new, NonZeroU64.new, h]
      rw [h1, ih]
      simp [h]
    · have h1 : batchItems (x :: xs) = ⟨⟨x.nodeid, h⟩, x.nlookup⟩ :: batchItems xs := by
        simp [batchItems, NodeId.new, NonZeroU64.new, h]
      rw [h1, List.map_cons, ih]
      simp [h]

/-! ## What the accessors report -/

theorem match_access {h : FuseInHeader} (hid : h.nodeid ≠ 0) {b : FuseAccessIn} (c) :
    (ClientReq.access b).Matches h.nodeid c (.access ⟨⟨h.nodeid, hid⟩, b.mask⟩) := by
  exact ⟨rfl, rfl⟩

theorem match_bmap {h : FuseInHeader} (hid : h.nodeid ≠ 0) {b : FuseBmapIn} (c) :
    (ClientReq.bmap b).Matches h.nodeid c (.bmap ⟨h, b⟩) := by
  exact ⟨idIs_header hid, rfl, rfl⟩

theorem match_copyFileRange {h : FuseInHeader} (hid : h.nodeid ≠ 0) {b : FuseCopyFileRangeIn} (ho : b.nodeid_out ≠ 0) (c) :
    (ClientReq.copyFileRange b).Matches h.nodeid c (.copyFileRange ⟨h, b⟩) := by
  exact ⟨idIs_header hid, rfl, rfl, idIs_new ho, rfl, rfl, rfl, rfl⟩

theorem match_createOld {h : FuseInHeader} (hid : h.nodeid ≠ 0) {v : UInt32} (hv : ¬ v ≥ 12) {b : FuseCreateInV7p1} {name : Bytes} (c) :
    (ClientReq.createOld b name).Matches h.nodeid c (.create ⟨h, ⟨v, enc b⟩, ⟨name⟩⟩) := by
  refine ⟨idIs_header hid, rfl, ?_, ?_, ?_, ?_⟩
  · simp only [CreateRequest.openFlags, Versioned.get_self]; rfl
  · simp only [CreateRequest.flags, Versioned.getSince_lt hv]; rfl
  · simp only [CreateRequest.mode, Versioned.getSince_lt hv]; rfl
  · simp only [CreateRequest.umask, Versioned.getSince_lt hv]; rfl

theorem match_create {h : FuseInHeader} (hid : h.nodeid ≠ 0) {v : UInt32} (hv : v ≥ 12) {b : FuseCreateIn} {name : Bytes} (c) :
    (ClientReq.create b name).Matches h.nodeid c (.create ⟨h, ⟨v, enc b⟩, ⟨name⟩⟩) := by
  refine ⟨idIs_header hid, rfl, ?_, ?_, ?_, ?_⟩
  · simp only [CreateRequest.openFlags, get_create_old]; rfl
  · simp only [CreateRequest.flags, Versioned.getSince_ge hv]; rfl
  · simp only [CreateRequest.mode, Versioned.getSince_ge hv]; rfl
  · simp only [CreateRequest.umask, Versioned.getSince_ge hv]; rfl

theorem match_fallocate {h : FuseInHeader} (hid : h.nodeid ≠ 0) {b : FuseFallocateIn} (c) :
    (ClientReq.fallocate b).Matches h.nodeid c (.fallocate ⟨h, b⟩) := by
  exact ⟨idIs_header hid, rfl, rfl, rfl, rfl⟩

theorem match_flush_fuse {h : FuseInHeader} (hid : h.nodeid ≠ 0) {b : FuseFlushIn} :
    (ClientReq.flush b).Matches h.nodeid false (.flush ⟨⟨h.nodeid, hid⟩, b.fh, b.lock_owner⟩) := by
  exact ⟨rfl, rfl, rfl⟩

theorem match_flush_cuse {h : FuseInHeader} {b : FuseFlushIn} :
    (ClientReq.flush b).Matches h.nodeid true (.flush ⟨NodeId.root, b.fh, b.lock_owner⟩) := by
  exact ⟨rfl, rfl, rfl⟩

theorem match_forget {h : FuseInHeader} {b : FuseForgetIn} (c) :
    (ClientReq.forget b).Matches h.nodeid c (.forget ⟨some { nodeid := h.nodeid, nlookup := b.nlookup }, []⟩) := by
  show (ForgetRequest.items _).map _ = _
  simp only [ForgetRequest.items, ForgetIter.fuel, ForgetIter.collect, ForgetIter.next, NodeId.new,
    NonZeroU64.new]
  by_cases h0 : h.nodeid = 0 <;> simp [h0]

theorem match_batchForget {h : FuseInHeader} {b : FuseBatchForgetIn} {items : List FuseForgetOne} (c) :
    (ClientReq.batchForget b items).Matches h.nodeid c (.forget ⟨none, items⟩) := by
  show (ForgetRequest.items _).map _ = _
  simp only [ForgetRequest.items, ForgetIter.fuel]
  rw [collect_batch _ _ (by omega)]
  exact batchItems_means items

theorem match_fsync {h : FuseInHeader} {b : FuseFsyncIn} (c) :
    (ClientReq.fsync b).Matches h.nodeid c (.fsync ⟨h, b⟩) := by
  exact ⟨idOrRoot_header h, rfl, rfl⟩

theorem match_fsyncdir {h : FuseInHeader} (hid : h.nodeid ≠ 0) {b : FuseFsyncIn} (c) :
    (ClientReq.fsyncdir b).Matches h.nodeid c (.fsyncdir ⟨h, b⟩) := by
  exact ⟨idIs_header hid, rfl, rfl⟩

theorem match_getattrOld {h : FuseInHeader} (hid : h.nodeid ≠ 0) {v : UInt32} (hv : ¬ v ≥ 9) (c) :
    (ClientReq.getattrOld).Matches h.nodeid c (.getattr ⟨h, ⟨v, []⟩⟩) := by
  refine ⟨idIs_header hid, ?_⟩
  simp only [GetattrRequest.handle, Versioned.getSince_lt hv]; rfl

theorem match_getattr {h : FuseInHeader} (hid : h.nodeid ≠ 0) {v : UInt32} (hv : v ≥ 9) {b : FuseGetattrIn} (c) :
    (ClientReq.getattr b).Matches h.nodeid c (.getattr ⟨h, ⟨v, enc b⟩⟩) := by
  refine ⟨idIs_header hid, ?_⟩
  simp only [GetattrRequest.handle, Versioned.getSince_ge hv]
  show Except.ok _ = Except.ok _
  simp only [selected, and_pos_iff]
  by_cases h0 : b.getattr_flags &&& 1 = 0 <;> simp [h0]

theorem match_getlk {h : FuseInHeader} (hid : h.nodeid ≠ 0) {b : FuseLkIn} {r : LockRange} (hl : LockMeans b.lk r) (c) :
    (ClientReq.getlk b).Matches h.nodeid c (.getlk ⟨h, b, r⟩) := by
  exact ⟨idIs_header hid, rfl, rfl, rfl, hl⟩

theorem match_setlk {h : FuseInHeader} (hid : h.nodeid ≠ 0) (hop : h.opcode = 32) {b : FuseLkIn} {r : LockRange} (hl : LockMeans b.lk r) (c) :
    (ClientReq.setlk b).Matches h.nodeid c (.setlk ⟨h, b, ⟨b.lk.type_, r, ProcessId.new b.lk.pid⟩⟩) := by
  refine ⟨idIs_header hid, rfl, rfl, rfl, ?_, rfl, hl, pid_means _⟩
  simp only [SetlkRequest.mayBlock, hop]; rfl

theorem match_setlkw {h : FuseInHeader} (hid : h.nodeid ≠ 0) (hop : h.opcode = 33) {b : FuseLkIn} {r : LockRange} (hl : LockMeans b.lk r) (c) :
    (ClientReq.setlkw b).Matches h.nodeid c (.setlk ⟨h, b, ⟨b.lk.type_, r, ProcessId.new b.lk.pid⟩⟩) := by
  refine ⟨idIs_header hid, rfl, rfl, rfl, ?_, rfl, hl, pid_means _⟩
  simp only [SetlkRequest.mayBlock, hop]; rfl

theorem match_getxattr {h : FuseInHeader} (hid : h.nodeid ≠ 0) {b : FuseGetxattrIn} {name : Bytes} (c) :
    (ClientReq.getxattr b name).Matches h.nodeid c (.getxattr ⟨h, b, ⟨name⟩⟩) := by
  exact ⟨idIs_header hid, rfl, nonZeroSize_val _⟩

theorem match_listxattr {h : FuseInHeader} (hid : h.nodeid ≠ 0) {b : FuseGetxattrIn} (c) :
    (ClientReq.listxattr b).Matches h.nodeid c (.listxattr ⟨h, b⟩) := by
  exact ⟨idIs_header hid, nonZeroSize_val _⟩

theorem match_removexattr {h : FuseInHeader} (hid : h.nodeid ≠ 0) {name : Bytes} (c) :
    (ClientReq.removexattr name).Matches h.nodeid c (.removexattr ⟨h, ⟨name⟩⟩) := by
  exact ⟨idIs_header hid, rfl⟩

theorem match_setxattrOld {h : FuseInHeader} (hid : h.nodeid ≠ 0) {b : FuseSetxattrInV7p1} {name value : Bytes} (c) :
    (ClientReq.setxattrOld b name value).Matches h.nodeid c (.setxattr ⟨h, ⟨1, enc b⟩, ⟨name⟩, value⟩) := by
  refine ⟨idIs_header hid, rfl, rfl, ?_, ?_⟩
  · simp only [SetxattrRequest.setxattrFlags, Versioned.get_self]; rfl
  · simp only [SetxattrRequest.flags]; rw [Versioned.getSince_lt (by decide)]; rfl

theorem match_setxattr {h : FuseInHeader} (hid : h.nodeid ≠ 0) {b : FuseSetxattrIn} {name value : Bytes} (c) :
    (ClientReq.setxattr b name value).Matches h.nodeid c (.setxattr ⟨h, ⟨33, enc b⟩, ⟨name⟩, value⟩) := by
  refine ⟨idIs_header hid, rfl, rfl, ?_, ?_⟩
  · simp only [SetxattrRequest.setxattrFlags, get_setxattr_old]; rfl
  · simp only [SetxattrRequest.flags]; rw [Versioned.getSince_ge (by decide)]; rfl

theorem match_interrupt {h : FuseInHeader} {b : FuseInterruptIn} (hu : b.unique ≠ 0) (c) :
    (ClientReq.interrupt b).Matches h.nodeid c (.interrupt ⟨b⟩) := by
  refine ⟨⟨b.unique, hu⟩, ?_, rfl⟩
  simp only [InterruptRequest.requestId, NonZeroU64.newUnchecked, dif_pos hu]

theorem match_ioctl {h : FuseInHeader} {b : FuseIoctlIn} {input : Bytes} (c) :
    (ClientReq.ioctl b input).Matches h.nodeid c (.ioctl ⟨h, b, input⟩) := by
  exact ⟨idOrRoot_header h, rfl, rfl, rfl, rfl, rfl, rfl, rfl⟩

theorem match_link {h : FuseInHeader} (hid : h.nodeid ≠ 0) {b : FuseLinkIn} (ho : b.oldnodeid ≠ 0) {name : Bytes} (c) :
    (ClientReq.link b name).Matches h.nodeid c (.link ⟨⟨b.oldnodeid, ho⟩, ⟨h.nodeid, hid⟩, ⟨name⟩⟩) := by
  exact ⟨rfl, rfl, rfl⟩

theorem match_lookup {h : FuseInHeader} (hid : h.nodeid ≠ 0) {name : Bytes} (c) :
    (ClientReq.lookup name).Matches h.nodeid c (.lookup ⟨⟨h.nodeid, hid⟩, ⟨name⟩⟩) := by
  exact ⟨rfl, rfl⟩

theorem match_rmdir {h : FuseInHeader} (hid : h.nodeid ≠ 0) {name : Bytes} (c) :
    (ClientReq.rmdir name).Matches h.nodeid c (.rmdir ⟨⟨h.nodeid, hid⟩, ⟨name⟩⟩) := by
  exact ⟨rfl, rfl⟩

theorem match_unlink {h : FuseInHeader} (hid : h.nodeid ≠ 0) {name : Bytes} (c) :
    (ClientReq.unlink name).Matches h.nodeid c (.unlink ⟨⟨h.nodeid, hid⟩, ⟨name⟩⟩) := by
  exact ⟨rfl, rfl⟩

theorem match_lseek {h : FuseInHeader} (hid : h.nodeid ≠ 0) {b : FuseLseekIn} (c) :
    (ClientReq.lseek b).Matches h.nodeid c (.lseek ⟨b, ⟨h.nodeid, hid⟩⟩) := by
  exact ⟨rfl, rfl, rfl, rfl⟩

theorem match_mkdir {h : FuseInHeader} (hid : h.nodeid ≠ 0) {b : FuseMkdirIn} {name : Bytes} (c) :
    (ClientReq.mkdir b name).Matches h.nodeid c (.mkdir ⟨⟨h.nodeid, hid⟩, ⟨name⟩, b⟩) := by
  exact ⟨rfl, rfl, rfl, rfl⟩

theorem fromMode_device {α} (m : UInt32) (x : α) :
    (match FileType.fromMode ⟨m⟩ with
      | some .characterDevice | some .blockDevice => some x
      | _ => none) = if m &&& 0xF000 = 0x2000 ∨ m &&& 0xF000 = 0x6000 then some x else none := by
  have hk : ∀ k : UInt32, k < 16 → (m &&& 0xF000 = k <<< (12 : UInt32) ↔ (m &&& 0xF000) >>> 12 = k) := by
    intro k hk
    constructor
    · intro h
      rw [h]
      apply UInt32.toNat_inj.mp
      rw [UInt32.lt_iff_toNat_lt] at hk
      have h16 : (16 : UInt32).toNat = 16 := rfl
      rw [UInt32.toNat_shiftRight, UInt32.toNat_shiftLeft, show (12 : UInt32).toNat % 32 = 12 from rfl,
        Nat.shiftRight_eq_div_pow, Nat.shiftLeft_eq, Nat.mod_eq_of_lt (by omega)]
      omega
    · intro h
      rw [← h]
      apply UInt32.eq_of_toBitVec_eq
      simp only [UInt32.toBitVec_and, UInt32.toBitVec_shiftLeft, UInt32.toBitVec_shiftRight]
      ext i hi
      simp only [UInt32.toBitVec_ofNat, BitVec.reduceMod]
      simp only [BitVec.shiftLeft_eq', BitVec.ushiftRight_eq', BitVec.toNat_ofNat, Nat.reducePow, Nat.reduceMod,
        BitVec.getElem_shiftLeft, BitVec.getElem_ushiftRight, BitVec.getElem_and, BitVec.getLsbD_and]
      by_cases hi12 : i < 12
      · have h0 : (61440#32)[i] = false := by
          have : ∀ j : Fin 12, (61440#32).getLsbD j.val = false := by decide
          exact this ⟨i, hi12⟩
        rw [h0]
        simp [hi12]
      · rw [show 12 + (i - 12) = i by omega]
        simp only [hi12, BitVec.getLsbD_eq_getElem hi, decide_false, Bool.not_false, Bool.true_and]
  have h2 := hk 2 (by decide)
  have h6 := hk 6 (by decide)
  rw [show (2 : UInt32) <<< 12 = 0x2000 from rfl] at h2
  rw [show (6 : UInt32) <<< 12 = 0x6000 from rfl] at h6
  have h26 : (m &&& 0xF000 = 0x2000 ∨ m &&& 0xF000 = 0x6000) ↔
      ((m &&& 0xF000) >>> 12 = 2 ∨ (m &&& 0xF000) >>> 12 = 6) := by rw [h2, h6]
  simp only [h26]
  show (match FileType.fromBits ((m &&& 0xF000) >>> 12) with
      | some .characterDevice | some .blockDevice => some x
      | _ => none) = _
  generalize (m &&& 0xF000) >>> 12 = k
  unfold FileType.fromBits
  by_cases e1 : k = 1
  · subst e1; simp
  by_cases e2 : k = 2
  · subst e2; simp
  by_cases e4 : k = 4
  · subst e4; simp
  by_cases e6 : k = 6
  · subst e6; simp
  simp only [e1, e2, e4, e6, ↓reduceIte, or_self]
  by_cases e8 : k = 8
  · subst e8; simp
  by_cases e10 : k = 10
  · subst e10; simp
  by_cases e12 : k = 12
  · subst e12; simp
  simp only [e8, e10, e12, ↓reduceIte]

theorem match_mknodOld {h : FuseInHeader} (hid : h.nodeid ≠ 0) {v : UInt32} (hv : ¬ v ≥ 12) {b : FuseMknodInV7p1} {name : Bytes} (c) :
    (ClientReq.mknodOld b name).Matches h.nodeid c (.mknod ⟨h, ⟨v, enc b⟩, ⟨name⟩⟩) := by
  refine ⟨idIs_header hid, rfl, ?_, ?_, ?_⟩
  · simp only [MknodRequest.mode, Versioned.get_self]; rfl
  · simp only [MknodRequest.umask, Versioned.getSince_lt hv]; rfl
  · rw [← fromMode_device b.mode b.rdev]
    simp only [MknodRequest.deviceNumber, MknodRequest.mode, Versioned.get_self, bind, Except.bind, pure, Except.pure]
    cases FileType.fromMode ⟨b.mode⟩ with
    | none => rfl
    | some t => cases t <;> rfl

theorem match_mknod {h : FuseInHeader} (hid : h.nodeid ≠ 0) {v : UInt32} (hv : v ≥ 12) {b : FuseMknodIn} {name : Bytes} (c) :
    (ClientReq.mknod b name).Matches h.nodeid c (.mknod ⟨h, ⟨v, enc b⟩, ⟨name⟩⟩) := by
  refine ⟨idIs_header hid, rfl, ?_, ?_, ?_⟩
  · simp only [MknodRequest.mode, get_mknod_old]; rfl
  · simp only [MknodRequest.umask, Versioned.getSince_ge hv]; rfl
  · rw [← fromMode_device b.mode b.rdev]
    simp only [MknodRequest.deviceNumber, MknodRequest.mode, get_mknod_old, bind, Except.bind, pure, Except.pure]
    cases FileType.fromMode ⟨b.mode⟩ with
    | none => rfl
    | some t => cases t <;> rfl

theorem match_open_ {h : FuseInHeader} {b : FuseOpenIn} (c) :
    (ClientReq.open_ b).Matches h.nodeid c (.open_ ⟨h, b⟩) := by
  exact ⟨idOrRoot_header h, rfl, rfl⟩

theorem match_opendir {h : FuseInHeader} (hid : h.nodeid ≠ 0) {b : FuseOpenIn} (c) :
    (ClientReq.opendir b).Matches h.nodeid c (.opendir ⟨h, b⟩) := by
  exact ⟨idIs_header hid, rfl, rfl⟩

theorem match_poll {h : FuseInHeader} (hid : h.nodeid ≠ 0) {b : FusePollIn} (c) :
    (ClientReq.poll b).Matches h.nodeid c (.poll ⟨h, b⟩) := by
  exact ⟨idIs_header hid, rfl, rfl, rfl⟩

theorem match_readOld {h : FuseInHeader} {v : UInt32} (hv : ¬ v ≥ 9) {b : FuseReadInV7p1} (c) :
    (ClientReq.readOld b).Matches h.nodeid c (.read ⟨h, ⟨v, enc b⟩⟩) := by
  refine ⟨idOrRoot_header h, ?_, ?_, ?_, ?_, ?_⟩
  · simp only [ReadRequest.size, Versioned.get_self]; rfl
  · simp only [ReadRequest.offset, Versioned.get_self]; rfl
  · simp only [ReadRequest.handle, Versioned.get_self]; rfl
  · simp only [ReadRequest.lockOwner, Versioned.getSince_lt hv]; rfl
  · simp only [ReadRequest.openFlags, Versioned.getSince_lt hv]; rfl

theorem match_readdirOld {h : FuseInHeader} (hid : h.nodeid ≠ 0) {v : UInt32} (hv : ¬ v ≥ 9) {b : FuseReadInV7p1} (c) :
    (ClientReq.readdirOld b).Matches h.nodeid c (.readdir ⟨h, ⟨v, enc b⟩⟩) := by
  refine ⟨idIs_header hid, ?_, ?_, ?_, NonZeroU64.new b.offset, ?_, nonZero_val _⟩
  · simp only [ReaddirRequest.size, Versioned.get_self]; rfl
  · simp only [ReaddirRequest.handle, Versioned.get_self]; rfl
  · simp only [ReaddirRequest.openFlags, Versioned.getSince_lt hv]; rfl
  · simp only [ReaddirRequest.offset, Versioned.get_self]; rfl

theorem match_readdirplusOld {h : FuseInHeader} (hid : h.nodeid ≠ 0) {v : UInt32} (hv : ¬ v ≥ 9) {b : FuseReadInV7p1} (c) :
    (ClientReq.readdirplusOld b).Matches h.nodeid c (.readdirplus ⟨h, ⟨v, enc b⟩⟩) := by
  refine ⟨idIs_header hid, ?_, ?_, ?_, NonZeroU64.new b.offset, ?_, nonZero_val _⟩
  · simp only [ReaddirplusRequest.size, Versioned.get_self]; rfl
  · simp only [ReaddirplusRequest.handle, Versioned.get_self]; rfl
  · simp only [ReaddirplusRequest.openFlags, Versioned.getSince_lt hv]; rfl
  · simp only [ReaddirplusRequest.offset, Versioned.get_self]; rfl

theorem match_releaseOld {h : FuseInHeader}  {v : UInt32} (hv : ¬ v ≥ 8) {b : FuseReleaseInV7p1} (c) :
    (ClientReq.releaseOld b).Matches h.nodeid c (.release ⟨h, ⟨v, enc b⟩⟩) := by
  refine ⟨idOrRoot_header h, ?_, ?_, ?_⟩
  · simp only [ReleaseRequest.handle, Versioned.get_self]; rfl
  · simp only [ReleaseRequest.openFlags, Versioned.get_self]; rfl
  · simp only [ReleaseRequest.lockOwner, Versioned.getSince_lt hv]; rfl

theorem match_releasedirOld {h : FuseInHeader} (hid : h.nodeid ≠ 0) {v : UInt32} (hv : ¬ v ≥ 8) {b : FuseReleaseInV7p1} (c) :
    (ClientReq.releasedirOld b).Matches h.nodeid c (.releasedir ⟨h, ⟨v, enc b⟩⟩) := by
  refine ⟨idIs_header hid, ?_, ?_, ?_⟩
  · simp only [ReleasedirRequest.handle, Versioned.get_self]; rfl
  · simp only [ReleasedirRequest.openFlags, Versioned.get_self]; rfl
  · simp only [ReleasedirRequest.lockOwner, Versioned.getSince_lt hv]; rfl

theorem match_read {h : FuseInHeader} {v : UInt32} (hv : v ≥ 9) {b : FuseReadIn} (c) :
    (ClientReq.read b).Matches h.nodeid c (.read ⟨h, ⟨v, enc b⟩⟩) := by
  refine ⟨idOrRoot_header h, ?_, ?_, ?_, ?_, ?_⟩
  · simp only [ReadRequest.size, get_read_old]; rfl
  · simp only [ReadRequest.offset, get_read_old]; rfl
  · simp only [ReadRequest.handle, get_read_old]; rfl
  · simp only [ReadRequest.lockOwner, Versioned.getSince_ge hv]; rfl
  · simp only [ReadRequest.openFlags, Versioned.getSince_ge hv]; rfl

theorem match_readdir {h : FuseInHeader} (hid : h.nodeid ≠ 0) {v : UInt32} (hv : v ≥ 9) {b : FuseReadIn} (c) :
    (ClientReq.readdir b).Matches h.nodeid c (.readdir ⟨h, ⟨v, enc b⟩⟩) := by
  refine ⟨idIs_header hid, ?_, ?_, ?_, NonZeroU64.new b.offset, ?_, nonZero_val _⟩
  · simp only [ReaddirRequest.size, get_read_old]; rfl
  · simp only [ReaddirRequest.handle, get_read_old]; rfl
  · simp only [ReaddirRequest.openFlags, Versioned.getSince_ge hv]; rfl
  · simp only [ReaddirRequest.offset, get_read_old]; rfl

theorem match_readdirplus {h : FuseInHeader} (hid : h.nodeid ≠ 0) {v : UInt32} (hv : v ≥ 9) {b : FuseReadIn} (c) :
    (ClientReq.readdirplus b).Matches h.nodeid c (.readdirplus ⟨h, ⟨v, enc b⟩⟩) := by
  refine ⟨idIs_header hid, ?_, ?_, ?_, NonZeroU64.new b.offset, ?_, nonZero_val _⟩
  · simp only [ReaddirplusRequest.size, get_read_old]; rfl
  · simp only [ReaddirplusRequest.handle, get_read_old]; rfl
  · simp only [ReaddirplusRequest.openFlags, Versioned.getSince_ge hv]; rfl
  · simp only [ReaddirplusRequest.offset, get_read_old]; rfl

theorem match_release {h : FuseInHeader}  {v : UInt32} (hv : v ≥ 8) {b : FuseReleaseIn} (c) :
    (ClientReq.release b).Matches h.nodeid c (.release ⟨h, ⟨v, enc b⟩⟩) := by
  refine ⟨idOrRoot_header h, ?_, ?_, ?_⟩
  · simp only [ReleaseRequest.handle, get_release_old]; rfl
  · simp only [ReleaseRequest.openFlags, get_release_old]; rfl
  · simp only [ReleaseRequest.lockOwner, Versioned.getSince_ge hv]; rfl

theorem match_releasedir {h : FuseInHeader} (hid : h.nodeid ≠ 0) {v : UInt32} (hv : v ≥ 8) {b : FuseReleaseIn} (c) :
    (ClientReq.releasedir b).Matches h.nodeid c (.releasedir ⟨h, ⟨v, enc b⟩⟩) := by
  refine ⟨idIs_header hid, ?_, ?_, ?_⟩
  · simp only [ReleasedirRequest.handle, get_release_old]; rfl
  · simp only [ReleasedirRequest.openFlags, get_release_old]; rfl
  · simp only [ReleasedirRequest.lockOwner, Versioned.getSince_ge hv]; rfl

theorem match_readlink {h : FuseInHeader} (hid : h.nodeid ≠ 0) (c) :
    (ClientReq.readlink).Matches h.nodeid c (.readlink ⟨⟨h.nodeid, hid⟩⟩) := by
  exact rfl

theorem match_statfs {h : FuseInHeader} (hid : h.nodeid ≠ 0) (c) :
    (ClientReq.statfs).Matches h.nodeid c (.statfs ⟨⟨h.nodeid, hid⟩⟩) := by
  exact rfl

theorem match_rename {h : FuseInHeader} (hid : h.nodeid ≠ 0) {b : FuseRenameIn} (hn : b.newdir ≠ 0) {o n : Bytes} (c) :
    (ClientReq.rename b o n).Matches h.nodeid c (.rename ⟨⟨h.nodeid, hid⟩, ⟨o⟩, ⟨b.newdir, hn⟩, ⟨n⟩, 0⟩) := by
  exact ⟨rfl, rfl, rfl, rfl, rfl⟩

theorem match_rename2 {h : FuseInHeader} (hid : h.nodeid ≠ 0) {b : FuseRename2In} (hn : b.newdir ≠ 0) {o n : Bytes} (c) :
    (ClientReq.rename2 b o n).Matches h.nodeid c (.rename ⟨⟨h.nodeid, hid⟩, ⟨o⟩, ⟨b.newdir, hn⟩, ⟨n⟩, b.flags⟩) := by
  exact ⟨rfl, rfl, rfl, rfl, rfl⟩

theorem timestamp_means {h : FuseInHeader} {b : FuseSetattrIn} {bit : UInt32} {s : UInt64} {n : UInt32}
    (hn : NanosOk b.valid bit n) :
    (SetattrRequest.mk h b).getTimestamp bit s n = .ok (selected b.valid bit (timespec s n)) := by
  unfold SetattrRequest.getTimestamp selected
  by_cases h0 : b.valid &&& bit = 0
  · simp [h0]
  · have := nanos_le.mpr (hn h0)
    simp only [h0, ↓reduceIte, UnixTime.fromTimespecUnchecked, this]
    rfl

theorem match_setattr {h : FuseInHeader} (hid : h.nodeid ≠ 0) {b : FuseSetattrIn} (h1 : NanosOk b.valid 16 b.atimensec) (h2 : NanosOk b.valid 32 b.mtimensec)
    (h3 : NanosOk b.valid 1024 b.ctimensec) (c) :
    (ClientReq.setattr b).Matches h.nodeid c (.setattr ⟨h, b⟩) := by
  refine ⟨idIs_header hid, rfl, rfl, rfl, rfl, timestamp_means h1, timestamp_means h2, rfl, ?_, ?_, rfl,
    timestamp_means h3⟩
  · simp only [SetattrRequest.atimeNow, decide_eq_true_eq, and_pos_iff]
  · simp only [SetattrRequest.mtimeNow, decide_eq_true_eq, and_pos_iff]

theorem match_symlink {h : FuseInHeader} (hid : h.nodeid ≠ 0) {content name : Bytes} (c) :
    (ClientReq.symlink content name).Matches h.nodeid c (.symlink ⟨⟨h.nodeid, hid⟩, ⟨name⟩, ⟨content⟩⟩) := by
  exact ⟨rfl, rfl, rfl⟩

theorem take40 {mem : Bytes} {H : Nat} (h : 40 ≤ H) : (mem.take H).take 40 = mem.take 40 := by
  rw [List.take_take, Nat.min_eq_left h]


theorem match_writeOld {mem : Bytes} {H : Nat} (h80 : 40 ≤ mem.length) {v : UInt32} (hv : ¬ v ≥ 9) {b : FuseWriteInV7p1} {data s : Bytes}
    (hr : (mem.take H).drop 40 = enc b ++ (data ++ s)) (hn : b.size.toNat = data.length) (c) :
    (ClientReq.writeOld b data).Matches (hd mem).nodeid c (.write ⟨mem.take H, v⟩) := by
  have hlen : 40 + 24 + data.length + s.length = min H mem.length := by
    have := congrArg List.length hr
    simp only [List.length_drop, List.length_take, List.length_append, Wire.enc_length,
      size_fuse_write_in_v7p1] at this
    omega
  have hold : (WriteRequest.mk (mem.take H) v).bodyV7p1 = .ok b := by
    unfold WriteRequest.bodyV7p1
    simp only [size_fuse_in_header]
    rw [hr]
    exact Versioned.get_prefix rfl
  have hnew : (WriteRequest.mk (mem.take H) v).bodyV7p9 = .ok none := by
    unfold WriteRequest.bodyV7p9
    simp only [size_fuse_in_header]
    exact Versioned.getSince_lt hv
  refine ⟨⟨(hd mem).nodeIdOrRoot, ?_, idOrRoot_header _⟩, ?_, ?_, ?_, ?_, ?_, ?_⟩
  · simp only [WriteRequest.nodeId, WriteRequest.header, Versioned.get, size_fuse_in_header]
    rw [if_pos (by rw [List.length_take]; omega), take40 (by omega)]
    rfl
  · simp only [WriteRequest.offset, hold]; rfl
  · simp only [WriteRequest.handle, hold]; rfl
  · simp only [WriteRequest.value, hold, bind, Except.bind]
    have hoff : (if v ≥ 9 then Wire.size FuseInHeader + Wire.size FuseWriteIn
        else Wire.size FuseInHeader + Wire.size FuseWriteInV7p1) = 40 + 24 := by
      rw [if_neg hv]; rfl
    simp only [hoff]
    rw [if_pos (by rw [List.length_take]; omega), ← List.drop_drop, hr,
      List.drop_left' (by simp), hn, List.take_left' rfl]
    rfl
  · simp only [WriteRequest.flags, hold]; rfl
  · simp only [WriteRequest.lockOwner, hnew]; rfl
  · simp only [WriteRequest.openFlags, hnew]; rfl

theorem match_write {mem : Bytes} {H : Nat} (h80 : 40 ≤ mem.length) {v : UInt32} (hv : v ≥ 9) {b : FuseWriteIn} {data s : Bytes}
    (hr : (mem.take H).drop 40 = enc b ++ (data ++ s)) (hn : b.size.toNat = data.length) (c) :
    (ClientReq.write b data).Matches (hd mem).nodeid c (.write ⟨mem.take H, v⟩) := by
  have hlen : 40 + 40 + data.length + s.length = min H mem.length := by
    have := congrArg List.length hr
    simp only [List.length_drop, List.length_take, List.length_append, Wire.enc_length,
      size_fuse_write_in] at this
    omega
  have hold : (WriteRequest.mk (mem.take H) v).bodyV7p1 = .ok ⟨b.fh, b.offset, b.size, b.write_flags⟩ := by
    unfold WriteRequest.bodyV7p1
    simp only [size_fuse_in_header]
    rw [hr, enc_write_old b, List.append_assoc]
    exact Versioned.get_prefix rfl
  have hnew : (WriteRequest.mk (mem.take H) v).bodyV7p9 = .ok (some b) := by
    unfold WriteRequest.bodyV7p9
    simp only [size_fuse_in_header]
    rw [hr, Versioned.getSince, if_pos hv, Versioned.get_prefix rfl]; rfl
  refine ⟨⟨(hd mem).nodeIdOrRoot, ?_, idOrRoot_header _⟩, ?_, ?_, ?_, ?_, ?_, ?_⟩
  · simp only [WriteRequest.nodeId, WriteRequest.header, Versioned.get, size_fuse_in_header]
    rw [if_pos (by rw [List.length_take]; omega), take40 (by omega)]
    rfl
  · simp only [WriteRequest.offset, hold]; rfl
  · simp only [WriteRequest.handle, hold]; rfl
  · simp only [WriteRequest.value, hold, bind, Except.bind]
    have hoff : (if v ≥ 9 then Wire.size FuseInHeader + Wire.size FuseWriteIn
        else Wire.size FuseInHeader + Wire.size FuseWriteInV7p1) = 40 + 40 := by
      rw [if_pos hv]; rfl
    simp only [hoff]
    rw [if_pos (by rw [List.length_take]; omega), ← List.drop_drop, hr,
      List.drop_left' (by simp), hn, List.take_left' rfl]
    rfl
  · simp only [WriteRequest.flags, hold]; rfl
  · simp only [WriteRequest.lockOwner, hnew]; rfl
  · simp only [WriteRequest.openFlags, hnew]; rfl

theorem match_initV1 {h : FuseInHeader} {major minor : UInt32} (c) :
    (ClientReq.initV1 major minor).Matches h.nodeid c (.fuseInit ⟨⟨major, minor⟩, 0, 0⟩) := by
  exact ⟨rfl, rfl, rfl⟩

theorem match_initV6 {h : FuseInHeader} {major minor ra fl : UInt32} (c) :
    (ClientReq.initV6 major minor ra fl).Matches h.nodeid c (.fuseInit ⟨⟨major, minor⟩, ra, fl.toUInt64⟩) := by
  exact ⟨rfl, rfl, UInt32.toNat_toUInt64 _⟩

theorem join_flags (lo hi : UInt32) :
    (lo.toUInt64 ||| (hi.toUInt64 <<< 32)).toNat = lo.toNat + 2 ^ 32 * hi.toNat := by
  have h1 := lo.toNat_lt
  have h2 := hi.toNat_lt
  rw [UInt64.toNat_or, UInt64.toNat_shiftLeft, UInt32.toNat_toUInt64, UInt32.toNat_toUInt64,
    show (32 : UInt64).toNat % 64 = 32 from rfl, Nat.shiftLeft_eq, Nat.mod_eq_of_lt (by omega),
    Nat.mul_comm hi.toNat, Nat.or_comm, ← Nat.two_pow_add_eq_or_of_lt (by omega)]
  omega

theorem match_init {h : FuseInHeader} {b : FuseInitIn} (c) :
    (ClientReq.init b).Matches h.nodeid c (.fuseInit ⟨⟨b.major, b.minor⟩, b.max_readahead, b.flags.toUInt64 ||| (b.flags2.toUInt64 <<< 32)⟩) := by
  exact ⟨rfl, rfl, join_flags _ _⟩

theorem match_cuseInit {h : FuseInHeader} {b : CuseInitIn} (c) :
    (ClientReq.cuseInit b).Matches h.nodeid c (.cuseInit ⟨⟨b.major, b.minor⟩, b.flags⟩) := by
  exact ⟨rfl, rfl⟩

end Fuse
