import Verif.Attr
import Verif.RequestMatch

/-!
# C31–C35: lock ranges, cache timeouts, Unix times, file modes and flag sets
-/

namespace Fuse

/-! ## C31 lock ranges -/

/-- Byte `i` lies in the range as the API reports it: not before `start()`, and not after `end()`
when the range is bounded. -/
def LockRange.Covers (r : LockRange) (i : Nat) : Prop :=
  r.start.toNat ≤ i ∧ ∀ e, r.end_ = some e → i ≤ e.toNat

theorem end_of_length {r : LockRange} {n : NonZeroU64} (h : r.length = some n)
    (hb : r.start.toNat + n.val.toNat ≤ 2 ^ 64) :
    ∃ e, r.end_ = some e ∧ e.toNat + 1 = r.start.toNat + n.val.toNat := by
  have hn : n.val.toNat ≠ 0 := fun h0 => n.2 (UInt64.toNat_inj.mp h0)
  have h1 : (n.val - 1).toNat = n.val.toNat - 1 := by
    rw [UInt64.toNat_sub_of_le _ _ (by rw [UInt64.le_iff_toNat_le]; show 1 ≤ _; omega)]; rfl
  refine ⟨r.start + (n.val - 1), ?_, ?_⟩
  · simp only [LockRange.end_, h, satAdd64]
    rw [if_pos (by omega)]
  · rw [UInt64.toNat_add, h1, Nat.mod_eq_of_lt (by omega)]; omega

/-- C31: a lock request for the bytes `start..=end` decodes to exactly those bytes; an `end` at
or beyond the largest file offset means "to the end of the file". -/
theorem C31_forward (raw : FuseFileLock) (h : raw.start ≤ raw.end_) :
    ∃ r, LockRange.decode raw = .ok r ∧
      ∀ i, r.Covers i ↔
        raw.start.toNat ≤ i ∧ (i ≤ raw.end_.toNat ∨ 2 ^ 63 - 1 ≤ raw.end_.toNat) := by
  obtain ⟨r, h1, h2⟩ := lock_run (l := raw) (.inl h)
  refine ⟨r, h1, fun i => ?_⟩
  have hs := UInt64.toNat_lt raw.start
  rw [UInt64.le_iff_toNat_le] at h
  unfold LockMeans at h2
  rw [if_neg (by rw [UInt64.lt_iff_toNat_lt]; omega)] at h2
  by_cases hb : 2 ^ 63 - 1 ≤ raw.end_.toNat
  · rw [if_pos hb] at h2
    obtain ⟨h3, h4⟩ := h2
    simp only [LockRange.Covers, h3, LockRange.end_, h4, hb, or_true, and_true]
    exact ⟨fun h => h.1, fun h => ⟨h, fun _ hc => nomatch hc⟩⟩
  · rw [if_neg hb] at h2
    obtain ⟨h3, n, h4, h5⟩ := h2
    obtain ⟨e, h6, h7⟩ := end_of_length h4 (by rw [h3]; omega)
    simp only [LockRange.Covers, h6, Option.some.injEq, forall_eq', h3, hb, or_false]
    rw [h3] at h7
    constructor
    · rintro ⟨ha, hc⟩; exact ⟨ha, by omega⟩
    · rintro ⟨ha, hc⟩; exact ⟨ha, by omega⟩

/-- C31: a lock request given backwards decodes to the bytes strictly between `end` and `start`,
i.e. the bytes before the start. -/
theorem C31_backward (raw : FuseFileLock) (h : raw.end_.toNat + 1 < raw.start.toNat) :
    ∃ r, LockRange.decode raw = .ok r ∧
      ∀ i, r.Covers i ↔ raw.end_.toNat < i ∧ i < raw.start.toNat := by
  obtain ⟨r, h1, h2⟩ := lock_run (l := raw) (.inr h)
  refine ⟨r, h1, fun i => ?_⟩
  have hs := UInt64.toNat_lt raw.start
  unfold LockMeans at h2
  rw [if_pos (by rw [UInt64.lt_iff_toNat_lt]; omega)] at h2
  obtain ⟨h3, n, h4, h5⟩ := h2
  obtain ⟨e, h6, h7⟩ := end_of_length h4 (by omega)
  simp only [LockRange.Covers, h6, Option.some.injEq, forall_eq', h3]
  omega

/-- C31: decoding fails exactly for the empty range, and with the empty-range error; it never
panics or builds an invalid value. -/
theorem C31_rejected_iff (raw : FuseFileLock) (f : Failure) :
    LockRange.decode raw = .error f ↔
      raw.start.toNat = raw.end_.toNat + 1 ∧ f = .req (.lockError .emptyRange) := by
  by_cases h : LockOk raw
  · obtain ⟨r, h1, -⟩ := lock_run h
    rw [h1]
    unfold LockOk at h
    rw [UInt64.le_iff_toNat_le] at h
    constructor
    · intro hc; cases hc
    · rintro ⟨hc, -⟩; omega
  · rw [lock_error h]
    unfold LockOk at h
    rw [UInt64.le_iff_toNat_le] at h
    constructor
    · intro hc; cases hc; exact ⟨by omega, rfl⟩
    · rintro ⟨-, rfl⟩; rfl

/-- C31: the decoded range has no length exactly when the client's range is forward and reaches
the largest file offset. -/
theorem C31_unbounded_iff (raw : FuseFileLock) (r) (h : LockRange.decode raw = .ok r) :
    r.length = none ↔ raw.start ≤ raw.end_ ∧ 2 ^ 63 - 1 ≤ raw.end_.toNat := by
  obtain ⟨h1, h2⟩ := lock_snd h
  unfold LockMeans at h2
  by_cases hlt : raw.end_ < raw.start
  · rw [if_pos hlt] at h2
    obtain ⟨-, n, h4, -⟩ := h2
    rw [h4]
    rw [UInt64.lt_iff_toNat_lt] at hlt
    simp only [reduceCtorEq, UInt64.le_iff_toNat_le, false_iff]
    omega
  · rw [if_neg hlt] at h2
    rw [UInt64.lt_iff_toNat_lt] at hlt
    by_cases hb : 2 ^ 63 - 1 ≤ raw.end_.toNat
    · rw [if_pos hb] at h2
      rw [h2.2, UInt64.le_iff_toNat_le]
      simp only [true_iff]; omega
    · rw [if_neg hb] at h2
      obtain ⟨-, n, h4, -⟩ := h2
      rw [h4]
      simp only [reduceCtorEq, false_iff]; omega

/-- C31: the whole lock keeps the client's mode and owner; a zero process ID means "no owner". -/
theorem C31_lock (raw : FuseFileLock) (l : Lock) (h : Lock.decode raw = .ok l) :
    LockRange.decode raw = .ok l.range ∧ l.mode = raw.type_ ∧
      (l.processId.map Subtype.val = if raw.pid = 0 then none else some raw.pid) := by
  obtain ⟨r, h1, rfl⟩ := lock_decode_inv h
  exact ⟨h1, rfl, pid_means raw.pid⟩

/-- C31: the range built by the server from a start and length ends where arithmetic says,
saturating at the largest offset. -/
theorem C31_end (start : UInt64) (n : NonZeroU64) :
    ∃ e, (LockRange.mk start (some n)).end_ = some e ∧
      e.toNat = min (start.toNat + n.val.toNat - 1) (2 ^ 64 - 1) := by
  have hn : n.val.toNat ≠ 0 := fun h0 => n.2 (UInt64.toNat_inj.mp h0)
  have hs := UInt64.toNat_lt start
  by_cases hb : start.toNat + n.val.toNat ≤ 2 ^ 64
  · obtain ⟨e, h1, h2⟩ := end_of_length (r := ⟨start, some n⟩) rfl hb
    refine ⟨e, h1, ?_⟩
    have : (LockRange.mk start (some n)).start = start := rfl
    rw [this] at h2
    omega
  · refine ⟨0xFFFFFFFFFFFFFFFF, ?_, ?_⟩
    · have h1 : (n.val - 1).toNat = n.val.toNat - 1 := by
        rw [UInt64.toNat_sub_of_le _ _ (by rw [UInt64.le_iff_toNat_le]; show 1 ≤ _; omega)]; rfl
      simp only [LockRange.end_, satAdd64]
      rw [if_neg (by omega)]
    · show 2 ^ 64 - 1 = _
      omega

/-- A lock on bytes 10 to 19. -/
example : LockRange.decode { start := 10, end_ := 19 } = .ok ⟨10, some ⟨10, by decide⟩⟩ := by
  decide

/-- A lock on the ten bytes before offset 20, given backwards. -/
example : LockRange.decode { start := 20, end_ := 9 } = .ok ⟨10, some ⟨10, by decide⟩⟩ := by
  decide

/-- A whole-file lock. -/
example : LockRange.decode { start := 0, end_ := 0x7FFFFFFFFFFFFFFF } = .ok ⟨0, none⟩ := by decide

/-- An empty range. -/
example : LockRange.decode { start := 10, end_ := 9 } =
    .error (.req (.lockError .emptyRange)) := by decide

/-! ## C32 cache timeouts -/

/-- What a timeout becomes on the wire: itself, or the largest representable number of seconds. -/
def clampTimeout (d : Duration) : Duration :=
  if d.secs.toNat < 2 ^ 63 then d else ⟨0x7FFFFFFFFFFFFFFF, 0, by decide⟩

theorem min_nanos (d : Duration) : min d.nanos MAX_NANOS = d.nanos := by
  have h := d.lt
  rw [UInt32.lt_iff_toNat_lt] at h
  show (if d.nanos ≤ MAX_NANOS then _ else _) = _
  rw [if_pos]
  rw [UInt32.le_iff_toNat_le]
  show _ ≤ 999999999
  have : (1000000000 : UInt32).toNat = 1000000000 := rfl
  omega

theorem duration_ext {a b : Duration} (h1 : a.secs = b.secs) (h2 : a.nanos = b.nanos) : a = b := by
  cases a; cases b; cases h1; cases h2; rfl

theorem new_split (d : Duration) :
    newDuration (splitDuration d).1 (splitDuration d).2 = clampTimeout d := by
  unfold splitDuration clampTimeout
  have h63 : (I64_MAX : UInt64).toNat = 2 ^ 63 - 1 := rfl
  by_cases h : d.secs ≤ I64_MAX
  · rw [if_pos h]
    have h' := h
    rw [UInt64.le_iff_toNat_le] at h'
    rw [if_pos (by omega)]
    apply duration_ext
    · show (if d.secs ≤ I64_MAX then _ else _) = _
      rw [if_pos h]
    · exact min_nanos d
  · rw [if_neg h]
    rw [UInt64.le_iff_toNat_le] at h
    rw [if_neg (by omega)]
    apply duration_ext <;> decide

/-- C32: the client sees a timeout whose seconds are non-negative as a signed number and whose
nanoseconds are below one second, so the kernel never sees a wrapped timeout. -/
theorem C32_encoding_valid (d : Duration) :
    (splitDuration d).1.toNat < 2 ^ 63 ∧ (splitDuration d).2.toNat < 1000000000 := by
  have hn := d.lt
  rw [UInt32.lt_iff_toNat_lt] at hn
  have h63 : (I64_MAX : UInt64).toNat = 2 ^ 63 - 1 := rfl
  unfold splitDuration
  by_cases h : d.secs ≤ I64_MAX
  · rw [if_pos h]
    rw [UInt64.le_iff_toNat_le] at h
    exact ⟨by show d.secs.toNat < _; omega, hn⟩
  · rw [if_neg h]; exact ⟨by decide, by decide⟩

/-- C32: encoding preserves the order of timeouts: a longer timeout is never sent as a shorter
one. -/
theorem C32_monotone (a b : Duration)
    (h : a.secs.toNat * 1000000000 + a.nanos.toNat ≤ b.secs.toNat * 1000000000 + b.nanos.toNat) :
    (splitDuration a).1.toNat < (splitDuration b).1.toNat ∨
      (splitDuration a).1.toNat = (splitDuration b).1.toNat ∧
        ((splitDuration a).2.toNat ≤ (splitDuration b).2.toNat ∨ 2 ^ 63 ≤ b.secs.toNat) := by
  have ha := a.lt
  have hb := b.lt
  rw [UInt32.lt_iff_toNat_lt] at ha hb
  have h1 : (1000000000 : UInt32).toNat = 1000000000 := rfl
  rw [h1] at ha hb
  have h63 : (I64_MAX : UInt64).toNat = 2 ^ 63 - 1 := rfl
  unfold splitDuration
  by_cases hA : a.secs ≤ I64_MAX <;> by_cases hB : b.secs ≤ I64_MAX
  · simp only [if_pos hA, if_pos hB]; omega
  · simp only [if_pos hA, if_neg hB, h63]
    rw [UInt64.le_iff_toNat_le] at hA hB
    omega
  · simp only [if_neg hA, if_pos hB, h63]
    rw [UInt64.le_iff_toNat_le] at hA hB
    omega
  · simp only [if_neg hA, if_neg hB, h63]; simp

/-- C32: the VFS layer's own encoder writes the same seconds and nanoseconds as the library's. -/
theorem C32_vfs (d : Duration) : vfsSplitDuration d 0 0 = splitDuration d := by
  unfold vfsSplitDuration splitDuration
  by_cases h : d.secs = 0 ∧ d.nanos = 0
  · rw [if_pos h, h.1, h.2, if_pos (by decide)]
  · rw [if_neg h]

/-- One and a half seconds survive encoding. -/
example : (Entry.new (NodeAttr.new NodeId.root)).setCacheTimeout ⟨1, 500000000, by decide⟩ =
    ⟨{ nodeid := 1, entry_valid := 1, entry_valid_nsec := 500000000, attr := { ino := 1 } }⟩ := by
  decide

/-- The longest `Duration` is clamped. -/
example : splitDuration ⟨0xFFFFFFFFFFFFFFFF, 999999999, by decide⟩ = (0x7FFFFFFFFFFFFFFF, 0) := by
  decide

/-! ## C33 Unix times -/

/-- C33: exactly the times with less than a second's worth of nanoseconds can be constructed, and
the constructed value has the given parts. -/
theorem C33_new_iff (s : Int64) (n : UInt32) (t : UnixTime) :
    UnixTime.new s n = some t ↔ n.toNat < 1000000000 ∧ t.seconds = s ∧ t.nanos = n := by
  unfold UnixTime.new
  have h0 : (MAX_NANOS : UInt32).toNat = 999999999 := rfl
  by_cases h : n > MAX_NANOS
  · rw [if_pos h]
    rw [gt_iff_lt, UInt32.lt_iff_toNat_lt] at h
    simp only [reduceCtorEq, false_iff]; omega
  · rw [if_neg h]
    rw [gt_iff_lt, UInt32.lt_iff_toNat_lt] at h
    constructor
    · intro he; cases he; exact ⟨by omega, rfl, rfl⟩
    · rintro ⟨-, rfl, rfl⟩; rfl

/-- A time the API can construct. -/
def UnixTime.Valid (t : UnixTime) : Prop := t.nanos.toNat < 1000000000

theorem time_round_trip (t : UnixTime) (h : t.Valid) :
    UnixTime.fromTimespecUnchecked t.asTimespec.1 t.asTimespec.2 = .ok t := by
  unfold UnixTime.fromTimespecUnchecked
  have h0 : (MAX_NANOS : UInt32).toNat = 999999999 := rfl
  rw [if_pos (by rw [UInt32.le_iff_toNat_le]; unfold UnixTime.Valid at h; show t.nanos.toNat ≤ _; omega)]
  show Except.ok (UnixTime.mk t.seconds.toUInt64.toInt64 t.nanos) = _
  rfl

/-- The record of values a user of `NodeAttr` expects to get back. -/
structure AttrView where
  nodeId : NodeId
  mode : FileMode := ⟨0⟩
  size : UInt64 := 0
  atime : UnixTime := ⟨0, 0⟩
  mtime : UnixTime := ⟨0, 0⟩
  ctime : UnixTime := ⟨0, 0⟩
  linkCount : UInt32 := 0
  userId : UInt32 := 0
  groupId : UInt32 := 0
  deviceNumber : UInt32 := 0
  blockCount : UInt64 := 0
  blockSize : UInt32 := 0
  submount : Bool := false
  dax : Bool := false
deriving DecidableEq, Repr

/-- What a setter is expected to do: replace one value, keep all others. -/
def AttrView.step (v : AttrView) : AttrOp → AttrView
  | .mode m => { v with mode := m }
  | .size n => { v with size := n }
  | .atime t => { v with atime := t }
  | .mtime t => { v with mtime := t }
  | .ctime t => { v with ctime := t }
  | .linkCount n => { v with linkCount := n }
  | .userId n => { v with userId := n }
  | .groupId n => { v with groupId := n }
  | .deviceNumber n => { v with deviceNumber := n }
  | .blockCount n => { v with blockCount := n }
  | .blockSize n => { v with blockSize := n }
  | .submount b => { v with submount := b }
  | .dax b => { v with dax := b }

/-- Every getter returns the value of the view, and none of them is undefined behaviour. -/
structure AttrView.Seen (v : AttrView) (a : NodeAttr) : Prop where
  nodeId : a.nodeId = .ok v.nodeId
  mode : a.mode = v.mode
  size : a.size = v.size
  atime : a.atime = .ok v.atime
  mtime : a.mtime = .ok v.mtime
  ctime : a.ctime = .ok v.ctime
  linkCount : a.linkCount = v.linkCount
  userId : a.userId = v.userId
  groupId : a.groupId = v.groupId
  deviceNumber : a.deviceNumber = v.deviceNumber
  blockCount : a.blockCount = v.blockCount
  blockSize : a.blockSize = v.blockSize
  submount : a.flagSubmount = v.submount
  dax : a.flagDax = v.dax

/-- Times given to setters were made by a safe constructor of `UnixTime`. -/
def AttrOp.TimesMade : AttrOp → Prop
  | .atime t | .mtime t | .ctime t => ∃ s n, UnixTime.new s n = some t
  | _ => True

theorem valid_of_made {t : UnixTime} (h : ∃ s n, UnixTime.new s n = some t) : t.Valid := by
  obtain ⟨s, n, h⟩ := h
  obtain ⟨h1, -, rfl⟩ := (C33_new_iff s n t).mp h
  exact h1

theorem bv_or_and {w} (a b c : BitVec w) : (a ||| b) &&& c = (a &&& c) ||| (b &&& c) := by
  apply BitVec.eq_of_getLsbD_eq
  intro i _
  simp only [BitVec.getLsbD_and, BitVec.getLsbD_or]
  cases a.getLsbD i <;> cases b.getLsbD i <;> cases c.getLsbD i <;> rfl

theorem bv_or_and_self {w} (a b : BitVec w) : (a ||| b) &&& b = b := by
  apply BitVec.eq_of_getLsbD_eq
  intro i _
  simp only [BitVec.getLsbD_and, BitVec.getLsbD_or]
  cases a.getLsbD i <;> cases b.getLsbD i <;> rfl

theorem submount_setTo (s : Flags 32) (b : Bool) :
    (s.setTo NodeAttr.submountFlag b).get NodeAttr.submountFlag = b ∧
      (s.setTo NodeAttr.submountFlag b).get NodeAttr.daxFlag = s.get NodeAttr.daxFlag := by
  constructor
  · cases b
    · simp only [Flags.setTo, Flags.get, NodeAttr.submountFlag, Bool.false_eq_true, ↓reduceIte,
        BitVec.and_assoc]
      rw [show (~~~(FUSE_ATTR_SUBMOUNT.toBitVec) &&& FUSE_ATTR_SUBMOUNT.toBitVec) = 0#32 from by decide]
      simp
    · simp only [Flags.setTo, Flags.get, ↓reduceIte, bv_or_and_self, BEq.rfl]
  · cases b
    · simp only [Flags.setTo, Flags.get, NodeAttr.submountFlag, NodeAttr.daxFlag,
        Bool.false_eq_true, ↓reduceIte, BitVec.and_assoc]
      rw [show (~~~(FUSE_ATTR_SUBMOUNT.toBitVec) &&& FUSE_ATTR_DAX.toBitVec) = FUSE_ATTR_DAX.toBitVec from by decide]
    · simp only [Flags.setTo, Flags.get, NodeAttr.submountFlag, NodeAttr.daxFlag, ↓reduceIte]
      rw [bv_or_and, show (FUSE_ATTR_SUBMOUNT.toBitVec &&& FUSE_ATTR_DAX.toBitVec) = 0#32 from by decide,
        BitVec.or_zero]

theorem dax_setTo (s : Flags 32) (b : Bool) :
    (s.setTo NodeAttr.daxFlag b).get NodeAttr.daxFlag = b ∧
      (s.setTo NodeAttr.daxFlag b).get NodeAttr.submountFlag = s.get NodeAttr.submountFlag := by
  constructor
  · cases b
    · simp only [Flags.setTo, Flags.get, NodeAttr.daxFlag, Bool.false_eq_true, ↓reduceIte,
        BitVec.and_assoc]
      rw [show (~~~(FUSE_ATTR_DAX.toBitVec) &&& FUSE_ATTR_DAX.toBitVec) = 0#32 from by decide]
      simp
    · simp only [Flags.setTo, Flags.get, ↓reduceIte, bv_or_and_self, BEq.rfl]
  · cases b
    · simp only [Flags.setTo, Flags.get, NodeAttr.submountFlag, NodeAttr.daxFlag,
        Bool.false_eq_true, ↓reduceIte, BitVec.and_assoc]
      rw [show (~~~(FUSE_ATTR_DAX.toBitVec) &&& FUSE_ATTR_SUBMOUNT.toBitVec) = FUSE_ATTR_SUBMOUNT.toBitVec from by decide]
    · simp only [Flags.setTo, Flags.get, NodeAttr.submountFlag, NodeAttr.daxFlag, ↓reduceIte]
      rw [bv_or_and, show (FUSE_ATTR_DAX.toBitVec &&& FUSE_ATTR_SUBMOUNT.toBitVec) = 0#32 from by decide,
        BitVec.or_zero]

theorem seen_step {v : AttrView} {a : NodeAttr} (h : v.Seen a) (op : AttrOp) (ht : op.TimesMade) :
    (v.step op).Seen (op.run a) := by
  obtain ⟨h1, h2, h3, h4, h5, h6, h7, h8, h9, h10, h11, h12, h13, h14⟩ := h
  cases op
  case atime t => exact ⟨h1, h2, h3, time_round_trip t (valid_of_made ht), h5, h6, h7, h8, h9, h10, h11, h12, h13, h14⟩
  case mtime t => exact ⟨h1, h2, h3, h4, time_round_trip t (valid_of_made ht), h6, h7, h8, h9, h10, h11, h12, h13, h14⟩
  case ctime t => exact ⟨h1, h2, h3, h4, h5, time_round_trip t (valid_of_made ht), h7, h8, h9, h10, h11, h12, h13, h14⟩
  case submount b =>
    exact ⟨h1, h2, h3, h4, h5, h6, h7, h8, h9, h10, h11, h12, (submount_setTo a.flags b).1,
      ((submount_setTo a.flags b).2).trans h14⟩
  case dax b =>
    exact ⟨h1, h2, h3, h4, h5, h6, h7, h8, h9, h10, h11, h12, ((dax_setTo a.flags b).2).trans h13,
      (dax_setTo a.flags b).1⟩
  case mode => exact ⟨h1, rfl, h3, h4, h5, h6, h7, h8, h9, h10, h11, h12, h13, h14⟩
  case size => exact ⟨h1, h2, rfl, h4, h5, h6, h7, h8, h9, h10, h11, h12, h13, h14⟩
  case linkCount => exact ⟨h1, h2, h3, h4, h5, h6, rfl, h8, h9, h10, h11, h12, h13, h14⟩
  case userId => exact ⟨h1, h2, h3, h4, h5, h6, h7, rfl, h9, h10, h11, h12, h13, h14⟩
  case groupId => exact ⟨h1, h2, h3, h4, h5, h6, h7, h8, rfl, h10, h11, h12, h13, h14⟩
  case deviceNumber => exact ⟨h1, h2, h3, h4, h5, h6, h7, h8, h9, rfl, h11, h12, h13, h14⟩
  case blockCount => exact ⟨h1, h2, h3, h4, h5, h6, h7, h8, h9, h10, rfl, h12, h13, h14⟩
  case blockSize => exact ⟨h1, h2, h3, h4, h5, h6, h7, h8, h9, h10, h11, rfl, h13, h14⟩

/-- C33: after any sequence of setter calls on new node attributes, every getter returns the
value set last (times before 1970 included), or its default, and no getter hits an invalid
value; setters never disturb each other. -/
theorem C33_attributes (id : NodeId) (ops : List AttrOp) (ht : ∀ op ∈ ops, op.TimesMade) :
    (ops.foldl AttrView.step { nodeId := id }).Seen (ops.foldl AttrOp.run (NodeAttr.new id)) := by
  have h0 : ({ nodeId := id } : AttrView).Seen (NodeAttr.new id) := by
    refine ⟨?_, rfl, rfl, rfl, rfl, rfl, rfl, rfl, rfl, rfl, rfl, rfl, (by decide : (Flags.mk (w := 32) 0).get NodeAttr.submountFlag = false),
      (by decide : (Flags.mk (w := 32) 0).get NodeAttr.daxFlag = false)⟩
    show NonZeroU64.newUnchecked id.val = _
    unfold NonZeroU64.newUnchecked
    rw [dif_pos id.2]
  revert h0
  generalize ({ nodeId := id } : AttrView) = v
  generalize NodeAttr.new id = a
  intro h0
  induction ops generalizing v a with
  | nil => exact h0
  | cons op ops ih =>
    exact ih (fun o ho => ht o (List.mem_cons_of_mem _ ho)) _ _
      (seen_step h0 op (ht op List.mem_cons_self))

/-- A time before 1970 is stored and read back. -/
example : ((NodeAttr.new NodeId.root).setMtime ⟨-5, 250000000⟩).mtime = .ok ⟨-5, 250000000⟩ := by
  decide

/-- On the wire the seconds are two's complement. -/
example : ((NodeAttr.new NodeId.root).setMtime ⟨-5, 250000000⟩).raw.mtime =
    0xFFFFFFFFFFFFFFFB := by decide

/-- Mixed setters. -/
example : ([.dax true, .size 7, .submount true, .dax false].foldl AttrOp.run
    (NodeAttr.new NodeId.root)).raw = { ino := 1, size := 7, flags := 1 } := by decide

/-- The record of values a user of `Entry` expects to get back. -/
structure EntryView where
  generation : UInt64 := 0
  attributes : AttrView
  cacheTimeout : Duration := ⟨0, 0, by decide⟩
  attributeCacheTimeout : Duration := ⟨0, 0, by decide⟩
deriving DecidableEq, Repr

/-- What a mutator of `Entry` is expected to do. -/
def EntryView.step (v : EntryView) : EntryOp → EntryView
  | .generation g => { v with generation := g }
  | .attributes op => { v with attributes := v.attributes.step op }
  | .cacheTimeout d => { v with cacheTimeout := clampTimeout d }
  | .attributeCacheTimeout d => { v with attributeCacheTimeout := clampTimeout d }

/-- Every getter of `Entry` returns the value of the view, and the node ID the client is told is
that of the attributes. -/
structure EntryView.Seen (v : EntryView) (e : Entry) : Prop where
  nodeid : e.raw.nodeid = v.attributes.nodeId.val
  generation : e.generation = v.generation
  attributes : v.attributes.Seen e.attributes
  cacheTimeout : e.cacheTimeout = v.cacheTimeout
  attributeCacheTimeout : e.attributeCacheTimeout = v.attributeCacheTimeout

/-- Times given to setters were made by a safe constructor. -/
def EntryOp.TimesMade : EntryOp → Prop
  | .attributes op => op.TimesMade
  | _ => True

theorem step_nodeId (v : AttrView) (op : AttrOp) : (v.step op).nodeId = v.nodeId := by
  cases op <;> rfl

theorem entry_seen_step {v : EntryView} {e : Entry} (h : v.Seen e) (op : EntryOp)
    (ht : op.TimesMade) : (v.step op).Seen (op.run e) := by
  obtain ⟨h1, h2, h3, h4, h5⟩ := h
  cases op with
  | generation g => exact ⟨h1, rfl, h3, h4, h5⟩
  | attributes op =>
    exact ⟨h1.trans (congrArg Subtype.val (step_nodeId v.attributes op)).symm, h2,
      seen_step h3 op ht, h4, h5⟩
  | cacheTimeout d => exact ⟨h1, h2, h3, new_split d, h5⟩
  | attributeCacheTimeout d => exact ⟨h1, h2, h3, h4, new_split d⟩

/-- C32: after any sequence of calls on a new entry, both cache timeouts are read back as last
set, or clamped to the maximum if their seconds need 64 bits; setting one never disturbs the
other, the generation or the attributes; and the reply's node ID stays that of the attributes. -/
theorem C32_entry (id : NodeId) (pre : List AttrOp) (ops : List EntryOp)
    (hp : ∀ op ∈ pre, op.TimesMade) (ht : ∀ op ∈ ops, op.TimesMade) :
    (ops.foldl EntryView.step { attributes := pre.foldl AttrView.step { nodeId := id } }).Seen
      (ops.foldl EntryOp.run (Entry.new (pre.foldl AttrOp.run (NodeAttr.new id)))) := by
  have hs := C33_attributes id pre hp
  have h0 : EntryView.Seen { attributes := pre.foldl AttrView.step { nodeId := id } }
      (Entry.new (pre.foldl AttrOp.run (NodeAttr.new id))) := by
    refine ⟨?_, rfl, hs, by rfl, by rfl⟩
    have h1 := hs.nodeId
    simp only [NodeAttr.nodeId, NodeId.newUnchecked, NonZeroU64.newUnchecked] at h1
    split at h1
    · exact congrArg Subtype.val (Except.ok.inj h1)
    · cases h1
  revert h0
  generalize EntryView.mk _ _ _ _ = v
  generalize Entry.new _ = e
  intro h0
  induction ops generalizing v e with
  | nil => exact h0
  | cons op ops ih =>
    exact ih (fun o ho => ht o (List.mem_cons_of_mem _ ho)) _ _
      (entry_seen_step h0 op (ht op List.mem_cons_self))

/-! ## C34 file modes -/

theorem typeBits_toNat (m : FileMode) : m.typeBits.toNat = (m.bits.toNat / 4096 % 16) * 4096 := by
  show (m.bits.toNat &&& 0xF000) = _
  rw [show (0xF000 : Nat) = 15 <<< 12 from rfl]
  rw [show m.bits.toNat / 4096 = m.bits.toNat >>> 12 from by rw [Nat.shiftRight_eq_div_pow],
    show (16 : Nat) = 2 ^ 4 from rfl, show (4096 : Nat) = 2 ^ 12 from rfl, ← Nat.shiftLeft_eq]
  apply Nat.eq_of_testBit_eq
  intro i
  rw [Nat.testBit_and, Nat.testBit_shiftLeft, Nat.testBit_shiftLeft, Nat.testBit_mod_two_pow,
    Nat.testBit_shiftRight, show (15 : Nat) = 2 ^ 4 - 1 from rfl, Nat.testBit_two_pow_sub_one]
  by_cases h : i ≥ 12
  · simp only [h, decide_true, Bool.true_and]
    rw [show 12 + (i - 12) = i from by omega, Bool.and_comm]
  · simp [h]

theorem typeBits_shift (m : FileMode) : (m.typeBits >>> 12).toNat = m.bits.toNat / 4096 % 16 := by
  rw [UInt32.toNat_shiftRight, typeBits_toNat]
  show ((m.bits.toNat / 4096 % 16) * 4096) >>> 12 = _
  rw [Nat.shiftRight_eq_div_pow]; omega

theorem fromBits_iff (b : UInt32) (t : FileType) : FileType.fromBits b = some t ↔ b = t.asBits := by
  unfold FileType.fromBits
  constructor
  · intro h
    repeat' split at h
    all_goals first | cases h; assumption | cases h
  · rintro rfl
    cases t <;> decide

/-- C34: a file type and its mode are inverse to each other, whatever permission (and sticky,
setuid, setgid or higher) bits are added to the mode. -/
theorem C34_type_of_mode (t : FileType) (extra : UInt32) (h : extra &&& 0xF000 = 0) :
    FileType.fromMode (t.asMode.bitor extra) = some t := by
  unfold FileType.fromMode
  rw [fromBits_iff]
  have h1 : (t.asMode.bitor extra).typeBits = t.asMode.bits := by
    show (t.asMode.bits ||| extra) &&& 0xF000 = _
    apply UInt32.toBitVec_inj.mp
    have h' : extra.toBitVec &&& (0xF000 : UInt32).toBitVec = 0#32 := congrArg UInt32.toBitVec h
    rw [UInt32.toBitVec_and, UInt32.toBitVec_or, bv_or_and, h', BitVec.or_zero]
    cases t <;> decide
  rw [h1]
  cases t <;> decide

/-- C34: a mode has a recognised type iff its type nibble is one of the seven codes, and the type
is the one with that code. -/
theorem C34_recognised_iff (m : FileMode) (t : FileType) :
    FileType.fromMode m = some t ↔ m.bits.toNat / 4096 % 16 = t.asBits.toNat := by
  unfold FileType.fromMode
  rw [fromBits_iff, ← UInt32.toNat_inj, typeBits_shift]

/-- C34: the type codes are those of `<sys/stat.h>` and `<dirent.h>`. -/
theorem C34_codes :
    FileType.namedPipe.asMode.bits = 0o010000 ∧ FileType.characterDevice.asMode.bits = 0o020000 ∧
      FileType.directory.asMode.bits = 0o040000 ∧ FileType.blockDevice.asMode.bits = 0o060000 ∧
      FileType.regular.asMode.bits = 0o100000 ∧ FileType.symlink.asMode.bits = 0o120000 ∧
      FileType.socket.asMode.bits = 0o140000 := by decide

/-- C34: permission and type bits never overlap, and changing bits of one kind does not change
the other. -/
theorem C34_disjoint (m : FileMode) : m.typeBits &&& m.permissions = 0 := by
  show (m.bits &&& 0xF000) &&& (m.bits &&& 0o777) = 0
  rw [UInt32.and_comm m.bits 0o777, UInt32.and_assoc, ← UInt32.and_assoc 0xF000,
    show ((0xF000 : UInt32) &&& 0o777) = 0 from by decide, UInt32.zero_and, UInt32.and_zero]

/-- C34: adding permission bits to a typed mode sets exactly those permissions. -/
theorem C34_permissions (t : FileType) (p : UInt32) :
    (t.asMode.bitor p).permissions = p &&& 0o777 := by
  show (t.asMode.bits ||| p) &&& 0o777 = _
  apply UInt32.toBitVec_inj.mp
  rw [UInt32.toBitVec_and, UInt32.toBitVec_or, bv_or_and,
    show t.asMode.bits.toBitVec &&& (0o777 : UInt32).toBitVec = 0#32 from by cases t <;> decide,
    BitVec.zero_or, ← UInt32.toBitVec_and]

/-- C34: the numeric codes of distinct types differ, and converting code to type and back is the
identity on every 32-bit value that has a type. -/
theorem C34_code_round_trip (b : UInt32) (t : FileType) :
    FileType.fromBits b = some t ↔ t.asBits = b := by
  rw [fromBits_iff]; exact ⟨Eq.symm, Eq.symm⟩

/-- `rwxr-xr-x` directory. -/
example : FileType.fromMode (FileType.directory.asMode.bitor 0o755) = some .directory ∧
    (FileType.directory.asMode.bitor 0o755).permissions = 0o755 := by decide

/-- A whiteout (type 14) has no type. -/
example : FileType.fromMode ⟨0o160644⟩ = none := by decide

/-! ## C35 flag sets -/

/-- Membership: bit `i` is in the set. -/
def Flags.Has {w} (s : Flags w) (i : Nat) : Prop := s.bits.getLsbD i = true

/-- Bit `i` belongs to the flag. -/
def Flag.Has {w} (f : Flag w) (i : Nat) : Prop := f.mask.getLsbD i = true

/-- C35: a flag is reported set exactly if all its bits are in the set. -/
theorem C35_get {w} (s : Flags w) (f : Flag w) : s.get f = true ↔ ∀ i, f.Has i → s.Has i := by
  unfold Flags.get Flags.Has Flag.Has
  rw [beq_iff_eq]
  constructor
  · intro h i hi
    rw [← h, BitVec.getLsbD_and] at hi
    simp only [Bool.and_eq_true] at hi
    exact hi.1
  · intro h
    apply BitVec.eq_of_getLsbD_eq
    intro i _
    rw [BitVec.getLsbD_and]
    cases hf : f.mask.getLsbD i
    · simp
    · simp [h i hf]

/-- C35: the operators are union, intersection, insertion and removal of bits. -/
theorem C35_operators {w} (s t : Flags w) (f g : Flag w) (i : Nat) :
    ¬ (Flags.new : Flags w).Has i ∧
    ((s.or t).Has i ↔ s.Has i ∨ t.Has i) ∧
    ((s.and t).Has i ↔ s.Has i ∧ t.Has i) ∧
    ((s.orFlag f).Has i ↔ s.Has i ∨ f.Has i) ∧
    ((f.or g).Has i ↔ f.Has i ∨ g.Has i) ∧
    ((s.set f).Has i ↔ s.Has i ∨ f.Has i) ∧
    ((s.setTo f true).Has i ↔ s.Has i ∨ f.Has i) ∧
    ((s.setTo f false).Has i ↔ s.Has i ∧ ¬ f.Has i) := by
  unfold Flags.Has Flag.Has Flags.new Flags.or Flags.and Flags.orFlag Flag.or Flags.set Flags.setTo
  refine ⟨by simp, by simp, by simp, by simp, by simp, by simp, by simp, ?_⟩
  simp only [Bool.false_eq_true, ↓reduceIte, BitVec.getLsbD_and, BitVec.getLsbD_not,
    Bool.and_eq_true, Bool.not_eq_true', decide_eq_true_eq]
  constructor
  · rintro ⟨h1, -, h3⟩; exact ⟨h1, by simp [h3]⟩
  · rintro ⟨h1, h2⟩
    refine ⟨h1, ?_, by simpa using h2⟩
    exact BitVec.lt_of_getLsbD h1

/-- C35: a set equals another iff they have the same members; comparison with a flag likewise. -/
theorem C35_ext {w} (s t : Flags w) (f : Flag w) :
    (s = t ↔ ∀ i, s.Has i ↔ t.Has i) ∧ (s.eqFlag f = true ↔ ∀ i, s.Has i ↔ f.Has i) := by
  have key : ∀ a b : BitVec w, a = b ↔ ∀ i, (a.getLsbD i = true ↔ b.getLsbD i = true) := by
    intro a b
    constructor
    · rintro rfl i; rfl
    · intro h
      apply BitVec.eq_of_getLsbD_eq
      intro i _
      exact Bool.eq_iff_iff.mpr (h i)
  constructor
  · exact ⟨fun h => h ▸ fun _ => Iff.rfl, fun h => congrArg Flags.mk ((key s.bits t.bits).mpr h)⟩
  · unfold Flags.eqFlag
    rw [beq_iff_eq]; exact key _ _

/-- C35: the `Debug` output lists exactly the single-bit masks of the members, each once, in
increasing order. -/
theorem C35_debug {w} (s : Flags w) :
    s.debugMasks = ((List.range w).filter fun i => s.bits.getLsbD i).map fun i => (1#w) <<< i := by
  unfold Flags.debugMasks
  rw [List.filter_map]
  congr 1
  apply List.filter_congr
  intro i hi
  rw [List.mem_range] at hi
  simp only [Function.comp]
  have h1 : s.bits &&& (1#w) <<< i = if s.bits.getLsbD i then (1#w) <<< i else 0 := by
    apply BitVec.eq_of_getLsbD_eq
    intro j hj
    rw [BitVec.getLsbD_and, ← BitVec.twoPow_eq, BitVec.getLsbD_twoPow]
    by_cases hij : i = j
    · subst hij
      cases hc : s.bits.getLsbD i <;> simp [hj]
    · cases hc : s.bits.getLsbD i <;> simp [hij, hc]
  rw [h1]
  cases hc : s.bits.getLsbD i
  · simp
  · simp only [↓reduceIte]
    have : ¬ ((1#w) <<< i = 0#w) := by
      intro h0
      have := congrArg (fun b => b.getLsbD i) h0
      simp [← BitVec.twoPow_eq, BitVec.getLsbD_twoPow, hi] at this
    have h2 : ((1#w) <<< i == 0#w) = false := by rw [beq_eq_false_iff_ne]; exact this
    show (!((1#w) <<< i == 0#w)) = true
    rw [h2]; rfl

/-- A flag consisting of the one bit `i`. -/
def Flag.bit (w i : Nat) : Flag w := ⟨BitVec.twoPow w i⟩

/-- C35: all named flags are single bits within their type's width, and the flags of one type are
pairwise distinct, so no named flag aliases another. -/
theorem C35_named (t : FlagType) :
    (∀ f ∈ t.flags, ∃ i < t.width, f = Flag.bit t.width i) ∧ t.flags.Nodup := by
  have h : ∀ t : FlagType, (t.flags.all fun f =>
      (List.range t.width).any fun i => decide (f = Flag.bit t.width i)) = true ∧ t.flags.Nodup := by
    intro t
    cases t <;> decide
  obtain ⟨h1, h2⟩ := h t
  refine ⟨fun f hf => ?_, h2⟩
  have h3 := List.all_eq_true.mp h1 f hf
  obtain ⟨i, hi, he⟩ := List.any_eq_true.mp h3
  exact ⟨i, List.mem_range.mp hi, of_decide_eq_true he⟩

theorem get_bit {w i} (s : Flags w) (hi : i < w) : s.get (Flag.bit w i) = s.bits.getLsbD i := by
  rw [Bool.eq_iff_iff, C35_get]
  unfold Flag.Has Flags.Has Flag.bit
  simp only [BitVec.getLsbD_twoPow, hi, decide_true, Bool.true_and, decide_eq_true_eq, forall_eq']

theorem setTo_get {w i j} (s : Flags w) (b : Bool) (hi : i < w) (hj : j < w) :
    (s.setTo (Flag.bit w i) b).get (Flag.bit w j) =
      if i = j then b else s.get (Flag.bit w j) := by
  rw [get_bit _ hj, get_bit _ hj]
  unfold Flags.setTo Flag.bit
  cases b
  · by_cases h : i = j
    · subst h; simp [BitVec.getLsbD_twoPow, hi]
    · have h' : ¬ j = i := fun e => h e.symm
      simp [BitVec.getLsbD_twoPow, hj, h, h']
  · by_cases h : i = j
    · subst h; simp [BitVec.getLsbD_twoPow, hi]
    · simp [BitVec.getLsbD_twoPow, h]

/-- C35: after any history of updates of single-bit flags, a flag reads as it was last updated, or
as it was initially if the history does not mention it. -/
theorem C35_history {w} (s : Flags w) (ops : List (Flag w × Bool)) (g : Flag w)
    (hops : ∀ op ∈ ops, ∃ i < w, op.1 = Flag.bit w i) (hg : ∃ i < w, g = Flag.bit w i) :
    (ops.foldl (fun s op => s.setTo op.1 op.2) s).get g =
      ((ops.reverse.find? fun op => op.1 = g).map Prod.snd).getD (s.get g) := by
  obtain ⟨j, hj, rfl⟩ := hg
  have hinj : ∀ i, i < w → (Flag.bit w i = Flag.bit w j ↔ i = j) := by
    intro i hi
    constructor
    · intro h
      have := congrArg (fun f : Flag w => f.mask.getLsbD i) h
      simp only [Flag.bit, BitVec.getLsbD_twoPow, hi, decide_true, Bool.true_and] at this
      have h2 := this.symm
      simp only [decide_eq_true_eq, Bool.and_eq_true] at h2
      exact h2.2.symm
    · rintro rfl; rfl
  induction ops generalizing s with
  | nil => rfl
  | cons op ops ih =>
    rw [List.foldl_cons, ih _ fun o ho => hops o (List.mem_cons_of_mem _ ho), List.reverse_cons,
      List.find?_append]
    obtain ⟨i, hi, he⟩ := hops op List.mem_cons_self
    cases hc : ops.reverse.find? fun op => decide (op.1 = Flag.bit w j) with
    | some x => rfl
    | none =>
      simp only [Option.map_none, Option.getD_none, Option.none_or, List.find?_singleton]
      rw [he, setTo_get s _ hi hj]
      simp only [hinj i hi, decide_eq_true_eq]
      by_cases h : i = j
      · simp [h]
      · simp [h]

/-- Setting and clearing init flags. -/
example : ((Flags.new (w := 64)).setTo (.bit 64 29) true).get (.bit 64 29) = true ∧
    (((Flags.new (w := 64)).setTo (.bit 64 29) true).setTo (.bit 64 5) true).bits = 0x20000020 := by
  decide

/-- The two-bit flag mask of an arbitrary caller is set only if both bits are. -/
example : (Flags.mk (w := 32) 1).get ⟨3⟩ = false ∧ (Flags.mk (w := 32) 7).get ⟨3⟩ = true := by
  decide

/-- Debug output of `0b1010`. -/
example : (Flags.mk (w := 32) 10).debugMasks = [2, 8] := by decide

end Fuse
