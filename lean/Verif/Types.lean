import Verif.Kernel

/-!
# Value types of the public API

Node IDs, node names, C strings, file modes, times, durations, locks and flag sets, with the
checked and unchecked constructors of the source.  An unchecked constructor whose safety
requirement is violated is undefined behaviour in Rust; here it is the explicit value
`.error .invalid`, so that "never undefined behaviour" is a provable statement.
-/

namespace Fuse

/-- Ways in which executing the code could go wrong other than by returning an error. -/
inductive Fault
  /-- A Rust panic (slice index, arithmetic overflow in a checked build). -/
  | panic
  /-- A read, write or reference outside the memory it may touch. -/
  | oob
  /-- A reference that is not aligned for its type. -/
  | misaligned
  /-- An unchecked constructor called on a value violating its requirement. -/
  | invalid
deriving DecidableEq, Repr

/-- `NodeNameError`, fuse/node_name.rs:24-31. -/
inductive NodeNameError
  | empty
  | containsNul
  | containsSlash
deriving DecidableEq, Repr

/-- `LockError`, fuse/lock.rs:180-183. -/
inductive LockError
  | emptyRange
deriving DecidableEq, Repr

/-- `RequestError`, fuse/server.rs:289-327. -/
inductive RequestError
  | lockError (e : LockError)
  | missingNodeId
  | missingRequestId
  | nodeNameError (e : NodeNameError)
  | timestampOverflow
  | invalidRequestId
  | unexpectedEof
  | opcodeMismatch
deriving DecidableEq, Repr

/-- Outcome of a computation that does not return normally. -/
inductive Failure
  | req (e : RequestError)
  | fault (f : Fault)
deriving DecidableEq, Repr

/-- Result of decoding: a value, a `RequestError`, or a fault. -/
abbrev Res := Except Failure

/-! ## Non-zero integers and node IDs -/

/-- `NonZeroU64`. -/
abbrev NonZeroU64 := { n : UInt64 // n ≠ 0 }

/-- `NonZeroU64::new`. -/
def NonZeroU64.new (n : UInt64) : Option NonZeroU64 :=
  if h : n ≠ 0 then some ⟨n, h⟩ else none

/-- `NonZeroU64::new_unchecked`: undefined for zero. -/
def NonZeroU64.newUnchecked (n : UInt64) : Except Fault NonZeroU64 :=
  if h : n ≠ 0 then .ok ⟨n, h⟩ else .error .invalid

/-- `NodeId`, fuse/node_id.rs:24-26 (a wrapped `NonZeroU64`). -/
abbrev NodeId := NonZeroU64

/-- `NodeId::ROOT`, fuse/node_id.rs:30-32. -/
def NodeId.root : NodeId := ⟨FUSE_ROOT_ID, by decide⟩

/-- `NodeId::new`, fuse/node_id.rs:37-42. -/
def NodeId.new (id : UInt64) : Option NodeId := NonZeroU64.new id

/-- `NodeId::new_unchecked`, fuse/node_id.rs:54-56. -/
def NodeId.newUnchecked (id : UInt64) : Except Fault NodeId := NonZeroU64.newUnchecked id

/-- `NodeId::is_root`, fuse/node_id.rs:68-70. -/
def NodeId.isRoot (id : NodeId) : Bool := id.val == FUSE_ROOT_ID

/-! ## Node names and C strings -/

/-- `NodeName`, fuse/node_name.rs:43-45. -/
structure NodeName where
  bytes : Bytes
deriving DecidableEq, Repr

/-- The documented contract of node names: non-empty, no NUL, no `/`. -/
def NodeName.Valid (bs : Bytes) : Prop := bs ≠ [] ∧ 0 ∉ bs ∧ 0x2F ∉ bs

instance (bs) : Decidable (NodeName.Valid bs) := inferInstanceAs (Decidable (_ ∧ _ ∧ _))

/-- The scan loop of `NodeName::from_bytes`, fuse/node_name.rs:82-89. -/
def NodeName.scan : Bytes → Option NodeNameError
  | [] => none
  | b :: bs =>
    if b = 0 then some .containsNul
    else if b = 0x2F then some .containsSlash
    else NodeName.scan bs

/-- `NodeName::from_bytes`, fuse/node_name.rs:78-91. -/
def NodeName.fromBytes (bs : Bytes) : Except NodeNameError NodeName :=
  if bs.isEmpty then .error .empty
  else match NodeName.scan bs with
    | some e => .error e
    | none => .ok ⟨bs⟩

/-- `NodeName::from_bytes_unchecked`, fuse/node_name.rs:101-103; its safety section requires a
valid name. -/
def NodeName.fromBytesUnchecked (bs : Bytes) : Except Fault NodeName :=
  if NodeName.Valid bs then .ok ⟨bs⟩ else .error .invalid

/-- `core::ffi::CStr`, represented by its bytes without the terminating NUL. -/
structure CStr where
  bytes : Bytes
deriving DecidableEq, Repr

/-- `CStr::from_bytes_with_nul_unchecked`: the bytes must end with a NUL and contain no other. -/
def CStr.fromBytesWithNulUnchecked (bs : Bytes) : Except Fault CStr :=
  if bs ≠ [] ∧ bs.getLast? = some 0 ∧ 0 ∉ bs.dropLast then .ok ⟨bs.dropLast⟩
  else .error .invalid

/-! ## File modes and types -/

/-- `S_IFMT`, fuse/file_mode.rs:20. -/
abbrev S_IFMT : UInt32 := 0xF000

/-- `FileMode`, fuse/file_mode.rs:32-34. -/
structure FileMode where
  bits : UInt32
deriving DecidableEq, Repr

/-- `FileMode::permissions`, fuse/file_mode.rs:79-81. -/
def FileMode.permissions (m : FileMode) : UInt32 := m.bits &&& 0o777

/-- `FileMode::type_bits`, fuse/file_mode.rs:85-87. -/
def FileMode.typeBits (m : FileMode) : UInt32 := m.bits &&& S_IFMT

/-- `impl BitOr<u32> for FileMode`, fuse/file_mode.rs:114-122. -/
def FileMode.bitor (m : FileMode) (rhs : UInt32) : FileMode := ⟨m.bits ||| rhs⟩

/-- `FileType`, fuse/file_mode.rs:134-165. -/
inductive FileType
  | blockDevice
  | characterDevice
  | directory
  | namedPipe
  | regular
  | socket
  | symlink
deriving DecidableEq, Repr

/-- `FileType::as_bits`, fuse/file_mode.rs:168-174,195-205. -/
def FileType.asBits : FileType → UInt32
  | .namedPipe => 1
  | .characterDevice => 2
  | .directory => 4
  | .blockDevice => 6
  | .regular => 8
  | .symlink => 10
  | .socket => 12

/-- `FileType::from_bits`, fuse/file_mode.rs:209-220. -/
def FileType.fromBits (bits : UInt32) : Option FileType :=
  if bits = 1 then some .namedPipe
  else if bits = 2 then some .characterDevice
  else if bits = 4 then some .directory
  else if bits = 6 then some .blockDevice
  else if bits = 8 then some .regular
  else if bits = 10 then some .symlink
  else if bits = 12 then some .socket
  else none

/-- `FileType::from_mode`, fuse/file_mode.rs:182-184. -/
def FileType.fromMode (m : FileMode) : Option FileType := FileType.fromBits (m.typeBits >>> 12)

/-- `FileType::as_mode`, fuse/file_mode.rs:189-191. -/
def FileType.asMode (t : FileType) : FileMode := ⟨t.asBits <<< 12⟩

/-! ## Times -/

/-- `MAX_NANOS`, fuse/internal/timestamp.rs:21. -/
abbrev MAX_NANOS : UInt32 := 999999999

/-- `UnixTime`, fuse/unix_time.rs:24-27. -/
structure UnixTime where
  seconds : Int64
  nanos : UInt32
deriving DecidableEq, Repr

/-- `UnixTime::new`, fuse/unix_time.rs:43-48. -/
def UnixTime.new (seconds : Int64) (nanos : UInt32) : Option UnixTime :=
  if nanos > MAX_NANOS then none else some ⟨seconds, nanos⟩

/-- `UnixTime::from_seconds`, fuse/unix_time.rs:55-57. -/
def UnixTime.fromSeconds (seconds : Int64) : UnixTime := ⟨seconds, 0⟩

/-- `UnixTime::from_timespec_unchecked`, fuse/unix_time.rs:73-81; the caller must have checked
the nanoseconds (safety section of `new_unchecked`, lines 58-66). -/
def UnixTime.fromTimespecUnchecked (seconds : UInt64) (nanos : UInt32) : Except Fault UnixTime :=
  if nanos ≤ MAX_NANOS then .ok ⟨seconds.toInt64, nanos⟩ else .error .invalid

/-- `UnixTime::as_timespec`, fuse/unix_time.rs:85-87. -/
def UnixTime.asTimespec (t : UnixTime) : UInt64 × UInt32 := (t.seconds.toUInt64, t.nanos)

/-- `core::time::Duration`: whole seconds and a sub-second part below one second. -/
structure Duration where
  secs : UInt64
  nanos : UInt32
  lt : nanos < 1000000000
deriving DecidableEq, Repr

/-- `i64::MAX as u64`. -/
abbrev I64_MAX : UInt64 := 0x7FFFFFFFFFFFFFFF

/-- `timestamp::new_duration`, fuse/internal/timestamp.rs:23-29.  `Duration::new` carries excess
nanoseconds into the seconds; here the nanoseconds are clamped first, so no carry occurs. -/
def newDuration (rawSeconds : UInt64) (nanos : UInt32) : Duration :=
  { secs := min rawSeconds I64_MAX
    nanos := min nanos MAX_NANOS
    lt := by
      show (if nanos ≤ MAX_NANOS then nanos else MAX_NANOS) < 1000000000
      split
      · rename_i h
        rw [UInt32.le_iff_toNat_le] at h
        rw [UInt32.lt_iff_toNat_lt]
        have : (MAX_NANOS : UInt32).toNat = 999999999 := rfl
        have : (1000000000 : UInt32).toNat = 1000000000 := rfl
        omega
      · decide }

/-- `timestamp::split_duration`, fuse/internal/timestamp.rs:31-37. -/
def splitDuration (d : Duration) : UInt64 × UInt32 :=
  if d.secs ≤ I64_MAX then (d.secs, d.nanos) else (I64_MAX, 0)

/-! ## Locks -/

/-- `OFFSET_MAX`, fuse/lock.rs:25 (`i64::MAX as u64`). -/
abbrev OFFSET_MAX : UInt64 := 0x7FFFFFFFFFFFFFFF

/-- `u64::saturating_add`. -/
def satAdd64 (a b : UInt64) : UInt64 :=
  if a.toNat + b.toNat < 2 ^ 64 then a + b else 0xFFFFFFFFFFFFFFFF

/-- `LockRange`, fuse/lock.rs:40-43. -/
structure LockRange where
  start : UInt64
  length : Option NonZeroU64
deriving DecidableEq, Repr

/-- `LockRange::end`, fuse/lock.rs:70-75. -/
def LockRange.end_ (r : LockRange) : Option UInt64 :=
  match r.length with
  | none => none
  | some l => some (satAdd64 r.start (l.val - 1))

/-- `LockRange::decode`, fuse/lock.rs:77-116.  `raw.start - start` (line 93) would panic or wrap
when negative; that is the `panic` value here. -/
def LockRange.decode (raw : FuseFileLock) : Res LockRange :=
  if raw.start > raw.end_ then
    let start := satAdd64 raw.end_ 1
    if raw.start < start then .error (.fault .panic)
    else match NonZeroU64.new (raw.start - start) with
      | none => .error (.req (.lockError .emptyRange))
      | some length => .ok ⟨start, some length⟩
  else if raw.end_ ≥ OFFSET_MAX then .ok ⟨raw.start, none⟩
  else
    let length := satAdd64 (raw.end_ - raw.start) 1
    match NonZeroU64.newUnchecked length with
    | .ok l => .ok ⟨raw.start, some l⟩
    | .error f => .error (.fault f)

/-- `ProcessId::new`, fuse/lock.rs:155-159: `None` for zero. -/
def ProcessId.new (pid : UInt32) : Option { n : UInt32 // n ≠ 0 } :=
  if h : pid ≠ 0 then some ⟨pid, h⟩ else none

/-- `Lock`, fuse/lock.rs:229-233 (`LockMode` is a wrapped `u32`, line 191). -/
structure Lock where
  mode : UInt32
  range : LockRange
  processId : Option { n : UInt32 // n ≠ 0 }
deriving DecidableEq, Repr

/-- `Lock::decode`, fuse/lock.rs:268-275. -/
def Lock.decode (raw : FuseFileLock) : Res Lock := do
  let range ← LockRange.decode raw
  return ⟨raw.type_, range, ProcessId.new raw.pid⟩

end Fuse
