import Verif.PropTypes
import Verif.Xattr

/-!
# C31, continued: from `fcntl` to the lock range

`fuse/lock.rs:80-92` says how the kernels turn `l_start` and `l_len` of a `struct flock` into the `start` and `end` of
a lock request.  A negative `l_len` stands for the bytes before `l_start`: Linux normalises it, FreeBSD does not.
-/

namespace Fuse

/-- The bytes that `l_start = s`, `l_len = n` stand for (POSIX): `n` bytes from `s`, or all from `s` if `n` is zero,
or the `-n` bytes before `s`. -/
def FlockCovers (s n : Int) (i : Nat) : Prop :=
  if n = 0 then s ≤ i else if 0 < n then s ≤ i ∧ i < s + n else s + n ≤ i ∧ i < s

/-- The offsets for which `fcntl` does not fail: no byte is before the start of the file or beyond the largest file
offset. -/
def FlockOk (s n : Int) : Prop := 0 ≤ s ∧ s < 2 ^ 63 ∧ 0 ≤ s + n ∧ s + n ≤ 2 ^ 63

/-- The `end` for a start and a length. -/
def flockEnd (s n : Int) : Int := if n = 0 then 2 ^ 63 - 1 else s + n - 1

/-- The two offsets in the lock request, before they are converted to `u64`. -/
def flockRange (os : Os) (s n : Int) : Int × Int :=
  match os with
  | .freebsd => (s, flockEnd s n)
  | _ => if n < 0 then (s + n, s - 1) else (s, flockEnd s n)

/-- The lock request has these offsets. -/
def IsFlock (os : Os) (s n : Int) (raw : FuseFileLock) : Prop :=
  (raw.start.toNat : Int) = (flockRange os s n).1 % 2 ^ 64 ∧ (raw.end_.toNat : Int) = (flockRange os s n).2 % 2 ^ 64

/-- **C31**, from the `fcntl` call to the range that the server sees: it consists of the same bytes, up to the largest
file offset.  Missing for the full claim: a negative length reaching back to the start of the file on FreeBSD, see
`C31_violated_negative`. -/
theorem C31_flock_partial (os : Os) (s n : Int) (raw : FuseFileLock) (h : IsFlock os s n raw) (hok : FlockOk s n)
    (hneg : os = .freebsd → n < 0 → 0 < s + n) :
    ∃ r, LockRange.decode raw = .ok r ∧ ∀ i < 2 ^ 63, r.Covers i ↔ FlockCovers s n i := by
  obtain ⟨h1, h2⟩ := h
  obtain ⟨k1, k2, k3, k4⟩ := hok
  have fwd : (flockRange os s n).1 ≤ (flockRange os s n).2 →  0 ≤ (flockRange os s n).1 →
      (flockRange os s n).2 < 2 ^ 63 →
      (∀ i : Nat, i < 2 ^ 63 → (((flockRange os s n).1 ≤ i ∧ i ≤ (flockRange os s n).2) ↔ FlockCovers s n i)) →
      ∃ r, LockRange.decode raw = .ok r ∧ ∀ i < 2 ^ 63, r.Covers i ↔ FlockCovers s n i := by
    intro a1 a2 a3 a4
    obtain ⟨r, e1, e2⟩ := C31_forward raw (UInt64.le_iff_toNat_le.mpr (by omega))
    refine ⟨r, e1, fun i hi => ?_⟩
    rw [e2, ← a4 i hi]
    omega
  by_cases hn : n < 0
  · cases os with
    | freebsd =>
      have hp := hneg rfl hn
      simp only [flockRange, flockEnd, if_neg (show ¬ n = 0 by omega)] at h1 h2
      obtain ⟨r, e1, e2⟩ := C31_backward raw (by omega)
      refine ⟨r, e1, fun i hi => ?_⟩
      rw [e2]
      unfold FlockCovers
      rw [if_neg (by omega), if_neg (by omega)]
      omega
    | linux =>
      have e : flockRange .linux s n = (s + n, s - 1) := if_pos hn
      refine fwd ?_ ?_ ?_ ?_ <;> rw [e] <;> first | (show _ ≤ _; omega) | (show _ < _; omega) | skip
      intro i hi
      unfold FlockCovers
      rw [if_neg (by omega), if_neg (by omega)]
      show s + n ≤ i ∧ i ≤ s - 1 ↔ _
      omega
    | other =>
      have e : flockRange .other s n = (s + n, s - 1) := if_pos hn
      refine fwd ?_ ?_ ?_ ?_ <;> rw [e] <;> first | (show _ ≤ _; omega) | (show _ < _; omega) | skip
      intro i hi
      unfold FlockCovers
      rw [if_neg (by omega), if_neg (by omega)]
      show s + n ≤ i ∧ i ≤ s - 1 ↔ _
      omega
  · have e : flockRange os s n = (s, flockEnd s n) := by
      cases os <;> first | rfl | exact if_neg hn
    refine fwd ?_ ?_ ?_ ?_ <;> rw [e] <;> unfold flockEnd <;> split <;>
      first | (show _ ≤ _; omega) | (show _ < _; omega) | skip
    · intro i hi
      unfold FlockCovers
      rw [if_pos (by assumption)]
      show s ≤ i ∧ (i : Int) ≤ 2 ^ 63 - 1 ↔ _
      omega
    · intro i hi
      unfold FlockCovers
      rw [if_neg (by assumption), if_pos (by omega)]
      show s ≤ i ∧ i ≤ s + n - 1 ↔ _
      omega

/-- **C31** fails on FreeBSD for a lock on all bytes before `s`, given as `l_start = s`, `l_len = -s`: `end` is -1,
which the server takes for the end of the file, so it sees a lock on exactly the other bytes. -/
theorem C31_violated_negative (s : Int) (raw : FuseFileLock) (hs : 0 < s) (hs' : s < 2 ^ 63)
    (h : IsFlock .freebsd s (-s) raw) : FlockOk s (-s) ∧
    ∃ r, LockRange.decode raw = .ok r ∧ r.length = none ∧ ∀ i, r.Covers i ↔ ¬ FlockCovers s (-s) i := by
  obtain ⟨h1, h2⟩ := h
  simp only [flockRange, flockEnd, if_neg (show ¬ -s = 0 by omega)] at h1 h2
  obtain ⟨r, e1, e2⟩ := C31_forward raw (UInt64.le_iff_toNat_le.mpr (by omega))
  refine ⟨⟨by omega, hs', by omega, by omega⟩, r, e1, ?_, fun i => ?_⟩
  · exact (C31_unbounded_iff raw r e1).mpr ⟨UInt64.le_iff_toNat_le.mpr (by omega), by omega⟩
  · rw [e2]
    unfold FlockCovers
    rw [if_neg (by omega), if_neg (by omega)]
    omega

/-- C31 on the call of `getlk_fcntl_read_unlocked_negative_len` (fuse/operations/getlk/getlk_interop_test.rs:484-530),
on both systems; and the same lock moved to the start of the file. -/
example : IsFlock .freebsd 100 (-50) { start := 100, end_ := 49 } ∧ IsFlock .linux 100 (-50) { start := 50, end_ := 99 } ∧
    LockRange.decode { start := 100, end_ := 49 } = .ok ⟨50, some ⟨50, by decide⟩⟩ ∧
    LockRange.decode { start := 50, end_ := 99 } = .ok ⟨50, some ⟨50, by decide⟩⟩ ∧
    IsFlock .freebsd 50 (-50) { start := 50, end_ := 0xFFFFFFFFFFFFFFFF } ∧
    LockRange.decode { start := 50, end_ := 0xFFFFFFFFFFFFFFFF } = .ok ⟨50, none⟩ := by
  refine ⟨⟨?_, ?_⟩, ⟨?_, ?_⟩, ?_, ?_, ⟨?_, ?_⟩, ?_⟩ <;> decide

end Fuse
