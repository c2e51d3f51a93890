import Verif.PropTypes

/-!
# C33: comparing Unix times

`UnixTime` derives its order: the seconds decide, then the nanoseconds.  For times made by the public constructors this
is the order of the instants they denote, before and after 1970.
-/

namespace Fuse

/-- `UnixTime::cmp`, fuse/unix_time.rs:23-27 (derived: field by field, in the order of declaration). -/
def UnixTime.cmp (a b : UnixTime) : Ordering :=
  match compareOfLessAndEq a.seconds b.seconds with
  | .eq => compareOfLessAndEq a.nanos b.nanos
  | o => o

/-- Nanoseconds since 1970, fuse/unix_time.rs:19-22. -/
def Spec.instant (seconds : Int64) (nanos : UInt32) : Int := seconds.toInt * 1000000000 + nanos.toNat

/-- **C33**, order: two times that can be made compare as the instants they denote. -/
theorem C33_order {s s' : Int64} {n n' : UInt32} {t t' : UnixTime} (h : UnixTime.new s n = some t)
    (h' : UnixTime.new s' n' = some t') :
    t.cmp t' = compare (Spec.instant s n) (Spec.instant s' n') := by
  obtain ⟨hn, rfl, rfl⟩ := (C33_new_iff s n t).mp h
  obtain ⟨hn', rfl, rfl⟩ := (C33_new_iff s' n' t').mp h'
  show (match compareOfLessAndEq t.seconds t'.seconds with
    | .eq => compareOfLessAndEq t.nanos t'.nanos
    | o => o) = compareOfLessAndEq _ _
  unfold Spec.instant compareOfLessAndEq
  simp only [Int64.lt_iff_toInt_lt, UInt32.lt_iff_toNat_lt, ← Int64.toInt_inj, ← UInt32.toNat_inj]
  generalize t.seconds.toInt = a
  generalize t'.seconds.toInt = a'
  generalize t.nanos.toNat = b at hn ⊢
  generalize t'.nanos.toNat = b' at hn' ⊢
  by_cases h1 : a < a'
  · simp only [if_pos h1]; rw [if_pos (by omega)]
  · rw [if_neg h1]
    by_cases h2 : a = a'
    · subst h2
      simp only [if_true]
      by_cases h3 : b < b'
      · simp only [if_pos h3]; rw [if_pos (by omega)]
      · by_cases h4 : b = b'
        · subst h4; simp
        · simp only [if_neg h3, if_neg h4]; rw [if_neg (by omega), if_neg (by omega)]
    · simp only [if_neg h2]; rw [if_neg (by omega), if_neg (by omega)]

/-- **C33**, order: times read from node attributes, whatever was set before, compare as the instants in the record. -/
theorem C33_order_attributes {a b : NodeAttr} {t t' : UnixTime} (h : a.mtime = .ok t) (h' : b.mtime = .ok t') :
    t.cmp t' = compare (Spec.instant a.raw.mtime.toInt64 a.raw.mtimensec)
      (Spec.instant b.raw.mtime.toInt64 b.raw.mtimensec) := by
  have key : ∀ {a : NodeAttr} {t : UnixTime}, a.mtime = .ok t →
      UnixTime.new a.raw.mtime.toInt64 a.raw.mtimensec = some t := by
    intro a t h
    unfold NodeAttr.mtime UnixTime.fromTimespecUnchecked at h
    unfold UnixTime.new
    split at h
    · rename_i hle
      cases h
      rw [if_neg]
      rw [gt_iff_lt, UInt32.lt_iff_toNat_lt]
      rw [UInt32.le_iff_toNat_le] at hle
      omega
    · cases h
  exact C33_order (key h) (key h')

-- half a second before 1970 is later than a second before 1970 and earlier than 1970
example : UnixTime.cmp ⟨-1, 500000000⟩ ⟨-1, 0⟩ = .gt ∧ UnixTime.cmp ⟨-1, 500000000⟩ ⟨0, 0⟩ = .lt ∧
    Spec.instant (-1) 500000000 = -500000000 := by decide

end Fuse
