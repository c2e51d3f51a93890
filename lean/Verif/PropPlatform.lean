import Verif.Platform
import Verif.PropTypes
import Verif.PropDebug

/-!
# C65: platform constants
-/

namespace Fuse

namespace Spec

/-- The kinds of advisory locks of `fcntl(2)`. -/
inductive LockKind
  | read | write | unlock
deriving DecidableEq, Repr

/-- The numbers the kernel uses for them: `sys/fcntl.h` of FreeBSD; `asm/fcntl.h` of Linux for alpha, for
parisc, for sparc (32 and 64 bits) and `asm-generic/fcntl.h` for all others. -/
def lockNumber : Platform → LockKind → Nat
  | .freebsd, .read => 1
  | .freebsd, .unlock => 2
  | .freebsd, .write => 3
  | .linux .alpha, .read | .linux .parisc, .read | .linux .sparc, .read | .linux .sparc64, .read => 1
  | .linux .alpha, .write | .linux .parisc, .write | .linux .sparc, .write | .linux .sparc64, .write => 2
  | .linux .alpha, .unlock => 8
  | .linux .parisc, .unlock | .linux .sparc, .unlock | .linux .sparc64, .unlock => 3
  | .linux _, .read => 0
  | .linux _, .write => 1
  | .linux _, .unlock => 2

/-- The bits of an `ioctl` command given to the size of its argument (`_IOC_SIZEBITS`), and the number of the
direction "read" (`_IOC_READ`): `asm/ioctl.h` of Linux. -/
def iocParams : Arch → Nat × Nat
  | .alpha | .mips | .mips32r6 | .mips64 | .mips64r6 | .powerpc | .powerpc64 | .sparc | .sparc64 => (13, 2)
  | .parisc => (14, 1)
  | _ => (14, 2)

/-- `_IOR(type, nr, size)`: eight bits for the number, eight for the type, then size and direction. -/
def ior (arch : Arch) (type nr size : Nat) : Nat :=
  (iocParams arch).2 * 2 ^ (16 + (iocParams arch).1) + size * 2 ^ 16 + type * 2 ^ 8 + nr

end Spec

/-- The library's constant for a kind of lock. -/
def lockConst (p : Platform) : Spec.LockKind → UInt32
  | .read => F_RDLCK p
  | .write => F_WRLCK p
  | .unlock => F_UNLCK p

/-- The name of the constant. -/
def lockName : Spec.LockKind → String
  | .read => "F_RDLCK"
  | .write => "F_WRLCK"
  | .unlock => "F_UNLCK"

theorem lockConst_number (p : Platform) (hp : p ≠ .linux .sparc64) (k : Spec.LockKind) :
    (lockConst p k).toNat = Spec.lockNumber p k := by
  match p, k with
  | .freebsd, .read => rfl
  | .freebsd, .write => rfl
  | .freebsd, .unlock => rfl
  | .linux a, k => cases a <;> cases k <;> first | rfl | exact absurd rfl hp

theorem lockConst_inj (p : Platform) : ∀ {k k' : Spec.LockKind}, lockConst p k = lockConst p k' → k = k' := by
  intro k k' h
  match p with
  | .freebsd => revert k k'; intro k k'; cases k <;> cases k' <;> decide
  | .linux a => revert k k'; intro k k'; cases a <;> cases k <;> cases k' <;> decide

theorem debug_lockConst (p : Platform) (k : Spec.LockKind) : LockMode.debug p (lockConst p k) = text (lockName k) := by
  have h1 : ∀ k', lockConst p k = lockConst p k' ↔ k = k' := fun k' => ⟨lockConst_inj p, fun h => by rw [h]⟩
  unfold LockMode.debug
  have hr : lockConst p k = F_RDLCK p ↔ k = .read := h1 .read
  have hw : lockConst p k = F_WRLCK p ↔ k = .write := h1 .write
  have hu : lockConst p k = F_UNLCK p ↔ k = .unlock := h1 .unlock
  cases k
  · rw [if_pos (hr.2 rfl)]; rfl
  · rw [if_neg (fun h => by cases hr.1 h), if_pos (hw.2 rfl)]; rfl
  · rw [if_neg (fun h => by cases hr.1 h), if_neg (fun h => by cases hw.1 h), if_pos (hu.2 rfl)]; rfl

/-- **C65** (partial: every platform but 64-bit sparc): the lock a client asks for is the lock the server
sees.  The number the kernel puts into the message for a kind of lock equals the library's constant for that kind
and for no other, and is printed under the constant's name. -/
theorem C65_lock_partial (p : Platform) (hp : p ≠ .linux .sparc64) (kind : Spec.LockKind) (raw : FuseFileLock)
    (l : Lock) (hraw : raw.type_.toNat = Spec.lockNumber p kind) (h : Lock.decode raw = .ok l) :
    (∀ k, l.mode = lockConst p k ↔ k = kind) ∧ LockMode.debug p l.mode = text (lockName kind) := by
  have hm : l.mode = lockConst p kind := by
    rw [(C31_lock raw l h).2.1]
    exact UInt32.toNat_inj.1 (hraw.trans (lockConst_number p hp kind).symm)
  refine ⟨fun k => ?_, by rw [hm, debug_lockConst]⟩
  rw [hm]
  exact ⟨fun h => (lockConst_inj p h).symm, fun h => by rw [h]⟩

/-- C65: the write lock of an interop test, on x86-64 and on FreeBSD. -/
example : (Lock.decode ⟨0, 9, 1, 77⟩).toOption.map (fun l => LockMode.debug (.linux .x86_64) l.mode) = some (text "F_WRLCK")
    ∧ (Lock.decode ⟨0, 9, 3, 77⟩).toOption.map (fun l => LockMode.debug .freebsd l.mode) = some (text "F_WRLCK") := by
  decide

/-- **C65** fails on 64-bit sparc, which the library treats like x86: `target_arch` is `sparc64` there, not
`sparc`.  A client asking for a shared lock seems to ask for an exclusive one, a client asking for an exclusive
lock seems to give up its lock, and a request to unlock is none of the three. -/
theorem C65_violated_sparc64 (start end_ : UInt64) (pid : UInt32) (h : start ≤ end_) :
    (∃ l, Lock.decode ⟨start, end_, UInt32.ofNat (Spec.lockNumber (.linux .sparc64) .read), pid⟩ = .ok l ∧
      l.mode = F_WRLCK (.linux .sparc64))
    ∧ (∃ l, Lock.decode ⟨start, end_, UInt32.ofNat (Spec.lockNumber (.linux .sparc64) .write), pid⟩ = .ok l ∧
      l.mode = F_UNLCK (.linux .sparc64))
    ∧ (∃ l, Lock.decode ⟨start, end_, UInt32.ofNat (Spec.lockNumber (.linux .sparc64) .unlock), pid⟩ = .ok l ∧
      ∀ k, l.mode ≠ lockConst (.linux .sparc64) k) := by
  have hd : ∀ t, ∃ l, Lock.decode ⟨start, end_, t, pid⟩ = .ok l := by
    intro t
    cases hl : Lock.decode ⟨start, end_, t, pid⟩ with
    | ok l => exact ⟨l, rfl⟩
    | error f =>
      exfalso
      simp only [Lock.decode, bind, Except.bind] at hl
      split at hl
      · rename_i e he
        have := (C31_rejected_iff ⟨start, end_, t, pid⟩ e).1 he
        have h1 : start.toNat ≤ end_.toNat := UInt64.le_iff_toNat_le.1 h
        have h2 : start.toNat = end_.toNat + 1 := this.1
        omega
      · cases hl
  refine ⟨?_, ?_, ?_⟩
  · obtain ⟨l, hl⟩ := hd (UInt32.ofNat (Spec.lockNumber (.linux .sparc64) .read))
    exact ⟨l, hl, by rw [(C31_lock _ _ hl).2.1]; rfl⟩
  · obtain ⟨l, hl⟩ := hd (UInt32.ofNat (Spec.lockNumber (.linux .sparc64) .write))
    exact ⟨l, hl, by rw [(C31_lock _ _ hl).2.1]; rfl⟩
  · obtain ⟨l, hl⟩ := hd (UInt32.ofNat (Spec.lockNumber (.linux .sparc64) .unlock))
    exact ⟨l, hl, by rw [(C31_lock _ _ hl).2.1]; intro k; dsimp only; cases k <;> decide⟩

/-- C65: every mode is printed differently, also those the platform has no name for. -/
theorem C65_mode_debug (p : Platform) (m m' : UInt32) :
    (LockMode.debug p m = LockMode.debug p m' → m = m')
    ∧ ((∀ k, m ≠ lockConst p k) → ∃ ds, LockMode.debug p m = text "LockMode(" ++ ds ++ text ")" ∧
        Kernel.digits 10 0 ds = some m.toNat) := by
  have other : ∀ m, (∀ k, m ≠ lockConst p k) → LockMode.debug p m = text "LockMode(" ++ showNat 10 m.toNat ++ text ")" := by
    intro m h
    have hr : m ≠ F_RDLCK p := h .read
    have hw : m ≠ F_WRLCK p := h .write
    have hu : m ≠ F_UNLCK p := h .unlock
    unfold LockMode.debug
    rw [if_neg hr, if_neg hw, if_neg hu]
  have cases_ : ∀ m, (∃ k, m = lockConst p k) ∨ (∀ k, m ≠ lockConst p k) := by
    intro m
    by_cases h : ∃ k, m = lockConst p k
    · exact .inl h
    · exact .inr (fun k hk => h ⟨k, hk⟩)
  have name_inj : ∀ k k', text (lockName k) = text (lockName k') → k = k' := by
    intro k k'; cases k <;> cases k' <;> decide
  have name_ne : ∀ k (s : Bytes), text (lockName k) ≠ text "LockMode(" ++ s := by
    intro k s h
    have := congrArg List.head? h
    cases k <;> simp [text, lockName, ascii] at this
  refine ⟨fun h => ?_, fun hm => ⟨_, other m hm, digits_showNat (by decide) (by decide) _⟩⟩
  rcases cases_ m with ⟨k, rfl⟩ | hm
  · rcases cases_ m' with ⟨k', rfl⟩ | hm'
    · rw [debug_lockConst, debug_lockConst] at h
      rw [name_inj _ _ h]
    · rw [debug_lockConst, other m' hm', List.append_assoc] at h
      exact absurd h (name_ne _ _)
  · rcases cases_ m' with ⟨k', rfl⟩ | hm'
    · rw [debug_lockConst, other m hm, List.append_assoc] at h
      exact absurd h.symm (name_ne _ _)
    · rw [other m hm, other m' hm', List.append_left_inj, List.append_right_inj] at h
      have h1 := digits_showNat (base := 10) (by decide) (by decide) m.toNat
      rw [h, digits_showNat (base := 10) (by decide) (by decide) m'.toNat] at h1
      exact (UInt32.toNat_inj.1 (Option.some.inj h1)).symm

/-- C65: an unknown mode. -/
example : LockMode.debug .freebsd 0 = text "LockMode(0)" := by
  rw [LockMode.debug, if_neg (by decide), if_neg (by decide), if_neg (by decide)]
  show text "LockMode(" ++ showNat 10 0 ++ text ")" = _
  rw [showNat_of_lt (by decide)]
  decide

/-- **C65** (partial: every architecture but release 6 of MIPS): the command for cloning a device handle is
`_IOR(229, 0, uint32_t)`. -/
theorem C65_clone_partial (arch : Arch) (h : arch ≠ .mips32r6 ∧ arch ≠ .mips64r6) :
    (FUSE_DEV_IOC_CLONE arch).toNat = Spec.ior arch 229 0 4 := by
  obtain ⟨h1, h2⟩ := h
  cases arch <;> first | exact absurd rfl h1 | exact absurd rfl h2 | decide

/-- C65 fails on release 6 of MIPS, which has a `target_arch` of its own. -/
theorem C65_violated_clone : (FUSE_DEV_IOC_CLONE .mips64r6).toNat ≠ Spec.ior .mips64r6 229 0 4
    ∧ (FUSE_DEV_IOC_CLONE .mips32r6).toNat ≠ Spec.ior .mips32r6 229 0 4 := by decide

end Fuse
