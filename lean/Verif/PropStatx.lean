import Verif.PropMountCall
import Verif.ReadAt

/-!
# Structures passed to system calls of Linux, and the root mode: property C53 (layouts) and property C73
-/

namespace Fuse

open Spec

/-! ## Model -/

/-- The size of a `#[repr(C)]` structure with fields `(size, align)`. -/
def structSize (fields : List (Nat × Nat)) : Nat :=
  let a := (fields.map (·.2)).foldl max 1
  let last := (cOffsets 0 fields).getLastD 0 + (fields.map (·.1)).getLastD 0
  (last + a - 1) / a * a

/-- The bytes of a `#[repr(C)]` structure, from `off`, with fields `(size, align)` and their bytes; `pad` is what the
padding happens to be. -/
def structBytes (pad : UInt8) (size off : Nat) : List ((Nat × Nat) × Bytes) → Bytes
  | [] => List.replicate (size - off) pad
  | ((s, a), bytes) :: fs =>
    let o := (off + a - 1) / a * a
    List.replicate (o - off) pad ++ bytes ++ structBytes pad size (o + s) fs

namespace Linux

variable {δ : Type}

/-- `kernel_statx_timestamp`, fuse-linux/sys.rs:179-184; `w` is the alignment of 64-bit integers. -/
def statxTimestampFields (w : Nat) : List (Nat × Nat) := [(8, w), (4, 4), (4, 4)]

/-- A field of type `kernel_statx_timestamp`. -/
def statxTimestamp (w : Nat) : Nat × Nat := (structSize (statxTimestampFields w), max w 4)

/-- `kernel_statx`, fuse-linux/sys.rs:154-177. -/
def kernelStatxFields (w : Nat) : List (Nat × Nat) := [
  (4, 4), (4, 4), (8, w), (4, 4), (4, 4), (4, 4), (2, 2), (2, 2),
  (8, w), (8, w), (8, w), (8, w),
  statxTimestamp w, statxTimestamp w, statxTimestamp w, statxTimestamp w,
  (4, 4), (4, 4), (4, 4), (4, 4), (8 * 14, w)]

/-- The field `stx_mode` (fuse-linux/sys.rs:162) of the bytes of a `kernel_statx`, in little-endian order. -/
def kernelStatxMode (w : Nat) (buf : Bytes) : UInt16 :=
  let o := (cOffsets 0 (kernelStatxFields w)).getD 6 0
  (buf.getD o 0).toUInt16 ||| ((buf.getD (o + 1) 0).toUInt16 <<< 8)

/-- `STATX_MODE`, fuse-linux/sys.rs:186 (`libc::STATX_MODE` is the same). -/
abbrev STATX_MODE : UInt32 := 0x2

/-- The system call `statx`: the kernel stores a `struct statx`, which has 256 bytes. -/
abbrev StatxCall (δ : Type) :=
  (path : CName) → (flags mask : UInt32) → δ → Except Errno { bytes : Bytes // bytes.length = 256 } × δ

/-- `sys::statx`, fuse-linux/sys.rs:188-204.  Storing more than the buffer holds is a fault. -/
def sysStatx (w : Nat) (k : StatxCall δ) (path : CName) (flags mask : UInt32) (d : δ) :
    Except Fault (Except Errno Bytes × δ) :=
  let buf := List.replicate (structSize (kernelStatxFields w)) 0
  match k path flags mask d with
  | (.error e, d) => .ok (.error e, d)
  | (.ok bytes, d) => if buf.length < bytes.val.length then .error .oob else .ok (.ok (overlay buf bytes.val), d)

/-- `get_root_mode`, fuse-linux/fuse-linux.rs:156-161, on the bytes of the structure. -/
def rootModeBytes (w : Nat) (k : StatxCall δ) (target : CName) (d : δ) : Except Fault (Except Errno FileMode × δ) := do
  match ← sysStatx w k target 0 STATX_MODE d with
  | (.error e, d) => return (.error e, d)
  | (.ok buf, d) => return (.ok ⟨(kernelStatxMode w buf).toUInt32⟩, d)

/-- `open_how`, fuse-linux/sys.rs:40-45. -/
def openHowFields (w : Nat) : List (Nat × Nat) := [(8, w), (8, w), (8, w)]

/-- What `open` passes to `openat2`, fuse-linux/sys.rs:53-64: the memory the pointer and size describe. -/
def openHow (w : Nat) (pad : UInt8) (flags mode : UInt32) : Bytes :=
  structBytes pad (structSize (openHowFields w)) 0
    ((openHowFields w).zip [le64 flags.toUInt64, le64 mode.toUInt64, le64 0])

/-- `IoVec`, fuse-linux/sys.rs:83-88 and fuse-libc/io/iovec.rs:19-24, with pointers of `p` bytes; the last field has
no size. -/
def ioVecFields (p : Nat) : List (Nat × Nat) := [(p, p), (p, p), (0, 1)]

end Linux

/-! ## C53: layouts -/

namespace Spec

/-- Where `struct statx` of Linux has its mode. -/
def statxMode (bytes : Bytes) : UInt16 := UInt16.ofNat (u16At bytes 28)

/-- A system whose `statx` is this system call, asked for the mode. -/
def withStatx {δ : Type} (sys : Sys δ) (k : Linux.StatxCall δ) : Sys δ :=
  { sys with
    statx := fun path d =>
      match k path 0 Linux.STATX_MODE d with
      | (.ok bytes, d) => (.ok (statxMode bytes.val), d)
      | (.error e, d) => (.error e, d) }

end Spec

theorem kernelStatxMode_eq (w : Nat) (hw : w = 4 ∨ w = 8) (buf : Bytes) :
    Linux.kernelStatxMode w buf = statxMode buf := by
  have ho : (cOffsets 0 (Linux.kernelStatxFields w)).getD 6 0 = 28 := by
    rcases hw with rfl | rfl <;> decide
  simp only [Linux.kernelStatxMode, statxMode, u16At, u8At, ho]
  generalize buf.getD 28 0 = a
  generalize buf.getD (28 + 1) 0 = b
  have ha : a.toNat < 256 := a.toNat_lt
  have hb : b.toNat < 256 := b.toNat_lt
  apply UInt16.toNat.inj
  have hs : (b.toUInt16 <<< 8).toNat = b.toNat * 2 ^ 8 := by
    rw [UInt16.toNat_shiftLeft]
    show (b.toNat <<< 8) % 65536 = _
    rw [Nat.shiftLeft_eq, Nat.mod_eq_of_lt (by omega)]
  rw [UInt16.toNat_or, hs, UInt8.toNat_toUInt16, Nat.or_comm, ← Nat.shiftLeft_eq,
    ← Nat.shiftLeft_add_eq_or_of_lt (by omega), Nat.shiftLeft_eq, UInt16.toNat_ofNat_of_lt' (by show _ < 65536; omega)]
  omega

variable {δ : Type}

/-- **C53**, the structure of `statx`: whether 64-bit integers are aligned to 4 or to 8 bytes, the kernel never writes
past the buffer, and `get_root_mode` finds the mode where the kernel has stored it. -/
theorem C53_statx (w : Nat) (hw : w = 4 ∨ w = 8) (sys : Sys δ) (k : Linux.StatxCall δ) (target : CName) (d : δ) :
    Linux.rootModeBytes w k target d = .ok (Linux.getRootMode (withStatx sys k) target d) := by
  have hs : structSize (Linux.kernelStatxFields w) = 256 := by rcases hw with rfl | rfl <;> decide
  cases h : k target 0 Linux.STATX_MODE d with
  | mk r d' =>
    cases r with
    | error e => simp only [Linux.rootModeBytes, Linux.sysStatx, Linux.getRootMode, withStatx, h]; rfl
    | ok b =>
      have hl : ¬ (List.replicate 256 (0 : UInt8)).length < b.val.length := by
        rw [List.length_replicate, b.property]; omega
      have ho : overlay (List.replicate 256 0) b.val = b.val := by
        unfold overlay
        rw [b.property, List.drop_of_length_le (Nat.le_of_eq List.length_replicate), List.append_nil]
      simp only [Linux.rootModeBytes, Linux.sysStatx, Linux.getRootMode, withStatx, h, hs, if_neg hl, ho]
      show Except.ok _ = _
      rw [kernelStatxMode_eq w hw]

/-- **C53**, the other structures passed to the kernel: `openat2` gets 24 bytes, in which it finds the flags, the mode
and no restrictions of the path, and nothing else whatever the padding would be; the vectors for `writev` are pairs of
words, as in `struct iovec`. -/
theorem C53_structs :
    (∀ (w : Nat) (pad : UInt8) (flags mode : UInt32), w = 4 ∨ w = 8 →
      (Linux.openHow w pad flags mode).length = 24 ∧
      u64At (Linux.openHow w pad flags mode) 0 = flags.toNat ∧
      u64At (Linux.openHow w pad flags mode) 8 = mode.toNat ∧
      u64At (Linux.openHow w pad flags mode) 16 = 0) ∧
    (∀ p, p = 4 ∨ p = 8 →
      (cOffsets 0 (Linux.ioVecFields p)).take 2 = [0, p] ∧ structSize (Linux.ioVecFields p) = 2 * p) := by
  constructor
  · intro w pad flags mode hw
    have he : Linux.openHow w pad flags mode = le64 flags.toUInt64 ++ (le64 mode.toUInt64 ++ le64 0) := by
      rcases hw with rfl | rfl <;>
      · simp [Linux.openHow, Linux.openHowFields, structBytes, structSize, cOffsets]
    rw [he]
    refine ⟨rfl, ?_, ?_, ?_⟩
    · rw [u64At_le64, UInt32.toNat_toUInt64]
    · rw [u64At_skip64 _ _ 0, u64At_le64, UInt32.toNat_toUInt64]
    · rw [u64At_skip64 _ _ 8, u64At_skip64 _ _ 0, u64At_le64']; rfl
  · intro p hp
    rcases hp with rfl | rfl <;> decide

/-! ## C73 -/

namespace Spec

/-- The contract of `statx` for a path with the mode `mode`: the permissions (the low 12 bits) are valid if asked for
with `STATX_MODE` (bit 1), the file type (the high 4 bits) is if asked for with `STATX_TYPE` (bit 0). -/
def StatxContract {δ : Type} (k : Linux.StatxCall δ) (mode : CName → δ → UInt16) : Prop :=
  ∀ path flags mask d bytes d', k path flags mask d = (.ok bytes, d') →
    (mask &&& 2 ≠ 0 → u16At bytes.val 28 % 4096 = (mode path d).toNat % 4096) ∧
    (mask &&& 1 ≠ 0 → u16At bytes.val 28 / 4096 = (mode path d).toNat / 4096)

/-- A kernel that stores the file type even if not asked for it. -/
def AlwaysType {δ : Type} (k : Linux.StatxCall δ) (mode : CName → δ → UInt16) : Prop :=
  ∀ path flags mask d bytes d', k path flags mask d = (.ok bytes, d') →
    u16At bytes.val 28 / 4096 = (mode path d).toNat / 4096

end Spec

/-- The configuration with a root mode. -/
def MountConfig.withRoot (c : MountConfig) (root : UInt32) : MountConfig :=
  { c with opts := { c.opts with rootMode := some ⟨root⟩ } }

theorem u16At_lt (bs : Bytes) (i : Nat) : u16At bs i < 65536 := by
  unfold u16At u8At
  have h1 := (bs.getD i 0).toNat_lt
  have h2 := (bs.getD (i + 1) 0).toNat_lt
  omega

theorem statxMode_toNat (bs : Bytes) : (statxMode bs).toUInt32.toNat = u16At bs 28 := by
  unfold statxMode
  rw [UInt16.toNat_toUInt32, UInt16.toNat_ofNat_of_lt' (by exact u16At_lt bs 28)]

theorem linux_mount_root (sys : Sys δ) (target : CName) (c : MountConfig) (d d' : δ) (root : UInt16)
    (hc : c.opts.rootMode = none) (h : sys.statx target d = (.ok root, d')) :
    Linux.mount sys target c d = Linux.mount sys target (c.withRoot root.toUInt32) d' := by
  simp only [Linux.mount, Linux.fillRootMode, hc, Linux.getRootMode, h, MountConfig.withRoot, MountConfig.dev]

theorem libc_mount_root (sys : Sys δ) (target : CName) (c : MountConfig) (d d' : δ) (errno : Int32) (root : UInt16)
    (hc : c.opts.rootMode = none) (h : sys.statx target d = (.ok root, d')) :
    Libc.mount sys target c ⟨d, errno⟩ = Libc.mount sys target (c.withRoot root.toUInt32) ⟨d', errno⟩ := by
  have hr : Libc.getRootMode sys target ⟨d, errno⟩ = (.ok ⟨root.toUInt32⟩, ⟨d', errno⟩) := by
    simp only [Libc.getRootMode, Libc.cStatx, h]; rfl
  simp only [Libc.mount, Libc.fillRootMode, hc, hr, MountConfig.withRoot, MountConfig.dev]

/-- **C73**, as far as it holds: mounting without a configured root mode is mounting with a root mode that has the
permissions of the mount point, and is the mount point's mode altogether if the kernel stores the file type without
being asked for it.  What fails: the type is needed, but `STATX_TYPE` is not among what `get_root_mode` asks for; see
`C73_violated`. -/
theorem C73_partial (sys : Sys δ) (k : Linux.StatxCall δ) (mode : CName → δ → UInt16) (hk : StatxContract k mode)
    (target : CName) (c : MountConfig) (hc : c.opts.rootMode = none) (d d' : δ) (errno : Int32) bytes
    (h : k target 0 2 d = (.ok bytes, d')) :
    ∃ root : UInt32,
      Linux.mount (withStatx sys k) target c d = Linux.mount (withStatx sys k) target (c.withRoot root) d' ∧
      Libc.mount (withStatx sys k) target c ⟨d, errno⟩ =
        Libc.mount (withStatx sys k) target (c.withRoot root) ⟨d', errno⟩ ∧
      root.toNat % 4096 = (mode target d).toNat % 4096 ∧
      (AlwaysType k mode → root.toNat = (mode target d).toNat) := by
  have hs : (withStatx sys k).statx target d = (.ok (statxMode bytes.val), d') := by
    simp only [withStatx, h]
  refine ⟨(statxMode bytes.val).toUInt32, linux_mount_root _ _ _ _ _ _ hc hs, libc_mount_root _ _ _ _ _ _ _ hc hs, ?_, ?_⟩
  · rw [statxMode_toNat]
    exact (hk _ _ _ _ _ _ h).1 (by decide)
  · intro ht
    rw [statxMode_toNat]
    have h1 := (hk _ _ _ _ _ _ h).1 (by decide)
    have h2 := ht _ _ _ _ _ _ h
    omega

/-- A mount point that cannot be examined is not mounted on: the error of `statx` is returned, and nothing else is
done. -/
theorem C73_error (sys : Sys δ) (k : Linux.StatxCall δ) (target : CName) (c : MountConfig)
    (hc : c.opts.rootMode = none) (d d' : δ) (e : Errno) (h : k target 0 2 d = (.error e, d')) :
    Linux.mount (withStatx sys k) target c d = .ok (.error e, d') := by
  have hs : (withStatx sys k).statx target d = (.error e, d') := by
    simp only [withStatx, h]
  simp only [Linux.mount, Linux.fillRootMode, hc, Linux.getRootMode, hs]

/-- A `struct statx` with this mode and nothing else. -/
def statxOf (lo hi : UInt8) : { bytes : Bytes // bytes.length = 256 } :=
  ⟨List.replicate 28 0 ++ ([lo, hi] ++ List.replicate 226 0), by
    simp only [List.length_append, List.length_replicate, List.length_cons, List.length_nil]⟩

theorem u16At_statxOf (lo hi : UInt8) : u16At (statxOf lo hi).val 28 = lo.toNat + 256 * hi.toNat := rfl

/-- A kernel that stores what it has been asked for and no more, on a system where everything is a directory with the
permissions 755. -/
def exactStatx : Linux.StatxCall Nat := fun _ _ mask d =>
  (.ok (statxOf (if mask &&& 2 = 0 then 0 else 0xED)
    ((if mask &&& 2 = 0 then 0 else 0x01) ||| (if mask &&& 1 = 0 then 0 else 0x40))), d)

theorem exactStatx_contract : StatxContract exactStatx fun _ _ => 0o40755 := by
  intro path flags mask d bytes d' h
  simp only [exactStatx, Prod.mk.injEq, Except.ok.injEq] at h
  obtain ⟨rfl, rfl⟩ := h
  rw [u16At_statxOf]
  by_cases h2 : mask &&& 2 = 0 <;> by_cases h1 : mask &&& 1 = 0 <;> simp [h1, h2]

/-- **C73** fails: a kernel with `statx` as documented, and a directory as the mount point, but the mount is made
with a root mode that is not that of a directory: it has no file type. -/
theorem C73_violated : ∃ (sys : Sys Nat) (k : Linux.StatxCall Nat) (mode : UInt16) (text : Bytes) (m : Kernel.Mount),
    StatxContract k (fun _ _ => mode) ∧ mode &&& 0o170000 = 0o40000 ∧
    (match Linux.mount (record (withStatx sys k)) exampleTarget { opts := {} } (0, ⟨[], []⟩) with
      | .ok (.ok _, (_, ⟨[_, _, _, _, .mounted _ _ _ _ data], _⟩)) => data == text ++ [0]
      | _ => false) = true ∧
    Kernel.parse false text = some m ∧ m.rootmode = some 0o755 := by
  refine ⟨mountSys (.ok ()), exactStatx, 0o40755,
    ascii "fd=3,group_id=7,rootmode=755,user_id=7".toList, _, exactStatx_contract, by decide, ?_, rfl, rfl⟩
  decide +kernel

/-- Asked for the type as well, this kernel would have given the mode of a directory. -/
example : (match exactStatx exampleTarget 0 3 0 with
    | (.ok bytes, _) => statxMode bytes.val
    | _ => 0) = 0o40755 := by
  decide

/-- A kernel like Linux, which stores the mode with the type in any case. -/
def linuxStatx : Linux.StatxCall Nat := fun _ _ _ d => (.ok (statxOf 0xED 0x41), d)

example : StatxContract linuxStatx (fun _ _ => 0o40755) ∧ AlwaysType linuxStatx (fun _ _ => 0o40755) := by
  constructor <;>
  · intro path flags mask d bytes d' h
    simp only [linuxStatx, Prod.mk.injEq, Except.ok.injEq] at h
    obtain ⟨rfl, rfl⟩ := h
    rw [u16At_statxOf]
    simp

example : (match Linux.rootModeBytes 8 linuxStatx exampleTarget 0 with
    | .ok (.ok m, _) => m.bits
    | _ => 0) = 0o40755 := by
  decide +kernel

/-- Flags for opening the device, as `openat2` reads them. -/
example : (Linux.openHow 4 0xFF 0x80002 0).take 9 = [2, 0, 8, 0, 0, 0, 0, 0, 0] := by decide

end Fuse
