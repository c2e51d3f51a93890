import Verif.Debug

/-!
# Constants that depend on the platform (fuse/os/linux.rs, fuse/os/freebsd.rs, fuse/lock.rs)

The rest of the model is the same on every platform except where it says otherwise; here are the constants the library
selects by `target_os` and `target_arch`.
-/

namespace Fuse

/-- Values of `target_arch` for which Rust has Linux targets, and the two others the library names (`alpha` and
`parisc`). -/
inductive Arch
  | aarch64 | alpha | arm | csky | hexagon | loongarch64 | m68k | mips | mips32r6 | mips64 | mips64r6 | parisc
  | powerpc | powerpc64 | riscv32 | riscv64 | s390x | sparc | sparc64 | x86 | x86_64
deriving DecidableEq, Repr

/-- `target_os`, with `target_arch` where it matters. -/
inductive Platform
  | freebsd
  | linux (arch : Arch)
deriving DecidableEq, Repr

/-- `F_RDLCK`, fuse/os/linux.rs:44-63 and fuse/os/freebsd.rs:28. -/
def F_RDLCK : Platform → UInt32
  | .freebsd => 1
  | .linux arch =>
    if arch = .alpha then 1
    else if arch = .sparc ∨ arch = .parisc then 1
    else 0

/-- `F_WRLCK`, fuse/os/linux.rs:65-84 and fuse/os/freebsd.rs:31. -/
def F_WRLCK : Platform → UInt32
  | .freebsd => 3
  | .linux arch =>
    if arch = .alpha then 2
    else if arch = .sparc ∨ arch = .parisc then 2
    else 1

/-- `F_UNLCK`, fuse/os/linux.rs:86-105 and fuse/os/freebsd.rs:34. -/
def F_UNLCK : Platform → UInt32
  | .freebsd => 2
  | .linux arch =>
    if arch = .alpha then 8
    else if arch = .sparc ∨ arch = .parisc then 3
    else 2

/-- `Debug for LockMode`, fuse/lock.rs:211-223. -/
def LockMode.debug (p : Platform) (mode : UInt32) : Bytes :=
  if mode = F_RDLCK p then text "F_RDLCK"
  else if mode = F_WRLCK p then text "F_WRLCK"
  else if mode = F_UNLCK p then text "F_UNLCK"
  else text "LockMode(" ++ showNat 10 mode.toNat ++ text ")"

/-- `FUSE_DEV_IOC_CLONE`, fuse/os/linux.rs:108-140. -/
def FUSE_DEV_IOC_CLONE (arch : Arch) : UInt32 :=
  if arch ∈ [Arch.alpha, .mips, .mips64, .parisc, .powerpc, .powerpc64, .sparc, .sparc64] then 0x4004E500
  else 0x8004E500

end Fuse
