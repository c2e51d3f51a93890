import Verif.Sys

/-!
# Mounting (fuse-linux, fuse-libc on Linux and FreeBSD)
-/

namespace Fuse

/-- `c"/dev/fuse"`, fuse-linux/fuse-linux.rs:78, fuse-libc/fuse-libc.rs:77. -/
def DEV_FUSE : CName := ⟨ascii ['/', 'd', 'e', 'v', '/', 'f', 'u', 's', 'e'], by decide⟩

/-- `PAGE_SIZE`, fuse-linux/fuse-linux.rs:75, fuse-libc/os/linux.rs:39. -/
abbrev PAGE_SIZE : Nat := 4096

/-- `MountOptions` of fuse-linux/fuse-linux.rs:81-85 and of fuse-libc/os/linux.rs:42-46; the default values are
those of `From` (fuse-linux/fuse-linux.rs:107-115, fuse-libc/os/linux.rs:68-76). -/
structure MountConfig where
  opts : MountOptions
  devFuse : Option CName := none
  flags : UInt32 := 0x2 ||| 0x4

/-- `MountOptions::dev_fuse`, fuse-linux/fuse-linux.rs:89-91, fuse-libc/os/linux.rs:50-52. -/
def MountConfig.dev (c : MountConfig) : CName := c.devFuse.getD DEV_FUSE

namespace Linux

variable {δ : Type}

/-- `get_root_mode`, fuse-linux/fuse-linux.rs:156-161. -/
def getRootMode (sys : Sys δ) (target : CName) (d : δ) : Except Errno FileMode × δ :=
  let r := sys.statx target d
  match r.1 with
  | .ok mode => (.ok ⟨mode.toUInt32⟩, r.2)
  | .error e => (.error e, r.2)

/-- fuse-linux/fuse-linux.rs:125-127. -/
def fillRootMode (sys : Sys δ) (target : CName) (opts : MountOptions) (d : δ) : Except Errno MountOptions × δ :=
  match opts.rootMode with
  | some _ => (.ok opts, d)
  | none =>
    let r := getRootMode sys target d
    match r.1 with
    | .ok mode => (.ok { opts with rootMode := some mode }, r.2)
    | .error e => (.error e, r.2)

/-- fuse-linux/fuse-linux.rs:128-130. -/
def fillUserId (sys : Sys δ) (opts : MountOptions) (d : δ) : MountOptions × δ :=
  match opts.userId with
  | some _ => (opts, d)
  | none => ({ opts with userId := some (sys.getuid d).1 }, (sys.getuid d).2)

/-- fuse-linux/fuse-linux.rs:131-133. -/
def fillGroupId (sys : Sys δ) (opts : MountOptions) (d : δ) : MountOptions × δ :=
  match opts.groupId with
  | some _ => (opts, d)
  | none => ({ opts with groupId := some (sys.getgid d).1 }, (sys.getgid d).2)

/-- fuse-linux/fuse-linux.rs:136-153, with the opened socket, which is dropped on errors. -/
def mountWith (sys : Sys δ) (target : CName) (flags : UInt32) (opts : MountOptions) (socket : DeviceSocket) (d : δ) :
    Except Fault (Except Errno DeviceSocket × δ) := do
  let opts := { opts with fuseDeviceFd := some (fuseDeviceFd socket) }
  match ← mountData opts (List.replicate PAGE_SIZE 0) with
  | none => return (.error EINVAL, drop sys socket d)
  | some data =>
    let r := sys.mount opts.mountSource.cstr target opts.mountType.cstr flags data d
    match r.1 with
    | .ok () => return (.ok socket, r.2)
    | .error e => return (.error e, drop sys socket r.2)

/-- `mount`, fuse-linux/fuse-linux.rs:117-154. -/
def mount (sys : Sys δ) (target : CName) (c : MountConfig) (d : δ) :
    Except Fault (Except Errno DeviceSocket × δ) :=
  let r := fillRootMode sys target c.opts d
  match r.1 with
  | .error e => .ok (.error e, r.2)
  | .ok opts =>
    let (opts, d) := fillUserId sys opts r.2
    let (opts, d) := fillGroupId sys opts d
    let r := fuseOpen sys c.dev d
    match r.1 with
    | .error e => .ok (.error e, r.2)
    | .ok socket => mountWith sys target c.flags opts socket r.2

end Linux

namespace Libc

variable {δ : Type}

/-- What a C function that returns zero for success returns and leaves in `errno`. -/
def ret0 {δ : Type} (r : Except Errno Unit × δ) (t : Thread δ) : Int32 × Thread δ :=
  match r.1 with
  | .ok () => (0, ⟨r.2, t.errno⟩)
  | .error e => (-1, ⟨r.2, cInt e⟩)

/-- `libc::statx`: the return value and the mode it stores; the buffer is zero before
(fuse-libc/os/linux.rs:121). -/
def cStatx (sys : Sys δ) (target : CName) (t : Thread δ) : Int32 × UInt16 × Thread δ :=
  let r := sys.statx target t.sys
  match r.1 with
  | .ok mode => (0, mode, ⟨r.2, t.errno⟩)
  | .error e => (-1, 0, ⟨r.2, cInt e⟩)

/-- `get_root_mode`, fuse-libc/os/linux.rs:120-135. -/
def getRootMode (sys : Sys δ) (target : CName) (t : Thread δ) : Except LibcError FileMode × Thread δ :=
  let (rc, mode, t) := cStatx sys target t
  if rc ≠ 0 then (.error ⟨t.errno⟩, t)
  else (.ok ⟨mode.toUInt32⟩, t)

/-- fuse-libc/os/linux.rs:86-88. -/
def fillRootMode (sys : Sys δ) (target : CName) (opts : MountOptions) (t : Thread δ) :
    Except LibcError MountOptions × Thread δ :=
  match opts.rootMode with
  | some _ => (.ok opts, t)
  | none =>
    let r := getRootMode sys target t
    match r.1 with
    | .ok mode => (.ok { opts with rootMode := some mode }, r.2)
    | .error e => (.error e, r.2)

/-- fuse-libc/os/linux.rs:89-91. -/
def fillUserId (sys : Sys δ) (opts : MountOptions) (t : Thread δ) : MountOptions × Thread δ :=
  match opts.userId with
  | some _ => (opts, t)
  | none => ({ opts with userId := some (sys.getuid t.sys).1 }, { t with sys := (sys.getuid t.sys).2 })

/-- fuse-libc/os/linux.rs:92-94. -/
def fillGroupId (sys : Sys δ) (opts : MountOptions) (t : Thread δ) : MountOptions × Thread δ :=
  match opts.groupId with
  | some _ => (opts, t)
  | none => ({ opts with groupId := some (sys.getgid t.sys).1 }, { t with sys := (sys.getgid t.sys).2 })

/-- fuse-libc/os/linux.rs:97-117, with the opened socket, which is dropped on errors, after the error has been
read from `errno`. -/
def mountWith (sys : Sys δ) (target : CName) (flags : UInt32) (opts : MountOptions) (socket : DeviceSocket)
    (t : Thread δ) : Except Fault (Except LibcError DeviceSocket × Thread δ) := do
  let opts := { opts with fuseDeviceFd := some (fuseDeviceFd socket) }
  match ← mountData opts (List.replicate PAGE_SIZE 0) with
  | none => return (.error ⟨cInt EINVAL⟩, drop sys socket t)
  | some data =>
    let (rc, t) := ret0 (sys.mount opts.mountSource.cstr target opts.mountType.cstr flags data t.sys) t
    if rc ≠ 0 then return (.error ⟨t.errno⟩, drop sys socket t)
    else return (.ok socket, t)

/-- `mount`, fuse-libc/os/linux.rs:78-118. -/
def mount (sys : Sys δ) (target : CName) (c : MountConfig) (t : Thread δ) :
    Except Fault (Except LibcError DeviceSocket × Thread δ) :=
  let r := fillRootMode sys target c.opts t
  match r.1 with
  | .error e => .ok (.error e, r.2)
  | .ok opts =>
    let (opts, t) := fillUserId sys opts r.2
    let (opts, t) := fillGroupId sys opts t
    let r := fuseOpen sys c.dev t
    match r.1 with
    | .error e => .ok (.error e, r.2)
    | .ok socket => mountWith sys target c.flags opts socket r.2

/-! ### FreeBSD -/

/-- `FuseSubtype` of FreeBSD, fuse/os/freebsd.rs:163-165. -/
structure BsdSubtype where
  cstr : CName

/-- `FuseSubtype::new`, fuse/os/freebsd.rs:174-179. -/
def BsdSubtype.new (s : CName) : Option BsdSubtype :=
  if s.bytes.isEmpty then none else some ⟨s⟩

/-- `MountOptions` of fuse/os/freebsd.rs:210-213. -/
structure BsdMountOptions where
  defaultPermissions : Bool
  subtype : Option BsdSubtype

namespace BsdMountOptions

/-- `MountOptions::new`, fuse/os/freebsd.rs:218-223. -/
def new : BsdMountOptions := ⟨false, none⟩

/-- `MountOptions::set_default_permissions`, fuse/os/freebsd.rs:235-237. -/
def setDefaultPermissions (o : BsdMountOptions) (b : Bool) : BsdMountOptions := { o with defaultPermissions := b }

/-- `MountOptions::set_subtype`, fuse/os/freebsd.rs:246-248. -/
def setSubtype (o : BsdMountOptions) (s : Option BsdSubtype) : BsdMountOptions := { o with subtype := s }

end BsdMountOptions

/-- `MountOptions` of fuse-libc/os/freebsd.rs:35-39. -/
structure NmountConfig where
  opts : BsdMountOptions
  flags : Int32

namespace NmountConfig

/-- `From<MountOptions>`, fuse-libc/os/freebsd.rs:52-59. -/
def ofOptions (o : BsdMountOptions) : NmountConfig := ⟨o, 0x08⟩

/-- `MountOptions::set_flags`, fuse-libc/os/freebsd.rs:47-49. -/
def setFlags (c : NmountConfig) (flags : Int32) : NmountConfig := { c with flags := flags }

end NmountConfig

/-- `fmt_raw_fd`, fuse-libc/os/freebsd.rs:126-132: `snprintf` with `%u` stores the digits and a NUL, as far as they
fit. -/
def fmtRawFd (buf : Bytes) (fd : UInt32) : Bytes :=
  overlay buf ((showNat 10 fd.toNat).take (buf.length - 1) ++ [0])

/-- `iovecs[i] = name; iovecs[i + 1] = value`, with the bounds checks of the array. -/
def setPair (iovecs : List Bytes) (i : Nat) (name value : Bytes) : Except Fault (List Bytes) :=
  if i + 1 < iovecs.length then .ok ((iovecs.set i name).set (i + 1) value) else .error .panic

/-- The vectors passed to `nmount`, fuse-libc/os/freebsd.rs:69-110. -/
def nmountVectors (target : CName) (c : NmountConfig) (fd : UInt32) : Except Fault (List Bytes) := do
  let fdBuf := fmtRawFd (List.replicate 32 0) fd
  let iovecs : List Bytes := [
    ascii ['f', 's', 't', 'y', 'p', 'e', '\u0000'], ascii ['f', 'u', 's', 'e', 'f', 's', '\u0000'],
    ascii ['f', 'r', 'o', 'm', '\u0000'], ascii ['/', 'd', 'e', 'v', '/', 'f', 'u', 's', 'e', '\u0000'],
    ascii ['f', 's', 'p', 'a', 't', 'h', '\u0000'], target.bytes ++ [0],
    ascii ['f', 'd', '\u0000'], fdBuf,
    [], [], [], []]
  let (iovecs, len) ←
    if c.opts.defaultPermissions then do
      let v ← setPair iovecs 8 (ascii ['d', 'e', 'f', 'a', 'u', 'l', 't', '_', 'p', 'e', 'r', 'm', 'i', 's', 's',
        'i', 'o', 'n', 's', '\u0000']) [0]
      pure (v, 10)
    else pure (iovecs, 8)
  let (iovecs, len) ←
    match c.opts.subtype with
    | some subtype => do
      let v ← setPair iovecs len (ascii ['s', 'u', 'b', 't', 'y', 'p', 'e', '=', '\u0000']) (subtype.cstr.bytes ++ [0])
      pure (v, len + 2)
    | none => pure (iovecs, len)
  if len ≤ iovecs.length then return iovecs.take len else throw .oob

/-- `mount`, fuse-libc/os/freebsd.rs:61-124. -/
def nmount (sys : Sys δ) (target : CName) (c : NmountConfig) (t : Thread δ) :
    Except Fault (Except LibcError DeviceSocket × Thread δ) :=
  let r := fuseOpen sys DEV_FUSE t
  match r.1 with
  | .error e => .ok (.error e, r.2)
  | .ok socket => do
    let iovecs ← nmountVectors target c (fuseDeviceFd socket)
    let (rc, t) := ret0 (sys.nmount iovecs c.flags r.2.sys) r.2
    if rc = -1 then return (.error ⟨t.errno⟩, drop sys socket t)
    else return (.ok socket, t)

end Libc

end Fuse
