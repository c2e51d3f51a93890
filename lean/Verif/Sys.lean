import Verif.Handshake
import Verif.Mount

/-!
# Device sockets and mounting (fuse-libc, fuse-linux)

The system is a state `δ` with one operation per system call.  `fuse-linux` makes system calls directly;
`fuse-libc` calls C functions, which return `-1` and leave the error in the thread's `errno`.  The error
numbers used here are the same on Linux and FreeBSD.  Both crates have their own copy of the socket code; both
copies are modelled.

Not modelled: the encoding of system calls (`syscall!`), the C library beyond this convention, and other threads
(each system call is one step, `errno` is thread-local).
-/

namespace Fuse

/-- The number of an error reported by the system: `linux_errno::Error`. -/
abbrev Errno := UInt16

abbrev ENOENT : Errno := 2
abbrev EINTR : Errno := 4
abbrev EIO : Errno := 5
abbrev ENODEV : Errno := 19
abbrev EINVAL : Errno := 22
abbrev ENOSYS : Errno := 38

/-- System calls on a system with state `δ`.  `read` also yields the bytes it stored at the start of the
caller's buffer, never more than fit; a successful `read` counts at most the size of the buffer.  Descriptors are
not negative. -/
structure Sys (δ : Type) where
  read : (fd : Int32) → (len : Nat) → δ → (Except Errno Nat × Bytes) × δ
  read_fits : ∀ fd len d, (read fd len d).1.2.length ≤ len
  read_count : ∀ fd len d n, (read fd len d).1.1 = .ok n → n ≤ len
  writev : (fd : Int32) → (iov : List Bytes) → δ → Except Errno Nat × δ
  openat2 : (path : CName) → (flags mode : UInt64) → δ → Except Errno Int32 × δ
  openat2_fd : ∀ path flags mode d fd, (openat2 path flags mode d).1 = .ok fd → 0 ≤ fd
  openat : (path : CName) → (flags mode : UInt32) → δ → Except Errno Int32 × δ
  openat_fd : ∀ path flags mode d fd, (openat path flags mode d).1 = .ok fd → 0 ≤ fd
  close : (fd : Int32) → δ → Except Errno Unit × δ
  /-- The file mode (`stx_mode`) of a path. -/
  statx : (path : CName) → δ → Except Errno UInt16 × δ
  getuid : δ → UInt32 × δ
  getgid : δ → UInt32 × δ
  mount : (source target fstype : CName) → (flags : UInt32) → (data : Bytes) → δ → Except Errno Unit × δ
  nmount : (iov : List Bytes) → (flags : Int32) → δ → Except Errno Unit × δ

/-- The buffer after `bytes` have been stored at its start. -/
def overlay (buf bytes : Bytes) : Bytes := bytes ++ buf.drop bytes.length

/-- `Socket` of fuse-libc/io/socket.rs:45-48 and of fuse-linux/socket.rs:27-30. -/
structure DeviceSocket where
  fd : Int32
  enodevIsEof : Bool
deriving DecidableEq

/-! ## fuse-linux -/

namespace Linux

variable {δ : Type}

/-- `Socket::check_recv_err`, fuse-linux/socket.rs:48-66. -/
def checkRecvErr (s : DeviceSocket) (err : Errno) : Except (RecvError Errno) Unit :=
  if err = ENOENT then .ok ()
  else if err = EINTR then .ok ()
  else if err = ENODEV ∧ s.enodevIsEof = true then .error (.connectionClosed err)
  else .error (.other err)

/-- One iteration of the loop of `Socket::recv`, fuse-linux/socket.rs:39-46. -/
def recvStep (sys : Sys δ) (s : DeviceSocket) (st : Bytes × δ) :
    ((Except (RecvError Errno) Nat × Bytes) × δ) ⊕ (Bytes × δ) :=
  let r := sys.read s.fd st.1.length st.2
  let buf := overlay st.1 r.1.2
  match r.1.1 with
  | .ok readSize => .inl ((.ok readSize, buf), r.2)
  | .error err =>
    match checkRecvErr s err with
    | .ok () => .inr (buf, r.2)
    | .error e => .inl ((.error e, buf), r.2)

/-- `Socket::check_send_err`, fuse-linux/socket.rs:68-75. -/
def checkSendErr (err : Errno) : Except (SendError Errno) Unit :=
  if err = EINTR then .ok ()
  else if err = ENOENT then .error (.notFound err)
  else .error (.other err)

/-- One iteration of the loop of `Socket::send`, fuse-linux/socket.rs:87-97. -/
def sendStep (sys : Sys δ) (s : DeviceSocket) (len : Nat) (iovecs : List Bytes) (d : δ) :
    (Except (SendError Errno) Unit × δ) ⊕ δ :=
  let r := sys.writev s.fd iovecs d
  match r.1 with
  | .ok writeSize =>
    if writeSize = len then .inl (.ok (), r.2)
    else .inl (.error (.other EIO), r.2)
  | .error err =>
    match checkSendErr err with
    | .ok () => .inr r.2
    | .error e => .inl (.error e, r.2)

/-- `iovecs`, fuse-linux/socket.rs:80-86; an `IoVec` stands for the bytes it points to. -/
def iovecs (buf : SendBuf) : Except Fault (List Bytes) := do
  let (v, _) ← buf.mapChunksIntoUninit (List.replicate MAX_CHUNKS_LEN none) (fun c u => (c, u)) ()
  return v

/-- `Socket::recv`, fuse-linux/socket.rs:39-46: the call with this buffer in this state returns `out`. -/
def RecvReturns (sys : Sys δ) (s : DeviceSocket) (buf : Bytes) (d : δ)
    (out : (Except (RecvError Errno) Nat × Bytes) × δ) : Prop :=
  LoopReturns (recvStep sys s) (buf, d) out

/-- `Socket::recv` never returns. -/
def RecvForever (sys : Sys δ) (s : DeviceSocket) (buf : Bytes) (d : δ) : Prop :=
  RunsForever (recvStep sys s) (buf, d)

/-- `Socket::send`, fuse-linux/socket.rs:77-98. -/
def SendReturns (sys : Sys δ) (s : DeviceSocket) (buf : SendBuf) (d : δ)
    (out : Except (SendError Errno) Unit × δ) : Prop :=
  ∃ v, iovecs buf = .ok v ∧ LoopReturns (sendStep sys s buf.len v) d out

/-- `Socket::send` never returns. -/
def SendForever (sys : Sys δ) (s : DeviceSocket) (buf : SendBuf) (d : δ) : Prop :=
  ∃ v, iovecs buf = .ok v ∧ RunsForever (sendStep sys s buf.len v) d

/-- `O_RDWR | O_CLOEXEC`, fuse-linux/sys.rs:31-38 (not alpha, parisc or sparc). -/
def openFlags : UInt32 := ((1 : UInt32) <<< 1) ||| ((1 : UInt32) <<< 19)

/-- `sys::open`, fuse-linux/sys.rs:47-76. -/
def sysOpen (sys : Sys δ) (path : CName) (flags mode : UInt32) (d : δ) : Except Errno Int32 × δ :=
  let r := sys.openat2 path flags.toUInt64 mode.toUInt64 d
  match r.1 with
  | .ok fd => (.ok fd, r.2)
  | .error err => if err = ENOSYS then sys.openat path flags mode r.2 else (.error err, r.2)

/-- `FuseServerSocket::open`, fuse-linux/socket.rs:154-163. -/
def fuseOpen (sys : Sys δ) (path : CName) (d : δ) : Except Errno DeviceSocket × δ :=
  let r := sysOpen sys path openFlags 0 d
  match r.1 with
  | .ok fd => (.ok { fd := fd, enodevIsEof := true }, r.2)
  | .error err => (.error err, r.2)

/-- `CuseServerSocket::open`, fuse-linux/socket.rs:110-119. -/
def cuseOpen (sys : Sys δ) (path : CName) (d : δ) : Except Errno DeviceSocket × δ :=
  let r := sysOpen sys path openFlags 0 d
  match r.1 with
  | .ok fd => (.ok { fd := fd, enodevIsEof := false }, r.2)
  | .error err => (.error err, r.2)

/-- `FuseServerSocket::from_raw_fd`, fuse-linux/socket.rs:171-177. -/
def fuseFromRawFd (fd : Int32) : DeviceSocket := { fd := fd, enodevIsEof := true }

/-- `CuseServerSocket::from_raw_fd`, fuse-linux/socket.rs:122-128. -/
def cuseFromRawFd (fd : Int32) : DeviceSocket := { fd := fd, enodevIsEof := true }

/-- `FuseServerSocket::fuse_device_fd`, fuse-linux/socket.rs:166-168. -/
def fuseDeviceFd (s : DeviceSocket) : UInt32 := s.fd.toUInt32

/-- `Socket::drop`, fuse-linux/socket.rs:33-35. -/
def drop (sys : Sys δ) (s : DeviceSocket) (d : δ) : δ := (sys.close s.fd d).2

end Linux

/-! ## fuse-libc -/

namespace Libc

variable {δ : Type}

/-- `LibcError`, fuse-libc/io/socket.rs:26-28. -/
structure LibcError where
  code : Int32
deriving DecidableEq

/-- The system as one thread sees it through the C library. -/
structure Thread (δ : Type) where
  sys : δ
  errno : Int32

/-- An error number as a C `int`. -/
def cInt (e : Errno) : Int32 := Int32.ofNat e.toNat

/-- What a C function returns and leaves in `errno` for the outcome of a system call. -/
def ret {δ : Type} (r : Except Errno Nat × δ) (t : Thread δ) : Int × Thread δ :=
  match r.1 with
  | .ok n => (n, ⟨r.2, t.errno⟩)
  | .error e => (-1, ⟨r.2, cInt e⟩)

/-- `Socket::check_recv_err`, fuse-libc/io/socket.rs:71-90. -/
def checkRecvErr (s : DeviceSocket) (t : Thread δ) : Except (RecvError LibcError) Unit :=
  if t.errno = cInt ENOENT then .ok ()
  else if t.errno = cInt EINTR then .ok ()
  else if t.errno = cInt ENODEV ∧ s.enodevIsEof = true then .error (.connectionClosed ⟨cInt ENODEV⟩)
  else .error (.other ⟨t.errno⟩)

/-- One iteration of the loop of `Socket::recv`, fuse-libc/io/socket.rs:62-68. -/
def recvStep (sys : Sys δ) (s : DeviceSocket) (st : Bytes × Thread δ) :
    ((Except (RecvError LibcError) Nat × Bytes) × Thread δ) ⊕ (Bytes × Thread δ) :=
  let r := sys.read s.fd st.1.length st.2.sys
  let buf := overlay st.1 r.1.2
  let (rc, t) := ret (r.1.1, r.2) st.2
  if rc ≥ 0 then .inl ((.ok rc.toNat, buf), t)
  else
    match checkRecvErr s t with
    | .ok () => .inr (buf, t)
    | .error e => .inl ((.error e, buf), t)

/-- `Socket::check_send_err`, fuse-libc/io/socket.rs:92-103. -/
def checkSendErr (t : Thread δ) : Except (SendError LibcError) Unit :=
  if t.errno = cInt EINTR then .ok ()
  else if t.errno = cInt ENOENT then .error (.notFound ⟨t.errno⟩)
  else .error (.other ⟨t.errno⟩)

/-- `usize as isize` on a 64-bit platform. -/
def asIsize (n : Nat) : Int := Int.bmod n (2 ^ 64)

/-- One iteration of the loop of `Socket::send`, fuse-libc/io/socket.rs:116-130. -/
def sendStep (sys : Sys δ) (s : DeviceSocket) (len : Nat) (iovecs : List Bytes) (t : Thread δ) :
    (Except (SendError LibcError) Unit × Thread δ) ⊕ Thread δ :=
  let (writeRc, t) := ret (sys.writev s.fd iovecs t.sys) t
  if writeRc = -1 then
    match checkSendErr t with
    | .ok () => .inr t
    | .error e => .inl (.error e, t)
  else if writeRc = asIsize len then .inl (.ok (), t)
  else .inl (.error (.other ⟨cInt EIO⟩), t)

/-- `iovecs`, fuse-libc/io/socket.rs:108-114; an `IoVec` stands for the bytes it points to. -/
def iovecs (buf : SendBuf) : Except Fault (List Bytes) := do
  let (v, _) ← buf.mapChunksIntoUninit (List.replicate MAX_CHUNKS_LEN none) (fun c u => (c, u)) ()
  return v

/-- `Socket::recv`, fuse-libc/io/socket.rs:59-69: the call with this buffer in this state returns `out`. -/
def RecvReturns (sys : Sys δ) (s : DeviceSocket) (buf : Bytes) (t : Thread δ)
    (out : (Except (RecvError LibcError) Nat × Bytes) × Thread δ) : Prop :=
  LoopReturns (recvStep sys s) (buf, t) out

/-- `Socket::recv` never returns. -/
def RecvForever (sys : Sys δ) (s : DeviceSocket) (buf : Bytes) (t : Thread δ) : Prop :=
  RunsForever (recvStep sys s) (buf, t)

/-- `Socket::send`, fuse-libc/io/socket.rs:105-131. -/
def SendReturns (sys : Sys δ) (s : DeviceSocket) (buf : SendBuf) (t : Thread δ)
    (out : Except (SendError LibcError) Unit × Thread δ) : Prop :=
  ∃ v, iovecs buf = .ok v ∧ LoopReturns (sendStep sys s buf.len v) t out

/-- `Socket::send` never returns. -/
def SendForever (sys : Sys δ) (s : DeviceSocket) (buf : SendBuf) (t : Thread δ) : Prop :=
  ∃ v, iovecs buf = .ok v ∧ RunsForever (sendStep sys s buf.len v) t

/-- `O_RDWR | O_CLOEXEC` as on Linux. -/
def openFlags : UInt32 := 2 ||| 0o2000000

/-- `libc::open`: `openat` relative to the working directory; `-1` for an error. -/
def cOpen (sys : Sys δ) (path : CName) (flags : UInt32) (t : Thread δ) : Int32 × Thread δ :=
  let r := sys.openat path flags 0 t.sys
  match r.1 with
  | .ok fd => (fd, ⟨r.2, t.errno⟩)
  | .error e => (-1, ⟨r.2, cInt e⟩)

/-- `FuseServerSocket::open`, fuse-libc/io/socket.rs:195-208. -/
def fuseOpen (sys : Sys δ) (path : CName) (t : Thread δ) : Except LibcError DeviceSocket × Thread δ :=
  let (openRc, t) := cOpen sys path openFlags t
  if openRc = -1 then (.error ⟨t.errno⟩, t)
  else (.ok { fd := openRc, enodevIsEof := true }, t)

/-- `CuseServerSocket::open`, fuse-libc/io/socket.rs:145-158. -/
def cuseOpen (sys : Sys δ) (path : CName) (t : Thread δ) : Except LibcError DeviceSocket × Thread δ :=
  let (openRc, t) := cOpen sys path openFlags t
  if openRc = -1 then (.error ⟨t.errno⟩, t)
  else (.ok { fd := openRc, enodevIsEof := false }, t)

/-- `FuseServerSocket::from_raw_fd`, fuse-libc/io/socket.rs:216-222. -/
def fuseFromRawFd (fd : Int32) : DeviceSocket := { fd := fd, enodevIsEof := true }

/-- `CuseServerSocket::from_raw_fd`, fuse-libc/io/socket.rs:161-167. -/
def cuseFromRawFd (fd : Int32) : DeviceSocket := { fd := fd, enodevIsEof := true }

/-- `FuseServerSocket::fuse_device_fd`, fuse-libc/io/socket.rs:211-213. -/
def fuseDeviceFd (s : DeviceSocket) : UInt32 := s.fd.toUInt32

/-- `Socket::drop`, fuse-libc/io/socket.rs:51-55. -/
def drop (sys : Sys δ) (s : DeviceSocket) (t : Thread δ) : Thread δ :=
  match sys.close s.fd t.sys with
  | (.ok (), d) => ⟨d, t.errno⟩
  | (.error e, d) => ⟨d, cInt e⟩

end Libc

end Fuse
