import Verif.Server

/-!
# IOCTL input, retry lists and responses; operating system errors
-/

namespace Fuse

/-- `IoctlInputError`, fuse/operations/ioctl.rs:243-247. -/
inductive IoctlInputError
  | unexpectedEof
deriving DecidableEq, Repr

/-- `IoctlInputReader::read`, fuse/operations/ioctl.rs:250-262: result and remaining input.
(`split_at` cannot panic: `len < bytes.len()`.) -/
def ioctlRead (bytes : Bytes) (len : Nat) : Except IoctlInputError Bytes × Bytes :=
  if len = bytes.length then (.ok bytes, [])
  else if len > bytes.length then (.error .unexpectedEof, bytes)
  else (.ok (bytes.take len), bytes.drop len)

/-- `IoctlInputReader::read_array`, fuse/operations/ioctl.rs:264-269: the cast to `&[u8; N]` reads `N`
bytes at the start of the slice returned by `read`, which is outside the slice if that is shorter. -/
def ioctlReadArray (n : Nat) (bytes : Bytes) :
    Except Fault (Except IoctlInputError Bytes × Bytes) :=
  match ioctlRead bytes n with
  | (.error e, rest) => .ok (.error e, rest)
  | (.ok out, rest) => if n ≤ out.length then .ok (.ok (out.take n), rest) else .error .oob

/-- `IoctlRetryError`, fuse/operations/ioctl.rs:428-432. -/
inductive IoctlRetryError
  | tooManySlices
deriving DecidableEq, Repr

/-- `IoctlRetry`, fuse/operations/ioctl.rs:434-438. -/
structure IoctlRetry where
  input : List IoctlSlice
  output : List IoctlSlice
deriving DecidableEq, Repr

/-- `IoctlRetry::new`, fuse/operations/ioctl.rs:441-461. -/
def IoctlRetry.new (input output : List IoctlSlice) : Except IoctlRetryError IoctlRetry :=
  if input.length > FUSE_IOCTL_MAX_IOV then .error .tooManySlices
  else if output.length > FUSE_IOCTL_MAX_IOV then .error .tooManySlices
  else if input.length + output.length > FUSE_IOCTL_MAX_IOV then .error .tooManySlices
  else .ok ⟨input, output⟩

/-- `IoctlRetryBuf`, fuse/operations/ioctl.rs:474-479. -/
structure IoctlRetryBuf where
  input : List IoctlSlice
  output : List IoctlSlice
  inputLen : Nat
  outputLen : Nat
deriving DecidableEq, Repr

namespace IoctlRetryBuf

/-- `IoctlRetryBuf::new`, fuse/operations/ioctl.rs:483-491. -/
def new : IoctlRetryBuf :=
  let zero : IoctlSlice := ⟨0, 0⟩
  ⟨List.replicate FUSE_IOCTL_MAX_IOV zero, List.replicate FUSE_IOCTL_MAX_IOV zero, 0, 0⟩

/-- `IoctlRetryBuf::input_slices`, fuse/operations/ioctl.rs:494-496. -/
def inputSlices (b : IoctlRetryBuf) : Except Fault (List IoctlSlice) :=
  if b.inputLen ≤ b.input.length then .ok (b.input.take b.inputLen) else .error .panic

/-- `IoctlRetryBuf::output_slices`, fuse/operations/ioctl.rs:499-501. -/
def outputSlices (b : IoctlRetryBuf) : Except Fault (List IoctlSlice) :=
  if b.outputLen ≤ b.output.length then .ok (b.output.take b.outputLen) else .error .panic

/-- `IoctlRetryBuf::borrow`, fuse/operations/ioctl.rs:504-509. -/
def borrow (b : IoctlRetryBuf) : Except Fault IoctlRetry := do
  let i ← b.inputSlices
  let o ← b.outputSlices
  return ⟨i, o⟩

/-- `IoctlRetryBuf::check_add`, fuse/operations/ioctl.rs:511-518. -/
def checkAdd (b : IoctlRetryBuf) : Except IoctlRetryError Unit :=
  if b.inputLen + b.outputLen + 1 > FUSE_IOCTL_MAX_IOV then .error .tooManySlices else .ok ()

/-- `IoctlRetryBuf::add_input_slice`, fuse/operations/ioctl.rs:531-539. -/
def addInputSlice (b : IoctlRetryBuf) (slice : IoctlSlice) :
    Except Fault (Except IoctlRetryError Unit × IoctlRetryBuf) :=
  match b.checkAdd with
  | .error e => .ok (.error e, b)
  | .ok () =>
    if b.inputLen < b.input.length then
      .ok (.ok (), { b with input := b.input.set b.inputLen slice, inputLen := b.inputLen + 1 })
    else .error .panic

/-- `IoctlRetryBuf::add_output_slice`, fuse/operations/ioctl.rs:552-560. -/
def addOutputSlice (b : IoctlRetryBuf) (slice : IoctlSlice) :
    Except Fault (Except IoctlRetryError Unit × IoctlRetryBuf) :=
  match b.checkAdd with
  | .error e => .ok (.error e, b)
  | .ok () =>
    if b.outputLen < b.output.length then
      .ok (.ok (), { b with output := b.output.set b.outputLen slice, outputLen := b.outputLen + 1 })
    else .error .panic

/-- `IoctlRetryBuf::add_input_ptr`, fuse/operations/ioctl.rs:520-529, for a target type of `size`
bytes. -/
def addInputPtr (b : IoctlRetryBuf) (addr size : UInt64) :
    Except Fault (Except IoctlRetryError Unit × IoctlRetryBuf) :=
  match b.checkAdd with
  | .error e => .ok (.error e, b)
  | .ok () =>
    let slice : IoctlSlice := ⟨addr, size⟩
    if b.inputLen < b.input.length then
      .ok (.ok (), { b with input := b.input.set b.inputLen slice, inputLen := b.inputLen + 1 })
    else .error .panic

/-- `IoctlRetryBuf::add_output_ptr`, fuse/operations/ioctl.rs:541-550. -/
def addOutputPtr (b : IoctlRetryBuf) (addr size : UInt64) :
    Except Fault (Except IoctlRetryError Unit × IoctlRetryBuf) :=
  match b.checkAdd with
  | .error e => .ok (.error e, b)
  | .ok () =>
    let slice : IoctlSlice := ⟨addr, size⟩
    if b.outputLen < b.output.length then
      .ok (.ok (), { b with output := b.output.set b.outputLen slice, outputLen := b.outputLen + 1 })
    else .error .panic

end IoctlRetryBuf

/-- `IoctlResponse::new`, fuse/operations/ioctl.rs:298-304. -/
def IoctlResponse.new (output : Bytes) : IoctlResponse := ⟨{}, .bytes output⟩

/-- `IoctlResponse::new_retry`, fuse/operations/ioctl.rs:307-321. -/
def IoctlResponse.newRetry (retry : IoctlRetry) : IoctlResponse :=
  ⟨{ result := 0, flags := FUSE_IOCTL_RETRY, in_iovs := UInt32.ofNat retry.input.length,
     out_iovs := UInt32.ofNat retry.output.length },
   .retry retry.input retry.output⟩

/-- `IoctlResponse::set_result`, fuse/operations/ioctl.rs:328-331. -/
def IoctlResponse.setResult (x : IoctlResponse) (result : Int32) : IoctlResponse :=
  { x with raw := { x.raw with result := result } }

/-! ## Errors -/

/-- `fuse_error` on Linux, fuse/os/linux.rs:150-154.  `errno::Error` wraps a `NonZeroU16`.
`new_unchecked(0)` would be undefined behaviour. -/
def linuxError (errno : { e : UInt16 // e ≠ 0 }) : Except Fault FuseError :=
  let neg : Int32 := -(errno.val.toUInt32.toInt32)
  if h : neg ≠ 0 then .ok ⟨neg, h⟩ else .error .invalid

/-- `fuse_error` on FreeBSD, fuse/os/freebsd.rs:43-53.  `errno::Error` wraps a `NonZeroI32`. -/
def freebsdError (errno : { e : Int32 // e ≠ 0 }) : Except Fault FuseError :=
  let neg : Int32 := if errno.val < 0 ∨ errno.val > 65535 then -65535 else -errno.val
  if h : neg ≠ 0 then .ok ⟨neg, h⟩ else .error .invalid

/-- The named constants of `OsError`, fuse/os/linux.rs:193-256 and fuse/os/freebsd.rs:91-154. -/
inductive OsErrorName
  | interrupted | invalidArgument | isDirectory | notDirectory | notFound | notSupported | overflow
  | protocolError | unavailable | unimplemented | xattrNotFound | xattrTooBig
deriving DecidableEq, Repr

/-- The error number each constant is made from on Linux, fuse/os/linux.rs:200-255, with the values of
the crate `linux-errno` on the architectures with the generic numbering (x86, ARM, RISC-V). -/
def OsErrorName.linuxErrno : OsErrorName → { e : UInt16 // e ≠ 0 }
  | .interrupted => ⟨4, by decide⟩
  | .invalidArgument => ⟨22, by decide⟩
  | .isDirectory => ⟨21, by decide⟩
  | .notDirectory => ⟨20, by decide⟩
  | .notFound => ⟨2, by decide⟩
  | .notSupported => ⟨95, by decide⟩
  | .overflow => ⟨75, by decide⟩
  | .protocolError => ⟨71, by decide⟩
  | .unavailable => ⟨11, by decide⟩
  | .unimplemented => ⟨38, by decide⟩
  | .xattrNotFound => ⟨61, by decide⟩
  | .xattrTooBig => ⟨7, by decide⟩

/-- The same on FreeBSD, fuse/os/freebsd.rs:98-153, with the values of the crate `freebsd-errno`. -/
def OsErrorName.freebsdErrno : OsErrorName → { e : Int32 // e ≠ 0 }
  | .interrupted => ⟨4, by decide⟩
  | .invalidArgument => ⟨22, by decide⟩
  | .isDirectory => ⟨21, by decide⟩
  | .notDirectory => ⟨20, by decide⟩
  | .notFound => ⟨2, by decide⟩
  | .notSupported => ⟨45, by decide⟩
  | .overflow => ⟨84, by decide⟩
  | .protocolError => ⟨92, by decide⟩
  | .unavailable => ⟨35, by decide⟩
  | .unimplemented => ⟨78, by decide⟩
  | .xattrNotFound => ⟨87, by decide⟩
  | .xattrTooBig => ⟨7, by decide⟩

/-- `OsError::NAME` on Linux, fuse/os/linux.rs:193-256: evaluated by the compiler, so a fault would be
a compile-time error. -/
def OsErrorName.linux (n : OsErrorName) : FuseError :=
  (linuxError n.linuxErrno).toOption.get (by cases n <;> decide)

/-- `OsError::NAME` on FreeBSD, fuse/os/freebsd.rs:91-154. -/
def OsErrorName.freebsd (n : OsErrorName) : FuseError :=
  (freebsdError n.freebsdErrno).toOption.get (by cases n <;> decide)

end Fuse
