import Verif.Requests
import Verif.Attr

/-!
# Sockets, send buffers and reply senders

A `Socket` is any implementation of the trait, with internal state `σ` and I/O errors `ε`; nothing
is assumed about its behaviour.  Computations that use a socket are state transformers on `σ`, so
"handed to the socket exactly once" is an equation with one call of `send`.

Slice lengths are natural numbers; the code's `as u64` conversions are the identity on 64-bit
targets (the model's target).
-/

namespace Fuse

/-- `RecvError`, fuse/server.rs:109-115. -/
inductive RecvError (ε : Type)
  | connectionClosed (e : ε)
  | other (e : ε)
deriving DecidableEq, Repr

/-- `SendError`, fuse/server.rs:123-135. -/
inductive SendError (ε : Type)
  | notFound (e : ε)
  | replyTooBig (n : Nat)
  | other (e : ε)
deriving DecidableEq, Repr

/-- `ServerError`, fuse/server.rs:177-186. -/
inductive ServerError (ε : Type)
  | request (e : RequestError)
  | recv (e : RecvError ε)
  | send (e : SendError ε)
deriving DecidableEq, Repr

/-! ## SendBuf -/

/-- `SendBuf::MAX_CHUNKS_LEN`, fuse/io.rs:272. -/
abbrev MAX_CHUNKS_LEN : Nat := 5

/-- `SendBuf`, fuse/io.rs:261-265. -/
structure SendBuf where
  len : Nat
  arr : List Bytes
  chunksLen : Nat
deriving DecidableEq, Repr

namespace SendBuf

/-- `SendBuf::new_1`, fuse/io.rs:278-284. -/
def new1 (len : Nat) (c1 : Bytes) : SendBuf := ⟨len, [c1, [], [], [], []], 1⟩

/-- `SendBuf::new_2`, fuse/io.rs:288-298. -/
def new2 (len : Nat) (c1 c2 : Bytes) : SendBuf := ⟨len, [c1, c2, [], [], []], 2⟩

/-- `SendBuf::new_3`, fuse/io.rs:302-313. -/
def new3 (len : Nat) (c1 c2 c3 : Bytes) : SendBuf := ⟨len, [c1, c2, c3, [], []], 3⟩

/-- `SendBuf::new_4`, fuse/io.rs:317-329. -/
def new4 (len : Nat) (c1 c2 c3 c4 : Bytes) : SendBuf := ⟨len, [c1, c2, c3, c4, []], 4⟩

/-- `SendBuf::new_5`, fuse/io.rs:333-346. -/
def new5 (len : Nat) (c1 c2 c3 c4 c5 : Bytes) : SendBuf := ⟨len, [c1, c2, c3, c4, c5], 5⟩

/-- `SendBuf::chunks_len`, fuse/io.rs:368-373 (`unreachable_unchecked` above five). -/
def chunksLen' (b : SendBuf) : Except Fault Nat :=
  if b.chunksLen ≤ MAX_CHUNKS_LEN then .ok b.chunksLen else .error .invalid

/-- `SendBuf::chunks`, fuse/io.rs:357-359. -/
def chunks (b : SendBuf) : Except Fault (List Bytes) := do
  let n ← b.chunksLen'
  if n ≤ b.arr.length then return b.arr.take n else throw .panic

/-- The loop of `map_chunks_into`, fuse/io.rs:410-412; the closure is `FnMut`, so it has a state. -/
def mapLoop {T τ : Type} (f : Bytes → τ → T × τ) :
    List Bytes → Nat → List T → τ → Except Fault (List T × τ)
  | [], _, storage, s => .ok (storage, s)
  | c :: cs, ii, storage, s =>
    if ii < storage.length then mapLoop f cs (ii + 1) (storage.set ii (f c s).1) (f c s).2
    else .error .panic

/-- `SendBuf::map_chunks_into`, fuse/io.rs:405-414: the returned slice, the storage afterwards and
the closure's state. -/
def mapChunksInto {T τ : Type} (b : SendBuf) (storage : List T) (f : Bytes → τ → T × τ) (s : τ) :
    Except Fault (List T × List T × τ) := do
  let cs ← b.chunks
  let (storage', s') ← mapLoop f cs 0 storage s
  let n ← b.chunksLen'
  if n ≤ storage'.length then return (storage'.take n, storage', s') else throw .panic

/-- Reading a slice of `MaybeUninit<T>` as a slice of `T`: every element must be initialised. -/
def assumeInit {T : Type} : List (Option T) → Except Fault (List T)
  | [] => .ok []
  | none :: _ => .error .invalid
  | some x :: xs => do
    let ys ← assumeInit xs
    return x :: ys

/-- `SendBuf::map_chunks_into_uninit`, fuse/io.rs:447-459. -/
def mapChunksIntoUninit {T τ : Type} (b : SendBuf) (storage : List (Option T))
    (f : Bytes → τ → T × τ) (s : τ) : Except Fault (List T × τ) := do
  let cs ← b.chunks
  let (storage', s') ← mapLoop (fun c s => (some (f c s).1, (f c s).2)) cs 0 storage s
  let n ← b.chunksLen'
  if n ≤ storage'.length then
    let out ← assumeInit (storage'.take n)
    return (out, s')
  else throw .panic

end SendBuf

/-! ## Sockets and reply senders -/

/-- The trait `Socket`, fuse/server.rs:138-151.  `recv` gets the buffer and yields the result and
the buffer's new contents, which cannot change its length (a `&mut [u8]`); `send` gets one
message. -/
structure Socket (σ ε : Type) where
  recv : Bytes → σ → (Except (RecvError ε) Nat × Bytes) × σ
  recv_length : ∀ buf s, (recv buf s).1.2.length = buf.length
  send : SendBuf → σ → Except (SendError ε) Unit × σ

/-- `ReplySender`, fuse/server.rs:542-545. -/
structure ReplySender (σ ε : Type) where
  socket : Socket σ ε
  requestId : UInt64

/-- `u64::saturating_add` on lengths. -/
def satLen (a b : Nat) : Nat := if a + b < 2 ^ 64 then a + b else 2 ^ 64 - 1

namespace ReplySender

variable {σ ε : Type}

/-- `ReplySender::send_0`, fuse/server.rs:548-558. -/
def send0 (r : ReplySender σ ε) (error : Int32) (s : σ) : Except (SendError ε) Unit × σ :=
  let header : FuseOutHeader :=
    { len := UInt32.ofNat (Wire.size FuseOutHeader), error := error, unique := r.requestId }
  r.socket.send (.new1 header.len.toNat (enc header)) s

/-- `ReplySender::send_1`, fuse/server.rs:560-578. -/
def send1 (r : ReplySender σ ε) (b1 : Bytes) (s : σ) : Except (SendError ε) Unit × σ :=
  let len := satLen (Wire.size FuseOutHeader) b1.length
  if len > 0xFFFFFFFF then (.error (.replyTooBig len), s)
  else
    let header : FuseOutHeader := { len := UInt32.ofNat len, unique := r.requestId }
    r.socket.send (.new2 len (enc header) b1) s

/-- `ReplySender::send_2`, fuse/server.rs:580-601. -/
def send2 (r : ReplySender σ ε) (b1 b2 : Bytes) (s : σ) : Except (SendError ε) Unit × σ :=
  let len := satLen (satLen (Wire.size FuseOutHeader) b1.length) b2.length
  if len > 0xFFFFFFFF then (.error (.replyTooBig len), s)
  else
    let header : FuseOutHeader := { len := UInt32.ofNat len, unique := r.requestId }
    r.socket.send (.new3 len (enc header) b1 b2) s

/-- `ReplySender::send_3`, fuse/server.rs:603-627. -/
def send3 (r : ReplySender σ ε) (b1 b2 b3 : Bytes) (s : σ) : Except (SendError ε) Unit × σ :=
  let len := satLen (satLen (satLen (Wire.size FuseOutHeader) b1.length) b2.length) b3.length
  if len > 0xFFFFFFFF then (.error (.replyTooBig len), s)
  else
    let header : FuseOutHeader := { len := UInt32.ofNat len, unique := r.requestId }
    r.socket.send (.new4 len (enc header) b1 b2 b3) s

/-- `ReplySender::send_4`, fuse/server.rs:629-656. -/
def send4 (r : ReplySender σ ε) (b1 b2 b3 b4 : Bytes) (s : σ) : Except (SendError ε) Unit × σ :=
  let len := satLen (satLen (satLen (satLen (Wire.size FuseOutHeader) b1.length) b2.length)
    b3.length) b4.length
  if len > 0xFFFFFFFF then (.error (.replyTooBig len), s)
  else
    let header : FuseOutHeader := { len := UInt32.ofNat len, unique := r.requestId }
    r.socket.send (.new5 len (enc header) b1 b2 b3 b4) s

end ReplySender

/-- `crate::Error`, fuse/fuse.rs:175. -/
abbrev FuseError := { e : Int32 // e ≠ 0 }

/-! ## Replies -/

/-- `CreateResponse`, fuse/operations/create.rs:117-120. -/
structure CreateResponse where
  entry : Entry
  openOut : FuseOpenOut := {}
deriving DecidableEq, Repr

/-- `IoctlSlice`, fuse/operations/ioctl.rs:405-410. -/
structure IoctlSlice where
  base : UInt64
  len : UInt64
deriving DecidableEq, Repr

instance : Wire IoctlSlice :=
  Wire.iso (β := UInt64 × UInt64)
    (fun x => (x.base, x.len))
    (fun t => ⟨t.1, t.2⟩)
    (fun _ => rfl) (fun _ => rfl)

@[simp] theorem size_ioctl_slice : Wire.size IoctlSlice = 16 := rfl

/-- `IoctlResponseOutput`, fuse/operations/ioctl.rs:291-294. -/
inductive IoctlOutput
  | bytes (output : Bytes)
  | retry (input output : List IoctlSlice)
deriving DecidableEq, Repr

/-- `IoctlResponse`, fuse/operations/ioctl.rs:285-289 (`set_result` only affects `Debug`). -/
structure IoctlResponse where
  raw : FuseIoctlOut
  output : IoctlOutput
deriving DecidableEq, Repr

/-- A slice of `#[repr(C)]` records viewed as bytes, `from_raw_parts(.., size_of_val(..))`,
fuse/operations/ioctl.rs:369-380. -/
def sliceBytes (xs : List IoctlSlice) : Bytes := xs.flatMap enc

/-- `IoctlResponse::send_to`, fuse/operations/ioctl.rs:360-384. -/
def IoctlResponse.sendTo {σ ε} (x : IoctlResponse) (r : ReplySender σ ε) (s : σ) :
    Except (SendError ε) Unit × σ :=
  match x.output with
  | .bytes output => r.send2 (enc x.raw) output s
  | .retry input output => r.send3 (enc x.raw) (sliceBytes input) (sliceBytes output) s

/-- The types implementing `FuseReply`: fuse/kernel_traits.rs:46-52,57,70,83,98, fuse/entry.rs:132,
fuse/operations/readdir.rs:196, fuse/operations/listxattr.rs:95, fuse/operations/ioctl.rs:387,
fuse/operations/create.rs:184. -/
inductive FuseReply
  | bmap (x : FuseBmapOut)
  | getxattr (x : FuseGetxattrOut)
  | lk (x : FuseLkOut)
  | lseek (x : FuseLseekOut)
  | open_ (x : FuseOpenOut)
  | poll (x : FusePollOut)
  | write (x : FuseWriteOut)
  | attr (x : FuseAttrOut)
  | entryOut (x : FuseEntryOut)
  | init (x : FuseInitOut)
  | statfs (x : FuseStatfsOut)
  | entry (x : Entry)
  | readdirEntries (buf : Bytes)
  | listxattrNames (buf : Bytes)
  | ioctl (x : IoctlResponse)
  | create (x : CreateResponse)
deriving DecidableEq, Repr

/-- `FuseReplySender`, fuse/server.rs:707-710. -/
structure FuseReplySender (σ ε : Type) where
  inner : ReplySender σ ε
  layout : FuseLayout

variable {σ ε : Type}

/-- `fuse_attr_out::send_to`, fuse/kernel_traits.rs:57-68.  (Slicing cannot fail: the record is
longer than the prefix.) -/
def sendAttrOut (x : FuseAttrOut) (r : FuseReplySender σ ε) : σ → Except (SendError ε) Unit × σ :=
  r.inner.send1 (if r.layout.minor < 9 then (enc x).take FUSE_COMPAT_ATTR_OUT_SIZE else enc x)

/-- `fuse_entry_out::send_to`, fuse/kernel_traits.rs:70-81. -/
def sendEntryOut (x : FuseEntryOut) (r : FuseReplySender σ ε) : σ → Except (SendError ε) Unit × σ :=
  r.inner.send1 (if r.layout.minor < 9 then (enc x).take FUSE_COMPAT_ENTRY_OUT_SIZE else enc x)

/-- `fuse_init_out::send_to`, fuse/kernel_traits.rs:83-96. -/
def sendInitOut (x : FuseInitOut) (r : FuseReplySender σ ε) : σ → Except (SendError ε) Unit × σ :=
  r.inner.send1 (
    if x.minor < 5 then (enc x).take FUSE_COMPAT_INIT_OUT_SIZE
    else if x.minor < 23 then (enc x).take FUSE_COMPAT_22_INIT_OUT_SIZE
    else enc x)

/-- `fuse_statfs_out::send_to`, fuse/kernel_traits.rs:98-109. -/
def sendStatfsOut (x : FuseStatfsOut) (r : FuseReplySender σ ε) :
    σ → Except (SendError ε) Unit × σ :=
  r.inner.send1 (if r.layout.minor < 4 then (enc x).take FUSE_COMPAT_STATFS_SIZE else enc x)

/-- `CreateResponse::send_to`, fuse/operations/create.rs:184-195. -/
def sendCreate (x : CreateResponse) (r : FuseReplySender σ ε) : σ → Except (SendError ε) Unit × σ :=
  r.inner.send2
    (if r.layout.versionMinor < 9 then (enc x.entry.raw).take FUSE_COMPAT_ENTRY_OUT_SIZE
      else enc x.entry.raw)
    (enc x.openOut)

/-- `FuseReply::send_to`, at the places cited at `FuseReply`. -/
def FuseReply.sendTo (r : FuseReplySender σ ε) : FuseReply → σ → Except (SendError ε) Unit × σ
  | .bmap x => r.inner.send1 (enc x)
  | .getxattr x => r.inner.send1 (enc x)
  | .lk x => r.inner.send1 (enc x)
  | .lseek x => r.inner.send1 (enc x)
  | .open_ x => r.inner.send1 (enc x)
  | .poll x => r.inner.send1 (enc x)
  | .write x => r.inner.send1 (enc x)
  | .attr x => sendAttrOut x r
  | .entryOut x => sendEntryOut x r
  | .init x => sendInitOut x r
  | .statfs x => sendStatfsOut x r
  | .entry x => sendEntryOut x.raw r
  | .readdirEntries buf => r.inner.send1 buf
  | .listxattrNames buf => r.inner.send1 buf
  | .ioctl x => x.sendTo r.inner
  | .create x => sendCreate x r

namespace FuseReplySender

/-- `FuseReplySender::new`, fuse/server.rs:714-726. -/
def new (socket : Socket σ ε) (layout : FuseLayout) (requestId : NonZeroU64) :
    FuseReplySender σ ε := ⟨⟨socket, requestId.val⟩, layout⟩

/-- `FuseReplySender::ok`, fuse/server.rs:729-731. -/
def ok (r : FuseReplySender σ ε) (reply : FuseReply) : σ → Except (SendError ε) Unit × σ :=
  reply.sendTo r

/-- `FuseReplySender::ok_buf`, fuse/server.rs:734-736. -/
def okBuf (r : FuseReplySender σ ε) (buf : Bytes) : σ → Except (SendError ε) Unit × σ :=
  r.inner.send1 buf

/-- `FuseReplySender::ok_empty`, fuse/server.rs:739-741. -/
def okEmpty (r : FuseReplySender σ ε) : σ → Except (SendError ε) Unit × σ := r.inner.send0 0

/-- `FuseReplySender::err`, fuse/server.rs:744-749. -/
def err (r : FuseReplySender σ ε) (e : FuseError) : σ → Except (SendError ε) Unit × σ :=
  r.inner.send0 e.val

end FuseReplySender

/-- `DeviceNameError`, fuse/cuse.rs:26-31. -/
inductive DeviceNameError
  | empty
  | containsNul
deriving DecidableEq, Repr

/-- `DeviceName` (exported as `CuseDeviceName`), fuse/cuse.rs:46-48. -/
structure CuseDeviceName where
  bytes : Bytes
deriving DecidableEq, Repr

/-- `DeviceName::from_bytes` (also `new`, on the bytes of the string), fuse/cuse.rs:58-60,79-87. -/
def CuseDeviceName.fromBytes (bytes : Bytes) : Except DeviceNameError CuseDeviceName :=
  if bytes.isEmpty then .error .empty
  else if bytes.contains 0 then .error .containsNul
  else .ok ⟨bytes⟩

/-- `CuseInitResponse`, fuse/operations/cuse_init.rs:76-79. -/
structure CuseInitResponse where
  raw : CuseInitOut := {}
  deviceName : Option CuseDeviceName
deriving DecidableEq, Repr

/-- The types implementing `CuseReply`: fuse/kernel_traits.rs:54-55, fuse/operations/ioctl.rs:396,
fuse/operations/cuse_init.rs:172. -/
inductive CuseReply
  | open_ (x : FuseOpenOut)
  | write (x : FuseWriteOut)
  | ioctl (x : IoctlResponse)
  | init (x : CuseInitResponse)
deriving DecidableEq, Repr

/-- `CuseReplySender`, fuse/server.rs:660-663. -/
structure CuseReplySender (σ ε : Type) where
  inner : ReplySender σ ε

/-- `b"DEVNAME="`, fuse/operations/cuse_init.rs:180. -/
def devnamePrefix : Bytes := [0x44, 0x45, 0x56, 0x4E, 0x41, 0x4D, 0x45, 0x3D]

/-- `CuseInitResponse::send_to`, fuse/operations/cuse_init.rs:172-187. -/
def CuseInitResponse.sendTo (x : CuseInitResponse) (r : CuseReplySender σ ε) :
    σ → Except (SendError ε) Unit × σ :=
  match x.deviceName with
  | some name => r.inner.send4 (enc x.raw) devnamePrefix name.bytes [0]
  | none => r.inner.send1 (enc x.raw)

/-- `CuseReply::send_to`, at the places cited at `CuseReply`. -/
def CuseReply.sendTo (r : CuseReplySender σ ε) : CuseReply → σ → Except (SendError ε) Unit × σ
  | .open_ x => r.inner.send1 (enc x)
  | .write x => r.inner.send1 (enc x)
  | .ioctl x => x.sendTo r.inner
  | .init x => x.sendTo r

namespace CuseReplySender

/-- `CuseReplySender::new`, fuse/server.rs:667-679. -/
def new (socket : Socket σ ε) (_layout : CuseLayout) (requestId : NonZeroU64) :
    CuseReplySender σ ε := ⟨⟨socket, requestId.val⟩⟩

/-- `CuseReplySender::ok`, fuse/server.rs:682-684. -/
def ok (r : CuseReplySender σ ε) (reply : CuseReply) : σ → Except (SendError ε) Unit × σ :=
  reply.sendTo r

/-- `CuseReplySender::ok_buf`, fuse/server.rs:687-689. -/
def okBuf (r : CuseReplySender σ ε) (buf : Bytes) : σ → Except (SendError ε) Unit × σ :=
  r.inner.send1 buf

/-- `CuseReplySender::ok_empty`, fuse/server.rs:692-694. -/
def okEmpty (r : CuseReplySender σ ε) : σ → Except (SendError ε) Unit × σ := r.inner.send0 0

/-- `CuseReplySender::err`, fuse/server.rs:697-702. -/
def err (r : CuseReplySender σ ε) (e : FuseError) : σ → Except (SendError ε) Unit × σ :=
  r.inner.send0 e.val

end CuseReplySender

end Fuse
