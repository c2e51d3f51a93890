import Verif.Server

/-!
# Connecting: version negotiation and session parameters

`σ` is the state of everything outside the library: the socket's other end, and whatever the caller's
closures and handlers change.  Loops are iterations of a step function; `LoopReturns` says that a loop ends
with a result, `RunsForever` that it never ends.
-/

namespace Fuse

/-! ## Loops -/

/-- Runs at most `n` iterations of the loop whose body is `step`: `.inl` is a `return`, `.inr` the state
at the start of the next iteration. -/
def iterate {α β : Type} (step : α → β ⊕ α) : Nat → α → β ⊕ α
  | 0, a => .inr a
  | n + 1, a =>
    match step a with
    | .inl b => .inl b
    | .inr a => iterate step n a

/-- The loop started in `a` returns `b`. -/
def LoopReturns {α β : Type} (step : α → β ⊕ α) (a : α) (b : β) : Prop := ∃ n, iterate step n a = .inl b

/-- The loop started in `a` never returns. -/
def RunsForever {α β : Type} (step : α → β ⊕ α) (a : α) : Prop :=
  ∀ n, ∃ a', iterate step n a = .inr a'

/-! ## Buffers -/

/-- `AlignedSlice::truncate`, fuse/io.rs:77-84. -/
def truncateSlice (slice : Bytes) (len : Nat) : Bytes :=
  if len ≥ slice.length then slice else slice.take len

/-- `MinReadBuffer::new`, fuse/io.rs:201-205. -/
def minReadBuffer : Bytes := List.replicate FUSE_MIN_READ_BUFFER 0

/-! ## `INIT` replies -/

/-- `Version::LATEST`, fuse/fuse.rs:393-396. -/
def Version.latest : Version := ⟨FUSE_KERNEL_VERSION, FUSE_KERNEL_MINOR_VERSION⟩

/-- `FuseInitResponse`, fuse/operations/fuse_init.rs:127-129; `new` is the default value. -/
structure FuseInitResponse where
  raw : FuseInitOut := {}
deriving DecidableEq, Repr

namespace FuseInitResponse

/-- fuse/operations/fuse_init.rs:140-142. -/
def version (r : FuseInitResponse) : Version := ⟨r.raw.major, r.raw.minor⟩
/-- fuse/operations/fuse_init.rs:144-147. -/
def setVersion (r : FuseInitResponse) (v : Version) : FuseInitResponse :=
  ⟨{ r.raw with major := v.major, minor := v.minor }⟩
/-- fuse/operations/fuse_init.rs:150-154. -/
def flags (r : FuseInitResponse) : UInt64 := r.raw.flags.toUInt64 ||| (r.raw.flags2.toUInt64 <<< 32)
/-- fuse/operations/fuse_init.rs:156-159. -/
def setFlags (r : FuseInitResponse) (flags : UInt64) : FuseInitResponse :=
  ⟨{ r.raw with flags := (flags &&& 0xFFFFFFFF).toUInt32, flags2 := (flags >>> 32).toUInt32 }⟩
/-- fuse/operations/fuse_init.rs:162-166. -/
def updateFlags (r : FuseInitResponse) (f : UInt64 → UInt64) : FuseInitResponse := r.setFlags (f r.flags)
/-- fuse/operations/fuse_init.rs:169-171. -/
def maxReadahead (r : FuseInitResponse) : UInt32 := r.raw.max_readahead
/-- fuse/operations/fuse_init.rs:173-175. -/
def setMaxReadahead (r : FuseInitResponse) (x : UInt32) : FuseInitResponse :=
  ⟨{ r.raw with max_readahead := x }⟩
/-- fuse/operations/fuse_init.rs:178-180. -/
def maxBackground (r : FuseInitResponse) : UInt16 := r.raw.max_background
/-- fuse/operations/fuse_init.rs:182-184. -/
def setMaxBackground (r : FuseInitResponse) (x : UInt16) : FuseInitResponse :=
  ⟨{ r.raw with max_background := x }⟩
/-- fuse/operations/fuse_init.rs:187-189. -/
def congestionThreshold (r : FuseInitResponse) : UInt16 := r.raw.congestion_threshold
/-- fuse/operations/fuse_init.rs:191-193. -/
def setCongestionThreshold (r : FuseInitResponse) (x : UInt16) : FuseInitResponse :=
  ⟨{ r.raw with congestion_threshold := x }⟩
/-- fuse/operations/fuse_init.rs:196-198. -/
def maxWrite (r : FuseInitResponse) : UInt32 := r.raw.max_write
/-- fuse/operations/fuse_init.rs:200-202. -/
def setMaxWrite (r : FuseInitResponse) (x : UInt32) : FuseInitResponse :=
  ⟨{ r.raw with max_write := x }⟩
/-- fuse/operations/fuse_init.rs:205-207. -/
def timeGranularity (r : FuseInitResponse) : UInt32 := r.raw.time_gran
/-- fuse/operations/fuse_init.rs:209-211. -/
def setTimeGranularity (r : FuseInitResponse) (x : UInt32) : FuseInitResponse :=
  ⟨{ r.raw with time_gran := x }⟩

end FuseInitResponse

/-- `CuseDeviceNumber`, fuse/cuse.rs:161-164. -/
structure CuseDeviceNumber where
  major : UInt32
  minor : UInt32
deriving DecidableEq, Repr

namespace CuseInitResponse

/-- fuse/operations/cuse_init.rs:83-88. -/
def new (name : CuseDeviceName) : CuseInitResponse := ⟨{}, some name⟩
/-- fuse/operations/cuse_init.rs:91-96. -/
def newNameless : CuseInitResponse := ⟨{}, none⟩
/-- fuse/operations/cuse_init.rs:99-101. -/
def version (r : CuseInitResponse) : Version := ⟨r.raw.major, r.raw.minor⟩
/-- fuse/operations/cuse_init.rs:103-106. -/
def setVersion (r : CuseInitResponse) (v : Version) : CuseInitResponse :=
  ⟨{ r.raw with major := v.major, minor := v.minor }, r.deviceName⟩
/-- fuse/operations/cuse_init.rs:109-111. -/
def flags (r : CuseInitResponse) : UInt32 := r.raw.flags
/-- fuse/operations/cuse_init.rs:113-115. -/
def setFlags (r : CuseInitResponse) (x : UInt32) : CuseInitResponse :=
  ⟨{ r.raw with flags := x }, r.deviceName⟩
/-- fuse/operations/cuse_init.rs:129-131. -/
def setMaxRead (r : CuseInitResponse) (x : UInt32) : CuseInitResponse :=
  ⟨{ r.raw with max_read := x }, r.deviceName⟩
/-- fuse/operations/cuse_init.rs:134-136. -/
def maxWrite (r : CuseInitResponse) : UInt32 := r.raw.max_write
/-- fuse/operations/cuse_init.rs:138-140. -/
def setMaxWrite (r : CuseInitResponse) (x : UInt32) : CuseInitResponse :=
  ⟨{ r.raw with max_write := x }, r.deviceName⟩
/-- fuse/operations/cuse_init.rs:150-153. -/
def setDeviceNumber (r : CuseInitResponse) (n : CuseDeviceNumber) : CuseInitResponse :=
  ⟨{ r.raw with dev_major := n.major, dev_minor := n.minor }, r.deviceName⟩

end CuseInitResponse

/-! ## Layouts -/

/-- `LayoutError`, fuse/server.rs:209-211. -/
inductive LayoutError
  | todo
deriving DecidableEq, Repr

/-- `CuseLayout::new`, fuse/server.rs:221-233. -/
def CuseLayout.new (x : CuseInitOut) : Except LayoutError CuseLayout :=
  if x.major ≠ FUSE_KERNEL_VERSION then .error .todo
  else if x.minor > FUSE_KERNEL_MINOR_VERSION then .error .todo
  else .ok ⟨x.minor.toUInt16⟩

/-- `FuseLayout::new2`, fuse/server.rs:264-273. -/
def FuseLayout.new2 (x : FuseInitOut) : FuseLayout :=
  ⟨x.minor.toUInt16, if x.flags &&& FUSE_SETXATTR_EXT ≠ 0 then 0 ||| FEATURE_SETXATTR_EXT else 0⟩

/-- `FuseLayout::new`, fuse/server.rs:252-262. -/
def FuseLayout.new (x : FuseInitOut) : Except LayoutError FuseLayout :=
  if x.major ≠ FUSE_KERNEL_VERSION then .error .todo
  else if x.minor > FUSE_KERNEL_MINOR_VERSION then .error .todo
  else .ok (.new2 x)

/-! ## Negotiation -/

/-- `negotiate_version`, fuse/server.rs:1579-1588. -/
def negotiateVersion (kernel : Version) : Option Version :=
  if kernel.major ≠ Version.latest.major then none
  else some ⟨Version.latest.major, min kernel.minor Version.latest.minor⟩

/-- `recv_buf_len`, fuse/server.rs:1590-1596; `usize::saturating_add` on a 64-bit target. -/
def recvBufLen (maxWrite : UInt32) : Nat := max (satLen maxWrite.toNat 4096) FUSE_MIN_READ_BUFFER

variable {σ ε : Type}

/-- `fuse_handshake`, fuse/server.rs:1380-1399. -/
def fuseHandshake (req : FuseInitRequest) (newReply : σ → FuseInitResponse × σ) (s : σ) :
    (FuseInitResponse × Bool) × σ :=
  match negotiateVersion req.version with
  | some v =>
    let (reply, s) := newReply s
    ((reply.setVersion v, true), s)
  | none => (((({} : FuseInitResponse).setVersion .latest), false), s)

/-- `cuse_handshake`, fuse/server.rs:1235-1254. -/
def cuseHandshake (req : CuseInitRequest) (newReply : σ → CuseInitResponse × σ) (s : σ) :
    (CuseInitResponse × Bool) × σ :=
  match negotiateVersion req.version with
  | some v =>
    let (reply, s) := newReply s
    ((reply.setVersion v, true), s)
  | none => ((CuseInitResponse.newNameless.setVersion .latest, false), s)

/-- `FuseConnection`, fuse/server.rs:1257-1261, without the socket. -/
structure FuseConnection where
  layout : FuseLayout
  recvBufLen : Nat
deriving DecidableEq, Repr

/-- `CuseConnection`, fuse/server.rs:1115-1119, without the socket. -/
structure CuseConnection where
  layout : CuseLayout
  recvBufLen : Nat
deriving DecidableEq, Repr

/-- How a call ends: `Result::Ok`, `Result::Err`, or undefined behaviour or a panic. -/
inductive Outcome (ε α : Type)
  | ok (a : α)
  | err (e : ServerError ε)
  | fault (f : Fault)
deriving DecidableEq, Repr

/-- What a client told to the closure passed to `FuseConnection::connect`: the request and the reply
being built.  The closure may change the reply and the world. -/
abbrev FuseInitFn (σ : Type) := FuseInitRequest → FuseInitResponse → σ → FuseInitResponse × σ

/-- The closure passed to `CuseConnection::connect`. -/
abbrev CuseInitFn (σ : Type) := CuseInitRequest → CuseInitResponse → σ → CuseInitResponse × σ

/-- `?` on the results of `CuseRequest::new`, `FuseRequest::new` and the request's `TryFrom`, followed
by reading the request ID: fuse/server.rs:1146-1147, 1156, 1287-1288, 1296. -/
def receiveInit {α : Type} (m : DecM α) (recvBuf : Bytes) : Outcome ε (α × NonZeroU64) :=
  match Request.new recvBuf with
  | .error e => .err (.request e)
  | .ok request =>
    match request.decode m with
    | .error (.req e) => .err (.request e)
    | .error (.fault f) => .fault f
    | .ok initReq =>
      match request.rawHeader with
      | .error f => .fault f
      | .ok h =>
        match h.requestId with
        | .error f => .fault f
        | .ok id => .ok (initReq, id)

/-- One iteration of the loop in `FuseConnection::connect`, fuse/server.rs:1284-1314, on the receive
buffer and the world. -/
def fuseConnectStep (sock : Socket σ ε) (initFn : FuseInitFn σ) (st : Bytes × σ) :
    (Outcome ε FuseConnection × σ) ⊕ (Bytes × σ) :=
  match sock.recv st.1 st.2 with
  | ((.error e, _), s) => .inl (.err (.recv e), s)
  | ((.ok recvLen, buf), s) =>
    match receiveInit decodeFuseInit (truncateSlice buf recvLen) with
    | .err e => .inl (.err e, s)
    | .fault f => .inl (.fault f, s)
    | .ok (initReq, id) =>
      match fuseHandshake initReq (initFn initReq {}) s with
      | ((reply, ok), s) =>
        match sendInitOut reply.raw ⟨⟨sock, id.val⟩, ⟨36, 0⟩⟩ s with
        | (.error e, s) => .inl (.err (.send e), s)
        | (.ok (), s) =>
          if !ok then .inr (buf, s)
          else .inl (.ok ⟨.new2 reply.raw, recvBufLen reply.maxWrite⟩, s)

/-- `FuseConnection::connect`, fuse/server.rs:1271-1315, started in world `s`, ends with `out`. -/
def FuseConnects (sock : Socket σ ε) (initFn : FuseInitFn σ) (s : σ)
    (out : Outcome ε FuseConnection × σ) : Prop :=
  LoopReturns (fuseConnectStep sock initFn) (minReadBuffer, s) out

/-- One iteration of the loop in `CuseConnection::connect`, fuse/server.rs:1143-1175. -/
def cuseConnectStep (sock : Socket σ ε) (name : CuseDeviceName) (num : CuseDeviceNumber)
    (initFn : CuseInitFn σ) (st : Bytes × σ) : (Outcome ε CuseConnection × σ) ⊕ (Bytes × σ) :=
  match sock.recv st.1 st.2 with
  | ((.error e, _), s) => .inl (.err (.recv e), s)
  | ((.ok recvLen, buf), s) =>
    match receiveInit decodeCuseInit (truncateSlice buf recvLen) with
    | .err e => .inl (.err e, s)
    | .fault f => .inl (.fault f, s)
    | .ok (initReq, id) =>
      match cuseHandshake initReq (initFn initReq ((CuseInitResponse.new name).setDeviceNumber num)) s with
      | ((reply, ok), s) =>
        match reply.sendTo ⟨⟨sock, id.val⟩⟩ s with
        | (.error e, s) => .inl (.err (.send e), s)
        | (.ok (), s) =>
          if !ok then .inr (buf, s)
          else .inl (.ok ⟨⟨reply.raw.minor.toUInt16⟩, recvBufLen reply.maxWrite⟩, s)

/-- `CuseConnection::connect`, fuse/server.rs:1129-1176, started in world `s`, ends with `out`. -/
def CuseConnects (sock : Socket σ ε) (name : CuseDeviceName) (num : CuseDeviceNumber)
    (initFn : CuseInitFn σ) (s : σ) (out : Outcome ε CuseConnection × σ) : Prop :=
  LoopReturns (cuseConnectStep sock name num initFn) (minReadBuffer, s) out

/-! ## Builders -/

/-- `CuseServer`, fuse/server.rs:1402-1408. -/
structure CuseServer where
  deviceName : CuseDeviceName
  deviceNumber : CuseDeviceNumber
  flags : UInt32 := 0
  maxRead : UInt32 := 0
  maxWrite : UInt32 := 0
deriving DecidableEq, Repr

namespace CuseServer

/-- `CuseServer::new`, fuse/server.rs:1413-1424. -/
def new (name : CuseDeviceName) (num : CuseDeviceNumber) : CuseServer := { deviceName := name, deviceNumber := num }
/-- `CuseServer::max_read`, fuse/server.rs:1446-1449. -/
def setMaxRead (c : CuseServer) (x : UInt32) : CuseServer := { c with maxRead := x }
/-- `CuseServer::max_write`, fuse/server.rs:1454-1457. -/
def setMaxWrite (c : CuseServer) (x : UInt32) : CuseServer := { c with maxWrite := x }
/-- `CuseServer::update_flags`, fuse/server.rs:1463-1469. -/
def updateFlags (c : CuseServer) (f : UInt32 → UInt32) : CuseServer := { c with flags := f c.flags }
/-- `CuseServer::enable_unrestricted_ioctl`, fuse/server.rs:1474-1479. -/
def enableUnrestrictedIoctl (c : CuseServer) : CuseServer :=
  c.updateFlags fun flags => flags ||| CUSE_UNRESTRICTED_IOCTL

/-- The closure of `CuseServer::connect`, fuse/server.rs:1435-1439. -/
def initFn (c : CuseServer) : CuseInitFn σ := fun request reply s =>
  (((reply.setMaxRead c.maxRead).setMaxWrite c.maxWrite).setFlags (request.flags &&& c.flags), s)

/-- `CuseServer::connect`, fuse/server.rs:1427-1441. -/
def Connects (c : CuseServer) (sock : Socket σ ε) (s : σ) (out : Outcome ε CuseConnection × σ) : Prop :=
  CuseConnects sock c.deviceName c.deviceNumber c.initFn s out

end CuseServer

/-- `FuseServer`, fuse/server.rs:1483-1485; `new` (1490-1494) is the default value. -/
structure FuseServer where
  initReply : FuseInitResponse := {}
deriving DecidableEq, Repr

namespace FuseServer

/-- fuse/server.rs:1515-1521. -/
def congestionThreshold (c : FuseServer) (x : UInt16) : FuseServer := ⟨c.initReply.setCongestionThreshold x⟩
/-- fuse/server.rs:1526-1529. -/
def maxBackground (c : FuseServer) (x : UInt16) : FuseServer := ⟨c.initReply.setMaxBackground x⟩
/-- fuse/server.rs:1534-1537. -/
def maxReadahead (c : FuseServer) (x : UInt32) : FuseServer := ⟨c.initReply.setMaxReadahead x⟩
/-- fuse/server.rs:1546-1554. -/
def maxWrite (c : FuseServer) (x : UInt32) : FuseServer :=
  let r := c.initReply.setMaxWrite x
  if x > 4096 then ⟨r.updateFlags fun flags => flags ||| FUSE_BIG_WRITES.toUInt64⟩ else ⟨r⟩
/-- fuse/server.rs:1559-1562. -/
def timeGranularity (c : FuseServer) (x : UInt32) : FuseServer := ⟨c.initReply.setTimeGranularity x⟩
/-- fuse/server.rs:1568-1574. -/
def updateFlags (c : FuseServer) (f : UInt64 → UInt64) : FuseServer := ⟨c.initReply.updateFlags f⟩

/-- The closure of `FuseServer::connect`, fuse/server.rs:1502-1509. -/
def initFn (c : FuseServer) : FuseInitFn σ := fun request reply s =>
  let opts := c.initReply
  ((((((reply.setCongestionThreshold opts.congestionThreshold).setMaxBackground opts.maxBackground)
    ).setMaxReadahead opts.maxReadahead).setMaxWrite opts.maxWrite).setTimeGranularity
      opts.timeGranularity |>.setFlags (request.flags &&& opts.flags), s)

/-- `FuseServer::connect`, fuse/server.rs:1497-1510. -/
def Connects (c : FuseServer) (sock : Socket σ ε) (s : σ) (out : Outcome ε FuseConnection × σ) : Prop :=
  FuseConnects sock c.initFn s out

end FuseServer

end Fuse
