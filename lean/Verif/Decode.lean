import Verif.Types

/-!
# Requests and the request decoder

Transcription of `Request` (fuse/server.rs:329-407) and `RequestDecoder`
(fuse/server/decode.rs:56-203).  The code reads the receive buffer through unchecked pointers;
the model performs the same reads on a byte list and turns any read outside the message, any
misaligned reference and any violated precondition of an unchecked function into a `Fault`.

The receive buffer is an `AlignedSlice` (fuse/io.rs:30-50), i.e. its address is a multiple of 8.
Hence the alignment of a reference is decided by its offset from the start of the buffer.
-/

namespace Fuse

/-- `Request`, fuse/server.rs:341-345: a pointer to the start of the receive buffer.  `mem` is the
memory readable through it, namely the received bytes. -/
structure Request where
  mem : Bytes
deriving DecidableEq, Repr

/-- `usize` length clamped to `u32`, fuse/server.rs:361-370. -/
def clampU32 (n : Nat) : Nat := if n > 0xFFFFFFFF then 0xFFFFFFFF else n

/-- `Request::new`, fuse/server.rs:348-379. -/
def Request.new (buf : Bytes) : Except RequestError Request :=
  if buf.length < Wire.size FuseInHeader then .error .unexpectedEof
  else
    let header : FuseInHeader := dec (buf.take (Wire.size FuseInHeader))
    if header.unique = 0 then .error .invalidRequestId
    else if clampU32 buf.length < header.len.toNat then .error .unexpectedEof
    else .ok ⟨buf⟩

/-- `Request::raw_header`, fuse/server.rs:394-396: a reference to 40 bytes at the buffer start. -/
def Request.rawHeader (r : Request) : Except Fault FuseInHeader :=
  if Wire.size FuseInHeader ≤ r.mem.length then .ok (dec (r.mem.take (Wire.size FuseInHeader)))
  else .error .oob

/-- `Request::as_bytes`, fuse/server.rs:382-386. -/
def Request.asBytes (r : Request) : Except Fault Bytes := do
  let h ← r.rawHeader
  if h.len.toNat ≤ r.mem.length then return r.mem.take h.len.toNat else throw .oob

/-- `Request::body`, fuse/server.rs:399-401: slicing from 40 panics on a shorter message.  Also
called by both `Debug` impls, fuse/server.rs:458-465 and 515-522. -/
def Request.body (r : Request) : Except Fault Bytes := do
  let bytes ← r.asBytes
  if Wire.size FuseInHeader ≤ bytes.length then return bytes.drop (Wire.size FuseInHeader)
  else throw .panic

/-- `RequestHeader::request_id`, fuse/fuse.rs:196-198 (`NonZeroU64::new_unchecked`). -/
def FuseInHeader.requestId (h : FuseInHeader) : Except Fault NonZeroU64 :=
  NonZeroU64.newUnchecked h.unique

/-- `RequestHeader::request_len`, fuse/fuse.rs:203-205 (`NonZeroU32::new_unchecked`). -/
def FuseInHeader.requestLen (h : FuseInHeader) : Except Fault Nat :=
  if h.len ≠ 0 then .ok h.len.toNat else .error .invalid

/-- `RequestHeader::node_id`, fuse/fuse.rs:217-219. -/
def FuseInHeader.nodeId (h : FuseInHeader) : Option NodeId := NodeId.new h.nodeid

/-- `RequestHeader::process_id`, fuse/fuse.rs:249-251. -/
def FuseInHeader.processId (h : FuseInHeader) : Option { n : UInt32 // n ≠ 0 } :=
  ProcessId.new h.pid

/-- `RequestDecoder`, fuse/server/decode.rs:56-60. -/
structure Decoder where
  mem : Bytes
  headerLen : Nat
  consumed : Nat
deriving DecidableEq, Repr

/-- Decoding computations: state is the decoder, failures are `RequestError`s or faults. -/
abbrev DecM := StateT Decoder (Except Failure)

/-- The `?` operator on a `RequestError`. -/
def DecM.throwReq {α} (e : RequestError) : DecM α := fun _ => .error (.req e)

/-- An unchecked operation embedded in a decoder. -/
def DecM.ofFault {α} (x : Except Fault α) : DecM α := fun d =>
  match x with
  | .ok a => .ok (a, d)
  | .error f => .error (.fault f)

/-- Embedding of a stateless result. -/
def DecM.ofRes {α} (x : Res α) : DecM α := fun d =>
  match x with
  | .ok a => .ok (a, d)
  | .error f => .error f

/-- `RequestDecoder::new_unchecked` on `Request::as_bytes`, fuse/server/decode.rs:63-77 and
fuse/server.rs:404-407, followed by running a decoding computation on it. -/
def Request.decode {α} (r : Request) (m : DecM α) : Res α :=
  match r.rawHeader with
  | .error f => .error (.fault f)
  | .ok h =>
    match m { mem := r.mem, headerLen := h.len.toNat, consumed := Wire.size FuseInHeader } with
    | .ok (a, _) => .ok a
    | .error e => .error e

/-- A read of `n` bytes at `off` through the message pointer; in bounds of the message and of the
received bytes, or a fault. -/
def Decoder.read (d : Decoder) (off n : Nat) : Res Bytes :=
  if off + n ≤ d.headerLen ∧ off + n ≤ d.mem.length then .ok ((d.mem.drop off).take n)
  else .error (.fault .oob)

/-- A reference `&*ptr.cast::<T>()` at offset `off`. -/
def Decoder.deref (d : Decoder) (T : Type) [Wire T] (off : Nat) : Res T :=
  if off % Wire.align T = 0 then
    match d.read off (Wire.size T) with
    | .ok bs => .ok (dec bs)
    | .error e => .error e
  else .error (.fault .misaligned)

/-- `RequestDecoder::header`, fuse/server/decode.rs:89-91.  The header is read from the start of
the receive buffer whatever the length field says. -/
def header : DecM FuseInHeader := fun d =>
  if Wire.size FuseInHeader ≤ d.mem.length then
    .ok (dec (d.mem.take (Wire.size FuseInHeader)), d)
  else .error (.fault .oob)

/-- `RequestDecoder::expect_opcode`, fuse/server/decode.rs:79-87. -/
def expectOpcode (opcode : UInt32) : DecM Unit := do
  let h ← header
  if h.opcode ≠ opcode then DecM.throwReq .opcodeMismatch

/-- `RequestDecoder::consume`, fuse/server/decode.rs:94-104. -/
def Decoder.consume (d : Decoder) (len : Nat) : Res Nat :=
  if d.consumed + len < 2 ^ 64 then
    if d.consumed + len > d.headerLen then .error (.req .unexpectedEof)
    else .ok (d.consumed + len)
  else .error (.req .unexpectedEof)

/-- `RequestDecoder::peek_sized`, fuse/server/decode.rs:106-113. -/
def peekSized (T : Type) [Wire T] : DecM T := fun d => do
  let _ ← d.consume (Wire.size T)
  let out ← d.deref T d.consumed
  return (out, d)

/-- `RequestDecoder::next_sized`, fuse/server/decode.rs:116-126. -/
def nextSized (T : Type) [Wire T] : DecM T := fun d => do
  let nextConsumed ← d.consume (Wire.size T)
  let out ← d.deref T d.consumed
  return (out, { d with consumed := nextConsumed })

/-- `RequestDecoder::next_bytes`, fuse/server/decode.rs:128-140. -/
def nextBytes (len : UInt32) : DecM Bytes := fun d => do
  let newConsumed ← d.consume len.toNat
  let out ← d.read d.consumed len.toNat
  return (out, { d with consumed := newConsumed })

/-- `*buf.get_unchecked(off)`. -/
def Decoder.byteAt (d : Decoder) (off : Nat) : Res UInt8 :=
  if off < d.headerLen then
    match d.mem[off]? with
    | some b => .ok b
    | none => .error (.fault .oob)
  else .error (.fault .oob)

/-- The loop of `next_node_name`, fuse/server/decode.rs:146-164; `n` iterations remain and the
current offset is `off`. -/
def Decoder.nameLoop (d : Decoder) : (n off : Nat) → Res (NodeName × Decoder)
  | 0, _ => .error (.req .unexpectedEof)
  | n + 1, off =>
    match d.byteAt off with
    | .error e => .error e
    | .ok c =>
      if c = 0x2F then .error (.req (.nodeNameError .containsSlash))
      else if c ≠ 0 then d.nameLoop n (off + 1)
      else if d.consumed = off then .error (.req (.nodeNameError .empty))
      else
        match d.read d.consumed (off - d.consumed) with
        | .error e => .error e
        | .ok bs =>
          match NodeName.fromBytesUnchecked bs with
          | .error f => .error (.fault f)
          | .ok name => .ok (name, { d with consumed := off + 1 })

/-- `RequestDecoder::next_node_name`, fuse/server/decode.rs:142-166. -/
def nextNodeName : DecM NodeName := fun d =>
  d.nameLoop (d.headerLen - d.consumed) d.consumed

/-- The loop of `next_cstr`, fuse/server/decode.rs:170-186.  Note line 175-177: an empty string is
returned without advancing past its NUL. -/
def Decoder.cstrLoop (d : Decoder) : (n off : Nat) → Res (CStr × Decoder)
  | 0, _ => .error (.req .unexpectedEof)
  | n + 1, off =>
    match d.byteAt off with
    | .error e => .error e
    | .ok c =>
      if c ≠ 0 then d.cstrLoop n (off + 1)
      else if d.consumed = off then .ok (⟨[]⟩, d)
      else
        match d.read d.consumed (off + 1 - d.consumed) with
        | .error e => .error e
        | .ok bs =>
          match CStr.fromBytesWithNulUnchecked bs with
          | .error f => .error (.fault f)
          | .ok s => .ok (s, { d with consumed := off + 1 })

/-- `RequestDecoder::next_cstr`, fuse/server/decode.rs:168-188. -/
def nextCstr : DecM CStr := fun d =>
  d.cstrLoop (d.headerLen - d.consumed) d.consumed

/-- `decode::node_id`, fuse/server/decode.rs:191-196. -/
def nodeId (raw : UInt64) : DecM NodeId :=
  match NodeId.new raw with
  | some x => pure x
  | none => DecM.throwReq .missingNodeId

/-- `decode::check_timespec_nanos`, fuse/server/decode.rs:198-203. -/
def checkTimespecNanos (nanos : UInt32) : DecM Unit :=
  if nanos > MAX_NANOS then DecM.throwReq .timestampOverflow else pure ()

end Fuse
