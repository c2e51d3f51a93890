import Verif.Server

/-!
# Notifications (fuse/notify.rs, FuseConnection::notify in fuse/server.rs)
-/

namespace Fuse
open Wire

/-- `ResponseHeader`, fuse/fuse.rs:274-276. -/
structure ResponseHeader where
  raw : FuseOutHeader
deriving DecidableEq, Repr

namespace ResponseHeader

/-- `ResponseHeader::new`, fuse/fuse.rs:287-295. -/
def new (requestId : NonZeroU64) : ResponseHeader := ⟨{ len := 16, unique := requestId.val, error := 0 }⟩

/-- `ResponseHeader::new_notification`, fuse/fuse.rs:302-310. -/
def newNotification : ResponseHeader := ⟨{ len := 16, unique := 0, error := 0 }⟩

/-- `ResponseHeader::request_id`, fuse/fuse.rs:317-319. -/
def requestId (h : ResponseHeader) : Option NonZeroU64 := NonZeroU64.new h.raw.unique

/-- `ResponseHeader::response_len`, fuse/fuse.rs:324-326. -/
def responseLen (h : ResponseHeader) : Except Fault { n : UInt32 // n ≠ 0 } :=
  if hn : h.raw.len ≠ 0 then .ok ⟨h.raw.len, hn⟩ else .error .invalid

/-- `ResponseHeader::set_response_len`, fuse/fuse.rs:330-332. -/
def setResponseLen (h : ResponseHeader) (n : { n : UInt32 // n ≠ 0 }) : ResponseHeader :=
  ⟨{ h.raw with len := n.val }⟩

/-- `ResponseHeader::error`, fuse/fuse.rs:340-342. -/
def error (h : ResponseHeader) : Option { n : Int32 // n ≠ 0 } :=
  if hn : h.raw.error ≠ 0 then some ⟨h.raw.error, hn⟩ else none

/-- `ResponseHeader::set_error`, fuse/fuse.rs:346-348. -/
def setError (h : ResponseHeader) (e : { n : Int32 // n ≠ 0 }) : ResponseHeader :=
  ⟨{ h.raw with error := e.val }⟩

end ResponseHeader

/-- `Delete`, fuse/notify.rs:117-120. -/
structure NotifyDelete where
  raw : FuseNotifyDeleteOut
  name : NodeName
deriving DecidableEq, Repr

/-- `Delete::new`, fuse/notify.rs:124-137. -/
def NotifyDelete.new (parentId nodeId : NodeId) (name : NodeName) : NotifyDelete :=
  ⟨{ parent := parentId.val, child := nodeId.val, namelen := UInt32.ofNat name.bytes.length }, name⟩

/-- `InvalidateEntry`, fuse/notify.rs:170-173. -/
structure InvalidateEntry where
  raw : FuseNotifyInvalEntryOut
  name : NodeName
deriving DecidableEq, Repr

/-- `InvalidateEntry::new`, fuse/notify.rs:177-188. -/
def InvalidateEntry.new (parentId : NodeId) (name : NodeName) : InvalidateEntry :=
  ⟨{ parent := parentId.val, namelen := UInt32.ofNat name.bytes.length }, name⟩

/-- `InvalidateInode`, fuse/notify.rs:215-217. -/
structure InvalidateInode where
  raw : FuseNotifyInvalInodeOut
deriving DecidableEq, Repr

/-- `u64::try_into::<i64>` with `i64::MAX` in place of an error, fuse/notify.rs:243-246 and 258-261. -/
def clampI64 (n : UInt64) : Int64 :=
  if n.toNat < 2 ^ 63 then n.toInt64 else Int64.maxValue

namespace InvalidateInode

/-- `InvalidateInode::new`, fuse/notify.rs:221-229. -/
def new (nodeId : NodeId) : InvalidateInode := ⟨{ ino := nodeId.val, off := 0, len := 0 }⟩

/-- `InvalidateInode::set_offset`, fuse/notify.rs:241-249. -/
def setOffset (n : InvalidateInode) (offset : Option UInt64) : InvalidateInode :=
  ⟨{ n.raw with off := match offset with
      | some o => clampI64 o
      | none => -1 }⟩

/-- `InvalidateInode::set_size`, fuse/notify.rs:256-264. -/
def setSize (n : InvalidateInode) (size : Option NonZeroU64) : InvalidateInode :=
  ⟨{ n.raw with len := match size with
      | some s => clampI64 s.val
      | none => 0 }⟩

end InvalidateInode

/-- `Poll`, fuse/notify.rs:282-284. -/
structure NotifyPoll where
  raw : FuseNotifyPollWakeupOut
deriving DecidableEq, Repr

/-- `Poll::new`, fuse/notify.rs:288-294. -/
def NotifyPoll.new (handle : UInt64) : NotifyPoll := ⟨{ kh := handle }⟩

/-- `FuseNotification`, fuse/notify.rs:30-35. -/
inductive FuseNotification
  | delete (d : NotifyDelete)
  | invalidateEntry (e : InvalidateEntry)
  | invalidateInode (i : InvalidateInode)
  | poll (p : NotifyPoll)
deriving DecidableEq, Repr

/-- `encode_notify`, fuse/notify.rs:71-104.  `new_unchecked` of a zero is `Fault.invalid`; additions
of lengths of objects in memory do not overflow. -/
def encodeNotify {T : Type} [Wire T] (header : ResponseHeader) (code : UInt32) (body : T)
    (name : Option Bytes) : Except Fault SendBuf :=
  let messageLen := 16 + Wire.size T
  let messageLen := match name with
    | some nameBytes => messageLen + nameBytes.length + 1
    | none => messageLen
  if hl : UInt32.ofNat messageLen ≠ 0 then
    let header := header.setResponseLen ⟨UInt32.ofNat messageLen, hl⟩
    if hc : code.toInt32 ≠ 0 then
      let header := header.setError ⟨code.toInt32, hc⟩
      match name with
      | some nameBytes => .ok (SendBuf.new4 messageLen (enc header.raw) (enc body) nameBytes [0])
      | none => .ok (SendBuf.new2 messageLen (enc header.raw) (enc body))
    else .error .invalid
  else .error .invalid

/-- `FuseNotification::encode`, fuse/notify.rs:38-68. -/
def FuseNotification.encode (n : FuseNotification) (header : ResponseHeader) : Except Fault SendBuf :=
  match n with
  | .poll p => encodeNotify header FUSE_NOTIFY_POLL p.raw none
  | .invalidateEntry e => encodeNotify header FUSE_NOTIFY_INVAL_ENTRY e.raw (some e.name.bytes)
  | .invalidateInode i => encodeNotify header FUSE_NOTIFY_INVAL_INODE i.raw none
  | .delete d => encodeNotify header FUSE_NOTIFY_DELETE d.raw (some d.name.bytes)

/-- `FuseConnection::notify`, fuse/server.rs:1344-1350. -/
def notify {σ ε : Type} (sock : Socket σ ε) (n : FuseNotification) (s : σ) :
    Except Fault (Except (SendError ε) Unit × σ) := do
  let buf ← n.encode ResponseHeader.newNotification
  pure (sock.send buf s)

end Fuse
