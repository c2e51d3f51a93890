import Verif.Server
import Verif.Layout
import Verif.ReadAt

/-!
# C17, C18, C19, C48, C49: replies

`frame` and the `payload`s below are written in terms of little-endian integers and record layouts
(`Layout.lean`), not in terms of the senders.  The socket is arbitrary throughout.
-/

set_option linter.unusedSimpArgs false

namespace Fuse
open Spec

variable {σ ε : Type}

/-! ## What a reply looks like -/

/-- A reply message: 16-byte header (total length, error, request ID), then the payload. -/
def frame (id : UInt64) (error : Int32) (payload : Bytes) : Bytes :=
  le32 (UInt32.ofNat (16 + payload.length)) ++ leI32 error ++ le64 id ++ payload

/-- `fuse_attr` up to protocol 7.8: no `blksize` and no `flags`. -/
def layout_fuse_attr_v7p1 (x : FuseAttr) : Bytes :=
  le64 x.ino ++ le64 x.size ++ le64 x.blocks ++ le64 x.atime ++ le64 x.mtime ++ le64 x.ctime ++
    le32 x.atimensec ++ le32 x.mtimensec ++ le32 x.ctimensec ++ le32 x.mode ++ le32 x.nlink ++
    le32 x.uid ++ le32 x.gid ++ le32 x.rdev

/-- The attributes in a reply of protocol 7.`minor`. -/
def attrBytes (minor : Nat) (x : FuseAttr) : Bytes :=
  if minor < 9 then layout_fuse_attr_v7p1 x else layout_fuse_attr x

/-- An `ENTRY` reply of protocol 7.`minor`. -/
def entryBytes (minor : Nat) (x : FuseEntryOut) : Bytes :=
  le64 x.nodeid ++ le64 x.generation ++ le64 x.entry_valid ++ le64 x.attr_valid ++
    le32 x.entry_valid_nsec ++ le32 x.attr_valid_nsec ++ attrBytes minor x.attr

/-- An `ATTR` reply of protocol 7.`minor`. -/
def attrOutBytes (minor : Nat) (x : FuseAttrOut) : Bytes :=
  le64 x.attr_valid ++ le32 x.attr_valid_nsec ++ le32 x.dummy ++ attrBytes minor x.attr

/-- A `STATFS` reply of protocol 7.`minor`: `frsize` and what follows exist from 7.4 on. -/
def statfsBytes (minor : Nat) (x : FuseKstatfs) : Bytes :=
  le64 x.blocks ++ le64 x.bfree ++ le64 x.bavail ++ le64 x.files ++ le64 x.ffree ++
    le32 x.bsize ++ le32 x.namelen ++
    (if minor < 4 then [] else le32 x.frsize ++ le32 x.padding ++ x.spare.bytes)

/-- An `INIT` reply; its layout depends on the minor version it announces. -/
def initBytes (x : FuseInitOut) : Bytes :=
  le32 x.major ++ le32 x.minor ++
    (if x.minor.toNat < 5 then [] else
      le32 x.max_readahead ++ le32 x.flags ++ le16 x.max_background ++
        le16 x.congestion_threshold ++ le32 x.max_write ++
      (if x.minor.toNat < 23 then [] else
        le32 x.time_gran ++ le16 x.max_pages ++ le16 x.map_alignment ++ le32 x.flags2 ++
          x.unused.bytes))

/-- Consecutive iovecs. -/
def iovecBytes (xs : List IoctlSlice) : Bytes := (xs.map fun x => le64 x.base ++ le64 x.len).flatten

/-- An `IOCTL` reply: the record, then either data or the input and output iovecs. -/
def ioctlBytes (x : IoctlResponse) : Bytes :=
  layout_fuse_ioctl_out x.raw ++
    match x.output with
    | .bytes output => output
    | .retry input output => iovecBytes input ++ iovecBytes output

/-- What follows the header, for every kind of successful FUSE reply at protocol 7.`minor`. -/
def FuseReply.payload (minor : Nat) : FuseReply → Bytes
  | .bmap x => le64 x.block
  | .getxattr x => le32 x.size ++ le32 x.padding
  | .lk x => layout_fuse_file_lock x.lk
  | .lseek x => le64 x.offset
  | .open_ x => le64 x.fh ++ le32 x.open_flags ++ le32 x.padding
  | .poll x => le32 x.revents ++ le32 x.padding
  | .write x => le32 x.size ++ le32 x.padding
  | .attr x => attrOutBytes minor x
  | .entryOut x => entryBytes minor x
  | .init x => initBytes x
  | .statfs x => statfsBytes minor x.st
  | .entry x => entryBytes minor x.raw
  | .readdirEntries buf => buf
  | .listxattrNames buf => buf
  | .ioctl x => ioctlBytes x
  | .create x =>
    entryBytes minor x.entry.raw ++
      (le64 x.openOut.fh ++ le32 x.openOut.open_flags ++ le32 x.openOut.padding)

/-- `"DEVNAME="` in ASCII. -/
def devname : Bytes := ['D', 'E', 'V', 'N', 'A', 'M', 'E', '='].map fun c => UInt8.ofNat c.toNat

/-- What follows the header, for every kind of successful CUSE reply. -/
def CuseReply.payload : CuseReply → Bytes
  | .open_ x => le64 x.fh ++ le32 x.open_flags ++ le32 x.padding
  | .write x => le32 x.size ++ le32 x.padding
  | .ioctl x => ioctlBytes x
  | .init x =>
    layout_cuse_init_out x.raw ++
      match x.deviceName with
      | some name => devname ++ name.bytes ++ [0]
      | none => []

/-- The methods of a FUSE reply sender. -/
inductive FuseAnswer
  | ok (reply : FuseReply)
  | okBuf (buf : Bytes)
  | okEmpty
  | err (e : FuseError)
deriving DecidableEq

/-- Calling the method. -/
def FuseAnswer.run (r : FuseReplySender σ ε) : FuseAnswer → σ → Except (SendError ε) Unit × σ
  | .ok reply => r.ok reply
  | .okBuf buf => r.okBuf buf
  | .okEmpty => r.okEmpty
  | .err e => r.err e

/-- The payload the method is to send. -/
def FuseAnswer.payload (minor : Nat) : FuseAnswer → Bytes
  | .ok reply => reply.payload minor
  | .okBuf buf => buf
  | .okEmpty => []
  | .err _ => []

/-- The error the method is to report. -/
def FuseAnswer.error : FuseAnswer → Int32
  | .err e => e.val
  | _ => 0

/-- The methods of a CUSE reply sender. -/
inductive CuseAnswer
  | ok (reply : CuseReply)
  | okBuf (buf : Bytes)
  | okEmpty
  | err (e : FuseError)
deriving DecidableEq

/-- Calling the method. -/
def CuseAnswer.run (r : CuseReplySender σ ε) : CuseAnswer → σ → Except (SendError ε) Unit × σ
  | .ok reply => r.ok reply
  | .okBuf buf => r.okBuf buf
  | .okEmpty => r.okEmpty
  | .err e => r.err e

/-- The payload the method is to send. -/
def CuseAnswer.payload : CuseAnswer → Bytes
  | .ok reply => reply.payload
  | .okBuf buf => buf
  | .okEmpty => []
  | .err _ => []

/-- The error the method is to report. -/
def CuseAnswer.error : CuseAnswer → Int32
  | .err e => e.val
  | _ => 0

/-- `msg` is exactly what `buf` contains, in at most five chunks, and `buf` knows its length. -/
def Carries (buf : SendBuf) (msg : Bytes) : Prop :=
  ∃ cs, buf.chunks = .ok cs ∧ cs.length ≤ 5 ∧ cs.flatten = msg ∧ buf.len = msg.length

/-- The outcome of sending one reply: refused without touching the socket if its total size is not
representable in the header, otherwise one call of the socket's `send` with the framed message. -/
def SendsOnce (sock : Socket σ ε) (id : UInt64) (error : Int32) (payload : Bytes) (s : σ)
    (out : Except (SendError ε) Unit × σ) : Prop :=
  (16 + payload.length < 2 ^ 32 →
    ∃ buf, Carries buf (frame id error payload) ∧ out = sock.send buf s) ∧
  (¬ 16 + payload.length < 2 ^ 32 →
    out = (.error (.replyTooBig (min (16 + payload.length) (2 ^ 64 - 1))), s))

/-! ## The senders -/

theorem frame_length (id error payload) : (frame id error payload).length = 16 + payload.length := by
  simp [frame]; omega

theorem enc_header (n : Nat) (e : Int32) (id : UInt64) :
    enc ({ len := UInt32.ofNat n, error := e, unique := id } : FuseOutHeader) =
      le32 (UInt32.ofNat n) ++ leI32 e ++ le64 id := by
  rw [enc_fuse_out_header]; rfl

theorem satLen_eq (a b : Nat) : satLen a b = min (a + b) (2 ^ 64 - 1) := by
  unfold satLen; split <;> omega

theorem send0_once (sock : Socket σ ε) (id : UInt64) (e : Int32) (s : σ) :
    SendsOnce sock id e [] s (ReplySender.send0 ⟨sock, id⟩ e s) := by
  refine ⟨fun _ => ⟨_, ?_, rfl⟩, fun h => absurd h (by decide)⟩
  refine ⟨_, rfl, by simp [SendBuf.new1], ?_, rfl⟩
  show [enc _].flatten = _
  rw [List.flatten_cons, enc_header]
  simp [frame]

theorem send1_once (sock : Socket σ ε) (id : UInt64) (b1 : Bytes) (s : σ) :
    SendsOnce sock id 0 b1 s (ReplySender.send1 ⟨sock, id⟩ b1 s) := by
  constructor
  · intro h
    have hl : satLen (Wire.size FuseOutHeader) b1.length = 16 + b1.length := by
      rw [satLen_eq]; show min (16 + _) _ = _; omega
    simp only [ReplySender.send1, hl]
    rw [if_neg (by omega)]
    refine ⟨_, ⟨_, rfl, by simp [SendBuf.new2, SendBuf.new3, SendBuf.new4, SendBuf.new5], ?_, ?_⟩, rfl⟩
    · show [enc _, b1].flatten = _
      simp only [List.flatten_cons, List.flatten_nil, enc_header, frame, List.append_assoc, List.append_nil]
    · rw [frame_length]; rfl
  · intro h
    have hl : satLen (Wire.size FuseOutHeader) b1.length = min (16 + b1.length) (2 ^ 64 - 1) := by
      rw [satLen_eq]; rfl
    simp only [ReplySender.send1, hl]
    rw [if_pos (by omega)]

theorem send2_once (sock : Socket σ ε) (id : UInt64) (b1 b2 : Bytes) (s : σ) :
    SendsOnce sock id 0 (b1 ++ b2) s (ReplySender.send2 ⟨sock, id⟩ b1 b2 s) := by
  have hl : satLen (satLen (Wire.size FuseOutHeader) b1.length) b2.length =
      min (16 + (b1 ++ b2).length) (2 ^ 64 - 1) := by
    simp only [satLen_eq, List.length_append]; show min (min (16 + _) _ + _) _ = _; omega
  simp only [ReplySender.send2, hl]
  constructor
  · intro h
    have hl : min (16 + (b1 ++ b2).length) (2 ^ 64 - 1) = 16 + (b1 ++ b2).length := by omega
    rw [hl, if_neg (by omega)]
    refine ⟨_, ⟨_, rfl, by simp [SendBuf.new2, SendBuf.new3, SendBuf.new4, SendBuf.new5], ?_, ?_⟩, rfl⟩
    · show [enc _, b1, b2].flatten = _
      simp only [List.flatten_cons, List.flatten_nil, enc_header, frame, List.append_assoc, List.append_nil]
    · rw [frame_length]; rfl
  · intro h
    rw [if_pos (by omega)]

theorem send3_once (sock : Socket σ ε) (id : UInt64) (b1 b2 b3 : Bytes) (s : σ) :
    SendsOnce sock id 0 (b1 ++ (b2 ++ b3)) s (ReplySender.send3 ⟨sock, id⟩ b1 b2 b3 s) := by
  have hl : satLen (satLen (satLen (Wire.size FuseOutHeader) b1.length) b2.length) b3.length =
      min (16 + (b1 ++ (b2 ++ b3)).length) (2 ^ 64 - 1) := by
    simp only [satLen_eq, List.length_append]
    show min (min (min (16 + _) _ + _) _ + _) _ = _; omega
  simp only [ReplySender.send3, hl]
  constructor
  · intro h
    have hl : min (16 + (b1 ++ (b2 ++ b3)).length) (2 ^ 64 - 1) = 16 + (b1 ++ (b2 ++ b3)).length := by
      omega
    rw [hl, if_neg (by omega)]
    refine ⟨_, ⟨_, rfl, by simp [SendBuf.new2, SendBuf.new3, SendBuf.new4, SendBuf.new5], ?_, ?_⟩, rfl⟩
    · show [enc _, b1, b2, b3].flatten = _
      simp only [List.flatten_cons, List.flatten_nil, enc_header, frame, List.append_assoc, List.append_nil]
    · rw [frame_length]; rfl
  · intro h
    rw [if_pos (by omega)]

theorem send4_once (sock : Socket σ ε) (id : UInt64) (b1 b2 b3 b4 : Bytes) (s : σ) :
    SendsOnce sock id 0 (b1 ++ (b2 ++ (b3 ++ b4))) s
      (ReplySender.send4 ⟨sock, id⟩ b1 b2 b3 b4 s) := by
  have hl : satLen (satLen (satLen (satLen (Wire.size FuseOutHeader) b1.length) b2.length) b3.length)
      b4.length = min (16 + (b1 ++ (b2 ++ (b3 ++ b4))).length) (2 ^ 64 - 1) := by
    simp only [satLen_eq, List.length_append]
    show min (min (min (min (16 + _) _ + _) _ + _) _ + _) _ = _; omega
  simp only [ReplySender.send4, hl]
  constructor
  · intro h
    have hl : min (16 + (b1 ++ (b2 ++ (b3 ++ b4))).length) (2 ^ 64 - 1) =
        16 + (b1 ++ (b2 ++ (b3 ++ b4))).length := by omega
    rw [hl, if_neg (by omega)]
    refine ⟨_, ⟨_, rfl, by simp [SendBuf.new2, SendBuf.new3, SendBuf.new4, SendBuf.new5], ?_, ?_⟩, rfl⟩
    · show [enc _, b1, b2, b3, b4].flatten = _
      simp only [List.flatten_cons, List.flatten_nil, enc_header, frame, List.append_assoc, List.append_nil]
    · rw [frame_length]; rfl
  · intro h
    rw [if_pos (by omega)]

/-! ## Payloads -/

theorem enc_ioctl_slice (x : IoctlSlice) : enc x = le64 x.base ++ le64 x.len := by
  show enc (x.base, x.len) = _
  simp only [enc_prod, enc_u64]

theorem sliceBytes_eq (xs : List IoctlSlice) : sliceBytes xs = iovecBytes xs := by
  induction xs with
  | nil => rfl
  | cons x xs ih =>
    have : sliceBytes (x :: xs) = enc x ++ sliceBytes xs := rfl
    rw [this, ih, enc_ioctl_slice]; rfl

theorem take_left_len {α : Type} {a b : List α} {n : Nat} (h : a.length = n) : (a ++ b).take n = a := by
  rw [← h, List.take_left]

theorem layout_attr_split (x : FuseAttr) :
    layout_fuse_attr x = layout_fuse_attr_v7p1 x ++ (le32 x.blksize ++ le32 x.flags) := by
  simp only [layout_fuse_attr, layout_fuse_attr_v7p1, List.append_assoc]

theorem attr_v7p1_length (x : FuseAttr) : (layout_fuse_attr_v7p1 x).length = 80 := by
  simp [layout_fuse_attr_v7p1]

theorem replyMinor_lt (l : FuseLayout) (n : UInt32) : (l.minor < n) ↔ l.versionMinor.toNat < n.toNat := by
  rw [UInt32.lt_iff_toNat_lt]; simp [FuseLayout.minor]

theorem attr_payload (m : Nat) (x : FuseAttrOut) :
    (if m < 9 then (enc x).take FUSE_COMPAT_ATTR_OUT_SIZE else enc x) = attrOutBytes m x := by
  rw [enc_fuse_attr_out]
  unfold attrOutBytes attrBytes layout_fuse_attr_out
  split
  · rw [layout_attr_split, ← List.append_assoc, take_left_len]
    simp [attr_v7p1_length]
  · rfl

theorem entry_payload (m : Nat) (x : FuseEntryOut) :
    (if m < 9 then (enc x).take FUSE_COMPAT_ENTRY_OUT_SIZE else enc x) = entryBytes m x := by
  rw [enc_fuse_entry_out]
  unfold entryBytes attrBytes layout_fuse_entry_out
  split
  · rw [layout_attr_split, ← List.append_assoc, take_left_len]
    simp [attr_v7p1_length]
  · rfl

theorem statfs_payload (m : Nat) (x : FuseStatfsOut) :
    (if m < 4 then (enc x).take FUSE_COMPAT_STATFS_SIZE else enc x) = statfsBytes m x.st := by
  rw [enc_fuse_statfs_out]
  unfold statfsBytes layout_fuse_statfs_out layout_fuse_kstatfs
  split
  · simp only [List.append_nil]
    rw [List.append_assoc, List.append_assoc, take_left_len (by simp)]
  · simp only [List.append_assoc]

theorem init_payload (x : FuseInitOut) :
    (if x.minor < 5 then (enc x).take FUSE_COMPAT_INIT_OUT_SIZE
      else if x.minor < 23 then (enc x).take FUSE_COMPAT_22_INIT_OUT_SIZE
      else enc x) = initBytes x := by
  rw [enc_fuse_init_out]
  have h5 : x.minor < 5 ↔ x.minor.toNat < 5 := by rw [UInt32.lt_iff_toNat_lt]; rfl
  have h23 : x.minor < 23 ↔ x.minor.toNat < 23 := by rw [UInt32.lt_iff_toNat_lt]; rfl
  simp only [h5, h23]
  unfold initBytes layout_fuse_init_out
  split
  · simp only [List.append_nil, List.append_assoc]
    rw [← List.append_assoc, take_left_len (by simp)]
  · split
    · simp only [List.append_nil]
      simp only [List.append_assoc]
      rw [← List.append_assoc, ← List.append_assoc, ← List.append_assoc, ← List.append_assoc,
        ← List.append_assoc, ← List.append_assoc, take_left_len (by simp)]
      simp only [List.append_assoc]
    · simp only [List.append_assoc]

theorem ioctl_once (sock : Socket σ ε) (id : UInt64) (x : IoctlResponse) (s : σ) :
    SendsOnce sock id 0 (ioctlBytes x) s (x.sendTo ⟨sock, id⟩ s) := by
  unfold IoctlResponse.sendTo ioctlBytes
  cases x.output with
  | bytes o => simp only [enc_fuse_ioctl_out]; exact send2_once ..
  | retry i o => simp only [enc_fuse_ioctl_out, sliceBytes_eq]; exact send3_once ..

theorem fuse_reply_once (sock : Socket σ ε) (layout : FuseLayout) (id : NonZeroU64)
    (reply : FuseReply) (s : σ) :
    SendsOnce sock id.val 0 (reply.payload layout.versionMinor.toNat) s
      (reply.sendTo (.new sock layout id) s) := by
  have hm : ∀ n : UInt32, (layout.minor < n) ↔ layout.versionMinor.toNat < n.toNat := replyMinor_lt layout
  have hc : layout.versionMinor < 9 ↔ layout.versionMinor.toNat < 9 := by
    rw [UInt16.lt_iff_toNat_lt]; rfl
  have h9 : (9 : UInt32).toNat = 9 := rfl
  have h4 : (4 : UInt32).toNat = 4 := rfl
  cases reply with
  | bmap x =>
    show SendsOnce sock id.val 0 (layout_fuse_bmap_out x) s (ReplySender.send1 ⟨sock, id.val⟩ (enc x) s)
    rw [enc_fuse_bmap_out]; exact send1_once ..
  | getxattr x =>
    show SendsOnce sock id.val 0 (layout_fuse_getxattr_out x) s (ReplySender.send1 ⟨sock, id.val⟩ (enc x) s)
    rw [enc_fuse_getxattr_out]; exact send1_once ..
  | lk x =>
    show SendsOnce sock id.val 0 (layout_fuse_lk_out x) s (ReplySender.send1 ⟨sock, id.val⟩ (enc x) s)
    rw [enc_fuse_lk_out]; exact send1_once ..
  | lseek x =>
    show SendsOnce sock id.val 0 (layout_fuse_lseek_out x) s (ReplySender.send1 ⟨sock, id.val⟩ (enc x) s)
    rw [enc_fuse_lseek_out]; exact send1_once ..
  | open_ x =>
    show SendsOnce sock id.val 0 (layout_fuse_open_out x) s (ReplySender.send1 ⟨sock, id.val⟩ (enc x) s)
    rw [enc_fuse_open_out]; exact send1_once ..
  | poll x =>
    show SendsOnce sock id.val 0 (layout_fuse_poll_out x) s (ReplySender.send1 ⟨sock, id.val⟩ (enc x) s)
    rw [enc_fuse_poll_out]; exact send1_once ..
  | write x =>
    show SendsOnce sock id.val 0 (layout_fuse_write_out x) s (ReplySender.send1 ⟨sock, id.val⟩ (enc x) s)
    rw [enc_fuse_write_out]; exact send1_once ..
  | attr x =>
    simp only [FuseReply.sendTo, sendAttrOut, FuseReplySender.new, hm, h9, attr_payload]
    exact send1_once ..
  | entryOut x =>
    simp only [FuseReply.sendTo, sendEntryOut, FuseReplySender.new, hm, h9, entry_payload]
    exact send1_once ..
  | init x =>
    simp only [FuseReply.sendTo, sendInitOut, FuseReplySender.new, init_payload]
    exact send1_once ..
  | statfs x =>
    simp only [FuseReply.sendTo, sendStatfsOut, FuseReplySender.new, hm, h4, statfs_payload]
    exact send1_once ..
  | entry x =>
    simp only [FuseReply.sendTo, sendEntryOut, FuseReplySender.new, hm, h9, entry_payload]
    exact send1_once ..
  | readdirEntries buf => exact send1_once ..
  | listxattrNames buf => exact send1_once ..
  | ioctl x => exact ioctl_once ..
  | create x =>
    simp only [FuseReply.sendTo, sendCreate, FuseReplySender.new, hc, entry_payload,
      enc_fuse_open_out]
    exact send2_once ..

theorem devname_eq : devnamePrefix = devname := by decide

theorem cuse_reply_once (sock : Socket σ ε) (layout : CuseLayout) (id : NonZeroU64)
    (reply : CuseReply) (s : σ) :
    SendsOnce sock id.val 0 reply.payload s (reply.sendTo (.new sock layout id) s) := by
  cases reply with
  | open_ x =>
    show SendsOnce sock id.val 0 (layout_fuse_open_out x) s (ReplySender.send1 ⟨sock, id.val⟩ (enc x) s)
    rw [enc_fuse_open_out]; exact send1_once ..
  | write x =>
    show SendsOnce sock id.val 0 (layout_fuse_write_out x) s (ReplySender.send1 ⟨sock, id.val⟩ (enc x) s)
    rw [enc_fuse_write_out]; exact send1_once ..
  | ioctl x => exact ioctl_once ..
  | init x =>
    unfold CuseReply.payload
    simp only [CuseReply.sendTo, CuseInitResponse.sendTo, CuseReplySender.new]
    cases x.deviceName with
    | none => simp only [enc_cuse_init_out, List.append_nil]; exact send1_once ..
    | some name =>
      simp only [enc_cuse_init_out, devname_eq, List.append_assoc]; exact send4_once ..

theorem fuse_answer_once (sock : Socket σ ε) (layout : FuseLayout) (id : NonZeroU64)
    (a : FuseAnswer) (s : σ) :
    SendsOnce sock id.val a.error (a.payload layout.versionMinor.toNat) s
      (a.run (.new sock layout id) s) := by
  cases a with
  | ok reply => exact fuse_reply_once ..
  | okBuf buf => exact send1_once ..
  | okEmpty => exact send0_once ..
  | err e => exact send0_once ..

theorem cuse_answer_once (sock : Socket σ ε) (layout : CuseLayout) (id : NonZeroU64)
    (a : CuseAnswer) (s : σ) :
    SendsOnce sock id.val a.error a.payload s (a.run (.new sock layout id) s) := by
  cases a with
  | ok reply => exact cuse_reply_once ..
  | okBuf buf => exact send1_once ..
  | okEmpty => exact send0_once ..
  | err e => exact send0_once ..

/-! ## C17 and C18 -/

/-- C17 (FUSE): whatever the reply method, request ID, negotiated version and payload, as long as the
total size fits the header's length field, the socket is called once, with one message: a 16-byte
header with the total length, the error and the request's ID, then the payload. -/
theorem C17_fuse (sock : Socket σ ε) (layout : FuseLayout) (id : NonZeroU64) (a : FuseAnswer) (s : σ)
    (h : 16 + (a.payload layout.versionMinor.toNat).length < 2 ^ 32) :
    ∃ buf, Carries buf (frame id.val a.error (a.payload layout.versionMinor.toNat)) ∧
      a.run (.new sock layout id) s = sock.send buf s :=
  (fuse_answer_once sock layout id a s).1 h

/-- C17 (CUSE). -/
theorem C17_cuse (sock : Socket σ ε) (layout : CuseLayout) (id : NonZeroU64) (a : CuseAnswer) (s : σ)
    (h : 16 + a.payload.length < 2 ^ 32) :
    ∃ buf, Carries buf (frame id.val a.error a.payload) ∧
      a.run (.new sock layout id) s = sock.send buf s :=
  (cuse_answer_once sock layout id a s).1 h

/-- C17: a client reading a framed message finds its exact size, the error, the request ID and the
payload. -/
theorem C17_frame (id : UInt64) (error : Int32) (payload : Bytes)
    (h : 16 + payload.length < 2 ^ 32) :
    u32At (frame id error payload) 0 = (frame id error payload).length ∧
    u32At (frame id error payload) 4 = error.toUInt32.toNat ∧
    u64At (frame id error payload) 8 = id.toNat ∧
    (frame id error payload).drop 16 = payload := by
  rw [frame_length]
  unfold frame
  refine ⟨?_, by read_at, by read_at, ?_⟩
  · read_at; rw [UInt32.toNat_ofNat']; omega
  · exact List.drop_left' (by simp)

/-- C17: errors are exactly the ones given: an error reply carries a non-zero error and nothing else,
every other reply carries error 0. -/
theorem C17_error (a : FuseAnswer) (m : Nat) :
    (∀ e, a = .err e → a.error = e.val ∧ a.error ≠ 0 ∧ a.payload m = []) ∧
    ((∀ e, a ≠ .err e) → a.error = 0) := by
  cases a with
  | err e =>
    refine ⟨fun e' h => ?_, fun h => absurd rfl (h e)⟩
    cases h; exact ⟨rfl, e.2, rfl⟩
  | ok _ => exact ⟨fun _ h => (by cases h), fun _ => rfl⟩
  | okBuf _ => exact ⟨fun _ h => (by cases h), fun _ => rfl⟩
  | okEmpty => exact ⟨fun _ h => (by cases h), fun _ => rfl⟩

/-- C18 (FUSE): a reply of more than `u32::MAX` bytes is refused with its size (clamped to the
largest 64-bit number) and the socket is untouched. -/
theorem C18_fuse (sock : Socket σ ε) (layout : FuseLayout) (id : NonZeroU64) (a : FuseAnswer) (s : σ)
    (h : 16 + (a.payload layout.versionMinor.toNat).length > 0xFFFFFFFF) :
    a.run (.new sock layout id) s =
      (.error (.replyTooBig
        (min (16 + (a.payload layout.versionMinor.toNat).length) (2 ^ 64 - 1))), s) :=
  (fuse_answer_once sock layout id a s).2 (by omega)

/-- C18 (CUSE). -/
theorem C18_cuse (sock : Socket σ ε) (layout : CuseLayout) (id : NonZeroU64) (a : CuseAnswer) (s : σ)
    (h : 16 + a.payload.length > 0xFFFFFFFF) :
    a.run (.new sock layout id) s =
      (.error (.replyTooBig (min (16 + a.payload.length) (2 ^ 64 - 1))), s) :=
  (cuse_answer_once sock layout id a s).2 (by omega)

/-- A socket that records what it is given and answers `r`. -/
def recorder (r : Except (SendError ε) Unit) : Socket (List SendBuf) ε where
  recv buf s := ((.ok 0, buf), s)
  recv_length _ _ := rfl
  send buf s := (r, s ++ [buf])

/-- C18: exactly-once, seen by a recording socket: after any reply the record has grown by exactly
one complete message, or by nothing if the reply was refused as too big. -/
theorem C18_exactly_once (r : Except (SendError ε) Unit) (layout : FuseLayout) (id : NonZeroU64)
    (a : FuseAnswer) (s : List SendBuf) :
    let n := 16 + (a.payload layout.versionMinor.toNat).length
    let out := a.run (.new (recorder r) layout id) s
    (n ≤ 0xFFFFFFFF →
      out.1 = r ∧ ∃ buf, out.2 = s ++ [buf] ∧
        Carries buf (frame id.val a.error (a.payload layout.versionMinor.toNat))) ∧
    (n > 0xFFFFFFFF → out.1 = .error (.replyTooBig (min n (2 ^ 64 - 1))) ∧ out.2 = s) := by
  intro n out
  constructor
  · intro h
    obtain ⟨buf, hc, ho⟩ := C17_fuse (recorder r) layout id a s (by omega)
    have : out = (r, s ++ [buf]) := ho
    rw [this]
    exact ⟨rfl, buf, rfl, hc⟩
  · intro h
    have : out = (.error (.replyTooBig (min n (2 ^ 64 - 1))), s) := C18_fuse _ _ _ _ _ h
    rw [this]; exact ⟨rfl, rfl⟩

/-! ### Concrete replies -/

/-- Replying `ENOENT` (-2) to request 7. -/
example : FuseAnswer.run (ε := Unit)
    (.new (recorder (.ok ())) ⟨31, 0⟩ ⟨7, by decide⟩) (.err ⟨-2, by decide⟩) [] =
    (.ok (), [⟨16, [[16, 0, 0, 0, 0xFE, 0xFF, 0xFF, 0xFF, 7, 0, 0, 0, 0, 0, 0, 0], [], [], [], []],
      1⟩]) := by decide

/-- Replying to a WRITE of 300 bytes. -/
example : FuseAnswer.run (ε := Unit)
    (.new (recorder (.ok ())) ⟨31, 0⟩ ⟨258, by decide⟩) (.ok (.write { size := 300 })) [] =
    (.ok (), [⟨24, [[24, 0, 0, 0, 0, 0, 0, 0, 2, 1, 0, 0, 0, 0, 0, 0], [44, 1, 0, 0, 0, 0, 0, 0],
      [], [], []], 2⟩]) := by decide

/-- A reply of exactly 2^32 bytes is the smallest one refused. -/
example (buf : Bytes) (h : buf.length = 2 ^ 32 - 16) (s : List SendBuf) :
    FuseAnswer.run (ε := Unit) (.new (recorder (.ok ())) ⟨31, 0⟩ ⟨1, by decide⟩) (.okBuf buf) s =
      (.error (.replyTooBig (2 ^ 32)), s) := by
  have := C18_fuse (ε := Unit) (recorder (.ok ())) ⟨31, 0⟩ ⟨1, by decide⟩ (.okBuf buf) s
    (by simp only [FuseAnswer.payload, h]; decide)
  simp only [FuseAnswer.payload, h] at this
  exact this

/-! ## C19: layouts by version -/

/-- Attributes as a client reads them; the last two fields exist from 7.9 on. -/
structure ClientAttr where
  ino : Nat
  size : Nat
  blocks : Nat
  atime : Nat
  mtime : Nat
  ctime : Nat
  atimensec : Nat
  mtimensec : Nat
  ctimensec : Nat
  mode : Nat
  nlink : Nat
  uid : Nat
  gid : Nat
  rdev : Nat
  newer : Option (Nat × Nat)
deriving DecidableEq, Repr

/-- A client of protocol 7.`minor` reading `struct fuse_attr` at offset `o`. -/
def clientAttr (minor : Nat) (p : Bytes) (o : Nat) : ClientAttr :=
  { ino := u64At p o, size := u64At p (o + 8), blocks := u64At p (o + 16)
    atime := u64At p (o + 24), mtime := u64At p (o + 32), ctime := u64At p (o + 40)
    atimensec := u32At p (o + 48), mtimensec := u32At p (o + 52), ctimensec := u32At p (o + 56)
    mode := u32At p (o + 60), nlink := u32At p (o + 64), uid := u32At p (o + 68)
    gid := u32At p (o + 72), rdev := u32At p (o + 76)
    newer := if minor < 9 then none else some (u32At p (o + 80), u32At p (o + 84)) }

/-- What the server set. -/
def serverAttr (minor : Nat) (x : FuseAttr) : ClientAttr :=
  { ino := x.ino.toNat, size := x.size.toNat, blocks := x.blocks.toNat
    atime := x.atime.toNat, mtime := x.mtime.toNat, ctime := x.ctime.toNat
    atimensec := x.atimensec.toNat, mtimensec := x.mtimensec.toNat
    ctimensec := x.ctimensec.toNat, mode := x.mode.toNat, nlink := x.nlink.toNat
    uid := x.uid.toNat, gid := x.gid.toNat, rdev := x.rdev.toNat
    newer := if minor < 9 then none else some (x.blksize.toNat, x.flags.toNat) }

/-- The size of an `ATTR` reply by version. -/
def attrOutSize (minor : Nat) : Nat := if minor < 9 then 96 else 104
/-- The size of an `ENTRY` reply by version. -/
def entryOutSize (minor : Nat) : Nat := if minor < 9 then 120 else 128
/-- The size of a `STATFS` reply by version. -/
def statfsOutSize (minor : Nat) : Nat := if minor < 4 then 48 else 80
/-- The size of an `INIT` reply by version. -/
def initOutSize (minor : Nat) : Nat := if minor < 5 then 8 else if minor < 23 then 24 else 64

theorem attrBytes_length (m x) : (attrBytes m x).length = if m < 9 then 80 else 88 := by
  unfold attrBytes; split
  · exact attr_v7p1_length x
  · rw [layout_attr_split, List.length_append, attr_v7p1_length]; rfl

theorem clientAttr_eq (m : Nat) (x : FuseAttr) (post : Bytes) :
    clientAttr m (attrBytes m x ++ post) 0 = serverAttr m x := by
  unfold clientAttr serverAttr attrBytes layout_fuse_attr layout_fuse_attr_v7p1
  simp only [Nat.zero_add]
  split
  · read_at
  · read_at

theorem clientAttr_append (m : Nat) (a p : Bytes) (k : Nat) (h : a.length = k) :
    clientAttr m (a ++ p) k = clientAttr m p 0 := by
  subst h
  have h64 (j : Nat) : u64At (a ++ p) (a.length + j) = u64At p j := by
    rw [Nat.add_comm]; exact u64At_append a p j
  have h32 (j : Nat) : u32At (a ++ p) (a.length + j) = u32At p j := by
    rw [Nat.add_comm]; exact u32At_append a p j
  have h0 : u64At (a ++ p) a.length = u64At p 0 := h64 0
  unfold clientAttr
  simp only [h64, h32, h0, Nat.zero_add]

/-- C19: `ATTR` replies have the prescribed size and a client of that version reads back the fields
the server set. -/
theorem C19_attr (m : Nat) (x : FuseAttrOut) :
    let p := (FuseReply.attr x).payload m
    p.length = attrOutSize m ∧
    u64At p 0 = x.attr_valid.toNat ∧ u32At p 8 = x.attr_valid_nsec.toNat ∧
    clientAttr m p 16 = serverAttr m x.attr := by
  refine ⟨?_, ?_, ?_, ?_⟩ <;> simp only [FuseReply.payload, attrOutBytes]
  · simp only [List.length_append, attrBytes_length, le64_length, le32_length]
    unfold attrOutSize; split <;> rfl
  · read_at
  · read_at
  · rw [clientAttr_append _ _ _ 16 (by simp)]
    have := clientAttr_eq m x.attr []; rwa [List.append_nil] at this

/-- Reading an `ENTRY` reply: node ID, generation, timeouts, attributes. -/
theorem client_entry (m : Nat) (x : FuseEntryOut) (post : Bytes) :
    let p := entryBytes m x ++ post
    u64At p 0 = x.nodeid.toNat ∧ u64At p 8 = x.generation.toNat ∧
    u64At p 16 = x.entry_valid.toNat ∧ u64At p 24 = x.attr_valid.toNat ∧
    u32At p 32 = x.entry_valid_nsec.toNat ∧ u32At p 36 = x.attr_valid_nsec.toNat ∧
    clientAttr m p 40 = serverAttr m x.attr := by
  refine ⟨?_, ?_, ?_, ?_, ?_, ?_, ?_⟩ <;> simp only [entryBytes]
  · read_at
  · read_at
  · read_at
  · read_at
  · read_at
  · read_at
  · rw [List.append_assoc, clientAttr_append _ _ _ 40 (by simp)]
    exact clientAttr_eq m x.attr post

theorem entryBytes_length (m x) : (entryBytes m x).length = entryOutSize m := by
  simp only [entryBytes, List.length_append, attrBytes_length, le64_length, le32_length]
  unfold entryOutSize; split <;> rfl

/-- C19: `ENTRY` replies (both as raw records and as `Entry`). -/
theorem C19_entry (m : Nat) (x : Entry) :
    let p := (FuseReply.entry x).payload m
    p = (FuseReply.entryOut x.raw).payload m ∧ p.length = entryOutSize m ∧
    u64At p 0 = x.raw.nodeid.toNat ∧ u64At p 8 = x.raw.generation.toNat ∧
    u64At p 16 = x.raw.entry_valid.toNat ∧ u64At p 24 = x.raw.attr_valid.toNat ∧
    u32At p 32 = x.raw.entry_valid_nsec.toNat ∧ u32At p 36 = x.raw.attr_valid_nsec.toNat ∧
    clientAttr m p 40 = serverAttr m x.raw.attr := by
  refine ⟨rfl, entryBytes_length m x.raw, ?_⟩
  have := client_entry m x.raw []
  rwa [List.append_nil] at this

/-- C19: `CREATE` replies: an entry of the version's size, directly followed by the open record. -/
theorem C19_create (m : Nat) (x : CreateResponse) :
    let p := (FuseReply.create x).payload m
    let o := entryOutSize m
    p.length = o + 16 ∧
    u64At p 0 = x.entry.raw.nodeid.toNat ∧ u64At p 8 = x.entry.raw.generation.toNat ∧
    u64At p 16 = x.entry.raw.entry_valid.toNat ∧ u64At p 24 = x.entry.raw.attr_valid.toNat ∧
    u32At p 32 = x.entry.raw.entry_valid_nsec.toNat ∧
    u32At p 36 = x.entry.raw.attr_valid_nsec.toNat ∧
    clientAttr m p 40 = serverAttr m x.entry.raw.attr ∧
    u64At p o = x.openOut.fh.toNat ∧ u32At p (o + 8) = x.openOut.open_flags.toNat := by
  intro p o
  have hc := client_entry m x.entry.raw
    (le64 x.openOut.fh ++ le32 x.openOut.open_flags ++ le32 x.openOut.padding)
  obtain ⟨h1, h2, h3, h4, h5, h6, h7⟩ := hc
  have hl := entryBytes_length m x.entry.raw
  refine ⟨?_, h1, h2, h3, h4, h5, h6, h7, ?_, ?_⟩
  · show (entryBytes m x.entry.raw ++ _).length = _
    simp only [List.length_append, hl, le64_length, le32_length]; rfl
  · show u64At (entryBytes m x.entry.raw ++ _) (entryOutSize m) = _
    have := u64At_append (entryBytes m x.entry.raw)
      (le64 x.openOut.fh ++ le32 x.openOut.open_flags ++ le32 x.openOut.padding) 0
    rw [hl, Nat.zero_add] at this
    rw [this]; read_at
  · show u32At (entryBytes m x.entry.raw ++ _) (entryOutSize m + 8) = _
    have := u32At_append (entryBytes m x.entry.raw)
      (le64 x.openOut.fh ++ le32 x.openOut.open_flags ++ le32 x.openOut.padding) 8
    rw [hl, Nat.add_comm] at this
    rw [this]; read_at

/-- C19: `STATFS` replies. -/
theorem C19_statfs (m : Nat) (x : FuseStatfsOut) :
    let p := (FuseReply.statfs x).payload m
    p.length = statfsOutSize m ∧
    u64At p 0 = x.st.blocks.toNat ∧ u64At p 8 = x.st.bfree.toNat ∧
    u64At p 16 = x.st.bavail.toNat ∧ u64At p 24 = x.st.files.toNat ∧
    u64At p 32 = x.st.ffree.toNat ∧ u32At p 40 = x.st.bsize.toNat ∧
    u32At p 44 = x.st.namelen.toNat ∧ (¬ m < 4 → u32At p 48 = x.st.frsize.toNat) := by
  have hs : x.st.spare.bytes.length = 24 := x.st.spare.len
  refine ⟨?_, ?_, ?_, ?_, ?_, ?_, ?_, ?_, ?_⟩ <;> simp only [FuseReply.payload, statfsBytes]
  · simp only [List.length_append, le64_length, le32_length]
    unfold statfsOutSize
    split
    · rfl
    · simp only [List.length_append, le32_length, hs]
  all_goals try (intro h; rw [if_neg h])
  all_goals read_at

/-- C19: `INIT` replies; the version is the one in the reply. -/
theorem C19_init (m : Nat) (x : FuseInitOut) :
    let p := (FuseReply.init x).payload m
    p.length = initOutSize x.minor.toNat ∧
    u32At p 0 = x.major.toNat ∧ u32At p 4 = x.minor.toNat ∧
    (¬ x.minor.toNat < 5 →
      u32At p 8 = x.max_readahead.toNat ∧ u32At p 12 = x.flags.toNat ∧
      u16At p 16 = x.max_background.toNat ∧ u16At p 18 = x.congestion_threshold.toNat ∧
      u32At p 20 = x.max_write.toNat) ∧
    (¬ x.minor.toNat < 23 →
      u32At p 24 = x.time_gran.toNat ∧ u16At p 28 = x.max_pages.toNat ∧
      u16At p 30 = x.map_alignment.toNat ∧ u32At p 32 = x.flags2.toNat) := by
  have hs : x.unused.bytes.length = 28 := x.unused.len
  refine ⟨?_, ?_, ?_, fun h => ?_, fun h => ?_⟩ <;> simp only [FuseReply.payload, initBytes]
  · simp only [List.length_append, le32_length]
    unfold initOutSize
    split
    · rfl
    · split
      · simp
      · simp [hs]
  · read_at
  · read_at
  · rw [if_neg h]
    refine ⟨?_, ?_, ?_, ?_, ?_⟩ <;> read_at
  · rw [if_neg h, if_neg (by omega)]
    refine ⟨?_, ?_, ?_, ?_⟩ <;> read_at

set_option maxRecDepth 4000 in
/-- C19 on a 7.8 connection: a 120-byte entry followed by the open record, the handle right behind
it. -/
example :
    let x : CreateResponse :=
      { entry := ⟨{ nodeid := 5, attr := { ino := 5, mode := 0o100644, blksize := 512 } }⟩
        openOut := { fh := 77 } }
    let p := (FuseReply.create x).payload 8
    p.length = 136 ∧ u64At p 120 = 77 ∧ u32At p 100 = 0o100644 ∧
    ((FuseReply.create x).payload 9).length = 144 ∧ u32At ((FuseReply.create x).payload 9) 120 = 512 := by
  decide

/-! ## C48: message buffers -/

/-- C48: every buffer a FUSE or CUSE reply hands to a socket has at most five chunks whose
concatenation has the advertised length. -/
theorem C48_replies (layout : FuseLayout) (cuse : CuseLayout) (id : NonZeroU64) (a : FuseAnswer)
    (c : CuseAnswer) (r : Except (SendError ε) Unit) :
    ∀ buf, buf ∈ (a.run (.new (recorder r) layout id) []).2 ∨
        buf ∈ (c.run (.new (recorder r) cuse id) []).2 →
      ∃ cs, buf.chunks = .ok cs ∧ buf.chunksLen' = .ok cs.length ∧ cs.length ≤ 5 ∧
        cs.flatten.length = buf.len := by
  have key : ∀ buf msg, Carries buf msg → ∃ cs, buf.chunks = .ok cs ∧
      buf.chunksLen' = .ok cs.length ∧ cs.length ≤ 5 ∧ cs.flatten.length = buf.len := by
    rintro buf msg ⟨cs, h1, h2, h3, h4⟩
    refine ⟨cs, h1, ?_, h2, by rw [h3, h4]⟩
    unfold SendBuf.chunks at h1
    unfold SendBuf.chunksLen' at h1 ⊢
    by_cases hle : buf.chunksLen ≤ MAX_CHUNKS_LEN
    · rw [if_pos hle] at h1 ⊢
      by_cases hb : buf.chunksLen ≤ buf.arr.length
      · have h1 : (if buf.chunksLen ≤ buf.arr.length then
            (Except.ok (buf.arr.take buf.chunksLen) : Except Fault _) else .error .panic) = .ok cs := h1
        rw [if_pos hb] at h1
        cases h1
        rw [List.length_take, Nat.min_eq_left hb]
      · have h1 : (if buf.chunksLen ≤ buf.arr.length then
            (Except.ok (buf.arr.take buf.chunksLen) : Except Fault _) else .error .panic) = .ok cs := h1
        rw [if_neg hb] at h1
        cases h1
    · rw [if_neg hle] at h1
      cases h1
  rintro buf (h | h)
  · by_cases hs : 16 + (a.payload layout.versionMinor.toNat).length < 2 ^ 32
    · obtain ⟨b, hc, ho⟩ := C17_fuse (recorder r) layout id a [] hs
      have ho : a.run (.new (recorder r) layout id) [] = (r, [b]) := ho
      rw [ho, List.mem_singleton] at h
      subst h; exact key _ _ hc
    · rw [C18_fuse _ _ _ _ _ (by omega)] at h
      cases h
  · by_cases hs : 16 + c.payload.length < 2 ^ 32
    · obtain ⟨b, hc, ho⟩ := C17_cuse (recorder r) cuse id c [] hs
      have ho : c.run (.new (recorder r) cuse id) [] = (r, [b]) := ho
      rw [ho, List.mem_singleton] at h
      subst h; exact key _ _ hc
    · rw [C18_cuse _ _ _ _ _ (by omega)] at h
      cases h

/-- Calling a stateful function on the elements of a list from first to last. -/
def inOrder {T τ : Type} (f : Bytes → τ → T × τ) : List Bytes → τ → List T × τ
  | [], s => ([], s)
  | c :: cs, s => ((f c s).1 :: (inOrder f cs (f c s).2).1, (inOrder f cs (f c s).2).2)

theorem inOrder_length {T τ : Type} (f : Bytes → τ → T × τ) (cs : List Bytes) (s : τ) :
    (inOrder f cs s).1.length = cs.length := by
  induction cs generalizing s with
  | nil => rfl
  | cons c cs ih => simp only [inOrder, List.length_cons, ih]

theorem mapLoop_eq {T τ : Type} (f : Bytes → τ → T × τ) (cs : List Bytes) (done rest : List T)
    (s : τ) :
    SendBuf.mapLoop f cs done.length (done ++ rest) s =
      if cs.length ≤ rest.length then
        .ok (done ++ ((inOrder f cs s).1 ++ rest.drop cs.length), (inOrder f cs s).2)
      else .error .panic := by
  induction cs generalizing done rest s with
  | nil => simp [SendBuf.mapLoop, inOrder]
  | cons c cs ih =>
    unfold SendBuf.mapLoop
    cases rest with
    | nil => rw [if_neg (by simp), if_neg (by simp)]
    | cons r rest =>
      rw [if_pos (by simp)]
      have e : (done ++ r :: rest).set done.length (f c s).1 = (done ++ [(f c s).1]) ++ rest := by
        rw [List.set_append_right _ _ (Nat.le_refl _), Nat.sub_self]; simp
      have := ih (done ++ [(f c s).1]) rest (f c s).2
      rw [e, show done.length + 1 = (done ++ [(f c s).1]).length by simp, this]
      simp only [List.length_cons, Nat.add_le_add_iff_right]
      split
      · simp only [inOrder, List.append_assoc, List.cons_append, List.nil_append,
          List.drop_succ_cons]
      · rfl

/-- C48: mapping chunks into storage visits the chunks in order, returns exactly one value per chunk,
leaves the rest of the storage alone, and panics if there is not enough storage. -/
theorem C48_map {T τ : Type} (b : SendBuf) (cs : List Bytes) (hc : b.chunks = .ok cs)
    (storage : List T) (f : Bytes → τ → T × τ) (s : τ) :
    b.mapChunksInto storage f s =
      if cs.length ≤ storage.length then
        .ok ((inOrder f cs s).1, (inOrder f cs s).1 ++ storage.drop cs.length, (inOrder f cs s).2)
      else .error .panic := by
  have hn : b.chunksLen' = .ok cs.length := by
    unfold SendBuf.chunks at hc
    cases h : b.chunksLen' with
    | error e => rw [h] at hc; cases hc
    | ok n =>
      rw [h] at hc
      have hc : (if n ≤ b.arr.length then (Except.ok (b.arr.take n) : Except Fault _)
        else .error .panic) = .ok cs := hc
      by_cases hb : n ≤ b.arr.length
      · rw [if_pos hb] at hc; cases hc; rw [List.length_take, Nat.min_eq_left hb]
      · rw [if_neg hb] at hc; cases hc
  unfold SendBuf.mapChunksInto
  have hm := mapLoop_eq f cs [] storage s
  simp only [List.length_nil, List.nil_append] at hm
  rw [hc, hn]
  show (SendBuf.mapLoop f cs 0 storage s >>= _) = _
  rw [hm]
  by_cases hle : cs.length ≤ storage.length
  · rw [if_pos hle, if_pos hle]
    show (if cs.length ≤ ((inOrder f cs s).1 ++ storage.drop cs.length).length then
      (Except.ok (((inOrder f cs s).1 ++ storage.drop cs.length).take cs.length, _, _) :
        Except Fault (List T × List T × τ)) else .error .panic) = _
    rw [if_pos (by rw [List.length_append, inOrder_length]; omega),
      take_left_len (inOrder_length f cs s)]
  · rw [if_neg hle, if_neg hle]; rfl

theorem assumeInit_map {T : Type} (xs : List T) : SendBuf.assumeInit (xs.map some) = .ok xs := by
  induction xs with
  | nil => rfl
  | cons x xs ih => rw [List.map_cons, SendBuf.assumeInit, ih]; rfl

theorem inOrder_some {T τ : Type} (f : Bytes → τ → T × τ) (cs : List Bytes) (s : τ) :
    inOrder (fun c s => (some (f c s).1, (f c s).2)) cs s =
      ((inOrder f cs s).1.map some, (inOrder f cs s).2) := by
  induction cs generalizing s with
  | nil => rfl
  | cons c cs ih => simp only [inOrder, ih, List.map_cons]

/-- C48: the variant for uninitialised storage returns the same values and never exposes an
uninitialised one, whatever was in the storage before. -/
theorem C48_map_uninit {T τ : Type} (b : SendBuf) (cs : List Bytes) (hc : b.chunks = .ok cs)
    (storage : List (Option T)) (f : Bytes → τ → T × τ) (s : τ) :
    b.mapChunksIntoUninit storage f s =
      if cs.length ≤ storage.length then .ok (inOrder f cs s) else .error .panic := by
  have hm := C48_map b cs hc storage (fun c s => (some (f c s).1, (f c s).2)) s
  unfold SendBuf.mapChunksInto at hm
  unfold SendBuf.mapChunksIntoUninit
  have hn : ∃ n, b.chunksLen' = .ok n := by
    unfold SendBuf.chunks at hc
    cases h : b.chunksLen' with
    | error e => rw [h] at hc; cases hc
    | ok n => exact ⟨n, rfl⟩
  obtain ⟨n, hn⟩ := hn
  rw [hc, hn] at hm ⊢
  have hl := mapLoop_eq (fun c s => (some (f c s).1, (f c s).2)) cs [] storage s
  simp only [List.length_nil, List.nil_append] at hl
  by_cases hle : cs.length ≤ storage.length
  · rw [if_pos hle] at hl hm ⊢
    simp only [bind, Except.bind, hl] at hm ⊢
    by_cases hb : n ≤ ((inOrder (fun c s => (some (f c s).1, (f c s).2)) cs s).1 ++
        storage.drop cs.length).length
    · rw [if_pos hb] at hm ⊢
      have hm := congrArg Prod.fst (Except.ok.inj hm)
      simp only at hm
      rw [hm, inOrder_some, assumeInit_map]
      rfl
    · rw [if_neg hb] at hm
      cases hm
  · rw [if_neg hle] at hl hm ⊢
    simp only [bind, Except.bind, hl]

/-- C48: the constructors expose exactly the chunks they were given. -/
theorem C48_new (n : Nat) (a b c d e : Bytes) :
    (SendBuf.new1 n a).chunks = .ok [a] ∧ (SendBuf.new2 n a b).chunks = .ok [a, b] ∧
    (SendBuf.new3 n a b c).chunks = .ok [a, b, c] ∧
    (SendBuf.new4 n a b c d).chunks = .ok [a, b, c, d] ∧
    (SendBuf.new5 n a b c d e).chunks = .ok [a, b, c, d, e] := ⟨rfl, rfl, rfl, rfl, rfl⟩

/-- Mapping three chunks into a five-element array, recording the order of visits. -/
example : (SendBuf.new3 6 [1, 2] [3] [4, 5, 6]).mapChunksInto [0, 0, 0, 9, 9]
    (fun c (log : List Bytes) => (c.length, log ++ [c])) [] =
    .ok ([2, 1, 3], [2, 1, 3, 9, 9], [[1, 2], [3], [4, 5, 6]]) := by decide

/-! ## C49: device names -/

/-- C49: a device name is accepted iff it is non-empty and has no NUL, and then keeps its bytes. -/
theorem C49_accepts (bs : Bytes) (name : CuseDeviceName) :
    CuseDeviceName.fromBytes bs = .ok name ↔ bs ≠ [] ∧ 0 ∉ bs ∧ name.bytes = bs := by
  unfold CuseDeviceName.fromBytes
  rcases bs with _ | ⟨b, bs⟩
  · simp
  · simp only [List.isEmpty_cons, Bool.false_eq_true, ↓reduceIte, List.contains_iff_mem]
    by_cases h : (0 : UInt8) ∈ b :: bs
    · simp [h]
    · simp only [if_neg h, Except.ok.injEq]
      constructor
      · rintro rfl; exact ⟨List.cons_ne_nil _ _, h, rfl⟩
      · rintro ⟨_, _, h⟩; cases name; simp only at h; rw [h]

/-- C49: the reason given for a rejected name. -/
theorem C49_rejects (bs : Bytes) :
    (CuseDeviceName.fromBytes bs = .error .empty ↔ bs = []) ∧
    (CuseDeviceName.fromBytes bs = .error .containsNul ↔ 0 ∈ bs) := by
  unfold CuseDeviceName.fromBytes
  rcases bs with _ | ⟨b, bs⟩
  · simp
  · simp only [List.isEmpty_cons, Bool.false_eq_true, ↓reduceIte, List.contains_iff_mem]
    by_cases h : (0 : UInt8) ∈ b :: bs
    · simp [h]
    · simp only [if_neg h]
      exact ⟨⟨fun e => (by cases e), fun e => (by cases e)⟩, ⟨fun e => (by cases e), fun e => absurd e h⟩⟩

/-- The value of a C string at the front of `bs`. -/
def cString : Bytes → Bytes
  | [] => []
  | b :: bs => if b = 0 then [] else b :: cString bs

theorem cString_append_nul (bs post : Bytes) (h : 0 ∉ bs) : cString (bs ++ 0 :: post) = bs := by
  induction bs with
  | nil => simp [cString]
  | cons b bs ih =>
    rw [List.cons_append, cString, if_neg (fun e => h (by simp [e])),
      ih (fun e => h (List.mem_cons_of_mem _ e))]

/-- C49: the CUSE `INIT` reply of a server with a valid device name is the 72-byte record followed by
a NUL-terminated `DEVNAME=name`, which a client reads back as exactly the name. -/
theorem C49_init_reply (raw : CuseInitOut) (bs : Bytes) (name : CuseDeviceName)
    (h : CuseDeviceName.fromBytes bs = .ok name) :
    let p := (CuseReply.init { raw := raw, deviceName := some name }).payload
    p.length = 72 + 8 + bs.length + 1 ∧ p.take 72 = layout_cuse_init_out raw ∧
    (p.drop 72).take 8 = devname ∧ cString (p.drop 80) = bs := by
  obtain ⟨_, h0, rfl⟩ := (C49_accepts bs name).1 h
  have hl : (layout_cuse_init_out raw).length = 72 := C01_cuse_init_out.2.1 raw
  have hd : devname.length = 8 := rfl
  refine ⟨?_, ?_, ?_, ?_⟩ <;> simp only [CuseReply.payload]
  · simp only [List.length_append, hl, hd, List.length_singleton]; omega
  · exact take_left_len hl
  · rw [List.drop_left' hl, List.append_assoc, take_left_len hd]
  · rw [← List.append_assoc, ← List.append_assoc, List.append_assoc, List.drop_left' (by simp [hl, hd])]
    exact cString_append_nul _ _ h0

/-- C49: a device called `cuse0`. -/
example :
    (CuseDeviceName.fromBytes [0x63, 0x75, 0x73, 0x65, 0x30]).toOption.map (fun n =>
      (CuseReply.init { deviceName := some n }).payload.drop 72) =
    some [0x44, 0x45, 0x56, 0x4E, 0x41, 0x4D, 0x45, 0x3D, 0x63, 0x75, 0x73, 0x65, 0x30, 0] := by
  decide

end Fuse
