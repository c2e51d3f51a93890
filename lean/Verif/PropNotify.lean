import Verif.Notify
import Verif.PropReply

/-!
# C36: notifications
-/

namespace Fuse
open Spec Wire

/-! ## The client's view -/

namespace Spec

/-- A notification as a client understands it. -/
inductive Notice
  | poll (handle : Nat)
  | invalInode (ino : Nat) (off len : Int)
  | invalEntry (parent : Nat) (name : Bytes)
  | delete (parent child : Nat) (name : Bytes)
deriving DecidableEq, Repr

/-- Two's complement reading of a 64-bit integer. -/
def signed64 (n : Nat) : Int := if n < 2 ^ 63 then n else n - 2 ^ 64

/-- A client reading a notification: the length field must be the size of the message, the request
ID zero; the error field holds the code.  Names are given with their length, and must be followed by
a NUL that ends the message. -/
def readNotice (msg : Bytes) : Option Notice :=
  if u32At msg 0 ≠ msg.length ∨ u64At msg 8 ≠ 0 then none
  else match u32At msg 4 with
    | 1 => if msg.length = 24 then some (.poll (u64At msg 16)) else none
    | 2 => if msg.length = 40 then
        some (.invalInode (u64At msg 16) (signed64 (u64At msg 24)) (signed64 (u64At msg 32))) else none
    | 3 =>
      let n := u32At msg 24
      if msg.length = 32 + n + 1 ∧ u8At msg (32 + n) = 0 then
        some (.invalEntry (u64At msg 16) ((msg.drop 32).take n)) else none
    | 6 =>
      let n := u32At msg 32
      if msg.length = 40 + n + 1 ∧ u8At msg (40 + n) = 0 then
        some (.delete (u64At msg 16) (u64At msg 24) ((msg.drop 40).take n)) else none
    | _ => none

end Spec

/-! ## What servers send -/

/-- What a server can say through the API. -/
inductive Announcement
  | poll (handle : UInt64)
  | invalidateInode (nodeId : NodeId) (offset : Option UInt64) (size : Option NonZeroU64)
  | invalidateEntry (parentId : NodeId) (name : NodeName)
  | delete (parentId nodeId : NodeId) (name : NodeName)

namespace Announcement

/-- The notification built with the API's constructors and setters. -/
def build : Announcement → FuseNotification
  | .poll h => .poll (.new h)
  | .invalidateInode n o s => .invalidateInode (((InvalidateInode.new n).setOffset o).setSize s)
  | .invalidateEntry p n => .invalidateEntry (.new p n)
  | .delete p c n => .delete (.new p c n)

/-- The offset a client should see. -/
def offsetMeaning : Option UInt64 → Int
  | some o => (min o.toNat (2 ^ 63 - 1) : Nat)
  | none => -1

/-- The size a client should see. -/
def sizeMeaning : Option NonZeroU64 → Int
  | some s => (min s.val.toNat (2 ^ 63 - 1) : Nat)
  | none => 0

/-- What a client should understand.  Offsets and sizes that do not fit 63 bits are cut off; no offset
is `-1`; no size is 0. -/
def meaning : Announcement → Notice
  | .poll h => .poll h.toNat
  | .invalidateInode n o s => .invalInode n.val.toNat
      (offsetMeaning o) (sizeMeaning s)
  | .invalidateEntry p n => .invalEntry p.val.toNat n.bytes
  | .delete p c n => .delete p.val.toNat c.val.toNat n.bytes

/-- The size of the message. -/
def size : Announcement → Nat
  | .poll _ => 24
  | .invalidateInode _ _ _ => 40
  | .invalidateEntry _ n => 32 + n.bytes.length + 1
  | .delete _ _ n => 40 + n.bytes.length + 1

end Announcement

/-! ## Lemmas -/

/-- The bytes after the fixed part. -/
def nameTail : Option Bytes → Bytes
  | some n => n ++ [0]
  | none => []

theorem encodeNotify_eq {T : Type} [Wire T] (code : UInt32) (body : T) (name : Option Bytes)
    (hc : code.toInt32 ≠ 0) (hl : 16 + Wire.size T + (nameTail name).length < 2 ^ 32) :
    ∃ buf, encodeNotify ResponseHeader.newNotification code body name = .ok buf ∧
      Carries buf (frame 0 code.toInt32 (enc body ++ nameTail name)) := by
  have hnz : UInt32.ofNat (16 + Wire.size T + (nameTail name).length) ≠ 0 := by
    intro h
    have := congrArg UInt32.toNat h
    rw [UInt32.toNat_ofNat'] at this
    have h0 : (0 : UInt32).toNat = 0 := rfl
    omega
  have hfl : 16 + (enc body ++ nameTail name).length = 16 + Wire.size T + (nameTail name).length := by
    rw [List.length_append, Wire.enc_length]; omega
  cases name with
  | none =>
    have e : 16 + Wire.size T = 16 + Wire.size T + (nameTail none).length := rfl
    unfold encodeNotify
    simp only []
    rw [dif_pos (by rw [e]; exact hnz), dif_pos hc]
    refine ⟨_, rfl, _, rfl, by simp [SendBuf.new2], ?_, ?_⟩
    · show [enc ({ len := UInt32.ofNat (16 + Wire.size T), error := code.toInt32, unique := 0 } : FuseOutHeader),
        enc body].flatten = _
      rw [e, ← hfl]
      simp only [List.flatten_cons, List.flatten_nil, enc_header, frame, nameTail, List.append_assoc, List.append_nil]
    · rw [frame_length]; exact hfl.symm
  | some n =>
    have e : 16 + Wire.size T + n.length + 1 = 16 + Wire.size T + (nameTail (some n)).length := by
      simp [nameTail, Nat.add_assoc]
    unfold encodeNotify
    simp only []
    rw [dif_pos (by rw [e]; exact hnz), dif_pos hc]
    refine ⟨_, rfl, _, rfl, by simp [SendBuf.new4], ?_, ?_⟩
    · show [enc ({ len := UInt32.ofNat (16 + Wire.size T + n.length + 1), error := code.toInt32, unique := 0 } : FuseOutHeader),
        enc body, n, [0]].flatten = _
      rw [e, ← hfl]
      simp only [List.flatten_cons, List.flatten_nil, enc_header, frame, nameTail, List.append_assoc, List.append_nil]
    · rw [frame_length]
      show 16 + Wire.size T + n.length + 1 = _
      rw [e]; exact hfl.symm

theorem notify_of_encode {σ ε : Type} (sock : Socket σ ε) (n : FuseNotification) (s : σ) {buf : SendBuf}
    (h : n.encode ResponseHeader.newNotification = .ok buf) : notify sock n s = .ok (sock.send buf s) := by
  simp only [notify, h, bind, Except.bind, pure, Except.pure]

theorem frame_fields (code : UInt32) (payload : Bytes) (h : 16 + payload.length < 2 ^ 32) :
    u32At (frame 0 code.toInt32 payload) 0 = (frame 0 code.toInt32 payload).length ∧
      u64At (frame 0 code.toInt32 payload) 8 = 0 ∧
      u32At (frame 0 code.toInt32 payload) 4 = code.toNat ∧
      (∀ i, u32At (frame 0 code.toInt32 payload) (i + 16) = u32At payload i) ∧
      (∀ i, u64At (frame 0 code.toInt32 payload) (i + 16) = u64At payload i) ∧
      (∀ i, u8At (frame 0 code.toInt32 payload) (i + 16) = u8At payload i) ∧
      (∀ i, (frame 0 code.toInt32 payload).drop (i + 16) = payload.drop i) := by
  have hlen := frame_length 0 code.toInt32 payload
  have hh : (le32 (UInt32.ofNat (16 + payload.length)) ++ leI32 code.toInt32 ++ le64 0).length = 16 := rfl
  refine ⟨?_, ?_, ?_, ?_, ?_, ?_, ?_⟩
  · rw [hlen]; unfold frame; read_at
    rw [UInt32.toNat_ofNat']; omega
  · unfold frame; read_at; rfl
  · unfold frame; read_at; rfl
  · intro i; exact u32At_append _ payload i
  · intro i; exact u64At_append _ payload i
  · intro i; exact u8At_append _ payload i
  · intro i
    unfold frame
    rw [show i + 16 = 16 + i from by omega, ← List.drop_drop, List.drop_left' hh]

theorem signed64_toInt (x : Int64) : signed64 x.toUInt64.toNat = x.toInt := by
  show (if x.toBitVec.toNat < 2 ^ 63 then (x.toBitVec.toNat : Int) else x.toBitVec.toNat - 2 ^ 64) = x.toBitVec.toInt
  rw [BitVec.toInt_eq_toNat_cond]
  have := x.toBitVec.isLt
  by_cases h : x.toBitVec.toNat < 2 ^ 63
  · rw [if_pos h, if_pos (by omega)]
  · rw [if_neg h, if_neg (by omega)]; rfl

theorem clampI64_toInt (n : UInt64) : (clampI64 n).toInt = (min n.toNat (2 ^ 63 - 1) : Nat) := by
  unfold clampI64
  by_cases h : n.toNat < 2 ^ 63
  · rw [if_pos h]
    show n.toBitVec.toInt = _
    have hn : n.toBitVec.toNat = n.toNat := rfl
    rw [BitVec.toInt_eq_toNat_cond, if_pos (by omega), hn]
    omega
  · rw [if_neg h, show Int64.maxValue.toInt = 2 ^ 63 - 1 from by decide]
    omega

theorem leI64_at (x : Int64) (rest : Bytes) : u64At (leI64 x ++ rest) 0 = x.toUInt64.toNat := u64At_le64 _ _

theorem u64At_skipI64 (n : Int64) (b : Bytes) (i : Nat) : u64At (leI64 n ++ b) (i + 8) = u64At b i :=
  u64At_append (leI64 n) b i

theorem named_tail (pre name : Bytes) :
    u8At (pre ++ (name ++ [0])) (pre.length + name.length) = 0 ∧
      ((pre ++ (name ++ [0])).drop pre.length).take name.length = name := by
  constructor
  · have := u8At_append (pre ++ name) [0] 0
    rw [Nat.zero_add, List.length_append, List.append_assoc] at this
    rw [this]; rfl
  · rw [List.drop_left, List.take_left]

/-! ## C36 -/

/-- **C36** (for messages of less than 4 GiB, see `C36_violated`): a notification is sent with one
call of the socket's `send`, as one message of the announced size, which the client understands as
what was announced. -/
theorem C36_partial {σ ε : Type} (sock : Socket σ ε) (a : Announcement) (s : σ) (h : a.size < 2 ^ 32) :
    ∃ buf msg, notify sock a.build s = .ok (sock.send buf s) ∧ Carries buf msg ∧
      msg.length = a.size ∧ readNotice msg = some a.meaning := by
  cases a with
  | poll hd =>
    obtain ⟨buf, hb, hcar⟩ := encodeNotify_eq FUSE_NOTIFY_POLL (NotifyPoll.new hd).raw none (by decide) (by decide)
    refine ⟨buf, _, ?_, hcar, ?_, ?_⟩
    · exact notify_of_encode _ _ _ hb
    · rw [frame_length]; rfl
    · have hp : enc (NotifyPoll.new hd).raw ++ nameTail none = le64 hd ++ [] := by
        rw [enc_fuse_notify_poll_wakeup_out]; rfl
      rw [hp]
      obtain ⟨f1, f2, f3, f4, f5, f6, f7⟩ := frame_fields FUSE_NOTIFY_POLL (le64 hd ++ []) (by simp)
      unfold readNotice
      rw [if_neg (fun h => h.elim (fun h => h f1) (fun h => h f2)), f3]
      show (if _ then some (Notice.poll (u64At _ (0 + 16))) else none) = _
      rw [f5, if_pos (by rw [frame_length]; rfl), u64At_le64]
      rfl
  | invalidateInode n o sz =>
    generalize hraw : (((InvalidateInode.new n).setOffset o).setSize sz).raw = raw
    obtain ⟨buf, hb, hcar⟩ := encodeNotify_eq FUSE_NOTIFY_INVAL_INODE raw none (by decide)
      (by decide)
    refine ⟨buf, _, ?_, hcar, ?_, ?_⟩
    · exact notify_of_encode _ _ _ (by rw [← hb, ← hraw]; rfl)
    · rw [frame_length, List.length_append, Wire.enc_length]; rfl
    · have hp : enc raw ++ nameTail none = le64 raw.ino ++ leI64 raw.off ++ leI64 raw.len := by
        rw [enc_fuse_notify_inval_inode_out]; simp [nameTail, layout_fuse_notify_inval_inode_out]
      rw [hp]
      obtain ⟨f1, f2, f3, f4, f5, f6, f7⟩ := frame_fields FUSE_NOTIFY_INVAL_INODE
        (le64 raw.ino ++ leI64 raw.off ++ leI64 raw.len) (by simp)
      unfold readNotice
      rw [if_neg (fun h => h.elim (fun h => h f1) (fun h => h f2)), f3]
      show (if _ then some (Notice.invalInode (u64At _ (0 + 16)) (signed64 (u64At _ (8 + 16))) (signed64 (u64At _ (16 + 16)))) else none) = _
      have r1 : u64At (le64 raw.ino ++ leI64 raw.off ++ leI64 raw.len) 0 = raw.ino.toNat := by read_at
      have r2 : u64At (le64 raw.ino ++ leI64 raw.off ++ leI64 raw.len) 8 = raw.off.toUInt64.toNat := by
        rw [List.append_assoc, show 8 = 0 + 8 from rfl, u64At_skip64]; exact leI64_at _ _
      have r3 : u64At (le64 raw.ino ++ leI64 raw.off ++ leI64 raw.len) 16 = raw.len.toUInt64.toNat := by
        rw [List.append_assoc, show 16 = 0 + 8 + 8 from rfl, u64At_skip64, u64At_skipI64,
          ← List.append_nil (leI64 raw.len)]; exact leI64_at _ _
      rw [f5, f5, f5, if_pos (by rw [frame_length]; rfl), r1, r2, r3, signed64_toInt, signed64_toInt, ← hraw]
      have ho : (((InvalidateInode.new n).setOffset o).setSize sz).raw.off.toInt =
          Announcement.offsetMeaning o := by
        cases o with
        | none => show (-1 : Int64).toInt = -1; decide
        | some o => exact clampI64_toInt o
      have hsz : (((InvalidateInode.new n).setOffset o).setSize sz).raw.len.toInt =
          Announcement.sizeMeaning sz := by
        cases sz with
        | none => show (0 : Int64).toInt = 0; decide
        | some s => exact clampI64_toInt s.val
      rw [ho, hsz]
      rfl
  | invalidateEntry p n =>
    have h' : 32 + n.bytes.length + 1 < 2 ^ 32 := h
    obtain ⟨buf, hb, hcar⟩ := encodeNotify_eq FUSE_NOTIFY_INVAL_ENTRY (InvalidateEntry.new p n).raw
      (some n.bytes) (by decide)
      (by show 16 + 16 + (n.bytes ++ [0]).length < _; simp only [List.length_append, List.length_cons, List.length_nil]; omega)
    have hp : enc (InvalidateEntry.new p n).raw ++ nameTail (some n.bytes) =
        (le64 p.val ++ le32 (UInt32.ofNat n.bytes.length) ++ le32 0) ++ (n.bytes ++ [0]) := by
      rw [enc_fuse_notify_inval_entry_out]; rfl
    rw [hp] at hcar
    generalize hpre : le64 p.val ++ le32 (UInt32.ofNat n.bytes.length) ++ le32 0 = pre at hcar
    have hprel : pre.length = 16 := by rw [← hpre]; rfl
    have hlen : (pre ++ (n.bytes ++ [0])).length = 16 + n.bytes.length + 1 := by
      simp only [List.length_append, List.length_cons, List.length_nil, hprel]; omega
    refine ⟨buf, _, ?_, hcar, ?_, ?_⟩
    · exact notify_of_encode _ _ _ hb
    · rw [frame_length, hlen]; show _ = 32 + n.bytes.length + 1; omega
    · obtain ⟨f1, f2, f3, f4, f5, f6, f7⟩ := frame_fields FUSE_NOTIFY_INVAL_ENTRY (pre ++ (n.bytes ++ [0]))
        (by rw [hlen]; omega)
      obtain ⟨t1, t2⟩ := named_tail pre n.bytes
      rw [hprel] at t1 t2
      have r1 : u64At (pre ++ (n.bytes ++ [0])) 0 = p.val.toNat := by rw [← hpre]; read_at
      have r2 : u32At (pre ++ (n.bytes ++ [0])) 8 = n.bytes.length := by
        rw [← hpre]; read_at; rw [UInt32.toNat_ofNat']; omega
      have r2' : u32At (frame 0 FUSE_NOTIFY_INVAL_ENTRY.toInt32 (pre ++ (n.bytes ++ [0]))) 24 = n.bytes.length := by
        rw [show 24 = 8 + 16 from rfl, f4, r2]
      unfold readNotice
      rw [if_neg (fun h => h.elim (fun h => h f1) (fun h => h f2)), f3]
      show (if List.length _ = 32 + u32At _ 24 + 1 ∧ u8At _ (32 + u32At _ 24) = 0 then
        some (Notice.invalEntry (u64At _ (0 + 16)) ((List.drop (16 + 16) _).take (u32At _ 24))) else none) = _
      rw [f5, f7, r2', r1, t2, if_pos]
      · rfl
      · refine ⟨by rw [frame_length, hlen]; omega, ?_⟩
        rw [show 32 + n.bytes.length = (16 + n.bytes.length) + 16 by omega, f6]; exact t1
  | delete p c n =>
    have h' : 40 + n.bytes.length + 1 < 2 ^ 32 := h
    obtain ⟨buf, hb, hcar⟩ := encodeNotify_eq FUSE_NOTIFY_DELETE (NotifyDelete.new p c n).raw
      (some n.bytes) (by decide)
      (by show 16 + 24 + (n.bytes ++ [0]).length < _; simp only [List.length_append, List.length_cons, List.length_nil]; omega)
    have hp : enc (NotifyDelete.new p c n).raw ++ nameTail (some n.bytes) =
        (le64 p.val ++ le64 c.val ++ le32 (UInt32.ofNat n.bytes.length) ++ le32 0) ++ (n.bytes ++ [0]) := by
      rw [enc_fuse_notify_delete_out]; rfl
    rw [hp] at hcar
    generalize hpre : le64 p.val ++ le64 c.val ++ le32 (UInt32.ofNat n.bytes.length) ++ le32 0 = pre at hcar
    have hprel : pre.length = 24 := by rw [← hpre]; rfl
    have hlen : (pre ++ (n.bytes ++ [0])).length = 24 + n.bytes.length + 1 := by
      simp only [List.length_append, List.length_cons, List.length_nil, hprel]; omega
    refine ⟨buf, _, ?_, hcar, ?_, ?_⟩
    · exact notify_of_encode _ _ _ hb
    · rw [frame_length, hlen]; show _ = 40 + n.bytes.length + 1; omega
    · obtain ⟨f1, f2, f3, f4, f5, f6, f7⟩ := frame_fields FUSE_NOTIFY_DELETE (pre ++ (n.bytes ++ [0]))
        (by rw [hlen]; omega)
      obtain ⟨t1, t2⟩ := named_tail pre n.bytes
      rw [hprel] at t1 t2
      have r1 : u64At (pre ++ (n.bytes ++ [0])) 0 = p.val.toNat := by rw [← hpre]; read_at
      have r3 : u64At (pre ++ (n.bytes ++ [0])) 8 = c.val.toNat := by rw [← hpre]; read_at
      have r2 : u32At (pre ++ (n.bytes ++ [0])) 16 = n.bytes.length := by
        rw [← hpre]; read_at; rw [UInt32.toNat_ofNat']; omega
      have r2' : u32At (frame 0 FUSE_NOTIFY_DELETE.toInt32 (pre ++ (n.bytes ++ [0]))) 32 = n.bytes.length := by
        rw [show 32 = 16 + 16 from rfl, f4, r2]
      unfold readNotice
      rw [if_neg (fun h => h.elim (fun h => h f1) (fun h => h f2)), f3]
      show (if List.length _ = 40 + u32At _ 32 + 1 ∧ u8At _ (40 + u32At _ 32) = 0 then
        some (Notice.delete (u64At _ (0 + 16)) (u64At _ (8 + 16)) ((List.drop (24 + 16) _).take (u32At _ 32))) else none) = _
      rw [f5, f5, f7, r2', r1, r3, t2, if_pos]
      · rfl
      · refine ⟨by rw [frame_length, hlen]; omega, ?_⟩
        rw [show 40 + n.bytes.length = (24 + n.bytes.length) + 16 by omega, f6]; exact t1

theorem exists_name (n : Nat) (h : n ≠ 0) : ∃ name : NodeName, NodeName.Valid name.bytes ∧ name.bytes.length = n := by
  refine ⟨⟨List.replicate n 0x61⟩, ⟨?_, ?_, ?_⟩, List.length_replicate⟩
  · intro he
    have := congrArg List.length he
    rw [List.length_replicate, List.length_nil] at this
    exact h this
  · intro h; exact absurd (List.eq_of_mem_replicate h) (by decide)
  · intro h; exact absurd (List.eq_of_mem_replicate h) (by decide)

theorem encode_zero (p : NodeId) (name : NodeName)
    (hz : UInt32.ofNat (16 + 16 + name.bytes.length + 1) = 0) :
    (Announcement.invalidateEntry p name).build.encode ResponseHeader.newNotification = .error .invalid := by
  show encodeNotify _ _ (InvalidateEntry.new p name).raw (some name.bytes) = _
  unfold encodeNotify
  simp only []
  exact dif_neg (fun h => h hz)

theorem encode_nonzero (p : NodeId) (name : NodeName)
    (hz : UInt32.ofNat (16 + 16 + name.bytes.length + 1) ≠ 0) :
    ∃ buf cs, (Announcement.invalidateEntry p name).build.encode ResponseHeader.newNotification = .ok buf ∧
      buf.chunks = .ok cs ∧ cs.flatten.length = 16 + 16 + name.bytes.length + 1 := by
  refine ⟨SendBuf.new4 (16 + 16 + name.bytes.length + 1)
    (enc ({ len := UInt32.ofNat (16 + 16 + name.bytes.length + 1), error := 3, unique := 0 } : FuseOutHeader))
    (enc (InvalidateEntry.new p name).raw) name.bytes [0], _, ?_, rfl, ?_⟩
  · show encodeNotify _ _ (InvalidateEntry.new p name).raw (some name.bytes) = _
    unfold encodeNotify
    simp only []
    refine (dif_pos hz).trans ?_
    exact dif_pos (by decide)
  · show (List.flatten [enc _, enc _, name.bytes, [0]]).length = _
    simp only [List.flatten_cons, List.flatten_nil, List.length_append, Wire.enc_length, List.append_nil,
      List.length_cons, List.length_nil]
    show 16 + (16 + _) = _
    omega

/-- **C36** fails for longer messages: the length is cut off to 32 bits, and an invalidated entry
whose name makes the message exactly 4 GiB long is undefined behaviour (a `NonZeroU32` of 0). -/
theorem C36_violated {σ ε : Type} (sock : Socket σ ε) (p : NodeId) (s : σ) :
    ∃ name, NodeName.Valid name.bytes ∧
      notify sock (Announcement.invalidateEntry p name).build s = .error .invalid := by
  obtain ⟨name, hv, hl⟩ := exists_name (2 ^ 32 - 33) (by decide)
  refine ⟨name, hv, ?_⟩
  have he := encode_zero p name (by rw [hl]; decide)
  simp only [notify, he, bind, Except.bind]

/-- **C36**, longer messages in general: whatever is sent, its length field is not its size, so that
the client does not understand it. -/
theorem C36_violated_length {σ ε : Type} (sock : Socket σ ε) (p : NodeId) (name : NodeName) (s : σ)
    (h : 2 ^ 32 ≤ (Announcement.invalidateEntry p name).size) (r : Except (SendError ε) Unit × σ)
    (hr : notify sock (Announcement.invalidateEntry p name).build s = .ok r) :
    ∃ buf cs, r = sock.send buf s ∧ buf.chunks = .ok cs ∧ readNotice cs.flatten = none := by
  have h' : 2 ^ 32 ≤ 32 + name.bytes.length + 1 := h
  by_cases hz : UInt32.ofNat (16 + 16 + name.bytes.length + 1) ≠ 0
  · obtain ⟨buf, cs, he, hc, hl⟩ := encode_nonzero p name hz
    rw [notify_of_encode sock _ s he] at hr
    refine ⟨buf, cs, (Except.ok.inj hr).symm, hc, ?_⟩
    unfold readNotice
    refine if_pos (Or.inl ?_)
    have := u32At_lt cs.flatten 0
    omega
  · exfalso
    have he := encode_zero p name (Decidable.not_not.mp hz)
    simp [notify, he, bind, Except.bind] at hr

/-! ## Concrete cases -/

/-- Entry `ab` of directory 1 was removed, node 5. -/
example : ((Announcement.delete ⟨1, by decide⟩ ⟨5, by decide⟩ ⟨[0x61, 0x62]⟩).build.encode
      ResponseHeader.newNotification).map (·.arr) = .ok
    [[43, 0, 0, 0, 6, 0, 0, 0, 0, 0, 0, 0, 0, 0, 0, 0],
     [1, 0, 0, 0, 0, 0, 0, 0, 5, 0, 0, 0, 0, 0, 0, 0, 2, 0, 0, 0, 0, 0, 0, 0], [0x61, 0x62], [0], []] := by decide

/-- The offset of an invalidated range saturates; without an offset only attributes are meant. -/
example : (Announcement.invalidateInode ⟨5, by decide⟩ (some 0xFFFFFFFFFFFFFFFF) none).meaning =
      .invalInode 5 (2 ^ 63 - 1) 0 ∧
    (Announcement.invalidateInode ⟨5, by decide⟩ none (some ⟨4096, by decide⟩)).meaning =
      .invalInode 5 (-1) 4096 := by decide

/-- A header without a request ID reports none; one for request 7 reports it. -/
example : ResponseHeader.newNotification.requestId = none ∧
    (ResponseHeader.new ⟨7, by decide⟩).requestId = some ⟨7, by decide⟩ := by decide

end Fuse
