import Verif.PropLanguage
import Verif.PropSession

/-!
# C11, C12, continued; C68: message forms of the protocol's history

`kernel.rs:54-199` lists what each minor version of the protocol changed.  The library's decoders take two of the
changes for something else.  The forms below are written down from that list, not from the library's records.

* 7.9 "add lk_flags in fuse_lk_in" (kernel.rs:82; the operations came with 7.7, line 73): before, the arguments of the lock operations ended after the
  lock, with 40 bytes.
* 7.12 "add umask flag to input argument of create, mknod and mkdir" (kernel.rs:96-97): before, the arguments of
  CREATE were the open flags and the mode, as there is no other change to them since 7.3.
* 7.36 "extend fuse_init_in with reserved fields, add FUSE_INIT_EXT init flag" (kernel.rs:194): the upper half of the
  flags counts only together with this flag (bit 30).
-/

namespace Fuse
open Spec

/-! ## C11: locks before 7.9 -/

/-- The bytes of a lock request from a client older than 7.9: header; file handle, owner; range, kind and process of
the lock. -/
def oldLockMessage (opcode : UInt32) (unique nodeid : UInt64) (uid gid pid padding : UInt32) (fh owner start end_ : UInt64)
    (kind lockPid : UInt32) : Bytes :=
  le32 80 ++ le32 opcode ++ le64 unique ++ le64 nodeid ++ le32 uid ++ le32 gid ++ le32 pid ++ le32 padding ++
    (le64 fh ++ le64 owner ++ le64 start ++ le64 end_ ++ le32 kind ++ le32 lockPid)

theorem oldLockMessage_shorten {a : ClientReq} {unique nodeid : UInt64} {uid gid pid padding : UInt32}
    {fh owner start end_ : UInt64} {kind lockPid : UInt32}
    (h : a.body = layout_fuse_lk_in ⟨fh, owner, ⟨start, end_, kind, lockPid⟩, 0, 0⟩) :
    shorten 80 (a.message unique nodeid uid gid pid padding ++ []) =
      oldLockMessage (UInt32.ofNat a.opcode) unique nodeid uid gid pid padding fh owner start end_ kind lockPid ++
        [0, 0, 0, 0, 0, 0, 0, 0] := by
  rw [shorten_message, h, enc_fuse_in_header]
  unfold layout_fuse_in_header layout_fuse_lk_in layout_fuse_file_lock oldLockMessage
  simp only [List.append_assoc, List.append_nil]
  rfl

/-- **C11** fails for the locks of clients older than 7.9: whatever lock is asked for, GETLK, SETLK and SETLKW in the
form of these versions are rejected as truncated, although sessions with 7.7 and 7.8 are negotiated
(`C20_fuse_script`). -/
theorem C11_violated_lk (unique nodeid : UInt64) (uid gid pid padding : UInt32) (fh owner start end_ : UInt64)
    (kind lockPid : UInt32) (tail : Bytes) (hu : unique ≠ 0) (hn : nodeid ≠ 0) (hr : start ≤ end_) :
    decodeMessage .getlk (oldLockMessage 31 unique nodeid uid gid pid padding fh owner start end_ kind lockPid ++ tail) =
      .error (.req .unexpectedEof) ∧
    decodeMessage .setlk (oldLockMessage 32 unique nodeid uid gid pid padding fh owner start end_ kind lockPid ++ tail) =
      .error (.req .unexpectedEof) ∧
    decodeMessage .setlk (oldLockMessage 33 unique nodeid uid gid pid padding fh owner start end_ kind lockPid ++ tail) =
      .error (.req .unexpectedEof) := by
  have key : ∀ (a : ClientReq) (t : ReqType), (a.HasType t) → a.WellFormed nodeid t.isCuse → a.ShiftFree →
      a.body = layout_fuse_lk_in ⟨fh, owner, ⟨start, end_, kind, lockPid⟩, 0, 0⟩ → ¬ a.IsOldWrite →
      (∀ b, ¬ DecodeHazard t b) →
      decodeMessage t (oldLockMessage (UInt32.ofNat a.opcode) unique nodeid uid gid pid padding fh owner start end_
        kind lockPid ++ tail) = .error (.req .unexpectedEof) := by
    intro a t ht hw hs hb ho hz
    have hlen : a.body.length = 48 := by rw [hb]; rfl
    have h := C14_truncated_args_partial a t unique nodeid uid gid pid padding [] 80 ht hw hs hu (by omega)
      (fun h => absurd h ho) (by omega) (by omega)
    rw [oldLockMessage_shorten hb] at h
    rw [← h]
    refine C05_ignores_trailing_partial t _ _ 80 rfl ?_ ?_ ?_ (hz _) (hz _)
    · rw [List.length_append]; exact Nat.le_add_right 80 _
    · rw [List.length_append]; exact Nat.le_add_right 80 _
    · have e : ∀ x : Bytes, (oldLockMessage (UInt32.ofNat a.opcode) unique nodeid uid gid pid padding fh owner start end_
          kind lockPid ++ x).take 80 = oldLockMessage (UInt32.ofNat a.opcode) unique nodeid uid gid pid padding fh owner
          start end_ kind lockPid := fun x => List.take_left' rfl
      rw [e, e]
  exact ⟨key (.getlk _) .getlk trivial ⟨hn, .inl hr⟩ trivial rfl id (fun _ => id),
    key (.setlk _) .setlk trivial ⟨hn, .inl hr⟩ trivial rfl id (fun _ => id),
    key (.setlkw _) .setlk trivial ⟨hn, .inl hr⟩ trivial rfl id (fun _ => id)⟩

/-- C11 on a read lock of a whole file. -/
example : decodeMessage .setlk (oldLockMessage 32 7 1 0 0 100 0 5 6 0 0x7fffffffffffffff 0 100) =
    .error (.req .unexpectedEof) ∧
    ∃ r, decodeMessage .setlk ((ClientReq.setlk ⟨5, 6, ⟨0, 0x7fffffffffffffff, 0, 100⟩, 0, 0⟩).message 7 1 0 0 100 0) =
      .ok r := by
  refine ⟨by decide, ?_⟩
  obtain ⟨r, h, _⟩ := C11_fixed_round_trip_partial (.setlk ⟨5, 6, ⟨0, 0x7fffffffffffffff, 0, 100⟩, 0, 0⟩) .setlk 7 1 0 0 100 0 []
    trivial trivial ⟨by decide, .inl (by decide)⟩ (by decide)
  rw [List.append_nil] at h
  exact ⟨r, h⟩

/-! ## C12: CREATE before 7.12 -/

/-- The bytes of a CREATE request from a client older than 7.12: header; open flags, mode; name. -/
def oldCreateMessage (unique nodeid : UInt64) (uid gid pid padding : UInt32) (flags mode : UInt32) (name : Bytes) : Bytes :=
  le32 (UInt32.ofNat (40 + (8 + (name.length + 1)))) ++ le32 35 ++ le64 unique ++ le64 nodeid ++ le32 uid ++ le32 gid ++
    le32 pid ++ le32 padding ++ (le32 flags ++ le32 mode ++ (name ++ [0]))

/-- **C12** fails for CREATE from clients older than 7.12: whatever mode is sent, the request reports mode 0. -/
theorem C12_violated_create (l : FuseLayout) (unique nodeid : UInt64) (uid gid pid padding : UInt32)
    (flags mode : UInt32) (name tail : Bytes) (hv : l.versionMinor < 12) (hu : unique ≠ 0) (hn : nodeid ≠ 0)
    (hname : NameOk name) (hl : 49 + name.length < 2 ^ 32) :
    ∃ r, decodeMessage (.create l) (oldCreateMessage unique nodeid uid gid pid padding flags mode name ++ tail) =
        .ok (.create r) ∧ r.name.bytes = name ∧ r.openFlags = .ok flags ∧ r.mode = .ok ⟨0⟩ := by
  have hlen : (ClientReq.createOld ⟨flags, mode⟩ name).body.length = 8 + (name.length + 1) := by
    show (layout_fuse_create_in_v7p1 ⟨flags, mode⟩ ++ cstring name).length = _
    rw [List.length_append, cstring, List.length_append]; rfl
  have hm : oldCreateMessage unique nodeid uid gid pid padding flags mode name =
      (ClientReq.createOld ⟨flags, mode⟩ name).message unique nodeid uid gid pid padding := by
    unfold ClientReq.message
    rw [hlen]; rfl
  obtain ⟨r, h1, h2⟩ := C12_named_round_trip_partial (.createOld ⟨flags, mode⟩ name) (.create l) unique nodeid uid gid
    pid padding tail trivial hv ⟨hn, hname⟩ trivial hu (by rw [hlen]; omega)
  rw [hm, h1]
  cases r <;> first | exact False.elim h2 | skip
  exact ⟨_, rfl, h2.2.1, h2.2.2.1, h2.2.2.2.2.1⟩

/-- C12 on `open("f", O_CREAT | O_WRONLY, 0644)`: the mode of a regular file is lost in a 7.11 session, and arrives
in a 7.12 session. -/
example : (∃ r, decodeMessage (.create ⟨11, 0⟩) (oldCreateMessage 7 1 0 0 100 0 0x41 0x81a4 [0x66]) = .ok (.create r) ∧
      r.mode = .ok ⟨0⟩) ∧
    ∃ r, decodeMessage (.create ⟨12, 0⟩) ((ClientReq.create ⟨0x41, 0x81a4, 0x12, 0⟩ [0x66]).message 7 1 0 0 100 0) =
      .ok (.create r) ∧ r.mode = .ok ⟨0x81a4⟩ := by
  obtain ⟨r, h1, _, _, h2⟩ := C12_violated_create ⟨11, 0⟩ 7 1 0 0 100 0 0x41 0x81a4 [0x66] [] (by decide) (by decide)
    (by decide) ⟨by decide, by decide, by decide⟩ (by decide)
  obtain ⟨r', h3, h4⟩ := C12_named_round_trip_partial (.create ⟨0x41, 0x81a4, 0x12, 0⟩ [0x66]) (.create ⟨12, 0⟩) 7 1 0 0
    100 0 [] trivial (by show (12 : UInt32) ≥ 12; decide) ⟨by decide, by decide, by decide, by decide⟩ trivial (by decide) (by decide)
  rw [List.append_nil] at h1 h3
  refine ⟨⟨r, h1, h2⟩, ?_⟩
  cases r' <;> first | exact False.elim h4 | skip
  exact ⟨_, h3, h4.2.2.2.2.1⟩

/-! ## C68: which features a client enables -/

/-- Feature `i` is enabled in a client, going by the payload of the reply to its `INIT`: bit `i` is set, and for the
upper half also bit 30 (`FUSE_INIT_EXT`). -/
def clientEnables (p : Bytes) (i : Nat) : Bool :=
  if i < 32 then decide (5 ≤ u32At p 4) && (u32At p 12).testBit i
  else decide (36 ≤ u32At p 4) && (u32At p 12).testBit 30 && (u32At p 32).testBit (i - 32)

/-- **C68**, exactly: a feature of the lower half is enabled exactly if it is requested and offered;
a feature of the upper half if, besides, `FUSE_INIT_EXT` is requested and offered. -/
theorem C68_exact (c : FuseServer) (sock : Socket σ ε) (s s' : σ) (conn : FuseConnection)
    (h : c.Connects sock s (.ok conn, s')) :
    ∃ buf s0 n b s1, sock.recv buf s0 = ((.ok n, b), s1) ∧ IsFuseInit (b.take n) ∧
      ∃ id out p s2, Carries out (frame id 0 p) ∧ sock.send out s2 = (.ok (), s') ∧
        let both := fun i => (fuseInitFlags (b.take n)).testBit i && c.initReply.flags.toNat.testBit i
        (5 ≤ u32At p 4 → ∀ i < 32, clientEnables p i = both i) ∧
        (36 ≤ u32At p 4 → ∀ i, 32 ≤ i → i < 64 → clientEnables p i = (both i && both 30)) := by
  obtain ⟨buf, s0, n, b, s1, h1, h2, id, out, p, s2, h3, h4, h5, h6⟩ := C22_fuse c sock s s' conn h
  refine ⟨buf, s0, n, b, s1, h1, h2, id, out, p, s2, h3, h4, ?_, ?_⟩
  · intro hv i hi
    rw [clientEnables, if_pos hi, decide_eq_true hv, Bool.true_and, h5 hv i hi]
  · intro hv i hi hi'
    obtain ⟨j, rfl⟩ := Nat.exists_eq_add_of_le hi
    rw [clientEnables, if_neg (by omega), decide_eq_true hv, Bool.true_and, h5 (by omega) 30 (by decide),
      Nat.add_sub_cancel_left, h6 (by omega) j (by omega), Bool.and_comm]

/-- **C68** (what `FuseServer::update_flags` promises: "Init flags will be enabled if they are offered by the server and
supported by the client") fails for the upper half of the flags: a server offers `FUSE_HAS_INODE_DAX` (bit 33) only,
and a 7.36 client requests it, and `FUSE_INIT_EXT`.  The reply contains bit 33, but the client ignores it. -/
theorem C68_violated : ∃ (conn : FuseConnection) (p : Bytes),
    (FuseServer.updateFlags {} (· ||| FUSE_HAS_INODE_DAX)).Connects (scripted (ε := Unit) (.connectionClosed ()))
      ⟨[.ok (initMessage 2 7 36 [65536, 0x40000000, 2, 0, 0, 0, 0, 0, 0, 0, 0, 0, 0, 0])], []⟩
      (.ok conn, ⟨[], [frame 2 0 p]⟩) ∧
    u32At p 4 = 36 ∧ (u32At p 32).testBit 1 = true ∧ clientEnables p 33 = false := by
  obtain ⟨conn, p, h, h1, h2, h3, req, h4, h5, h6⟩ := C20_fuse_script (ε := Unit)
    (.connectionClosed ())
    (fun r p => ((FuseServer.updateFlags {} (· ||| FUSE_HAS_INODE_DAX)).initFn r p ()).1) []
    (initMessage 2 7 36 [65536, 0x40000000, 2, 0, 0, 0, 0, 0, 0, 0, 0, 0, 0, 0]) (by intro m hm; cases hm) (by decide) []
  have hf : req.flags = 0x240000000 := by
    apply UInt64.toNat_inj.mp
    rw [h4.2.2.2]; decide
  have e : ((FuseServer.updateFlags {} (· ||| FUSE_HAS_INODE_DAX)).initFn req {} ()).1 =
      ((FuseServer.updateFlags {} (· ||| FUSE_HAS_INODE_DAX)).initFn ⟨⟨7, 36⟩, 0, 0x240000000⟩ {} ()).1 := by
    simp only [FuseServer.initFn, hf]
  refine ⟨conn, p, h, ?_, ?_, ?_⟩
  · rw [h5, e]; decide
  · rw [h5, e]; decide
  · rw [h5, e]; decide

/-- With `FUSE_INIT_EXT` offered, too, the feature is enabled. -/
example : ∃ (conn : FuseConnection) (p : Bytes),
    (FuseServer.updateFlags {} (· ||| 0x240000000)).Connects (scripted (ε := Unit) (.connectionClosed ()))
      ⟨[.ok (initMessage 2 7 36 [65536, 0x40000000, 2, 0, 0, 0, 0, 0, 0, 0, 0, 0, 0, 0])], []⟩
      (.ok conn, ⟨[], [frame 2 0 p]⟩) ∧ clientEnables p 33 = true := by
  obtain ⟨conn, p, h, h1, h2, h3, req, h4, h5, h6⟩ := C20_fuse_script (ε := Unit)
    (.connectionClosed ())
    (fun r p => ((FuseServer.updateFlags {} (· ||| 0x240000000)).initFn r p ()).1) []
    (initMessage 2 7 36 [65536, 0x40000000, 2, 0, 0, 0, 0, 0, 0, 0, 0, 0, 0, 0]) (by intro m hm; cases hm) (by decide) []
  have hf : req.flags = 0x240000000 := by
    apply UInt64.toNat_inj.mp
    rw [h4.2.2.2]; decide
  have e : ((FuseServer.updateFlags {} (· ||| 0x240000000)).initFn req {} ()).1 =
      ((FuseServer.updateFlags {} (· ||| 0x240000000)).initFn ⟨⟨7, 36⟩, 0, 0x240000000⟩ {} ()).1 := by
    simp only [FuseServer.initFn, hf]
  refine ⟨conn, p, h, ?_⟩
  rw [h5, e]; decide

end Fuse
