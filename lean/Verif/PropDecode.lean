import Verif.RequestAll

/-!
# C08, C10–C16, C50: decoding is exactly the inverse of the client's encoding

`ClientReq.message` (built from the protocol description in `Protocol.lean`) is the message a client
sends.  `decode_message` and `decoded_from` are the two halves of the claim: every well-formed message
decodes to a request reporting what was sent, and every request that decodes was sent in a well-formed
message.
-/

namespace Fuse
open Spec

/-- The bytes a client sends for request `a`. -/
def ClientReq.message (a : ClientReq) (unique nodeid : UInt64) (uid gid pid padding : UInt32) : Bytes :=
  le32 (UInt32.ofNat (40 + a.body.length)) ++ le32 (UInt32.ofNat a.opcode) ++ le64 unique ++
    le64 nodeid ++ le32 uid ++ le32 gid ++ le32 pid ++ le32 padding ++ a.body

section
variable {a : ClientReq} {unique nodeid : UInt64} {uid gid pid padding : UInt32} {tail : Bytes}

theorem message_eq : a.message unique nodeid uid gid pid padding =
    enc (⟨UInt32.ofNat (40 + a.body.length), UInt32.ofNat a.opcode, unique, nodeid, uid, gid, pid,
      padding⟩ : FuseInHeader) ++ a.body := by
  rw [enc_fuse_in_header]; rfl

theorem message_length : (a.message unique nodeid uid gid pid padding).length = 40 + a.body.length := by
  rw [message_eq, List.length_append, Wire.enc_length]; rfl

theorem hd_message : hd (a.message unique nodeid uid gid pid padding ++ tail) =
    ⟨UInt32.ofNat (40 + a.body.length), UInt32.ofNat a.opcode, unique, nodeid, uid, gid, pid, padding⟩ := by
  unfold hd
  rw [message_eq, List.append_assoc, List.take_left' (by rw [Wire.enc_length]; rfl), Wire.dec_enc]

theorem opcode_lt (a : ClientReq) : a.opcode < 2 ^ 32 := by
  cases a <;> simp only [ClientReq.opcode] <;> omega

theorem u32At_message (hl : 40 + a.body.length < 2 ^ 32) :
    u32At (a.message unique nodeid uid gid pid padding ++ tail) 0 = 40 + a.body.length := by
  have hlen := message_length (a := a) (unique := unique) (nodeid := nodeid) (uid := uid) (gid := gid)
    (pid := pid) (padding := padding)
  rw [← (hdr_fields (buf := a.message unique nodeid uid gid pid padding ++ tail)
    (by rw [List.length_append]; omega)).1]
  show (hd _).len.toNat = _
  rw [hd_message]
  exact UInt32.toNat_ofNat_of_lt hl

theorem u64At_message (hu : unique ≠ 0) :
    u64At (a.message unique nodeid uid gid pid padding ++ tail) 8 ≠ 0 := by
  have hlen := message_length (a := a) (unique := unique) (nodeid := nodeid) (uid := uid) (gid := gid)
    (pid := pid) (padding := padding)
  rw [← (hdr_fields (buf := a.message unique nodeid uid gid pid padding ++ tail)
    (by rw [List.length_append]; omega)).2.2.1]
  show (hd _).unique.toNat ≠ _
  rw [hd_message]
  intro h
  exact hu (UInt64.toNat_inj.mp (h.trans rfl))

theorem rest_message {n : Nat} (hn : n = 40 + a.body.length) :
    ((a.message unique nodeid uid gid pid padding ++ tail).take n).drop 40 = a.body := by
  rw [List.take_left' (by rw [message_length, hn]), message_eq, List.drop_left' (by rw [Wire.enc_length]; rfl)]

/-- The run of the decoder on a complete message. -/
theorem run_message {t : ReqType} (ht : a.HasType t) (hw : a.WellFormed nodeid t.isCuse)
    (hne : a.ShiftFree) (hl : 40 + a.body.length < 2 ^ 32)
    (h80 : a.IsOldWrite → 80 ≤ 40 + a.body.length + tail.length) :
    let mem := a.message unique nodeid uid gid pid padding ++ tail
    ∃ r c, decodeAny t ⟨mem, 40 + a.body.length, 40⟩ = .ok (r, ⟨mem, 40 + a.body.length, c⟩) ∧
      (¬ a.IsOldInit → a.StringsNonempty → 40 + a.body.length ≤ c) ∧ a.Matches nodeid t.isCuse r := by
  intro mem
  have hlen : mem.length = 40 + a.body.length + tail.length := by
    rw [List.length_append, message_length]
  have hok : (Decoder.mk mem (40 + a.body.length) 40).Ok :=
    ⟨by show 40 + a.body.length ≤ mem.length; omega, hl, by show 40 ≤ mem.length; omega, by show 40 < _; omega⟩
  have hhd : hd mem = _ := hd_message
  have := run_any (mem := mem) (H := 40 + a.body.length) (s := []) ht
    (by rw [hhd]; exact UInt32.toNat_ofNat_of_lt (opcode_lt a)) (by rw [hhd]; exact hw) hne
    (by rw [hlen]; exact h80)
  obtain ⟨r, c', h1, h2, h3, h4⟩ := this hok (by rw [List.append_nil]; exact rest_message rfl)
  refine ⟨r, c', h1, fun h h' => ?_, by rw [hhd] at h4; exact h4⟩
  have hnil := h3 h h'
  have hl2 := h2.rest_length
  rw [hnil] at hl2
  simp only [List.length_nil] at hl2
  omega

/-- Every well-formed message, followed by whatever was in the receive buffer before, decodes to a
request reporting what the client sent. -/
theorem decode_message {t : ReqType} (ht : a.HasType t) (hw : a.WellFormed nodeid t.isCuse)
    (hne : a.ShiftFree) (hu : unique ≠ 0) (hl : 40 + a.body.length < 2 ^ 32)
    (h80 : a.IsOldWrite → 80 ≤ 40 + a.body.length + tail.length) :
    ∃ r, decodeMessage t (a.message unique nodeid uid gid pid padding ++ tail) = .ok r ∧
      a.Matches nodeid t.isCuse r := by
  obtain ⟨r, c, h1, _, h2⟩ := run_message (unique := unique) (uid := uid) (gid := gid) (pid := pid)
    (padding := padding) ht hw hne hl h80
  refine ⟨r, ?_, h2⟩
  rcases decodeMessage_cases t (a.message unique nodeid uid gid pid padding ++ tail) with ⟨e, he, _⟩ | ⟨_, _, _, _, _, hd'⟩
  · exfalso
    have hlen := message_length (a := a) (unique := unique) (nodeid := nodeid) (uid := uid) (gid := gid)
      (pid := pid) (padding := padding)
    rw [C02_error, u32At_message hl, List.length_append] at he
    rcases he with ⟨_, h | h⟩ | h
    · omega
    · omega
    · exact u64At_message hu h.2.2
  · rw [hd', u32At_message hl, h1]

end

/-- Every request that decodes stems from a well-formed client request, whose encoding the message
body starts with.  (The exception, SETXATTR with an empty name, is described by `C10_violated_setxattr`.) -/
theorem decoded_from {t : ReqType} {buf : Bytes} {r : AnyRequest} (hz : ¬ DecodeHazard t buf)
    (h : decodeMessage t buf = .ok r) (hx : ¬ r.EmptyXattrName) :
    ∃ (a : ClientReq) (s : Bytes), a.HasType t ∧ u32At buf 4 = a.opcode ∧
      (buf.take (u32At buf 0)).drop 40 = a.body ++ s ∧
      a.WellFormed (hd buf).nodeid t.isCuse ∧ a.Matches (hd buf).nodeid t.isCuse r := by
  rcases decodeMessage_cases t buf with ⟨e, _, h1⟩ | ⟨_, h40, _, _, hok, h1⟩
  · rw [h1] at h; cases h
  · rw [h1] at h
    cases hd' : decodeAny t ⟨buf, u32At buf 0, 40⟩ with
    | error e => rw [hd'] at h; cases h
    | ok p =>
      obtain ⟨x, d⟩ := p
      rw [hd'] at h
      cases h
      rcases snd_any t (pre_of_not_hazard h40 hz) hok rfl _ _ hd' with hq | ⟨a, s, h2, h3, h4, h5, h6⟩
      · exact absurd hq hx
      · exact ⟨a, s, h2, by rw [← h3]; exact ((hdr_fields h40).2.1).symm, h4, h5, h6⟩

/-! ## C08: names are exactly the message bytes up to the next NUL -/

/-- The node names in a client request. -/
def ClientReq.names : ClientReq → List Bytes
  | .create _ n | .createOld _ n | .link _ n | .lookup n | .mkdir _ n | .mknod _ n | .mknodOld _ n
  | .rmdir n | .symlink _ n | .unlink n => [n]
  | .rename _ o n | .rename2 _ o n => [o, n]
  | _ => []

/-- The size of the fixed-size arguments preceding the first name of a request. -/
def ReqType.nameOffset (opcode : Nat) : ReqType → Nat
  | .create l => if l.versionMinor < 12 then 8 else 16
  | .link => 8
  | .mkdir => 8
  | .mknod l => if l.versionMinor < 12 then 8 else 16
  | .rename => if opcode = 45 then 16 else 8
  | _ => 0

/-- The name of a decoded request other than SYMLINK consists of exactly the message bytes
from the end of the fixed-size arguments up to (not including) the next NUL, and contains none. -/
theorem names_at (t : ReqType) (buf : Bytes) (r : AnyRequest) (hz : ¬ DecodeHazard t buf)
    (h : decodeMessage t buf = .ok r) (hs : t ≠ .symlink) :
    ∀ n ∈ r.names.head?, 0 ∉ n.bytes ∧
      n.bytes ++ [0] <+: ((buf.take (u32At buf 0)).drop (40 + t.nameOffset (u32At buf 4))) := by
  intro n hn
  have hx : ¬ r.EmptyXattrName := by
    intro hx; cases r <;> first | exact hx | cases hn
  obtain ⟨a, s, h1, h2, h3, h4, h5⟩ := decoded_from hz h hx
  rw [← List.drop_drop, h3, h2]
  have fin : ∀ {p : Bytes} {k : Nat} {nm tl : Bytes}, p.length = k → n.bytes = nm → NameOk nm →
      0 ∉ n.bytes ∧ n.bytes ++ [0] <+: (p ++ (nm ++ ([0] ++ tl))).drop k := by
    intro p k nm tl hp hb hok
    rw [List.drop_left' hp, hb, ← List.append_assoc]
    exact ⟨hok.2.1, List.prefix_append _ _⟩
  have lt16 : ∀ {x k : UInt16}, k ≤ x → ¬ x < k := by
    intro x k h; rw [UInt16.lt_iff_toNat_lt]; rw [UInt16.le_iff_toNat_le] at h; omega
  cases a <;> cases t <;> (first | exact False.elim h1 | skip) <;>
    cases r <;> (first | exact False.elim h5 | skip) <;>
    (first | (cases hn; done) | skip)
  case create.create.create =>
    cases hn
    rw [ReqType.nameOffset, if_neg (lt16 h1)]
    simp only [ClientReq.body, cstring, List.append_assoc, ← enc_fuse_create_in]
    exact fin (by simp) h5.2.1 h4.2
  case createOld.create.create =>
    cases hn
    rw [ReqType.nameOffset, if_pos (c := (_ : UInt16) < 12) h1]
    simp only [ClientReq.body, cstring, List.append_assoc, ← enc_fuse_create_in_v7p1]
    exact fin (by simp) h5.2.1 h4.2
  case mknod.mknod.mknod =>
    cases hn
    rw [ReqType.nameOffset, if_neg (lt16 h1)]
    simp only [ClientReq.body, cstring, List.append_assoc, ← enc_fuse_mknod_in]
    exact fin (by simp) h5.2.1 h4.2
  case mknodOld.mknod.mknod =>
    cases hn
    rw [ReqType.nameOffset, if_pos (c := (_ : UInt16) < 12) h1]
    simp only [ClientReq.body, cstring, List.append_assoc, ← enc_fuse_mknod_in_v7p1]
    exact fin (by simp) h5.2.1 h4.2
  case link.link.link =>
    cases hn
    simp only [ClientReq.body, cstring, List.append_assoc, ← enc_fuse_link_in]
    exact fin (by simp [ReqType.nameOffset]) h5.2.2 h4.2.2
  case mkdir.mkdir.mkdir =>
    cases hn
    simp only [ClientReq.body, cstring, List.append_assoc, ← enc_fuse_mkdir_in]
    exact fin (by simp [ReqType.nameOffset]) h5.2.1 h4.2
  case lookup.lookup.lookup =>
    cases hn
    simp only [ClientReq.body, cstring, List.append_assoc]
    exact fin (p := []) rfl h5.2 h4.2
  case rmdir.rmdir.rmdir =>
    cases hn
    simp only [ClientReq.body, cstring, List.append_assoc]
    exact fin (p := []) rfl h5.2 h4.2
  case unlink.unlink.unlink =>
    cases hn
    simp only [ClientReq.body, cstring, List.append_assoc]
    exact fin (p := []) rfl h5.2 h4.2
  case rename.rename.rename =>
    cases hn
    simp only [ClientReq.body, cstring, List.append_assoc, ← enc_fuse_rename_in]
    exact fin (by simp [ReqType.nameOffset, ClientReq.opcode]) h5.2.1 h4.2.2.1
  case rename2.rename.rename =>
    cases hn
    simp only [ClientReq.body, cstring, List.append_assoc, ← enc_fuse_rename2_in]
    exact fin (by simp [ReqType.nameOffset, ClientReq.opcode]) h5.2.1 h4.2.2.1
  case symlink.symlink.symlink => exact absurd rfl hs

/-- **C08**, requests with two strings: the message body of RENAME is the fixed-size arguments, the
old name, NUL, the new name, NUL. -/
theorem C08_rename_exact (buf : Bytes) (x : RenameRequest)
    (h : decodeMessage .rename buf = .ok (.rename x)) :
    ∃ s, (buf.take (u32At buf 0)).drop (40 + ReqType.rename.nameOffset (u32At buf 4)) =
      x.oldName.bytes ++ [0] ++ x.newName.bytes ++ [0] ++ s ∧ 0 ∉ x.oldName.bytes ∧
      0 ∉ x.newName.bytes := by
  obtain ⟨a, s, h1, h2, h3, h4, h5⟩ := decoded_from (t := .rename) (fun h => h) h (fun h => h)
  cases a <;> (first | exact False.elim h5 | skip) <;> refine ⟨s, ?_, ?_, ?_⟩
  case rename.refine_1 b o n =>
    rw [← List.drop_drop, h3, h2, h5.2.1, h5.2.2.2.1]
    simp only [ClientReq.body, cstring, List.append_assoc, ← enc_fuse_rename_in]
    exact List.drop_left' (by simp [ReqType.nameOffset, ClientReq.opcode])
  case rename2.refine_1 b o n =>
    rw [← List.drop_drop, h3, h2, h5.2.1, h5.2.2.2.1]
    simp only [ClientReq.body, cstring, List.append_assoc, ← enc_fuse_rename2_in]
    exact List.drop_left' (by simp [ReqType.nameOffset, ClientReq.opcode])
  case rename.refine_2 b o n => rw [h5.2.1]; exact h4.2.2.1.2.1
  case rename2.refine_2 b o n => rw [h5.2.1]; exact h4.2.2.1.2.1
  case rename.refine_3 b o n => rw [h5.2.2.2.1]; exact h4.2.2.2.2.1
  case rename2.refine_3 b o n => rw [h5.2.2.2.1]; exact h4.2.2.2.2.1

/-- **C08**, requests with two strings: the message body of SYMLINK is the link target, NUL, the name,
NUL. -/
theorem C08_symlink_exact (buf : Bytes) (x : SymlinkRequest)
    (h : decodeMessage .symlink buf = .ok (.symlink x)) :
    ∃ s, (buf.take (u32At buf 0)).drop 40 =
      x.content.bytes ++ [0] ++ x.name.bytes ++ [0] ++ s ∧ 0 ∉ x.content.bytes ∧ 0 ∉ x.name.bytes := by
  obtain ⟨a, s, h1, h2, h3, h4, h5⟩ := decoded_from (t := .symlink) (fun h => h) h (fun h => h)
  cases a <;> (first | exact False.elim h5 | skip)
  refine ⟨s, ?_, ?_, ?_⟩
  · rw [h3, h5.2.1, h5.2.2]
    simp only [ClientReq.body, cstring, List.append_assoc]
  · rw [h5.2.2]; exact h4.2.1
  · rw [h5.2.1]; exact h4.2.2.2.1

/-- A RENAME of `a` to `b` in the root directory, followed by stale bytes. -/
def exampleRename : Bytes :=
  (ClientReq.rename ⟨1⟩ [0x61] [0x62]).message 7 1 0 0 0 0 ++ [0x63, 0x64]

example : decodeMessage .rename exampleRename =
    .ok (.rename ⟨NodeId.root, ⟨[0x61]⟩, NodeId.root, ⟨[0x62]⟩, 0⟩) := by decide

/-! ## C11–C13, C15: round trips -/

/-- Requests consisting of fixed-size arguments only. -/
def ClientReq.Fixed : ClientReq → Prop
  | .access _ | .bmap _ | .copyFileRange _ | .fallocate _ | .flush _ | .fsync _ | .fsyncdir _
  | .getattrOld | .getattr _ | .getlk _ | .setlk _ | .setlkw _ | .listxattr _ | .interrupt _
  | .lseek _ | .open_ _ | .opendir _ | .poll _ | .readOld _ | .read _ | .readdirOld _ | .readdir _
  | .readdirplusOld _ | .readdirplus _ | .readlink | .releaseOld _ | .release _ | .releasedirOld _
  | .releasedir _ | .setattr _ | .statfs | .forget _ | .initV1 _ _ | .initV6 _ _ _ _ | .init _
  | .cuseInit _ => True
  | _ => False

theorem fixed_length {a : ClientReq} (h : a.Fixed) : a.body.length ≤ 104 := by
  cases a <;> first | exact False.elim h | skip
  all_goals first
    | exact Nat.zero_le _
    | decide
    | skip
  all_goals simp only [ClientReq.body, ← enc_fuse_access_in, ← enc_fuse_bmap_in,
    ← enc_fuse_copy_file_range_in, ← enc_fuse_fallocate_in, ← enc_fuse_flush_in, ← enc_fuse_fsync_in,
    ← enc_fuse_getattr_in, ← enc_fuse_lk_in, ← enc_fuse_getxattr_in, ← enc_fuse_interrupt_in,
    ← enc_fuse_lseek_in, ← enc_fuse_open_in, ← enc_fuse_poll_in, ← enc_fuse_read_in,
    ← enc_fuse_read_in_v7p1, ← enc_fuse_release_in, ← enc_fuse_release_in_v7p1, ← enc_fuse_setattr_in,
    ← enc_fuse_forget_in, ← enc_fuse_init_in, ← enc_cuse_init_in, Wire.enc_length,
    List.length_append]
  all_goals first
    | decide
    | exact Nat.le_refl _
    | simp

/-- **C11**: for every operation with fixed-size arguments, the message a client sends (followed by
arbitrary stale bytes in the receive buffer) decodes to a request whose accessors return the values
sent (`ClientReq.Matches` lists them per operation).  Missing for the full claim: the shorter lock
arguments of clients older than 7.9, which are refused, see `C11_violated_lk`. -/
theorem C11_fixed_round_trip_partial (a : ClientReq) (t : ReqType) (unique nodeid : UInt64)
    (uid gid pid padding : UInt32) (tail : Bytes) (hf : a.Fixed) (ht : a.HasType t)
    (hw : a.WellFormed nodeid t.isCuse) (hu : unique ≠ 0) :
    ∃ r, decodeMessage t (a.message unique nodeid uid gid pid padding ++ tail) = .ok r ∧
      a.Matches nodeid t.isCuse r := by
  have hl := fixed_length hf
  refine decode_message ht hw ?_ hu (by omega) (fun h => ?_)
  · cases a <;> first | exact False.elim hf | trivial
  · cases a <;> first | exact False.elim hf | exact False.elim h

example : ∃ r, decodeMessage (.read 31 false) ((ClientReq.read ⟨5, 4096, 512, 2, 77, 0x8000, 0⟩).message
    9 3 0 0 0 0 ++ [1, 2, 3]) = .ok (.read r) ∧ r.handle = .ok 5 ∧ r.offset = .ok 4096 ∧
    r.size = .ok 512 ∧ r.lockOwner = .ok (some 77) ∧ r.openFlags = .ok 0x8000 := by
  refine ⟨⟨⟨80, 15, 9, 3, 0, 0, 0, 0⟩, ⟨31, enc (⟨5, 4096, 512, 2, 77, 0x8000, 0⟩ : FuseReadIn)⟩⟩, ?_⟩
  decide

/-- Requests with names or strings. -/
def ClientReq.Named : ClientReq → Prop
  | .createOld _ _ | .create _ _ | .link _ _ | .lookup _ | .mkdir _ _ | .mknodOld _ _ | .mknod _ _
  | .rename _ _ _ | .rename2 _ _ _ | .rmdir _ | .symlink _ _ | .unlink _ | .getxattr _ _
  | .removexattr _ | .setxattrOld _ _ _ | .setxattr _ _ _ => True
  | _ => False

/-- **C12**: for every operation with names, the message a client sends decodes to a request whose
accessors return the names and values sent.  Missing for the full claim: SYMLINK with an empty target
and SETXATTR with an empty attribute name, see `C10_violated_symlink` and `C10_violated_setxattr`. -/
theorem C12_named_round_trip_partial (a : ClientReq) (t : ReqType) (unique nodeid : UInt64)
    (uid gid pid padding : UInt32) (tail : Bytes) (hn : a.Named) (ht : a.HasType t)
    (hw : a.WellFormed nodeid t.isCuse) (hne : a.ShiftFree) (hu : unique ≠ 0)
    (hl : 40 + a.body.length < 2 ^ 32) :
    ∃ r, decodeMessage t (a.message unique nodeid uid gid pid padding ++ tail) = .ok r ∧
      a.Matches nodeid t.isCuse r :=
  decode_message ht hw hne hu hl
    (fun h => by cases a <;> first | exact False.elim hn | exact False.elim h)

example : ∃ r, decodeMessage (.mknod ⟨12, 0⟩) ((ClientReq.mknod ⟨0x2180, 0x105, 0x12, 0⟩ [0x74]).message
    9 3 0 0 0 0) = .ok (.mknod r) ∧ r.name.bytes = [0x74] ∧ r.umask = .ok 0x12 ∧
    r.deviceNumber = .ok (some 0x105) := by
  refine ⟨⟨⟨58, 8, 9, 3, 0, 0, 0, 0⟩, ⟨12, enc (⟨0x2180, 0x105, 0x12, 0⟩ : FuseMknodIn)⟩, ⟨[0x74]⟩⟩, ?_⟩
  decide

/-- **C13**: a WRITE in the layout used since 7.9 decodes to the handle, offset, flags and exactly the
bytes the client sent. -/
theorem C13_write (b : FuseWriteIn) (data : Bytes) (v : UInt32) (cuse : Bool) (unique nodeid : UInt64)
    (uid gid pid padding : UInt32) (tail : Bytes) (hv : 9 ≤ v) (hid : cuse = true ∨ nodeid ≠ 0)
    (hs : b.size.toNat = data.length) (hu : unique ≠ 0) (hl : 80 + data.length < 2 ^ 32) :
    ∃ r, decodeMessage (.write v cuse)
        ((ClientReq.write b data).message unique nodeid uid gid pid padding ++ tail) = .ok (.write r) ∧
      r.value = .ok data ∧ r.offset = .ok b.offset ∧ r.handle = .ok b.fh ∧
      r.flags = .ok b.write_flags ∧ r.openFlags = .ok b.flags ∧
      r.lockOwner = .ok (if b.write_flags &&& 2 = 0 then none else some b.lock_owner) := by
  have hlen : (ClientReq.write b data).body.length = 40 + data.length := by
    simp only [ClientReq.body, List.length_append, ← enc_fuse_write_in, Wire.enc_length]; rfl
  obtain ⟨r, h1, h2⟩ := decode_message (a := .write b data) (t := .write v cuse) (unique := unique)
    (nodeid := nodeid) (uid := uid) (gid := gid) (pid := pid) (padding := padding) (tail := tail)
    hv ⟨hid, hs⟩ trivial hu (by omega) (fun h => False.elim h)
  cases r <;> first | exact False.elim h2 | skip
  rename_i r
  obtain ⟨_, h3, h4, h5, h6, h7, h8⟩ := h2
  exact ⟨r, h1, h5, h3, h4, h6, h8, h7⟩

/-- **C13**, layout before 7.9.  Missing for the full claim: messages shorter than 80 bytes in a buffer
of fewer than 80 bytes, see `C04_violated_write`. -/
theorem C13_write_old_partial (b : FuseWriteInV7p1) (data : Bytes) (v : UInt32) (cuse : Bool)
    (unique nodeid : UInt64) (uid gid pid padding : UInt32) (tail : Bytes) (hv : v < 9)
    (hid : cuse = true ∨ nodeid ≠ 0) (hs : b.size.toNat = data.length) (hu : unique ≠ 0)
    (hl : 64 + data.length < 2 ^ 32) (h80 : 80 ≤ 64 + data.length + tail.length) :
    ∃ r, decodeMessage (.write v cuse)
        ((ClientReq.writeOld b data).message unique nodeid uid gid pid padding ++ tail) =
          .ok (.write r) ∧
      r.value = .ok data ∧ r.offset = .ok b.offset ∧ r.handle = .ok b.fh ∧
      r.flags = .ok b.write_flags ∧ r.openFlags = .ok 0 ∧ r.lockOwner = .ok none := by
  have hlen : (ClientReq.writeOld b data).body.length = 24 + data.length := by
    simp only [ClientReq.body, List.length_append, ← enc_fuse_write_in_v7p1, Wire.enc_length]; rfl
  obtain ⟨r, h1, h2⟩ := decode_message (a := .writeOld b data) (t := .write v cuse) (unique := unique)
    (nodeid := nodeid) (uid := uid) (gid := gid) (pid := pid) (padding := padding) (tail := tail)
    hv ⟨hid, hs⟩ trivial hu (by omega) (fun _ => by omega)
  cases r <;> first | exact False.elim h2 | skip
  rename_i r
  obtain ⟨_, h3, h4, h5, h6, h7, h8⟩ := h2
  exact ⟨r, h1, h5, h3, h4, h6, h8, h7⟩

example : ∃ r, decodeMessage (.write 31 false) ((ClientReq.write ⟨5, 4096, 3, 0, 0, 0, 0⟩ [7, 8, 9]).message
    9 3 0 0 0 0 ++ [1, 2, 3]) = .ok (.write r) ∧ r.value = .ok [7, 8, 9] ∧ r.offset = .ok 4096 := by
  refine ⟨⟨(ClientReq.write ⟨5, 4096, 3, 0, 0, 0, 0⟩ [7, 8, 9]).message 9 3 0 0 0 0, 31⟩, ?_⟩
  decide

/-- **C15**: FORGET reports its single node (none if the node ID is zero). -/
theorem C15_forget (nlookup : UInt64) (checks : Bool) (unique nodeid : UInt64)
    (uid gid pid padding : UInt32) (tail : Bytes) (hu : unique ≠ 0) :
    ∃ r, decodeMessage (.forget checks)
        ((ClientReq.forget ⟨nlookup⟩).message unique nodeid uid gid pid padding ++ tail) =
          .ok (.forget r) ∧
      r.items.map (fun i => (i.nodeId.val, i.lookupCount)) =
        if nodeid = 0 then [] else [(nodeid, nlookup)] := by
  obtain ⟨r, h1, h2⟩ := C11_fixed_round_trip_partial (.forget ⟨nlookup⟩) (.forget checks) unique nodeid
    uid gid pid padding tail trivial trivial trivial hu
  cases r <;> first | exact False.elim h2 | skip
  exact ⟨_, h1, h2⟩

/-- **C15**: BATCH_FORGET reports exactly the pairs sent, in order, without those of node ID zero, for
batches of any size a message can carry, with and without overflow checks. -/
theorem C15_batch_forget (items : List FuseForgetOne) (dummy : UInt32) (checks : Bool)
    (unique nodeid : UInt64) (uid gid pid padding : UInt32) (tail : Bytes) (hu : unique ≠ 0)
    (hl : 48 + 16 * items.length < 2 ^ 32) :
    ∃ r, decodeMessage (.forget checks)
        ((ClientReq.batchForget ⟨UInt32.ofNat items.length, dummy⟩ items).message unique nodeid uid gid
          pid padding ++ tail) = .ok (.forget r) ∧
      r.items.map (fun i => (i.nodeId.val, i.lookupCount)) =
        (items.filter (·.nodeid ≠ 0)).map (fun i => (i.nodeid, i.nlookup)) := by
  have hfm : items.flatMap layout_fuse_forget_one = items.flatMap enc := by
    congr 1; funext x; exact (enc_fuse_forget_one x).symm
  have hlen : (ClientReq.batchForget ⟨UInt32.ofNat items.length, dummy⟩ items).body.length =
      8 + 16 * items.length := by
    simp only [ClientReq.body, List.length_append, ← enc_fuse_batch_forget_in, Wire.enc_length, hfm,
      flatMap_enc_length, size_fuse_batch_forget_in, size_fuse_forget_one]
    omega
  obtain ⟨r, h1, h2⟩ := decode_message (a := .batchForget ⟨UInt32.ofNat items.length, dummy⟩ items)
    (t := .forget checks) (unique := unique) (nodeid := nodeid) (uid := uid) (gid := gid) (pid := pid)
    (padding := padding) (tail := tail) trivial
    (show (UInt32.ofNat items.length).toNat = items.length from UInt32.toNat_ofNat_of_lt (by show _ < 2 ^ 32; omega))
    trivial hu (by omega) (fun h => False.elim h)
  cases r <;> first | exact False.elim h2 | skip
  exact ⟨_, h1, h2⟩

example : ∃ r, decodeMessage (.forget true)
    ((ClientReq.batchForget ⟨3, 0⟩ [⟨2, 1⟩, ⟨0, 9⟩, ⟨5, 4⟩]).message 9 0 0 0 0 0) = .ok (.forget r) ∧
    r.items.map (fun i => (i.nodeId.val, i.lookupCount)) = [(2, 1), (5, 4)] := by
  refine ⟨⟨none, [⟨2, 1⟩, ⟨0, 9⟩, ⟨5, 4⟩]⟩, ?_⟩
  decide

/-! ## C10 -/

/-- **C10** for SYMLINK: target and name are the bytes sent.  Missing for the full claim: an empty
target, see `C10_violated_symlink`. -/
theorem C10_symlink_partial (content name : Bytes) (unique nodeid : UInt64)
    (uid gid pid padding : UInt32) (tail : Bytes) (hc : 0 ∉ content) (hne : content ≠ [])
    (hn : NameOk name) (hid : nodeid ≠ 0) (hu : unique ≠ 0)
    (hl : 42 + content.length + name.length < 2 ^ 32) :
    ∃ r, decodeMessage .symlink
        ((ClientReq.symlink content name).message unique nodeid uid gid pid padding ++ tail) =
          .ok (.symlink r) ∧ r.content.bytes = content ∧ r.name.bytes = name := by
  obtain ⟨r, h1, h2⟩ := C12_named_round_trip_partial (.symlink content name) .symlink unique nodeid
    uid gid pid padding tail trivial trivial ⟨hid, hc, hn⟩ hne hu
    (by simp only [ClientReq.body, cstring, List.length_append, List.length_singleton]; omega)
  cases r <;> first | exact False.elim h2 | skip
  exact ⟨_, h1, h2.2.2, h2.2.1⟩

/-- **C10** for SETXATTR (both layouts): name and value are the bytes sent.  Missing for the full
claim: an empty name, see `C10_violated_setxattr`. -/
theorem C10_setxattr_partial (b : FuseSetxattrIn) (name value : Bytes) (l : FuseLayout)
    (unique nodeid : UInt64) (uid gid pid padding : UInt32) (tail : Bytes) (hc : 0 ∉ name)
    (hne : name ≠ []) (hs : b.size.toNat = value.length) (hx : l.features &&& 1 ≠ 0) (hid : nodeid ≠ 0)
    (hu : unique ≠ 0) (hl : 57 + name.length + value.length < 2 ^ 32) :
    ∃ r, decodeMessage (.setxattr l)
        ((ClientReq.setxattr b name value).message unique nodeid uid gid pid padding ++ tail) =
          .ok (.setxattr r) ∧ r.name.bytes = name ∧ r.value = value ∧ r.flags = .ok b.setxattr_flags := by
  obtain ⟨r, h1, h2⟩ := C12_named_round_trip_partial (.setxattr b name value) (.setxattr l) unique nodeid
    uid gid pid padding tail trivial hx ⟨hid, hc, hs⟩ hne hu
    (by simp only [ClientReq.body, cstring, List.length_append, List.length_singleton,
          ← enc_fuse_setxattr_in, Wire.enc_length, size_fuse_setxattr_in]; omega)
  cases r <;> first | exact False.elim h2 | skip
  exact ⟨_, h1, h2.2.1, h2.2.2.1, h2.2.2.2.2⟩

/-- `SYMLINK("" → "a")` in the root directory, a well-formed message. -/
def emptySymlink : Bytes := (ClientReq.symlink [] [0x61]).message 7 1 0 0 0 0

/-- **C10** fails for an empty link target: the terminator is read again as an empty name. -/
theorem C10_violated_symlink : (ClientReq.symlink [] [0x61]).WellFormed 1 false ∧
    decodeMessage .symlink emptySymlink = .error (.req (.nodeNameError .empty)) :=
  ⟨⟨by decide, by decide, by decide, by decide, by decide⟩, by decide⟩

/-- **C10** fails for an empty attribute name: the value starts with the name's terminator and lacks
its last byte. -/
theorem C10_violated_setxattr : (ClientReq.setxattrOld ⟨2, 0⟩ [] [0x61, 0x62]).WellFormed 1 false ∧
    ∃ r, decodeMessage (.setxattr ⟨32, 0⟩)
        ((ClientReq.setxattrOld ⟨2, 0⟩ [] [0x61, 0x62]).message 7 1 0 0 0 0) = .ok (.setxattr r) ∧
      r.value = [0, 0x61] := by
  refine ⟨⟨by decide, by decide, by decide⟩,
    ⟨⟨51, 21, 7, 1, 0, 0, 0, 0⟩, ⟨1, enc (⟨2, 0⟩ : FuseSetxattrInV7p1)⟩, ⟨[]⟩, [0, 0x61]⟩, ?_⟩
  decide

/-! ## C14 -/

/-- The first `n` bytes of a message in the receive buffer `buf`, with the length field saying so. -/
def shorten (n : Nat) (buf : Bytes) : Bytes := le32 (UInt32.ofNat n) ++ buf.drop 4

theorem shorten_message {a : ClientReq} {unique nodeid : UInt64} {uid gid pid padding : UInt32}
    {tail : Bytes} {n : Nat} :
    shorten n (a.message unique nodeid uid gid pid padding ++ tail) =
      enc (⟨UInt32.ofNat n, UInt32.ofNat a.opcode, unique, nodeid, uid, gid, pid, padding⟩ : FuseInHeader)
        ++ (a.body ++ tail) := by
  rw [enc_fuse_in_header]
  unfold shorten ClientReq.message layout_fuse_in_header
  simp only [List.append_assoc]
  rw [List.drop_left' (by rfl)]

/-- A message cut short in its arguments either decodes or is rejected with `UnexpectedEof`.  `PropLanguage.lean`
excludes the former. -/
theorem decode_shorten (a : ClientReq) (t : ReqType) (unique nodeid : UInt64)
    (uid gid pid padding : UInt32) (tail : Bytes) (n : Nat) (ht : a.HasType t)
    (hw : a.WellFormed nodeid t.isCuse) (hsf : a.ShiftFree) (hu : unique ≠ 0)
    (hl : 40 + a.body.length < 2 ^ 32)
    (h80 : a.IsOldWrite → 80 ≤ 40 + a.body.length + tail.length)
    (h40 : 40 ≤ n) (hn : n < 40 + a.body.length) :
    (∃ r, decodeMessage t (shorten n (a.message unique nodeid uid gid pid padding ++ tail)) = .ok r) ∨
    decodeMessage t (shorten n (a.message unique nodeid uid gid pid padding ++ tail)) =
      .error (.req .unexpectedEof) := by
  obtain ⟨r, c, h1, _, _⟩ := run_message (unique := unique) (uid := uid) (gid := gid) (pid := pid)
    (padding := padding) ht hw hsf hl h80
  have hsm := shorten_message (a := a) (unique := unique) (nodeid := nodeid) (uid := uid) (gid := gid)
    (pid := pid) (padding := padding) (tail := tail) (n := n)
  have hm := message_eq (a := a) (unique := unique) (nodeid := nodeid) (uid := uid) (gid := gid)
    (pid := pid) (padding := padding)
  generalize hm2 : shorten n (a.message unique nodeid uid gid pid padding ++ tail) = mem2 at hsm ⊢
  generalize hm1 : a.message unique nodeid uid gid pid padding ++ tail = mem1 at h1
  rw [hm, List.append_assoc] at hm1
  have hlen1 : mem1.length = 40 + a.body.length + tail.length := by
    rw [← hm1]; simp only [List.length_append, Wire.enc_length, size_fuse_in_header]; omega
  have hlen2 : mem2.length = 40 + a.body.length + tail.length := by
    rw [hsm]; simp only [List.length_append, Wire.enc_length, size_fuse_in_header]; omega
  have hd1 : (dec (mem1.take 40) : FuseInHeader) = ⟨UInt32.ofNat (40 + a.body.length),
      UInt32.ofNat a.opcode, unique, nodeid, uid, gid, pid, padding⟩ := by
    rw [← hm1, List.take_left' (by rw [Wire.enc_length]; rfl), Wire.dec_enc]
  have hd2 : (dec (mem2.take 40) : FuseInHeader) = ⟨UInt32.ofNat n,
      UInt32.ofNat a.opcode, unique, nodeid, uid, gid, pid, padding⟩ := by
    rw [hsm, List.take_left' (by rw [Wire.enc_length]; rfl), Wire.dec_enc]
  have hu0 : u32At mem2 0 = n := by
    rw [← (hdr_fields (buf := mem2) (by omega)).1]
    simp only [hd2]
    exact UInt32.toNat_ofNat_of_lt (by show _ < 2 ^ 32; omega)
  have hu8 : u64At mem2 8 ≠ 0 := by
    rw [← (hdr_fields (buf := mem2) (by omega)).2.2.1]
    simp only [hd2]
    intro h
    exact hu (UInt64.toNat_inj.mp (h.trans rfl))
  have hb1 : mem1.drop 40 = a.body ++ tail := by
    rw [← hm1, List.drop_left' (by rw [Wire.enc_length]; rfl)]
  have hb2 : mem2.drop 40 = a.body ++ tail := by
    rw [hsm, List.drop_left' (by rw [Wire.enc_length]; rfl)]
  have hrel : Rel mem1 (40 + a.body.length) mem2 n := by
    refine ⟨by omega, hl, by omega, by omega, by omega, by omega,
      ⟨UInt32.ofNat n, by rw [hd1, hd2], fun h => by omega⟩, fun h => by omega, ?_⟩
    rw [List.drop_take, List.drop_take, hb1, hb2, List.take_take]
    congr 1; omega
  have hp2 : t.Pre2 mem1 mem2 := by
    cases t with
    | write v k =>
      by_cases hv : v ≥ 9
      · exact Or.inl hv
      · right
        have : a.IsOldWrite := by
          cases a <;> first | exact False.elim ht | trivial | exact absurd ht hv
        have := h80 this
        exact ⟨by omega, by omega⟩
    | _ => trivial
  have hsim := sim_any hrel t hp2 40 (Nat.le_refl _) (by omega) (Or.inl h40)
  rw [h1] at hsim
  have key : (∃ b d, decodeAny t ⟨mem2, n, 40⟩ = .ok (b, d)) ∨
      decodeAny t ⟨mem2, n, 40⟩ = .error (.req .unexpectedEof) := by
    rcases hsim with ⟨c', b, hc, _, _, h5, h6, _⟩ | ⟨_, h6⟩
    · exact .inl ⟨_, _, h6⟩
    · exact .inr h6
  rcases decodeMessage_cases t mem2 with ⟨e, he, hd'⟩ | ⟨_, _, _, _, _, hd'⟩
  · rw [C02_error, hu0, hlen2] at he
    rcases he with ⟨_, h | h⟩ | h
    · omega
    · omega
    · exact absurd h.2.2 hu8
  · rw [hd', hu0]
    rcases key with ⟨b, d, key⟩ | key
    · exact .inl ⟨b, by rw [key]⟩
    · exact .inr (by rw [key])

/-- **C14**: a message cut short anywhere, with the length field still that of the whole message, is
rejected with `UnexpectedEof`. -/
theorem C14_truncated_buffer (a : ClientReq) (t : ReqType) (unique nodeid : UInt64)
    (uid gid pid padding : UInt32) (n : Nat) (hl : 40 + a.body.length < 2 ^ 32)
    (hu : unique ≠ 0) (hn : n < 40 + a.body.length) :
    decodeMessage t ((a.message unique nodeid uid gid pid padding).take n) =
      .error (.req .unexpectedEof) := by
  have hlen := message_length (a := a) (unique := unique) (nodeid := nodeid) (uid := uid) (gid := gid)
    (pid := pid) (padding := padding)
  have key : Request.new ((a.message unique nodeid uid gid pid padding).take n) = .error .unexpectedEof := by
    rw [C02_error]
    left
    refine ⟨rfl, ?_⟩
    rw [List.length_take, hlen]
    by_cases h : n < 40
    · left; omega
    · right
      have h0 := u32At_message (a := a) (unique := unique) (nodeid := nodeid) (uid := uid) (gid := gid)
        (pid := pid) (padding := padding) (tail := []) hl
      rw [List.append_nil] at h0
      have ht : u32At ((a.message unique nodeid uid gid pid padding).take n) 0 =
          u32At (a.message unique nodeid uid gid pid padding) 0 :=
        u32At_take (n := 4) (by rw [List.take_take]; congr 1; omega) (by omega)
      have h8 : u64At ((a.message unique nodeid uid gid pid padding).take n) 8 =
          u64At (a.message unique nodeid uid gid pid padding) 8 := by
        have e : ∀ i, i + 4 ≤ 40 → u32At ((a.message unique nodeid uid gid pid padding).take n) i =
            u32At (a.message unique nodeid uid gid pid padding) i := fun i hi =>
          u32At_take (n := 40) (by rw [List.take_take]; congr 1; omega) hi
        unfold u64At; rw [e _ (by omega), e _ (by omega)]
      have h9 := u64At_message (a := a) (nodeid := nodeid) (uid := uid) (gid := gid) (pid := pid)
        (padding := padding) (tail := []) hu
      rw [List.append_nil] at h9
      rw [ht, h0, h8]
      first | exact ⟨by omega, h9, by omega⟩ | exact ⟨h9, by omega⟩ | (refine ⟨?_, ?_⟩ <;> omega)
  rcases decodeMessage_cases t ((a.message unique nodeid uid gid pid padding).take n) with ⟨e, he, hd'⟩ | ⟨h, _⟩
  · rw [key] at he; cases he; exact hd'
  · rw [key] at h; cases h

example : decodeMessage .rename (shorten 50 exampleRename) = .error (.req .unexpectedEof) ∧
    decodeMessage .rename (shorten 51 exampleRename) = .error (.req .unexpectedEof) := by decide

/-! ## C16 -/

/-- **C16**: a SETATTR message decodes if and only if every timestamp selected by its valid mask has
fewer than 10^9 nanoseconds. -/
theorem C16_setattr_iff (b : FuseSetattrIn) (unique nodeid : UInt64) (uid gid pid padding : UInt32)
    (tail : Bytes) (hu : unique ≠ 0) (hid : nodeid ≠ 0) :
    (∃ r, decodeMessage .setattr
        ((ClientReq.setattr b).message unique nodeid uid gid pid padding ++ tail) = .ok r) ↔
      (b.valid &&& 16 ≠ 0 → b.atimensec < 1000000000) ∧
      (b.valid &&& 32 ≠ 0 → b.mtimensec < 1000000000) ∧
      (b.valid &&& 1024 ≠ 0 → b.ctimensec < 1000000000) := by
  have hl := fixed_length (a := .setattr b) trivial
  constructor
  · rintro ⟨r, h⟩
    have hx : ¬ r.EmptyXattrName := by
      intro hx
      cases r <;> first | exact hx | skip
      rcases decodeMessage_cases .setattr ((ClientReq.setattr b).message unique nodeid uid gid pid padding
        ++ tail) with ⟨e, _, h1⟩ | ⟨_, _, _, _, _, h1⟩
      · rw [h1] at h; cases h
      · rw [h1] at h
        simp only [decodeAny, map_eq_pure_bind, Bind.bind, StateT.bind] at h
        cases hq : decodeSetattr ⟨(ClientReq.setattr b).message unique nodeid uid gid pid padding ++ tail,
          u32At ((ClientReq.setattr b).message unique nodeid uid gid pid padding ++ tail) 0, 40⟩ with
        | error e => rw [hq] at h; cases h
        | ok p => rw [hq] at h; cases h
    obtain ⟨a, s, h1, _, h3, h4, _⟩ := decoded_from (t := .setattr) (fun h => h) h hx
    cases a <;> first | exact False.elim h1 | skip
    rename_i b'
    rw [u32At_message (by omega), rest_message rfl] at h3
    simp only [ClientReq.body, ← enc_fuse_setattr_in] at h3
    have hlen := congrArg List.length h3
    simp only [List.length_append, Wire.enc_length] at hlen
    have hs : s = [] := List.eq_nil_of_length_eq_zero (by omega)
    rw [hs, List.append_nil] at h3
    have := congrArg (dec (α := FuseSetattrIn)) h3
    rw [Wire.dec_enc, Wire.dec_enc] at this
    subst this
    exact h4.2
  · intro h
    obtain ⟨r, h1, _⟩ := C11_fixed_round_trip_partial (.setattr b) .setattr unique nodeid uid gid pid padding tail
      trivial trivial ⟨hid, h⟩ hu
    exact ⟨r, h1⟩

/-- **C16**: the timestamps reported are exactly those selected by the valid mask. -/
theorem C16_setattr_times (b : FuseSetattrIn) (unique nodeid : UInt64) (uid gid pid padding : UInt32)
    (tail : Bytes) (r : SetattrRequest)
    (h : decodeMessage .setattr
        ((ClientReq.setattr b).message unique nodeid uid gid pid padding ++ tail) = .ok (.setattr r))
    (hu : unique ≠ 0) (hid : nodeid ≠ 0) :
    r.atime = .ok (if b.valid &&& 16 = 0 then none else some ⟨Int64.ofUInt64 b.atime, b.atimensec⟩) ∧
    r.mtime = .ok (if b.valid &&& 32 = 0 then none else some ⟨Int64.ofUInt64 b.mtime, b.mtimensec⟩) ∧
    r.ctime = .ok (if b.valid &&& 1024 = 0 then none else some ⟨Int64.ofUInt64 b.ctime, b.ctimensec⟩) ∧
    (r.atimeNow = true ↔ b.valid &&& 128 ≠ 0) ∧ (r.mtimeNow = true ↔ b.valid &&& 256 ≠ 0) := by
  have hw := (C16_setattr_iff b unique nodeid uid gid pid padding tail hu hid).mp ⟨_, h⟩
  obtain ⟨r', h1, h2⟩ := C11_fixed_round_trip_partial (.setattr b) .setattr unique nodeid uid gid pid padding tail
      trivial trivial ⟨hid, hw⟩ hu
  rw [h] at h1
  cases h1
  obtain ⟨_, _, _, _, _, h3, h4, _, h5, h6, _, h7⟩ := h2
  exact ⟨h3, h4, h7, h5, h6⟩

/-- Sets the modification time to 5.999999999 s; the access time is not selected and out of range. -/
def exampleSetattr : FuseSetattrIn :=
  { valid := 32, mtime := 5, mtimensec := 999999999, atimensec := 4000000000 }

set_option maxRecDepth 4000 in
example : decodeMessage .setattr ((ClientReq.setattr { exampleSetattr with valid := 48 }).message
    7 1 0 0 0 0) = .error (.req .timestampOverflow) := by decide

set_option maxRecDepth 4000 in
example : ∃ r, decodeMessage .setattr ((ClientReq.setattr exampleSetattr).message 7 1 0 0 0 0) =
      .ok (.setattr r) ∧
    r.mtime = .ok (some ⟨5, 999999999⟩) ∧ r.atime = .ok none := by
  refine ⟨⟨⟨128, 4, 7, 1, 0, 0, 0, 0⟩, exampleSetattr⟩, ?_⟩
  decide

/-! ## C50 -/

/-- The request types dispatched for CUSE sessions (fuse/server.rs:753-824), decoded for CUSE. -/
def ReqType.OverCuse : ReqType → Prop
  | .flush k | .fsync k | .ioctl k | .open_ k | .read _ k | .release _ k | .write _ k => k = true
  | .interrupt | .poll => True
  | _ => False

/-- **C50**: whether a CUSE request decodes, and what it reports, does not depend on the node ID in its
header being present.  Missing for the full claim: POLL, see `C50_violated`. -/
theorem C50_cuse_ignores_node_id_partial (a : ClientReq) (t : ReqType) (unique n1 nodeid : UInt64)
    (uid gid pid padding : UInt32) (tail : Bytes) (hc : t.OverCuse) (hp : t ≠ .poll) (ht : a.HasType t)
    (hw : a.WellFormed n1 t.isCuse) (hu : unique ≠ 0) (hl : 40 + a.body.length < 2 ^ 32)
    (h80 : a.IsOldWrite → 80 ≤ 40 + a.body.length + tail.length) :
    ∃ r, decodeMessage t (a.message unique nodeid uid gid pid padding ++ tail) = .ok r ∧
      a.Matches nodeid t.isCuse r := by
  refine decode_message ht ?_ ?_ hu hl h80
  · cases t <;> first | exact False.elim hc | exact absurd rfl hp | skip
    all_goals
      cases a <;> first | exact False.elim ht | skip
    all_goals first
      | exact Or.inl hc
      | exact ⟨Or.inl hc, hw.2⟩
      | exact hw
  · cases t <;> first | exact False.elim hc | skip
    all_goals cases a <;> first | exact False.elim ht | trivial

/-- **C50** fails for POLL, which insists on a node ID although CUSE clients send zero. -/
theorem C50_violated : ReqType.poll.OverCuse ∧
    decodeMessage .poll ((ClientReq.poll ⟨3, 1, 0, 0⟩).message 7 0 0 0 0 0) =
      .error (.req .missingNodeId) := ⟨trivial, by decide⟩

example : ∃ r, decodeMessage (.flush true) ((ClientReq.flush ⟨3, 0, 0, 8⟩).message 7 0 0 0 0 0) =
    .ok (.flush r) ∧ r.handle = 3 := ⟨⟨NodeId.root, 3, 8⟩, by decide, rfl⟩

end Fuse
