import Verif.RequestRun

/-!
# A decoded request always stems from a well-formed client request

The converse of `RequestRun`: whenever a decoder succeeds, the message body starts with the encoding
of a well-formed client request which the result reports faithfully.  The only exception is SETXATTR
with an empty attribute name, where `next_cstr` leaves the terminating NUL behind
(`AnyRequest.EmptyXattrName`).
-/

set_option linter.unusedSimpArgs false

namespace Fuse
open Spec

variable {mem : Bytes} {H : Nat} {bs : Bytes}

/-- A set-xattr request with an empty attribute name. -/
def AnyRequest.EmptyXattrName : AnyRequest → Prop
  | .setxattr r => r.name.bytes = []
  | _ => False

/-- `r` reports, for request type `t`, a well-formed client request whose encoding the message body
`bs` starts with. -/
def StemsFrom (h : FuseInHeader) (bs : Bytes) (t : ReqType) (r : AnyRequest) : Prop :=
  ∃ (a : ClientReq) (s : Bytes), a.HasType t ∧ h.opcode.toNat = a.opcode ∧ bs = a.body ++ s ∧
    a.WellFormed h.nodeid t.isCuse ∧ a.Matches h.nodeid t.isCuse r

/-- The claim proved for every request. -/
abbrev SndTo (mem : Bytes) (H : Nat) (bs : Bytes) (t : ReqType) : Prop :=
  Snd mem H 40 bs (decodeAny t) (fun r => r.EmptyXattrName ∨ StemsFrom (hd mem) bs t r)

theorem snd_access  : SndTo mem H bs (.access) := by
  refine Snd.map ?_
  unfold decodeAccess
  refine Snd.expectOpcode_bind (fun hop => ?_)
  refine Snd.nextSized_bind (by simp) (fun b r1 e _ => ?_)
  subst e
  refine Snd.header_bind ?_
  refine Snd.nodeId_bind (fun hid => ?_)
  exact Snd.pure (Or.inr ⟨.access b, r1, trivial, congrArg UInt32.toNat hop,
    by simp only [ClientReq.body, cstring, List.append_assoc, List.nil_append, enc_fuse_access_in], hid, match_access hid _⟩)

theorem snd_bmap  : SndTo mem H bs (.bmap) := by
  refine Snd.map ?_
  unfold decodeBmap
  refine Snd.expectOpcode_bind (fun hop => ?_)
  refine Snd.header_bind ?_
  refine Snd.nextSized_bind (by simp) (fun b r1 e _ => ?_)
  subst e
  refine Snd.nodeId_bind (fun hid => ?_)
  exact Snd.pure (Or.inr ⟨.bmap b, r1, trivial, congrArg UInt32.toNat hop,
    by simp only [ClientReq.body, cstring, List.append_assoc, List.nil_append, enc_fuse_bmap_in], hid, match_bmap hid _⟩)

theorem snd_copyFileRange  : SndTo mem H bs (.copyFileRange) := by
  refine Snd.map ?_
  unfold decodeCopyFileRange
  refine Snd.expectOpcode_bind (fun hop => ?_)
  refine Snd.header_bind ?_
  refine Snd.nextSized_bind (by simp) (fun b r1 e _ => ?_)
  subst e
  refine Snd.nodeId_bind (fun hid => ?_)
  refine Snd.nodeId_bind (fun ho => ?_)
  exact Snd.pure (Or.inr ⟨.copyFileRange b, r1, trivial, congrArg UInt32.toNat hop,
    by simp only [ClientReq.body, cstring, List.append_assoc, List.nil_append, enc_fuse_copy_file_range_in], ⟨hid, ho⟩, match_copyFileRange hid ho _⟩)

theorem snd_fallocate  : SndTo mem H bs (.fallocate) := by
  refine Snd.map ?_
  unfold decodeFallocate
  refine Snd.expectOpcode_bind (fun hop => ?_)
  refine Snd.header_bind ?_
  refine Snd.nextSized_bind (by simp) (fun b r1 e _ => ?_)
  subst e
  refine Snd.nodeId_bind (fun hid => ?_)
  exact Snd.pure (Or.inr ⟨.fallocate b, r1, trivial, congrArg UInt32.toNat hop,
    by simp only [ClientReq.body, cstring, List.append_assoc, List.nil_append, enc_fuse_fallocate_in], hid, match_fallocate hid _⟩)

theorem snd_fsyncdir  : SndTo mem H bs (.fsyncdir) := by
  refine Snd.map ?_
  unfold decodeFsyncdir
  refine Snd.expectOpcode_bind (fun hop => ?_)
  refine Snd.header_bind ?_
  refine Snd.nextSized_bind (by simp) (fun b r1 e _ => ?_)
  subst e
  refine Snd.nodeId_bind (fun hid => ?_)
  exact Snd.pure (Or.inr ⟨.fsyncdir b, r1, trivial, congrArg UInt32.toNat hop,
    by simp only [ClientReq.body, cstring, List.append_assoc, List.nil_append, enc_fuse_fsync_in], hid, match_fsyncdir hid _⟩)

theorem snd_listxattr  : SndTo mem H bs (.listxattr) := by
  refine Snd.map ?_
  unfold decodeListxattr
  refine Snd.expectOpcode_bind (fun hop => ?_)
  refine Snd.header_bind ?_
  refine Snd.nodeId_bind (fun hid => ?_)
  refine Snd.nextSized_bind (by simp) (fun b r1 e _ => ?_)
  subst e
  exact Snd.pure (Or.inr ⟨.listxattr b, r1, trivial, congrArg UInt32.toNat hop,
    by simp only [ClientReq.body, cstring, List.append_assoc, List.nil_append, enc_fuse_getxattr_in], hid, match_listxattr hid _⟩)

theorem snd_lseek  : SndTo mem H bs (.lseek) := by
  refine Snd.map ?_
  unfold decodeLseek
  refine Snd.expectOpcode_bind (fun hop => ?_)
  refine Snd.nextSized_bind (by simp) (fun b r1 e _ => ?_)
  subst e
  refine Snd.header_bind ?_
  refine Snd.nodeId_bind (fun hid => ?_)
  exact Snd.pure (Or.inr ⟨.lseek b, r1, trivial, congrArg UInt32.toNat hop,
    by simp only [ClientReq.body, cstring, List.append_assoc, List.nil_append, enc_fuse_lseek_in], hid, match_lseek hid _⟩)

theorem snd_opendir  : SndTo mem H bs (.opendir) := by
  refine Snd.map ?_
  unfold decodeOpendir
  refine Snd.expectOpcode_bind (fun hop => ?_)
  refine Snd.header_bind ?_
  refine Snd.nextSized_bind (by simp) (fun b r1 e _ => ?_)
  subst e
  refine Snd.nodeId_bind (fun hid => ?_)
  exact Snd.pure (Or.inr ⟨.opendir b, r1, trivial, congrArg UInt32.toNat hop,
    by simp only [ClientReq.body, cstring, List.append_assoc, List.nil_append, enc_fuse_open_in], hid, match_opendir hid _⟩)

theorem snd_poll  : SndTo mem H bs (.poll) := by
  refine Snd.map ?_
  unfold decodePoll
  refine Snd.expectOpcode_bind (fun hop => ?_)
  refine Snd.header_bind ?_
  refine Snd.nextSized_bind (by simp) (fun b r1 e _ => ?_)
  subst e
  refine Snd.nodeId_bind (fun hid => ?_)
  exact Snd.pure (Or.inr ⟨.poll b, r1, trivial, congrArg UInt32.toNat hop,
    by simp only [ClientReq.body, cstring, List.append_assoc, List.nil_append, enc_fuse_poll_in], hid, match_poll hid _⟩)

theorem snd_readlink  : SndTo mem H bs (.readlink) := by
  refine Snd.map ?_
  unfold decodeReadlink
  refine Snd.expectOpcode_bind (fun hop => ?_)
  refine Snd.header_bind ?_
  refine Snd.nodeId_bind (fun hid => ?_)
  exact Snd.pure (Or.inr ⟨.readlink, bs, trivial, congrArg UInt32.toNat hop,
    by simp only [ClientReq.body, cstring, List.append_assoc, List.nil_append], hid, match_readlink hid _⟩)

theorem snd_statfs  : SndTo mem H bs (.statfs) := by
  refine Snd.map ?_
  unfold decodeStatfs
  refine Snd.expectOpcode_bind (fun hop => ?_)
  refine Snd.header_bind ?_
  refine Snd.nodeId_bind (fun hid => ?_)
  exact Snd.pure (Or.inr ⟨.statfs, bs, trivial, congrArg UInt32.toNat hop,
    by simp only [ClientReq.body, cstring, List.append_assoc, List.nil_append], hid, match_statfs hid _⟩)

theorem snd_cuseInit  : SndTo mem H bs (.cuseInit) := by
  refine Snd.map ?_
  unfold decodeCuseInit
  refine Snd.expectOpcode_bind (fun hop => ?_)
  refine Snd.nextSized_bind (by simp) (fun b r e _ => ?_)
  subst e
  exact Snd.pure (Or.inr ⟨.cuseInit b, r, trivial, congrArg UInt32.toNat hop,
    by simp only [ClientReq.body, cstring, List.append_assoc, List.nil_append, enc_cuse_init_in], trivial, match_cuseInit (h := hd mem) _⟩)

theorem snd_lookup  : SndTo mem H bs (.lookup) := by
  refine Snd.map ?_
  unfold decodeLookup
  refine Snd.expectOpcode_bind (fun hop => ?_)
  refine Snd.header_bind ?_
  refine Snd.nodeId_bind (fun hid => ?_)
  refine Snd.nextNodeName_bind (fun n r1 hv e => ?_)
  subst e
  exact Snd.pure (Or.inr ⟨.lookup n, r1, trivial, congrArg UInt32.toNat hop,
    by simp only [ClientReq.body, cstring, List.append_assoc, List.nil_append], ⟨hid, hv⟩, match_lookup hid _⟩)

theorem snd_rmdir  : SndTo mem H bs (.rmdir) := by
  refine Snd.map ?_
  unfold decodeRmdir
  refine Snd.expectOpcode_bind (fun hop => ?_)
  refine Snd.header_bind ?_
  refine Snd.nodeId_bind (fun hid => ?_)
  refine Snd.nextNodeName_bind (fun n r1 hv e => ?_)
  subst e
  exact Snd.pure (Or.inr ⟨.rmdir n, r1, trivial, congrArg UInt32.toNat hop,
    by simp only [ClientReq.body, cstring, List.append_assoc, List.nil_append], ⟨hid, hv⟩, match_rmdir hid _⟩)

theorem snd_unlink  : SndTo mem H bs (.unlink) := by
  refine Snd.map ?_
  unfold decodeUnlink
  refine Snd.expectOpcode_bind (fun hop => ?_)
  refine Snd.header_bind ?_
  refine Snd.nodeId_bind (fun hid => ?_)
  refine Snd.nextNodeName_bind (fun n r1 hv e => ?_)
  subst e
  exact Snd.pure (Or.inr ⟨.unlink n, r1, trivial, congrArg UInt32.toNat hop,
    by simp only [ClientReq.body, cstring, List.append_assoc, List.nil_append], ⟨hid, hv⟩, match_unlink hid _⟩)

theorem snd_mkdir  : SndTo mem H bs (.mkdir) := by
  refine Snd.map ?_
  unfold decodeMkdir
  refine Snd.expectOpcode_bind (fun hop => ?_)
  refine Snd.nextSized_bind (by simp) (fun b r1 e _ => ?_)
  subst e
  refine Snd.nextNodeName_bind (fun n r2 hv e => ?_)
  subst e
  refine Snd.header_bind ?_
  refine Snd.nodeId_bind (fun hid => ?_)
  exact Snd.pure (Or.inr ⟨.mkdir b n, r2, trivial, congrArg UInt32.toNat hop,
    by simp only [ClientReq.body, cstring, List.append_assoc, List.nil_append, enc_fuse_mkdir_in], ⟨hid, hv⟩, match_mkdir hid _⟩)

theorem snd_link  : SndTo mem H bs (.link) := by
  refine Snd.map ?_
  unfold decodeLink
  refine Snd.expectOpcode_bind (fun hop => ?_)
  refine Snd.nextSized_bind (by simp) (fun b r1 e _ => ?_)
  subst e
  refine Snd.nextNodeName_bind (fun n r2 hv e => ?_)
  subst e
  refine Snd.nodeId_bind (fun ho => ?_)
  refine Snd.header_bind ?_
  refine Snd.nodeId_bind (fun hid => ?_)
  exact Snd.pure (Or.inr ⟨.link b n, r2, trivial, congrArg UInt32.toNat hop,
    by simp only [ClientReq.body, cstring, List.append_assoc, List.nil_append, enc_fuse_link_in], ⟨hid, ho, hv⟩, match_link hid ho _⟩)

theorem snd_symlink  : SndTo mem H bs (.symlink) := by
  refine Snd.map ?_
  unfold decodeSymlink
  refine Snd.expectOpcode_bind (fun hop => ?_)
  refine Snd.nextCstr_bind (fun c r hc hne e => ?_) (fun r e => ?_)
  · subst e
    refine Snd.nextNodeName_bind (fun n r2 hv e => ?_)
    subst e
    refine Snd.header_bind ?_
    refine Snd.nodeId_bind (fun hid => ?_)
    exact Snd.pure (Or.inr ⟨.symlink c n, r2, trivial, congrArg UInt32.toNat hop,
      by simp only [ClientReq.body, cstring, List.append_assoc, List.nil_append], ⟨hid, hc, hv⟩, match_symlink hid _⟩)
  
  · subst e
    refine Snd.nextNodeName_bind (fun n r2 hv e => ?_)
    exfalso
    cases n with
    | nil => exact hv.1 rfl
    | cons x xs =>
      simp only [List.cons_append, List.nil_append, List.cons.injEq] at e
      exact hv.2.1 (e.1 ▸ List.mem_cons_self)

theorem snd_getxattr  : SndTo mem H bs (.getxattr) := by
  refine Snd.map ?_
  unfold decodeGetxattr
  refine Snd.expectOpcode_bind (fun hop => ?_)
  refine Snd.header_bind ?_
  refine Snd.nodeId_bind (fun hid => ?_)
  refine Snd.nextSized_bind (by simp) (fun b r0 e _ => ?_)
  subst e
  refine Snd.nextCstr_bind (fun n r hc hne e => ?_) (fun r e => ?_)
  · subst e
    exact Snd.pure (Or.inr ⟨.getxattr b n, r, trivial, congrArg UInt32.toNat hop,
      by simp only [ClientReq.body, cstring, List.append_assoc, List.nil_append, enc_fuse_getxattr_in], ⟨hid, hc⟩, match_getxattr hid _⟩)
  
  · subst e
    exact Snd.pure (Or.inr ⟨.getxattr b [], r, trivial, congrArg UInt32.toNat hop,
      by simp only [ClientReq.body, cstring, List.append_assoc, List.nil_append, enc_fuse_getxattr_in], ⟨hid, by simp⟩, match_getxattr hid _⟩)
  

theorem snd_removexattr  : SndTo mem H bs (.removexattr) := by
  refine Snd.map ?_
  unfold decodeRemovexattr
  refine Snd.expectOpcode_bind (fun hop => ?_)
  refine Snd.header_bind ?_
  refine Snd.nodeId_bind (fun hid => ?_)
  refine Snd.nextCstr_bind (fun n r hc hne e => ?_) (fun r e => ?_)
  · subst e
    exact Snd.pure (Or.inr ⟨.removexattr n, r, trivial, congrArg UInt32.toNat hop,
      by simp only [ClientReq.body, cstring, List.append_assoc, List.nil_append], ⟨hid, hc⟩, match_removexattr hid _⟩)
  
  · subst e
    exact Snd.pure (Or.inr ⟨.removexattr [], r, trivial, congrArg UInt32.toNat hop,
      by simp only [ClientReq.body, cstring, List.append_assoc, List.nil_append], ⟨hid, by simp⟩, match_removexattr hid _⟩)
  

theorem snd_getlk  : SndTo mem H bs (.getlk) := by
  refine Snd.map ?_
  unfold decodeGetlk
  refine Snd.expectOpcode_bind (fun hop => ?_)
  refine Snd.header_bind ?_
  refine Snd.nodeId_bind (fun hid => ?_)
  refine Snd.nextSized_bind (by simp) (fun b r e _ => ?_)
  subst e
  refine Snd.ofRes_bind (fun x hx => ?_)
  have hl := lock_snd hx
  exact Snd.pure (Or.inr ⟨.getlk b, r, trivial, congrArg UInt32.toNat hop,
    by simp only [ClientReq.body, cstring, List.append_assoc, List.nil_append, enc_fuse_lk_in], ⟨hid, hl.1⟩, match_getlk hid hl.2 _⟩)

theorem snd_setlk  : SndTo mem H bs (.setlk) := by
  refine Snd.map ?_
  unfold decodeSetlk
  refine Snd.header_bind ?_
  split
  · refine Snd.expectOpcode_bind (fun hop => ?_)
    refine Snd.nodeId_bind (fun hid => ?_)
    refine Snd.nextSized_bind (by simp) (fun b r e _ => ?_)
    subst e
    refine Snd.ofRes_bind (fun x hx => ?_)
    obtain ⟨y, hy, rfl⟩ := lock_decode_inv hx
    have hl := lock_snd hy
    exact Snd.pure (Or.inr ⟨.setlk b, r, trivial, congrArg UInt32.toNat hop,
      by simp only [ClientReq.body, cstring, List.append_assoc, List.nil_append, enc_fuse_lk_in], ⟨hid, hl.1⟩, match_setlk hid hop hl.2 _⟩)
  · rename_i h33
    have hop : (dec (mem.take 40) : FuseInHeader).opcode = 33 := Decidable.byContradiction h33
    try simp only [pure_bind, bind_assoc]
    refine Snd.nodeId_bind (fun hid => ?_)
    refine Snd.nextSized_bind (by simp) (fun b r e _ => ?_)
    subst e
    refine Snd.ofRes_bind (fun x hx => ?_)
    obtain ⟨y, hy, rfl⟩ := lock_decode_inv hx
    have hl := lock_snd hy
    exact Snd.pure (Or.inr ⟨.setlkw b, r, trivial, congrArg UInt32.toNat hop,
      by simp only [ClientReq.body, cstring, List.append_assoc, List.nil_append, enc_fuse_lk_in], ⟨hid, hl.1⟩, match_setlkw hid hop hl.2 _⟩)

theorem snd_interrupt  : SndTo mem H bs (.interrupt) := by
  refine Snd.map ?_
  unfold decodeInterrupt
  refine Snd.expectOpcode_bind (fun hop => ?_)
  refine Snd.nextSized_bind (by simp) (fun b r e _ => ?_)
  subst e
  split
  · exact Snd.throwReq
  · rename_i hu
    exact Snd.pure (Or.inr ⟨.interrupt b, r, trivial, congrArg UInt32.toNat hop,
    by simp only [ClientReq.body, cstring, List.append_assoc, List.nil_append, enc_fuse_interrupt_in], hu, match_interrupt (h := hd mem) hu _⟩)

theorem snd_create {l : FuseLayout} : SndTo mem H bs (.create l) := by
  refine Snd.map ?_
  unfold decodeCreate
  refine Snd.expectOpcode_bind (fun hop => ?_)
  refine Snd.header_bind ?_
  refine Snd.nodeId_bind (fun hid => ?_)
  by_cases hl : l.minor ≥ 12
  · rw [if_pos hl]
    try simp only [pure_bind, bind_assoc]
    refine Snd.nextSized_bind (by simp) (fun b r e _ => ?_)
    subst e
    try simp only [pure_bind, bind_assoc]
    refine Snd.nextNodeName_bind (fun n r2 hv e => ?_)
    subst e
    exact Snd.pure (Or.inr ⟨.create b n, r2, minor_ge_inv (k := 12) hl, congrArg UInt32.toNat hop,
      by simp only [ClientReq.body, cstring, List.append_assoc, List.nil_append, enc_fuse_create_in], ⟨hid, hv⟩, match_create hid hl _⟩)
  · rw [if_neg hl]
    try simp only [pure_bind, bind_assoc]
    refine Snd.nextSized_bind (by simp) (fun b r e _ => ?_)
    subst e
    try simp only [pure_bind, bind_assoc]
    refine Snd.nextNodeName_bind (fun n r2 hv e => ?_)
    subst e
    exact Snd.pure (Or.inr ⟨.createOld b n, r2, minor_lt_inv (k := 12) hl, congrArg UInt32.toNat hop,
      by simp only [ClientReq.body, cstring, List.append_assoc, List.nil_append, enc_fuse_create_in_v7p1], ⟨hid, hv⟩, match_createOld hid hl _⟩)

theorem snd_mknod {l : FuseLayout} : SndTo mem H bs (.mknod l) := by
  refine Snd.map ?_
  unfold decodeMknod
  refine Snd.expectOpcode_bind (fun hop => ?_)
  refine Snd.header_bind ?_
  refine Snd.nodeId_bind (fun hid => ?_)
  by_cases hl : l.minor ≥ 12
  · rw [if_pos hl]
    try simp only [pure_bind, bind_assoc]
    refine Snd.nextSized_bind (by simp) (fun b r e _ => ?_)
    subst e
    try simp only [pure_bind, bind_assoc]
    refine Snd.nextNodeName_bind (fun n r2 hv e => ?_)
    subst e
    exact Snd.pure (Or.inr ⟨.mknod b n, r2, minor_ge_inv (k := 12) hl, congrArg UInt32.toNat hop,
      by simp only [ClientReq.body, cstring, List.append_assoc, List.nil_append, enc_fuse_mknod_in], ⟨hid, hv⟩, match_mknod hid hl _⟩)
  · rw [if_neg hl]
    try simp only [pure_bind, bind_assoc]
    refine Snd.nextSized_bind (by simp) (fun b r e _ => ?_)
    subst e
    try simp only [pure_bind, bind_assoc]
    refine Snd.nextNodeName_bind (fun n r2 hv e => ?_)
    subst e
    exact Snd.pure (Or.inr ⟨.mknodOld b n, r2, minor_lt_inv (k := 12) hl, congrArg UInt32.toNat hop,
      by simp only [ClientReq.body, cstring, List.append_assoc, List.nil_append, enc_fuse_mknod_in_v7p1], ⟨hid, hv⟩, match_mknodOld hid hl _⟩)

theorem snd_readdir {l : FuseLayout} : SndTo mem H bs (.readdir l) := by
  refine Snd.map ?_
  unfold decodeReaddir readBody
  refine Snd.expectOpcode_bind (fun hop => ?_)
  refine Snd.header_bind ?_
  refine Snd.nodeId_bind (fun hid => ?_)
  by_cases hl : l.minor ≥ 9
  · rw [if_pos hl]
    try simp only [pure_bind, bind_assoc]
    refine Snd.nextSized_bind (by simp) (fun b r e _ => ?_)
    subst e
    try simp only [pure_bind, bind_assoc]
    exact Snd.pure (Or.inr ⟨.readdir b, r, minor_ge_inv (k := 9) hl, congrArg UInt32.toNat hop,
      by simp only [ClientReq.body, cstring, List.append_assoc, List.nil_append, enc_fuse_read_in], hid, match_readdir hid hl _⟩)
  · rw [if_neg hl]
    try simp only [pure_bind, bind_assoc]
    refine Snd.nextSized_bind (by simp) (fun b r e _ => ?_)
    subst e
    try simp only [pure_bind, bind_assoc]
    exact Snd.pure (Or.inr ⟨.readdirOld b, r, minor_lt_inv (k := 9) hl, congrArg UInt32.toNat hop,
      by simp only [ClientReq.body, cstring, List.append_assoc, List.nil_append, enc_fuse_read_in_v7p1], hid, match_readdirOld hid hl _⟩)

theorem snd_readdirplus {l : FuseLayout} : SndTo mem H bs (.readdirplus l) := by
  refine Snd.map ?_
  unfold decodeReaddirplus readBody
  refine Snd.expectOpcode_bind (fun hop => ?_)
  refine Snd.header_bind ?_
  refine Snd.nodeId_bind (fun hid => ?_)
  by_cases hl : l.minor ≥ 9
  · rw [if_pos hl]
    try simp only [pure_bind, bind_assoc]
    refine Snd.nextSized_bind (by simp) (fun b r e _ => ?_)
    subst e
    try simp only [pure_bind, bind_assoc]
    exact Snd.pure (Or.inr ⟨.readdirplus b, r, minor_ge_inv (k := 9) hl, congrArg UInt32.toNat hop,
      by simp only [ClientReq.body, cstring, List.append_assoc, List.nil_append, enc_fuse_read_in], hid, match_readdirplus hid hl _⟩)
  · rw [if_neg hl]
    try simp only [pure_bind, bind_assoc]
    refine Snd.nextSized_bind (by simp) (fun b r e _ => ?_)
    subst e
    try simp only [pure_bind, bind_assoc]
    exact Snd.pure (Or.inr ⟨.readdirplusOld b, r, minor_lt_inv (k := 9) hl, congrArg UInt32.toNat hop,
      by simp only [ClientReq.body, cstring, List.append_assoc, List.nil_append, enc_fuse_read_in_v7p1], hid, match_readdirplusOld hid hl _⟩)

theorem snd_releasedir {l : FuseLayout} : SndTo mem H bs (.releasedir l) := by
  refine Snd.map ?_
  unfold decodeReleasedir releaseBody
  refine Snd.expectOpcode_bind (fun hop => ?_)
  refine Snd.header_bind ?_
  refine Snd.nodeId_bind (fun hid => ?_)
  by_cases hl : l.minor ≥ 8
  · rw [if_pos hl]
    try simp only [pure_bind, bind_assoc]
    refine Snd.nextSized_bind (by simp) (fun b r e _ => ?_)
    subst e
    try simp only [pure_bind, bind_assoc]
    exact Snd.pure (Or.inr ⟨.releasedir b, r, minor_ge_inv (k := 8) hl, congrArg UInt32.toNat hop,
      by simp only [ClientReq.body, cstring, List.append_assoc, List.nil_append, enc_fuse_release_in], hid, match_releasedir hid hl _⟩)
  · rw [if_neg hl]
    try simp only [pure_bind, bind_assoc]
    refine Snd.nextSized_bind (by simp) (fun b r e _ => ?_)
    subst e
    try simp only [pure_bind, bind_assoc]
    exact Snd.pure (Or.inr ⟨.releasedirOld b, r, minor_lt_inv (k := 8) hl, congrArg UInt32.toNat hop,
      by simp only [ClientReq.body, cstring, List.append_assoc, List.nil_append, enc_fuse_release_in_v7p1], hid, match_releasedirOld hid hl _⟩)

theorem snd_getattr {l : FuseLayout} : SndTo mem H bs (.getattr l) := by
  refine Snd.map ?_
  unfold decodeGetattr
  refine Snd.expectOpcode_bind (fun hop => ?_)
  refine Snd.header_bind ?_
  refine Snd.nodeId_bind (fun hid => ?_)
  by_cases hl : l.minor ≥ 9
  · rw [if_pos hl]
    try simp only [pure_bind, bind_assoc]
    refine Snd.nextSized_bind (by simp) (fun b r e _ => ?_)
    subst e
    try simp only [pure_bind, bind_assoc]
    exact Snd.pure (Or.inr ⟨.getattr b, r, minor_ge_inv (k := 9) hl, congrArg UInt32.toNat hop,
      by simp only [ClientReq.body, cstring, List.append_assoc, List.nil_append, enc_fuse_getattr_in], hid, match_getattr hid hl _⟩)
  · rw [if_neg hl]
    try simp only [pure_bind, bind_assoc]
    exact Snd.pure (Or.inr ⟨.getattrOld, bs, minor_lt_inv (k := 9) hl, congrArg UInt32.toNat hop,
      by simp only [ClientReq.body, cstring, List.append_assoc, List.nil_append], hid, match_getattrOld hid hl _⟩)

theorem snd_read_cuse {v : UInt32} : SndTo mem H bs (.read v true) := by
  refine Snd.map ?_
  unfold decodeRead readBody
  refine Snd.expectOpcode_bind (fun hop => ?_)
  refine Snd.header_bind ?_
  simp only [Bool.not_true, Bool.not_false, Bool.false_eq_true, ↓reduceIte, pure_bind, bind_assoc]
  by_cases hl : v ≥ 9
  · rw [if_pos hl]
    try simp only [pure_bind, bind_assoc]
    refine Snd.nextSized_bind (by simp) (fun b r e _ => ?_)
    subst e
    try simp only [pure_bind, bind_assoc]
    exact Snd.pure (Or.inr ⟨.read b, r, hl, congrArg UInt32.toNat hop,
      by simp only [ClientReq.body, cstring, List.append_assoc, List.nil_append, enc_fuse_read_in], Or.inl rfl, match_read hl _⟩)
  · rw [if_neg hl]
    try simp only [pure_bind, bind_assoc]
    refine Snd.nextSized_bind (by simp) (fun b r e _ => ?_)
    subst e
    try simp only [pure_bind, bind_assoc]
    exact Snd.pure (Or.inr ⟨.readOld b, r, not_ge32.mp hl, congrArg UInt32.toNat hop,
      by simp only [ClientReq.body, cstring, List.append_assoc, List.nil_append, enc_fuse_read_in_v7p1], Or.inl rfl, match_readOld hl _⟩)

theorem snd_release_cuse {v : UInt32} : SndTo mem H bs (.release v true) := by
  refine Snd.map ?_
  unfold decodeRelease releaseBody
  refine Snd.expectOpcode_bind (fun hop => ?_)
  refine Snd.header_bind ?_
  simp only [Bool.not_true, Bool.not_false, Bool.false_eq_true, ↓reduceIte, pure_bind, bind_assoc]
  by_cases hl : v ≥ 8
  · rw [if_pos hl]
    try simp only [pure_bind, bind_assoc]
    refine Snd.nextSized_bind (by simp) (fun b r e _ => ?_)
    subst e
    try simp only [pure_bind, bind_assoc]
    exact Snd.pure (Or.inr ⟨.release b, r, hl, congrArg UInt32.toNat hop,
      by simp only [ClientReq.body, cstring, List.append_assoc, List.nil_append, enc_fuse_release_in], Or.inl rfl, match_release hl _⟩)
  · rw [if_neg hl]
    try simp only [pure_bind, bind_assoc]
    refine Snd.nextSized_bind (by simp) (fun b r e _ => ?_)
    subst e
    try simp only [pure_bind, bind_assoc]
    exact Snd.pure (Or.inr ⟨.releaseOld b, r, not_ge32.mp hl, congrArg UInt32.toNat hop,
      by simp only [ClientReq.body, cstring, List.append_assoc, List.nil_append, enc_fuse_release_in_v7p1], Or.inl rfl, match_releaseOld hl _⟩)

theorem snd_write_cuse {v : UInt32} : SndTo mem H bs (.write v true) := by
  refine Snd.map ?_
  unfold decodeWrite
  refine Snd.ok (fun hok hr => ?_)
  have hm := hok.hdr_le
  refine Snd.expectOpcode_bind (fun hop => ?_)
  refine Snd.header_bind ?_
  simp only [Bool.not_true, Bool.not_false, Bool.false_eq_true, ↓reduceIte, pure_bind, bind_assoc]
  by_cases hl : v ≥ 9
  · rw [if_pos hl]
    try simp only [pure_bind, bind_assoc]
    refine Snd.nextSized_bind (by simp) (fun b r e _ => ?_)
    subst e
    try simp only [pure_bind, bind_assoc]
    refine Snd.nextBytes_bind (fun p r2 hn e _ => ?_)
    subst e
    refine Snd.get_bind ?_
    split
    · exact Snd.pure (Or.inr ⟨.write b p, r2, hl, congrArg UInt32.toNat hop,
        by simp only [ClientReq.body, cstring, List.append_assoc, List.nil_append, enc_fuse_write_in], ⟨Or.inl rfl, hn⟩, match_write (mem := mem) hm hl hr hn _⟩)
    · exact Snd.ofFault_error
  · rw [if_neg hl]
    try simp only [pure_bind, bind_assoc]
    refine Snd.nextSized_bind (by simp) (fun b r e _ => ?_)
    subst e
    try simp only [pure_bind, bind_assoc]
    refine Snd.nextBytes_bind (fun p r2 hn e _ => ?_)
    subst e
    refine Snd.get_bind ?_
    split
    · exact Snd.pure (Or.inr ⟨.writeOld b p, r2, not_ge32.mp hl, congrArg UInt32.toNat hop,
        by simp only [ClientReq.body, cstring, List.append_assoc, List.nil_append, enc_fuse_write_in_v7p1], ⟨Or.inl rfl, hn⟩, match_writeOld (mem := mem) hm hl hr hn _⟩)
    · exact Snd.ofFault_error

theorem snd_flush_cuse  : SndTo mem H bs (.flush true) := by
  refine Snd.map ?_
  unfold decodeFlush
  refine Snd.expectOpcode_bind (fun hop => ?_)
  simp only [Bool.not_true, Bool.not_false, Bool.false_eq_true, ↓reduceIte, pure_bind, bind_assoc]
  refine Snd.nextSized_bind (by simp) (fun b r e _ => ?_)
  subst e
  exact Snd.pure (Or.inr ⟨.flush b, r, trivial, congrArg UInt32.toNat hop,
    by simp only [ClientReq.body, cstring, List.append_assoc, List.nil_append, enc_fuse_flush_in], Or.inl rfl, match_flush_cuse (h := hd mem)⟩)

theorem snd_fsync_cuse  : SndTo mem H bs (.fsync true) := by
  refine Snd.map ?_
  unfold decodeFsync
  refine Snd.expectOpcode_bind (fun hop => ?_)
  refine Snd.header_bind ?_
  refine Snd.nextSized_bind (by simp) (fun b r e _ => ?_)
  subst e
  simp only [Bool.not_true, Bool.not_false, Bool.false_eq_true, ↓reduceIte, pure_bind, bind_assoc]
  exact Snd.pure (Or.inr ⟨.fsync b, r, trivial, congrArg UInt32.toNat hop,
    by simp only [ClientReq.body, cstring, List.append_assoc, List.nil_append, enc_fuse_fsync_in], Or.inl rfl, match_fsync _⟩)

theorem snd_open_cuse  : SndTo mem H bs (.open_ true) := by
  refine Snd.map ?_
  unfold decodeOpen
  refine Snd.expectOpcode_bind (fun hop => ?_)
  refine Snd.header_bind ?_
  refine Snd.nextSized_bind (by simp) (fun b r e _ => ?_)
  subst e
  simp only [Bool.not_true, Bool.not_false, Bool.false_eq_true, ↓reduceIte, pure_bind, bind_assoc]
  exact Snd.pure (Or.inr ⟨.open_ b, r, trivial, congrArg UInt32.toNat hop,
    by simp only [ClientReq.body, cstring, List.append_assoc, List.nil_append, enc_fuse_open_in], Or.inl rfl, match_open_ _⟩)

theorem snd_ioctl_cuse  : SndTo mem H bs (.ioctl true) := by
  refine Snd.map ?_
  unfold decodeIoctl
  refine Snd.expectOpcode_bind (fun hop => ?_)
  refine Snd.header_bind ?_
  refine Snd.nextSized_bind (by simp) (fun b r e _ => ?_)
  subst e
  simp only [Bool.not_true, Bool.not_false, Bool.false_eq_true, ↓reduceIte, pure_bind, bind_assoc]
  refine Snd.nextBytes_bind (fun p r2 hn e _ => ?_)
  subst e
  exact Snd.pure (Or.inr ⟨.ioctl b p, r2, trivial, congrArg UInt32.toNat hop,
    by simp only [ClientReq.body, cstring, List.append_assoc, List.nil_append, enc_fuse_ioctl_in], ⟨Or.inl rfl, hn⟩, match_ioctl _⟩)

theorem snd_read_fuse {v : UInt32} : SndTo mem H bs (.read v false) := by
  refine Snd.map ?_
  unfold decodeRead readBody
  refine Snd.expectOpcode_bind (fun hop => ?_)
  refine Snd.header_bind ?_
  simp only [Bool.not_true, Bool.not_false, Bool.false_eq_true, ↓reduceIte, pure_bind, bind_assoc]
  refine Snd.nodeId_bind (fun hid => ?_)
  by_cases hl : v ≥ 9
  · rw [if_pos hl]
    try simp only [pure_bind, bind_assoc]
    refine Snd.nextSized_bind (by simp) (fun b r e _ => ?_)
    subst e
    try simp only [pure_bind, bind_assoc]
    exact Snd.pure (Or.inr ⟨.read b, r, hl, congrArg UInt32.toNat hop,
      by simp only [ClientReq.body, cstring, List.append_assoc, List.nil_append, enc_fuse_read_in], Or.inr hid, match_read hl _⟩)
  · rw [if_neg hl]
    try simp only [pure_bind, bind_assoc]
    refine Snd.nextSized_bind (by simp) (fun b r e _ => ?_)
    subst e
    try simp only [pure_bind, bind_assoc]
    exact Snd.pure (Or.inr ⟨.readOld b, r, not_ge32.mp hl, congrArg UInt32.toNat hop,
      by simp only [ClientReq.body, cstring, List.append_assoc, List.nil_append, enc_fuse_read_in_v7p1], Or.inr hid, match_readOld hl _⟩)

theorem snd_release_fuse {v : UInt32} : SndTo mem H bs (.release v false) := by
  refine Snd.map ?_
  unfold decodeRelease releaseBody
  refine Snd.expectOpcode_bind (fun hop => ?_)
  refine Snd.header_bind ?_
  simp only [Bool.not_true, Bool.not_false, Bool.false_eq_true, ↓reduceIte, pure_bind, bind_assoc]
  refine Snd.nodeId_bind (fun hid => ?_)
  by_cases hl : v ≥ 8
  · rw [if_pos hl]
    try simp only [pure_bind, bind_assoc]
    refine Snd.nextSized_bind (by simp) (fun b r e _ => ?_)
    subst e
    try simp only [pure_bind, bind_assoc]
    exact Snd.pure (Or.inr ⟨.release b, r, hl, congrArg UInt32.toNat hop,
      by simp only [ClientReq.body, cstring, List.append_assoc, List.nil_append, enc_fuse_release_in], Or.inr hid, match_release hl _⟩)
  · rw [if_neg hl]
    try simp only [pure_bind, bind_assoc]
    refine Snd.nextSized_bind (by simp) (fun b r e _ => ?_)
    subst e
    try simp only [pure_bind, bind_assoc]
    exact Snd.pure (Or.inr ⟨.releaseOld b, r, not_ge32.mp hl, congrArg UInt32.toNat hop,
      by simp only [ClientReq.body, cstring, List.append_assoc, List.nil_append, enc_fuse_release_in_v7p1], Or.inr hid, match_releaseOld hl _⟩)

theorem snd_write_fuse {v : UInt32} : SndTo mem H bs (.write v false) := by
  refine Snd.map ?_
  unfold decodeWrite
  refine Snd.ok (fun hok hr => ?_)
  have hm := hok.hdr_le
  refine Snd.expectOpcode_bind (fun hop => ?_)
  refine Snd.header_bind ?_
  simp only [Bool.not_true, Bool.not_false, Bool.false_eq_true, ↓reduceIte, pure_bind, bind_assoc]
  refine Snd.nodeId_bind (fun hid => ?_)
  by_cases hl : v ≥ 9
  · rw [if_pos hl]
    try simp only [pure_bind, bind_assoc]
    refine Snd.nextSized_bind (by simp) (fun b r e _ => ?_)
    subst e
    try simp only [pure_bind, bind_assoc]
    refine Snd.nextBytes_bind (fun p r2 hn e _ => ?_)
    subst e
    refine Snd.get_bind ?_
    split
    · exact Snd.pure (Or.inr ⟨.write b p, r2, hl, congrArg UInt32.toNat hop,
        by simp only [ClientReq.body, cstring, List.append_assoc, List.nil_append, enc_fuse_write_in], ⟨Or.inr hid, hn⟩, match_write (mem := mem) hm hl hr hn _⟩)
    · exact Snd.ofFault_error
  · rw [if_neg hl]
    try simp only [pure_bind, bind_assoc]
    refine Snd.nextSized_bind (by simp) (fun b r e _ => ?_)
    subst e
    try simp only [pure_bind, bind_assoc]
    refine Snd.nextBytes_bind (fun p r2 hn e _ => ?_)
    subst e
    refine Snd.get_bind ?_
    split
    · exact Snd.pure (Or.inr ⟨.writeOld b p, r2, not_ge32.mp hl, congrArg UInt32.toNat hop,
        by simp only [ClientReq.body, cstring, List.append_assoc, List.nil_append, enc_fuse_write_in_v7p1], ⟨Or.inr hid, hn⟩, match_writeOld (mem := mem) hm hl hr hn _⟩)
    · exact Snd.ofFault_error

theorem snd_flush_fuse  : SndTo mem H bs (.flush false) := by
  refine Snd.map ?_
  unfold decodeFlush
  refine Snd.expectOpcode_bind (fun hop => ?_)
  simp only [Bool.not_true, Bool.not_false, Bool.false_eq_true, ↓reduceIte, pure_bind, bind_assoc]
  refine Snd.header_bind ?_
  refine Snd.nodeId_bind (fun hid => ?_)
  refine Snd.nextSized_bind (by simp) (fun b r e _ => ?_)
  subst e
  exact Snd.pure (Or.inr ⟨.flush b, r, trivial, congrArg UInt32.toNat hop,
    by simp only [ClientReq.body, cstring, List.append_assoc, List.nil_append, enc_fuse_flush_in], Or.inr hid, match_flush_fuse hid⟩)

theorem snd_fsync_fuse  : SndTo mem H bs (.fsync false) := by
  refine Snd.map ?_
  unfold decodeFsync
  refine Snd.expectOpcode_bind (fun hop => ?_)
  refine Snd.header_bind ?_
  refine Snd.nextSized_bind (by simp) (fun b r e _ => ?_)
  subst e
  simp only [Bool.not_true, Bool.not_false, Bool.false_eq_true, ↓reduceIte, pure_bind, bind_assoc]
  refine Snd.nodeId_bind (fun hid => ?_)
  exact Snd.pure (Or.inr ⟨.fsync b, r, trivial, congrArg UInt32.toNat hop,
    by simp only [ClientReq.body, cstring, List.append_assoc, List.nil_append, enc_fuse_fsync_in], Or.inr hid, match_fsync _⟩)

theorem snd_open_fuse  : SndTo mem H bs (.open_ false) := by
  refine Snd.map ?_
  unfold decodeOpen
  refine Snd.expectOpcode_bind (fun hop => ?_)
  refine Snd.header_bind ?_
  refine Snd.nextSized_bind (by simp) (fun b r e _ => ?_)
  subst e
  simp only [Bool.not_true, Bool.not_false, Bool.false_eq_true, ↓reduceIte, pure_bind, bind_assoc]
  refine Snd.nodeId_bind (fun hid => ?_)
  exact Snd.pure (Or.inr ⟨.open_ b, r, trivial, congrArg UInt32.toNat hop,
    by simp only [ClientReq.body, cstring, List.append_assoc, List.nil_append, enc_fuse_open_in], Or.inr hid, match_open_ _⟩)

theorem snd_ioctl_fuse  : SndTo mem H bs (.ioctl false) := by
  refine Snd.map ?_
  unfold decodeIoctl
  refine Snd.expectOpcode_bind (fun hop => ?_)
  refine Snd.header_bind ?_
  refine Snd.nextSized_bind (by simp) (fun b r e _ => ?_)
  subst e
  simp only [Bool.not_true, Bool.not_false, Bool.false_eq_true, ↓reduceIte, pure_bind, bind_assoc]
  refine Snd.nodeId_bind (fun hid => ?_)
  refine Snd.nextBytes_bind (fun p r2 hn e _ => ?_)
  subst e
  exact Snd.pure (Or.inr ⟨.ioctl b p, r2, trivial, congrArg UInt32.toNat hop,
    by simp only [ClientReq.body, cstring, List.append_assoc, List.nil_append, enc_fuse_ioctl_in], ⟨Or.inr hid, hn⟩, match_ioctl _⟩)

theorem snd_rename  : SndTo mem H bs (.rename) := by
  refine Snd.map ?_
  unfold decodeRename
  refine Snd.header_bind ?_
  split
  · rename_i hop
    try simp only [pure_bind, bind_assoc]
    refine Snd.nextSized_bind (by simp) (fun b r e _ => ?_)
    subst e
    try simp only [pure_bind, bind_assoc]
    refine Snd.nextNodeName_bind (fun o r2 hv e => ?_)
    subst e
    refine Snd.nextNodeName_bind (fun n r3 hv2 e => ?_)
    subst e
    refine Snd.nodeId_bind (fun hid => ?_)
    refine Snd.nodeId_bind (fun hnd => ?_)
    exact Snd.pure (Or.inr ⟨.rename2 b o n, r3, trivial, congrArg UInt32.toNat hop,
      by simp only [ClientReq.body, cstring, List.append_assoc, List.nil_append, enc_fuse_rename2_in], ⟨hid, hnd, hv, hv2⟩, match_rename2 hid hnd _⟩)
  · try simp only [pure_bind, bind_assoc]
    refine Snd.expectOpcode_bind (fun hop => ?_)
    refine Snd.nextSized_bind (by simp) (fun b r e _ => ?_)
    subst e
    try simp only [pure_bind, bind_assoc]
    refine Snd.nextNodeName_bind (fun o r2 hv e => ?_)
    subst e
    refine Snd.nextNodeName_bind (fun n r3 hv2 e => ?_)
    subst e
    refine Snd.nodeId_bind (fun hid => ?_)
    refine Snd.nodeId_bind (fun hnd => ?_)
    exact Snd.pure (Or.inr ⟨.rename b o n, r3, trivial, congrArg UInt32.toNat hop,
      by simp only [ClientReq.body, cstring, List.append_assoc, List.nil_append, enc_fuse_rename_in], ⟨hid, hnd, hv, hv2⟩, match_rename hid hnd _⟩)

theorem setxattr_ext {l : FuseLayout} (h : l.haveSetxattrExt = true) : l.features &&& 1 ≠ 0 := by
  simpa [FuseLayout.haveSetxattrExt, FEATURE_SETXATTR_EXT] using h

theorem setxattr_not_ext {l : FuseLayout} (h : ¬ l.haveSetxattrExt = true) : l.features &&& 1 = 0 := by
  simpa [FuseLayout.haveSetxattrExt, FEATURE_SETXATTR_EXT] using h

theorem snd_setxattr {l : FuseLayout} : SndTo mem H bs (.setxattr l) := by
  refine Snd.map ?_
  unfold decodeSetxattr
  refine Snd.expectOpcode_bind (fun hop => ?_)
  refine Snd.header_bind ?_
  refine Snd.nodeId_bind (fun hid => ?_)
  by_cases hl : l.haveSetxattrExt = true
  · rw [if_pos hl]
    try simp only [pure_bind, bind_assoc]
    refine Snd.nextSized_bind (by simp) (fun b r0 e _ => ?_)
    subst e
    try simp only [pure_bind, bind_assoc]
    refine Snd.nextCstr_bind (fun n r hc hne e => ?_) (fun r e => ?_)
    · subst e
      refine Snd.ofFault_bind (fun x hx => ?_)
      rw [get_setxattr_old] at hx
      cases hx
      refine Snd.nextBytes_bind (fun p r2 hn e _ => ?_)
      subst e
      exact Snd.pure (Or.inr ⟨.setxattr b n p, r2, setxattr_ext hl, congrArg UInt32.toNat hop,
        by simp only [ClientReq.body, cstring, List.append_assoc, List.nil_append, enc_fuse_setxattr_in], ⟨hid, hc, hn⟩, match_setxattr hid _⟩)
    · refine Snd.ofFault_bind (fun x hx => ?_)
      refine Snd.nextBytes_bind (fun p r2 hn e _ => ?_)
      exact Snd.pure (Or.inl rfl)
  · rw [if_neg hl]
    try simp only [pure_bind, bind_assoc]
    refine Snd.nextSized_bind (by simp) (fun b r0 e _ => ?_)
    subst e
    try simp only [pure_bind, bind_assoc]
    refine Snd.nextCstr_bind (fun n r hc hne e => ?_) (fun r e => ?_)
    · subst e
      refine Snd.ofFault_bind (fun x hx => ?_)
      rw [Versioned.get_self] at hx
      cases hx
      refine Snd.nextBytes_bind (fun p r2 hn e _ => ?_)
      subst e
      exact Snd.pure (Or.inr ⟨.setxattrOld b n p, r2, setxattr_not_ext hl, congrArg UInt32.toNat hop,
        by simp only [ClientReq.body, cstring, List.append_assoc, List.nil_append, enc_fuse_setxattr_in_v7p1], ⟨hid, hc, hn⟩, match_setxattrOld hid _⟩)
    · refine Snd.ofFault_bind (fun x hx => ?_)
      refine Snd.nextBytes_bind (fun p r2 hn e _ => ?_)
      exact Snd.pure (Or.inl rfl)

theorem snd_setattr : SndTo mem H bs .setattr := by
  have step : ∀ {c bs} {v bit n : UInt32} {f : Unit → DecM SetattrRequest} {Q},
      (NanosOk v bit n → Snd mem H c bs (f ()) Q) →
      Snd mem H c bs (if v &&& bit > 0 then checkTimespecNanos n >>= f else f ()) Q := by
    intro c bs v bit n f Q hf
    by_cases h0 : v &&& bit > 0
    · rw [if_pos h0]
      exact Snd.checkTimespecNanos_bind (fun h => hf (fun _ => nanos_le.mp h))
    · rw [if_neg h0]
      exact hf (fun h => absurd (and_pos_iff.mpr h) h0)
  refine Snd.map ?_
  unfold decodeSetattr
  refine Snd.expectOpcode_bind (fun hop => ?_)
  refine Snd.header_bind ?_
  refine Snd.nodeId_bind (fun hid => ?_)
  refine Snd.nextSized_bind (by simp) (fun b r e _ => ?_)
  subst e
  refine step (fun h1 => ?_)
  refine step (fun h2 => ?_)
  refine step (fun h3 => ?_)
  exact Snd.pure (Or.inr ⟨.setattr b, r, trivial, congrArg UInt32.toNat hop,
    by simp only [ClientReq.body, enc_fuse_setattr_in], ⟨hid, h1, h2, h3⟩, match_setattr hid h1 h2 h3 _⟩)

theorem snd_forget {k : Bool} (hp : (ReqType.forget k).Pre mem) : SndTo mem H bs (.forget k) := by
  refine Snd.map ?_
  refine Snd.ok (fun hok hr => ?_)
  unfold decodeForget
  refine Snd.header_bind ?_
  split
  · rename_i hop
    have hcnt := hp hop
    refine Snd.nextSized_bind (by simp) (fun b r e hle => ?_)
    subst e
    split
    · exact Snd.ofFault_error
    refine Snd.get_bind ?_
    refine Snd.nextBytes_bind (fun p r2 hn e hle2 => ?_)
    subst e
    refine Snd.get_bind ?_
    simp only [size_fuse_batch_forget_in, align_fuse_forget_one, size_fuse_forget_one]
    rw [if_pos trivial]
    have hrest : (mem.take H).drop 40 = enc b ++ (p ++ r2) := hr
    have hb : b.count.toNat < 2 ^ 28 := by
      have h4 : (dec ((mem.drop 40).take 4) : UInt32) = b.count := by
        have : (mem.drop 40).take 4 = ((mem.take H).drop 40).take 4 := by
          rw [List.drop_take, List.take_take]
          simp only [size_fuse_batch_forget_in] at hle
          congr 1; omega
        rw [this, hrest, enc_fuse_batch_forget_in, layout_fuse_batch_forget_in]
        simp only [List.append_assoc]
        rw [List.take_left' (by rfl), ← enc_u32, Wire.dec_enc]
      rw [← h4]; exact hcnt
    have hmul : (b.count * 16).toNat = b.count.toNat * 16 := by
      rw [UInt32.toNat_mul, show (16 : UInt32).toNat = 16 from rfl, Nat.mod_eq_of_lt (by omega)]
    refine Snd.ofRes_bind (fun x hx => ?_)
    have hlen := hok.rest_length
    rw [hr] at hlen
    have hle := hok.len_le
    simp only [List.length_append, Wire.enc_length, size_fuse_batch_forget_in] at hlen hle
    unfold Decoder.read at hx
    simp only at hx
    rw [if_pos (by omega)] at hx
    cases hx
    have hx : (mem.drop 48).take (b.count.toNat * 16) = p := by
      have h2 : (mem.drop 48).take (b.count.toNat * 16) = ((mem.take H).drop 48).take (b.count.toNat * 16) := by
        rw [List.drop_take, List.take_take]
        congr 1; omega
      rw [h2, show 48 = 40 + 8 from rfl, ← List.drop_drop, hrest, List.drop_left' (by simp),
        List.take_left' (by omega)]
    rw [show 40 + 8 = 48 from rfl, hx]
    have hd' := enc_decMany (T := FuseForgetOne) b.count.toNat p (by simp only [size_fuse_forget_one]; omega)
    refine Snd.pure (Or.inr ⟨.batchForget b (decMany FuseForgetOne b.count.toNat p), r2, trivial,
      congrArg UInt32.toNat hop, ?_, hd'.2.symm, match_batchForget (h := hd mem) _⟩)
    have hfm : (decMany FuseForgetOne b.count.toNat p).flatMap layout_fuse_forget_one =
        (decMany FuseForgetOne b.count.toNat p).flatMap enc := by
      congr 1; funext x; exact (enc_fuse_forget_one x).symm
    simp only [ClientReq.body, hfm, hd'.1, List.append_assoc, enc_fuse_batch_forget_in]
  · refine Snd.expectOpcode_bind (fun hop => ?_)
    refine Snd.nextSized_bind (by simp) (fun b r e _ => ?_)
    subst e
    exact Snd.pure (Or.inr ⟨.forget b, r, trivial, congrArg UInt32.toNat hop,
      by simp only [ClientReq.body, enc_fuse_forget_in], trivial, match_forget (h := hd mem) _⟩)

theorem init_minor {b : FuseInitIn} {x : FuseInitInV7p1} {r r' : Bytes}
    (h : enc b ++ r = enc x ++ r') : b.major = x.major ∧ b.minor = x.minor := by
  have h8 := congrArg (List.take 8) h
  rw [List.take_left' (l₁ := enc x) (by simp), List.take_append_of_le_length (by simp)] at h8
  have : (enc b).take 8 = enc (⟨b.major, b.minor⟩ : FuseInitInV7p1) := by
    have e := enc_init_v1 b.major b.minor (s := [])
    rw [List.append_nil, List.append_nil] at e
    rw [← e, enc_fuse_init_in, layout_fuse_init_in]
    simp only [List.append_assoc]
    rw [← List.append_assoc, List.take_left' (by rfl)]
  rw [this] at h8
  have := congrArg (dec (α := FuseInitInV7p1)) h8
  rw [Wire.dec_enc, Wire.dec_enc] at this
  subst this
  exact ⟨rfl, rfl⟩

theorem init_minor6 {b : FuseInitInV7p6} {x : FuseInitInV7p1} {r r' : Bytes}
    (h : enc b ++ r = enc x ++ r') : b.major = x.major ∧ b.minor = x.minor := by
  have h8 := congrArg (List.take 8) h
  rw [List.take_left' (l₁ := enc x) (by simp), List.take_append_of_le_length (by simp)] at h8
  have : (enc b).take 8 = enc (⟨b.major, b.minor⟩ : FuseInitInV7p1) := by
    have e := enc_init_v1 b.major b.minor (s := [])
    have e6 := enc_init_v6 (s := []) b.major b.minor b.max_readahead b.flags
    rw [List.append_nil, List.append_nil] at e
    simp only [List.append_nil] at e6
    rw [← e, show enc b = enc (⟨b.major, b.minor, b.max_readahead, b.flags⟩ : FuseInitInV7p6) from rfl,
      ← e6, ← List.append_assoc, List.take_left' (by rfl)]
  rw [this] at h8
  have := congrArg (dec (α := FuseInitInV7p1)) h8
  rw [Wire.dec_enc, Wire.dec_enc] at this
  subst this
  exact ⟨rfl, rfl⟩

theorem snd_fuseInit : SndTo mem H bs .fuseInit := by
  refine Snd.map ?_
  unfold decodeFuseInit
  refine Snd.expectOpcode_bind (fun hop => ?_)
  refine Snd.peekSized_bind (by simp) (fun x r e => ?_)
  by_cases h1 : x.minor < 6 ∨ x.major ≠ FUSE_KERNEL_VERSION
  · rw [if_pos h1]
    refine Snd.pure (Or.inr ⟨.initV1 x.major x.minor, r, trivial, congrArg UInt32.toNat hop, ?_, h1,
      match_initV1 (h := hd mem) _⟩)
    rw [e]
    exact (by simp only [ClientReq.body, List.append_assoc]; exact (enc_init_v1 _ _).symm)
  · rw [if_neg h1]
    have h6 : 6 ≤ x.minor ∧ x.major = 7 := by
      constructor
      · rw [UInt32.le_iff_toNat_le]
        have : ¬ x.minor < 6 := fun h => h1 (Or.inl h)
        rw [UInt32.lt_iff_toNat_lt] at this
        omega
      · exact Decidable.byContradiction (fun h => h1 (Or.inr h))
    by_cases h2 : x.minor < 36
    · rw [if_pos h2]
      refine Snd.nextSized_bind (by simp) (fun b r2 e2 _ => ?_)
      have hb := init_minor6 (e2.symm.trans e)
      refine Snd.pure (Or.inr ⟨.initV6 b.major b.minor b.max_readahead b.flags, r2, trivial,
        congrArg UInt32.toNat hop, ?_, ?_, match_initV6 (h := hd mem) _⟩)
      · rw [e2]
        exact (by simp only [ClientReq.body, List.append_assoc]; exact (enc_init_v6 _ _ _ _).symm)
      · rw [ClientReq.WellFormed, hb.1, hb.2]; exact ⟨h6.2, h6.1, h2⟩
    · rw [if_neg h2]
      refine Snd.nextSized_bind (by simp) (fun b r2 e2 _ => ?_)
      have hb := init_minor (e2.symm.trans e)
      refine Snd.pure (Or.inr ⟨.init b, r2, trivial,
        congrArg UInt32.toNat hop, ?_, ?_, match_init (h := hd mem) _⟩)
      · rw [e2]
        simp only [ClientReq.body, enc_fuse_init_in]
      · rw [ClientReq.WellFormed, hb.1, hb.2]
        refine ⟨h6.2, ?_⟩
        rw [UInt32.le_iff_toNat_le]
        rw [UInt32.lt_iff_toNat_lt] at h2
        omega

theorem snd_any (t : ReqType) (hp : t.Pre mem) : SndTo mem H bs t := by
  cases t with
  | access => exact snd_access
  | bmap => exact snd_bmap
  | copyFileRange => exact snd_copyFileRange
  | fallocate => exact snd_fallocate
  | fsyncdir => exact snd_fsyncdir
  | getlk => exact snd_getlk
  | getxattr => exact snd_getxattr
  | interrupt => exact snd_interrupt
  | link => exact snd_link
  | listxattr => exact snd_listxattr
  | lookup => exact snd_lookup
  | lseek => exact snd_lseek
  | mkdir => exact snd_mkdir
  | opendir => exact snd_opendir
  | poll => exact snd_poll
  | readlink => exact snd_readlink
  | removexattr => exact snd_removexattr
  | rename => exact snd_rename
  | rmdir => exact snd_rmdir
  | setattr => exact snd_setattr
  | setlk => exact snd_setlk
  | statfs => exact snd_statfs
  | symlink => exact snd_symlink
  | unlink => exact snd_unlink
  | fuseInit => exact snd_fuseInit
  | cuseInit => exact snd_cuseInit
  | forget k => exact snd_forget hp
  | create l => exact snd_create
  | getattr l => exact snd_getattr
  | mknod l => exact snd_mknod
  | readdir l => exact snd_readdir
  | readdirplus l => exact snd_readdirplus
  | releasedir l => exact snd_releasedir
  | setxattr l => exact snd_setxattr
  | flush c => cases c with
    | true => exact snd_flush_cuse
    | false => exact snd_flush_fuse
  | fsync c => cases c with
    | true => exact snd_fsync_cuse
    | false => exact snd_fsync_fuse
  | ioctl c => cases c with
    | true => exact snd_ioctl_cuse
    | false => exact snd_ioctl_fuse
  | open_ c => cases c with
    | true => exact snd_open_cuse
    | false => exact snd_open_fuse
  | read v c => cases c with
    | true => exact snd_read_cuse
    | false => exact snd_read_fuse
  | release v c => cases c with
    | true => exact snd_release_cuse
    | false => exact snd_release_fuse
  | write v c => cases c with
    | true => exact snd_write_cuse
    | false => exact snd_write_fuse

end Fuse
