import Verif.PropSharp

/-!
# C67: exactly the protocol's messages decode

`C11` to `C15` start from a request and look at the message sent for it.  Here the message is arbitrary: it
decodes if and only if it is an encoding of a request of the type asked for, and then to this request.  An
encoding may be followed by other bytes, inside and outside the length the header declares.
-/

namespace Fuse

open Spec

/-- The node ID in the header of a message. -/
def nodeOf (buf : Bytes) : UInt64 := UInt64.ofNat (u64At buf 16)

/-- The arguments of a request: what follows the header, up to the declared length. -/
def argsOf (buf : Bytes) : Bytes := (buf.take (u32At buf 0)).drop 40

/-- `buf` is an encoding of the request `a`, for a decoder of type `t`. -/
def Encodes (t : ReqType) (a : ClientReq) (buf : Bytes) : Prop :=
  Acceptable buf ∧ a.HasType t ∧ u32At buf 4 = a.opcode ∧ a.body <+: argsOf buf ∧
    a.WellFormed (nodeOf buf) t.isCuse

/-- A SETXATTR with an empty name.  It counts as complete if `size` bytes follow the place *before* the name's
terminator. -/
def EmptyNamed (t : ReqType) (buf : Bytes) (value : Bytes) : Prop :=
  Acceptable buf ∧ u32At buf 4 = 21 ∧ nodeOf buf ≠ 0 ∧ ∃ l, t = .setxattr l ∧
    ((l.features &&& 1 ≠ 0 ∧ ∃ (b : FuseSetxattrIn) (s : Bytes),
        argsOf buf = layout_fuse_setxattr_in b ++ value ++ s ∧ b.size.toNat = value.length ∧ (value ++ s).head? = some 0) ∨
     (l.features &&& 1 = 0 ∧ ∃ (b : FuseSetxattrInV7p1) (s : Bytes),
        argsOf buf = layout_fuse_setxattr_in_v7p1 b ++ value ++ s ∧ b.size.toNat = value.length ∧
          (value ++ s).head? = some 0))

theorem nodeOf_hd {buf : Bytes} (h : 40 ≤ buf.length) : (hd buf).nodeid = nodeOf buf := by
  apply UInt64.toNat_inj.mp
  have := (hdr_fields h).2.2.2.1
  exact Eq.trans this (UInt64.toNat_ofNat_of_lt' (u64At_lt _ _)).symm

theorem acceptable_decode {buf : Bytes} (t : ReqType) (ha : Acceptable buf) :
    (Decoder.mk buf (u32At buf 0) 40).Ok ∧
      decodeMessage t buf = match decodeAny t ⟨buf, u32At buf 0, 40⟩ with
        | .ok (a, _) => .ok a
        | .error e => .error e := by
  rcases decodeMessage_cases t buf with ⟨e, he, _⟩ | ⟨_, _, _, _, h1, h2⟩
  · rw [acceptable_new ha] at he; cases he
  · exact ⟨h1, h2⟩

theorem decoded_acceptable {t : ReqType} {buf : Bytes} {r : AnyRequest} (h : decodeMessage t buf = .ok r) :
    Acceptable buf := by
  rcases decodeMessage_cases t buf with ⟨e, _, h1⟩ | ⟨_, h40, hu, hl, _, _⟩
  · rw [h1] at h; cases h
  · exact ⟨h40, hu, hl⟩

/-- What decodes is no hazard. -/
theorem decoded_safe {t : ReqType} {buf : Bytes} {r : AnyRequest} (h : decodeMessage t buf = .ok r) :
    ¬ DecodeHazard t buf := by
  intro hz
  have ha := decoded_acceptable h
  have hok := (acceptable_decode t ha).1
  cases t with
  | forget checks =>
    have hz : u32At buf 4 = 42 ∧ 2 ^ 28 ≤ u32At buf 40 := hz
    exact ((decodeForget_faults checks buf hok hz.1 hz.2).decodeMessage (t := .forget checks) (f := .forget) rfl ha).not_ok _ h
  | write v cuse =>
    have hz : v < 9 ∧ buf.length < 80 := hz
    exact ((decodeWrite_faults v cuse buf hok hz.1 hz.2).decodeMessage (t := .write v cuse) (f := .write) rfl ha).not_ok _ h
  | _ => exact hz.elim

/-- The run of a decoder on an acceptable message. -/
theorem run_buf {t : ReqType} {buf : Bytes} {Q : AnyRequest → Bytes → Prop} (ha : Acceptable buf)
    (h : Run buf (u32At buf 0) 40 (argsOf buf) (decodeAny t) Q) :
    ∃ r s, decodeMessage t buf = .ok r ∧ Q r s := by
  obtain ⟨hok, hd⟩ := acceptable_decode t ha
  obtain ⟨r, c, h1, _, h2⟩ := h hok rfl
  exact ⟨r, _, by rw [hd, h1], h2⟩

theorem snd_buf {t : ReqType} {buf : Bytes} {Q : AnyRequest → Prop} {r} (hr : decodeMessage t buf = .ok r)
    (h : Snd buf (u32At buf 0) 40 (argsOf buf) (decodeAny t) Q) : Q r := by
  obtain ⟨hok, hd⟩ := acceptable_decode t (decoded_acceptable hr)
  rw [hd] at hr
  cases hm : decodeAny t ⟨buf, u32At buf 0, 40⟩ with
  | error e => rw [hm] at hr; cases hr
  | ok p =>
    obtain ⟨a, d⟩ := p
    rw [hm] at hr
    cases hr
    exact h hok rfl _ _ hm

/-- **C67**: a message that encodes a request is decoded to this request, whatever follows it.
Missing for the full claim: SYMLINK and SETXATTR with an empty first string, see `C67_exact`, and a WRITE from a
client older than 7.9 in a buffer shorter than 80 bytes, see `C13_exact`. -/
theorem C67_decodes_partial {t : ReqType} {a : ClientReq} {buf : Bytes} (h : Encodes t a buf) (hs : a.ShiftFree)
    (h80 : a.IsOldWrite → 80 ≤ buf.length) :
    ∃ r, decodeMessage t buf = .ok r ∧ a.Matches (nodeOf buf) t.isCuse r := by
  obtain ⟨ha, ht, hop, ⟨s, hb⟩, hw⟩ := h
  have hrun := run_any (mem := buf) (H := u32At buf 0) (s := s) ht
    (by rw [← hop]; exact (hdr_fields ha.1).2.1) (by rw [nodeOf_hd ha.1]; exact hw) hs h80
  unfold RunsAs at hrun
  rw [hb, nodeOf_hd ha.1] at hrun
  obtain ⟨r, s', h1, _, h2⟩ := run_buf ha hrun
  exact ⟨r, h1, h2⟩

theorem snd_symlink_shift {mem bs : Bytes} {H : Nat} :
    Snd mem H 40 bs (decodeAny .symlink) (fun r => ∀ x, r = .symlink x → x.content.bytes ≠ []) := by
  refine Snd.map ?_
  unfold decodeSymlink
  refine Snd.expectOpcode_bind (fun hop => ?_)
  refine Snd.nextCstr_bind (fun c r hc hne e => ?_) (fun r e => ?_)
  · refine Snd.nextNodeName_bind (fun n r2 hv e => ?_)
    refine Snd.header_bind ?_
    refine Snd.nodeId_bind (fun hid => ?_)
    refine Snd.pure (fun x hx => ?_)
    cases hx
    exact hne
  · subst e
    refine Snd.nextNodeName_bind (fun n r2 hv e => ?_)
    exfalso
    cases n with
    | nil => exact hv.1 rfl
    | cons x xs =>
      simp only [List.cons_append, List.nil_append, List.cons.injEq] at e
      exact hv.2.1 (e.1 ▸ List.mem_cons_self)

/-- **C67**: conversely, whatever decodes encodes a request, the one it is decoded to.
Missing for the full claim: SETXATTR with an empty name, see `C67_exact`. -/
theorem C67_only_partial {t : ReqType} {buf : Bytes} {r : AnyRequest} (h : decodeMessage t buf = .ok r)
    (hx : ¬ r.EmptyXattrName) :
    ∃ a, Encodes t a buf ∧ a.ShiftFree ∧ (a.IsOldWrite → 80 ≤ buf.length) ∧ a.Matches (nodeOf buf) t.isCuse r := by
  have ha := decoded_acceptable h
  have hz := decoded_safe h
  obtain ⟨a, s, h1, h2, h3, h4, h5⟩ := decoded_from hz h hx
  rw [nodeOf_hd ha.1] at h4 h5
  refine ⟨a, ⟨ha, h1, h2, ⟨s, h3.symm⟩, h4⟩, ?_, ?_, h5⟩
  · cases a with
    | symlink content name =>
      cases t <;> first | exact False.elim h1 | skip
      cases r <;> first | exact False.elim h5 | skip
      have := snd_buf h snd_symlink_shift _ rfl
      rw [h5.2.2] at this
      exact this
    | setxattr b name value | setxattrOld b name value =>
      cases r <;> first | exact False.elim h5 | skip
      intro hn
      exact hx (h5.2.1.trans hn)
    | _ => trivial
  · intro ho
    cases a <;> first | exact False.elim ho | skip
    cases t <;> first | exact False.elim h1 | skip
    exact Nat.le_of_not_lt (fun hlt => hz ⟨h1, hlt⟩)

theorem snd_setxattr_empty {mem bs : Bytes} {H : Nat} {l : FuseLayout} :
    Snd mem H 40 bs (decodeAny (.setxattr l)) (fun r => (hd mem).opcode = 21 ∧ (hd mem).nodeid ≠ 0 ∧
      ∀ x, r = .setxattr x → x.name.bytes = [] →
        (l.features &&& 1 ≠ 0 ∧ ∃ (b : FuseSetxattrIn) (s : Bytes),
          bs = layout_fuse_setxattr_in b ++ x.value ++ s ∧ b.size.toNat = x.value.length ∧
            (x.value ++ s).head? = some 0) ∨
        (l.features &&& 1 = 0 ∧ ∃ (b : FuseSetxattrInV7p1) (s : Bytes),
          bs = layout_fuse_setxattr_in_v7p1 b ++ x.value ++ s ∧ b.size.toNat = x.value.length ∧
            (x.value ++ s).head? = some 0)) := by
  refine Snd.map ?_
  unfold decodeSetxattr
  refine Snd.expectOpcode_bind (fun hop => ?_)
  refine Snd.header_bind ?_
  refine Snd.nodeId_bind (fun hid => ?_)
  by_cases hl : l.haveSetxattrExt = true
  · rw [if_pos hl]
    try simp only [pure_bind]
    refine Snd.nextSized_bind (by simp) (fun b r0 e _ => ?_)
    subst e
    try simp only [pure_bind]
    refine Snd.nextCstr_bind (fun n r hc hne e => ?_) (fun r e => ?_)
    · refine Snd.ofFault_bind (fun x hx => ?_)
      refine Snd.nextBytes_bind (fun p r2 hn e _ => ?_)
      exact Snd.pure ⟨hop, hid, fun x hx hn => by cases hx; exact absurd hn hne⟩
    · subst e
      refine Snd.ofFault_bind (fun x hx => ?_)
      rw [get_setxattr_old] at hx
      cases hx
      refine Snd.nextBytes_bind (fun p r2 hn e _ => ?_)
      refine Snd.pure ⟨hop, hid, fun x hx _ => ?_⟩
      cases hx
      refine .inl ⟨setxattr_ext_iff.mp hl, b, r2, ?_, hn, ?_⟩
      · rw [e, ← enc_fuse_setxattr_in, List.append_assoc]
      · rw [← e]; rfl
  · rw [if_neg hl]
    try simp only [pure_bind]
    refine Snd.nextSized_bind (by simp) (fun b r0 e _ => ?_)
    subst e
    try simp only [pure_bind]
    refine Snd.nextCstr_bind (fun n r hc hne e => ?_) (fun r e => ?_)
    · refine Snd.ofFault_bind (fun x hx => ?_)
      refine Snd.nextBytes_bind (fun p r2 hn e _ => ?_)
      exact Snd.pure ⟨hop, hid, fun x hx hn => by cases hx; exact absurd hn hne⟩
    · subst e
      refine Snd.ofFault_bind (fun x hx => ?_)
      rw [Versioned.get_self] at hx
      cases hx
      refine Snd.nextBytes_bind (fun p r2 hn e _ => ?_)
      refine Snd.pure ⟨hop, hid, fun x hx _ => ?_⟩
      cases hx
      refine .inr ⟨setxattr_not_ext hl, b, r2, ?_, hn, ?_⟩
      · rw [e, ← enc_fuse_setxattr_in_v7p1, List.append_assoc]
      · rw [← e]; rfl

theorem head_cons {v s : Bytes} (h : (v ++ s).head? = some 0) : ∃ r, v ++ s = 0 :: r := by
  cases hv : v ++ s with
  | nil => rw [hv] at h; cases h
  | cons x r => rw [hv] at h; cases h; exact ⟨r, rfl⟩

theorem emptyNamed_decodes {t : ReqType} {buf value : Bytes} (h : EmptyNamed t buf value) :
    ∃ x, decodeMessage t buf = .ok (.setxattr x) ∧ x.name.bytes = [] ∧ x.value = value := by
  obtain ⟨ha, hop, hid, l, rfl, h⟩ := h
  have hop : (hd buf).opcode = 21 := UInt32.toNat_inj.mp (((hdr_fields ha.1).2.1).trans hop)
  have hid : (hd buf).nodeid ≠ 0 := by rw [nodeOf_hd ha.1]; exact hid
  rcases h with ⟨hx, b, s, hb, hs, h0⟩ | ⟨hx, b, s, hb, hs, h0⟩ <;> obtain ⟨r, h0⟩ := head_cons h0
  · obtain ⟨r, _, h1, x, rfl, h2⟩ := run_buf (t := .setxattr l)
      (Q := fun r _ => ∃ x, r = .setxattr x ∧ x.name.bytes = [] ∧ x.value = value) ha (by
        rw [hb, List.append_assoc, ← enc_fuse_setxattr_in, h0]
        refine Run.map ?_
        unfold decodeSetxattr
        repeat' run_step
        rw [if_pos (setxattr_ext_iff.mpr hx)]
        repeat' run_step
        refine Run.nextCstr_bind_empty (r := r) ?_
        refine Run.ofFault_bind (get_setxattr_old _) ?_
        rw [← h0]
        exact Run.nextBytes_bind hs (by assumption) (Run.pure ⟨_, rfl, rfl, rfl⟩))
    exact ⟨x, h1, h2⟩
  · obtain ⟨r, _, h1, x, rfl, h2⟩ := run_buf (t := .setxattr l)
      (Q := fun r _ => ∃ x, r = .setxattr x ∧ x.name.bytes = [] ∧ x.value = value) ha (by
        rw [hb, List.append_assoc, ← enc_fuse_setxattr_in_v7p1, h0]
        refine Run.map ?_
        unfold decodeSetxattr
        repeat' run_step
        rw [if_neg (fun h => setxattr_ext_iff.mp h hx)]
        repeat' run_step
        refine Run.nextCstr_bind_empty (r := r) ?_
        refine Run.ofFault_bind Versioned.get_self ?_
        rw [← h0]
        exact Run.nextBytes_bind hs (by assumption) (Run.pure ⟨_, rfl, rfl, rfl⟩))
    exact ⟨x, h1, h2⟩

/-- **C67**, exactly: a message decodes, to `r`, if and only if it encodes a request whose first string is not one
of those that are shifted and empty (and is not an old WRITE in a short buffer), and `r` reports this request; or it
is a SETXATTR with an empty name, and `r` reports a value that begins with the name's terminator. -/
theorem C67_exact (t : ReqType) (buf : Bytes) :
    ((∃ r, decodeMessage t buf = .ok r) ↔
      (∃ a, Encodes t a buf ∧ a.ShiftFree ∧ (a.IsOldWrite → 80 ≤ buf.length)) ∨ ∃ value, EmptyNamed t buf value) ∧
    ∀ r, decodeMessage t buf = .ok r →
      (∃ a, Encodes t a buf ∧ a.Matches (nodeOf buf) t.isCuse r) ∨
      ∃ x, r = .setxattr x ∧ x.name.bytes = [] ∧ EmptyNamed t buf x.value := by
  have key : ∀ r, decodeMessage t buf = .ok r → r.EmptyXattrName →
      ∃ x, r = .setxattr x ∧ x.name.bytes = [] ∧ EmptyNamed t buf x.value := by
    intro r h hx
    have ha := decoded_acceptable h
    cases r <;> first | exact False.elim hx | skip
    rename_i x
    have ht : ∃ l, t = .setxattr l := by
      cases t <;> first
        | exact ⟨_, rfl⟩
        | exact absurd rfl (snd_buf h (Q := fun r => ∀ x, r ≠ .setxattr x) (Snd.map (fun _ _ _ _ _ => nofun)) x)
    obtain ⟨l, rfl⟩ := ht
    obtain ⟨h1, h2, h3⟩ := snd_buf h snd_setxattr_empty
    rw [nodeOf_hd ha.1] at h2
    exact ⟨x, rfl, hx, ha, ((hdr_fields ha.1).2.1).symm.trans (congrArg UInt32.toNat h1), h2, l, rfl, h3 x rfl hx⟩
  refine ⟨⟨fun ⟨r, h⟩ => ?_, fun h => ?_⟩, fun r h => ?_⟩
  · by_cases hx : r.EmptyXattrName
    · obtain ⟨x, _, _, h1⟩ := key r h hx
      exact .inr ⟨_, h1⟩
    · obtain ⟨a, h1, h2, h3, _⟩ := C67_only_partial h hx
      exact .inl ⟨a, h1, h2, h3⟩
  · rcases h with ⟨a, h1, h2, h3⟩ | ⟨v, h⟩
    · obtain ⟨r, h4, _⟩ := C67_decodes_partial h1 h2 h3
      exact ⟨r, h4⟩
    · obtain ⟨x, h4, _⟩ := emptyNamed_decodes h
      exact ⟨_, h4⟩
  · by_cases hx : r.EmptyXattrName
    · exact .inr (key r h hx)
    · obtain ⟨a, h1, _, _, h2⟩ := C67_only_partial h hx
      exact .inl ⟨a, h1, h2⟩

/-! ## A message has at most one meaning -/

/-- A record and what follows it. -/
def pre {T : Type} [Wire T] (bs : Bytes) : T × Bytes := (dec (bs.take (Wire.size T)), bs.drop (Wire.size T))

/-- A string and what follows its terminator. -/
def str (bs : Bytes) : Bytes × Bytes := (bs.takeWhile (· ≠ 0), (bs.dropWhile (· ≠ 0)).tail)

theorem pre_enc {T : Type} [Wire T] (b : T) (r : Bytes) : pre (enc b ++ r) = (b, r) := by
  unfold pre
  rw [List.take_left' (Wire.enc_length b), List.drop_left' (Wire.enc_length b), Wire.dec_enc]

theorem str_cstring {n : Bytes} (h : 0 ∉ n) (r : Bytes) : str (cstring n ++ r) = (n, r) := by
  unfold str cstring
  induction n with
  | nil => simp
  | cons x n ih =>
    have hx : x ≠ 0 := fun e => h (e ▸ List.mem_cons_self)
    have := ih (fun hm => h (List.mem_cons_of_mem _ hm))
    simp only [Prod.mk.injEq] at this
    simp [hx] at this ⊢
    exact this

theorem decMany_append {T : Type} [Wire T] (xs : List T) (s : Bytes) :
    decMany T xs.length (xs.flatMap enc ++ s) = xs := by
  induction xs with
  | nil => rfl
  | cons x xs ih =>
    simp only [List.flatMap_cons, List.length_cons, decMany, List.append_assoc,
      List.take_left' (Wire.enc_length x), List.drop_left' (Wire.enc_length x), Wire.dec_enc, ih]

/-- The request encoded by the arguments of a message. -/
def meaning (t : ReqType) (op : Nat) (bs : Bytes) : ClientReq :=
  match t with
  | .access => .access (pre bs).1
  | .bmap => .bmap (pre bs).1
  | .copyFileRange => .copyFileRange (pre bs).1
  | .fallocate => .fallocate (pre bs).1
  | .fsyncdir => .fsyncdir (pre bs).1
  | .listxattr => .listxattr (pre bs).1
  | .interrupt => .interrupt (pre bs).1
  | .lseek => .lseek (pre bs).1
  | .opendir => .opendir (pre bs).1
  | .poll => .poll (pre bs).1
  | .setattr => .setattr (pre bs).1
  | .getlk => .getlk (pre bs).1
  | .flush _ => .flush (pre bs).1
  | .fsync _ => .fsync (pre bs).1
  | .open_ _ => .open_ (pre bs).1
  | .cuseInit => .cuseInit (pre bs).1
  | .setlk => if op = 32 then .setlk (pre bs).1 else .setlkw (pre bs).1
  | .getattr l => if l.versionMinor < 9 then .getattrOld else .getattr (pre bs).1
  | .readdir l => if l.versionMinor < 9 then .readdirOld (pre bs).1 else .readdir (pre bs).1
  | .readdirplus l => if l.versionMinor < 9 then .readdirplusOld (pre bs).1 else .readdirplus (pre bs).1
  | .releasedir l => if l.versionMinor < 8 then .releasedirOld (pre bs).1 else .releasedir (pre bs).1
  | .read v _ => if v < 9 then .readOld (pre bs).1 else .read (pre bs).1
  | .release v _ => if v < 8 then .releaseOld (pre bs).1 else .release (pre bs).1
  | .create l => if l.versionMinor < 12 then .createOld (pre bs).1 (str (pre (T := FuseCreateInV7p1) bs).2).1
    else .create (pre bs).1 (str (pre (T := FuseCreateIn) bs).2).1
  | .mknod l => if l.versionMinor < 12 then .mknodOld (pre bs).1 (str (pre (T := FuseMknodInV7p1) bs).2).1
    else .mknod (pre bs).1 (str (pre (T := FuseMknodIn) bs).2).1
  | .link => .link (pre bs).1 (str (pre (T := FuseLinkIn) bs).2).1
  | .mkdir => .mkdir (pre bs).1 (str (pre (T := FuseMkdirIn) bs).2).1
  | .getxattr => .getxattr (pre bs).1 (str (pre (T := FuseGetxattrIn) bs).2).1
  | .removexattr => .removexattr (str bs).1
  | .lookup => .lookup (str bs).1
  | .rmdir => .rmdir (str bs).1
  | .unlink => .unlink (str bs).1
  | .readlink => .readlink
  | .statfs => .statfs
  | .symlink => .symlink (str bs).1 (str (str bs).2).1
  | .rename =>
    if op = 12 then
      let p := pre (T := FuseRenameIn) bs
      .rename p.1 (str p.2).1 (str (str p.2).2).1
    else
      let p := pre (T := FuseRename2In) bs
      .rename2 p.1 (str p.2).1 (str (str p.2).2).1
  | .setxattr l =>
    if l.features &&& 1 = 0 then
      let p := pre (T := FuseSetxattrInV7p1) bs
      .setxattrOld p.1 (str p.2).1 ((str p.2).2.take p.1.size.toNat)
    else
      let p := pre (T := FuseSetxattrIn) bs
      .setxattr p.1 (str p.2).1 ((str p.2).2.take p.1.size.toNat)
  | .ioctl _ =>
    let p := pre (T := FuseIoctlIn) bs
    .ioctl p.1 (p.2.take p.1.in_size.toNat)
  | .write v _ =>
    if v < 9 then
      let p := pre (T := FuseWriteInV7p1) bs
      .writeOld p.1 (p.2.take p.1.size.toNat)
    else
      let p := pre (T := FuseWriteIn) bs
      .write p.1 (p.2.take p.1.size.toNat)
  | .forget _ =>
    if op = 2 then .forget (pre bs).1
    else
      let p := pre (T := FuseBatchForgetIn) bs
      .batchForget p.1 (decMany FuseForgetOne p.1.count.toNat p.2)
  | .fuseInit =>
    let p := pre (T := UInt32) bs
    let q := pre (T := UInt32) p.2
    if q.1 < 6 ∨ p.1 ≠ 7 then .initV1 p.1 q.1
    else if q.1 < 36 then .initV6 p.1 q.1 (pre q.2).1 (pre (T := UInt32) (pre (T := UInt32) q.2).2).1
    else .init (pre bs).1

theorem meaning_body {a : ClientReq} {t : ReqType} {node : UInt64} (ht : a.HasType t) (hw : a.WellFormed node t.isCuse)
    (s : Bytes) : meaning t a.opcode (a.body ++ s) = a := by
  cases a <;> cases t <;> first | exact False.elim ht | skip
  all_goals
    simp only [meaning, ClientReq.body, ClientReq.opcode, ← enc_cuse_init_in, ← enc_fuse_access_in,
      ← enc_fuse_batch_forget_in, ← enc_fuse_bmap_in, ← enc_fuse_copy_file_range_in, ← enc_fuse_create_in,
      ← enc_fuse_create_in_v7p1, ← enc_fuse_fallocate_in, ← enc_fuse_flush_in, ← enc_fuse_forget_in,
      ← enc_fuse_fsync_in, ← enc_fuse_getattr_in, ← enc_fuse_getxattr_in, ← enc_fuse_init_in, ← enc_fuse_interrupt_in,
      ← enc_fuse_ioctl_in, ← enc_fuse_link_in, ← enc_fuse_lk_in, ← enc_fuse_lseek_in, ← enc_fuse_mkdir_in,
      ← enc_fuse_mknod_in, ← enc_fuse_mknod_in_v7p1, ← enc_fuse_open_in, ← enc_fuse_poll_in, ← enc_fuse_read_in,
      ← enc_fuse_read_in_v7p1, ← enc_fuse_release_in, ← enc_fuse_release_in_v7p1, ← enc_fuse_rename2_in,
      ← enc_fuse_rename_in, ← enc_fuse_setattr_in, ← enc_fuse_setxattr_in, ← enc_fuse_setxattr_in_v7p1,
      ← enc_fuse_write_in, ← enc_fuse_write_in_v7p1, List.append_assoc, pre_enc, ↓reduceIte, Nat.reduceEqDiff]
    try rfl
  all_goals
    simp only [ClientReq.HasType, ClientReq.WellFormed, NameOk] at ht hw
    first
      | rw [if_pos ht]
      | rw [if_neg (UInt32.not_lt.mpr ht)]
      | rw [if_neg ht]
      | skip
    try simp [str_cstring, hw]
    try exact ht
  case batchForget.forget b items _ =>
    have hfm : items.flatMap layout_fuse_forget_one = items.flatMap enc := by
      congr 1; funext x; exact (enc_fuse_forget_one x).symm
    rw [hfm]
    exact decMany_append items s
  case initV1.fuseInit major minor =>
    simp only [← enc_u32, pre_enc]
    rw [if_pos hw]
  case initV6.fuseInit major minor _ _ =>
    simp only [← enc_u32, pre_enc]
    rw [if_neg (by simp [hw.2.1]), if_pos hw.2.2]
  case init.fuseInit b =>
    have h1 : enc b ++ s = enc b.major ++ (enc b.minor ++ (le32 b.max_readahead ++ (le32 b.flags ++ (le32 b.flags2 ++
        (b.unused.bytes ++ s))))) := by
      simp only [enc_fuse_init_in, layout_fuse_init_in, enc_u32, List.append_assoc]
    have h2 : (pre (T := UInt32) (enc b ++ s)).1 = 7 := by rw [h1, pre_enc]; exact hw.1
    have h3 : (pre (T := UInt32) (pre (T := UInt32) (enc b ++ s)).2).1 = b.minor := by rw [h1, pre_enc, pre_enc]
    rw [h2, h3, if_neg, if_neg (UInt32.not_lt.mpr hw.2)]
    rintro (h | h)
    · have := UInt32.lt_iff_toNat_lt.mp h
      have := UInt32.le_iff_toNat_le.mp hw.2
      simp only [UInt32.reduceToNat] at *
      omega
    · exact h rfl

theorem bodies_eq {a a' : ClientReq} {t : ReqType} {node node' : UInt64} (ht : a.HasType t) (ht' : a'.HasType t)
    (hw : a.WellFormed node t.isCuse) (hw' : a'.WellFormed node' t.isCuse) (ho : a.opcode = a'.opcode) {s s' : Bytes}
    (h : a.body ++ s = a'.body ++ s') : a = a' := by
  rw [← meaning_body ht hw s, ← meaning_body ht' hw' s', ho, h]

/-- **C67**: a message encodes at most one request, so there is no choice in what it is decoded to. -/
theorem C67_unambiguous {t : ReqType} {a a' : ClientReq} {buf : Bytes} (h : Encodes t a buf) (h' : Encodes t a' buf) :
    a = a' := by
  obtain ⟨_, ht, ho, ⟨s, hb⟩, hw⟩ := h
  obtain ⟨_, ht', ho', ⟨s', hb'⟩, hw'⟩ := h'
  exact bodies_eq ht ht' hw hw' (ho.symm.trans ho') (hb.trans hb'.symm)

/-- The message a client sends encodes its request, whatever follows it. -/
theorem message_encodes {a : ClientReq} {t : ReqType} {unique nodeid : UInt64} {uid gid pid padding : UInt32}
    {tail : Bytes} (ht : a.HasType t) (hw : a.WellFormed nodeid t.isCuse) (hu : unique ≠ 0)
    (hl : 40 + a.body.length < 2 ^ 32) :
    Encodes t a (a.message unique nodeid uid gid pid padding ++ tail) := by
  have ha := message_acceptable (a := a) (unique := unique) (nodeid := nodeid) (uid := uid) (gid := gid) (pid := pid)
    (padding := padding) (tail := tail) hu hl
  refine ⟨ha, ht, message_opcode, ?_, ?_⟩
  · unfold argsOf
    rw [u32At_message hl, rest_message rfl]
    exact ⟨[], List.append_nil _⟩
  · rw [← nodeOf_hd ha.1, hd_message]
    exact hw

/-! ## C14 -/

section
variable {a : ClientReq} {t : ReqType} {unique nodeid : UInt64} {uid gid pid padding : UInt32} {tail : Bytes} {n : Nat}

theorem shorten_facts (hu : unique ≠ 0) (hl : 40 + a.body.length < 2 ^ 32) (h40 : 40 ≤ n)
    (hn : n < 40 + a.body.length) :
    let short := shorten n (a.message unique nodeid uid gid pid padding ++ tail)
    Acceptable short ∧ u32At short 4 = a.opcode ∧ nodeOf short = nodeid ∧ argsOf short = a.body.take (n - 40) ∧
      u32At short 0 = n ∧ short.length = 40 + a.body.length + tail.length ∧
      short.drop 40 = a.body ++ tail := by
  intro short
  have hs : short = _ := shorten_message
  have hlen : short.length = 40 + a.body.length + tail.length := by
    rw [hs]; simp only [List.length_append, Wire.enc_length, size_fuse_in_header]; omega
  have hhd : hd short = ⟨UInt32.ofNat n, UInt32.ofNat a.opcode, unique, nodeid, uid, gid, pid, padding⟩ := by
    unfold hd
    rw [hs, List.take_left' (by rw [Wire.enc_length]; rfl), Wire.dec_enc]
  obtain ⟨f1, f2, f3, f4, _⟩ := hdr_fields (buf := short) (by omega)
  have h0 : u32At short 0 = n := by
    rw [← f1]
    show (hd short).len.toNat = n
    rw [hhd]
    exact UInt32.toNat_ofNat_of_lt (by show _ < 2 ^ 32; omega)
  have hd40 : short.drop 40 = a.body ++ tail := by
    rw [hs, List.drop_left' (by rw [Wire.enc_length]; rfl)]
  refine ⟨⟨by omega, ?_, by omega⟩, ?_, ?_, ?_, h0, hlen, hd40⟩
  · rw [← f3]
    show (hd short).unique.toNat ≠ 0
    rw [hhd]
    exact fun h => hu (UInt64.toNat_inj.mp (h.trans rfl))
  · rw [← f2]
    show (hd short).opcode.toNat = _
    rw [hhd]
    exact UInt32.toNat_ofNat_of_lt (opcode_lt a)
  · rw [← nodeOf_hd (by omega), hhd]
  · unfold argsOf
    rw [h0, List.drop_take, hd40, List.take_append_of_le_length (by omega)]

/-- A message cut short encodes nothing. -/
theorem shorten_encodes (ht : a.HasType t) (hw : a.WellFormed nodeid t.isCuse) (hu : unique ≠ 0)
    (hl : 40 + a.body.length < 2 ^ 32) (h40 : 40 ≤ n) (hn : n < 40 + a.body.length) (a' : ClientReq) :
    ¬ Encodes t a' (shorten n (a.message unique nodeid uid gid pid padding ++ tail)) := by
  obtain ⟨h1, h2, h3, h4, h5, _⟩ := shorten_facts (unique := unique) (nodeid := nodeid) (uid := uid) (gid := gid)
    (pid := pid) (padding := padding) (tail := tail) hu hl h40 hn
  rintro ⟨_, ht', ho, ⟨s, hb⟩, hw'⟩
  rw [h4] at hb
  obtain rfl : a = a' := by
    refine bodies_eq (s := []) (s' := s ++ a.body.drop (n - 40)) ht ht' hw hw' (h2.symm.trans ho) ?_
    rw [List.append_nil, ← List.append_assoc, hb, List.take_append_drop]
  have := congrArg List.length hb
  rw [List.length_append, List.length_take] at this
  omega

theorem cut_empty {T : Type} [Wire T] {b b' : T} {name value v s : Bytes} {k : Nat} (h0 : 0 ∉ name)
    (h : (enc b ++ cstring name ++ value).take k = enc b' ++ v ++ s) (hh : (v ++ s).head? = some 0) :
    b = b' ∧ name = [] ∧ v ++ s = (0 :: value).take (k - Wire.size T) := by
  have hk : Wire.size T ≤ k := by
    have := congrArg List.length h
    simp only [List.length_take, List.length_append, Wire.enc_length] at this
    omega
  rw [List.append_assoc, List.append_assoc, List.take_append, List.take_of_length_le (by rw [Wire.enc_length]; exact hk),
    Wire.enc_length] at h
  have hp := congrArg (pre (T := T)) h
  rw [pre_enc, pre_enc] at hp
  obtain ⟨rfl, hr⟩ := Prod.mk.injEq .. ▸ hp
  have hn : name = [] := by
    cases name with
    | nil => rfl
    | cons x n =>
      exfalso
      rw [← hr] at hh
      cases hk' : k - Wire.size T with
      | zero => rw [hk'] at hh; cases hh
      | succ j =>
        rw [hk'] at hh
        simp only [cstring, List.cons_append, List.take_succ_cons, List.head?_cons, Option.some.injEq] at hh
        exact h0 (hh ▸ List.mem_cons_self)
  subst hn
  exact ⟨rfl, rfl, hr.symm⟩

/-- The request is a SETXATTR with an empty name and a value. -/
def ClientReq.Unnamed : ClientReq → Prop
  | .setxattrOld _ name value | .setxattr _ name value => name = [] ∧ value ≠ []
  | _ => False

theorem shorten_empty (ht : a.HasType t) (hw : a.WellFormed nodeid t.isCuse) (hu : unique ≠ 0)
    (hl : 40 + a.body.length < 2 ^ 32) (h40 : 40 ≤ n) (hn : n < 40 + a.body.length) :
    (∃ v, EmptyNamed t (shorten n (a.message unique nodeid uid gid pid padding ++ tail)) v) ↔
      a.Unnamed ∧ n + 1 = 40 + a.body.length := by
  obtain ⟨h1, h2, h3, h4, h5, hlen, hdrop⟩ := shorten_facts (unique := unique) (nodeid := nodeid) (uid := uid) (gid := gid)
    (pid := pid) (padding := padding) (tail := tail) hu hl h40 hn
  unfold EmptyNamed
  rw [h2, h3, h4]
  constructor
  · rintro ⟨v, hacc, ho, hid, l, rfl, h⟩
    cases a <;> first | exact False.elim ht | skip
    · rename_i b name value
      have ht : l.features &&& 1 = 0 := ht
      rcases h with ⟨hx, _⟩ | ⟨_, b', s, h6, h7, h8⟩
      · exact absurd ht hx
      · simp only [ClientReq.body, ← enc_fuse_setxattr_in_v7p1, List.length_append, Wire.enc_length, cstring,
          List.length_singleton] at h6 hn ⊢
        obtain ⟨rfl, rfl, h9⟩ := cut_empty (v := v) hw.2.1 h6 h8
        have hlv : v.length = value.length := h7.symm.trans hw.2.2
        have h10 := congrArg List.length h9
        simp only [List.length_append, List.length_take, List.length_cons, List.length_nil] at h10 hn ⊢
        have h11 : 0 < (v ++ s).length := by
          cases hv : v ++ s with
          | nil => rw [hv] at h8; cases h8
          | cons => exact Nat.succ_pos _
        rw [List.length_append] at h11
        refine ⟨⟨rfl, ?_⟩, by omega⟩
        rintro rfl
        simp only [List.length_nil] at *
        omega
    · rename_i b name value
      have ht : l.features &&& 1 ≠ 0 := ht
      rcases h with ⟨_, b', s, h6, h7, h8⟩ | ⟨hx, _⟩
      · simp only [ClientReq.body, ← enc_fuse_setxattr_in, List.length_append, Wire.enc_length, cstring,
          List.length_singleton] at h6 hn ⊢
        obtain ⟨rfl, rfl, h9⟩ := cut_empty (v := v) hw.2.1 h6 h8
        have hlv : v.length = value.length := h7.symm.trans hw.2.2
        have h10 := congrArg List.length h9
        simp only [List.length_append, List.length_take, List.length_cons, List.length_nil] at h10 hn ⊢
        have h11 : 0 < (v ++ s).length := by
          cases hv : v ++ s with
          | nil => rw [hv] at h8; cases h8
          | cons => exact Nat.succ_pos _
        rw [List.length_append] at h11
        refine ⟨⟨rfl, ?_⟩, by omega⟩
        rintro rfl
        simp only [List.length_nil] at *
        omega
      · exact absurd hx ht
  · rintro ⟨hU, hn1⟩
    have cut : ∀ {T : Type} [Wire T] (b : T) (value : Bytes) (k : Nat), k + 1 = (enc b ++ cstring [] ++ value).length →
        (enc b ++ cstring [] ++ value).take k = enc b ++ (0 :: value).take value.length ++ [] := by
      intro T _ b value k hk
      simp only [cstring, List.length_append, List.length_cons, List.length_nil] at hk
      rw [List.append_nil, List.append_assoc, List.take_append, List.take_of_length_le (by omega),
        show k - (enc b).length = value.length by omega]
      rfl
    cases a <;> first | exact False.elim hU | skip
    · rename_i b name value
      obtain ⟨rfl, hv⟩ := hU
      cases t <;> first | exact False.elim ht | skip
      rename_i l
      refine ⟨(0 :: value).take value.length, h1, rfl, hw.1, l, rfl, .inr ⟨ht, b, [], ?_, ?_, ?_⟩⟩
      · simp only [ClientReq.body, ← enc_fuse_setxattr_in_v7p1] at hn1 ⊢
        exact cut b value _ (by omega)
      · rw [List.length_take, List.length_cons, hw.2.2]; omega
      · cases value with
        | nil => exact absurd rfl hv
        | cons => rfl
    · rename_i b name value
      obtain ⟨rfl, hv⟩ := hU
      cases t <;> first | exact False.elim ht | skip
      rename_i l
      refine ⟨(0 :: value).take value.length, h1, rfl, hw.1, l, rfl, .inl ⟨ht, b, [], ?_, ?_, ?_⟩⟩
      · simp only [ClientReq.body, ← enc_fuse_setxattr_in] at hn1 ⊢
        exact cut b value _ (by omega)
      · rw [List.length_take, List.length_cons, hw.2.2]; omega
      · cases value with
        | nil => exact absurd rfl hv
        | cons => rfl

end

/-- **C14**, exactly: of all well-formed messages and all places to cut them, with the length field saying so, the
only ones that decode are SETXATTR messages with an empty name, less one byte; all others are rejected with an error,
none is a fault. -/
theorem C14_exact (a : ClientReq) (t : ReqType) (unique nodeid : UInt64) (uid gid pid padding : UInt32)
    (tail : Bytes) (n : Nat) (ht : a.HasType t) (hw : a.WellFormed nodeid t.isCuse) (hu : unique ≠ 0)
    (hl : 40 + a.body.length < 2 ^ 32) (h40 : 40 ≤ n) (hn : n < 40 + a.body.length) :
    ((∃ r, decodeMessage t (shorten n (a.message unique nodeid uid gid pid padding ++ tail)) = .ok r) ↔
      a.Unnamed ∧ n + 1 = 40 + a.body.length) ∧
    ∀ f, decodeMessage t (shorten n (a.message unique nodeid uid gid pid padding ++ tail)) ≠ .error (.fault f) := by
  refine ⟨?_, fun f hf => ?_⟩
  · rw [(C67_exact _ _).1, shorten_empty ht hw hu hl h40 hn]
    exact ⟨fun h => h.elim (fun ⟨a', h, _⟩ => absurd h (shorten_encodes ht hw hu hl h40 hn a')) id, .inr⟩
  · have hz := (C04_exact _ _).1.mp ⟨f, hf⟩
    obtain ⟨h1, h2, h3, h4, h5, h6, h7⟩ := shorten_facts (unique := unique) (nodeid := nodeid) (uid := uid) (gid := gid)
      (pid := pid) (padding := padding) (tail := tail) hu hl h40 hn
    generalize shorten n (a.message unique nodeid uid gid pid padding ++ tail) = short at *
    have rd (i : Nat) : u32At short (40 + i) = u32At (a.body ++ tail) i := by rw [← h7, u32At_drop]
    cases t <;> first | exact hz.2.elim | skip
    · replace hz := hz.2
      simp only [h2, h5] at hz
      cases a <;> first | exact False.elim ht | exact absurd hz.1 (show ¬ (2 : Nat) = 42 from nofun) | skip
      rename_i b items
      have hw : b.count.toNat = items.length := hw
      have h8 : u32At short 40 = b.count.toNat := (rd 0).trans (by
        simp only [ClientReq.body, layout_fuse_batch_forget_in]
        read_at)
      have h9 : 8 + items.length * 16 = (ClientReq.batchForget b items).body.length := by
        have hfm : items.flatMap layout_fuse_forget_one = items.flatMap enc := by
          congr 1; funext x; exact (enc_fuse_forget_one x).symm
        simp only [ClientReq.body, List.length_append, ← enc_fuse_batch_forget_in, Wire.enc_length, hfm,
          flatMap_enc_length, size_fuse_batch_forget_in, size_fuse_forget_one]
      omega
    · replace hz := hz.2
      simp only [h2, h5] at hz
      cases a <;> first | exact False.elim ht | skip
      · rename_i b data
        have hw : b.size.toNat = data.length := hw.2
        have h8 : u32At short 56 = b.size.toNat := (rd 16).trans (by
          simp only [ClientReq.body, layout_fuse_write_in_v7p1]
          read_at)
        have h9 : (ClientReq.writeOld b data).body.length = 24 + data.length := by
          simp only [ClientReq.body, List.length_append, ← enc_fuse_write_in_v7p1, Wire.enc_length]; rfl
        omega
      · exact absurd hz.1 (UInt32.not_lt.mpr ht)

/-- **C14**: a well-formed message cut short anywhere in its arguments, with the length field saying so, is rejected
with `UnexpectedEof`.  Missing for the full claim: SYMLINK and SETXATTR with an empty first string, see
`C14_exact` and `C14_violated`, and a WRITE from a client older than 7.9 in a buffer shorter than 80 bytes, which
is rejected, too (`C14_exact`), but perhaps with another error. -/
theorem C14_truncated_args_partial (a : ClientReq) (t : ReqType) (unique nodeid : UInt64)
    (uid gid pid padding : UInt32) (tail : Bytes) (n : Nat) (ht : a.HasType t)
    (hw : a.WellFormed nodeid t.isCuse) (hs : a.ShiftFree) (hu : unique ≠ 0) (hl : 40 + a.body.length < 2 ^ 32)
    (h80 : a.IsOldWrite → 80 ≤ 40 + a.body.length + tail.length) (h40 : 40 ≤ n) (hn : n < 40 + a.body.length) :
    decodeMessage t (shorten n (a.message unique nodeid uid gid pid padding ++ tail)) =
      .error (.req .unexpectedEof) := by
  rcases decode_shorten a t unique nodeid uid gid pid padding tail n ht hw hs hu hl h80 h40 hn with h | h
  · have := (C14_exact a t unique nodeid uid gid pid padding tail n ht hw hu hl h40 hn).1.mp h
    exfalso
    cases a <;> first | exact False.elim this.1 | exact hs this.1.1
  · exact h

/-- **C14** fails for SETXATTR with an empty name: less one byte it is decoded, to a value that was not sent. -/
theorem C14_violated : (ClientReq.setxattrOld ⟨2, 0⟩ [] [0x61, 0x62]).WellFormed 1 false ∧
    ∃ r, decodeMessage (.setxattr ⟨32, 0⟩)
        (shorten 50 ((ClientReq.setxattrOld ⟨2, 0⟩ [] [0x61, 0x62]).message 7 1 0 0 0 0)) = .ok (.setxattr r) ∧
      r.value = [0, 0x61] := by
  refine ⟨C10_violated_setxattr.1,
    ⟨⟨50, 21, 7, 1, 0, 0, 0, 0⟩, ⟨1, enc (⟨2, 0⟩ : FuseSetxattrInV7p1)⟩, ⟨[]⟩, [0, 0x61]⟩, ?_⟩
  decide

/-! ## C67, continued -/

/-- **C67** fails: `SYMLINK("" → "a")` is encoded by a message that does not decode; and a SETXATTR message that
is one byte short, which encodes nothing, decodes. -/
theorem C67_violated :
    Encodes .symlink (.symlink [] [0x61]) emptySymlink ∧ (∀ r, decodeMessage .symlink emptySymlink ≠ .ok r) ∧
    (let short := shorten 50 ((ClientReq.setxattrOld ⟨2, 0⟩ [] [0x61, 0x62]).message 7 1 0 0 0 0)
     (∀ a, ¬ Encodes (.setxattr ⟨32, 0⟩) a short) ∧
     ∃ x, decodeMessage (.setxattr ⟨32, 0⟩) short = .ok (.setxattr x) ∧ x.value = [0, 0x61]) := by
  refine ⟨?_, ?_, ?_, ?_⟩
  · have := message_encodes (a := .symlink [] [0x61]) (t := .symlink) (unique := 7) (nodeid := 1) (uid := 0) (gid := 0)
      (pid := 0) (padding := 0) (tail := []) trivial C10_violated_symlink.1 (by decide) (by decide)
    rwa [List.append_nil] at this
  · intro r
    rw [C10_violated_symlink.2]
    nofun
  · intro a
    have := shorten_encodes (a := .setxattrOld ⟨2, 0⟩ [] [0x61, 0x62]) (t := .setxattr ⟨32, 0⟩) (unique := 7)
      (nodeid := 1) (uid := 0) (gid := 0) (pid := 0) (padding := 0) (tail := []) (n := 50) (by show _ = _; decide)
      C10_violated_setxattr.1 (by decide) (by decide) (by decide) (by decide) a
    rwa [List.append_nil] at this
  · refine ⟨⟨⟨50, 21, 7, 1, 0, 0, 0, 0⟩, ⟨1, enc (⟨2, 0⟩ : FuseSetxattrInV7p1)⟩, ⟨[]⟩, [0, 0x61]⟩, ?_⟩
    decide

example : Encodes .lookup (.lookup [0x61]) ((ClientReq.lookup [0x61]).message 7 1 0 0 0 0 ++ [9, 9]) ∧
    ∃ r, decodeMessage .lookup ((ClientReq.lookup [0x61]).message 7 1 0 0 0 0 ++ [9, 9]) = .ok (.lookup r) ∧
      r.name.bytes = [0x61] := by
  refine ⟨message_encodes trivial ⟨by decide, by decide, by decide, by decide⟩ (by decide) (by decide), ?_⟩
  refine ⟨⟨⟨1, by decide⟩, ⟨[0x61]⟩⟩, ?_⟩
  decide

/-! ## C15 for arbitrary messages -/

/-- The pairs of node ID and count in a FORGET or BATCH_FORGET message. -/
def forgetPairs (buf : Bytes) : List (Nat × Nat) :=
  if u32At buf 4 = 2 then [(u64At buf 16, u64At buf 40)]
  else (List.range (u32At buf 40)).map fun k => (u64At buf (48 + 16 * k), u64At buf (56 + 16 * k))

theorem u64At_body {msg b : Bytes} {n i : Nat} (hb : (msg.take n).drop 40 = b) (hi : i + 8 ≤ b.length) :
    u64At msg (40 + i) = u64At b i := by
  unfold u64At
  rw [u32At_body hb (by omega), Nat.add_assoc, u32At_body hb (by omega)]

theorem forget_one_at (items : List FuseForgetOne) (s : Bytes) (k : Nat) (hk : k < items.length) :
    u64At (items.flatMap layout_fuse_forget_one ++ s) (16 * k) = items[k].nodeid.toNat ∧
    u64At (items.flatMap layout_fuse_forget_one ++ s) (16 * k + 8) = items[k].nlookup.toNat := by
  induction items generalizing k with
  | nil => cases hk
  | cons x items ih =>
    rw [List.flatMap_cons, List.append_assoc]
    cases k with
    | zero =>
      simp only [layout_fuse_forget_one, Nat.mul_zero, Nat.zero_add, List.getElem_cons_zero]
      constructor
      · read_at
      · rw [List.append_assoc, ← u64At_le64 x.nlookup (items.flatMap layout_fuse_forget_one ++ s)]
        exact u64At_skip64 x.nodeid _ 0
    | succ k =>
      obtain ⟨h1, h2⟩ := ih k (Nat.lt_of_succ_lt_succ hk)
      rw [List.getElem_cons_succ, ← h1, ← h2]
      exact ⟨u64At_append (layout_fuse_forget_one x) _ _,
        (congrArg (u64At _) (show 16 * (k + 1) + 8 = 16 * k + 8 + 16 by omega)).trans
          (u64At_append (layout_fuse_forget_one x) _ (16 * k + 8))⟩

/-- **C15**, exactly: of all messages, those decode as FORGET or BATCH_FORGET that have one of the two opcodes and
all their items within the declared length; and the items reported are the pairs in the message, in order, without
those of node ID zero.  (The others are rejected or, with a count of `2^28` or more, faults: `C04_exact`.) -/
theorem C15_exact (checks : Bool) (buf : Bytes) :
    ((∃ r, decodeMessage (.forget checks) buf = .ok r) ↔ Acceptable buf ∧
      (u32At buf 4 = 2 ∧ 48 ≤ u32At buf 0 ∨ u32At buf 4 = 42 ∧ 48 + 16 * u32At buf 40 ≤ u32At buf 0)) ∧
    ∀ r, decodeMessage (.forget checks) buf = .ok (.forget r) →
      r.items.map (fun i => (i.nodeId.val.toNat, i.lookupCount.toNat)) =
        (forgetPairs buf).filter (fun p => p.1 ≠ 0) := by
  have noempty : ∀ v, ¬ EmptyNamed (.forget checks) buf v := by
    rintro v ⟨_, _, _, l, h, _⟩
    cases h
  have hargs : Acceptable buf → (argsOf buf).length = u32At buf 0 - 40 := by
    intro ha
    unfold argsOf
    rw [List.length_drop, List.length_take, Nat.min_eq_left ha.2.2]
  have len42 (b : FuseBatchForgetIn) (items : List FuseForgetOne) :
      (ClientReq.batchForget b items).body.length = 8 + items.length * 16 := by
    have hfm : items.flatMap layout_fuse_forget_one = items.flatMap enc := by
      congr 1; funext x; exact (enc_fuse_forget_one x).symm
    simp only [ClientReq.body, List.length_append, ← enc_fuse_batch_forget_in, Wire.enc_length, hfm,
      flatMap_enc_length, size_fuse_batch_forget_in, size_fuse_forget_one]
  have cnt {b : FuseBatchForgetIn} {items : List FuseForgetOne} {s : Bytes}
      (hb : (ClientReq.batchForget b items).body ++ s = argsOf buf) : u32At buf 40 = b.count.toNat := by
    refine (u32At_body (i := 0) hb.symm ?_).trans ?_
    · rw [List.length_append, len42]; omega
    · simp only [ClientReq.body, layout_fuse_batch_forget_in]
      read_at
  refine ⟨⟨fun h => ?_, fun ⟨ha, h⟩ => ?_⟩, fun r h => ?_⟩
  · rcases (C67_exact _ _).1.mp h with ⟨a, ⟨ha, ht, ho, ⟨s, hb⟩, hw⟩, hsf⟩ | ⟨v, h⟩
    · refine ⟨ha, ?_⟩
      have hlen := congrArg List.length hb
      rw [List.length_append, hargs ha] at hlen
      cases a <;> first | exact False.elim ht | skip
      case forget b =>
        have : (ClientReq.forget b).body.length = 8 := rfl
        exact .inl ⟨ho, by omega⟩
      case batchForget b items =>
        have hw : b.count.toNat = items.length := hw
        rw [len42] at hlen
        exact .inr ⟨ho, by rw [cnt hb]; omega⟩
    · exact absurd h (noempty v)
  · have hlen := hargs ha
    refine (C67_exact _ _).1.mpr (.inl ?_)
    rcases h with ⟨ho, h⟩ | ⟨ho, h⟩
    · refine ⟨.forget (dec ((argsOf buf).take 8)), ⟨ha, trivial, ho, ?_, trivial⟩, trivial, fun h => False.elim h⟩
      simp only [ClientReq.body, ← enc_fuse_forget_in]
      rw [Wire.enc_dec _ (by rw [List.length_take, size_fuse_forget_in]; omega)]
      exact List.take_prefix _ _
    · have h8 : enc (dec ((argsOf buf).take 8) : FuseBatchForgetIn) = (argsOf buf).take 8 :=
        Wire.enc_dec _ (by rw [List.length_take, size_fuse_batch_forget_in]; omega)
      have hc : (dec ((argsOf buf).take 8) : FuseBatchForgetIn).count.toNat = u32At buf 40 := by
        refine Eq.trans ?_ (u32At_body (i := 0) (b := argsOf buf) rfl (by omega)).symm
        conv => rhs; rw [← List.take_append_drop 8 (argsOf buf), ← h8, enc_fuse_batch_forget_in]
        simp only [layout_fuse_batch_forget_in]
        read_at
      have hm := enc_decMany (T := FuseForgetOne) (u32At buf 40) (((argsOf buf).drop 8).take (16 * u32At buf 40))
        (by rw [List.length_take, List.length_drop, size_fuse_forget_one]; omega)
      refine ⟨.batchForget (dec ((argsOf buf).take 8))
        (decMany FuseForgetOne (u32At buf 40) (((argsOf buf).drop 8).take (16 * u32At buf 40))),
        ⟨ha, trivial, ho, ?_, hc.trans hm.2.symm⟩, trivial, fun h => False.elim h⟩
      have hfm (items : List FuseForgetOne) : items.flatMap layout_fuse_forget_one = items.flatMap enc := by
        congr 1; funext x; exact (enc_fuse_forget_one x).symm
      refine ⟨(((argsOf buf).drop 8).drop (16 * u32At buf 40)), ?_⟩
      simp only [ClientReq.body, ← enc_fuse_batch_forget_in, hfm]
      rw [hm.1, h8, List.append_assoc, List.take_append_drop, List.take_append_drop]
  · obtain ⟨a, ⟨ha, ht, ho, ⟨s, hb⟩, hw⟩, hsf, hiw, hm⟩ := C67_only_partial h (fun h => by cases h)
    cases a <;> first | exact False.elim ht | skip
    case forget b =>
      have hm : r.items.map (fun i => (i.nodeId.val, i.lookupCount)) =
        if nodeOf buf = 0 then [] else [(nodeOf buf, b.nlookup)] := hm
      have h40 : u64At buf 40 = b.nlookup.toNat := by
        refine (u64At_body (i := 0) hb.symm ?_).trans ?_
        · rw [List.length_append]; exact Nat.le_add_right _ _
        · simp only [ClientReq.body, layout_fuse_forget_in]
          read_at
      have ho : u32At buf 4 = 2 := ho
      have := congrArg (List.map fun p : UInt64 × UInt64 => (p.1.toNat, p.2.toNat)) hm
      rw [List.map_map] at this
      refine this.trans ?_
      unfold forgetPairs
      have hn : (nodeOf buf).toNat = u64At buf 16 := UInt64.toNat_ofNat_of_lt' (u64At_lt _ _)
      rw [if_pos ho, h40, ← hn]
      by_cases h0 : nodeOf buf = 0
      · rw [if_pos h0, h0]; rfl
      · rw [if_neg h0, List.filter_cons_of_pos]
        · rfl
        · simpa [← UInt64.toNat_inj] using h0
    case batchForget b items =>
      have hw : b.count.toNat = items.length := hw
      have hm : r.items.map (fun i => (i.nodeId.val, i.lookupCount)) =
        (items.filter (·.nodeid ≠ 0)).map (fun i => (i.nodeid, i.nlookup)) := hm
      have := congrArg (List.map fun p : UInt64 × UInt64 => (p.1.toNat, p.2.toNat)) hm
      rw [List.map_map, List.map_map] at this
      refine this.trans ?_
      have ho : u32At buf 4 = 42 := ho
      have hp : forgetPairs buf = items.map fun i => (i.nodeid.toNat, i.nlookup.toNat) := by
        unfold forgetPairs
        rw [if_neg (by omega), cnt hb, hw]
        refine List.ext_getElem (by simp) fun k h1 h2 => ?_
        simp only [List.length_map, List.length_range] at h1
        have h3 := forget_one_at items s k h1
        have hl := len42 b items
        have rd (i) (hi : 8 + i + 8 ≤ 8 + items.length * 16) :
            u64At buf (48 + i) = u64At (items.flatMap layout_fuse_forget_one ++ s) i := by
          refine (congrArg _ (by omega)).trans ((u64At_body (i := 8 + i) hb.symm ?_).trans ?_)
          · rw [List.length_append]; omega
          · rw [Nat.add_comm]
            simp only [ClientReq.body, List.append_assoc]
            exact u64At_append (layout_fuse_batch_forget_in b) _ _
        simp only [List.getElem_map, List.getElem_range]
        rw [← h3.1, ← h3.2, ← rd _ (by omega), ← rd _ (by omega)]
        congr 2; omega
      rw [hp, List.filter_map]
      congr 1
      refine List.filter_congr fun x _ => ?_
      simp [← UInt64.toNat_inj]

example : forgetPairs ((ClientReq.batchForget ⟨3, 0⟩ [⟨5, 1⟩, ⟨0, 9⟩, ⟨6, 2⟩]).message 7 1 0 0 0 0) =
      [(5, 1), (0, 9), (6, 2)] ∧
    ∃ r, decodeMessage (.forget true)
        ((ClientReq.batchForget ⟨3, 0⟩ [⟨5, 1⟩, ⟨0, 9⟩, ⟨6, 2⟩]).message 7 1 0 0 0 0) = .ok r := by
  refine ⟨by decide, (C15_exact true _).1.mpr ⟨by decide, .inr (by decide)⟩⟩

/-! ## C07, C08 and C11 for arbitrary messages -/

/-- Where the node IDs exposed by a request are in its message: offset 16 in the header, and in the arguments of
the requests that name two nodes (`include/uapi/linux/fuse.h`). -/
def ReqType.nodeOffsets : ReqType → List Nat
  | .forget _ | .interrupt | .fuseInit | .cuseInit => []
  | .link | .rename => [16, 40]
  | .copyFileRange => [16, 56]
  | _ => [16]

/-- **C07**: the node IDs exposed by a decoded FUSE request are those on the wire. -/
theorem C07_node_ids {t : ReqType} {buf : Bytes} {r : AnyRequest} (h : decodeMessage t buf = .ok r)
    (hc : t.isCuse = false) :
    ∃ ids : List NodeId, r.nodeIds = ids.map .ok ∧ ids.map (·.val.toNat) = t.nodeOffsets.map (u64At buf) := by
  have hl : r.nodeIds.length = t.nodeOffsets.length := by
    refine snd_buf h (Q := fun r => r.nodeIds.length = t.nodeOffsets.length) ?_
    cases t <;> exact Snd.map (fun _ _ _ _ _ => rfl)
  have hhead := (node_ids_good t buf r (decoded_safe h) h).2 hc
  have small : r.nodeIds.length = 0 ∧ t.nodeOffsets = [] ∨ r.nodeIds.length = 1 ∧ t.nodeOffsets = [16] →
      ∃ ids : List NodeId, r.nodeIds = ids.map .ok ∧ ids.map (·.val.toNat) = t.nodeOffsets.map (u64At buf) := by
    rintro (⟨h0, h1⟩ | ⟨h0, h1⟩)
    · exact ⟨[], List.eq_nil_of_length_eq_zero h0, by rw [h1]; rfl⟩
    · obtain ⟨x, hx⟩ := List.length_eq_one_iff.mp h0
      rw [hx] at hhead
      obtain ⟨n, rfl, hn⟩ := hhead x rfl
      exact ⟨[n], hx, by rw [h1, List.map_cons, List.map_cons, hn]; rfl⟩
  have hne : (∀ l, t ≠ .setxattr l) → ¬ r.EmptyXattrName := by
    intro ht hx
    have : ∀ x, r = .setxattr x → ∃ l, t = .setxattr l := by
      refine snd_buf h (Q := fun r => ∀ x, r = AnyRequest.setxattr x → ∃ l, t = .setxattr l) ?_
      cases t <;> first
        | exact fun _ _ _ _ _ _ _ => ⟨_, rfl⟩
        | exact Snd.map (fun _ _ _ _ _ x e => nomatch e)
    cases r <;> first | exact hx | skip
    obtain ⟨l, hl⟩ := this _ rfl
    exact ht l hl
  cases t
  case link =>
    obtain ⟨a, ⟨ha, ht, ho, ⟨s, hb⟩, hw⟩, -, -, hm⟩ := C67_only_partial h (hne nofun)
    cases a <;> first | exact False.elim ht | skip
    case link b name =>
    cases r <;> first | exact False.elim hm | skip
    case link r =>
    refine ⟨[r.newParentId, r.nodeId], rfl, ?_⟩
    have h40 : u64At buf 40 = b.oldnodeid.toNat := by
      refine (u64At_body (i := 0) hb.symm ?_).trans ?_
      · rw [List.length_append]; exact Nat.le_trans (by show 8 ≤ 8; omega) (Nat.le_add_right_of_le (by
          simp only [ClientReq.body, List.length_append]; exact Nat.le_add_right _ _))
      · simp only [ClientReq.body, layout_fuse_link_in]
        read_at
    simp only [ReqType.nodeOffsets, List.map_cons, List.map_nil, h40, hm.1, hm.2.1]
    rw [show (nodeOf buf).toNat = u64At buf 16 from UInt64.toNat_ofNat_of_lt' (u64At_lt _ _)]
  case rename =>
    obtain ⟨a, ⟨ha, ht, ho, ⟨s, hb⟩, hw⟩, -, -, hm⟩ := C67_only_partial h (hne nofun)
    cases a <;> first | exact False.elim ht | skip
    case rename b n1 n2 =>
      cases r <;> first | exact False.elim hm | skip
      case rename r =>
      refine ⟨[r.oldDirectoryId, r.newDirectoryId], rfl, ?_⟩
      have h40 : u64At buf 40 = b.newdir.toNat := by
        refine (u64At_body (i := 0) hb.symm ?_).trans ?_
        · simp only [ClientReq.body, List.length_append, List.append_assoc]; exact Nat.le_add_right _ _
        · simp only [ClientReq.body, layout_fuse_rename_in]
          read_at
      simp only [ReqType.nodeOffsets, List.map_cons, List.map_nil, h40, hm.1, hm.2.2.1]
      rw [show (nodeOf buf).toNat = u64At buf 16 from UInt64.toNat_ofNat_of_lt' (u64At_lt _ _)]
    case rename2 b n1 n2 =>
      cases r <;> first | exact False.elim hm | skip
      case rename r =>
      refine ⟨[r.oldDirectoryId, r.newDirectoryId], rfl, ?_⟩
      have h40 : u64At buf 40 = b.newdir.toNat := by
        refine (u64At_body (i := 0) hb.symm ?_).trans ?_
        · simp only [ClientReq.body, List.length_append, List.append_assoc]
          exact Nat.le_trans (by decide) (Nat.le_add_right 16 _)
        · simp only [ClientReq.body, layout_fuse_rename2_in]
          read_at
      simp only [ReqType.nodeOffsets, List.map_cons, List.map_nil, h40, hm.1, hm.2.2.1]
      rw [show (nodeOf buf).toNat = u64At buf 16 from UInt64.toNat_ofNat_of_lt' (u64At_lt _ _)]
  case copyFileRange =>
    obtain ⟨a, ⟨ha, ht, ho, ⟨s, hb⟩, hw⟩, -, -, hm⟩ := C67_only_partial h (hne nofun)
    cases a <;> first | exact False.elim ht | skip
    case copyFileRange b =>
    cases r <;> first | exact False.elim hm | skip
    case copyFileRange r =>
    obtain ⟨⟨n1, e1, v1⟩, -, -, ⟨n2, e2, v2⟩, -⟩ := hm
    refine ⟨[n1, n2], ?_, ?_⟩
    · simp only [AnyRequest.nodeIds, e1, e2, List.map_cons, List.map_nil]
    have h40 : u64At buf 56 = b.nodeid_out.toNat := by
      refine (u64At_body (i := 16) hb.symm ?_).trans ?_
      · simp only [ClientReq.body, List.length_append]
        exact Nat.le_trans (by decide) (Nat.le_add_right 56 _)
      · simp only [ClientReq.body, layout_fuse_copy_file_range_in]
        read_at
    simp only [ReqType.nodeOffsets, List.map_cons, List.map_nil, h40, v1, v2]
    rw [show (nodeOf buf).toNat = u64At buf 16 from UInt64.toNat_ofNat_of_lt' (u64At_lt _ _)]
  all_goals first | exact small (.inl ⟨hl, rfl⟩) | exact small (.inr ⟨hl, rfl⟩)

/-- **C07**: no node ID exposed by a decoded request, FUSE or CUSE, is zero. -/
theorem C07_nonzero {t : ReqType} {buf : Bytes} {r : AnyRequest} (h : decodeMessage t buf = .ok r) :
    ∀ id ∈ r.nodeIds, ∃ n : NodeId, id = .ok n ∧ n.val ≠ 0 :=
  (node_ids_good t buf r (decoded_safe h) h).1

/-- **C07**: a FUSE message with a zero in the place of a node ID that would be exposed does not decode. -/
theorem C07_zero_rejected {t : ReqType} {buf : Bytes} {i : Nat} (hc : t.isCuse = false) (hi : i ∈ t.nodeOffsets)
    (h0 : u64At buf i = 0) (r : AnyRequest) : decodeMessage t buf ≠ .ok r := by
  intro h
  obtain ⟨ids, -, h2⟩ := C07_node_ids h hc
  have : u64At buf i ∈ ids.map (·.val.toNat) := h2 ▸ List.mem_map.mpr ⟨i, hi, rfl⟩
  obtain ⟨n, -, hn⟩ := List.mem_map.mp this
  exact n.property (UInt64.toNat_inj.mp (hn.trans h0))

example : ∃ r, decodeMessage .rename ((ClientReq.rename ⟨8⟩ [0x61] [0x62]).message 7 5 0 0 0 0) = .ok r ∧
    r.nodeIds = [.ok ⟨5, by decide⟩, .ok ⟨8, by decide⟩] :=
  ⟨.rename ⟨⟨5, by decide⟩, ⟨[0x61]⟩, ⟨8, by decide⟩, ⟨[0x62]⟩, 0⟩, by decide, rfl⟩

/-- **C08**: every node name exposed by a decoded request is non-empty and contains neither NUL nor `/`. -/
theorem C08_names_valid {t : ReqType} {buf : Bytes} {r : AnyRequest} (h : decodeMessage t buf = .ok r) :
    ∀ n ∈ r.names, n.bytes ≠ [] ∧ 0 ∉ n.bytes ∧ 0x2F ∉ n.bytes :=
  names_good t buf r (decoded_safe h) h

/-- **C08**: the first name of a decoded request other than SYMLINK consists of exactly the message bytes from the
end of the fixed-size arguments up to the next NUL.  (`C08_rename_exact` and `C08_symlink_exact` cover the requests
with two strings.) -/
theorem C08_names_exact {t : ReqType} {buf : Bytes} {r : AnyRequest} (h : decodeMessage t buf = .ok r)
    (hs : t ≠ .symlink) :
    ∀ n ∈ r.names.head?, 0 ∉ n.bytes ∧
      n.bytes ++ [0] <+: ((buf.take (u32At buf 0)).drop (40 + t.nameOffset (u32At buf 4))) :=
  names_at t buf r (decoded_safe h) h hs

end Fuse
