import Verif.RequestSound
import Verif.PropRequest

/-!
# All request types together: which messages decode, and to what
-/

namespace Fuse
open Spec

variable {mem : Bytes} {H : Nat} {s : Bytes}

/-- No string argument followed by other arguments is empty. -/
def ClientReq.ShiftFree : ClientReq → Prop
  | .setxattrOld _ name _ => name ≠ []
  | .setxattr _ name _ => name ≠ []
  | .symlink content _ => content ≠ []
  | _ => True

/-- No string argument other than node names is empty. -/
def ClientReq.StringsNonempty : ClientReq → Prop
  | .getxattr _ name => name ≠ []
  | .removexattr name => name ≠ []
  | .setxattrOld _ name _ => name ≠ []
  | .setxattr _ name _ => name ≠ []
  | .symlink content _ => content ≠ []
  | _ => True

/-- The request is a WRITE in the layout used before protocol version 7.9. -/
def ClientReq.IsOldWrite : ClientReq → Prop
  | .writeOld _ _ => True
  | _ => False

/-- The request is an INIT of which only the version is decoded (and nothing consumed). -/
def ClientReq.IsOldInit : ClientReq → Prop
  | .initV1 _ _ => True
  | _ => False

/-- The claim of `run_any`. -/
abbrev RunsAs (mem : Bytes) (H : Nat) (s : Bytes) (a : ClientReq) (t : ReqType) : Prop :=
  Run mem H 40 (a.body ++ s) (decodeAny t)
    (fun r s' => (¬ a.IsOldInit → a.StringsNonempty → s' = s) ∧ a.Matches (hd mem).nodeid t.isCuse r)

theorem RunsTo.as {a t} (h : RunsTo mem H s a t) : RunsAs mem H s a t := by
  intro hok hr
  obtain ⟨x, c', h1, h2, h3⟩ := h hok hr
  exact ⟨x, c', h1, h2, fun _ _ => h3.1, h3.2⟩

theorem run_getxattr_empty (hop : (hd mem).opcode = 22) (hid : (hd mem).nodeid ≠ 0) {b : FuseGetxattrIn} :
    Run mem H 40 ((ClientReq.getxattr b []).body ++ s) (decodeAny .getxattr)
      (fun r _ => (ClientReq.getxattr b []).Matches (hd mem).nodeid false r) := by
  refine Run.map ?_
  simp only [ClientReq.body, cstring, List.append_assoc, List.nil_append, ← enc_fuse_getxattr_in]
  unfold decodeGetxattr
  repeat' run_step
  refine Run.nextCstr_bind_empty ?_
  exact Run.pure (match_getxattr hid _)

theorem run_removexattr_empty (hop : (hd mem).opcode = 24) (hid : (hd mem).nodeid ≠ 0) :
    Run mem H 40 ((ClientReq.removexattr []).body ++ s) (decodeAny .removexattr)
      (fun r _ => (ClientReq.removexattr []).Matches (hd mem).nodeid false r) := by
  refine Run.map ?_
  simp only [ClientReq.body, cstring, List.append_assoc, List.nil_append]
  unfold decodeRemovexattr
  repeat' run_step
  refine Run.nextCstr_bind_empty ?_
  exact Run.pure (match_removexattr hid _)

theorem setxattr_ext_iff {l : FuseLayout} : l.haveSetxattrExt = true ↔ l.features &&& 1 ≠ 0 :=
  ⟨setxattr_ext, fun h => Decidable.byContradiction (fun h' => h (setxattr_not_ext h'))⟩

theorem run_any {a : ClientReq} {t : ReqType} (ht : a.HasType t)
    (hop : (hd mem).opcode.toNat = a.opcode) (hw : a.WellFormed (hd mem).nodeid t.isCuse)
    (hne : a.ShiftFree) (h80 : a.IsOldWrite → 80 ≤ mem.length) : RunsAs mem H s a t := by
  have op : ∀ {k : UInt32}, a.opcode = k.toNat → (hd mem).opcode = k :=
    fun h => UInt32.toNat_inj.mp (hop.trans h)
  cases a with
  | access b =>
    cases t <;> first | exact False.elim ht | skip
    exact (run_access (op rfl) hw).as
  | bmap b =>
    cases t <;> first | exact False.elim ht | skip
    exact (run_bmap (op rfl) hw).as
  | fallocate b =>
    cases t <;> first | exact False.elim ht | skip
    exact (run_fallocate (op rfl) hw).as
  | fsyncdir b =>
    cases t <;> first | exact False.elim ht | skip
    exact (run_fsyncdir (op rfl) hw).as
  | listxattr b =>
    cases t <;> first | exact False.elim ht | skip
    exact (run_listxattr (op rfl) hw).as
  | lseek b =>
    cases t <;> first | exact False.elim ht | skip
    exact (run_lseek (op rfl) hw).as
  | opendir b =>
    cases t <;> first | exact False.elim ht | skip
    exact (run_opendir (op rfl) hw).as
  | poll b =>
    cases t <;> first | exact False.elim ht | skip
    exact (run_poll (op rfl) hw).as
  | copyFileRange b =>
    cases t <;> first | exact False.elim ht | skip
    exact (run_copyFileRange (op rfl) hw.1 hw.2).as
  | readlink  =>
    cases t <;> first | exact False.elim ht | skip
    exact (run_readlink (op rfl) hw).as
  | statfs  =>
    cases t <;> first | exact False.elim ht | skip
    exact (run_statfs (op rfl) hw).as
  | cuseInit b =>
    cases t <;> first | exact False.elim ht | skip
    exact (run_cuseInit (op rfl) ).as
  | interrupt b =>
    cases t <;> first | exact False.elim ht | skip
    exact (run_interrupt (op rfl) hw).as
  | lookup n =>
    cases t <;> first | exact False.elim ht | skip
    exact (run_lookup (op rfl) hw.1 hw.2).as
  | rmdir n =>
    cases t <;> first | exact False.elim ht | skip
    exact (run_rmdir (op rfl) hw.1 hw.2).as
  | unlink n =>
    cases t <;> first | exact False.elim ht | skip
    exact (run_unlink (op rfl) hw.1 hw.2).as
  | mkdir b n =>
    cases t <;> first | exact False.elim ht | skip
    exact (run_mkdir (op rfl) hw.1 hw.2).as
  | link b n =>
    cases t <;> first | exact False.elim ht | skip
    exact (run_link (op rfl) hw.1 hw.2.2 hw.2.1).as
  | symlink c n =>
    cases t <;> first | exact False.elim ht | skip
    exact (run_symlink (op rfl) hw.1 hw.2.2 hw.2.1 hne).as
  | getxattr b n =>
    cases t <;> first | exact False.elim ht | skip
    by_cases hn : n = []
    · subst hn
      intro hok hr
      obtain ⟨a, c', h1, h2, h3⟩ := run_getxattr_empty (op rfl) hw.1 hok hr
      exact ⟨a, c', h1, h2, fun _ h => absurd rfl h, h3⟩
    · exact (run_getxattr (op rfl) hw.1 hw.2 hn).as
  | removexattr n =>
    cases t <;> first | exact False.elim ht | skip
    by_cases hn : n = []
    · subst hn
      intro hok hr
      obtain ⟨a, c', h1, h2, h3⟩ := run_removexattr_empty (op rfl) hw.1 hok hr
      exact ⟨a, c', h1, h2, fun _ h => absurd rfl h, h3⟩
    · exact (run_removexattr (op rfl) hw.1 hw.2 hn).as
  | getlk b =>
    cases t <;> first | exact False.elim ht | skip
    obtain ⟨r, hl, hm⟩ := lock_run hw.2
    exact (run_getlk (op rfl) hw.1 hl hm).as
  | setlk b =>
    cases t <;> first | exact False.elim ht | skip
    obtain ⟨r, hl, hm⟩ := lock_run hw.2
    exact (run_setlk (op rfl) hw.1 hl hm).as
  | setlkw b =>
    cases t <;> first | exact False.elim ht | skip
    obtain ⟨r, hl, hm⟩ := lock_run hw.2
    exact (run_setlkw (op rfl) hw.1 hl hm).as
  | forget b =>
    cases t <;> first | exact False.elim ht | skip
    exact (run_forget (op rfl) _).as
  | batchForget b xs =>
    cases t <;> first | exact False.elim ht | skip
    exact (run_batchForget (op rfl) hw _).as
  | create b n =>
    cases t <;> first | exact False.elim ht | skip
    exact (run_create (op rfl) hw.1 hw.2 (minor_ge (k := 12) ht)).as
  | createOld b n =>
    cases t <;> first | exact False.elim ht | skip
    exact (run_createOld (op rfl) hw.1 hw.2 (minor_lt (k := 12) ht)).as
  | mknod b n =>
    cases t <;> first | exact False.elim ht | skip
    exact (run_mknod (op rfl) hw.1 hw.2 (minor_ge (k := 12) ht)).as
  | mknodOld b n =>
    cases t <;> first | exact False.elim ht | skip
    exact (run_mknodOld (op rfl) hw.1 hw.2 (minor_lt (k := 12) ht)).as
  | getattr b =>
    cases t <;> first | exact False.elim ht | skip
    exact (run_getattr (op rfl) hw (minor_ge (k := 9) ht)).as
  | getattrOld  =>
    cases t <;> first | exact False.elim ht | skip
    exact (run_getattrOld (op rfl) hw (minor_lt (k := 9) ht)).as
  | readdir b =>
    cases t <;> first | exact False.elim ht | skip
    exact (run_readdir (op rfl) hw (minor_ge (k := 9) ht)).as
  | readdirOld b =>
    cases t <;> first | exact False.elim ht | skip
    exact (run_readdirOld (op rfl) hw (minor_lt (k := 9) ht)).as
  | readdirplus b =>
    cases t <;> first | exact False.elim ht | skip
    exact (run_readdirplus (op rfl) hw (minor_ge (k := 9) ht)).as
  | readdirplusOld b =>
    cases t <;> first | exact False.elim ht | skip
    exact (run_readdirplusOld (op rfl) hw (minor_lt (k := 9) ht)).as
  | releasedir b =>
    cases t <;> first | exact False.elim ht | skip
    exact (run_releasedir (op rfl) hw (minor_ge (k := 8) ht)).as
  | releasedirOld b =>
    cases t <;> first | exact False.elim ht | skip
    exact (run_releasedirOld (op rfl) hw (minor_lt (k := 8) ht)).as
  | setxattr b n v =>
    cases t <;> first | exact False.elim ht | skip
    exact (run_setxattr (op rfl) hw.1 hw.2.1 hne hw.2.2 (setxattr_ext_iff.mpr ht)).as
  | setxattrOld b n v =>
    cases t <;> first | exact False.elim ht | skip
    exact (run_setxattrOld (op rfl) hw.1 hw.2.1 hne hw.2.2 (fun h => setxattr_ext h ht)).as
  | read b =>
    cases t <;> first | exact False.elim ht | skip
    rename_i k
    cases k with
    | true => exact (run_read_cuse (op rfl) ht).as
    | false => exact (run_read_fuse (op rfl) (hw.resolve_left Bool.false_ne_true) ht).as
  | readOld b =>
    cases t <;> first | exact False.elim ht | skip
    rename_i k
    cases k with
    | true => exact (run_readOld_cuse (op rfl) (not_ge32.mpr ht)).as
    | false => exact (run_readOld_fuse (op rfl) (hw.resolve_left Bool.false_ne_true) (not_ge32.mpr ht)).as
  | release b =>
    cases t <;> first | exact False.elim ht | skip
    rename_i k
    cases k with
    | true => exact (run_release_cuse (op rfl) ht).as
    | false => exact (run_release_fuse (op rfl) (hw.resolve_left Bool.false_ne_true) ht).as
  | releaseOld b =>
    cases t <;> first | exact False.elim ht | skip
    rename_i k
    cases k with
    | true => exact (run_releaseOld_cuse (op rfl) (not_ge32.mpr ht)).as
    | false => exact (run_releaseOld_fuse (op rfl) (hw.resolve_left Bool.false_ne_true) (not_ge32.mpr ht)).as
  | write b d =>
    cases t <;> first | exact False.elim ht | skip
    refine Run.ok (fun hok hr => ?_)
    have hl := hok.rest_length
    have hle := hok.len_le
    rw [hr] at hl
    simp only [ClientReq.body, List.length_append, ← enc_fuse_write_in, Wire.enc_length, size_fuse_write_in] at hl
    simp only at hl hle
    rename_i k
    cases k with
    | true => exact (run_write_cuse (op rfl) ht hw.2 (by omega)).as
    | false => exact (run_write_fuse (op rfl) (hw.1.resolve_left Bool.false_ne_true) ht hw.2 (by omega)).as
  | writeOld b d =>
    cases t <;> first | exact False.elim ht | skip
    rename_i k
    cases k with
    | true => exact (run_writeOld_cuse (op rfl) (not_ge32.mpr ht) hw.2 (h80 trivial)).as
    | false => exact (run_writeOld_fuse (op rfl) (hw.1.resolve_left Bool.false_ne_true) (not_ge32.mpr ht) hw.2 (h80 trivial)).as
  | fsync b =>
    cases t <;> first | exact False.elim ht | skip
    rename_i k
    cases k with
    | true => exact (run_fsync_cuse (op rfl) ).as
    | false => exact (run_fsync_fuse (op rfl) (hw.resolve_left Bool.false_ne_true)).as
  | flush b =>
    cases t <;> first | exact False.elim ht | skip
    rename_i k
    cases k with
    | true => exact (run_flush_cuse (op rfl) ).as
    | false => exact (run_flush_fuse (op rfl) (hw.resolve_left Bool.false_ne_true)).as
  | open_ b =>
    cases t <;> first | exact False.elim ht | skip
    rename_i k
    cases k with
    | true => exact (run_open_cuse (op rfl)).as
    | false => exact (run_open_fuse (op rfl) (hw.resolve_left Bool.false_ne_true)).as
  | ioctl b i =>
    cases t <;> first | exact False.elim ht | skip
    rename_i k
    cases k with
    | true => exact (run_ioctl_cuse (op rfl) hw.2).as
    | false => exact (run_ioctl_fuse (op rfl) (hw.1.resolve_left Bool.false_ne_true) hw.2).as
  | rename b o n =>
    cases t <;> first | exact False.elim ht | skip
    exact (run_rename (op rfl) hw.1 hw.2.2.1 hw.2.2.2 hw.2.1).as
  | rename2 b o n =>
    cases t <;> first | exact False.elim ht | skip
    exact (run_rename2 (op rfl) hw.1 hw.2.2.1 hw.2.2.2 hw.2.1).as
  | setattr b =>
    cases t <;> first | exact False.elim ht | skip
    exact (run_setattr (op rfl) hw.1 hw.2.1 hw.2.2.1 hw.2.2.2).as
  | initV1 x y =>
    cases t <;> first | exact False.elim ht | skip
    intro hok hr
    obtain ⟨a, c', h1, h2, h3⟩ := run_initV1 (op rfl) hw hok hr
    exact ⟨a, c', h1, h2, fun h _ => absurd trivial h, h3⟩
  | initV6 x y z w =>
    cases t <;> first | exact False.elim ht | skip
    exact (run_initV6 (op rfl) hw).as
  | init b =>
    cases t <;> first | exact False.elim ht | skip
    exact (run_init (op rfl) hw).as

end Fuse
