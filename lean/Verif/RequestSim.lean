import Verif.DecodeSim
import Verif.RequestSafe

/-!
# Two-run lemmas for every request decoder
-/

namespace Fuse

/-- Results agree when the two messages have the same length. -/
def EqIf (H1 H2 : Nat) {α : Type} (a b : α) : Prop := H1 = H2 → a = b

variable {mem1 mem2 : Bytes} {H1 H2 : Nat}

theorem Sim.map_eqIf {α γ : Type} {m1 m2 : DecM α} {f : α → γ}
    (h : Sim mem1 H1 mem2 H2 (EqIf H1 H2) m1 m2) :
    Sim mem1 H1 mem2 H2 (EqIf H1 H2) (f <$> m1) (f <$> m2) := by
  rw [map_eq_pure_bind, map_eq_pure_bind]
  exact Sim.bind h (fun _ _ hr => Sim.pure (fun e => congrArg f (hr e)))

/-- Applies the rule for the next action of both runs. -/
macro "sim_step" r:term : tactic => `(tactic| first
  | (with_reducible refine Sim.expectOpcode_bind $r ?_)
  | (with_reducible refine Sim.header_bind $r (fun _ _ _ => ?_))
  | (with_reducible refine Sim.bind_eq Sim.nodeId (fun _ => ?_))
  | (with_reducible refine Sim.bind_eq (Sim.nextSized $r (by simp)) (fun _ => ?_))
  | (with_reducible refine Sim.bind_eq (Sim.peekSized $r (by simp)) (fun _ => ?_))
  | (with_reducible refine Sim.bind_eq (Sim.nextBytes $r) (fun _ => ?_))
  | (with_reducible refine Sim.bind_eq (Sim.nextNodeName $r) (fun _ => ?_))
  | (with_reducible refine Sim.bind_eq (Sim.nextCstr $r) (fun _ => ?_))
  | (with_reducible refine Sim.bind_eq Sim.checkTimespecNanos (fun _ => ?_))
  | (with_reducible refine Sim.bind_eq Sim.ofRes (fun _ => ?_))
  | (with_reducible refine Sim.bind_eq Sim.ofFault (fun _ => ?_))
  | (with_reducible exact Sim.throwReq)
  | (with_reducible refine Sim.pure ?_)
  | (simp only [pure_bind, bind_assoc])
  | split)

theorem sim_access (r : Rel mem1 H1 mem2 H2) :
    Sim mem1 H1 mem2 H2 (EqIf H1 H2) decodeAccess decodeAccess := by
  unfold decodeAccess
  repeat' sim_step r
  all_goals (intro e; simp_all)

theorem sim_bmap (r : Rel mem1 H1 mem2 H2) :
    Sim mem1 H1 mem2 H2 (EqIf H1 H2) decodeBmap decodeBmap := by
  unfold decodeBmap
  repeat' sim_step r
  all_goals (intro e; simp_all)

theorem sim_copyFileRange (r : Rel mem1 H1 mem2 H2) :
    Sim mem1 H1 mem2 H2 (EqIf H1 H2) decodeCopyFileRange decodeCopyFileRange := by
  unfold decodeCopyFileRange
  repeat' sim_step r
  all_goals (intro e; simp_all)

theorem sim_fallocate (r : Rel mem1 H1 mem2 H2) :
    Sim mem1 H1 mem2 H2 (EqIf H1 H2) decodeFallocate decodeFallocate := by
  unfold decodeFallocate
  repeat' sim_step r
  all_goals (intro e; simp_all)

theorem sim_fsyncdir (r : Rel mem1 H1 mem2 H2) :
    Sim mem1 H1 mem2 H2 (EqIf H1 H2) decodeFsyncdir decodeFsyncdir := by
  unfold decodeFsyncdir
  repeat' sim_step r
  all_goals (intro e; simp_all)

theorem sim_getlk (r : Rel mem1 H1 mem2 H2) :
    Sim mem1 H1 mem2 H2 (EqIf H1 H2) decodeGetlk decodeGetlk := by
  unfold decodeGetlk
  repeat' sim_step r
  all_goals (intro e; simp_all)

theorem sim_getxattr (r : Rel mem1 H1 mem2 H2) :
    Sim mem1 H1 mem2 H2 (EqIf H1 H2) decodeGetxattr decodeGetxattr := by
  unfold decodeGetxattr
  repeat' sim_step r
  all_goals (intro e; simp_all)

theorem sim_interrupt (r : Rel mem1 H1 mem2 H2) :
    Sim mem1 H1 mem2 H2 (EqIf H1 H2) decodeInterrupt decodeInterrupt := by
  unfold decodeInterrupt
  repeat' sim_step r
  all_goals (intro e; simp_all)

theorem sim_link (r : Rel mem1 H1 mem2 H2) :
    Sim mem1 H1 mem2 H2 (EqIf H1 H2) decodeLink decodeLink := by
  unfold decodeLink
  repeat' sim_step r
  all_goals (intro e; simp_all)

theorem sim_listxattr (r : Rel mem1 H1 mem2 H2) :
    Sim mem1 H1 mem2 H2 (EqIf H1 H2) decodeListxattr decodeListxattr := by
  unfold decodeListxattr
  repeat' sim_step r
  all_goals (intro e; simp_all)

theorem sim_lookup (r : Rel mem1 H1 mem2 H2) :
    Sim mem1 H1 mem2 H2 (EqIf H1 H2) decodeLookup decodeLookup := by
  unfold decodeLookup
  repeat' sim_step r
  all_goals (intro e; simp_all)

theorem sim_lseek (r : Rel mem1 H1 mem2 H2) :
    Sim mem1 H1 mem2 H2 (EqIf H1 H2) decodeLseek decodeLseek := by
  unfold decodeLseek
  repeat' sim_step r
  all_goals (intro e; simp_all)

theorem sim_mkdir (r : Rel mem1 H1 mem2 H2) :
    Sim mem1 H1 mem2 H2 (EqIf H1 H2) decodeMkdir decodeMkdir := by
  unfold decodeMkdir
  repeat' sim_step r
  all_goals (intro e; simp_all)

theorem sim_opendir (r : Rel mem1 H1 mem2 H2) :
    Sim mem1 H1 mem2 H2 (EqIf H1 H2) decodeOpendir decodeOpendir := by
  unfold decodeOpendir
  repeat' sim_step r
  all_goals (intro e; simp_all)

theorem sim_poll (r : Rel mem1 H1 mem2 H2) :
    Sim mem1 H1 mem2 H2 (EqIf H1 H2) decodePoll decodePoll := by
  unfold decodePoll
  repeat' sim_step r
  all_goals (intro e; simp_all)

theorem sim_readlink (r : Rel mem1 H1 mem2 H2) :
    Sim mem1 H1 mem2 H2 (EqIf H1 H2) decodeReadlink decodeReadlink := by
  unfold decodeReadlink
  repeat' sim_step r
  all_goals (intro e; simp_all)

theorem sim_removexattr (r : Rel mem1 H1 mem2 H2) :
    Sim mem1 H1 mem2 H2 (EqIf H1 H2) decodeRemovexattr decodeRemovexattr := by
  unfold decodeRemovexattr
  repeat' sim_step r
  all_goals (intro e; simp_all)

theorem sim_rename (r : Rel mem1 H1 mem2 H2) :
    Sim mem1 H1 mem2 H2 (EqIf H1 H2) decodeRename decodeRename := by
  unfold decodeRename
  repeat' sim_step r
  all_goals (intro e; simp_all)

theorem sim_rmdir (r : Rel mem1 H1 mem2 H2) :
    Sim mem1 H1 mem2 H2 (EqIf H1 H2) decodeRmdir decodeRmdir := by
  unfold decodeRmdir
  repeat' sim_step r
  all_goals (intro e; simp_all)

theorem sim_setattr (r : Rel mem1 H1 mem2 H2) :
    Sim mem1 H1 mem2 H2 (EqIf H1 H2) decodeSetattr decodeSetattr := by
  unfold decodeSetattr
  repeat' sim_step r
  all_goals (intro e; simp_all)

theorem sim_setlk (r : Rel mem1 H1 mem2 H2) :
    Sim mem1 H1 mem2 H2 (EqIf H1 H2) decodeSetlk decodeSetlk := by
  unfold decodeSetlk
  repeat' sim_step r
  all_goals
    intro e
    subst e
    have hl := (by assumption : H1 = H1 → _) rfl
    subst hl
    rfl

theorem sim_statfs (r : Rel mem1 H1 mem2 H2) :
    Sim mem1 H1 mem2 H2 (EqIf H1 H2) decodeStatfs decodeStatfs := by
  unfold decodeStatfs
  repeat' sim_step r
  all_goals (intro e; simp_all)

theorem sim_symlink (r : Rel mem1 H1 mem2 H2) :
    Sim mem1 H1 mem2 H2 (EqIf H1 H2) decodeSymlink decodeSymlink := by
  unfold decodeSymlink
  repeat' sim_step r
  all_goals (intro e; simp_all)

theorem sim_unlink (r : Rel mem1 H1 mem2 H2) :
    Sim mem1 H1 mem2 H2 (EqIf H1 H2) decodeUnlink decodeUnlink := by
  unfold decodeUnlink
  repeat' sim_step r
  all_goals (intro e; simp_all)

theorem sim_fuseInit (r : Rel mem1 H1 mem2 H2) :
    Sim mem1 H1 mem2 H2 (EqIf H1 H2) decodeFuseInit decodeFuseInit := by
  unfold decodeFuseInit
  repeat' sim_step r
  all_goals (intro e; simp_all)

theorem sim_cuseInit (r : Rel mem1 H1 mem2 H2) :
    Sim mem1 H1 mem2 H2 (EqIf H1 H2) decodeCuseInit decodeCuseInit := by
  unfold decodeCuseInit
  repeat' sim_step r
  all_goals (intro e; simp_all)

theorem sim_create (r : Rel mem1 H1 mem2 H2) (l : FuseLayout) :
    Sim mem1 H1 mem2 H2 (EqIf H1 H2) (decodeCreate l) (decodeCreate l) := by
  unfold decodeCreate
  repeat' sim_step r
  all_goals (intro e; simp_all)

theorem sim_getattr (r : Rel mem1 H1 mem2 H2) (l : FuseLayout) :
    Sim mem1 H1 mem2 H2 (EqIf H1 H2) (decodeGetattr l) (decodeGetattr l) := by
  unfold decodeGetattr
  repeat' sim_step r
  all_goals (intro e; simp_all)

theorem sim_mknod (r : Rel mem1 H1 mem2 H2) (l : FuseLayout) :
    Sim mem1 H1 mem2 H2 (EqIf H1 H2) (decodeMknod l) (decodeMknod l) := by
  unfold decodeMknod
  repeat' sim_step r
  all_goals (intro e; simp_all)

theorem sim_readdir (r : Rel mem1 H1 mem2 H2) (l : FuseLayout) :
    Sim mem1 H1 mem2 H2 (EqIf H1 H2) (decodeReaddir l) (decodeReaddir l) := by
  unfold decodeReaddir readBody
  repeat' sim_step r
  all_goals (intro e; simp_all)

theorem sim_readdirplus (r : Rel mem1 H1 mem2 H2) (l : FuseLayout) :
    Sim mem1 H1 mem2 H2 (EqIf H1 H2) (decodeReaddirplus l) (decodeReaddirplus l) := by
  unfold decodeReaddirplus readBody
  repeat' sim_step r
  all_goals (intro e; simp_all)

theorem sim_releasedir (r : Rel mem1 H1 mem2 H2) (l : FuseLayout) :
    Sim mem1 H1 mem2 H2 (EqIf H1 H2) (decodeReleasedir l) (decodeReleasedir l) := by
  unfold decodeReleasedir releaseBody
  repeat' sim_step r
  all_goals (intro e; simp_all)

theorem sim_setxattr (r : Rel mem1 H1 mem2 H2) (l : FuseLayout) :
    Sim mem1 H1 mem2 H2 (EqIf H1 H2) (decodeSetxattr l) (decodeSetxattr l) := by
  unfold decodeSetxattr
  repeat' sim_step r
  all_goals (intro e; simp_all)

theorem sim_flush (r : Rel mem1 H1 mem2 H2) (k : Bool) :
    Sim mem1 H1 mem2 H2 (EqIf H1 H2) (decodeFlush k) (decodeFlush k) := by
  unfold decodeFlush
  repeat' sim_step r
  all_goals (intro e; simp_all)

theorem sim_fsync (r : Rel mem1 H1 mem2 H2) (k : Bool) :
    Sim mem1 H1 mem2 H2 (EqIf H1 H2) (decodeFsync k) (decodeFsync k) := by
  unfold decodeFsync
  repeat' sim_step r
  all_goals (intro e; simp_all)

theorem sim_ioctl (r : Rel mem1 H1 mem2 H2) (k : Bool) :
    Sim mem1 H1 mem2 H2 (EqIf H1 H2) (decodeIoctl k) (decodeIoctl k) := by
  unfold decodeIoctl
  repeat' sim_step r
  all_goals (intro e; simp_all)

theorem sim_open (r : Rel mem1 H1 mem2 H2) (k : Bool) :
    Sim mem1 H1 mem2 H2 (EqIf H1 H2) (decodeOpen k) (decodeOpen k) := by
  unfold decodeOpen
  repeat' sim_step r
  all_goals (intro e; simp_all)

theorem sim_read (r : Rel mem1 H1 mem2 H2) (v : UInt32) (k : Bool) :
    Sim mem1 H1 mem2 H2 (EqIf H1 H2) (decodeRead v k) (decodeRead v k) := by
  unfold decodeRead readBody
  repeat' sim_step r
  all_goals (intro e; simp_all)

theorem sim_release (r : Rel mem1 H1 mem2 H2) (v : UInt32) (k : Bool) :
    Sim mem1 H1 mem2 H2 (EqIf H1 H2) (decodeRelease v k) (decodeRelease v k) := by
  unfold decodeRelease releaseBody
  repeat' sim_step r
  all_goals (intro e; simp_all)


theorem Sim.get_bind {β : Type} {S : β → β → Prop} {f g : Decoder → DecM β}
    (h : ∀ c, Sim mem1 H1 mem2 H2 S (f ⟨mem1, H1, c⟩) (g ⟨mem2, H2, c⟩)) :
    Sim mem1 H1 mem2 H2 S (get >>= f) (get >>= g) :=
  fun c h1 h2 h3 => h c c h1 h2 h3

theorem Sim.nextSized_bind_len {β : Type} {S : β → β → Prop} (r : Rel mem1 H1 mem2 H2) {T : Type}
    [Wire T] (hs : Wire.size T < 2 ^ 32) {f g : T → DecM β}
    (h : 40 + Wire.size T ≤ H1 → 40 + Wire.size T ≤ H2 → ∀ x, Sim mem1 H1 mem2 H2 S (f x) (g x)) :
    Sim mem1 H1 mem2 H2 S (Fuse.nextSized T >>= f) (Fuse.nextSized T >>= g) := by
  intro c h40 hc hle
  have hr := r.le
  by_cases hb : 40 + Wire.size T ≤ H1 ∧ 40 + Wire.size T ≤ H2
  · exact Sim.bind_eq (Sim.nextSized r hs) (h hb.1 hb.2) c h40 hc hle
  · have e2 : Fuse.nextSized T ⟨mem2, H2, c⟩ = .error (.req .unexpectedEof) := by
      rw [nextSized_eq (r.okB hc) T hs]
      simp only
      rw [if_neg (by omega)]
    simp only [Bind.bind, StateT.bind, e2]
    by_cases h1 : c + Wire.size T ≤ H1
    · have h2 : ¬ c + Wire.size T ≤ H2 := by omega
      split
      · exact Or.inr ⟨by omega, rfl⟩
      · intro e; omega
    · have e1 : Fuse.nextSized T ⟨mem1, H1, c⟩ = .error (.req .unexpectedEof) := by
        rw [nextSized_eq (r.okA hc) T hs]
        simp only
        rw [if_neg h1]
      rw [e1]
      exact fun _ => rfl

/-- The end of `decodeWrite`. -/
theorem sim_write_tail (r : Rel mem1 H1 mem2 H2) (v : UInt32) (n : UInt32)
    (h1 : 80 ≤ mem1.length) (h2 : 80 ≤ mem2.length) :
    Sim mem1 H1 mem2 H2 (EqIf H1 H2)
      (do let _ ← nextBytes n
          let d ← get
          if WRITE_MSG_SIZE ≤ d.mem.length then pure (WriteRequest.mk (d.mem.take d.headerLen) v)
          else DecM.ofFault (.error .oob))
      (do let _ ← nextBytes n
          let d ← get
          if WRITE_MSG_SIZE ≤ d.mem.length then pure (WriteRequest.mk (d.mem.take d.headerLen) v)
          else DecM.ofFault (.error .oob)) := by
  refine Sim.bind_eq (Sim.nextBytes r) (fun _ => ?_)
  refine Sim.get_bind (fun c => ?_)
  simp only
  rw [if_pos (show WRITE_MSG_SIZE ≤ mem1.length from h1),
    if_pos (show WRITE_MSG_SIZE ≤ mem2.length from h2)]
  exact Sim.pure (fun e => by rw [r.full e])

theorem sim_write (r : Rel mem1 H1 mem2 H2) (v : UInt32) (k : Bool)
    (hp : v ≥ 9 ∨ (80 ≤ mem1.length ∧ 80 ≤ mem2.length)) :
    Sim mem1 H1 mem2 H2 (EqIf H1 H2) (decodeWrite v k) (decodeWrite v k) := by
  unfold decodeWrite
  refine Sim.expectOpcode_bind r ?_
  refine Sim.header_bind r (fun h l _ => ?_)
  have key : Sim mem1 H1 mem2 H2 (EqIf H1 H2)
      (do let valueLen ←
            if v ≥ 9 then do
              let body ← nextSized FuseWriteIn
              pure body.size
            else do
              let body ← nextSized FuseWriteInV7p1
              pure body.size
          let _ ← nextBytes valueLen
          let d ← get
          if WRITE_MSG_SIZE ≤ d.mem.length then pure (WriteRequest.mk (d.mem.take d.headerLen) v)
          else DecM.ofFault (.error .oob))
      (do let valueLen ←
            if v ≥ 9 then do
              let body ← nextSized FuseWriteIn
              pure body.size
            else do
              let body ← nextSized FuseWriteInV7p1
              pure body.size
          let _ ← nextBytes valueLen
          let d ← get
          if WRITE_MSG_SIZE ≤ d.mem.length then pure (WriteRequest.mk (d.mem.take d.headerLen) v)
          else DecM.ofFault (.error .oob)) := by
    split
    · simp only [pure_bind]
      refine Sim.nextSized_bind_len (T := FuseWriteIn) r (by simp) (fun a b x => ?_)
      simp only [size_fuse_write_in] at a b
      exact sim_write_tail r v _ (by have := r.ok1; omega) (by have := r.ok2; omega)
    · simp only [pure_bind]
      refine Sim.nextSized_bind_len (T := FuseWriteInV7p1) r (by simp) (fun a b x => ?_)
      rcases hp with hp | hp
      · contradiction
      · exact sim_write_tail r v _ hp.1 hp.2
  cases k
  · exact Sim.bind_eq Sim.nodeId (fun _ => key)
  · exact key

/-- The end of `decodeForget`, run on a sound decoder. -/
theorem forget_tail_eq {mem : Bytes} {H s : Nat} (hok : (Decoder.mk mem H s).Ok) (n : UInt32) :
    (do let _ ← nextBytes (n * 16)
        let d ← get
        if s % Wire.align FuseForgetOne = 0 then do
          let bytes ← DecM.ofRes (d.read s (n.toNat * Wire.size FuseForgetOne))
          return ⟨none, decMany FuseForgetOne n.toNat bytes⟩
        else DecM.ofFault (.error .misaligned) : DecM ForgetRequest) ⟨mem, H, s⟩ =
      if s + (n * 16).toNat ≤ H then
        if s % 8 = 0 then
          if s + n.toNat * 16 ≤ H then
            .ok (⟨none, decMany FuseForgetOne n.toNat (((mem.take H).drop s).take (n.toNat * 16))⟩,
              ⟨mem, H, s + (n * 16).toNat⟩)
          else .error (.fault .oob)
        else .error (.fault .misaligned)
      else .error (.req .unexpectedEof) := by
  have hl : H ≤ mem.length := hok.len_le
  simp only [Bind.bind, StateT.bind, nextBytes_eq hok]
  by_cases h1 : s + (n * 16).toNat ≤ H
  · simp only [h1, ↓reduceIte, align_fuse_forget_one, size_fuse_forget_one]
    by_cases h2 : s % 8 = 0
    · simp only [h2, ↓reduceIte]
      by_cases h3 : s + n.toNat * 16 ≤ H
      · rw [if_pos h3]
        simp only [Except.bind, get, getThe, MonadStateOf.get, StateT.get, pure, Except.pure,
          DecM.ofRes, Decoder.read, Decoder.adv, StateT.pure, Bind.bind, StateT.bind]
        rw [if_pos ⟨h3, by omega⟩]
        simp only
        rw [List.drop_take, List.take_take, Nat.min_eq_left (by omega)]
      · rw [if_neg h3]
        simp only [Except.bind, get, getThe, MonadStateOf.get, StateT.get, pure, Except.pure,
          DecM.ofRes, Decoder.read, Decoder.adv, StateT.pure, Bind.bind, StateT.bind]
        rw [if_neg (fun h => h3 h.1)]
    · simp only [h2, ↓reduceIte]
      rfl
  · simp only [h1, ↓reduceIte]
    rfl

theorem sim_forget (r : Rel mem1 H1 mem2 H2) (checks : Bool) :
    Sim mem1 H1 mem2 H2 (EqIf H1 H2) (decodeForget checks) (decodeForget checks) := by
  unfold decodeForget
  refine Sim.header_bind r (fun h l hl => ?_)
  simp only
  split
  · refine Sim.bind_eq (Sim.nextSized r (by simp)) (fun raw => ?_)
    split
    · exact fun _ _ _ _ _ => rfl
    · intro c h40 hc hle
      have e1 := forget_tail_eq (r.okA hc) raw.count
      have e2 := forget_tail_eq (r.okB hc) raw.count
      generalize raw.count = n at e1 e2 ⊢
      have g : ∀ (f : Decoder → DecM ForgetRequest) (d : Decoder), (get >>= f) d = f d d :=
        fun _ _ => rfl
      rw [g, g]
      simp only
      rw [e1, e2]
      have hr := r.le
      have hlt := r.lt
      by_cases h1 : c + (n * 16).toNat ≤ H1
      · rw [if_pos h1]
        by_cases h2 : c % 8 = 0
        · simp only [h2, ↓reduceIte]
          by_cases h3 : c + n.toNat * 16 ≤ H1
          · simp only [h3, ↓reduceIte]
            have hn : (n * 16).toNat = n.toNat * 16 := by
              rw [UInt32.toNat_mul, show (16 : UInt32).toNat = 16 from rfl,
                Nat.mod_eq_of_lt (by omega)]
            rw [hn]
            by_cases h4 : c + n.toNat * 16 ≤ H2
            · simp only [h4, ↓reduceIte]
              refine Or.inl ⟨_, _, rfl, by omega, by omega, Or.inl h4, rfl, fun e => ?_⟩
              rw [r.full e]
            · simp only [h4, ↓reduceIte]
              exact Or.inr ⟨by omega, trivial⟩
          · simp only [h3, ↓reduceIte]
            intro e
            rw [if_pos (by omega), if_neg (by omega)]
        · simp only [h2, ↓reduceIte]
          intro e
          rw [if_pos (by omega)]
      · simp only [h1, ↓reduceIte]
        intro e
        rw [if_neg (by omega)]
  · repeat' sim_step r
    all_goals (intro e; simp_all)

/-- What the two-run comparison needs beyond `Rel`: an old-style WRITE is decoded through a
reference to 80 bytes, all of which must have been received. -/
def ReqType.Pre2 (t : ReqType) (b1 b2 : Bytes) : Prop :=
  match t with
  | .write v _ => v ≥ 9 ∨ (80 ≤ b1.length ∧ 80 ≤ b2.length)
  | _ => True

theorem sim_any (r : Rel mem1 H1 mem2 H2) (t : ReqType) (hp : t.Pre2 mem1 mem2) :
    Sim mem1 H1 mem2 H2 (EqIf H1 H2) (decodeAny t) (decodeAny t) := by
  cases t
  case access => exact Sim.map_eqIf (sim_access r)
  case bmap => exact Sim.map_eqIf (sim_bmap r)
  case copyFileRange => exact Sim.map_eqIf (sim_copyFileRange r)
  case fallocate => exact Sim.map_eqIf (sim_fallocate r)
  case fsyncdir => exact Sim.map_eqIf (sim_fsyncdir r)
  case getlk => exact Sim.map_eqIf (sim_getlk r)
  case getxattr => exact Sim.map_eqIf (sim_getxattr r)
  case interrupt => exact Sim.map_eqIf (sim_interrupt r)
  case link => exact Sim.map_eqIf (sim_link r)
  case listxattr => exact Sim.map_eqIf (sim_listxattr r)
  case lookup => exact Sim.map_eqIf (sim_lookup r)
  case lseek => exact Sim.map_eqIf (sim_lseek r)
  case mkdir => exact Sim.map_eqIf (sim_mkdir r)
  case opendir => exact Sim.map_eqIf (sim_opendir r)
  case poll => exact Sim.map_eqIf (sim_poll r)
  case readlink => exact Sim.map_eqIf (sim_readlink r)
  case removexattr => exact Sim.map_eqIf (sim_removexattr r)
  case rename => exact Sim.map_eqIf (sim_rename r)
  case rmdir => exact Sim.map_eqIf (sim_rmdir r)
  case setattr => exact Sim.map_eqIf (sim_setattr r)
  case setlk => exact Sim.map_eqIf (sim_setlk r)
  case statfs => exact Sim.map_eqIf (sim_statfs r)
  case symlink => exact Sim.map_eqIf (sim_symlink r)
  case unlink => exact Sim.map_eqIf (sim_unlink r)
  case fuseInit => exact Sim.map_eqIf (sim_fuseInit r)
  case cuseInit => exact Sim.map_eqIf (sim_cuseInit r)
  case forget k => exact Sim.map_eqIf (sim_forget r k)
  case create l => exact Sim.map_eqIf (sim_create r l)
  case getattr l => exact Sim.map_eqIf (sim_getattr r l)
  case mknod l => exact Sim.map_eqIf (sim_mknod r l)
  case readdir l => exact Sim.map_eqIf (sim_readdir r l)
  case readdirplus l => exact Sim.map_eqIf (sim_readdirplus r l)
  case releasedir l => exact Sim.map_eqIf (sim_releasedir r l)
  case setxattr l => exact Sim.map_eqIf (sim_setxattr r l)
  case flush k => exact Sim.map_eqIf (sim_flush r k)
  case fsync k => exact Sim.map_eqIf (sim_fsync r k)
  case ioctl k => exact Sim.map_eqIf (sim_ioctl r k)
  case open_ k => exact Sim.map_eqIf (sim_open r k)
  case read v k => exact Sim.map_eqIf (sim_read r v k)
  case release v k => exact Sim.map_eqIf (sim_release r v k)
  case write v k => exact Sim.map_eqIf (sim_write r v k hp)

end Fuse
