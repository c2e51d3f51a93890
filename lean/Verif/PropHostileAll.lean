import Verif.PropTransportMany

/-!
# C84, C86 and C88 exactly: clients that send anything at all

The two kinds of message that C84, C86 and C88 leave out, and what becomes of them.
-/

namespace Fuse
open Spec

/-! ## What is made of a message -/

/-- The messages that no handler survives: BATCH_FORGET that announces `2^28` items or more, if overflow is checked for, or if
the length of the items, in 32 bits, is not more than that of the message. -/
def Spec.Ruinous (checks : Bool) (m : Bytes) : Prop :=
  u32At m 4 = 42 ∧ 48 ≤ u32At m 0 ∧ 2 ^ 28 ≤ u32At m 40 ∧ (checks = true ∨ 48 + u32At m 40 * 16 % 2 ^ 32 ≤ u32At m 0)

instance decidableRuinous (checks : Bool) (m : Bytes) : Decidable (Ruinous checks m) :=
  inferInstanceAs (Decidable (_ ∧ _))

/-- What is made of a SETXATTR with an empty name: the value begins with the end of the name. -/
def Spec.nameless (layout : FuseLayout) (m : Bytes) : Option (Caller × Op) :=
  let bs := argsOf m
  let len := if layout.features &&& 1 = 0 then 8 else 16
  let value := (bs.drop len).take (u32At bs 0)
  if u32At m 4 = 21 ∧ bs[len]? = some 0 ∧ len + u32At bs 0 ≤ bs.length then
    (nodeFrom (nodeOf m)).map fun node =>
      (senderOf m, .setxattr node [] value (.ofNat (u32At bs 4)) (if layout.features &&& 1 = 0 then 0 else .ofNat (u32At bs 8)))
  else none

/-- What the filesystem is asked by a message. -/
def Spec.made (layout : FuseLayout) (m : Bytes) : Option (Caller × Op) :=
  match asked layout m with
  | some x => some x
  | none => nameless layout m

/-- `Dealt`, with what is made of the message. -/
def Spec.DealtAs {S : Type} (act : Caller → Op → S → Ans × S) (layout : FuseLayout) (m : Bytes) (s : S) (out : List Bytes)
    (s' : S) : Prop :=
  match made layout m with
  | some (who, op) =>
    s' = (act who op s).2 ∧ op.hear (.ofNat (u64At m 8)) out = (act who op s).1 ∧
      ((op.kind = .silent ∧ out = []) ∨ ∃ r, out = [r] ∧ u64At r 8 = u64At m 8)
  | none => s' = s ∧ out = refusal layout m

/-- How conversations go.  A message that no handler survives takes the filesystem with it. -/
inductive Spec.Goes {S α : Type} (act : Caller → Op → S → Ans × S) (layout : FuseLayout) (checks : Bool) (n : Nat) :
    Talk α → S → Option α → Option S → Prop
  | done (a s) : Goes act layout checks n (.done a) s (some a) (some s)
  | say {m k s out s' r s''} : m.length ≤ n → Acceptable m → ¬ Ruinous checks m → DealtAs act layout m s out s' →
      Goes act layout checks n (k out) s' r s'' → Goes act layout checks n (.say m k) s r s''
  | ruin {m k s} : m.length ≤ n → Acceptable m → Ruinous checks m → Goes act layout checks n (.say m k) s none none
  | stop {m k s} : ¬ (m.length ≤ n ∧ Acceptable m) → Goes act layout checks n (.say m k) s none (some s)

/-- Operations that messages are made into: those that are sound, and SETXATTR with an empty name. -/
def Spec.Op.Made (ext : Bool) (op : Op) : Prop :=
  op.Sound ext ∨ ∃ node value flags more, op = .setxattr node [] value flags more

/-- What a filesystem relies upon, if it is to be kept whatever messages are made into. -/
def Spec.KeepsAll {S : Type} (act : Caller → Op → S → Ans × S) (ext : Bool) (inv : S → Prop) : Prop :=
  ∀ who op s, inv s → op.Made ext → op.kind.Allows (act who op s).1 ∧ inv (act who op s).2

/-! ## The two kinds of message -/

theorem ruinous_iff {checks : Bool} {m : Bytes} (h : Acceptable m) :
    (∃ f, decodeMessage (.forget checks) m = .error (.fault f)) ↔ Ruinous checks m :=
  (C04_exact _ _).1.trans ⟨fun h => h.2, fun hr => ⟨h, hr⟩⟩

section
variable {layout : FuseLayout} {m : Bytes}

/-- A SETXATTR with an empty name, and the request it is taken for. -/
def TakenFor (layout : FuseLayout) (m : Bytes) (a : ClientReq) : Prop :=
  Acceptable m ∧ u32At m 4 = 21 ∧ nodeOf m ≠ 0 ∧
    ((layout.features &&& 1 ≠ 0 ∧ ∃ (b : FuseSetxattrIn) (value s : Bytes),
        argsOf m = layout_fuse_setxattr_in b ++ value ++ s ∧ b.size.toNat = value.length ∧ (value ++ s).head? = some 0 ∧
        a = .setxattr b [] value) ∨
     (layout.features &&& 1 = 0 ∧ ∃ (b : FuseSetxattrInV7p1) (value s : Bytes),
        argsOf m = layout_fuse_setxattr_in_v7p1 b ++ value ++ s ∧ b.size.toNat = value.length ∧
          (value ++ s).head? = some 0 ∧ a = .setxattrOld b [] value))

theorem takenFor_decodes {a : ClientReq} (h : TakenFor layout m a) :
    ∃ x, decodeMessage (.setxattr layout) m = .ok (.setxattr x) ∧ x.name.bytes = [] ∧
      a.Matches (nodeOf m) false (.setxattr x) := by
  obtain ⟨ha, hop, hid, h⟩ := h
  have hop : (hd m).opcode = 21 := UInt32.toNat_inj.mp (((hdr_fields ha.1).2.1).trans hop)
  have hid : (hd m).nodeid ≠ 0 := by rw [nodeOf_hd ha.1]; exact hid
  rw [← nodeOf_hd ha.1]
  rcases h with ⟨hx, b, value, s, hb, hs, h0, rfl⟩ | ⟨hx, b, value, s, hb, hs, h0, rfl⟩ <;> obtain ⟨r, h0⟩ := head_cons h0
  · obtain ⟨r, _, h1, x, rfl, h2⟩ := run_buf (t := .setxattr layout)
      (Q := fun r _ => ∃ x, r = .setxattr x ∧ x.name.bytes = [] ∧
        (ClientReq.setxattr b [] value).Matches (hd m).nodeid false (.setxattr x)) ha (by
        rw [hb, List.append_assoc, ← enc_fuse_setxattr_in, h0]
        refine Run.map ?_
        unfold decodeSetxattr
        repeat' run_step
        rw [if_pos (setxattr_ext_iff.mpr hx)]
        repeat' run_step
        refine Run.nextCstr_bind_empty (r := r) ?_
        refine Run.ofFault_bind (get_setxattr_old _) ?_
        rw [← h0]
        exact Run.nextBytes_bind hs (by assumption) (Run.pure ⟨_, rfl, rfl, match_setxattr hid _⟩))
    exact ⟨x, h1, h2⟩
  · obtain ⟨r, _, h1, x, rfl, h2⟩ := run_buf (t := .setxattr layout)
      (Q := fun r _ => ∃ x, r = .setxattr x ∧ x.name.bytes = [] ∧
        (ClientReq.setxattrOld b [] value).Matches (hd m).nodeid false (.setxattr x)) ha (by
        rw [hb, List.append_assoc, ← enc_fuse_setxattr_in_v7p1, h0]
        refine Run.map ?_
        unfold decodeSetxattr
        repeat' run_step
        rw [if_neg (fun h => setxattr_ext_iff.mp h hx)]
        repeat' run_step
        refine Run.nextCstr_bind_empty (r := r) ?_
        refine Run.ofFault_bind Versioned.get_self ?_
        rw [← h0]
        exact Run.nextBytes_bind hs (by assumption) (Run.pure ⟨_, rfl, rfl, match_setxattrOld hid _⟩))
    exact ⟨x, h1, h2⟩

theorem drop_then {a b c : Bytes} {n : Nat} (h : a.length = n) : (a ++ b ++ c).drop n = b ++ c := by
  rw [List.append_assoc, List.drop_left' h]

/-- What it is taken for. -/
theorem takenFor_nameless {a : ClientReq} (h : TakenFor layout m a) : ∃ op, nameless layout m = some (senderOf m, op) ∧
    ∀ x, a.Matches (nodeOf m) false (.setxattr x) → (AnyRequest.setxattr x).op = .ok (some op) := by
  obtain ⟨ha, hop, hid, h⟩ := h
  rcases h with ⟨hx, b, value, s, hb, hs, h0, rfl⟩ | ⟨hx, b, value, s, hb, hs, h0, rfl⟩
  · refine ⟨.setxattr ⟨nodeOf m, hid⟩ [] value b.flags b.setxattr_flags, ?_, fun x hm => ?_⟩
    · have h1 : u32At (argsOf m) 0 = value.length := by
        rw [hb, ← hs]
        unfold layout_fuse_setxattr_in
        read_at
      have h2 : UInt32.ofNat (u32At (argsOf m) 4) = b.flags := by
        rw [hb]
        unfold layout_fuse_setxattr_in
        read_at
        exact UInt32.ofNat_toNat
      have h3 : UInt32.ofNat (u32At (argsOf m) 8) = b.setxattr_flags := by
        rw [hb]
        unfold layout_fuse_setxattr_in
        read_at
        exact UInt32.ofNat_toNat
      have h4 : (argsOf m).drop 16 = value ++ s := by rw [hb]; exact drop_then rfl
      unfold nameless
      dsimp only
      rw [if_neg hx, h1, h2, if_neg hx, h3, h4, List.take_left]
      rw [if_pos, nodeFrom, dif_pos hid]
      · rfl
      · refine ⟨hop, ?_, ?_⟩
        · rw [← List.head?_drop, h4]
          exact h0
        · rw [hb, List.length_append, List.length_append]
          show 16 + _ ≤ 16 + _ + _
          omega
    · obtain ⟨h1, h2, h3, h4, h5⟩ := hm
      simp only [AnyRequest.op, IdIs.eq (i := ⟨nodeOf m, hid⟩) h1, h2, h3, h4, h5, bind, Except.bind, pure, Except.pure]
  · refine ⟨.setxattr ⟨nodeOf m, hid⟩ [] value b.flags 0, ?_, fun x hm => ?_⟩
    · have h1 : u32At (argsOf m) 0 = value.length := by
        rw [hb, ← hs]
        unfold layout_fuse_setxattr_in_v7p1
        read_at
      have h2 : UInt32.ofNat (u32At (argsOf m) 4) = b.flags := by
        rw [hb]
        unfold layout_fuse_setxattr_in_v7p1
        read_at
        exact UInt32.ofNat_toNat
      have h4 : (argsOf m).drop 8 = value ++ s := by rw [hb]; exact drop_then rfl
      unfold nameless
      dsimp only
      rw [if_pos hx, h1, h2, if_pos hx, h4, List.take_left]
      rw [if_pos, nodeFrom, dif_pos hid]
      · rfl
      · refine ⟨hop, ?_, ?_⟩
        · rw [← List.head?_drop, h4]
          exact h0
        · rw [hb, List.length_append, List.length_append]
          show 8 + _ ≤ 8 + _ + _
          omega
    · obtain ⟨h1, h2, h3, h4, h5⟩ := hm
      simp only [AnyRequest.op, IdIs.eq (i := ⟨nodeOf m, hid⟩) h1, h2, h3, h4, h5, bind, Except.bind, pure, Except.pure]

theorem parts {T : Type} [Wire T] {bs : Bytes} {k : Nat} (h : Wire.size T + k ≤ bs.length) :
    bs = enc (dec (bs.take (Wire.size T)) : T) ++ (bs.drop (Wire.size T)).take k ++ bs.drop (Wire.size T + k) := by
  rw [Wire.enc_dec _ (by rw [List.length_take]; omega), List.append_assoc, ← List.drop_drop, List.take_append_drop,
    List.take_append_drop]

theorem nameless_takenFor (ha : Acceptable m) {y : Caller × Op} (h : nameless layout m = some y) :
    ∃ a, TakenFor layout m a := by
  unfold nameless at h
  dsimp only at h
  have hc := Decidable.byContradiction fun hc => by rw [if_neg hc] at h; cases h
  rw [if_pos hc] at h
  obtain ⟨h1, h2, h3⟩ := hc
  have hid : nodeOf m ≠ 0 := by
    intro e
    rw [e] at h
    cases h
  clear h
  by_cases hx : layout.features &&& 1 = 0
  · rw [if_pos hx] at h2 h3
    have h4 := parts (T := FuseSetxattrInV7p1) h3
    refine ⟨_, ha, h1, hid, .inr ⟨hx, _, _, _, h4.trans (by rw [enc_fuse_setxattr_in_v7p1]), ?_, ?_, rfl⟩⟩
    · rw [List.length_take, List.length_drop, Nat.min_eq_left (by show _ ≤ _ - 8; omega)]
      conv => rhs; rw [h4, enc_fuse_setxattr_in_v7p1]
      unfold layout_fuse_setxattr_in_v7p1
      read_at
    · rw [← List.drop_drop, List.take_append_drop, List.head?_drop]
      exact h2
  · rw [if_neg hx] at h2 h3
    have h4 := parts (T := FuseSetxattrIn) h3
    refine ⟨_, ha, h1, hid, .inl ⟨hx, _, _, _, h4.trans (by rw [enc_fuse_setxattr_in]), ?_, ?_, rfl⟩⟩
    · rw [List.length_take, List.length_drop, Nat.min_eq_left (by show _ ≤ _ - 16; omega)]
      conv => rhs; rw [h4, enc_fuse_setxattr_in]
      unfold layout_fuse_setxattr_in
      read_at
    · rw [← List.drop_drop, List.take_append_drop, List.head?_drop]
      exact h2

theorem empty_takenFor {q : AnyRequest} (h : decodeMessage (.setxattr layout) m = .ok q) (hx : q.EmptyXattrName) :
    ∃ a, TakenFor layout m a := by
  have ha := decoded_acceptable h
  cases q <;> try exact hx.elim
  rename_i x
  have hx : x.name.bytes = [] := hx
  obtain ⟨h1, h2, h3⟩ := snd_buf h snd_setxattr_empty
  rw [nodeOf_hd ha.1] at h2
  have h1 := ((hdr_fields ha.1).2.1).symm.trans (congrArg UInt32.toNat h1)
  rcases h3 x rfl hx with ⟨hf, b, s, h4, h5, h6⟩ | ⟨hf, b, s, h4, h5, h6⟩
  · exact ⟨_, ha, h1, h2, .inl ⟨hf, b, _, s, h4, h5, h6, rfl⟩⟩
  · exact ⟨_, ha, h1, h2, .inr ⟨hf, b, _, s, h4, h5, h6, rfl⟩⟩

/-- A SETXATTR with an empty name asks for nothing, but is decoded. -/
theorem nameless_asks (ha : Acceptable m) {y : Caller × Op}
    (h : nameless layout m = some y) : asked layout m = none ∧ u32At m 4 = 21 ∧ ∃ op x, y = (senderOf m, op) ∧
      decodeMessage (.setxattr layout) m = .ok (.setxattr x) ∧ x.name.bytes = [] ∧
      (AnyRequest.setxattr x).op = .ok (some op) ∧ ∃ node value flags more, op = .setxattr node [] value flags more := by
  obtain ⟨a, h1⟩ := nameless_takenFor ha h
  obtain ⟨op, h2, h3⟩ := takenFor_nameless h1
  obtain ⟨x, h4, h5, h6⟩ := takenFor_decodes h1
  cases h.symm.trans h2
  refine ⟨?_, h1.2.1, op, x, rfl, h4, h5, h3 x h6, ?_⟩
  · cases hk : asked layout m with
    | none => rfl
    | some z =>
      obtain ⟨who, o⟩ := z
      obtain ⟨t, b, k1, k2, k3, _⟩ := asked_encodes hk
      rw [h1.2.1] at k1
      cases k1
      obtain ⟨q, k4, k5⟩ := C67_decodes_partial k2 k3 (by
        intro ho
        cases b <;> first | exact ho.elim | exact k2.2.1.elim)
      cases h4.symm.trans k4
      cases b <;> try exact k5.elim
      all_goals exact absurd (k5.2.1.symm.trans h5) k3
  · have := h3 x h6
    obtain ⟨_, _, hid, h⟩ := h1
    unfold nameless at h2
    dsimp only at h2
    split at h2
    all_goals
      split at h2
      · rw [nodeFrom, dif_pos hid] at h2
        cases h2
        exact ⟨_, _, _, _, rfl⟩
      · cases h2

end

/-! ## One message -/

section
variable {S α : Type} (srv : RpcServer S)

/-- Whatever is sent is dealt with as what is made of it, if a handler survives it. -/
theorem guard_handles_all {ω ε : Type} (sock : Socket (Option S × ω) ε) (put : Bytes → ω → ω)
    (hput : ∀ {b : SendBuf} {msg : Bytes}, Carries b msg → ∀ w, sock.send b w = (.ok (), (w.1, put msg w.2)))
    (haddr : ∀ op, srv.addr op % 8 = 0) (h12 : 12 ≤ srv.layout.versionMinor) {m : Bytes} (hacc : Acceptable m)
    (hv : ¬ Ruinous srv.checks m) (s : S)
    (hans : ∀ who op, made srv.layout m = some (who, op) → op.kind.Allows (srv.act who op s).1) (w : ω) :
    ∃ out s', fuseHandle (srv.guards sock) m (some s, w) = (some s', out.foldl (fun w m => put m w) w) ∧
      DealtAs srv.act srv.layout m s out s' ∧ out.length ≤ 1 := by
  cases hn : nameless srv.layout m with
  | none =>
    have hmade : made srv.layout m = asked srv.layout m := by
      unfold made
      rw [hn]
      cases asked srv.layout m <;> rfl
    unfold DealtAs
    rw [hmade]
    rw [hmade] at hans
    refine guard_handles_if srv sock put hput haddr h12 hacc (fun meth t hm hr => ⟨fun f hq => ?_, fun q hq hx => ?_⟩) s hans w
    · obtain ⟨hacc, hf⟩ := (C04_exact t m).1.mp ⟨f, hq⟩
      cases t with
      | forget c =>
        refine hv ?_
        have : c = srv.checks := by
          cases meth <;> cases hr <;> rfl
        exact this ▸ hf
      | write v c =>
        have : v = srv.layout.minor := by
          cases meth <;> cases hr <;> rfl
        subst this
        have := UInt32.lt_iff_toNat_lt.mp hf.1
        rw [FuseLayout.minor, UInt16.toNat_toUInt32] at this
        have : srv.layout.versionMinor.toNat < 9 := this
        have h12 : 12 ≤ srv.layout.versionMinor.toNat := UInt16.le_iff_toNat_le.mp h12
        omega
      | _ => exact hf.elim
    · have ht : t = .setxattr srv.layout := by
        cases q <;> try exact hx.elim
        rcases (C67_exact _ m).2 _ hq with ⟨a, ha, hm⟩ | ⟨y, hy, hn, he⟩
        · obtain ⟨_, h2, _⟩ := ha
          cases a <;> try exact hm.elim
          all_goals cases t <;> try exact h2.elim
          all_goals cases meth <;> cases hr <;> rfl
        · obtain ⟨_, _, _, l, rfl, _⟩ := he
          cases meth <;> cases hr <;> rfl
      subst ht
      obtain ⟨a, ha⟩ := empty_takenFor hq hx
      obtain ⟨op, h1, _⟩ := takenFor_nameless ha
      rw [hn] at h1
      cases h1
  | some y =>
    obtain ⟨h1, h2, op, x, rfl, h3, _, h4, _⟩ := nameless_asks hacc hn
    have hmade : made srv.layout m = some (senderOf m, op) := by
      unfold made
      rw [h1]
      exact hn
    have hhandle : fuseHandle (srv.guards sock) m (some s, w) = srv.answer sock (.setxattr srv.layout) ⟨m⟩ s w := by
      unfold fuseHandle
      rw [h2]
      show srv.guarded sock _ (.setxattr srv.layout) ⟨m⟩ s w = _
      unfold RpcServer.guarded
      rw [decode_accepted hacc, h3]
    obtain ⟨id, hdr, i1, i2, i3⟩ := acceptable_sender hacc
    have hal := hans _ _ hmade
    rw [← i2] at hal
    obtain ⟨out, e1, e2, e3⟩ := reply_runs sock put hput h12 (os := srv.os) (haddr op) (id := id) hal
      (s' := (srv.act ⟨hdr.uid, hdr.gid, hdr.pid⟩ op s).2) (w := w)
    rw [hhandle, answer_eq srv i3 ((decode_accepted hacc _).trans h3) h4 rfl]
    refine ⟨out, _, e1, ?_, ?_⟩
    · unfold DealtAs
      rw [hmade]
      refine ⟨by rw [← i2], by rw [← i1, ← i2]; exact e2, ?_⟩
      rcases e3 with ⟨k1, k2⟩ | ⟨_, r, k1, k2⟩
      · exact .inl ⟨k1, k2⟩
      · refine .inr ⟨r, k1, k2.trans ?_⟩
        rw [i1]
        exact UInt64.toNat_ofNat_of_lt' (u64At_lt _ _)
    · rcases e3 with ⟨_, rfl⟩ | ⟨_, r, rfl, _⟩
      · exact Nat.zero_le 1
      · exact Nat.le_refl 1

/-- What no handler survives. -/
theorem ruin_handles {ω ε : Type} (sock : Socket (Option S × ω) ε) {m : Bytes} (hacc : Acceptable m)
    (hr : Ruinous srv.checks m) (s : S) (w : ω) : fuseHandle (srv.guards sock) m (some s, w) = (none, w) := by
  obtain ⟨f, hf⟩ := (ruinous_iff hacc).mpr hr
  unfold fuseHandle
  rw [hr.1]
  show srv.guarded sock _ (.forget srv.checks) ⟨m⟩ s w = _
  unfold RpcServer.guarded
  rw [decode_accepted hacc, hf]
  show srv.answer sock (.forget srv.checks) ⟨m⟩ s w = _
  unfold RpcServer.answer
  rw [decode_accepted hacc, hf]
  rcases Filesystem.idAndHeader ⟨m⟩ with _ | _ <;> rfl

/-- Nothing is done once the filesystem is lost. -/
theorem lost_handles {ω ε : Type} (sock : Socket (Option S × ω) ε) (m : Bytes) (w : ω) :
    fuseHandle (srv.guards sock) m (none, w) = (none, w) := by
  unfold fuseHandle
  cases fuseMethodAt (u32At m 4) with
  | none => rfl
  | some meth =>
    unfold RpcServer.guards
    dsimp only
    cases meth.reqType srv.layout srv.checks with
    | none =>
      dsimp only [Option.map]
      split <;> rfl
    | some t => rfl

/-! ## Conversations -/

theorem lost_serves {β : Type} (talk : Talk β) : ∀ (buf : Bytes) (heard : List Bytes) (k : List Bytes → Talk β), k heard = talk →
    ∃ out heard' k', FuseServes (Wired.socket (Option S) β) (srv.guards (Wired.socket (Option S) β)) buf (none, heard, k)
      (out, (none, heard', k')) := by
  induction talk with
  | done a =>
    intro buf heard k hk
    refine ⟨.ok (), heard, k, .of_step ?_⟩
    have hr : (Wired.socket (Option S) β).recv buf (none, heard, k) =
        ((.error (.connectionClosed ()), buf), (none, heard, k)) := by
      show (match k heard with | .done _ => _ | .say m k => _) = _
      rw [hk]
    simp only [fuseServeStep, fuseRecv, hr]
  | say m f ih =>
    intro buf heard k hk
    by_cases hl : m.length ≤ buf.length
    · have hr := mount_recv (content := (none : Option S)) hk hl
      have htake : (m ++ buf.drop m.length).take m.length = m := List.take_left
      by_cases hacc : Acceptable m
      · have hstep := fuse_serve_more (Wired.socket (Option S) β) (srv.guards (Wired.socket (Option S) β)) hr
          (by rw [htake]; exact hacc)
        rw [htake, lost_handles] at hstep
        obtain ⟨o, heard', k', h⟩ := ih [] (m ++ buf.drop m.length) [] f rfl
        exact ⟨o, heard', k', .of_next hstep h⟩
      · obtain ⟨o, e1, e2⟩ := fuse_serve_stop (Wired.socket (Option S) β) (srv.guards (Wired.socket (Option S) β)) hr
          (by rintro n ⟨⟩; rw [htake]; exact hacc)
        exact ⟨o, [], _, .of_step e2⟩
    · have hr : (Wired.socket (Option S) β).recv buf (none, heard, k) =
          ((.error (.other ()), buf), (none, heard, k)) := by
        show (match k heard with | .done _ => _ | .say m k => _) = _
        rw [hk]
        exact if_neg hl
      obtain ⟨o, e1, e2⟩ := fuse_serve_stop (Wired.socket (Option S) β) (srv.guards (Wired.socket (Option S) β)) hr
        (fun n h => nomatch h)
      exact ⟨o, heard, k, .of_step e2⟩

theorem made_sound {layout : FuseLayout} (h12 : 12 ≤ layout.versionMinor) {ext : Bool}
    (hext : ext = true ↔ layout.features &&& 1 ≠ 0) {m : Bytes} (hacc : Acceptable m) {who : Caller} {op : Op}
    (h : made layout m = some (who, op)) : op.Made ext := by
  unfold made at h
  split at h
  · rename_i x hx
    cases h
    exact .inl (asked_sound h12 hext hx)
  · obtain ⟨_, _, op', _, h1, _, _, _, h2⟩ := nameless_asks hacc h
    cases h1
    exact .inr h2

theorem goes_serves (haddr : ∀ op, srv.addr op % 8 = 0) (h12 : 12 ≤ srv.layout.versionMinor) {ext : Bool}
    (hext : ext = true ↔ srv.layout.features &&& 1 ≠ 0) {inv : S → Prop} (hinv : KeepsAll srv.act ext inv) {β : Type}
    (g : α → β) (talk : Talk α) :
      ∀ (s : S) (buf : Bytes), inv s → ∀ (heard : List Bytes) (k : List Bytes → Talk β),
        k heard = (do let r ← talk; return g r) →
        ∃ r s' out heard' k', Goes srv.act srv.layout srv.checks buf.length talk s r s' ∧ (∀ x, s' = some x → inv x) ∧
          FuseServes (Wired.socket (Option S) β) (srv.guards (Wired.socket (Option S) β)) buf (some s, heard, k)
            (out, (s', heard', k')) ∧
          match r, s' with
          | some a, _ => out = .ok () ∧ k' heard' = .done (g a)
          | none, some _ => ∃ e, out = .err e
          | none, none => True := by
  induction talk with
  | done a =>
    intro s buf hs heard k hk
    have hk : k heard = .done (g a) := hk
    refine ⟨some a, some s, .ok (), heard, k, .done a s, fun x e => by cases e; exact hs, .of_step ?_, rfl, hk⟩
    have hr : (Wired.socket (Option S) β).recv buf (some s, heard, k) =
        ((.error (.connectionClosed ()), buf), (some s, heard, k)) := by
      show (match k heard with | .done _ => _ | .say m k => _) = _
      rw [hk]
    simp only [fuseServeStep, fuseRecv, hr]
  | say m f ih =>
    intro s buf hs heard k hk
    have hk : k heard = .say m (fun out => do let r ← f out; return g r) := hk
    by_cases hl : m.length ≤ buf.length
    · have hr := mount_recv (content := some s) hk hl
      have htake : (m ++ buf.drop m.length).take m.length = m := List.take_left
      by_cases hacc : Acceptable m
      · have hstep := fuse_serve_more (Wired.socket (Option S) β) (srv.guards (Wired.socket (Option S) β)) hr
          (by rw [htake]; exact hacc)
        by_cases hv : Ruinous srv.checks m
        · rw [htake, ruin_handles srv _ hacc hv] at hstep
          obtain ⟨o, heard', k', h⟩ := lost_serves srv (do let r ← f []; return g r) (m ++ buf.drop m.length) []
            (fun out => do let r ← f out; return g r) rfl
          exact ⟨none, none, o, heard', k', .ruin hl hacc hv, nofun, .of_next hstep h, trivial⟩
        obtain ⟨out, s1, e1, e2, e3⟩ := guard_handles_all srv (Wired.socket (Option S) β) (fun m w => (w.1 ++ [m], w.2))
          (fun hb w => mount_send hb w) haddr h12 hacc hv s (fun who op ha => (hinv who op s hs (made_sound h12 hext hacc ha)).1)
          ([], fun out => do let r ← f out; return g r)
        have hs1 : inv s1 := by
          unfold DealtAs at e2
          split at e2
          · rename_i who op ha
            rw [e2.1]
            exact (hinv who op s hs (made_sound h12 hext hacc ha)).2
          · rw [e2.1]
            exact hs
        have hlen : (m ++ buf.drop m.length).length = buf.length := by
          rw [List.length_append, List.length_drop]
          omega
        have hfold : out.foldl (fun (w : List Bytes × (List Bytes → Talk β)) m => (w.1 ++ [m], w.2))
            ([], fun out => do let r ← f out; return g r) = (out, fun out => do let r ← f out; return g r) := by
          rcases out with _ | ⟨m, _ | ⟨m', l⟩⟩
          · rfl
          · rfl
          · exact absurd e3 (by simp only [List.length_cons]; omega)
        rw [hfold] at e1
        rw [htake, e1] at hstep
        obtain ⟨r, s2, o, heard', k', i1, i2, i3, i4⟩ := ih out s1 (m ++ buf.drop m.length) hs1 out
          (fun out => do let r ← f out; return g r) rfl
        rw [hlen] at i1
        exact ⟨r, s2, o, heard', k', .say hl hacc hv e2 i1, i2, .of_next hstep i3, i4⟩
      · obtain ⟨o, e1, e2⟩ := fuse_serve_stop (Wired.socket (Option S) β) (srv.guards (Wired.socket (Option S) β)) hr
          (by rintro n ⟨⟩; rw [htake]; exact hacc)
        refine ⟨none, some s, o, [], _, .stop (fun h => hacc h.2), fun x e => by cases e; exact hs, .of_step e2, ?_⟩
        cases e1 <;> exact ⟨_, rfl⟩
    · have hr : (Wired.socket (Option S) β).recv buf (some s, heard, k) =
          ((.error (.other ()), buf), (some s, heard, k)) := by
        show (match k heard with | .done _ => _ | .say m k => _) = _
        rw [hk]
        exact if_neg hl
      obtain ⟨o, e1, e2⟩ := fuse_serve_stop (Wired.socket (Option S) β) (srv.guards (Wired.socket (Option S) β)) hr
        (fun n h => nomatch h)
      refine ⟨none, some s, o, heard, k, .stop (fun h => hl h.1), fun x e => by cases e; exact hs, .of_step e2, ?_⟩
      cases e1
      exact ⟨_, rfl⟩

end

/-! ## The properties -/

/-- **C84** exactly: whatever a client sends, it brings about what is made of its messages, and nothing else.  That is what it
asks for, but for SETXATTR with an empty name, which is taken for another; and a BATCH_FORGET that no handler survives ends
everything. -/
theorem C84_exact {S α : Type} (srv : RpcServer S) (haddr : ∀ op, srv.addr op % 8 = 0) (h12 : 12 ≤ srv.layout.versionMinor)
    (ext : Bool) (hext : ext = true ↔ srv.layout.features &&& 1 ≠ 0) (inv : S → Prop) (hinv : KeepsAll srv.act ext inv)
    (talk : Talk α) (s : S) (buf : Bytes) (hs : inv s) :
    ∃ r s' out heard k, Goes srv.act srv.layout srv.checks buf.length talk s r s' ∧ (∀ x, s' = some x → inv x) ∧
      FuseServes (Wired.socket (Option S) α) (srv.guards (Wired.socket (Option S) α)) buf (some s, [], fun _ => talk)
        (out, (s', heard, k)) ∧
      match r, s' with
      | some a, _ => out = .ok () ∧ k heard = .done a
      | none, some _ => ∃ e, out = .err e
      | none, none => True :=
  goes_serves srv haddr h12 hext hinv id talk s buf hs [] (fun _ => talk) (bind_done _).symm

/-- What is made of a message is what it asks for, if it is none of the two; and then it does not ruin anything. -/
theorem C84_made {layout : FuseLayout} {m : Bytes} (h : ¬ Vicious layout m) :
    made layout m = asked layout m ∧ ∀ checks, ¬ Ruinous checks m := by
  refine ⟨?_, fun checks hr => h (.inl ⟨hr.1, hr.2.2.1⟩)⟩
  unfold made
  cases asked layout m with
  | some x => rfl
  | none =>
    dsimp only
    unfold nameless
    dsimp only
    rw [if_neg]
    rintro ⟨h1, h2, _⟩
    exact h (.inr ⟨h1, h2⟩)

/-! ## Threads -/

namespace Many

theorem renumber_nameless {id : UInt64} {m : Bytes} (h : Acceptable m) (layout : FuseLayout) :
    nameless layout (renumber id m) = nameless layout m := by
  have h16 : 16 ≤ m.length := Nat.le_trans (by decide) h.1
  unfold nameless
  rw [renumber_head h16 (by omega), renumber_args h16, renumber_node h16, renumber_sender h16]

theorem renumber_made {id : UInt64} (hid : id ≠ 0) {m : Bytes} (h : Acceptable m) (layout : FuseLayout) :
    made layout (renumber id m) = made layout m := by
  unfold made
  rw [renumber_asked hid h, renumber_nameless h]

theorem renumber_ruinous {id : UInt64} {m : Bytes} (h : Acceptable m) (checks : Bool) :
    Ruinous checks (renumber id m) ↔ Ruinous checks m := by
  have h16 : 16 ≤ m.length := Nat.le_trans (by decide) h.1
  unfold Ruinous
  rw [renumber_head h16 (by omega), renumber_head h16 (by omega), renumber_u32 h16 (by omega)]

theorem all_fuse_faithful {S : Type} (srv : RpcServer S) (haddr : ∀ op, srv.addr op % 8 = 0)
    (h12 : 12 ≤ srv.layout.versionMinor) {ext : Bool} (hext : ext = true ↔ srv.layout.features &&& 1 ≠ 0) {inv : S → Prop}
    (hinv : KeepsAll srv.act ext inv) (n : Nat) :
    Faithful (guardedThreads srv) (anyWire (made srv.layout) Op.kind (fuseNo srv.layout))
      (anyAct (made srv.layout) (fuseNo srv.layout) srv.act) (fun m => AnyOk n m ∧ ¬ Ruinous srv.checks m)
      (AnyAllows (made srv.layout) Op.kind) inv n false := by
  refine any_faithful (fun m hm => hm.1) ?_ (fun h1 h2 => net_recv h1 h2) (fun _ _ _ => rfl) ?_
  · intro m who op s hm ha hs
    exact hinv who op s hs (made_sound h12 hext hm.1.2 ha)
  · intro id m s hid hm hs net
    have h16 : 16 ≤ m.length := Nat.le_trans (by decide) hm.1.2.1
    have hacc := renumber_acceptable hid hm.1.2
    obtain ⟨out, s', e1, e2, _⟩ := guard_handles_all srv (Net.socket S) (fun m w => { w with replies := w.replies ++ [m] })
      (fun hb w => net_send hb w) haddr h12 hacc (fun h => hm.2 ((renumber_ruinous hm.1.2 _).mp h)) s
      (fun who op ha => (hinv who op s hs (made_sound h12 hext hacc ha)).1) net
    rw [foldl_replies] at e1
    refine ⟨out, s', (C25_fuse (srv.guards (Net.socket S)) _ _ (acceptable_new hacc) (some s, net)).trans
      (congrArg Except.ok e1), ?_⟩
    unfold DealtAs at e2
    rw [renumber_made hid hm.1.2, renumber_id h16, UInt64.ofNat_toNat] at e2
    cases ha : made srv.layout m with
    | none =>
      rw [ha] at e2
      obtain ⟨e3, e4⟩ := e2
      refine ⟨e3, e4.trans ?_⟩
      unfold refusal fuseNo
      rw [renumber_head h16 (by omega), renumber_id h16, UInt64.ofNat_toNat]
      split
      · rfl
      · split <;> rfl
    | some x =>
      rw [ha] at e2
      exact e2

end Many

section
open Many

/-- **C86** for filesystems, exactly: what is made of the messages takes place, one thing at a time, whatever programs send but
a BATCH_FORGET that no handler survives; see C86_ruin. -/
theorem C86_exact {S : Type} (srv : RpcServer S) (haddr : ∀ op, srv.addr op % 8 = 0) (h12 : 12 ≤ srv.layout.versionMinor)
    (ext : Bool) (hext : ext = true ↔ srv.layout.features &&& 1 ≠ 0) (inv : S → Prop) (hinv : KeepsAll srv.act ext inv)
    (n : Nat) :
    Atomic (guardedThreads srv) (anyWire (made srv.layout) Op.kind (fuseNo srv.layout))
      (anyAct (made srv.layout) (fuseNo srv.layout) srv.act) (fun m => AnyOk n m ∧ ¬ Ruinous srv.checks m)
      (AnyAllows (made srv.layout) Op.kind) inv n false ∧
    Kept (guardedThreads srv) (anyWire (made srv.layout) Op.kind (fuseNo srv.layout))
      (fun m => AnyOk n m ∧ ¬ Ruinous srv.checks m) (AnyAllows (made srv.layout) Op.kind) inv n ∧
    Ordered (guardedThreads srv) (anyWire (made srv.layout) Op.kind (fuseNo srv.layout))
      (fun m => AnyOk n m ∧ ¬ Ruinous srv.checks m) (AnyAllows (made srv.layout) Op.kind) inv n (made srv.layout) srv.act := by
  have hf := all_fuse_faithful srv haddr h12 hext hinv n
  exact ⟨hf.atomic, hf.kept, hf.ordered⟩

/-- C86: a message that no handler survives leaves nothing to serve, whichever number it is given, and no reply; and there is
nothing after it either, whatever it is. -/
theorem C86_ruin {S : Type} (srv : RpcServer S) {m : Bytes} (hacc : Acceptable m) (id : UInt64) (hid : id ≠ 0) (net : Net) :
    (Ruinous srv.checks m → ∀ s, (guardedThreads srv).dispatch ⟨renumber id m⟩ (some s, net) = .ok (none, net)) ∧
    (guardedThreads srv).dispatch ⟨renumber id m⟩ (none, net) = .ok (none, net) := by
  have hacc' := renumber_acceptable hid hacc
  refine ⟨fun hr s => ?_, ?_⟩
  · exact (C25_fuse (srv.guards (Net.socket S)) _ _ (acceptable_new hacc') (some s, net)).trans
      (congrArg Except.ok (ruin_handles srv _ hacc' ((renumber_ruinous hacc _).mpr hr) s net))
  · exact (C25_fuse (srv.guards (Net.socket S)) _ _ (acceptable_new hacc') (none, net)).trans
      (congrArg Except.ok (lost_handles srv _ _ net))

/-- **C88** for filesystems and programs that send anything, exactly; see C86_exact. -/
theorem C88_confined_exact {S δ ε : Type} {sock : Socket δ ε}
    {attempt : Bytes × δ → ((Except (RecvError ε) Nat × Bytes) × δ) ⊕ (Bytes × δ)} {ends : RecvError ε} {p : Peer δ Net}
    (hd : OnCalls netLine sock attempt ends p true) (srv : RpcServer S)
    (haddr : ∀ op, srv.addr op % 8 = 0) (h12 : 12 ≤ srv.layout.versionMinor) (ext : Bool)
    (hext : ext = true ↔ srv.layout.features &&& 1 ≠ 0) (inv : S → Prop) (hinv : KeepsAll srv.act ext inv) (n : Nat) :
    AtomicOn (fuseOn attempt (srv.guards (sock.beside (Option S)))) ends p
      (anyWire (made srv.layout) Op.kind (fuseNo srv.layout)) (anyAct (made srv.layout) (fuseNo srv.layout) srv.act)
      (fun m => AnyOk n m ∧ ¬ Ruinous srv.checks m) (AnyAllows (made srv.layout) Op.kind) inv n false ∧
    KeptOn (fuseOn attempt (srv.guards (sock.beside (Option S)))) ends p
      (anyWire (made srv.layout) Op.kind (fuseNo srv.layout)) (fun m => AnyOk n m ∧ ¬ Ruinous srv.checks m)
      (AnyAllows (made srv.layout) Op.kind) inv n ∧
    OrderedOn (fuseOn attempt (srv.guards (sock.beside (Option S)))) ends p
      (anyWire (made srv.layout) Op.kind (fuseNo srv.layout)) (fun m => AnyOk n m ∧ ¬ Ruinous srv.checks m)
      (AnyAllows (made srv.layout) Op.kind) inv n (made srv.layout) srv.act := by
  obtain ⟨h1, h2, h3⟩ := C86_exact srv haddr h12 ext hext inv hinv n
  have ht := fuse_twin hd (guards_mirror (line_mirrors (on_calls_line hd) net_line) srv)
  exact ⟨h1.mounted ht, kept_mounted h2 ht, ordered_mounted h3 ht⟩

/-! ## Concrete cases -/

namespace HostileAll

/-- Relies upon having been asked nothing that messages cannot be made into. -/
def Fair (ext : Bool) (past : List (Caller × Op)) : Prop := ∀ x ∈ past, x.2.Made ext

theorem note_keeps_all (ext : Bool) : KeepsAll Hostile.note ext (Fair ext) := by
  intro who op s hs hok
  refine ⟨Hostile.note_allowed _, fun x hx => ?_⟩
  rcases List.mem_append.mp hx with hx | hx
  · exact hs x hx
  · cases List.mem_singleton.mp hx
    exact hok

/-- MKDIR, and SETXATTR with an empty name and with a value that is cut off. -/
def mixed : List Bytes :=
  [Hostile.raw 9 17 1 ([1, 0, 0, 0, 2, 0, 0, 0] ++ [0x64, 0] ++ [1, 2, 3]), Hostile.nameless,
    Hostile.raw 21 18 1 ([5, 0, 0, 0, 0, 0, 0, 0] ++ [0, 0x61, 0x62, 0x63])]

def two : List (Caller × Op) :=
  [(⟨5, 6, 7⟩, .mkdir ⟨1, by decide⟩ [0x64] 1 2), (⟨5, 6, 7⟩, .setxattr ⟨1, by decide⟩ [] [0, 0x61, 0x62] 0 0)]

/-- What is made of them, and what they ask for. -/
example : mixed.filterMap (made ⟨31, 0⟩) = two ∧ mixed.filterMap (asked ⟨31, 0⟩) = two.take 1 ∧
    mixed.map (Vicious ⟨31, 0⟩ ·) = [False, True, True] ∧ ∀ m ∈ mixed, ¬ Ruinous true m := by
  refine ⟨by decide +kernel, by decide +kernel, ?_, by decide +kernel⟩
  simp only [mixed, List.map_cons, List.map_nil, List.cons.injEq, and_true, eq_iff_iff, iff_true, iff_false]
  decide +kernel

/-- The message of C04 is one that no handler survives, with and without checks for overflow; one that announces fewer items is
none. -/
example : Ruinous true hugeForget ∧ Ruinous false hugeForget ∧
    ¬ Ruinous true (Hostile.raw 42 9 0 [0xFF, 0xFF, 0xFF, 0x0F, 0, 0, 0, 0]) := by decide +kernel

/-- With checks only: the items, in 32 bits, are 16 bytes, which is more than there is. -/
example : Ruinous true (Hostile.raw 42 9 0 [1, 0, 0, 0x10, 0, 0, 0, 0]) ∧
    ¬ Ruinous false (Hostile.raw 42 9 0 [1, 0, 0, 0x10, 0, 0, 0, 0]) := by decide +kernel

/-- By running the model. -/
example : Hostile.outcome Hostile.server 8 200 (Hostile.sends mixed []) [] =
    some (some [[frame 17 (-2) []], [frame 9 (-2) []], [frame 18 (-5) []]], none, some two) := by decide +kernel

example : Hostile.outcome Hostile.server 8 200 (Hostile.sends (mixed ++ [hugeForget] ++ mixed) []) [] =
    some (some [[frame 17 (-2) []], [frame 9 (-2) []], [frame 18 (-5) []], [], [], [], []], none, none) := by decide +kernel

/-- C84_exact for them. -/
example : ∃ r s' out heard k, Goes Hostile.note ⟨31, 0⟩ true 200 (Hostile.sends mixed []) [] r s' ∧
    (∀ x, s' = some x → Fair false x) ∧
    FuseServes (Wired.socket (Option _) _) (Hostile.server.guards (Wired.socket (Option _) _)) (List.replicate 200 0)
      (some [], [], fun _ => Hostile.sends mixed []) (out, (s', heard, k)) := by
  have h := C84_exact Hostile.server (fun _ => (by decide : 0x1000 % 8 = 0)) (by decide) false (by decide) _ (note_keeps_all false)
    (Hostile.sends mixed []) [] (List.replicate 200 0) (fun _ h => nomatch h)
  rw [List.length_replicate] at h
  obtain ⟨r, s', o, hd, k, h1, h2, h3, _⟩ := h
  exact ⟨r, s', o, hd, k, h1, h2, h3⟩

/-- C86_exact for all runs with two programs that send them. -/
example {es : List (Many.Visible Bytes Ans Empty)} {q : Many.Threaded (List (Caller × Op)) Bytes Ans (List Ans)}
    (h : Many.Threaded.Run (guardedThreads Hostile.server) (anyWire (made ⟨31, 0⟩) Op.kind (fuseNo ⟨31, 0⟩))
      (.start [] [List.replicate 100 0, List.replicate 100 0] [HostileMany.sender mixed [], HostileMany.sender mixed []]) es q) :
    (∃ past, q.state = some past ∧ Fair false past) ∧
    (q.pool.Returned → ∃ l : List (Caller × Op), l.Perm ((Many.Visible.calls es).filterMap (made ⟨31, 0⟩)) ∧
      q.state = some (l.foldl (fun s x => (Hostile.note x.1 x.2 s).2) [])) := by
  have hu : ∀ u ∈ [HostileMany.sender mixed [], HostileMany.sender mixed []],
      u.Asks (fun m => AnyOk 100 m ∧ ¬ Ruinous true m) (AnyAllows (made ⟨31, 0⟩) Op.kind) := by
    intro u hu
    simp only [List.mem_cons, List.not_mem_nil, or_false] at hu
    rcases hu with rfl | rfl <;> exact HostileMany.sender_asks (by decide +kernel) []
  have hat := C86_exact Hostile.server (fun _ => (by decide : 0x1000 % 8 = 0)) (by decide) false (by decide) _
    (note_keeps_all false) 100
  exact ⟨hat.2.1 (s := []) (fun _ h => nomatch h) hu (by decide) h,
    hat.2.2 (s := []) (fun _ h => nomatch h) hu (by decide) (by simp) h⟩

open TransportMany in
/-- C88_confined_exact: the same programs, with `fuse-libc` and system calls that are interrupted. -/
example : ∃ sock : Socket (Libc.Thread TransportMany.Noisy) Libc.LibcError, OnLibc sys ⟨3, true⟩ sock ∧
    let svc := fuseOn (Libc.recvStep sys ⟨3, true⟩) (Hostile.server.guards (sock.beside _))
    let start : Many.Mounted _ _ Libc.LibcError Bytes Ans (List Ans) :=
      .start [] ⟨⟨⟨[], []⟩, [true, true, false, true]⟩, 0⟩ [List.replicate 100 0, List.replicate 100 0]
        [HostileMany.sender mixed [], HostileMany.sender mixed []]
    let run := Many.Mounted.Run svc (DeviceSocket.ends ⟨3, true⟩ ⟨Libc.cInt ENODEV⟩) (peer.through Libc.Thread.sys)
      (anyWire (made ⟨31, 0⟩) Op.kind (fuseNo ⟨31, 0⟩)) start
    (∃ es m, run es m ∧ (∀ t ∈ m.clients, t.Ended) ∧ m.pool.Returned) ∧
    ∀ es m, run es m → (∃ past, m.state = some past ∧ Fair false past) ∧
      (m.pool.Returned → ∃ l : List (Caller × Op), l.Perm ((Many.Visible.calls es).filterMap (made ⟨31, 0⟩)) ∧
        m.state = some (l.foldl (fun s x => (Hostile.note x.1 x.2 s).2) [])) := by
  have hu : ∀ u ∈ [HostileMany.sender mixed [], HostileMany.sender mixed []],
      u.Asks (fun m => AnyOk 100 m ∧ ¬ Ruinous true m) (AnyAllows (made ⟨31, 0⟩) Op.kind) := by
    intro u hu
    simp only [List.mem_cons, List.not_mem_nil, or_false] at hu
    rcases hu with rfl | rfl <;> exact HostileMany.sender_asks (by decide +kernel) []
  obtain ⟨sock, hs⟩ := libc_talk_socket (s := ⟨3, true⟩) (device 3)
  refine ⟨sock, hs, ?_⟩
  obtain ⟨h1, h2, h3⟩ := C88_confined_exact (.libc (s := ⟨3, true⟩) (device 3) hs) Hostile.server
    (fun _ => (by decide : 0x1000 % 8 = 0)) (by decide) false (by decide) _ (note_keeps_all false) 100
  exact ⟨h1.complete (s := []) (fun net => ⟨⟨⟨net, []⟩, 0⟩, rfl⟩) (fun _ h => nomatch h) rfl hu (by decide) (by simp)
    (by decide), fun es m hr => ⟨h2 (s := []) (fun _ h => nomatch h) rfl hu (by decide) hr,
      h3 (s := []) (fun _ h => nomatch h) rfl hu (by decide) (by simp) hr⟩⟩

/-- C86_ruin for the message of C04. -/
example (s : List (Caller × Op)) (net : Net) :
    (guardedThreads Hostile.server).dispatch ⟨renumber 77 hugeForget⟩ (some s, net) = .ok (none, net) :=
  (C86_ruin Hostile.server (by decide) 77 (by decide) net).1 (by decide) s

end HostileAll

end

end Fuse
