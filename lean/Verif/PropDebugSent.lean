import Verif.PropDebugResp

/-!
# C72: the `Debug` text of a response tells what is sent

Every type of a response, notification, or part of one that a server makes through the library's interface has a
`Debug` implementation.  The texts of two such values are compared here; whatever they are followed by, they are the
same only if the bytes sent are the same.  There are two exceptions.  The text of a response to INIT leaves out the
version, and the text of an entry leaves out the entry's own node ID, which differs from the one shown among the
attributes if a server has assigned the attributes of another node (C71).
-/

namespace Fuse

open Spec

/-! ## Each type -/

theorem CreateResponse.Built.entry_built {r : CreateResponse} (h : r.Built) : r.entry.Built ∧ r.openOut.padding = 0 := by
  induction h with
  | new h => exact ⟨h, rfl⟩
  | handle x _ ih => exact ih
  | flags x _ ih => exact ih
  | entry e _ he ih => exact ⟨he, ih.2⟩

theorem CreateResponse.Built.debug_ok {r : CreateResponse} (h : r.Built) : ∃ d, r.debug = .ok d := by
  obtain ⟨d, hd⟩ := h.entry_built.1.sound.debug_ok
  unfold CreateResponse.debug
  rw [hd]
  exact ⟨_, rfl⟩

theorem CreateResponse.debug_fine {r : CreateResponse} {d : Dbg} (h : r.debug = .ok d) : d.Fine := by
  unfold CreateResponse.debug at h
  obtain ⟨da, h1, h⟩ := bind_ok_elim h
  have := Entry.debug_fine h1
  rw [← pure_ok_elim h]
  open Dbg in fine_fields

theorem CreateResponse.debug_inj {a b : CreateResponse} {d : Dbg} (ha : a.Built) (hb : b.Built) (h : a.debug = .ok d)
    (h' : b.debug = .ok d) : a = b := by
  unfold CreateResponse.debug at h h'
  obtain ⟨da, h1, h⟩ := bind_ok_elim h
  obtain ⟨da', h1', h'⟩ := bind_ok_elim h'
  obtain ⟨rfl, e1, e2⟩ := fields3 ((pure_ok_elim h).trans (pure_ok_elim h').symm)
  have e0 := Entry.debug_inj ha.entry_built.1.sound hb.entry_built.1.sound h1 h1'
  have e1 := Dbg.u64_inj.1 e1
  have e2 := (Dbg.flags32_inj (t := .createResponse) rfl).1 e2
  have e3 := ha.entry_built.2.trans hb.entry_built.2.symm
  clear h h' h1 h1' ha hb
  obtain ⟨_, ⟨⟩⟩ := a
  obtain ⟨_, ⟨⟩⟩ := b
  simp only [CreateResponse.mk.injEq, FuseOpenOut.mk.injEq]
  exact ⟨e0, e1, e2, e3⟩

/-- The two halves of the flags can be told apart. -/
theorem flagHalves_inj {a b a' b' : UInt32}
    (h : a.toUInt64 ||| (b.toUInt64 <<< 32) = a'.toUInt64 ||| (b'.toUInt64 <<< 32)) : a = a' ∧ b = b' := by
  have key : ∀ x y : UInt32, (x.toUInt64 ||| (y.toUInt64 <<< 32)).toNat = 2 ^ 32 * y.toNat + x.toNat := by
    intro x y
    have hx := x.toNat_lt
    have hy := y.toNat_lt
    rw [UInt64.toNat_or, UInt32.toNat_toUInt64, UInt64.toNat_shiftLeft, UInt32.toNat_toUInt64]
    show x.toNat ||| (y.toNat <<< 32) % 2 ^ 64 = _
    rw [Nat.shiftLeft_eq, Nat.mod_eq_of_lt (by omega), Nat.mul_comm, Nat.or_comm,
      ← Nat.two_pow_add_eq_or_of_lt (by omega)]
  have h := congrArg UInt64.toNat h
  rw [key, key] at h
  have ha := a.toNat_lt
  have ha' := a'.toNat_lt
  exact ⟨UInt32.toNat_inj.1 (by omega), UInt32.toNat_inj.1 (by omega)⟩

theorem FuseInitResponse.Built.rest {r : FuseInitResponse} (h : r.Built) :
    r.raw.max_pages = 0 ∧ r.raw.map_alignment = 0 ∧ r.raw.unused = Reserved.zero 7 := by
  induction h <;> first | exact ⟨rfl, rfl, rfl⟩ | assumption

theorem Dbg.fine_fuseInitResponse (r : FuseInitResponse) : (Dbg.fuseInitResponse r).Fine := by
  unfold Dbg.fuseInitResponse; fine_fields

theorem FuseInitResponse.debug_inj {a b : FuseInitResponse} (ha : a.Built) (hb : b.Built) (hv : a.version = b.version)
    (h : Dbg.fuseInitResponse a = Dbg.fuseInitResponse b) : a = b := by
  unfold Dbg.fuseInitResponse at h
  simp only [Dbg.record.injEq, List.cons.injEq, Dbg.field.injEq, true_and, and_true, Dbg.u32_inj, Dbg.u16_inj,
    Dbg.flags64_inj (t := .fuseInit) rfl] at h
  obtain ⟨h1, h2, h3, h4, h5, h6⟩ := h
  have h2 := flagHalves_inj h2
  obtain ⟨v1, v2⟩ := Version.mk.inj hv
  obtain ⟨a1, a2, a3⟩ := ha.rest
  obtain ⟨b1, b2, b3⟩ := hb.rest
  clear ha hb hv
  obtain ⟨⟨⟩⟩ := a
  obtain ⟨⟨⟩⟩ := b
  simp only [FuseInitResponse.mk.injEq, FuseInitOut.mk.injEq]
  exact ⟨v1, v2, h1, h2.1, h3, h4, h5, h6, a1.trans b1.symm, a2.trans b2.symm, h2.2, a3.trans b3.symm⟩

theorem CuseInitResponse.Built.rest {r : CuseInitResponse} (h : r.Built) :
    r.raw.unused = 0 ∧ r.raw.spare = Reserved.zero 10 := by
  induction h <;> first | exact ⟨rfl, rfl⟩ | assumption

theorem Dbg.fine_cuseInitResponse (r : CuseInitResponse) : (Dbg.cuseInitResponse r).Fine := by
  have := fine_deviceNumber ⟨r.raw.dev_major, r.raw.dev_minor⟩
  unfold Dbg.cuseInitResponse
  cases r.deviceName with
  | none => rw [List.nil_append]; fine_fields
  | some n => rw [List.singleton_append]; fine_fields

theorem CuseInitResponse.debug_inj {a b : CuseInitResponse} (ha : a.Built) (hb : b.Built)
    (h : Dbg.cuseInitResponse a = Dbg.cuseInitResponse b) : a = b := by
  obtain ⟨a1, a2⟩ := ha.rest
  obtain ⟨b1, b2⟩ := hb.rest
  clear ha hb
  unfold Dbg.cuseInitResponse at h
  obtain ⟨⟨⟩, na⟩ := a
  obtain ⟨⟨⟩, nb⟩ := b
  have hl := congrArg List.length (Dbg.record.inj h).2
  cases na <;> cases nb
  · simp only [List.nil_append, Dbg.deviceNumber, Dbg.record.injEq, List.cons.injEq, Dbg.field.injEq, true_and, and_true,
      Dbg.u32_inj, Dbg.version_inj, Dbg.flags32_inj (t := .cuseInit) rfl, CuseInitResponse.version,
      CuseInitResponse.flags, CuseInitResponse.maxWrite, Version.mk.injEq] at h
    obtain ⟨⟨f1, f2⟩, f3, f4, f5, f6, f7⟩ := h
    simp only [CuseInitResponse.mk.injEq, CuseInitOut.mk.injEq, and_true]
    exact ⟨f1, f2, a1.trans b1.symm, f3, f4, f5, f6, f7, a2.trans b2.symm⟩
  · cases hl
  · cases hl
  · simp only [List.singleton_append, Dbg.deviceNumber, Dbg.record.injEq, List.cons.injEq, Dbg.field.injEq, true_and,
      and_true, Dbg.u32_inj, Dbg.version_inj, Dbg.flags32_inj (t := .cuseInit) rfl, CuseInitResponse.version,
      CuseInitResponse.flags, CuseInitResponse.maxWrite, Version.mk.injEq] at h
    obtain ⟨e1, ⟨f1, f2⟩, f3, f4, f5, f6, f7⟩ := h
    simp only [CuseInitResponse.mk.injEq, CuseInitOut.mk.injEq]
    exact ⟨⟨f1, f2, a1.trans b1.symm, f3, f4, f5, f6, f7, a2.trans b2.symm⟩,
      congrArg (fun b => some (CuseDeviceName.mk b)) (Dbg.quoted.inj e1)⟩

theorem Dbg.fine_statfs (a : StatfsAttributes) : (Dbg.statfs a).Fine := by unfold Dbg.statfs; fine_fields

theorem statfs_rest (cs : List StatfsCall) (a : StatfsAttributes) :
    (cs.foldl StatfsAttributes.call a).raw.padding = a.raw.padding ∧
      (cs.foldl StatfsAttributes.call a).raw.spare = a.raw.spare := by
  induction cs generalizing a with
  | nil => exact ⟨rfl, rfl⟩
  | cons c cs ih =>
    have := ih (a.call c)
    cases c <;> exact this

theorem StatfsAttributes.debug_inj {a b : StatfsAttributes} (hp : a.raw.padding = b.raw.padding)
    (hs : a.raw.spare = b.raw.spare) (h : Dbg.statfs a = Dbg.statfs b) : a = b := by
  unfold Dbg.statfs at h
  simp only [Dbg.record.injEq, List.cons.injEq, Dbg.field.injEq, true_and, and_true, Dbg.u32_inj, Dbg.u64_inj] at h
  obtain ⟨h1, h2, h3, h4, h5, h6, h7, h8⟩ := h
  obtain ⟨⟨⟩⟩ := a
  obtain ⟨⟨⟩⟩ := b
  simp only [StatfsAttributes.mk.injEq, FuseKstatfs.mk.injEq]
  exact ⟨h1, h4, h3, h6, h7, h2, h8, h5, hp, hs⟩

theorem header_len (cs : List HeaderCall) (h : ResponseHeader) (hl : h.raw.len ≠ 0) :
    (cs.foldl ResponseHeader.call h).raw.len ≠ 0 := by
  induction cs generalizing h with
  | nil => exact hl
  | cons c cs ih =>
    apply ih
    cases c with
    | len n => exact n.property
    | error e => exact hl

theorem ResponseHeader.debug_ok {h : ResponseHeader} (hl : h.raw.len ≠ 0) : ∃ d, h.debug = .ok d := by
  unfold ResponseHeader.debug ResponseHeader.responseLen
  rw [dif_pos hl]
  exact ⟨_, rfl⟩

theorem ResponseHeader.debug_fine {h : ResponseHeader} {d : Dbg} (hd : h.debug = .ok d) : d.Fine := by
  unfold ResponseHeader.debug at hd
  obtain ⟨l, -, hd⟩ := bind_ok_elim hd
  rw [← pure_ok_elim hd]
  open Dbg in fine_fields

theorem ResponseHeader.debug_inj {a b : ResponseHeader} {d : Dbg} (h : a.debug = .ok d) (h' : b.debug = .ok d) :
    a = b := by
  unfold ResponseHeader.debug at h h'
  obtain ⟨l, h1, h⟩ := bind_ok_elim h
  obtain ⟨l', h1', h'⟩ := bind_ok_elim h'
  obtain ⟨e1, e2, e3⟩ := fields3 ((pure_ok_elim h).trans (pure_ok_elim h').symm)
  have e1 := (Dbg.option_inj Dbg.id_inj).1 e1
  have e2 := Dbg.pid_inj.1 e2
  have e3 := (Dbg.option_inj Dbg.errno_inj).1 e3
  have hl : ∀ {h : ResponseHeader} {l}, h.responseLen = .ok l → h.raw.len = l.val := by
    intro h l hh
    unfold ResponseHeader.responseLen at hh
    split at hh
    · rw [← Except.ok.inj hh]
    · cases hh
  have k2 : a.raw.len = b.raw.len := by rw [hl h1, hl h1', e2]
  have k1 : a.raw.unique = b.raw.unique := by
    have e : ∀ h : ResponseHeader, h.raw.unique = (h.requestId.map (·.val)).getD 0 := by
      intro h
      unfold ResponseHeader.requestId NonZeroU64.new
      split
      · rfl
      · rename_i hh; simpa using hh
    rw [e a, e b, e1]
  have k3 : a.raw.error = b.raw.error := by
    have e : ∀ h : ResponseHeader, h.raw.error = (h.error.map (·.val)).getD 0 := by
      intro h
      unfold ResponseHeader.error
      split
      · rfl
      · rename_i hh; simpa using hh
    rw [e a, e b, e3]
  clear h h' h1 h1' e1 e2 e3
  obtain ⟨⟨⟩⟩ := a
  obtain ⟨⟨⟩⟩ := b
  simp only [ResponseHeader.mk.injEq, FuseOutHeader.mk.injEq]
  exact ⟨k2, k3, k1⟩

theorem newUnchecked_id (n : NonZeroU64) : NonZeroU64.newUnchecked n.val = .ok n := by
  unfold NonZeroU64.newUnchecked
  rw [dif_pos n.property]

/-- The text of a notification about a deleted node. -/
theorem delete_debug (p i : NodeId) (n : NodeName) : (NotifyDelete.new p i n).debug =
    .ok (.record "Delete" [.field "parent_id" (.id p), .field "node_id" (.id i), .field "name" (.name n)]) := by
  have h1 : (NotifyDelete.new p i n).parentId = .ok p := newUnchecked_id p
  have h2 : (NotifyDelete.new p i n).nodeId = .ok i := newUnchecked_id i
  unfold NotifyDelete.debug
  rw [h1, h2]
  rfl

theorem invalidateEntry_debug (p : NodeId) (n : NodeName) : (InvalidateEntry.new p n).debug =
    .ok (.record "InvalidateEntry" [.field "parent_id" (.id p), .field "name" (.name n)]) := by
  have h1 : (InvalidateEntry.new p n).parentId = .ok p := newUnchecked_id p
  unfold InvalidateEntry.debug
  rw [h1]
  rfl

theorem inode_ino (cs : List InodeCall) (d : InvalidateInode) : (cs.foldl InvalidateInode.call d).raw.ino = d.raw.ino := by
  induction cs generalizing d with
  | nil => rfl
  | cons c cs ih =>
    have := ih (d.call c)
    cases c <;> exact this

theorem InvalidateInode.debug_ok {x : InvalidateInode} (h : x.raw.ino ≠ 0) : ∃ d, x.debug = .ok d := by
  have h1 : x.nodeId = .ok ⟨x.raw.ino, h⟩ := newUnchecked_id ⟨x.raw.ino, h⟩
  unfold InvalidateInode.debug
  rw [h1]
  exact ⟨_, rfl⟩

theorem InvalidateInode.debug_fine {x : InvalidateInode} {d : Dbg} (h : x.debug = .ok d) : d.Fine := by
  unfold InvalidateInode.debug at h
  obtain ⟨l, -, h⟩ := bind_ok_elim h
  rw [← pure_ok_elim h]
  open Dbg in fine_fields

theorem InvalidateInode.debug_inj {a b : InvalidateInode} {d : Dbg} (h : a.debug = .ok d) (h' : b.debug = .ok d) :
    a = b := by
  unfold InvalidateInode.debug at h h'
  obtain ⟨l, h1, h⟩ := bind_ok_elim h
  obtain ⟨l', h1', h'⟩ := bind_ok_elim h'
  obtain ⟨e1, e2, e3⟩ := fields3 ((pure_ok_elim h).trans (pure_ok_elim h').symm)
  have e1 := Dbg.id_inj.1 e1
  subst e1
  have e1 := (newUnchecked_val h1).symm.trans (newUnchecked_val h1')
  have e2 := Dbg.i64_inj.1 e2
  have e3 := Dbg.i64_inj.1 e3
  clear h h' h1 h1'
  obtain ⟨⟨⟩⟩ := a
  obtain ⟨⟨⟩⟩ := b
  simp only [InvalidateInode.mk.injEq, FuseNotifyInvalInodeOut.mk.injEq]
  exact ⟨e1, e2, e3⟩

/-! ### IOCTL -/

/-- What a server can have made. -/
theorem IoctlResponse.Built.shape {x : IoctlResponse} {b : Bool} (h : x.Built b) :
    (∃ r o, x = (IoctlResponse.new o).setResult r) ∨
      ∃ r t, x = (IoctlResponse.newRetry t).setResult r ∧ (b = false → r = 0) := by
  induction h with
  | new o => exact .inl ⟨0, o, rfl⟩
  | retry t => exact .inr ⟨0, t, rfl, fun _ => rfl⟩
  | result v _ ih =>
    rcases ih with ⟨r, o, rfl⟩ | ⟨r, t, rfl, _⟩
    · exact .inl ⟨v, o, rfl⟩
    · exact .inr ⟨v, t, rfl, fun h => by cases h⟩

theorem Dbg.fine_ioctlResponse (x : IoctlResponse) (b : Bool) : (Dbg.ioctlResponse x b).Fine := by
  unfold Dbg.ioctlResponse
  cases x.output with
  | bytes o => fine_fields
  | retry i o =>
    have := fine_ioctlRetry ⟨i, o⟩
    cases b
    · show (Dbg.record _ [_]).Fine
      fine_fields
    · show (Dbg.record _ [_, _]).Fine
      fine_fields

theorem IoctlResponse.debug_inj {x y : IoctlResponse} {b c : Bool} (hx : x.Built b) (hy : y.Built c)
    (h : Dbg.ioctlResponse x b = Dbg.ioctlResponse y c) : x = y := by
  rcases hx.shape with ⟨r, o, rfl⟩ | ⟨r, t, rfl, hr⟩ <;> rcases hy.shape with ⟨r', o', rfl⟩ | ⟨r', t', rfl, hr'⟩
  · obtain ⟨e1, e2⟩ := fields2 h
    rw [show r = r' from Dbg.i32_inj.1 e1, Dbg.byteList_inj.1 e2]
  · have h := (Dbg.record.inj h).2
    cases c
    · exact absurd (congrArg List.length h) (show (_ : Nat) ≠ _ by simp [IoctlResponse.new, IoctlResponse.newRetry, IoctlResponse.setResult])
    · exact absurd (Dbg.field.inj (List.cons.inj (List.cons.inj h).2).1).1 (by decide)
  · have h := (Dbg.record.inj h).2
    cases b
    · exact absurd (congrArg List.length h) (show (_ : Nat) ≠ _ by simp [IoctlResponse.new, IoctlResponse.newRetry, IoctlResponse.setResult])
    · exact absurd (Dbg.field.inj (List.cons.inj (List.cons.inj h).2).1).1 (by decide)
  · cases b <;> cases c
    · have e : t = t' := Dbg.ioctlRetry_inj.1 (fields1 h)
      rw [hr rfl, hr' rfl, e]
    · cases (congrArg List.length (Dbg.record.inj h).2 : (_ : Nat) = _)
    · cases (congrArg List.length (Dbg.record.inj h).2 : (_ : Nat) = _)
    · obtain ⟨e1, e2⟩ := fields2 h
      have e : t = t' := Dbg.ioctlRetry_inj.1 e2
      rw [show r = r' from Dbg.i32_inj.1 e1, e]

/-! ### Listings -/

theorem Child.toEntry_fileType (c : Child) : ReaddirEntry.fileType c.toEntry = c.type := by
  unfold Child.toEntry ReaddirEntry.fileType
  cases c.type with
  | none =>
    show FileType.fromBits 0 = none
    decide
  | some t =>
    show FileType.fromBits t.asBits = some t
    cases t <;> decide

/-- The text of an entry of a listing. -/
theorem Child.debug (c : Child) : readdirEntryDebug c.toEntry =
    .ok (.record "ReaddirEntry" [.field "node_id" (.id c.nodeId), .field "offset" (.id c.offset),
      .field "file_type" (.option .fileType c.type), .field "name" (.name c.name)]) := by
  have h1 : ReaddirEntry.nodeId c.toEntry = .ok c.nodeId := by
    unfold Child.toEntry; cases c.type <;> exact newUnchecked_id c.nodeId
  have h2 : ReaddirEntry.offset c.toEntry = .ok c.offset := by
    unfold Child.toEntry; cases c.type <;> exact newUnchecked_id c.offset
  unfold readdirEntryDebug
  rw [h1, h2, Child.toEntry_fileType, Child.toEntry_name]
  rfl

theorem Child.debug_inj {c c' : Child} {d : Dbg} (h : readdirEntryDebug c.toEntry = .ok d)
    (h' : readdirEntryDebug c'.toEntry = .ok d) : c = c' := by
  rw [Child.debug] at h h'
  obtain ⟨e1, e2, e3, e4⟩ := fields4 ((Except.ok.inj h).trans (Except.ok.inj h').symm)
  obtain ⟨⟩ := c
  obtain ⟨⟩ := c'
  rw [Child.mk.injEq]
  exact ⟨Dbg.id_inj.1 e1, Dbg.name_inj.1 e4, Dbg.id_inj.1 e2, (Dbg.option_inj Dbg.fileType_inj).1 e3⟩

theorem Child.debug_fine {c : Child} {d : Dbg} (h : readdirEntryDebug c.toEntry = .ok d) : d.Fine := by
  rw [Child.debug] at h
  rw [← Except.ok.inj h]
  open Dbg in fine_fields

/-- The text of an entry of a listing with attributes. -/
theorem PlusChild.debug (c : PlusChild) : readdirplusEntryDebug c.record =
    (c.entry.debug >>= fun e => pure (.record "ReaddirEntry" [.field "name" (.name c.name), .field "offset" (.id c.offset),
      .field "entry" e])) := by
  have h2 : ReaddirplusEntry.offset c.record = .ok c.offset := newUnchecked_id c.offset
  unfold readdirplusEntryDebug
  rw [h2]
  rfl

theorem PlusChild.debug_ok {c : PlusChild} (hc : c.entry.Sound) : ∃ d, readdirplusEntryDebug c.record = .ok d := by
  obtain ⟨d, hd⟩ := hc.debug_ok
  rw [PlusChild.debug, hd]
  exact ⟨_, rfl⟩

theorem PlusChild.debug_inj {c c' : PlusChild} {d : Dbg} (hc : c.entry.Sound) (hc' : c'.entry.Sound)
    (h : readdirplusEntryDebug c.record = .ok d) (h' : readdirplusEntryDebug c'.record = .ok d) : c = c' := by
  rw [PlusChild.debug] at h h'
  obtain ⟨e, h1, h⟩ := bind_ok_elim h
  obtain ⟨e', h1', h'⟩ := bind_ok_elim h'
  obtain ⟨e1, e2, rfl⟩ := fields3 ((pure_ok_elim h).trans (pure_ok_elim h').symm)
  have e3 := Entry.debug_inj hc hc' h1 h1'
  clear h h' h1 h1' hc hc'
  obtain ⟨⟩ := c
  obtain ⟨⟩ := c'
  rw [PlusChild.mk.injEq]
  exact ⟨Dbg.name_inj.1 e1, Dbg.id_inj.1 e2, e3⟩

theorem PlusChild.debug_fine {c : PlusChild} {d : Dbg} (h : readdirplusEntryDebug c.record = .ok d) : d.Fine := by
  rw [PlusChild.debug] at h
  obtain ⟨e, h1, h⟩ := bind_ok_elim h
  have := Entry.debug_fine h1
  rw [← pure_ok_elim h]
  open Dbg in fine_fields

theorem mapM_inj {α : Type} {f : α → Except Fault Dbg} {P : α → Prop}
    (hf : ∀ a b d, P a → P b → f a = .ok d → f b = .ok d → a = b) :
    ∀ (l l' : List α) (ds : List Dbg), (∀ a ∈ l, P a) → (∀ a ∈ l', P a) → l.mapM f = .ok ds → l'.mapM f = .ok ds → l = l'
  | [], [], _, _, _, _, _ => rfl
  | [], b :: l', ds, _, _, h, h' => by
    rw [List.mapM_nil] at h
    rw [List.mapM_cons] at h'
    obtain ⟨d, -, h'⟩ := bind_ok_elim h'
    obtain ⟨ds', -, h'⟩ := bind_ok_elim h'
    cases (pure_ok_elim h).trans (pure_ok_elim h').symm
  | a :: l, [], ds, _, _, h, h' => by
    rw [List.mapM_nil] at h'
    rw [List.mapM_cons] at h
    obtain ⟨d, -, h⟩ := bind_ok_elim h
    obtain ⟨ds', -, h⟩ := bind_ok_elim h
    cases (pure_ok_elim h).trans (pure_ok_elim h').symm
  | a :: l, b :: l', ds, hp, hp', h, h' => by
    rw [List.mapM_cons] at h h'
    obtain ⟨d, h1, h⟩ := bind_ok_elim h
    obtain ⟨ds1, h2, h⟩ := bind_ok_elim h
    obtain ⟨d', h1', h'⟩ := bind_ok_elim h'
    obtain ⟨ds1', h2', h'⟩ := bind_ok_elim h'
    obtain ⟨rfl, rfl⟩ := List.cons.inj ((pure_ok_elim h).trans (pure_ok_elim h').symm)
    rw [hf a b d (hp a List.mem_cons_self) (hp' b List.mem_cons_self) h1 h1',
      mapM_inj hf l l' ds1 (fun x hx => hp x (List.mem_cons_of_mem _ hx))
        (fun x hx => hp' x (List.mem_cons_of_mem _ hx)) h2 h2']

theorem mapM_mem {α : Type} {f : α → Except Fault Dbg} : ∀ (l : List α) (ds : List Dbg), l.mapM f = .ok ds →
    ∀ d ∈ ds, ∃ a ∈ l, f a = .ok d
  | [], ds, h, d, hd => by
    rw [List.mapM_nil] at h
    rw [← pure_ok_elim h] at hd
    cases hd
  | a :: l, ds, h, d, hd => by
    rw [List.mapM_cons] at h
    obtain ⟨d1, h1, h⟩ := bind_ok_elim h
    obtain ⟨ds1, h2, h⟩ := bind_ok_elim h
    rw [← pure_ok_elim h] at hd
    rcases List.mem_cons.1 hd with rfl | hd
    · exact ⟨a, List.mem_cons_self, h1⟩
    · obtain ⟨b, hb, e⟩ := mapM_mem l ds1 h2 d hd
      exact ⟨b, List.mem_cons_of_mem _ hb, e⟩

theorem mapM_ok {α : Type} {f : α → Except Fault Dbg} : ∀ (l : List α), (∀ a ∈ l, ∃ d, f a = .ok d) →
    ∃ ds, l.mapM f = .ok ds
  | [], _ => ⟨[], rfl⟩
  | a :: l, h => by
    obtain ⟨d, hd⟩ := h a List.mem_cons_self
    obtain ⟨ds, hds⟩ := mapM_ok l fun x hx => h x (List.mem_cons_of_mem _ hx)
    rw [List.mapM_cons, hd, hds]
    exact ⟨_, rfl⟩

/-- The bytes of a listing a server can make, fuse/operations/readdir.rs:218-277. -/
def ReaddirBuilt (buf : Bytes) : Prop :=
  ∃ (addr : Nat) (space : Bytes) (cs : List Child) (oks : List Bool) (w : DirWriter), addr % 8 = 0 ∧
    (DirWriter.new addr space).pushAll (cs.map Child.toEntry) = .ok (oks, w) ∧ w.intoEntries = .ok buf

/-- The bytes of a listing with attributes a server can make, fuse/operations/readdirplus.rs:202-261. -/
def ReaddirplusBuilt (buf : Bytes) : Prop :=
  ∃ (addr : Nat) (space : Bytes) (cs : List PlusChild) (oks : List Bool) (w : DirWriter), addr % 8 = 0 ∧
    (∀ c ∈ cs, c.entry.Built) ∧
    (DirWriter.new addr space).pushAll (cs.map PlusChild.record) = .ok (oks, w) ∧ w.intoEntries = .ok buf

/-- The bytes of a list of names a server can make, fuse/operations/listxattr.rs:145-199. -/
def NamesBuilt (buf : Bytes) : Prop :=
  ∃ (os : Os) (space : Bytes) (ns : List CName) (oks : List Bool) (w : NamesWriter),
    (NamesWriter.new os space).pushAll ns = .ok (oks, w) ∧ w.intoNames = .ok buf

theorem mem_accepted {α : Type} : ∀ {l : List α} {oks : List Bool} {a : α}, a ∈ accepted l oks → a ∈ l
  | [], _, a, h => by unfold accepted at h; cases h
  | x :: l, [], a, h => by unfold accepted at h; cases h
  | x :: l, true :: oks, a, h => by
    unfold accepted at h
    rcases List.mem_cons.1 h with rfl | h
    · exact List.mem_cons_self
    · exact List.mem_cons_of_mem _ (mem_accepted h)
  | x :: l, false :: oks, a, h => by
    unfold accepted at h
    exact List.mem_cons_of_mem _ (mem_accepted h)

theorem readdirBuilt_collects {buf : Bytes} (h : ReaddirBuilt buf) : ∃ cs : List Child,
    buf = records (cs.map Child.toEntry) ∧ DirentCollects FuseDirent buf (.ok (cs.map Child.toEntry)) := by
  obtain ⟨addr, space, cs, oks, w, ha, h1, h2⟩ := h
  obtain ⟨oks', w', bytes, e1, e2, -, e3, -⟩ := C27_readdir_partial addr space cs ha
  obtain ⟨oks2, w2, f1, -, -, f4, -, f6, -⟩ := pushAll_spec (DirWriter.new addr space) (cs.map Child.toEntry) (by decide) rfl
    (show (addr + 0) % 8 = 0 by omega) (Nat.zero_le _)
  rw [h1] at e1 f1
  obtain ⟨rfl, rfl⟩ := Prod.mk.inj (Except.ok.inj e1)
  obtain ⟨rfl, rfl⟩ := Prod.mk.inj (Except.ok.inj f1)
  rw [h2] at e2
  obtain rfl := Except.ok.inj e2
  refine ⟨accepted cs oks, ?_, e3⟩
  unfold DirWriter.intoEntries at h2
  rw [if_pos f4, f6] at h2
  rw [← Except.ok.inj h2, accepted_map]
  show List.take 0 _ ++ _ = _
  simp

theorem readdirplusBuilt_collects {buf : Bytes} (h : ReaddirplusBuilt buf) : ∃ cs : List PlusChild,
    buf = records (cs.map PlusChild.record) ∧ DirentCollects FuseDirentplus buf (.ok (cs.map PlusChild.record)) ∧
      ∀ c ∈ cs, c.entry.Sound := by
  obtain ⟨addr, space, cs, oks, w, ha, hb, h1, h2⟩ := h
  obtain ⟨oks', w', bytes, e1, e2, -, e3, -⟩ := C27_readdirplus_partial addr space cs ha
  obtain ⟨oks2, w2, f1, -, -, f4, -, f6, -⟩ := pushAll_spec (DirWriter.new addr space) (cs.map PlusChild.record)
    (by decide) rfl (show (addr + 0) % 8 = 0 by omega) (Nat.zero_le _)
  rw [h1] at e1 f1
  obtain ⟨rfl, rfl⟩ := Prod.mk.inj (Except.ok.inj e1)
  obtain ⟨rfl, rfl⟩ := Prod.mk.inj (Except.ok.inj f1)
  rw [h2] at e2
  obtain rfl := Except.ok.inj e2
  refine ⟨accepted cs oks, ?_, e3, fun c hc => (hb c (mem_accepted hc)).sound⟩
  unfold DirWriter.intoEntries at h2
  rw [if_pos f4, f6] at h2
  rw [← Except.ok.inj h2, accepted_map]
  show List.take 0 _ ++ _ = _
  simp

theorem namesBuilt_collects {buf : Bytes} (h : NamesBuilt buf) : ∃ ns : List CName,
    buf = nameList ns ∧ XattrCollects buf (.ok (ns.map fun n => ⟨n.bytes⟩)) := by
  obtain ⟨os, space, ns, oks, w, h1, h2⟩ := h
  obtain ⟨oks', w', bytes, e1, e2, -, e3, e4, -⟩ := C30_round_trip os space ns
  rw [h1] at e1
  obtain ⟨rfl, rfl⟩ := Prod.mk.inj (Except.ok.inj e1)
  rw [h2] at e2
  obtain rfl := Except.ok.inj e2
  exact ⟨_, e3, e4⟩

/-- The label of the first field of a structure. -/
def Dbg.lead : Dbg → String
  | .record _ (.field l _ :: _) => l
  | _ => ""

/-- The text is that of a list of values with a certain first field; it is empty only if nothing is sent. -/
def Listing (lead : String) (buf : Bytes) (d : Dbg) : Prop :=
  ∃ ds, d = .list ds ∧ (ds = [] → buf = []) ∧ ∀ x ∈ ds, x.Fine ∧ x.lead = lead

theorem Listing.fine {lead : String} {buf : Bytes} {d : Dbg} (h : Listing lead buf d) : d.Fine := by
  obtain ⟨ds, rfl, -, h⟩ := h
  exact Dbg.fine_list fun x hx => (h x hx).1

/-- Listings of different kinds with the same text are both empty. -/
theorem Listing.empty {l l' : String} {buf buf' : Bytes} {d : Dbg} (h : Listing l buf d) (h' : Listing l' buf' d)
    (hl : l ≠ l') : buf = [] ∧ buf' = [] := by
  obtain ⟨ds, rfl, h1, h2⟩ := h
  obtain ⟨ds', e, h1', h2'⟩ := h'
  obtain rfl := Dbg.list.inj e
  cases ds with
  | nil => exact ⟨h1 rfl, h1' rfl⟩
  | cons x xs => exact absurd ((h2 x List.mem_cons_self).2.symm.trans (h2' x List.mem_cons_self).2) hl

theorem mapM_ne_nil {α : Type} {f : α → Except Fault Dbg} {l : List α} (h : l.mapM f = .ok []) : l = [] := by
  cases l with
  | nil => rfl
  | cons a l =>
    rw [List.mapM_cons] at h
    obtain ⟨d, -, h⟩ := bind_ok_elim h
    obtain ⟨ds, -, h⟩ := bind_ok_elim h
    cases pure_ok_elim h

theorem readdirEntries_listing {buf : Bytes} {d : Dbg} (h : ReaddirBuilt buf) (hd : ReaddirEntriesDebug buf d) :
    Listing "node_id" buf d := by
  obtain ⟨cs, hb, hc⟩ := readdirBuilt_collects h
  obtain ⟨es, ds, h1, h2, rfl⟩ := hd
  obtain rfl := Except.ok.inj (LoopReturns.unique h1 hc)
  refine ⟨ds, rfl, fun h => ?_, fun x hx => ?_⟩
  · subst h
    rw [hb, mapM_ne_nil h2]
    rfl
  · obtain ⟨e, he, h3⟩ := mapM_mem _ _ h2 x hx
    obtain ⟨c, -, rfl⟩ := List.mem_map.1 he
    refine ⟨Child.debug_fine h3, ?_⟩
    rw [Child.debug] at h3
    rw [← Except.ok.inj h3]
    rfl

theorem readdirEntries_ok {buf : Bytes} (h : ReaddirBuilt buf) : ∃ d, ReaddirEntriesDebug buf d := by
  obtain ⟨cs, hb, hc⟩ := readdirBuilt_collects h
  obtain ⟨ds, hds⟩ := mapM_ok (f := readdirEntryDebug) (cs.map Child.toEntry) fun e he => by
    obtain ⟨c, -, rfl⟩ := List.mem_map.1 he
    exact ⟨_, c.debug⟩
  exact ⟨_, _, ds, hc, hds, rfl⟩

theorem readdirEntries_inj {buf buf' : Bytes} {d : Dbg} (h : ReaddirBuilt buf) (h' : ReaddirBuilt buf')
    (hd : ReaddirEntriesDebug buf d) (hd' : ReaddirEntriesDebug buf' d) : buf = buf' := by
  obtain ⟨cs, hb, hc⟩ := readdirBuilt_collects h
  obtain ⟨cs', hb', hc'⟩ := readdirBuilt_collects h'
  obtain ⟨es, ds, h1, h2, rfl⟩ := hd
  obtain ⟨es', ds', h1', h2', e⟩ := hd'
  obtain rfl := Dbg.list.inj e
  obtain rfl := Except.ok.inj (LoopReturns.unique h1 hc)
  obtain rfl := Except.ok.inj (LoopReturns.unique h1' hc')
  rw [hb, hb', mapM_inj (P := fun e => ∃ c : Child, e = c.toEntry) (by
    rintro _ _ d ⟨c, rfl⟩ ⟨c', rfl⟩ k k'
    rw [Child.debug_inj k k']) _ _ ds (by
      intro e he
      obtain ⟨c, -, rfl⟩ := List.mem_map.1 he
      exact ⟨c, rfl⟩) (by
      intro e he
      obtain ⟨c, -, rfl⟩ := List.mem_map.1 he
      exact ⟨c, rfl⟩) h2 h2']

theorem readdirplusEntries_listing {buf : Bytes} {d : Dbg} (h : ReaddirplusBuilt buf) (hd : ReaddirplusEntriesDebug buf d) :
    Listing "name" buf d := by
  obtain ⟨cs, hb, hc, hs⟩ := readdirplusBuilt_collects h
  obtain ⟨es, ds, h1, h2, rfl⟩ := hd
  obtain rfl := Except.ok.inj (LoopReturns.unique h1 hc)
  refine ⟨ds, rfl, fun h => ?_, fun x hx => ?_⟩
  · subst h
    rw [hb, mapM_ne_nil h2]
    rfl
  · obtain ⟨e, he, h3⟩ := mapM_mem _ _ h2 x hx
    obtain ⟨c, -, rfl⟩ := List.mem_map.1 he
    refine ⟨PlusChild.debug_fine h3, ?_⟩
    rw [PlusChild.debug] at h3
    obtain ⟨y, -, h3⟩ := bind_ok_elim h3
    rw [← pure_ok_elim h3]
    rfl

theorem readdirplusEntries_ok {buf : Bytes} (h : ReaddirplusBuilt buf) : ∃ d, ReaddirplusEntriesDebug buf d := by
  obtain ⟨cs, hb, hc, hs⟩ := readdirplusBuilt_collects h
  obtain ⟨ds, hds⟩ := mapM_ok (f := readdirplusEntryDebug) (cs.map PlusChild.record) fun e he => by
    obtain ⟨c, hm, rfl⟩ := List.mem_map.1 he
    exact PlusChild.debug_ok (hs c hm)
  exact ⟨_, _, ds, hc, hds, rfl⟩

theorem readdirplusEntries_inj {buf buf' : Bytes} {d : Dbg} (h : ReaddirplusBuilt buf) (h' : ReaddirplusBuilt buf')
    (hd : ReaddirplusEntriesDebug buf d) (hd' : ReaddirplusEntriesDebug buf' d) : buf = buf' := by
  obtain ⟨cs, hb, hc, hs⟩ := readdirplusBuilt_collects h
  obtain ⟨cs', hb', hc', hs'⟩ := readdirplusBuilt_collects h'
  obtain ⟨es, ds, h1, h2, rfl⟩ := hd
  obtain ⟨es', ds', h1', h2', e⟩ := hd'
  obtain rfl := Dbg.list.inj e
  obtain rfl := Except.ok.inj (LoopReturns.unique h1 hc)
  obtain rfl := Except.ok.inj (LoopReturns.unique h1' hc')
  rw [hb, hb', mapM_inj (P := fun e => ∃ c : PlusChild, c.entry.Sound ∧ e = c.record) (by
    rintro _ _ d ⟨c, s, rfl⟩ ⟨c', s', rfl⟩ k k'
    rw [PlusChild.debug_inj s s' k k']) _ _ ds (by
      intro e he
      obtain ⟨c, hm, rfl⟩ := List.mem_map.1 he
      exact ⟨c, hs c hm, rfl⟩) (by
      intro e he
      obtain ⟨c, hm, rfl⟩ := List.mem_map.1 he
      exact ⟨c, hs' c hm, rfl⟩) h2 h2']

theorem names_listing {buf : Bytes} {d : Dbg} (h : NamesBuilt buf) (hd : ListxattrNamesDebug buf d) : Listing "" buf d := by
  obtain ⟨ns, hb, hc⟩ := namesBuilt_collects h
  obtain ⟨es, h1, rfl⟩ := hd
  obtain rfl := Except.ok.inj (LoopReturns.unique h1 hc)
  refine ⟨_, rfl, fun h => ?_, fun x hx => ?_⟩
  · cases ns with
    | nil => exact hb
    | cons n ns => cases h
  · obtain ⟨c, -, rfl⟩ := List.mem_map.1 hx
    exact ⟨Dbg.fine_cstr c, rfl⟩

theorem names_ok {buf : Bytes} (h : NamesBuilt buf) : ∃ d, ListxattrNamesDebug buf d := by
  obtain ⟨ns, hb, hc⟩ := namesBuilt_collects h
  exact ⟨_, _, hc, rfl⟩

theorem names_inj {buf buf' : Bytes} {d : Dbg} (h : NamesBuilt buf) (h' : NamesBuilt buf')
    (hd : ListxattrNamesDebug buf d) (hd' : ListxattrNamesDebug buf' d) : buf = buf' := by
  obtain ⟨ns, hb, hc⟩ := namesBuilt_collects h
  obtain ⟨ns', hb', hc'⟩ := namesBuilt_collects h'
  obtain ⟨es, h1, rfl⟩ := hd
  obtain ⟨es', h1', e⟩ := hd'
  obtain rfl := (Dbg.map_inj Dbg.cstr_inj).1 (Dbg.list.inj e)
  obtain rfl := Except.ok.inj (LoopReturns.unique h1 hc)
  have := Except.ok.inj (LoopReturns.unique h1' hc')
  rw [hb, hb']
  clear h h' hb hb' hc hc' h1 h1' e
  induction ns generalizing ns' with
  | nil =>
    cases ns' with
    | nil => rfl
    | cons n ns' => cases this
  | cons n ns ih =>
    cases ns' with
    | nil => cases this
    | cons n' ns' =>
      obtain ⟨e1, e2⟩ := List.cons.inj this
      unfold nameList
      rw [CStr.mk.inj e1, ih ns' e2]

/-! ## All of them -/

/-- A response, a notification, or a part of one. -/
inductive Shown
  | attr (a : NodeAttr)
  | entry (e : Entry)
  | create (r : CreateResponse)
  | fuseInit (r : FuseInitResponse)
  | cuseInit (r : CuseInitResponse)
  | statfs (a : StatfsAttributes)
  | header (h : ResponseHeader)
  | delete (x : NotifyDelete)
  | invalidateEntry (x : InvalidateEntry)
  | invalidateInode (x : InvalidateInode)
  | poll (x : NotifyPoll)
  | readdirEntry (e : ReaddirEntry)
  | readdirplusEntry (e : ReaddirplusEntry)
  | readdirEntries (buf : Bytes)
  | readdirplusEntries (buf : Bytes)
  | names (buf : Bytes)
  | ioctl (x : IoctlResponse) (setResult : Bool)
  | retry (r : IoctlRetry)
  | slice (s : IoctlSlice)

/-- Formatting it with `{:?}`, at the places cited in DebugResp.lean. -/
def Shown.Debug : Shown → Dbg → Prop
  | .attr a, d => a.debug = .ok d
  | .entry e, d => e.debug = .ok d
  | .create r, d => r.debug = .ok d
  | .fuseInit r, d => d = .fuseInitResponse r
  | .cuseInit r, d => d = .cuseInitResponse r
  | .statfs a, d => d = .statfs a
  | .header h, d => h.debug = .ok d
  | .delete x, d => x.debug = .ok d
  | .invalidateEntry x, d => x.debug = .ok d
  | .invalidateInode x, d => x.debug = .ok d
  | .poll x, d => d = .poll x
  | .readdirEntry e, d => readdirEntryDebug e = .ok d
  | .readdirplusEntry e, d => readdirplusEntryDebug e = .ok d
  | .readdirEntries buf, d => ReaddirEntriesDebug buf d
  | .readdirplusEntries buf, d => ReaddirplusEntriesDebug buf d
  | .names buf, d => ListxattrNamesDebug buf d
  | .ioctl x b, d => d = .ioctlResponse x b
  | .retry r, d => d = .ioctlRetry r
  | .slice s, d => d = .ioctlSlice s

/-- A server can make it, through the library's interface, without giving an entry the attributes of another node. -/
def Shown.Built : Shown → Prop
  | .attr a => a.Built
  | .entry e => e.Built
  | .create r => r.Built
  | .fuseInit r => r.Built
  | .cuseInit r => r.Built
  | .statfs a => ∃ cs : List StatfsCall, a = cs.foldl StatfsAttributes.call .new
  | .header h => ∃ cs : List HeaderCall, (∃ id, h = cs.foldl ResponseHeader.call (.new id)) ∨
      h = cs.foldl ResponseHeader.call .newNotification
  | .delete x => ∃ p i n, x = .new p i n
  | .invalidateEntry x => ∃ p n, x = .new p n
  | .invalidateInode x => ∃ i, ∃ cs : List InodeCall, x = cs.foldl InvalidateInode.call (.new i)
  | .poll _ => True
  | .readdirEntry e => ∃ c : Child, e = c.toEntry
  | .readdirplusEntry e => ∃ c : PlusChild, c.entry.Built ∧ e = c.record
  | .readdirEntries buf => ReaddirBuilt buf
  | .readdirplusEntries buf => ReaddirplusBuilt buf
  | .names buf => NamesBuilt buf
  | .ioctl x b => x.Built b
  | .retry _ => True
  | .slice _ => True

/-- What a client of minor version `m` receives, as far as this value is concerned. -/
def Shown.sent (m : Nat) : Shown → Bytes
  | .attr a => layout_fuse_attr a.raw
  | .entry e => (FuseReply.entry e).payload m
  | .create r => (FuseReply.create r).payload m
  | .fuseInit r => (FuseReply.init r.raw).payload m
  | .cuseInit r => (CuseReply.init r).payload
  | .statfs a => (FuseReply.statfs ⟨a.raw⟩).payload m
  | .header h => layout_fuse_out_header h.raw
  | .delete x => layout_fuse_notify_delete_out x.raw ++ x.name.bytes ++ [0]
  | .invalidateEntry x => layout_fuse_notify_inval_entry_out x.raw ++ x.name.bytes ++ [0]
  | .invalidateInode x => layout_fuse_notify_inval_inode_out x.raw
  | .poll x => layout_fuse_notify_poll_wakeup_out x.raw
  | .readdirEntry e => e.record
  | .readdirplusEntry e => e.record
  | .readdirEntries buf => (FuseReply.readdirEntries buf).payload m
  | .readdirplusEntries buf => (FuseReply.readdirEntries buf).payload m
  | .names buf => (FuseReply.listxattrNames buf).payload m
  | .ioctl x _ => (FuseReply.ioctl x).payload m
  | .retry r => sliceBytes r.input ++ sliceBytes r.output
  | .slice s => sliceBytes [s]

/-- The version a response to INIT gives, which its text leaves out. -/
def Shown.version : Shown → Option Version
  | .fuseInit r => some r.version
  | _ => none

/-- Which type a text is of: its name, and for entries of listings, which share one, the first field. -/
def Dbg.key : Dbg → String × String
  | .record "ReaddirEntry" ds => ("ReaddirEntry", (Dbg.record "ReaddirEntry" ds).lead)
  | .record n _ => (n, "")
  | _ => ("", "")

/-- The same for the value. -/
def Shown.key : Shown → String × String
  | .attr _ => ("NodeAttr", "")
  | .entry _ => ("Entry", "")
  | .create _ => ("CreateResponse", "")
  | .fuseInit _ => ("FuseInitResponse", "")
  | .cuseInit _ => ("CuseInitResponse", "")
  | .statfs _ => ("StatfsAttributes", "")
  | .header _ => ("ResponseHeader", "")
  | .delete _ => ("Delete", "")
  | .invalidateEntry _ => ("InvalidateEntry", "")
  | .invalidateInode _ => ("InvalidateInode", "")
  | .poll _ => ("Poll", "")
  | .readdirEntry _ => ("ReaddirEntry", "node_id")
  | .readdirplusEntry _ => ("ReaddirEntry", "name")
  | .readdirEntries _ | .readdirplusEntries _ | .names _ => ("", "")
  | .ioctl _ _ => ("IoctlResponse", "")
  | .retry _ => ("IoctlRetry", "")
  | .slice _ => ("IoctlSlice", "")

theorem shown_text {s : Shown} {d : Dbg} (hb : s.Built) (h : s.Debug d) : d.Fine ∧ d.Closed ∧ d.key = s.key := by
  cases s with
  | attr a =>
    refine ⟨NodeAttr.debug_fine h, ?_⟩
    unfold Shown.Debug NodeAttr.debug at h
    obtain ⟨i, -, h⟩ := bind_ok_elim h
    obtain ⟨t1, -, h⟩ := bind_ok_elim h
    obtain ⟨t2, -, h⟩ := bind_ok_elim h
    obtain ⟨t3, -, h⟩ := bind_ok_elim h
    rw [← pure_ok_elim h]
    exact ⟨trivial, rfl⟩
  | entry e =>
    refine ⟨Entry.debug_fine h, ?_⟩
    unfold Shown.Debug Entry.debug at h
    obtain ⟨i, -, h⟩ := bind_ok_elim h
    rw [← pure_ok_elim h]
    exact ⟨trivial, rfl⟩
  | create r =>
    refine ⟨CreateResponse.debug_fine h, ?_⟩
    unfold Shown.Debug CreateResponse.debug at h
    obtain ⟨i, -, h⟩ := bind_ok_elim h
    rw [← pure_ok_elim h]
    exact ⟨trivial, rfl⟩
  | fuseInit r =>
    have h : d = .fuseInitResponse r := h
    subst h
    exact ⟨Dbg.fine_fuseInitResponse r, trivial, rfl⟩
  | cuseInit r =>
    have h : d = .cuseInitResponse r := h
    subst h
    exact ⟨Dbg.fine_cuseInitResponse r, trivial, rfl⟩
  | statfs a =>
    have h : d = .statfs a := h
    subst h
    exact ⟨Dbg.fine_statfs a, trivial, rfl⟩
  | header x =>
    refine ⟨ResponseHeader.debug_fine h, ?_⟩
    unfold Shown.Debug ResponseHeader.debug at h
    obtain ⟨i, -, h⟩ := bind_ok_elim h
    rw [← pure_ok_elim h]
    exact ⟨trivial, rfl⟩
  | delete x =>
    obtain ⟨p, i, n, rfl⟩ := hb
    rw [← Except.ok.inj ((delete_debug p i n).symm.trans h)]
    exact ⟨by open Dbg in fine_fields, trivial, rfl⟩
  | invalidateEntry x =>
    obtain ⟨p, n, rfl⟩ := hb
    rw [← Except.ok.inj ((invalidateEntry_debug p n).symm.trans h)]
    exact ⟨by open Dbg in fine_fields, trivial, rfl⟩
  | invalidateInode x =>
    refine ⟨InvalidateInode.debug_fine h, ?_⟩
    unfold Shown.Debug InvalidateInode.debug at h
    obtain ⟨i, -, h⟩ := bind_ok_elim h
    rw [← pure_ok_elim h]
    exact ⟨trivial, rfl⟩
  | poll x =>
    have h : d = .poll x := h
    subst h
    exact ⟨by unfold Dbg.poll; open Dbg in fine_fields, trivial, rfl⟩
  | readdirEntry e =>
    obtain ⟨c, rfl⟩ := hb
    refine ⟨Child.debug_fine h, ?_⟩
    rw [← Except.ok.inj ((Child.debug c).symm.trans h)]
    exact ⟨trivial, rfl⟩
  | readdirplusEntry e =>
    obtain ⟨c, hc, rfl⟩ := hb
    refine ⟨PlusChild.debug_fine h, ?_⟩
    have h := (PlusChild.debug c).symm.trans h
    obtain ⟨i, -, h⟩ := bind_ok_elim h
    rw [← pure_ok_elim h]
    exact ⟨trivial, rfl⟩
  | readdirEntries buf =>
    have hl := readdirEntries_listing hb h
    refine ⟨hl.fine, ?_⟩
    obtain ⟨ds, rfl, -⟩ := hl
    exact ⟨trivial, rfl⟩
  | readdirplusEntries buf =>
    have hl := readdirplusEntries_listing hb h
    refine ⟨hl.fine, ?_⟩
    obtain ⟨ds, rfl, -⟩ := hl
    exact ⟨trivial, rfl⟩
  | names buf =>
    have hl := names_listing hb h
    refine ⟨hl.fine, ?_⟩
    obtain ⟨ds, rfl, -⟩ := hl
    exact ⟨trivial, rfl⟩
  | ioctl x b =>
    have h : d = .ioctlResponse x b := h
    subst h
    exact ⟨Dbg.fine_ioctlResponse x b, trivial, rfl⟩
  | retry r =>
    have h : d = .ioctlRetry r := h
    subst h
    exact ⟨Dbg.fine_ioctlRetry r, trivial, rfl⟩
  | slice r =>
    have h : d = .ioctlSlice r := h
    subst h
    exact ⟨Dbg.fine_ioctlSlice r, trivial, rfl⟩

/-- The same text, the same bytes. -/
theorem shown_same {s s' : Shown} {d : Dbg} (hb : s.Built) (hb' : s'.Built) (h : s.Debug d) (h' : s'.Debug d)
    (hv : ∀ v v', s.version = some v → s'.version = some v' → v = v') (m : Nat) : s.sent m = s'.sent m := by
  have hk := (shown_text hb h).2.2.symm.trans (shown_text hb' h').2.2
  cases s <;> cases s' <;> first
    | exact absurd hk (by simp only [Shown.key]; decide)
    | skip
  case attr a b => rw [show a = b from NodeAttr.debug_inj h h']
  case entry a b => rw [show a = b from Entry.debug_inj (Entry.Built.sound hb) (Entry.Built.sound hb') h h']
  case create a b => rw [show a = b from CreateResponse.debug_inj hb hb' h h']
  case fuseInit a b =>
    rw [show a = b from FuseInitResponse.debug_inj hb hb' (hv _ _ rfl rfl) ((show d = _ from h).symm.trans h')]
  case cuseInit a b => rw [show a = b from CuseInitResponse.debug_inj hb hb' ((show d = _ from h).symm.trans h')]
  case statfs a b =>
    obtain ⟨cs, rfl⟩ := hb
    obtain ⟨cs', rfl⟩ := hb'
    have h1 := statfs_rest cs .new
    have h2 := statfs_rest cs' .new
    rw [StatfsAttributes.debug_inj (h1.1.trans h2.1.symm) (h1.2.trans h2.2.symm) ((show d = _ from h).symm.trans h')]
  case header a b => rw [show a = b from ResponseHeader.debug_inj h h']
  case delete a b =>
    obtain ⟨p, i, n, rfl⟩ := hb
    obtain ⟨p', i', n', rfl⟩ := hb'
    have e := (Except.ok.inj ((delete_debug p i n).symm.trans h)).trans
      (Except.ok.inj ((delete_debug p' i' n').symm.trans h')).symm
    obtain ⟨e1, e2, e3⟩ := fields3 e
    rw [Dbg.id_inj.1 e1, Dbg.id_inj.1 e2, Dbg.name_inj.1 e3]
  case invalidateEntry a b =>
    obtain ⟨p, n, rfl⟩ := hb
    obtain ⟨p', n', rfl⟩ := hb'
    have e := (Except.ok.inj ((invalidateEntry_debug p n).symm.trans h)).trans
      (Except.ok.inj ((invalidateEntry_debug p' n').symm.trans h')).symm
    obtain ⟨e1, e2⟩ := fields2 e
    rw [Dbg.id_inj.1 e1, Dbg.name_inj.1 e2]
  case invalidateInode a b => rw [show a = b from InvalidateInode.debug_inj h h']
  case poll a b =>
    have e := Dbg.u64_inj.1 (fields1 ((show d = _ from h).symm.trans h'))
    rw [show a = b from congrArg (fun x => NotifyPoll.mk ⟨x⟩) e]
  case readdirEntry a b =>
    obtain ⟨c, rfl⟩ := hb
    obtain ⟨c', rfl⟩ := hb'
    rw [Child.debug_inj h h']
  case readdirplusEntry a b =>
    obtain ⟨c, hc, rfl⟩ := hb
    obtain ⟨c', hc', rfl⟩ := hb'
    rw [PlusChild.debug_inj hc.sound hc'.sound h h']
  case readdirEntries.readdirEntries a b => rw [readdirEntries_inj hb hb' h h']
  case readdirplusEntries.readdirplusEntries a b => rw [readdirplusEntries_inj hb hb' h h']
  case names.names a b => rw [names_inj hb hb' h h']
  case ioctl a x b y => rw [show a = b from IoctlResponse.debug_inj hb hb' ((show d = _ from h).symm.trans h')]; rfl
  case retry a b => rw [Dbg.ioctlRetry_inj.1 ((show d = _ from h).symm.trans h')]
  case slice a b => rw [Dbg.ioctlSlice_inj.1 ((show d = _ from h).symm.trans h')]
  case readdirEntries.readdirplusEntries a b =>
    obtain ⟨rfl, rfl⟩ := (readdirEntries_listing hb h).empty (readdirplusEntries_listing hb' h') (by decide)
    rfl
  case readdirEntries.names a b =>
    obtain ⟨rfl, rfl⟩ := (readdirEntries_listing hb h).empty (names_listing hb' h') (by decide)
    rfl
  case readdirplusEntries.readdirEntries a b =>
    obtain ⟨rfl, rfl⟩ := (readdirplusEntries_listing hb h).empty (readdirEntries_listing hb' h') (by decide)
    rfl
  case readdirplusEntries.names a b =>
    obtain ⟨rfl, rfl⟩ := (readdirplusEntries_listing hb h).empty (names_listing hb' h') (by decide)
    rfl
  case names.readdirEntries a b =>
    obtain ⟨rfl, rfl⟩ := (names_listing hb h).empty (readdirEntries_listing hb' h') (by decide)
    rfl
  case names.readdirplusEntries a b =>
    obtain ⟨rfl, rfl⟩ := (names_listing hb h).empty (readdirplusEntries_listing hb' h') (by decide)
    rfl

/-- **C72**, formatting: it returns, whatever a server has made. -/
theorem C72_returns (s : Shown) (hb : s.Built) : ∃ d, s.Debug d := by
  cases s with
  | attr a => exact (NodeAttr.Built.sound hb).debug_ok
  | entry e => exact (Entry.Built.sound hb).debug_ok
  | create r => exact CreateResponse.Built.debug_ok hb
  | header x =>
    obtain ⟨cs, ⟨id, rfl⟩ | rfl⟩ := hb
    · exact ResponseHeader.debug_ok (header_len cs _ (by show (16 : UInt32) ≠ 0; decide))
    · exact ResponseHeader.debug_ok (header_len cs _ (by decide))
  | delete x => obtain ⟨p, i, n, rfl⟩ := hb; exact ⟨_, delete_debug p i n⟩
  | invalidateEntry x => obtain ⟨p, n, rfl⟩ := hb; exact ⟨_, invalidateEntry_debug p n⟩
  | invalidateInode x =>
    obtain ⟨i, cs, rfl⟩ := hb
    exact InvalidateInode.debug_ok (by rw [inode_ino]; exact i.property)
  | readdirEntry e => obtain ⟨c, rfl⟩ := hb; exact ⟨_, c.debug⟩
  | readdirplusEntry e => obtain ⟨c, hc, rfl⟩ := hb; exact PlusChild.debug_ok hc.sound
  | readdirEntries buf => exact readdirEntries_ok hb
  | readdirplusEntries buf => exact readdirplusEntries_ok hb
  | names buf => exact names_ok hb
  | _ => exact ⟨_, rfl⟩

/-- **C72**: two values a server has made, neither of them an entry given the attributes of another node, have the
same text, possibly with something behind it, only if the bytes sent are the same and the text ends at the same place.
Missing from the full statement: responses to INIT with different versions, `C72_violated_version`, and entries given
the attributes of another node, `C72_violated_entry`. -/
theorem C72_partial {s s' : Shown} {d d' : Dbg} {rest rest' : Bytes} (hb : s.Built) (hb' : s'.Built) (h : s.Debug d)
    (h' : s'.Debug d') (hv : ∀ v v', s.version = some v → s'.version = some v' → v = v')
    (he : d.text ++ rest = d'.text ++ rest') : (∀ m, s.sent m = s'.sent m) ∧ rest = rest' := by
  obtain ⟨f, c, -⟩ := shown_text hb h
  obtain ⟨f', c', -⟩ := shown_text hb' h'
  obtain ⟨rfl, rfl⟩ := closed_unique f.1 f'.1 c c' he
  exact ⟨shown_same hb hb' h h' hv, rfl⟩

/-- **C72**, indented form. -/
theorem C72_pretty_partial {s s' : Shown} {d d' : Dbg} {n : Nat} {rest rest' : Bytes} (hb : s.Built) (hb' : s'.Built)
    (h : s.Debug d) (h' : s'.Debug d') (hv : ∀ v v', s.version = some v → s'.version = some v' → v = v')
    (he : d.pretty n ++ rest = d'.pretty n ++ rest') : (∀ m, s.sent m = s'.sent m) ∧ rest = rest' := by
  obtain ⟨f, c, -⟩ := shown_text hb h
  obtain ⟨f', c', -⟩ := shown_text hb' h'
  obtain ⟨rfl, rfl⟩ := pretty_closed_unique f.1 f'.1 f.2 f'.2 c c' he
  exact ⟨shown_same hb hb' h h' hv, rfl⟩

/-- **C72** does not hold of responses to INIT: the text is the same for all versions. -/
theorem C72_violated_version : ∃ a b : FuseInitResponse, a.Built ∧ b.Built ∧
    (∃ d, (Shown.fuseInit a).Debug d ∧ (Shown.fuseInit b).Debug d) ∧
    ∀ m, (Shown.fuseInit a).sent m ≠ (Shown.fuseInit b).sent m := by
  refine ⟨FuseInitResponse.setVersion {} ⟨7, 1⟩, FuseInitResponse.setVersion {} ⟨7, 36⟩, .version _ .new,
    .version _ .new, ⟨_, rfl, rfl⟩, fun m h => ?_⟩
  revert h
  show (FuseReply.init _).payload 0 ≠ (FuseReply.init _).payload 0
  decide

/-- **C72** does not hold of entries given the attributes of another node: the text is that of an entry made from
these attributes. -/
theorem C72_violated_entry : ∃ a b : NodeAttr, a.Built ∧ b.Built ∧
    (∃ d, (Shown.entry ((Entry.new a).use (.assign b))).Debug d ∧ (Shown.entry (.new b)).Debug d) ∧
    ∀ m, (Shown.entry ((Entry.new a).use (.assign b))).sent m ≠ (Shown.entry (.new b)).sent m := by
  refine ⟨.new ⟨5, by decide⟩, .new ⟨6, by decide⟩, .new _, .new _, ⟨_, rfl, rfl⟩, fun m h => ?_⟩
  have h := congrArg Spec.entryIds h
  have e : ∀ x : Entry, Spec.entryIds ((Shown.entry x).sent m) = _ := fun x => ids_sent x m
  rw [e, e] at h
  revert h
  decide

/-! ## Cases -/

/-- An entry with a timeout of one and a half seconds. -/
def shownEntry : Entry := ((Entry.new (.new ⟨5, by decide⟩)).use (.call (.cacheTimeout ⟨1, 500000000, by decide⟩))).use
  (.call (.attributes (.atime ⟨-7, 3⟩)))

example : shownEntry.Built :=
  .call (.attributes (.atime ⟨-7, 3⟩)) (.call (.cacheTimeout ⟨1, 500000000, by decide⟩) (.new (.new _)) trivial)
    (by show (3 : UInt32) ≤ _; decide)

example : ∃ d, (Shown.entry shownEntry).Debug d ∧ d.text = text
    ("Entry { generation: 0, attributes: NodeAttr { node_id: 5, mode: 0o0, size: 0, atime: UnixTime(-7.000000003), " ++
      "mtime: UnixTime(0.000000000), ctime: UnixTime(0.000000000), link_count: 0, user_id: 0, group_id: 0, " ++
      "device_number: 0, block_count: 0, block_size: 0, flags: AttributeFlags {} }, cache_timeout: 1.5s, " ++
      "attribute_cache_timeout: 0ns }") := by
  refine ⟨_, rfl, by decide +kernel⟩

/-- A response asking for a retry with a single slice, whose result was set or not. -/
example : (∃ d, (Shown.ioctl (.newRetry ⟨[⟨4096, 8⟩], []⟩) false).Debug d ∧ d.text = text
      "IoctlResponse { retry: IoctlRetry { input_slices: [IoctlSlice { base: 0x0000000000001000, len: 8 }], output_slices: [] } }") ∧
    ∃ d, (Shown.ioctl (.setResult (.newRetry ⟨[], []⟩) (-1)) true).Debug d ∧ d.text = text
      "IoctlResponse { result: -1, retry: IoctlRetry { input_slices: [], output_slices: [] } }" := by
  refine ⟨⟨_, rfl, by decide +kernel⟩, _, rfl, by decide +kernel⟩

example : ∃ d, (Shown.header ((ResponseHeader.new ⟨3, by decide⟩).setError ⟨-2, by decide⟩)).Debug d ∧ d.text = text
    "ResponseHeader { request_id: Some(3), response_len: 16, error: Some(-2) }" := by
  refine ⟨_, rfl, by decide +kernel⟩

/-- A listing of an empty directory and an empty list of names have the same text. -/
example : ReaddirBuilt [] ∧ NamesBuilt [] ∧ ReaddirEntriesDebug [] (.list []) ∧ ListxattrNamesDebug [] (.list []) :=
  ⟨⟨0, [], [], [], _, rfl, rfl, rfl⟩, ⟨.linux, [], [], [], _, rfl, rfl⟩, ⟨[], [], ⟨1, rfl⟩, rfl, rfl⟩, ⟨[], ⟨1, rfl⟩, rfl⟩⟩

end Fuse
