import Verif.PropRpc
import Verif.PropSharp
import Verif.Old

/-!
# C82: older clients are served as well

C78 for clients of older versions of the protocol, from 7.7 on.
-/

namespace Fuse
open Spec

/-! ## What older versions can express -/

/-- Operations as version 7.`minor` of the protocol has them.  Locks have another form before 7.9, which the library does not
know (`C11_violated_lk`); READDIRPLUS does not exist in versions with another form of ENTRY replies. -/
def Spec.Op.OkIn (minor : Nat) (ext : Bool) (op : Op) : Prop :=
  op.Ok ext ∧ match op with
    | .create _ _ _ flags _ umask => minor < 12 → flags = 0 ∧ umask = 0
    | .mknod _ _ _ umask _ | .mkdir _ _ _ umask => minor < 12 → umask = 0
    | .getattr _ fh => minor < 9 → fh = none
    | .read _ _ _ _ owner openFlags => minor < 9 → owner = none ∧ openFlags = 0
    | .readdir _ _ _ _ openFlags => minor < 9 → openFlags = 0
    | .write _ _ _ _ _ owner openFlags => minor < 9 → owner = none ∧ openFlags = 0
    | .release _ _ _ owner | .releasedir _ _ _ owner => minor < 8 → owner = none
    | .getlk .. | .setlk .. | .readdirplus .. => 9 ≤ minor
    | _ => True

/-- Nothing is said about a file that version 7.`minor` has no room for. -/
def Spec.Info.FitsIn (minor : Nat) (i : Info) : Prop :=
  minor < 9 → i.blockSize = 0 ∧ i.submount = false ∧ i.dax = false

/-- Answers as version 7.`minor` of the protocol has them. -/
def Spec.Ans.FitsIn (minor : Nat) : Ans → Prop
  | .entry f | .created f _ _ => f.info.FitsIn minor
  | .attr i _ => i.FitsIn minor
  | _ => True

/-- A program that only asks what version 7.`minor` can express, in requests of at most `n` bytes, of a filesystem that only
answers what it can express. -/
def Spec.Use.ValidIn {α S : Type} (act : Caller → Op → S → Ans × S) (minor : Nat) (ext : Bool) (n : Nat) : Use α → S → Prop
  | .done _, _ => True
  | .call who op k, s =>
    op.OkIn minor ext ∧ 40 + (op.requestIn minor ext).2.body.length ≤ min n 0xFFFFFFFF ∧
      (op.kind.Allows (act who op s).1 ∧ (act who op s).1.FitsIn minor) ∧
      (k (act who op s).1).ValidIn act minor ext n (act who op s).2

/-- What the library understands: before 7.9, no WRITE of less than 16 bytes, and before 7.12, no mode in CREATE. -/
def Spec.Op.Understood (minor : Nat) : Op → Prop
  | .write _ _ _ data _ _ _ => minor < 9 → 16 ≤ data.length
  | .create _ _ _ _ mode _ => minor < 12 → mode = 0
  | _ => True

/-- What reaches the filesystem, if not as it was asked. -/
def Spec.Op.Arrives (minor : Nat) : Op → Prop
  | .write _ _ _ data _ _ _ => minor < 9 → 16 ≤ data.length
  | _ => True

/-- What the filesystem is asked: the mode in CREATE is 0 before 7.12. -/
def Spec.Op.seenIn (minor : Nat) : Op → Op
  | .create parent name openFlags flags mode umask =>
    .create parent name openFlags flags (if minor < 12 then 0 else mode) umask
  | op => op

/-- A program that asks nothing else than what is `good`. -/
def Spec.Use.AsksOnly {α S : Type} (act : Caller → Op → S → Ans × S) (good : Op → Prop) : Use α → S → Prop
  | .done _, _ => True
  | .call who op k, s => good op ∧ (k (act who op s).1).AsksOnly act good (act who op s).2

/-! ## Requests -/

theorem version_lt {layout : FuseLayout} {n : Nat} (hn : n < 2 ^ 16) (h : layout.versionMinor.toNat < n) :
    layout.versionMinor < UInt16.ofNat n := by
  rw [UInt16.lt_iff_toNat_lt, UInt16.toNat_ofNat']
  omega

theorem version_le {layout : FuseLayout} {n : Nat} (hn : n < 2 ^ 16) (h : ¬ layout.versionMinor.toNat < n) :
    UInt16.ofNat n ≤ layout.versionMinor := by
  rw [UInt16.le_iff_toNat_le, UInt16.toNat_ofNat']
  omega

theorem layout_minor_lt {layout : FuseLayout} {n : Nat} (hn : n < 2 ^ 16) (h : layout.versionMinor.toNat < n) :
    layout.minor < UInt32.ofNat n := by
  rw [UInt32.lt_iff_toNat_lt]
  show layout.versionMinor.toUInt32.toNat < _
  rw [UInt16.toNat_toUInt32, UInt32.toNat_ofNat']
  omega

theorem Spec.Op.Understood.arrives {minor : Nat} {op : Op} (h : op.Understood minor) :
    op.Arrives minor ∧ op.seenIn minor = op := by
  cases op with
  | write => exact ⟨h, rfl⟩
  | create parent name openFlags flags mode umask =>
    refine ⟨trivial, ?_⟩
    show Op.create parent name openFlags flags (if minor < 12 then 0 else mode) umask = _
    by_cases hm : minor < 12
    · rw [if_pos hm, h hm]
    · rw [if_neg hm]
  | _ => exact ⟨trivial, rfl⟩

theorem Spec.Op.seenIn_new {minor : Nat} (h : 12 ≤ minor) (op : Op) : op.seenIn minor = op := by
  cases op with
  | create parent name openFlags flags mode umask =>
    show Op.create parent name openFlags flags (if minor < 12 then 0 else mode) umask = _
    rw [if_neg (by omega)]
  | _ => rfl

theorem Spec.Op.seenIn_kind {minor : Nat} (op : Op) : (op.seenIn minor).kind = op.kind := by cases op <;> rfl

/-- Every operation that arrives reaches its handler, and is what is taken from the request. -/
theorem request_in {layout : FuseLayout} {checks ext : Bool} {minor : Nat} (hm : layout.versionMinor.toNat = minor)
    (hext : ext = true ↔ layout.features &&& 1 ≠ 0) {op : Op} (hv : op.OkIn minor ext) (hu : op.Arrives minor)
    (hl : 40 + (op.requestIn minor ext).2.body.length < 2 ^ 32) :
    (∃ m t, Reaches layout checks (op.requestIn minor ext).1 (op.requestIn minor ext).2 m t) ∧
      ∀ q, (op.requestIn minor ext).2.Matches (op.requestIn minor ext).1 false q →
        q.op = .ok (some (op.seenIn minor)) := by
  obtain ⟨hok, hold⟩ := hv
  subst hm
  have new (hn : op.NewIn layout.versionMinor) (hs : op.seenIn layout.versionMinor.toNat = op) (he : op.requestIn layout.versionMinor.toNat ext = op.request ext) :
      (∃ m t, Reaches layout checks (op.requestIn layout.versionMinor.toNat ext).1
          (op.requestIn layout.versionMinor.toNat ext).2 m t) ∧
        ∀ q, (op.requestIn layout.versionMinor.toNat ext).2.Matches (op.requestIn layout.versionMinor.toNat ext).1 false q →
          q.op = .ok (some (op.seenIn layout.versionMinor.toNat)) := by
    rw [hs]
    rw [he] at hl ⊢
    exact ⟨request_reaches hn hext hok hl, fun _ => op_of_matches hok⟩
  cases op with
  | create parent name openFlags flags mode umask =>
    by_cases h : layout.versionMinor.toNat < 12
    · have e : (Op.create parent name openFlags flags mode umask).requestIn layout.versionMinor.toNat ext =
        (parent.val, .createOld ⟨openFlags, mode⟩ name) := if_pos h
      rw [e]
      refine ⟨⟨_, _, rfl, rfl, version_lt (n := 12) (by decide) h, ⟨parent.2, hok⟩, rfl, trivial, False.elim⟩, fun q hq => ?_⟩
      cases q <;> try exact hq.elim
      obtain ⟨h1, h2, h3, h4, h5, h6⟩ := hq
      obtain ⟨rfl, rfl⟩ := hold h
      simp only [AnyRequest.op, IdIs.eq (i := parent) h1, h2, h3, h4, h5, h6, bind, Except.bind, pure, Except.pure, Op.seenIn,
        if_pos h]
    · exact new (version_le (by decide) h) (Op.seenIn_new (Nat.not_lt.mp h) _) (if_neg h)
  | mknod parent name mode umask device =>
    by_cases h : layout.versionMinor.toNat < 12
    · have e : (Op.mknod parent name mode umask device).requestIn layout.versionMinor.toNat ext =
        (parent.val, .mknodOld ⟨mode, device.getD 0⟩ name) := if_pos h
      rw [e]
      refine ⟨⟨_, _, rfl, rfl, version_lt (n := 12) (by decide) h, ⟨parent.2, hok.1⟩, rfl, trivial, False.elim⟩, fun q hq => ?_⟩
      cases q <;> try exact hq.elim
      obtain ⟨h1, h2, h3, h4, h5⟩ := hq
      obtain rfl := hold h
      have hd : (if mode &&& 0xF000 = 0x2000 ∨ mode &&& 0xF000 = 0x6000 then some (device.getD 0) else none) = device := by
        cases device with
        | none => exact if_neg fun e => absurd (hok.2.mpr e) (by decide)
        | some d => exact if_pos (hok.2.mp rfl)
      simp only [AnyRequest.op, IdIs.eq (i := parent) h1, h2, h3, h4, h5, hd, bind, Except.bind, pure, Except.pure, Op.seenIn]
    · exact new (version_le (by decide) h) rfl (if_neg h)
  | getattr node fh =>
    by_cases h : layout.versionMinor.toNat < 9
    · have e : (Op.getattr node fh).requestIn layout.versionMinor.toNat ext = (node.val, .getattrOld) := if_pos h
      rw [e]
      refine ⟨⟨_, _, rfl, rfl, version_lt (n := 9) (by decide) h, node.2, rfl, trivial, False.elim⟩, fun q hq => ?_⟩
      cases q <;> try exact hq.elim
      obtain ⟨h1, h2⟩ := hq
      obtain rfl := hold h
      simp only [AnyRequest.op, IdIs.eq (i := node) h1, h2, bind, Except.bind, pure, Except.pure, Op.seenIn]
    · exact new (version_le (by decide) h) rfl (if_neg h)
  | read node fh offset size owner openFlags =>
    by_cases h : layout.versionMinor.toNat < 9
    · have e : (Op.read node fh offset size owner openFlags).requestIn layout.versionMinor.toNat ext =
        (node.val, .readOld ⟨fh, offset, size, 0⟩) := if_pos h
      rw [e]
      refine ⟨⟨_, _, rfl, rfl, layout_minor_lt (n := 9) (by decide) h, .inr node.2, rfl, trivial, False.elim⟩, fun q hq => ?_⟩
      cases q <;> try exact hq.elim
      obtain ⟨h1, h2, h3, h4, h5, h6⟩ := hq
      obtain ⟨rfl, rfl⟩ := hold h
      simp only [AnyRequest.op, IdOrRoot.eq (i := node) h1, h2, h3, h4, h5, h6, bind, Except.bind, pure, Except.pure, Op.seenIn]
    · exact new (version_le (by decide) h) rfl (if_neg h)
  | readdir node fh offset size openFlags =>
    by_cases h : layout.versionMinor.toNat < 9
    · have e : (Op.readdir node fh offset size openFlags).requestIn layout.versionMinor.toNat ext =
        (node.val, .readdirOld ⟨fh, offset, size, 0⟩) := if_pos h
      rw [e]
      refine ⟨⟨_, _, rfl, rfl, version_lt (n := 9) (by decide) h, node.2, rfl, trivial, False.elim⟩, fun q hq => ?_⟩
      cases q <;> try exact hq.elim
      obtain ⟨h1, h2, h3, h4, o, h5, h6⟩ := hq
      obtain rfl := hold h
      simp only [AnyRequest.op, IdIs.eq (i := node) h1, h2, h3, h4, h5, offset_value h6, bind, Except.bind, pure, Except.pure, Op.seenIn]
    · exact new (version_le (by decide) h) rfl (if_neg h)
  | release node fh openFlags owner =>
    by_cases h : layout.versionMinor.toNat < 8
    · have e : (Op.release node fh openFlags owner).requestIn layout.versionMinor.toNat ext =
        (node.val, .releaseOld ⟨fh, openFlags, 0⟩) := if_pos h
      rw [e]
      refine ⟨⟨_, _, rfl, rfl, layout_minor_lt (n := 8) (by decide) h, .inr node.2, rfl, trivial, False.elim⟩, fun q hq => ?_⟩
      cases q <;> try exact hq.elim
      obtain ⟨h1, h2, h3, h4⟩ := hq
      obtain rfl := hold h
      simp only [AnyRequest.op, IdOrRoot.eq (i := node) h1, h2, h3, h4, bind, Except.bind, pure, Except.pure, Op.seenIn]
    · exact new (version_le (by decide) h) rfl (if_neg h)
  | releasedir node fh openFlags owner =>
    by_cases h : layout.versionMinor.toNat < 8
    · have e : (Op.releasedir node fh openFlags owner).requestIn layout.versionMinor.toNat ext =
        (node.val, .releasedirOld ⟨fh, openFlags, 0⟩) := if_pos h
      rw [e]
      refine ⟨⟨_, _, rfl, rfl, version_lt (n := 8) (by decide) h, node.2, rfl, trivial, False.elim⟩, fun q hq => ?_⟩
      cases q <;> try exact hq.elim
      obtain ⟨h1, h2, h3, h4⟩ := hq
      obtain rfl := hold h
      simp only [AnyRequest.op, IdIs.eq (i := node) h1, h2, h3, h4, bind, Except.bind, pure, Except.pure, Op.seenIn]
    · exact new (version_le (by decide) h) rfl (if_neg h)
  | write node fh offset data flags owner openFlags =>
    by_cases h : layout.versionMinor.toNat < 9
    · have e : (Op.write node fh offset data flags owner openFlags).requestIn layout.versionMinor.toNat ext =
        (node.val, .writeOld ⟨fh, offset, UInt32.ofNat data.length, flags⟩ data) := if_pos h
      rw [e] at hl ⊢
      have hb : (ClientReq.writeOld ⟨fh, offset, UInt32.ofNat data.length, flags⟩ data).body.length = 24 + data.length :=
        List.length_append ..
      have h16 : 16 ≤ data.length := hu h
      dsimp only at hl
      have hd : (UInt32.ofNat data.length).toNat = data.length := UInt32.toNat_ofNat_of_lt' (show _ < 2 ^ 32 by omega)
      refine ⟨⟨_, _, rfl, rfl, layout_minor_lt (n := 9) (by decide) h, ⟨.inr node.2, hd⟩, rfl, trivial, fun _ => ?_⟩,
        fun q hq => ?_⟩
      · rw [hb]
        omega
      cases q <;> try exact hq.elim
      obtain ⟨⟨n, h0, h1⟩, h2, h3, h4, h5, h6, h7⟩ := hq
      obtain ⟨rfl, rfl⟩ := hold h
      simp only [AnyRequest.op, h0, IdOrRoot.eq (i := node) h1, h2, h3, h4, h5, h6, h7, bind, Except.bind, pure, Except.pure,
        Op.seenIn]
    · exact new (version_le (by decide) h) rfl (if_neg h)
  | readdirplus node fh offset size openFlags => exact new (version_le (by decide) (Nat.not_lt.mpr hold)) rfl rfl
  | _ => exact new trivial rfl rfl

/-- What is understood is what is taken from the request. -/
theorem request_as_asked {layout : FuseLayout} {checks ext : Bool} {minor : Nat} (hm : layout.versionMinor.toNat = minor)
    (hext : ext = true ↔ layout.features &&& 1 ≠ 0) {op : Op} (hv : op.OkIn minor ext) (hu : op.Understood minor)
    (hl : 40 + (op.requestIn minor ext).2.body.length < 2 ^ 32) :
    (∃ m t, Reaches layout checks (op.requestIn minor ext).1 (op.requestIn minor ext).2 m t) ∧
      ∀ q, (op.requestIn minor ext).2.Matches (op.requestIn minor ext).1 false q → q.op = .ok (some op) := by
  have := request_in (checks := checks) hm hext hv hu.arrives.1 hl
  rwa [hu.arrives.2] at this

/-! ## Replies -/

theorem attr_widen {x : FuseAttr} (h1 : x.blksize = 0) (h2 : x.flags = 0) :
    layout_fuse_attr_v7p1 x ++ List.replicate 8 0 = layout_fuse_attr x := by
  have e : layout_fuse_attr x = layout_fuse_attr_v7p1 x ++ (le32 x.blksize ++ le32 x.flags) := by
    simp [layout_fuse_attr, layout_fuse_attr_v7p1, List.append_assoc]
  rw [e, h1, h2]
  rfl

theorem info_raw {minor : Nat} {i : Info} (h : i.FitsIn minor) (hm : minor < 9) : i.attr.raw.blksize = 0 ∧ i.attr.raw.flags = 0 := by
  obtain ⟨h1, h2, h3⟩ := h hm
  refine ⟨h1, ?_⟩
  rw [attr_flags, h2, h3]
  decide

theorem entry_widen {x : FuseEntryOut} {minor : Nat} (hm : minor < 9) (h1 : x.attr.blksize = 0) (h2 : x.attr.flags = 0) :
    entryBytes minor x ++ List.replicate 8 0 = entryBytes 9 x := by
  unfold entryBytes attrBytes
  rw [if_pos hm, if_neg (by decide), ← attr_widen h1 h2]
  simp only [List.append_assoc]

theorem entry_old_length {x : FuseEntryOut} {minor : Nat} (hm : minor < 9) : (entryBytes minor x).length = 120 := by
  rw [entryBytes_length]; unfold entryOutSize; rw [if_pos hm]

/-- A reply in an older version, with zeros where it has nothing, is the reply in version 7.9. -/
theorem reply_widen {os : Os} {addr room minor : Nat} (h4 : 4 ≤ minor) (hm : minor < 9) {k : Kind} {a : Ans} (ha : k.Allows a)
    (hf : a.FitsIn minor) {r : FuseAnswer} (hr : a.reply os addr room = .ok (some r)) (he : r.error = 0)
    (hl : 16 + (r.payload 9).length < 2 ^ 32) :
    k.widen minor (r.payload minor) = some (r.payload 9) ∧ 16 + (r.payload minor).length < 2 ^ 32 := by
  have same (hs : r.payload minor = r.payload 9) (hk : k ≠ .entry ∧ k ≠ .attr ∧ k ≠ .created) :
      k.widen minor (r.payload minor) = some (r.payload 9) ∧ 16 + (r.payload minor).length < 2 ^ 32 := by
    refine ⟨?_, hs ▸ hl⟩
    unfold Kind.widen
    rw [if_neg (by omega), hs]
    cases k <;> first | rfl | exact absurd rfl hk.1 | exact absurd rfl hk.2.1 | exact absurd rfl hk.2.2
  have fixed (hs : ∀ m, r.payload m = r.payload 9) (ha : k ≠ .entry ∧ k ≠ .attr ∧ k ≠ .created) := same (hs minor) ha
  cases a with
  | entry f =>
    have hk : k = .entry := by cases k <;> first | rfl | exact ha.elim | exact nomatch ha
    subst hk
    obtain rfl : r = .ok (.entry f.entry) := (Option.some.inj (Except.ok.inj hr)).symm
    obtain ⟨e1, e2⟩ := info_raw hf hm
    have hw : entryBytes minor f.entry.raw ++ List.replicate 8 0 = entryBytes 9 f.entry.raw := entry_widen hm e1 e2
    have hz := entry_old_length (x := f.entry.raw) hm
    refine ⟨?_, ?_⟩
    · show Kind.widen minor .entry (entryBytes minor f.entry.raw) = some (entryBytes 9 f.entry.raw)
      unfold Kind.widen
      rw [if_neg (by omega)]
      dsimp only
      rw [if_pos hz, hw]
    · show 16 + (entryBytes minor f.entry.raw).length < _
      rw [hz]; decide
  | absent d =>
    have hk : k = .entry := by cases k <;> first | rfl | exact ha.elim | exact nomatch ha
    subst hk
    obtain rfl := (Option.some.inj (Except.ok.inj hr)).symm
    have hw : entryBytes minor { entry_valid := (splitDuration d).1, entry_valid_nsec := (splitDuration d).2 } ++
        List.replicate 8 0 = entryBytes 9 { entry_valid := (splitDuration d).1, entry_valid_nsec := (splitDuration d).2 } :=
      entry_widen hm rfl rfl
    have hz := entry_old_length (x := { entry_valid := (splitDuration d).1, entry_valid_nsec := (splitDuration d).2 }) hm
    refine ⟨?_, ?_⟩
    · show Kind.widen minor .entry (entryBytes minor _) = some (entryBytes 9 _)
      unfold Kind.widen
      rw [if_neg (by omega)]
      dsimp only
      rw [if_pos hz, hw]
    · show 16 + (entryBytes minor _).length < _
      rw [hz]; decide
  | attr i d =>
    have hk : k = .attr := by cases k <;> first | rfl | exact ha.elim | exact nomatch ha
    subst hk
    obtain rfl := (Option.some.inj (Except.ok.inj hr)).symm
    obtain ⟨e1, e2⟩ := info_raw hf hm
    have hw : attrOutBytes minor ⟨(splitDuration d).1, (splitDuration d).2, 0, i.attr.raw⟩ ++ List.replicate 8 0 =
        attrOutBytes 9 ⟨(splitDuration d).1, (splitDuration d).2, 0, i.attr.raw⟩ := by
      unfold attrOutBytes attrBytes
      rw [if_pos hm, if_neg (by decide), ← attr_widen e1 e2]
      simp only [List.append_assoc]
    have hz : (attrOutBytes minor ⟨(splitDuration d).1, (splitDuration d).2, 0, i.attr.raw⟩).length = 96 := by
      have := (C19_attr minor ⟨(splitDuration d).1, (splitDuration d).2, 0, i.attr.raw⟩).1
      unfold attrOutSize at this
      rwa [if_pos hm] at this
    refine ⟨?_, ?_⟩
    · show Kind.widen minor .attr (attrOutBytes minor _) = some (attrOutBytes 9 _)
      unfold Kind.widen
      rw [if_neg (by omega)]
      dsimp only
      rw [if_pos hz, hw]
    · show 16 + (attrOutBytes minor _).length < _
      rw [hz]; decide
  | created f fh flags =>
    have hk : k = .created := by cases k <;> first | rfl | exact ha.elim | exact nomatch ha
    subst hk
    obtain rfl := (Option.some.inj (Except.ok.inj hr)).symm
    obtain ⟨e1, e2⟩ := info_raw hf hm
    have hw : entryBytes minor f.entry.raw ++ List.replicate 8 0 = entryBytes 9 f.entry.raw := entry_widen hm e1 e2
    have hz := entry_old_length (x := f.entry.raw) hm
    have hlen : (entryBytes minor f.entry.raw ++ (le64 fh ++ le32 flags ++ le32 0)).length = 136 := by
      rw [List.length_append, hz]; simp
    refine ⟨?_, ?_⟩
    · show Kind.widen minor .created (entryBytes minor f.entry.raw ++ (le64 fh ++ le32 flags ++ le32 0)) =
        some (entryBytes 9 f.entry.raw ++ (le64 fh ++ le32 flags ++ le32 0))
      unfold Kind.widen
      rw [if_neg (by omega)]
      dsimp only
      rw [if_pos hlen, List.take_left' hz, List.drop_left' hz, hw]
    · show 16 + (entryBytes minor f.entry.raw ++ (le64 fh ++ le32 flags ++ le32 0)).length < _
      rw [hlen]; decide
  | space x =>
    have hk : k = .space := by cases k <;> first | rfl | exact ha.elim | exact nomatch ha
    subst hk
    obtain rfl := (Option.some.inj (Except.ok.inj hr)).symm
    refine same ?_ ⟨nofun, nofun, nofun⟩
    show statfsBytes minor _ = statfsBytes 9 _
    unfold statfsBytes
    rw [if_neg (by omega), if_neg (by decide)]
  | error e =>
    obtain rfl := (Option.some.inj (Except.ok.inj hr)).symm
    exact absurd he e.2
  | items l =>
    have hs : ∃ b, r = .ok (.readdirEntries b) := by
      simp only [Ans.reply, bind, Except.bind] at hr
      split at hr
      · cases hr
      · split at hr
        · cases hr
        · exact ⟨_, (Option.some.inj (Except.ok.inj hr)).symm⟩
    obtain ⟨b, rfl⟩ := hs
    exact fixed (fun _ => rfl) ⟨fun h => by subst h; exact ha, fun h => by subst h; exact ha, fun h => by subst h; exact ha⟩
  | plusItems l =>
    have hs : ∃ b, r = .ok (.readdirEntries b) := by
      simp only [Ans.reply, bind, Except.bind] at hr
      split at hr
      · cases hr
      · split at hr
        · cases hr
        · exact ⟨_, (Option.some.inj (Except.ok.inj hr)).symm⟩
    obtain ⟨b, rfl⟩ := hs
    exact fixed (fun _ => rfl) ⟨fun h => by subst h; exact ha, fun h => by subst h; exact ha, fun h => by subst h; exact ha⟩
  | names l =>
    have hs : ∃ b, r = .ok (.listxattrNames b) := by
      simp only [Ans.reply, bind, Except.bind] at hr
      split at hr
      · cases hr
      · split at hr
        · cases hr
        · split at hr
          · cases hr
          · exact ⟨_, (Option.some.inj (Except.ok.inj hr)).symm⟩
    obtain ⟨b, rfl⟩ := hs
    exact fixed (fun _ => rfl) ⟨fun h => by subst h; exact ha, fun h => by subst h; exact ha, fun h => by subst h; exact ha⟩
  | silent => cases hr
  | broken => cases hr
  | _ =>
    obtain rfl := (Option.some.inj (Except.ok.inj hr)).symm
    exact fixed (fun _ => rfl) ⟨fun h => by subst h; exact ha, fun h => by subst h; exact ha, fun h => by subst h; exact ha⟩

theorem hear_in_ok {minor : Nat} {k : Kind} {u : UInt64} {p p' : Bytes} {a : Ans} (hp : 16 + p.length < 2 ^ 32)
    (hw : k.widen minor p = some p') (hr : k.read p' = some a) : k.hearIn minor u [frame u 0 p] = a := by
  unfold Kind.hearIn
  cases k with
  | silent => cases hr
  | _ =>
    dsimp only
    rw [parse_frame_ok _ _ hp]
    dsimp only
    rw [hw]
    exact congrArg (fun x : Option Ans => x.getD .broken) hr

theorem hear_in_error {minor : Nat} {k : Kind} {u : UInt64} (e : FuseError) (hk : k ≠ .silent) :
    k.hearIn minor u [frame u e.val []] = .error e := by
  unfold Kind.hearIn
  cases k with
  | silent => exact absurd rfl hk
  | _ =>
    dsimp only
    rw [parse_frame_err]
    dsimp only
    rw [dif_pos e.2]

section
variable {S α : Type} (srv : RpcServer S)

/-- An answer is sent as a reply that a client of the connection's version reads as that answer; see `reply_runs`. -/
theorem reply_runs_in {ω ε : Type} (sock : Socket (Option S × ω) ε) (put : Bytes → ω → ω)
    (hput : ∀ {b : SendBuf} {msg : Bytes}, Carries b msg → ∀ w, sock.send b w = (.ok (), (w.1, put msg w.2)))
    {layout : FuseLayout} {minor : Nat} (hm : layout.versionMinor.toNat = minor) (h4 : 4 ≤ minor) {os : Os} {addr : Nat}
    (haddr : addr % 8 = 0) {id : NonZeroU64} {op : Op} {a : Ans} (ha : op.kind.Allows a) (hf : a.FitsIn minor) {s' : S} {w : ω} :
    ∃ out : List Bytes,
      (match a.reply os addr op.room with
        | .ok (some a) =>
          match a.run (.new sock layout id) (some s', w) with
          | (.ok (), w) => w
          | (.error _, w) => (none, w.2)
        | .ok none => (some s', w)
        | .error _ => (none, w)) = (some s', out.foldl (fun w m => put m w) w) ∧
        op.kind.hearIn minor id.val out = a ∧
        ((op.kind = .silent ∧ out = []) ∨ (op.kind ≠ .silent ∧ ∃ m, out = [m] ∧ u64At m 8 = id.val.toNat)) := by
  by_cases hs : a = .silent
  · subst hs
    have hk : op.kind = .silent := by
      generalize op.kind = kd at ha
      cases kd <;> first | rfl | exact ha.elim
    refine ⟨[], rfl, ?_, .inl ⟨hk, rfl⟩⟩
    rw [hk]
    rfl
  · have hk : op.kind ≠ .silent := by
      intro h
      rw [h] at ha
      exact hs ha
    by_cases he : ∃ e, a = .error e
    · obtain ⟨e, rfl⟩ := he
      obtain ⟨b, hb, hrun⟩ := C17_fuse sock layout id (.err e) (some s', w) (show 16 + 0 < 2 ^ 32 by decide)
      refine ⟨[frame id.val e.val []], ?_, hear_in_error e hk,
        .inr ⟨hk, _, rfl, (C17_frame id.val e.val [] (by decide)).2.2.1⟩⟩
      show (match (FuseAnswer.err e).run (.new sock layout id) (some s', w) with
        | (.ok (), w) => w
        | (.error _, w) => (none, w.2)) = _
      rw [hrun, hput hb]
      rfl
    · have key : ∃ r p, a.reply os addr op.room = .ok (some r) ∧ r.error = 0 ∧ 16 + (r.payload minor).length < 2 ^ 32 ∧
          op.kind.widen minor (r.payload minor) = some p ∧ op.kind.read p = some a := by
        by_cases h9 : 9 ≤ minor
        · obtain ⟨r, r1, r2, r3, r4⟩ := reply_read (os := os) haddr h9 ha hs (fun e h => he ⟨e, h⟩)
          refine ⟨r, _, r1, r2, r3, ?_, r4⟩
          unfold Kind.widen
          rw [if_pos h9]
        · obtain ⟨r, r1, r2, r3, r4⟩ := reply_read (os := os) haddr (Nat.le_refl 9) ha hs (fun e h => he ⟨e, h⟩)
          obtain ⟨w1, w2⟩ := reply_widen h4 (by omega) ha hf r1 r2 r3
          exact ⟨r, _, r1, r2, w2, w1, r4⟩
      obtain ⟨r, p, r1, r2, r3, r4, r5⟩ := key
      obtain ⟨b, hb, hrun⟩ := C17_fuse sock layout id r (some s', w) (by rw [hm]; exact r3)
      refine ⟨[frame id.val 0 (r.payload minor)], ?_, hear_in_ok r3 r4 r5,
        .inr ⟨hk, _, rfl, (C17_frame id.val 0 _ r3).2.2.1⟩⟩
      rw [r1]
      dsimp only
      rw [hrun, hput hb, r2, hm]
      rfl

/-! ## Serving -/

/-- One request. -/
theorem old_step (haddr : ∀ op, srv.addr op % 8 = 0) {minor : Nat} (hm : srv.layout.versionMinor.toNat = minor) (h7 : 7 ≤ minor)
    {ext : Bool} (hext : ext = true ↔ srv.layout.features &&& 1 ≠ 0) {u : UInt64} (hu : u ≠ 0) {who : Caller} {op : Op} {s : S}
    {buf : Bytes} (hok : op.OkIn minor ext) (hund : op.Arrives minor)
    (hfit : 40 + (op.requestIn minor ext).2.body.length ≤ min buf.length 0xFFFFFFFF)
    (ha : op.kind.Allows (srv.act who (op.seenIn minor) s).1 ∧ (srv.act who (op.seenIn minor) s).1.FitsIn minor) {heard : List Bytes}
    {k k' : List Bytes → Talk α}
    (hk : k heard = .say ((op.requestIn minor ext).2.message u (op.requestIn minor ext).1 who.uid who.gid who.pid 0) k') :
    ∃ buf' out, buf'.length = buf.length ∧
      fuseServeStep (Wired.socket (Option S) α) (srv.handlers (Wired.socket (Option S) α)) (buf, (some s, heard, k)) =
        .inr (buf', (some (srv.act who (op.seenIn minor) s).2, out, k')) ∧
      op.kind.hearIn minor u out = (srv.act who (op.seenIn minor) s).1 := by
  obtain ⟨⟨m0, t0, hr⟩, hmatch⟩ := request_in (checks := srv.checks) hm hext hok hund (by omega)
  rw [← op.seenIn_kind (minor := minor)] at ha ⊢
  generalize hmsg : (op.requestIn minor ext).2.message u (op.requestIn minor ext).1 who.uid who.gid who.pid 0 = msg at *
  obtain ⟨hacc, hml, m, t, id, hdr, q, h1, ht, hh, rfl, rfl, hq, hop⟩ := reaches_taken hr hmatch hu (by omega) hmsg
  obtain ⟨out, e1, e2, e3⟩ := reply_runs_in (Wired.socket (Option S) α) (fun m w => (w.1 ++ [m], w.2))
    (fun hb w => mount_send hb w) hm (by omega) (os := srv.os) (haddr (op.seenIn minor)) (id := id) ha.1 ha.2
    (s' := (srv.act ⟨hdr.uid, hdr.gid, hdr.pid⟩ (op.seenIn minor) s).2) (w := ([], k'))
  have hrecv := mount_recv (content := some s) hk (show msg.length ≤ buf.length by omega)
  have htake : (msg ++ buf.drop msg.length).take msg.length = msg := List.take_left
  have hstep := fuse_serve_more (Wired.socket (Option S) α) (srv.handlers (Wired.socket (Option S) α)) hrecv
    (by rw [htake]; exact hacc)
  have hhandle : fuseHandle (srv.handlers (Wired.socket (Option S) α)) msg (some s, [], k') =
      srv.answer (Wired.socket (Option S) α) t ⟨msg⟩ s ([], k') := by
    unfold fuseHandle
    rw [h1]
    dsimp only
    unfold RpcServer.handlers
    dsimp only
    rw [ht]
    rfl
  rw [htake, hhandle, answer_eq srv hh hq hop rfl] at hstep
  refine ⟨msg ++ buf.drop msg.length, out, ?_, hstep.trans (congrArg (fun x => Sum.inr (_, x)) (e1.trans ?_)), e2⟩
  · rw [List.length_append, List.length_drop]
    omega
  · rcases e3 with ⟨_, rfl⟩ | ⟨_, m, rfl, _⟩ <;> rfl

/-- A program, and what is made of its result. -/
theorem old_serves (haddr : ∀ op, srv.addr op % 8 = 0) {minor : Nat} (hm : srv.layout.versionMinor.toNat = minor)
    (h7 : 7 ≤ minor) {ext : Bool} (hext : ext = true ↔ srv.layout.features &&& 1 ≠ 0) {ids : Nat → UInt64}
    (hids : ∀ n, ids n ≠ 0) {act : Caller → Op → S → Ans × S} {good : Op → Prop} (hgood : ∀ op, good op → op.Arrives minor)
    (hact : ∀ who op s, good op → srv.act who (op.seenIn minor) s = act who op s) {β : Type} (g : α → β) (use : Use α) :
    ∀ (n : Nat) (s : S) (buf : Bytes), use.ValidIn act minor ext buf.length s → use.AsksOnly act good s →
      ∀ (heard : List Bytes) (k : List Bytes → Talk β),
        k heard = (do let r ← use.talkIn ids minor ext n; return g r) →
        ∃ heard' k', FuseServes (Wired.socket (Option S) β) (srv.handlers (Wired.socket (Option S) β)) buf (some s, heard, k)
            (.ok (), (some (use.run act s).2, heard', k')) ∧
          k' heard' = .done (g (use.run act s).1) := by
  induction use with
  | done a =>
    intro n s buf _ _ heard k hk
    have hk : k heard = .done (g a) := hk
    refine ⟨heard, k, .of_step ?_, hk⟩
    have hr : (Wired.socket (Option S) β).recv buf (some s, heard, k) =
        ((.error (.connectionClosed ()), buf), (some s, heard, k)) := by
      show (match k heard with | .done _ => _ | .say m k => _) = _
      rw [hk]
    simp only [fuseServeStep, fuseRecv, hr]
    rfl
  | call who op f ih =>
    intro n s buf hv hund heard k hk
    obtain ⟨h1, h2, h3, h4⟩ := hv
    obtain ⟨buf', out, e1, e2, e3⟩ := old_step srv haddr hm h7 hext (hids n) h1 (hgood op hund.1) h2
      (by rw [hact who op s hund.1]; exact h3) (α := β)
      (k' := fun out => do let r ← Use.talkIn ids minor ext (n + 1) (f (op.kind.hearIn minor (ids n) out)); return g r)
      (hk.trans rfl)
    rw [hact who op s hund.1] at e2 e3
    obtain ⟨heard', k', e4, e5⟩ := ih (act who op s).1 (n + 1) (act who op s).2 buf' (by rw [e1]; exact h4) hund.2 out
      (fun out => do let r ← Use.talkIn ids minor ext (n + 1) (f (op.kind.hearIn minor (ids n) out)); return g r) (by rw [e3])
    exact ⟨heard', k', .of_next e2 e4, e5⟩

end

/-! ## The property -/

/-- C82: whatever the filesystem does, a program that uses it through messages of any version from 7.7 on, served by
`serve_local`, ends with the result it would have had using the filesystem directly, and the filesystem is left in the same
state. -/
def OldClientsServed : Prop :=
  ∀ (S α : Type) (srv : RpcServer S), (∀ op, srv.addr op % 8 = 0) → 7 ≤ srv.layout.versionMinor.toNat →
    ∀ ext : Bool, (ext = true ↔ srv.layout.features &&& 1 ≠ 0) → ∀ ids : Nat → UInt64, (∀ n, ids n ≠ 0) →
    ∀ (use : Use α) (s : S) (buf : Bytes), use.ValidIn srv.act srv.layout.versionMinor.toNat ext buf.length s →
      ∃ heard k, FuseServes (Wired.socket (Option S) α) (srv.handlers (Wired.socket (Option S) α)) buf
          (some s, [], fun _ => use.talkIn ids srv.layout.versionMinor.toNat ext 0)
          (.ok (), (some (use.run srv.act s).2, heard, k)) ∧
        k heard = .done (use.run srv.act s).1

/-- C82 as far as it holds: without WRITE of less than 16 bytes before 7.9, and without a mode in CREATE before 7.12. -/
theorem C82_partial {S α : Type} (srv : RpcServer S) (haddr : ∀ op, srv.addr op % 8 = 0)
    (h7 : 7 ≤ srv.layout.versionMinor.toNat) (ext : Bool) (hext : ext = true ↔ srv.layout.features &&& 1 ≠ 0)
    (ids : Nat → UInt64) (hids : ∀ n, ids n ≠ 0) (use : Use α) (s : S) (buf : Bytes)
    (hv : use.ValidIn srv.act srv.layout.versionMinor.toNat ext buf.length s)
    (hund : use.AsksOnly srv.act (Op.Understood srv.layout.versionMinor.toNat) s) :
    ∃ heard k, FuseServes (Wired.socket (Option S) α) (srv.handlers (Wired.socket (Option S) α)) buf
        (some s, [], fun _ => use.talkIn ids srv.layout.versionMinor.toNat ext 0)
        (.ok (), (some (use.run srv.act s).2, heard, k)) ∧
      k heard = .done (use.run srv.act s).1 :=
  old_serves srv haddr rfl h7 hext hids (fun _ h => h.arrives.1) (fun _ _ _ h => by rw [h.arrives.2]) id use 0 s buf hv hund []
    (fun _ => use.talkIn ids srv.layout.versionMinor.toNat ext 0) (bind_done _).symm

/-- **C82** exactly: whatever the program asks, as long as no WRITE before 7.9 has less than 16 bytes, it ends with the
result, and the filesystem in the state, that it would have had if CREATE had no mode before 7.12. -/
theorem C82_exact {S α : Type} (srv : RpcServer S) (haddr : ∀ op, srv.addr op % 8 = 0)
    (h7 : 7 ≤ srv.layout.versionMinor.toNat) (ext : Bool) (hext : ext = true ↔ srv.layout.features &&& 1 ≠ 0)
    (ids : Nat → UInt64) (hids : ∀ n, ids n ≠ 0) (use : Use α) (s : S) (buf : Bytes) (act : Caller → Op → S → Ans × S)
    (hact : act = fun who op s => srv.act who (op.seenIn srv.layout.versionMinor.toNat) s)
    (hv : use.ValidIn act srv.layout.versionMinor.toNat ext buf.length s)
    (harr : use.AsksOnly act (Op.Arrives srv.layout.versionMinor.toNat) s) :
    ∃ heard k, FuseServes (Wired.socket (Option S) α) (srv.handlers (Wired.socket (Option S) α)) buf
        (some s, [], fun _ => use.talkIn ids srv.layout.versionMinor.toNat ext 0)
        (.ok (), (some (use.run act s).2, heard, k)) ∧
      k heard = .done (use.run act s).1 :=
  old_serves srv haddr rfl h7 hext hids (fun _ h => h) (fun _ _ _ _ => by rw [hact]) id use 0 s buf hv harr []
    (fun _ => use.talkIn ids srv.layout.versionMinor.toNat ext 0) (bind_done _).symm

/-- **C82**, the other case: no handler survives a WRITE of less than 16 bytes before 7.9.  Nothing is answered, and the state
of the filesystem is lost. -/
theorem C82_exact_write {S α : Type} (srv : RpcServer S) {minor : Nat} (hm : srv.layout.versionMinor.toNat = minor) (ext : Bool)
    {u : UInt64} (hu : u ≠ 0) (who : Caller) (op : Op) (s : S) (buf : Bytes) (hlost : ¬ op.Arrives minor)
    (hfit : 40 + (op.requestIn minor ext).2.body.length ≤ buf.length) (heard : List Bytes) (k k' : List Bytes → Talk α)
    (hk : k heard = .say ((op.requestIn minor ext).2.message u (op.requestIn minor ext).1 who.uid who.gid who.pid 0) k') :
    ∃ buf', fuseServeStep (Wired.socket (Option S) α) (srv.handlers (Wired.socket (Option S) α)) (buf, (some s, heard, k)) =
      .inr (buf', (none, [], k')) := by
  cases op with
  | write node fh offset data flags owner openFlags =>
    have h9 : minor < 9 := Decidable.byContradiction fun h => hlost fun h' => absurd h' h
    have h16 : data.length < 16 := Decidable.byContradiction fun h => hlost fun _ => by omega
    have e : (Op.write node fh offset data flags owner openFlags).requestIn minor ext =
      (node.val, .writeOld ⟨fh, offset, UInt32.ofNat data.length, flags⟩ data) := if_pos h9
    rw [e] at hk hfit
    dsimp only at hk hfit
    have hb : (ClientReq.writeOld ⟨fh, offset, UInt32.ofNat data.length, flags⟩ data).body.length = 24 + data.length :=
      List.length_append ..
    have hd : (UInt32.ofNat data.length).toNat = data.length := UInt32.toNat_ofNat_of_lt' (show _ < 2 ^ 32 by omega)
    have hml := message_length (a := .writeOld ⟨fh, offset, UInt32.ofNat data.length, flags⟩ data) (unique := u)
      (nodeid := node.val) (uid := who.uid) (gid := who.gid) (pid := who.pid) (padding := 0)
    have hacc := message_acceptable (a := .writeOld ⟨fh, offset, UInt32.ofNat data.length, flags⟩ data) (unique := u)
      (nodeid := node.val) (uid := who.uid) (gid := who.gid) (pid := who.pid) (padding := 0) (tail := []) hu (by omega)
    have hopc := message_opcode (a := .writeOld ⟨fh, offset, UInt32.ofNat data.length, flags⟩ data) (unique := u)
      (nodeid := node.val) (uid := who.uid) (gid := who.gid) (pid := who.pid) (padding := 0) (tail := [])
    obtain ⟨f, hf⟩ := C13_exact ⟨fh, offset, UInt32.ofNat data.length, flags⟩ data srv.layout.minor false u node.val who.uid
      who.gid who.pid 0 [] (layout_minor_lt (n := 9) (by decide) (by omega)) (.inr node.2) hd hu (by
        show 64 + data.length + 0 < 80
        omega)
    rw [List.append_nil] at hacc hopc hf
    unfold decodeMessage at hf
    rw [acceptable_new hacc] at hf
    dsimp only at hf
    generalize (ClientReq.writeOld ⟨fh, offset, UInt32.ofNat data.length, flags⟩ data).message u node.val who.uid who.gid
      who.pid 0 = msg at *
    have hrecv := mount_recv (content := some s) hk (show msg.length ≤ buf.length by omega)
    have htake : (msg ++ buf.drop msg.length).take msg.length = msg := List.take_left
    have hstep := fuse_serve_more (Wired.socket (Option S) α) (srv.handlers (Wired.socket (Option S) α)) hrecv
      (by rw [htake]; exact hacc)
    have hhandle : fuseHandle (srv.handlers (Wired.socket (Option S) α)) msg (some s, [], k') = (none, [], k') := by
      unfold fuseHandle
      rw [hopc]
      show srv.answer (Wired.socket (Option S) α) (.write srv.layout.minor false) ⟨msg⟩ s ([], k') = _
      unfold RpcServer.answer
      rw [hf]
      rcases Filesystem.idAndHeader ⟨msg⟩ with _ | _ <;> rfl
    rw [htake, hhandle] at hstep
    exact ⟨_, hstep⟩
  | _ => exact absurd trivial hlost

/-- A session: the handshake, then the program.  The version is said by the reply to INIT, and bit 29 of the flags in it says
whether extended SETXATTR requests are used. -/
def Spec.Use.sessionIn {α : Type} (ids : Nat → UInt64) (init : Bytes) (use : Use α) (newer : List Bytes) : Talk (Option α) :=
  Client.handshake init (fun reply => use.talkIn ids (u32At reply 4) ((u32At reply 12).testBit 29) 0) newer

theorem Spec.Use.ValidIn.mono {α S : Type} {act : Caller → Op → S → Ans × S} {minor : Nat} {ext : Bool} {n m : Nat}
    (h : n ≤ m) (use : Use α) : ∀ {s : S}, use.ValidIn act minor ext n s → use.ValidIn act minor ext m s := by
  induction use with
  | done a => exact id
  | call who op f ih =>
    intro s hv
    obtain ⟨h1, h2, h3, h4⟩ := hv
    exact ⟨h1, by omega, h3, ih _ h4⟩

/-- C82: the same through a whole mount; see `C78_mount`. -/
theorem C82_mount_partial {S α : Type} (act : Caller → Op → S → Ans × S) (checks : Bool) (os : Os) (addr : Op → Nat)
    (haddr : ∀ op, addr op % 8 = 0) (server : FuseServer) (ids : Nat → UInt64) (hids : ∀ n, ids n ≠ 0) (newer : List Bytes)
    (init : Bytes) (hnewer : ∀ m ∈ newer, m.length ≤ 8192 ∧ IsFuseInit m ∧ u32At m 40 ≠ 7)
    (hinit : init.length ≤ 8192 ∧ IsFuseInit init ∧ u32At init 40 = 7 ∧ 7 ≤ u32At init 44) (use : Use α) (s : S)
    (hv : ∀ ext, use.ValidIn act (min (u32At init 44) 36) ext (max (server.initReply.maxWrite.toNat + 4096) 8192) s)
    (hund : use.AsksOnly act (Op.Understood (min (u32At init 44) 36)) s) :
    ∃ conn w, server.Connects (Wired.socket (Option S) _) (some s, [], fun _ => use.sessionIn ids init newer) (.ok conn, w) ∧
      ∀ buf : Bytes, conn.recvBufLen ≤ buf.length →
        ∃ heard k, FuseServes (Wired.socket (Option S) _) ((⟨act, conn.layout, checks, os, addr⟩ : RpcServer S).handlers
            (Wired.socket (Option S) _)) buf w (.ok (), (some (use.run act s).2, heard, k)) ∧
          k heard = .done (some (use.run act s).1) := by
  obtain ⟨conn, p, q, k, h1, h2, h3, h4, h5, h6⟩ := connects server init
    (fun reply => use.talkIn ids (u32At reply 4) ((u32At reply 12).testBit 29) 0) hinit (some s) newer hnewer
    minReadBuffer [] (fun _ => use.sessionIn ids init newer) (List.length_replicate ..) rfl
  refine ⟨conn, _, h1, fun buf hbuf => ?_⟩
  rw [h5] at hbuf
  rw [h6] at h2
  exact old_serves ⟨act, conn.layout, checks, os, addr⟩ haddr h4 (by omega) h3.symm hids (fun _ h => h.arrives.1)
    (fun _ _ _ h => by rw [h.arrives.2]) some use 0 s buf
    (Use.ValidIn.mono hbuf use (hv _)) hund [p] k h2

/-! ## Concrete cases -/

section
variable {minor : Nat} {ext : Bool} {n : Nat}

instance decidableOkIn (op : Op) : Decidable (op.OkIn minor ext) := by
  unfold Op.OkIn
  split <;> infer_instance

instance decidableInfoFitsIn (i : Info) : Decidable (i.FitsIn minor) := by
  unfold Info.FitsIn
  infer_instance

instance decidableFitsIn (a : Ans) : Decidable (a.FitsIn minor) := by
  unfold Ans.FitsIn
  split <;> infer_instance

instance decidableUnderstood (op : Op) : Decidable (op.Understood minor) := by
  unfold Op.Understood
  split <;> infer_instance

instance decidableValidIn {α S : Type} (act : Caller → Op → S → Ans × S) :
    (use : Use α) → (s : S) → Decidable (use.ValidIn act minor ext n s)
  | .done _, _ => .isTrue trivial
  | .call who op k, s =>
    have := decidableValidIn act (k (act who op s).1) (act who op s).2
    inferInstanceAs (Decidable (_ ∧ _ ∧ (_ ∧ _) ∧ _))

instance decidableArrives (op : Op) : Decidable (op.Arrives minor) := by
  unfold Op.Arrives
  split <;> infer_instance

instance decidableAsksOnly {α S : Type} (act : Caller → Op → S → Ans × S) (good : Op → Prop) [DecidablePred good] :
    (use : Use α) → (s : S) → Decidable (use.AsksOnly act good s)
  | .done _, _ => .isTrue trivial
  | .call who op k, s =>
    have := decidableAsksOnly act good (k (act who op s).1) (act who op s).2
    inferInstanceAs (Decidable (_ ∧ _))

end

namespace OldClients
open Rpc

/-- IDs for requests. -/
def ids (n : Nat) : UInt64 := if UInt64.ofNat n = 0 then 1 else .ofNat n

theorem ids_ne (n : Nat) : ids n ≠ 0 := by
  unfold ids
  split
  · decide
  · assumption

/-- What becomes of a program, running the model for at most `n` steps. -/
def outcome {S α : Type} (srv : RpcServer S) (ext : Bool) (n len : Nat) (use : Use α) (s : S) : Option (Option α × Option S) :=
  match iterate (fuseServeStep (Wired.socket (Option S) α) (srv.handlers (Wired.socket (Option S) α))) n
      (List.replicate len 0,
        (some s, [], fun _ => use.talkIn ids srv.layout.versionMinor.toNat ext 0)) with
  | .inl (_, (s, heard, k)) =>
    match k heard with
    | .done a => some (some a, s)
    | _ => some (none, s)
  | _ => none

/-- Something to answer. -/
def sample : Kind → Ans
  | .attr => .attr ⟨⟨9, by decide⟩, 1, 2, 3, ⟨-4, 5⟩, ⟨6, 7⟩, ⟨8, 9⟩, 10, 11, 12, 13, 0, false, false⟩ ⟨15, 16, by decide⟩
  | .created =>
    .created ⟨⟨⟨9, by decide⟩, 1, 2, 3, ⟨-4, 5⟩, ⟨6, 7⟩, ⟨8, 9⟩, 10, 11, 12, 13, 0, false, false⟩, 20, ⟨21, 22, by decide⟩,
      ⟨23, 24, by decide⟩⟩ 17 18
  | .entry =>
    .entry ⟨⟨⟨9, by decide⟩, 1, 2, 3, ⟨-4, 5⟩, ⟨6, 7⟩, ⟨8, 9⟩, 10, 11, 12, 13, 0, false, false⟩, 20, ⟨21, 22, by decide⟩,
      ⟨23, 24, by decide⟩⟩
  | k => Rpc.sample k

/-- A filesystem that remembers what it has been asked. -/
def remember (who : Caller) (op : Op) (past : List (Caller × Op)) : Ans × List (Caller × Op) :=
  (sample op.kind, past ++ [(who, op)])

/-- Operations of version 7.7. -/
def everything : List Op :=
  let f : NodeId := ⟨0x1122, by decide⟩
  [.access f 1, .bmap f 2 3, .create f [0x61] 10 0 0 0, .flush f 18 19, .forget [(f, 20)], .fsync f 23 24, .fsyncdir f 25 26,
    .getattr f none, .getxattr f [0x62] 37, .getxattr f [0x62] 0, .listxattr f 38, .listxattr f 0, .removexattr f [0x63],
    .setxattr f [0x64] [39, 40] 41 0, .interrupt ⟨42, by decide⟩, .link f root [0x65], .lookup f [0x66], .mkdir f [0x67] 53 0,
    .mknod f [0x68] 0x2001 0 (some 56), .mknod f [0x68] 0x8001 0 none, .open_ f 57 58, .opendir f 59 60,
    .read f 64 65 66 none 0, .readdir f 69 70 500 0, .readlink f, .release f 77 78 none, .releasedir f 80 81 none,
    .rename f [0x69] root [0x6A] 0, .rmdir f [0x6B],
    .setattr f { mode := some 84, uid := some 85, gid := some 86, size := some 87, atime := some ⟨-88, 89⟩ },
    .statfs f, .symlink f [0x6C] [0x6D, 0x2F], .unlink f [0x6E], .write f 90 91 (List.replicate 16 92) 0 none 0]

/-- All of them are possible in all versions, and the requests differ. -/
example : ∀ minor ∈ [7, 8, 9, 11, 12], (script (everything.map (bob, ·)) []).ValidIn remember minor false 200 [] ∧
    (script (everything.map (bob, ·)) []).AsksOnly remember (Op.Understood minor) [] := by decide +kernel

example : [7, 8, 9, 11, 12].map (fun minor =>
      (everything.map fun op => (op.requestIn minor false).2.body.length).foldl (· + ·) 0) = [443, 459, 523, 523, 547] := by
  decide +kernel

/-- By running the model: all arrive as they were sent, and so do the answers. -/
example : ∀ minor ∈ ([7, 8, 9, 11, 12] : List UInt16),
    outcome ⟨remember, ⟨minor, 0⟩, true, .linux, fun _ => 0x1000⟩ false 40 200 (script (everything.map (bob, ·)) []) [] =
      some (some (everything.map fun op => sample op.kind), some (everything.map (bob, ·))) := by decide +kernel

/-- C82_partial for it. -/
example : ∃ heard k, FuseServes (Wired.socket (Option _) _)
      ((⟨remember, ⟨7, 0⟩, true, .linux, fun _ => 0x1000⟩ : RpcServer _).handlers (Wired.socket _ _))
      (List.replicate 200 0) (some [], [], fun _ => (script (everything.map (bob, ·)) []).talkIn (fun _ => 7) 7 false 0)
      (.ok (), (some ((script (everything.map (bob, ·)) []).run remember []).2, heard, k)) ∧
    k heard = .done ((script (everything.map (bob, ·)) []).run remember []).1 :=
  C82_partial (⟨remember, ⟨7, 0⟩, true, .linux, fun _ => 0x1000⟩ : RpcServer _) (fun _ => (by decide : 0x1000 % 8 = 0))
    (by decide) false (by decide) (fun _ => 7) (fun _ => show (7 : UInt64) ≠ 0 by decide) _ [] (List.replicate 200 0)
    (by decide +kernel) (by decide +kernel)

/-- C82_mount_partial for it: a client that offers 8.0 and 7.8. -/
example : ∃ conn w, (({} : FuseServer).maxWrite 65536).Connects (Wired.socket (Option _) _)
      (some [], [], fun _ => (script (everything.map (bob, ·)) []).sessionIn (fun _ => 7) (initMessage 4 7 8 [65536, 0])
        [initMessage 2 8 0 [65536, 0]]) (.ok conn, w) ∧
    ∀ buf : Bytes, conn.recvBufLen ≤ buf.length → ∃ heard k, FuseServes (Wired.socket (Option _) _)
        ((⟨remember, conn.layout, true, .linux, fun _ => 0x1000⟩ : RpcServer _).handlers (Wired.socket (Option _) _)) buf w
        (.ok (), (some ((script (everything.map (bob, ·)) []).run remember []).2, heard, k)) ∧
      k heard = .done (some ((script (everything.map (bob, ·)) []).run remember []).1) :=
  C82_mount_partial remember true .linux (fun _ => 0x1000) (fun _ => (by decide : 0x1000 % 8 = 0)) _ (fun _ => 7)
    (fun _ => show (7 : UInt64) ≠ 0 by decide) _ _ (by decide) (by decide) _ [] (fun ext =>
      Use.ValidIn.mono (n := 8192) (Nat.le_max_right ..) _ (by cases ext <;> decide +kernel)) (by decide +kernel)

/-- What is not understood: CREATE with a mode before 7.12 arrives without it. -/
example : outcome ⟨remember, ⟨11, 0⟩, true, .linux, fun _ => 0x1000⟩ false 3 200 (script [(bob, .create root [0x61] 1 0 0o644 0)] [])
      [] = some (some [sample .created], some [(bob, .create root [0x61] 1 0 0 0)]) := by decide +kernel

/-- C82_exact for it. -/
example : ∃ heard k, FuseServes (Wired.socket (Option _) _)
      ((⟨remember, ⟨11, 0⟩, true, .linux, fun _ => 0x1000⟩ : RpcServer _).handlers (Wired.socket _ _))
      (List.replicate 200 0) (some [], [], fun _ => (script [(bob, .create root [0x61] 1 0 0o644 0)] []).talkIn (fun _ => 7) 11 false 0)
      (.ok (), (some [(bob, .create root [0x61] 1 0 0 0)], heard, k)) ∧
    k heard = .done [sample .created] :=
  C82_exact (⟨remember, ⟨11, 0⟩, true, .linux, fun _ => 0x1000⟩ : RpcServer _) (fun _ => (by decide : 0x1000 % 8 = 0))
    (by decide) false (by decide) (fun _ => 7) (fun _ => show (7 : UInt64) ≠ 0 by decide)
    (script [(bob, .create root [0x61] 1 0 0o644 0)] []) [] (List.replicate 200 0)
    (fun who op s => remember who (op.seenIn 11) s) rfl (by decide +kernel) (by decide +kernel)

/-- A short WRITE before 7.9 is not decoded at all. -/
example : outcome ⟨remember, ⟨8, 0⟩, true, .linux, fun _ => 0x1000⟩ false 3 200 (script [(bob, .write root 1 2 [3] 0 none 0)] [])
      [] = some (some [.broken], none) := by decide +kernel

/-- An answer where there is to be none, more than one answer, or an answer to something else makes no sense to the client. -/
example : Kind.hearIn 8 .silent 7 [] = .silent ∧ Kind.hearIn 8 .silent 7 [frame 7 0 []] = .broken ∧
    Kind.hearIn 8 .empty 7 [frame 7 0 []] = .done ∧ Kind.hearIn 8 .empty 7 [] = .broken ∧
    Kind.hearIn 8 .empty 7 [frame 7 0 [], frame 7 0 []] = .broken ∧ Kind.hearIn 8 .empty 7 [frame 6 0 []] = .broken := by
  decide +kernel

end OldClients

/-! ## The violation -/

/-- C82 does not hold: the mode in a CREATE request of 7.11 does not arrive. -/
theorem C82_violated : ¬ OldClientsServed := by
  intro h
  have hc : OldClients.outcome ⟨OldClients.remember, ⟨11, 0⟩, true, .linux, fun _ => 0x1000⟩ false 3 200
      (Rpc.script [(Rpc.bob, .create Rpc.root [0x61] 1 0 0o644 0)] []) [] =
      some (some [OldClients.sample .created], some [(Rpc.bob, .create Rpc.root [0x61] 1 0 0 0)]) := by decide +kernel
  obtain ⟨heard, k, h1, -⟩ := h _ _ ⟨OldClients.remember, ⟨11, 0⟩, true, .linux, fun _ => 0x1000⟩
    (fun _ => (by decide : 0x1000 % 8 = 0)) (by decide) false (by decide)
    OldClients.ids OldClients.ids_ne
    (Rpc.script [(Rpc.bob, .create Rpc.root [0x61] 1 0 0o644 0)] []) [] (List.replicate 200 0) (by decide +kernel)
  unfold OldClients.outcome at hc
  split at hc
  · rename_i out' s heard' k' he
    have := (LoopReturns.unique ⟨3, he⟩ h1)
    cases this
    split at hc <;> cases hc
  · cases hc

end Fuse
