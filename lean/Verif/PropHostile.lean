import Verif.Hostile
import Verif.PropOld

/-!
# C84: only what is asked for reaches the filesystem
-/

namespace Fuse
open Spec

/-! ## What the server takes from any request -/

/-- Forms of requests in use from version 7.12 on. -/
def ClientReq.Current : ClientReq → Prop
  | .createOld .. | .getattrOld | .mknodOld .. | .readOld .. | .readdirOld .. | .readdirplusOld .. | .releaseOld ..
  | .releasedirOld .. | .writeOld .. | .initV1 .. | .initV6 .. | .init .. | .cuseInit .. => False
  | _ => True

theorem nodeFrom_ne {n : UInt64} (h : n ≠ 0) : nodeFrom n = some ⟨n, h⟩ := dif_pos h

theorem IdIs.ok {x : Except Fault NodeId} {n : UInt64} (h : IdIs x n) (hn : n ≠ 0) : x = .ok ⟨n, hn⟩ :=
  IdIs.eq (i := ⟨n, hn⟩) h

theorem IdOrRoot.ok {x : NodeId} {n : UInt64} (h : IdOrRoot x n) (hn : n ≠ 0) : x = ⟨n, hn⟩ := IdOrRoot.eq (i := ⟨n, hn⟩) h

theorem spanFrom_means {l : FuseFileLock} (hl : LockOk l) {r : LockRange} (h : LockMeans l r) :
    spanFrom l = some ⟨r.start, r.length⟩ := by
  unfold LockMeans at h
  unfold spanFrom
  have h1 := l.start.toNat_lt
  have h2 := l.end_.toNat_lt
  split
  · rename_i hlt
    rw [if_pos hlt] at h
    obtain ⟨e1, n, e2, e3⟩ := h
    have hlt := UInt64.lt_iff_toNat_lt.mp hlt
    have hl : l.end_.toNat + 1 < l.start.toNat := by
      rcases hl with h | h
      · have := UInt64.le_iff_toNat_le.mp h
        omega
      · exact h
    have e4 : r.start = l.end_ + 1 := UInt64.toNat_inj.mp (by
      rw [e1, UInt64.toNat_add]
      show _ = (_ + 1) % _
      omega)
    have e5 : n.val = l.start - (l.end_ + 1) := UInt64.toNat_inj.mp (by
      rw [e3, UInt64.toNat_sub, UInt64.toNat_add]
      show _ = (2 ^ 64 - (_ + 1) % _ + _) % _
      omega)
    rw [← e4] at *
    rw [nodeFrom_ne (n := l.start - r.start) (by rw [← e5]; exact n.2), e2]
    exact congrArg (fun x => some (Span.mk r.start (some x))) (Subtype.ext e5.symm)
  · rename_i hlt
    rw [if_neg hlt] at h
    split
    · rename_i hge
      rw [if_pos hge] at h
      rw [h.1, h.2]
    · rename_i hge
      rw [if_neg hge] at h
      obtain ⟨e1, n, e2, e3⟩ := h
      have hlt := UInt64.not_lt.mp hlt
      have hlt := UInt64.le_iff_toNat_le.mp hlt
      have e5 : n.val = l.end_ - l.start + 1 := UInt64.toNat_inj.mp (by
        rw [e3, UInt64.toNat_add, UInt64.toNat_sub]
        show _ = ((2 ^ 64 - _ + _) % _ + 1) % _
        omega)
      rw [nodeFrom_ne (n := l.end_ - l.start + 1) (by rw [← e5]; exact n.2), e1, e2]
      exact congrArg (fun x => some (Span.mk l.start (some x))) (Subtype.ext e5.symm)

theorem itemsFrom_means (l : List FuseForgetOne) :
    ((l.filter (·.nodeid ≠ 0)).map fun i => (i.nodeid, i.nlookup)) = (itemsFrom l).map fun i => (i.1.val, i.2) := by
  induction l with
  | nil => rfl
  | cons x l ih =>
    unfold itemsFrom at ih ⊢
    by_cases hx : x.nodeid = 0
    · rw [List.filter_cons_of_neg (by simpa using hx), List.filterMap_cons_none (by simp [nodeFrom, hx]), ih]
    · rw [List.filter_cons_of_pos (by simpa using hx), List.filterMap_cons_some (by rw [nodeFrom_ne hx]; rfl), List.map_cons,
        List.map_cons, ih]

/-- From a request that decodes, the server takes what it stands for. -/
theorem operation_of_matches {a : ClientReq} {node : UInt64} {q : AnyRequest} (hc : a.Current) (hw : a.WellFormed node false)
    (h : a.Matches node false q) : ∃ op, a.operation node = some op ∧ q.op = .ok (some op) := by
  cases a with
  | createOld | getattrOld | mknodOld | readOld | readdirOld | readdirplusOld | releaseOld | releasedirOld | writeOld | initV1
  | initV6 | init | cuseInit => exact hc.elim
  | access b =>
    cases q <;> try exact h.elim
    obtain ⟨h1, h2⟩ := h
    simp only [ClientReq.operation, nodeFrom_ne hw, AnyRequest.op, h2, show _ = (⟨node, hw⟩ : NodeId) from Subtype.ext h1,
      bind, Option.bind, pure, Except.pure, Option.some.injEq, exists_eq_left']
  | bmap b =>
    cases q <;> try exact h.elim
    obtain ⟨h1, h2, h3⟩ := h
    simp only [ClientReq.operation, nodeFrom_ne hw, AnyRequest.op, h2, h3, h1.ok hw,
      bind, Option.bind, Except.bind, pure, Except.pure, Option.some.injEq, exists_eq_left']
  | copyFileRange b =>
    cases q <;> try exact h.elim
    obtain ⟨hw, hw'⟩ := hw
    obtain ⟨h1, h2, h3, h4, h5, h6, h7, h8⟩ := h
    simp only [ClientReq.operation, nodeFrom_ne hw, nodeFrom_ne hw', AnyRequest.op, h2, h3, h1.ok hw, h4.ok hw', h5, h6, h7, h8,
      bind, Option.bind, Except.bind, pure, Except.pure, Option.some.injEq, exists_eq_left']
  | create b name =>
    cases q <;> try exact h.elim
    obtain ⟨hw, _⟩ := hw
    obtain ⟨h1, h2, h3, h4, h5, h6⟩ := h
    simp only [ClientReq.operation, nodeFrom_ne hw, AnyRequest.op, h2, h3, h1.ok hw, h4, h5, h6,
      bind, Option.bind, Except.bind, pure, Except.pure, Option.some.injEq, exists_eq_left']
  | fallocate b =>
    cases q <;> try exact h.elim
    obtain ⟨h1, h2, h3, h4, h5⟩ := h
    simp only [ClientReq.operation, nodeFrom_ne hw, AnyRequest.op, h2, h3, h1.ok hw, h4, h5,
      bind, Option.bind, Except.bind, pure, Except.pure, Option.some.injEq, exists_eq_left']
  | flush b =>
    have hw : node ≠ 0 := hw.resolve_left Bool.false_ne_true
    cases q <;> try exact h.elim
    obtain ⟨h1, h2, h3⟩ := h
    simp only [ClientReq.operation, nodeFrom_ne hw, AnyRequest.op, h2, h3, show _ = (⟨node, hw⟩ : NodeId) from Subtype.ext h1,
      bind, Option.bind, pure, Except.pure, Option.some.injEq, exists_eq_left']
  | forget b =>
    cases q <;> try exact h.elim
    rename_i r
    have h : r.items.map (fun i => (i.nodeId.val, i.lookupCount)) = if node = 0 then [] else [(node, b.nlookup)] := h
    refine ⟨_, rfl, ?_⟩
    show Except.ok (some (Op.forget (r.items.map _))) = _
    rw [forget_items (items := itemsFrom [⟨node, b.nlookup⟩]) (h.trans (by
      rw [← itemsFrom_means]
      split
      · rename_i h0; simp [h0]
      · rename_i h0; simp [h0]))]
  | batchForget b items =>
    cases q <;> try exact h.elim
    rename_i r
    refine ⟨_, rfl, ?_⟩
    show Except.ok (some (Op.forget (r.items.map _))) = _
    rw [forget_items (items := itemsFrom items) (Eq.trans h (itemsFrom_means items))]
  | fsync b =>
    have hw : node ≠ 0 := hw.resolve_left Bool.false_ne_true
    cases q <;> try exact h.elim
    obtain ⟨h1, h2, h3⟩ := h
    simp only [ClientReq.operation, nodeFrom_ne hw, AnyRequest.op, h2, h3, h1.ok hw,
      bind, Option.bind, pure, Except.pure, Option.some.injEq, exists_eq_left']
  | fsyncdir b =>
    cases q <;> try exact h.elim
    obtain ⟨h1, h2, h3⟩ := h
    simp only [ClientReq.operation, nodeFrom_ne hw, AnyRequest.op, h2, h3, h1.ok hw,
      bind, Option.bind, Except.bind, pure, Except.pure, Option.some.injEq, exists_eq_left']
  | getattr b =>
    cases q <;> try exact h.elim
    obtain ⟨h1, h2⟩ := h
    simp only [ClientReq.operation, nodeFrom_ne hw, AnyRequest.op, h2, h1.ok hw,
      bind, Option.bind, Except.bind, pure, Except.pure, Option.some.injEq, exists_eq_left']
  | getlk b =>
    cases q <;> try exact h.elim
    obtain ⟨hw, hl⟩ := hw
    obtain ⟨h1, h2, h3, h4, h5⟩ := h
    simp only [ClientReq.operation, nodeFrom_ne hw, AnyRequest.op, h2, h3, h1.ok hw, h4, spanFrom_means hl h5,
      bind, Option.bind, Except.bind, pure, Except.pure, Option.some.injEq, exists_eq_left']
  | setlk b | setlkw b =>
    cases q <;> try exact h.elim
    obtain ⟨hw, hl⟩ := hw
    obtain ⟨h1, h2, h3, h4, h5, h6, h7, h8⟩ := h
    simp only [ClientReq.operation, nodeFrom_ne hw, AnyRequest.op, h2, h3, h1.ok hw, h4, h5, h6, spanFrom_means hl h7,
      pid_value h8, bind, Option.bind, Except.bind, pure, Except.pure, Option.some.injEq, exists_eq_left']
  | getxattr b name =>
    cases q <;> try exact h.elim
    obtain ⟨hw, _⟩ := hw
    obtain ⟨h1, h2, h3⟩ := h
    simp only [ClientReq.operation, nodeFrom_ne hw, AnyRequest.op, h2, size_value h3, h1.ok hw,
      bind, Option.bind, Except.bind, pure, Except.pure, Option.some.injEq, exists_eq_left']
  | listxattr b =>
    cases q <;> try exact h.elim
    obtain ⟨h1, h2⟩ := h
    simp only [ClientReq.operation, nodeFrom_ne hw, AnyRequest.op, size_value h2, h1.ok hw,
      bind, Option.bind, Except.bind, pure, Except.pure, Option.some.injEq, exists_eq_left']
  | removexattr name =>
    cases q <;> try exact h.elim
    obtain ⟨hw, _⟩ := hw
    obtain ⟨h1, h2⟩ := h
    simp only [ClientReq.operation, nodeFrom_ne hw, AnyRequest.op, h2, h1.ok hw,
      bind, Option.bind, Except.bind, pure, Except.pure, Option.some.injEq, exists_eq_left']
  | setxattrOld b name value | setxattr b name value =>
    cases q <;> try exact h.elim
    obtain ⟨hw, _⟩ := hw
    obtain ⟨h1, h2, h3, h4, h5⟩ := h
    simp only [ClientReq.operation, nodeFrom_ne hw, AnyRequest.op, h2, h3, h4, h5, h1.ok hw,
      bind, Option.bind, Except.bind, pure, Except.pure, Option.some.injEq, exists_eq_left']
  | interrupt b =>
    cases q <;> try exact h.elim
    obtain ⟨u, h1, h2⟩ := h
    simp only [ClientReq.operation, nodeFrom_ne hw, AnyRequest.op, h1, show u = ⟨b.unique, hw⟩ from Subtype.ext h2,
      bind, Option.bind, Except.bind, pure, Except.pure, Option.some.injEq, exists_eq_left']
  | ioctl b input =>
    have hn : node ≠ 0 := hw.1.resolve_left Bool.false_ne_true
    cases q <;> try exact h.elim
    obtain ⟨h1, h2, h3, h4, h5, h6, h7, h8⟩ := h
    simp only [ClientReq.operation, nodeFrom_ne hn, AnyRequest.op, h1.ok hn, h2, h3, h4, h6, h7, h8,
      bind, Option.bind, pure, Except.pure, Option.some.injEq, exists_eq_left']
  | link b name =>
    cases q <;> try exact h.elim
    obtain ⟨hw, hw', _⟩ := hw
    obtain ⟨h1, h2, h3⟩ := h
    simp only [ClientReq.operation, nodeFrom_ne hw, nodeFrom_ne hw', AnyRequest.op, h3,
      show _ = (⟨b.oldnodeid, hw'⟩ : NodeId) from Subtype.ext h1, show _ = (⟨node, hw⟩ : NodeId) from Subtype.ext h2,
      bind, Option.bind, pure, Except.pure, Option.some.injEq, exists_eq_left']
  | lookup name | rmdir name | unlink name =>
    cases q <;> try exact h.elim
    obtain ⟨hw, _⟩ := hw
    obtain ⟨h1, h2⟩ := h
    simp only [ClientReq.operation, nodeFrom_ne hw, AnyRequest.op, h2, show _ = (⟨node, hw⟩ : NodeId) from Subtype.ext h1,
      bind, Option.bind, pure, Except.pure, Option.some.injEq, exists_eq_left']
  | lseek b =>
    cases q <;> try exact h.elim
    obtain ⟨h1, h2, h3, h4⟩ := h
    simp only [ClientReq.operation, nodeFrom_ne hw, AnyRequest.op, h2, h3, h4,
      show _ = (⟨node, hw⟩ : NodeId) from Subtype.ext h1,
      bind, Option.bind, pure, Except.pure, Option.some.injEq, exists_eq_left']
  | mkdir b name =>
    cases q <;> try exact h.elim
    obtain ⟨hw, _⟩ := hw
    obtain ⟨h1, h2, h3, h4⟩ := h
    simp only [ClientReq.operation, nodeFrom_ne hw, AnyRequest.op, h2, h3, h4,
      show _ = (⟨node, hw⟩ : NodeId) from Subtype.ext h1,
      bind, Option.bind, pure, Except.pure, Option.some.injEq, exists_eq_left']
  | mknod b name =>
    cases q <;> try exact h.elim
    obtain ⟨hw, _⟩ := hw
    obtain ⟨h1, h2, h3, h4, h5⟩ := h
    simp only [ClientReq.operation, nodeFrom_ne hw, AnyRequest.op, h2, h3, h4, h5, h1.ok hw, deviceFrom,
      bind, Option.bind, Except.bind, pure, Except.pure, Option.some.injEq, exists_eq_left']
  | open_ b =>
    have hw : node ≠ 0 := hw.resolve_left Bool.false_ne_true
    cases q <;> try exact h.elim
    obtain ⟨h1, h2, h3⟩ := h
    simp only [ClientReq.operation, nodeFrom_ne hw, AnyRequest.op, h2, h3, h1.ok hw,
      bind, Option.bind, pure, Except.pure, Option.some.injEq, exists_eq_left']
  | opendir b =>
    cases q <;> try exact h.elim
    obtain ⟨h1, h2, h3⟩ := h
    simp only [ClientReq.operation, nodeFrom_ne hw, AnyRequest.op, h2, h3, h1.ok hw,
      bind, Option.bind, Except.bind, pure, Except.pure, Option.some.injEq, exists_eq_left']
  | poll b =>
    cases q <;> try exact h.elim
    obtain ⟨h1, h2, h3, h4⟩ := h
    simp only [ClientReq.operation, nodeFrom_ne hw, AnyRequest.op, h2, h3, h4, h1.ok hw,
      bind, Option.bind, Except.bind, pure, Except.pure, Option.some.injEq, exists_eq_left']
  | read b =>
    have hw : node ≠ 0 := hw.resolve_left Bool.false_ne_true
    cases q <;> try exact h.elim
    obtain ⟨h1, h2, h3, h4, h5, h6⟩ := h
    simp only [ClientReq.operation, nodeFrom_ne hw, AnyRequest.op, h2, h3, h4, h5, h6, h1.ok hw,
      bind, Option.bind, Except.bind, pure, Except.pure, Option.some.injEq, exists_eq_left']
  | readdir b | readdirplus b =>
    cases q <;> try exact h.elim
    obtain ⟨h1, h2, h3, h4, o, h5, h6⟩ := h
    simp only [ClientReq.operation, nodeFrom_ne hw, AnyRequest.op, h2, h3, h4, h5, offset_value h6, h1.ok hw,
      bind, Option.bind, Except.bind, pure, Except.pure, Option.some.injEq, exists_eq_left']
  | readlink | statfs =>
    cases q <;> try exact h.elim
    have h1 := h
    simp only [ClientReq.operation, nodeFrom_ne hw, AnyRequest.op, show _ = (⟨node, hw⟩ : NodeId) from Subtype.ext h1,
      bind, Option.bind, pure, Except.pure, Option.some.injEq, exists_eq_left']
  | release b =>
    have hw : node ≠ 0 := hw.resolve_left Bool.false_ne_true
    cases q <;> try exact h.elim
    obtain ⟨h1, h2, h3, h4⟩ := h
    simp only [ClientReq.operation, nodeFrom_ne hw, AnyRequest.op, h2, h3, h4, h1.ok hw,
      bind, Option.bind, Except.bind, pure, Except.pure, Option.some.injEq, exists_eq_left']
  | releasedir b =>
    cases q <;> try exact h.elim
    obtain ⟨h1, h2, h3, h4⟩ := h
    simp only [ClientReq.operation, nodeFrom_ne hw, AnyRequest.op, h2, h3, h4, h1.ok hw,
      bind, Option.bind, Except.bind, pure, Except.pure, Option.some.injEq, exists_eq_left']
  | rename b oldName newName | rename2 b oldName newName =>
    cases q <;> try exact h.elim
    obtain ⟨hw, hw', _⟩ := hw
    obtain ⟨h1, h2, h3, h4, h5⟩ := h
    simp only [ClientReq.operation, nodeFrom_ne hw, nodeFrom_ne hw', AnyRequest.op, h2, h4, h5,
      show _ = (⟨node, hw⟩ : NodeId) from Subtype.ext h1, show _ = (⟨b.newdir, hw'⟩ : NodeId) from Subtype.ext h3,
      bind, Option.bind, pure, Except.pure, Option.some.injEq, exists_eq_left']
  | setattr b =>
    cases q <;> try exact h.elim
    rename_i r
    obtain ⟨hw, _⟩ := hw
    obtain ⟨h1, h2, h3, h4, h5, h6, h7, h8, h9, h10, h11, h12⟩ := h
    have e1 : r.atimeNow = decide (b.valid &&& 128 ≠ 0) := by rw [Bool.eq_iff_iff, h9, decide_eq_true_iff]
    have e2 : r.mtimeNow = decide (b.valid &&& 256 ≠ 0) := by rw [Bool.eq_iff_iff, h10, decide_eq_true_iff]
    have e3 : (selected b.valid 1 (⟨b.mode⟩ : FileMode)).map FileMode.bits = selected b.valid 1 b.mode := by
      unfold selected; split <;> rfl
    simp only [ClientReq.operation, nodeFrom_ne hw, AnyRequest.op, h2, h3, h4, h5, h6, h7, h8, e1, e2, e3, h11, h12, h1.ok hw,
      bind, Option.bind, Except.bind, pure, Except.pure, Option.some.injEq, exists_eq_left']
  | symlink content name =>
    cases q <;> try exact h.elim
    obtain ⟨hw, _⟩ := hw
    obtain ⟨h1, h2, h3⟩ := h
    simp only [ClientReq.operation, nodeFrom_ne hw, AnyRequest.op, h2, h3, show _ = (⟨node, hw⟩ : NodeId) from Subtype.ext h1,
      bind, Option.bind, pure, Except.pure, Option.some.injEq, exists_eq_left']
  | write b data =>
    have hn : node ≠ 0 := hw.1.resolve_left Bool.false_ne_true
    cases q <;> try exact h.elim
    obtain ⟨⟨n, h0, h1⟩, h2, h3, h4, h5, h6, h7⟩ := h
    simp only [ClientReq.operation, nodeFrom_ne hn, AnyRequest.op, h0, h1.ok hn, h2, h3, h4, h5, h6, h7,
      bind, Option.bind, Except.bind, pure, Except.pure, Option.some.injEq, exists_eq_left']

/-! ## What is asked for -/

theorem typeFor_unknown {layout : FuseLayout} {n : Nat} (h : fuseMethodAt n = none) : typeFor layout n = none := by
  unfold typeFor
  split <;> first | rfl | cases h

theorem typeFor_unhandled {layout : FuseLayout} {checks : Bool} {n : Nat} {m : FuseMethod} (h : fuseMethodAt n = some m)
    (ht : m.reqType layout checks = none) : typeFor layout n = none := by
  unfold typeFor
  split <;> first | rfl | (cases h; cases ht)

/-- A method decodes the kind of request there is for its opcode. -/
theorem typeFor_method {layout : FuseLayout} {checks : Bool} {n : Nat} {m : FuseMethod} {t : ReqType}
    (h : fuseMethodAt n = some m) (ht : m.reqType layout checks = some t) :
    ∃ t', typeFor layout n = some t' ∧ (t = t' ∨ t = .forget checks ∧ t' = .forget true) := by
  unfold fuseMethodAt at h
  split at h
  all_goals
    cases h <;> cases ht <;> first
      | exact ⟨_, rfl, .inl rfl⟩
      | exact ⟨_, rfl, .inr ⟨rfl, rfl⟩⟩

theorem encodes_forget {c c' : Bool} {a : ClientReq} {m : Bytes} (h : Encodes (.forget c) a m) : Encodes (.forget c') a m := by
  obtain ⟨h1, h2, h3, h4, h5⟩ := h
  refine ⟨h1, ?_, h3, h4, h5⟩
  cases a <;> first | exact h2.elim | trivial

theorem typeFor_current {layout : FuseLayout} (h12 : 12 ≤ layout.versionMinor) {n : Nat} {t : ReqType}
    (h : typeFor layout n = some t) {a : ClientReq} (ha : a.HasType t) : a.Current ∧ t.isCuse = false := by
  have h12 : 12 ≤ layout.versionMinor.toNat := UInt16.le_iff_toNat_le.mp h12
  have no9 : ¬ layout.versionMinor < 9 := fun h => by
    have : layout.versionMinor.toNat < 9 := UInt16.lt_iff_toNat_lt.mp h
    omega
  have no8 : ¬ layout.versionMinor < 8 := fun h => by
    have : layout.versionMinor.toNat < 8 := UInt16.lt_iff_toNat_lt.mp h
    omega
  have no12 : ¬ layout.versionMinor < 12 := fun h => by
    have : layout.versionMinor.toNat < 12 := UInt16.lt_iff_toNat_lt.mp h
    omega
  unfold typeFor at h
  split at h
  all_goals
    cases h
    try
      refine ⟨?_, rfl⟩
      cases a <;> first | exact trivial | exact ha.elim | exact absurd ha no9 | exact absurd ha no12 | exact absurd ha no8

theorem asked_of_encodes {layout : FuseLayout} {t : ReqType} {m : Bytes} (ht : typeFor layout (u32At m 4) = some t)
    {a : ClientReq} (ha : Encodes t a m) (hs : a.ShiftFree) :
    asked layout m = (a.operation (nodeOf m)).map fun op => (senderOf m, op) := by
  have he : meaning t (u32At m 4) (argsOf m) = a := by
    obtain ⟨_, h2, h3, ⟨s, h4⟩, h5⟩ := ha
    rw [h3, ← h4]
    exact meaning_body h2 h5 s
  unfold asked
  rw [ht]
  show (if Encodes t (meaning t (u32At m 4) (argsOf m)) m ∧ (meaning t (u32At m 4) (argsOf m)).ShiftFree then _ else none) = _
  rw [he, if_pos ⟨ha, hs⟩]
  cases a.operation (nodeOf m) <;> rfl

theorem asked_encodes {layout : FuseLayout} {m : Bytes} {who : Caller} {op : Op} (h : asked layout m = some (who, op)) :
    ∃ t a, typeFor layout (u32At m 4) = some t ∧ Encodes t a m ∧ a.ShiftFree ∧ a.operation (nodeOf m) = some op ∧
      who = senderOf m := by
  unfold asked at h
  cases ht : typeFor layout (u32At m 4) with
  | none => rw [ht] at h; cases h
  | some t =>
    rw [ht] at h
    have h : (if Encodes t (meaning t (u32At m 4) (argsOf m)) m ∧ (meaning t (u32At m 4) (argsOf m)).ShiftFree then
      ((meaning t (u32At m 4) (argsOf m)).operation (nodeOf m)).bind fun op => some (senderOf m, op) else none) =
        some (who, op) := h
    split at h
    · rename_i hc
      obtain ⟨op', h1, h2⟩ := Option.bind_eq_some_iff.mp h
      cases h2
      exact ⟨t, _, rfl, hc.1, hc.2, h1, rfl⟩
    · cases h

/-! ## What is asked for is sound -/

/-- Operations that may be asked for: as the protocol has them, but that locks may be about bytes beyond the largest file. -/
def Spec.Op.Sound (ext : Bool) (op : Op) : Prop :=
  match op with
  | .getlk _ _ _ _ span | .setlk _ _ _ _ _ _ span _ =>
    ∀ n, span.length = some n → span.start.toNat + n.val.toNat < 2 ^ 64
  | op => op.Ok ext

/-- The operations of a filesystem keep what they rely upon, and answer with what can be sent. -/
def Spec.Keeps {S : Type} (act : Caller → Op → S → Ans × S) (ext : Bool) (inv : S → Prop) : Prop :=
  ∀ who op s, inv s → op.Sound ext → op.kind.Allows (act who op s).1 ∧ inv (act who op s).2

theorem nodeFrom_val {n : UInt64} {i : NodeId} (h : nodeFrom n = some i) : i.val = n := by
  unfold nodeFrom at h
  split at h
  · cases h
    rfl
  · cases h

theorem spanFrom_sound {l : FuseFileLock} {s : Span} (h : spanFrom l = some s) (n : NonZeroU64) (hn : s.length = some n) :
    s.start.toNat + n.val.toNat < 2 ^ 64 := by
  have hs := l.start.toNat_lt
  have he := l.end_.toNat_lt
  unfold spanFrom at h
  split at h
  · rename_i hlt
    rw [UInt64.lt_iff_toNat_lt] at hlt
    obtain ⟨i, h1, rfl⟩ := Option.map_eq_some_iff.mp h
    cases hn
    rw [nodeFrom_val h1]
    show (l.end_ + 1).toNat + (l.start - (l.end_ + 1)).toNat < _
    rw [UInt64.toNat_sub, UInt64.toNat_add]
    show (_ + 1) % _ + (2 ^ 64 - (_ + 1) % _ + _) % _ < _
    omega
  · rename_i hlt
    rw [UInt64.lt_iff_toNat_lt] at hlt
    split at h
    · cases h
      cases hn
    · obtain ⟨i, h1, rfl⟩ := Option.map_eq_some_iff.mp h
      cases hn
      rw [nodeFrom_val h1]
      show l.start.toNat + (l.end_ - l.start + 1).toNat < _
      rw [UInt64.toNat_add, UInt64.toNat_sub]
      show _ + ((2 ^ 64 - _ + _) % _ + 1) % _ < _
      omega

theorem selected_isSome {β : Type} {m b : UInt32} {x : β} : (selected m b x).isSome = true ↔ m &&& b ≠ 0 := by
  unfold selected
  split
  · rename_i h
    exact ⟨(nomatch ·), fun e => absurd h e⟩
  · rename_i h
    exact ⟨fun _ => h, fun _ => rfl⟩

theorem selected_time {m b : UInt32} {t : UInt64} {n : UInt32} (h : NanosOk m b n) : TimeOk (selected m b (timespec t n)) := by
  intro x hx
  unfold selected at hx
  split at hx
  · cases hx
  · rename_i hb
    cases hx
    exact h hb

theorem typeFor_setxattr {layout l : FuseLayout} {n : Nat} (h : typeFor layout n = some (.setxattr l)) : l = layout := by
  unfold typeFor at h
  split at h <;> first | (cases h; done) | (injection h with h; injection h with h; exact h.symm)

/-- What is asked for is sound. -/
theorem asked_sound {layout : FuseLayout} (h12 : 12 ≤ layout.versionMinor) {ext : Bool}
    (hext : ext = true ↔ layout.features &&& 1 ≠ 0) {m : Bytes} {who : Caller} {op : Op}
    (h : asked layout m = some (who, op)) : op.Sound ext := by
  obtain ⟨t, a, h1, h2, h3, h4, _⟩ := asked_encodes h
  obtain ⟨hcur, hc⟩ := typeFor_current h12 h1 h2.2.1
  have hty := h2.2.1
  have hw := h2.2.2.2.2
  clear h2 h
  cases a <;> try exact hcur.elim
  all_goals
    simp only [ClientReq.operation, bind, pure, Option.bind_eq_some_iff, Option.some.injEq] at h4
    try (refine Exists.elim h4 ?_; clear h4; rintro _ ⟨_, h4⟩)
    try (refine Exists.elim h4 ?_; clear h4; rintro _ ⟨_, h4⟩)
    subst h4
    first
      | exact trivial
      | exact hw.2
      | exact hw.2.2
      | exact ⟨hw.2.2, h3, hw.2.1⟩
      | exact ⟨selected_time hw.2.1, selected_time hw.2.2.1, selected_time hw.2.2.2⟩
      | exact selected_isSome
      | exact spanFrom_sound ‹_›
      | skip
  case setxattrOld => exact ⟨h3, hw.2.1, fun _ => rfl⟩
  case setxattr =>
    refine ⟨h3, hw.2.1, fun e => ?_⟩
    cases t <;> try exact hty.elim
    cases typeFor_setxattr h1
    exact absurd (hext.mpr hty) (by rw [e]; exact Bool.false_ne_true)
  case mknod b name _ _ =>
    refine ⟨hw.2, ?_⟩
    unfold deviceFrom
    split
    · exact ⟨fun _ => ‹_›, fun _ => rfl⟩
    · exact ⟨(nomatch ·), fun e => absurd e ‹_›⟩

/-! ## Messages that the library does not deal with as it should -/

/-- A BATCH_FORGET that announces `2^28` items or more; and a SETXATTR with an empty name. -/
def Spec.Vicious (layout : FuseLayout) (m : Bytes) : Prop :=
  (u32At m 4 = 42 ∧ 2 ^ 28 ≤ u32At m 40) ∨
    (u32At m 4 = 21 ∧ (argsOf m)[if layout.features &&& 1 = 0 then 8 else 16]? = some 0)

instance decidableVicious (layout : FuseLayout) (m : Bytes) : Decidable (Vicious layout m) :=
  inferInstanceAs (Decidable (_ ∨ _))

theorem faults_vicious {layout : FuseLayout} (h12 : 12 ≤ layout.versionMinor) {n : Nat} {checks : Bool} {t t' : ReqType}
    (h : typeFor layout n = some t') (ht : t = t' ∨ t = .forget checks ∧ t' = .forget true) {m : Bytes}
    (hf : DecodeFaults t m) : Vicious layout m := by
  have h12 : 12 ≤ layout.versionMinor.toNat := UInt16.le_iff_toNat_le.mp h12
  obtain ⟨_, hf⟩ := hf
  cases t with
  | forget c => exact .inl ⟨hf.1, hf.2.2.1⟩
  | write v c =>
    have : v = layout.minor := by
      rcases ht with rfl | ⟨ht, _⟩
      · unfold typeFor at h
        split at h <;> first | (cases h; done) | (injection h with h; injection h with h _; exact h.symm)
      · cases ht
    subst this
    have := UInt32.lt_iff_toNat_lt.mp hf.1
    rw [FuseLayout.minor, UInt16.toNat_toUInt32] at this
    have : layout.versionMinor.toNat < 9 := this
    omega
  | _ => exact hf.elim

theorem empty_vicious {layout : FuseLayout} {t : ReqType} {m : Bytes} (ht : typeFor layout (u32At m 4) = some t) {q : AnyRequest}
    (hq : decodeMessage t m = .ok q) (hx : q.EmptyXattrName) : Vicious layout m := by
  refine .inr ?_
  cases q <;> try exact hx.elim
  rename_i x
  have hx : x.name.bytes = [] := hx
  have layouts : ∀ l, t = .setxattr l → l = layout := fun l e => typeFor_setxattr (e ▸ ht)
  rcases (C67_exact t m).2 _ hq with ⟨a, ha, hm⟩ | ⟨y, hy, hn, he⟩
  · obtain ⟨_, h2, h3, ⟨s, h4⟩, hw⟩ := ha
    clear hw
    cases a <;> try exact hm.elim
    all_goals
      rename_i b name value
      cases t <;> try exact h2.elim
      rename_i l
      cases layouts l rfl
      have hn : name = [] := hm.2.1.symm.trans hx
      subst hn
      refine ⟨h3, ?_⟩
    · rw [if_pos (show layout.features &&& 1 = 0 from h2), ← h4]
      rfl
    · rw [if_neg (show layout.features &&& 1 ≠ 0 from h2), ← h4]
      rfl
  · obtain ⟨_, h2, _, l, hl, h5⟩ := he
    cases layouts l hl
    refine ⟨h2, ?_⟩
    rcases h5 with ⟨hf, b, s, h6, h7, h8⟩ | ⟨hf, b, s, h6, h7, h8⟩
    · rw [if_neg hf, h6, List.append_assoc, List.getElem?_append_right (by exact Nat.le_refl 16)]
      exact List.head?_eq_getElem?.symm.trans h8
    · rw [if_pos hf, h6, List.append_assoc, List.getElem?_append_right (by exact Nat.le_refl 8)]
      exact List.head?_eq_getElem?.symm.trans h8

/-! ## One message -/

section
variable {S α : Type} (srv : RpcServer S)

theorem acceptable_sender {m : Bytes} (h : Acceptable m) :
    ∃ (id : NonZeroU64) (hdr : FuseInHeader), id.val = .ofNat (u64At m 8) ∧
      (⟨hdr.uid, hdr.gid, hdr.pid⟩ : Caller) = senderOf m ∧ Filesystem.idAndHeader ⟨m⟩ = .ok (id, hdr) := by
  obtain ⟨_, _, h3, _, h5, h6, h7⟩ := hdr_fields h.1
  have hu : (hd m).unique ≠ 0 := fun e => h.2.1 (by rw [← h3]; exact congrArg UInt64.toNat e)
  have hh : Request.rawHeader ⟨m⟩ = .ok (hd m) := by
    unfold Request.rawHeader
    rw [size_fuse_in_header, if_pos h.1]
  refine ⟨⟨(hd m).unique, hu⟩, hd m, ?_, ?_, idAndHeader_ok hh ?_⟩
  · rw [← h3]
    exact UInt64.ofNat_toNat.symm
  · unfold senderOf
    rw [← h5, ← h6, ← h7, UInt32.ofNat_toNat, UInt32.ofNat_toNat, UInt32.ofNat_toNat]
  · simp only [FuseInHeader.requestId, NonZeroU64.newUnchecked, dif_pos hu]

theorem decode_accepted {m : Bytes} (h : Acceptable m) (t : ReqType) :
    Request.decode ⟨m⟩ (decodeAny t) = decodeMessage t m := by
  unfold decodeMessage
  rw [acceptable_new h]

/-- The message for an operation asks for it. -/
theorem asked_own {layout : FuseLayout} (h12 : 12 ≤ layout.versionMinor) {ext : Bool}
    (hext : ext = true ↔ layout.features &&& 1 ≠ 0) {u : UInt64} (hu : u ≠ 0) {who : Caller} {op : Op}
    (hok : op.Ok ext) (hl : 40 + (op.request ext).2.body.length < 2 ^ 32) :
    asked layout ((op.request ext).2.message u (op.request ext).1 who.uid who.gid who.pid 0) = some (who, op) := by
  obtain ⟨m, t, hr⟩ := request_reaches (checks := true) (.of h12 op) hext hok hl
  obtain ⟨hacc, hml, m', t', id, hdr, q, hm, ht, hid, _, hwho, hq, hop⟩ :=
    reaches_taken hr (fun _ => op_of_matches hok) hu hl (who := who) rfl
  have henc := message_encodes (unique := u) (uid := who.uid) (gid := who.gid) (pid := who.pid) (padding := 0) (tail := [])
    hr.has (hr.fuse ▸ hr.wf) hu hl
  rw [List.append_nil] at henc
  have hopc := henc.2.2.1
  generalize (op.request ext).2.message u (op.request ext).1 who.uid who.gid who.pid 0 = msg at *
  generalize (op.request ext).2 = a at *
  obtain ⟨id', hdr', _, hwho', hid'⟩ := acceptable_sender hacc
  cases hid.symm.trans hid'
  rw [hopc] at hm
  cases hr.method.symm.trans hm
  cases hr.type.symm.trans ht
  obtain ⟨t1, h1, hsame⟩ := typeFor_method hr.method hr.type
  have henc' : Encodes t1 a msg := by
    rcases hsame with rfl | ⟨rfl, rfl⟩
    · exact henc
    · exact encodes_forget henc
  obtain ⟨q', hq', hmat⟩ := C67_decodes_partial henc hr.shift (fun h => hml ▸ hr.new h)
  rw [decode_accepted hacc t] at hq
  cases hq.symm.trans hq'
  obtain ⟨hcur, _⟩ := typeFor_current h12 h1 henc'.2.1
  have hw := henc.2.2.2.2
  rw [hr.fuse] at hw hmat
  obtain ⟨op', h5, h6⟩ := operation_of_matches hcur hw hmat
  cases hop.symm.trans h6
  rw [asked_of_encodes (by rw [hopc]; exact h1) henc' hr.shift, h5, ← hwho', hwho]
  rfl

theorem refuse_eq {ω ε : Type} (sock : Socket (Option S × ω) ε) (put : Bytes → ω → ω)
    (hput : ∀ {b : SendBuf} {msg : Bytes}, Carries b msg → ∀ w, sock.send b w = (.ok (), (w.1, put msg w.2)))
    {m : Bytes} (h : Acceptable m) (e : FuseError) (s : S) (w : ω) :
    srv.refuse sock e ⟨m⟩ (some s, w) = (some s, put (frame (.ofNat (u64At m 8)) e.val []) w) := by
  obtain ⟨id, hdr, h1, _, h3⟩ := acceptable_sender h
  unfold RpcServer.refuse
  rw [h3]
  dsimp only
  obtain ⟨b, hb, hrun⟩ := C17_fuse sock srv.layout id (.err e) (some s, w) (show 16 + 0 < 2 ^ 32 by decide)
  rw [hrun, hput hb, h1]
  rfl

/-- A message is dealt with as it is to be, if it is not one of two kinds. -/
theorem guard_handles_if {ω ε : Type} (sock : Socket (Option S × ω) ε) (put : Bytes → ω → ω)
    (hput : ∀ {b : SendBuf} {msg : Bytes}, Carries b msg → ∀ w, sock.send b w = (.ok (), (w.1, put msg w.2)))
    (haddr : ∀ op, srv.addr op % 8 = 0) (h12 : 12 ≤ srv.layout.versionMinor) {m : Bytes} (hacc : Acceptable m)
    (hv : ∀ meth t, fuseMethodAt (u32At m 4) = some meth → meth.reqType srv.layout srv.checks = some t →
      (∀ f, decodeMessage t m ≠ .error (.fault f)) ∧ ∀ q, decodeMessage t m = .ok q → ¬ q.EmptyXattrName) (s : S)
    (hans : ∀ who op, asked srv.layout m = some (who, op) → op.kind.Allows (srv.act who op s).1) (w : ω) :
    ∃ out s', fuseHandle (srv.guards sock) m (some s, w) = (some s', out.foldl (fun w m => put m w) w) ∧
      Dealt srv.act srv.layout m s out s' ∧ out.length ≤ 1 := by
  have unhandled (ht : typeFor srv.layout (u32At m 4) = none)
      (h : fuseHandle (srv.guards sock) m (some s, w) = srv.refuse sock refusalUnknown ⟨m⟩ (some s, w)) :
      ∃ out s', fuseHandle (srv.guards sock) m (some s, w) = (some s', out.foldl (fun w m => put m w) w) ∧
        Dealt srv.act srv.layout m s out s' ∧ out.length ≤ 1 := by
    refine ⟨[frame (.ofNat (u64At m 8)) (-38) []], s, ?_, ?_, Nat.le_refl 1⟩
    · rw [h, refuse_eq srv sock put hput hacc]
      rfl
    · have ha : asked srv.layout m = none := by
        unfold asked
        rw [ht]
        rfl
      have hu : unanswered (u32At m 4) = false := by
        cases h : unanswered (u32At m 4)
        · rfl
        · simp only [unanswered, Bool.or_eq_true, beq_iff_eq] at h
          rcases h with (h | h) | h <;> rw [h] at ht <;> cases ht
      unfold Dealt refusal
      rw [ha, hu, ht]
      exact ⟨rfl, rfl⟩
  cases hm : fuseMethodAt (u32At m 4) with
  | none =>
    refine unhandled (typeFor_unknown hm) ?_
    unfold fuseHandle
    rw [hm]
    rfl
  | some meth =>
    cases hr : meth.reqType srv.layout srv.checks with
    | none =>
      refine unhandled (typeFor_unhandled hm hr) ?_
      unfold fuseHandle
      rw [hm]
      have ho : (srv.guards sock).overridden meth = none := by
        unfold RpcServer.guards
        dsimp only
        rw [hr]
        rfl
      dsimp only
      rw [ho]
      dsimp only
      rw [if_neg (by rintro (rfl | rfl | rfl) <;> cases hr)]
      rfl
    | some t =>
      obtain ⟨t', ht', hsame⟩ := typeFor_method hm hr
      have enc (a : ClientReq) : Encodes t a m ↔ Encodes t' a m := by
        rcases hsame with rfl | ⟨rfl, rfl⟩
        · rfl
        · exact ⟨encodes_forget, encodes_forget⟩
      have hhandle : fuseHandle (srv.guards sock) m (some s, w) =
          srv.guarded sock (meth = .forget ∨ meth = .batchForget ∨ meth = .interrupt) t ⟨m⟩ s w := by
        unfold fuseHandle
        rw [hm]
        dsimp only
        unfold RpcServer.guards
        dsimp only
        rw [hr]
        rfl
      have hquiet : decide (meth = .forget ∨ meth = .batchForget ∨ meth = .interrupt) = unanswered (u32At m 4) := by
        have key : ∀ n, fuseMethodAt n = some meth →
            decide (meth = .forget ∨ meth = .batchForget ∨ meth = .interrupt) = unanswered n := by
          intro n h
          unfold fuseMethodAt at h
          split at h <;> cases h <;> rfl
        exact key _ hm
      rw [hhandle]
      unfold RpcServer.guarded
      have hd := decode_accepted hacc t
      rw [hd]
      cases hq : decodeMessage t m with
      | error f =>
        cases f with
        | fault f =>
          exact absurd hq ((hv meth t hm hr).1 f)
        | req e =>
          have ha : asked srv.layout m = none := by
            cases ha : asked srv.layout m with
            | none => rfl
            | some x =>
              obtain ⟨who, op⟩ := x
              obtain ⟨t1, a, h1, h2, h3, h4, _⟩ := asked_encodes ha
              cases ht'.symm.trans h1
              have hcur := (typeFor_current h12 ht' h2.2.1).1
              obtain ⟨q, h5, _⟩ := C67_decodes_partial ((enc a).mpr h2) h3 (by
                intro ho
                cases a <;> first | exact ho.elim | exact hcur.elim)
              rw [hq] at h5
              cases h5
          dsimp only
          rw [hquiet]
          cases hu : unanswered (u32At m 4)
          · refine ⟨[frame (.ofNat (u64At m 8)) (-5) []], s, ?_, ?_, Nat.le_refl 1⟩
            · rw [if_neg Bool.false_ne_true, refuse_eq srv sock put hput hacc]
              rfl
            · unfold Dealt refusal
              rw [ha, hu, ht']
              exact ⟨rfl, rfl⟩
          · refine ⟨[], s, rfl, ?_, Nat.zero_le 1⟩
            unfold Dealt refusal
            rw [ha, hu]
            exact ⟨rfl, rfl⟩
      | ok q =>
        dsimp only
        have hx : ¬ q.EmptyXattrName := (hv meth t hm hr).2 q hq
        obtain ⟨a, h1, h2, h3, h4⟩ := C67_only_partial hq hx
        have h1' := (enc a).mp h1
        obtain ⟨hcur, hcuse'⟩ := typeFor_current h12 ht' h1'.2.1
        have hcuse : t.isCuse = false := by
          rcases hsame with rfl | ⟨rfl, rfl⟩
          · exact hcuse'
          · rfl
        have hw := h1.2.2.2.2
        rw [hcuse] at hw h4
        obtain ⟨op, h5, h6⟩ := operation_of_matches hcur hw h4
        have ha : asked srv.layout m = some (senderOf m, op) := by
          rw [asked_of_encodes ht' h1' h2, h5]
          rfl
        obtain ⟨id, hdr, i1, i2, i3⟩ := acceptable_sender hacc
        rw [answer_eq srv i3 (hd.trans hq) h6 rfl]
        have hal := hans _ _ ha
        rw [← i2] at hal
        obtain ⟨out, e1, e2, e3⟩ := reply_runs sock put hput h12 (os := srv.os) (haddr op) (id := id) hal
          (s' := (srv.act ⟨hdr.uid, hdr.gid, hdr.pid⟩ op s).2) (w := w)
        refine ⟨out, _, e1, ?_, ?_⟩
        · unfold Dealt
          rw [ha]
          refine ⟨by rw [← i2], by rw [← i1, ← i2]; exact e2, ?_⟩
          rcases e3 with ⟨k1, k2⟩ | ⟨_, r, k1, k2⟩
          · exact .inl ⟨k1, k2⟩
          · refine .inr ⟨r, k1, k2.trans ?_⟩
            rw [i1]
            exact UInt64.toNat_ofNat_of_lt' (u64At_lt _ _)
        · rcases e3 with ⟨_, rfl⟩ | ⟨_, r, rfl, _⟩
          · exact Nat.zero_le 1
          · exact Nat.le_refl 1

/-- A message is dealt with as it is to be. -/
theorem guard_handles {ω ε : Type} (sock : Socket (Option S × ω) ε) (put : Bytes → ω → ω)
    (hput : ∀ {b : SendBuf} {msg : Bytes}, Carries b msg → ∀ w, sock.send b w = (.ok (), (w.1, put msg w.2)))
    (haddr : ∀ op, srv.addr op % 8 = 0) (h12 : 12 ≤ srv.layout.versionMinor) {m : Bytes} (hacc : Acceptable m)
    (hv : ¬ Vicious srv.layout m) (s : S)
    (hans : ∀ who op, asked srv.layout m = some (who, op) → op.kind.Allows (srv.act who op s).1) (w : ω) :
    ∃ out s', fuseHandle (srv.guards sock) m (some s, w) = (some s', out.foldl (fun w m => put m w) w) ∧
      Dealt srv.act srv.layout m s out s' ∧ out.length ≤ 1 := by
  refine guard_handles_if srv sock put hput haddr h12 hacc (fun meth t hm hr => ?_) s hans w
  obtain ⟨t', ht', hsame⟩ := typeFor_method hm hr
  refine ⟨fun f hq => hv (faults_vicious h12 ht' hsame ((C04_exact t m).1.mp ⟨f, hq⟩)), fun q hq hx => ?_⟩
  refine hv (empty_vicious (t := t) ?_ hq hx)
  rcases hsame with rfl | ⟨rfl, rfl⟩
  · exact ht'
  · cases q <;> try exact hx.elim
    rcases (C67_exact _ m).2 _ hq with ⟨a, ha, hm⟩ | ⟨y, hy, hn, he⟩
    · cases a <;> first | exact hm.elim | exact ha.2.1.elim
    · obtain ⟨_, _, _, l, hl, _⟩ := he
      cases hl

/-! ## Conversations -/

theorem held_serves (haddr : ∀ op, srv.addr op % 8 = 0) (h12 : 12 ≤ srv.layout.versionMinor) {ext : Bool}
    (hext : ext = true ↔ srv.layout.features &&& 1 ≠ 0) {inv : S → Prop} (hinv : Keeps srv.act ext inv) {β : Type} (g : α → β)
    (talk : Talk α) : talk.Only (¬ Vicious srv.layout ·) →
      ∀ (s : S) (buf : Bytes), inv s → ∀ (heard : List Bytes) (k : List Bytes → Talk β),
        k heard = (do let r ← talk; return g r) →
        ∃ r s' out heard' k', Held srv.act srv.layout buf.length talk s r s' ∧ inv s' ∧
          FuseServes (Wired.socket (Option S) β) (srv.guards (Wired.socket (Option S) β)) buf (some s, heard, k)
            (out, (some s', heard', k')) ∧
          match r with
          | some a => out = .ok () ∧ k' heard' = .done (g a)
          | none => ∃ e, out = .err e := by
  induction talk with
  | done a =>
    intro _ s buf hs heard k hk
    have hk : k heard = .done (g a) := hk
    refine ⟨some a, s, .ok (), heard, k, .done a s, hs, .of_step ?_, rfl, hk⟩
    have hr : (Wired.socket (Option S) β).recv buf (some s, heard, k) =
        ((.error (.connectionClosed ()), buf), (some s, heard, k)) := by
      show (match k heard with | .done _ => _ | .say m k => _) = _
      rw [hk]
    simp only [fuseServeStep, fuseRecv, hr]
  | say m f ih =>
    intro honly s buf hs heard k hk
    have hk : k heard = .say m (fun out => do let r ← f out; return g r) := hk
    by_cases hl : m.length ≤ buf.length
    · have hr := mount_recv (content := some s) hk hl
      have htake : (m ++ buf.drop m.length).take m.length = m := List.take_left
      by_cases hacc : Acceptable m
      · obtain ⟨out, s1, e1, e2, e3⟩ := guard_handles srv (Wired.socket (Option S) β) (fun m w => (w.1 ++ [m], w.2))
          (fun hb w => mount_send hb w) haddr h12 hacc honly.1 s (fun who op ha => (hinv who op s hs (asked_sound h12 hext ha)).1)
          ([], fun out => do let r ← f out; return g r)
        have hs1 : inv s1 := by
          unfold Dealt at e2
          split at e2
          · rename_i who op ha
            rw [e2.1]
            exact (hinv who op s hs (asked_sound h12 hext ha)).2
          · rw [e2.1]
            exact hs
        have hlen : (m ++ buf.drop m.length).length = buf.length := by
          rw [List.length_append, List.length_drop]
          omega
        have hfold : out.foldl (fun (w : List Bytes × (List Bytes → Talk β)) m => (w.1 ++ [m], w.2))
            ([], fun out => do let r ← f out; return g r) = (out, fun out => do let r ← f out; return g r) := by
          rcases out with _ | ⟨m, _ | ⟨m', l⟩⟩
          · rfl
          · rfl
          · exact absurd e3 (by simp only [List.length_cons]; omega)
        rw [hfold] at e1
        have hstep := fuse_serve_more (Wired.socket (Option S) β) (srv.guards (Wired.socket (Option S) β)) hr
          (by rw [htake]; exact hacc)
        rw [htake, e1] at hstep
        obtain ⟨r, s2, o, heard', k', i1, i2, i3, i4⟩ := ih out (honly.2 out) s1 (m ++ buf.drop m.length) hs1 out
          (fun out => do let r ← f out; return g r) rfl
        rw [hlen] at i1
        exact ⟨r, s2, o, heard', k', .say hl hacc e2 i1, i2, .of_next hstep i3, i4⟩
      · obtain ⟨o, e1, e2⟩ := fuse_serve_stop (Wired.socket (Option S) β) (srv.guards (Wired.socket (Option S) β)) hr
          (by rintro n ⟨⟩; rw [htake]; exact hacc)
        refine ⟨none, s, o, [], _, .stop (fun h => hacc h.2), hs, .of_step e2, ?_⟩
        cases e1 <;> exact ⟨_, rfl⟩
    · have hr : (Wired.socket (Option S) β).recv buf (some s, heard, k) =
          ((.error (.other ()), buf), (some s, heard, k)) := by
        show (match k heard with | .done _ => _ | .say m k => _) = _
        rw [hk]
        exact if_neg hl
      obtain ⟨o, e1, e2⟩ := fuse_serve_stop (Wired.socket (Option S) β) (srv.guards (Wired.socket (Option S) β)) hr
        (fun n h => nomatch h)
      refine ⟨none, s, o, heard, k, .stop (fun h => hl h.1), hs, .of_step e2, ?_⟩
      cases e1
      exact ⟨_, rfl⟩

end

/-! ## The property -/

/-- A client that may send anything with `P`, whatever it hears, only brings about what it asks for: each message is dealt with
as `Dealt` says, the filesystem is only ever used for sound operations, and what it relies upon is kept.  When the client is
done, serving ends without an error; if it sends what is not even a message, serving ends with an error, and with the filesystem
as it was. -/
def Spec.ClientsConfined (P : FuseLayout → Bytes → Prop) : Prop :=
  ∀ (S α : Type) (srv : RpcServer S), (∀ op, srv.addr op % 8 = 0) → 12 ≤ srv.layout.versionMinor →
    ∀ ext : Bool, (ext = true ↔ srv.layout.features &&& 1 ≠ 0) → ∀ inv : S → Prop, Keeps srv.act ext inv →
    ∀ (talk : Talk α) (s : S) (buf : Bytes), talk.Only (P srv.layout) → inv s →
      ∃ r s' out heard k, Held srv.act srv.layout buf.length talk s r s' ∧ inv s' ∧
        FuseServes (Wired.socket (Option S) α) (srv.guards (Wired.socket (Option S) α)) buf (some s, [], fun _ => talk)
          (out, (some s', heard, k)) ∧
        match r with
        | some a => out = .ok () ∧ k heard = .done a
        | none => ∃ e, out = .err e

/-- C84: whatever a client sends, only what it asks for reaches the filesystem.  Missing for the full claim, which is
`ClientsConfined fun _ _ => True`: BATCH_FORGET with a count of `2^28` or more, and SETXATTR with an empty name; see
C84_violated. -/
theorem C84_partial : ClientsConfined fun layout m => ¬ Vicious layout m := by
  intro S α srv haddr h12 ext hext inv hinv talk s buf ht hs
  exact held_serves srv haddr h12 hext hinv id talk ht s buf hs [] (fun _ => talk) (bind_done _).symm

/-- C84: the same through a whole mount, with any server made with the builder, and a client that sends anything once it has
been accepted. -/
theorem C84_mount_partial {S α : Type} (act : Caller → Op → S → Ans × S) (checks : Bool) (os : Os) (addr : Op → Nat)
    (haddr : ∀ op, addr op % 8 = 0) (server : FuseServer) (newer : List Bytes) (init : Bytes)
    (hnewer : ∀ m ∈ newer, m.length ≤ 8192 ∧ IsFuseInit m ∧ u32At m 40 ≠ 7)
    (hinit : init.length ≤ 8192 ∧ IsFuseInit init ∧ u32At init 40 = 7 ∧ 12 ≤ u32At init 44) (inv : S → Prop)
    (hinv : ∀ ext, Keeps act ext inv) (body : Bytes → Talk α)
    (hbody : ∀ reply layout, (body reply).Only (¬ Vicious layout ·)) (s : S) (hs : inv s) :
    ∃ conn reply w, server.Connects (Wired.socket (Option S) _) (some s, [], fun _ => Client.handshake init body newer)
        (.ok conn, w) ∧
      ∀ buf : Bytes, ∃ r s' out heard k, Held act conn.layout buf.length (body reply) s r s' ∧ inv s' ∧
        FuseServes (Wired.socket (Option S) _) ((⟨act, conn.layout, checks, os, addr⟩ : RpcServer S).guards
          (Wired.socket (Option S) _)) buf w (out, (some s', heard, k)) ∧
        match r with
        | some a => out = .ok () ∧ k heard = .done (some a)
        | none => ∃ e, out = .err e := by
  obtain ⟨conn, p, q, k, h1, h2, h3, h4, h5, -⟩ := connects server init body
    ⟨hinit.1, hinit.2.1, hinit.2.2.1, by omega⟩ (some s) newer hnewer
    minReadBuffer [] (fun _ => Client.handshake init body newer) (List.length_replicate ..) rfl
  refine ⟨conn, q, _, h1, fun buf => ?_⟩
  have h12 : 12 ≤ conn.layout.versionMinor := by
    rw [UInt16.le_iff_toNat_le, h4]
    show 12 ≤ min _ 36
    omega
  exact held_serves ⟨act, conn.layout, checks, os, addr⟩ haddr h12 h3.symm (hinv _) some (body q) (hbody q _) s buf hs [p] k h2

/-- C84: what is asked for is sound, and the message for a possible operation asks for it. -/
theorem C84_asked {layout : FuseLayout} (h12 : 12 ≤ layout.versionMinor) {ext : Bool}
    (hext : ext = true ↔ layout.features &&& 1 ≠ 0) :
    (∀ m who op, asked layout m = some (who, op) → op.Sound ext) ∧
    ∀ (u : UInt64) (who : Caller) (op : Op), u ≠ 0 → op.Ok ext → 40 + (op.request ext).2.body.length < 2 ^ 32 →
      asked layout ((op.request ext).2.message u (op.request ext).1 who.uid who.gid who.pid 0) = some (who, op) :=
  ⟨fun _ _ _ h => asked_sound h12 hext h, fun _ _ _ hu hok hl => asked_own h12 hext hu hok hl⟩

/-! ## Concrete cases -/

namespace Hostile

/-- A filesystem that notes what it is asked, and does nothing else. -/
def note (who : Caller) (op : Op) (past : List (Caller × Op)) : Ans × List (Caller × Op) :=
  (match op.kind with | .silent => .silent | _ => .error ⟨-2, by decide⟩, past ++ [(who, op)])

theorem note_allowed (k : Kind) : k.Allows (match k with | .silent => .silent | _ => .error ⟨-2, by decide⟩) := by
  cases k <;> first | exact trivial | rfl

/-- It relies upon having been asked nothing that is not sound. -/
def Clean (ext : Bool) (past : List (Caller × Op)) : Prop := ∀ x ∈ past, x.2.Sound ext

theorem note_keeps (ext : Bool) : Keeps note ext (Clean ext) := by
  intro who op s hs hok
  refine ⟨note_allowed _, fun x hx => ?_⟩
  rcases List.mem_append.mp hx with hx | hx
  · exact hs x hx
  · cases List.mem_singleton.mp hx
    exact hok

def server : RpcServer (List (Caller × Op)) := ⟨note, ⟨31, 0⟩, true, .linux, fun _ => 0x1000⟩

/-- What becomes of a conversation, running the model for at most `n` steps: the result, why serving ends, and the
filesystem. -/
def outcome {S α : Type} (srv : RpcServer S) (n len : Nat) (talk : Talk α) (s : S) :
    Option (Option α × Option RequestError × Option S) :=
  match iterate (fuseServeStep (Wired.socket (Option S) α) (srv.guards (Wired.socket (Option S) α))) n
      (List.replicate len 0, (some s, [], fun _ => talk)) with
  | .inl (o, (s, heard, k)) =>
    let a := match k heard with | .done a => some a | _ => none
    match o with
    | .ok () => some (a, none, s)
    | .err (.request e) => some (a, some e, s)
    | _ => none
  | _ => none

instance decidableResult : DecidableEq (Option (List (List Bytes)) × Option RequestError × Option (List (Caller × Op))) :=
  @instDecidableEqProd _ _ inferInstance (@instDecidableEqProd _ _ inferInstance inferInstance)

theorem outcome_serves {S α : Type} {srv : RpcServer S} {n len : Nat} {talk : Talk α} {s : S} {a : Option α}
    {e : Option RequestError} {s' : Option S} (h : outcome srv n len talk s = some (a, e, s')) :
    ∃ o heard k, FuseServes (Wired.socket (Option S) α) (srv.guards (Wired.socket (Option S) α)) (List.replicate len 0)
      (some s, [], fun _ => talk) (o, (s', heard, k)) := by
  unfold outcome at h
  split at h
  · rename_i o s1 heard k hi
    refine ⟨o, heard, k, n, hi.trans ?_⟩
    dsimp only at h
    split at h
    · injection h with h
      cases h
      rfl
    · injection h with h
      cases h
      rfl
    · cases h
  · cases h

/-- One message after the other, and all that is heard. -/
def sends : List Bytes → List (List Bytes) → Talk (List (List Bytes))
  | [], heard => .done heard
  | m :: ms, heard => .say m fun out => sends ms (heard ++ [out])

/-- A message, with a header of 40 bytes. -/
def raw (op : UInt32) (id node : UInt64) (args : Bytes) : Bytes :=
  le32 (.ofNat (40 + args.length)) ++ le32 op ++ le64 id ++ le64 node ++ le32 5 ++ le32 6 ++ le32 7 ++ le32 0 ++ args

/-- Names without an end, with a slash, a node that there is none of, an opcode that there is none of, BATCH_FORGET cut short,
WRITE that claims to be longer than it is; then MKDIR followed by something else. -/
def messages : List Bytes :=
  [raw 1 11 1 [0x61], raw 1 12 1 [0x61, 0x2F, 0], raw 1 13 0 [0x61, 0], raw 99 14 1 [1, 2, 3], raw 42 15 0 [1, 0, 0, 0],
    raw 16 16 2 (List.replicate 16 0 ++ [9, 0, 0, 0] ++ List.replicate 20 0 ++ [1]),
    raw 9 17 1 ([1, 0, 0, 0, 2, 0, 0, 0] ++ [0x64, 0] ++ [1, 2, 3])]

example : outcome server 8 200 (sends messages []) [] =
    some (some [[frame 11 (-5) []], [frame 12 (-5) []], [frame 13 (-5) []], [frame 14 (-38) []], [], [frame 16 (-5) []],
        [frame 17 (-2) []]], none, some [(⟨5, 6, 7⟩, .mkdir ⟨1, by decide⟩ [0x64] 1 2)]) := by decide +kernel

example : messages.map (asked ⟨31, 0⟩) =
    [none, none, none, none, none, none, some (⟨5, 6, 7⟩, .mkdir ⟨1, by decide⟩ [0x64] 1 2)] := by decide +kernel

/-- What is too short ends it. -/
example : outcome server 8 200 (sends (messages ++ [[1, 2, 3]] ++ messages) []) [] =
    some (none, some .unexpectedEof, some [(⟨5, 6, 7⟩, .mkdir ⟨1, by decide⟩ [0x64] 1 2)]) := by decide +kernel

theorem sends_only {P : Bytes → Prop} {ms : List Bytes} (h : ∀ m ∈ ms, P m) (heard : List (List Bytes)) :
    (sends ms heard).Only P := by
  induction ms generalizing heard with
  | nil => exact trivial
  | cons m ms ih => exact ⟨h m (.head ..), fun out => ih (fun m hm => h m (.tail _ hm)) _⟩

/-- C84_partial for them. -/
example : ∃ r s' out heard k, Held note ⟨31, 0⟩ 200 (sends messages []) [] r s' ∧ Clean false s' ∧
    FuseServes (Wired.socket (Option _) _) (server.guards (Wired.socket (Option _) _)) (List.replicate 200 0)
      (some [], [], fun _ => sends messages []) (out, (some s', heard, k)) ∧
    match r with
    | some a => out = .ok () ∧ k heard = .done a
    | none => ∃ e, out = .err e := by
  have h := C84_partial _ _ server (fun _ => (by decide : 0x1000 % 8 = 0)) (by decide) false (by decide) _ (note_keeps false)
    (sends messages []) [] (List.replicate 200 0)
    (sends_only (show ∀ m ∈ messages, ¬ Vicious ⟨31, 0⟩ m by decide +kernel) []) (fun _ h => nomatch h)
  rw [List.length_replicate] at h
  obtain ⟨r, s', o, hd, k, h1, h2, h3, h4⟩ := h
  refine ⟨r, s', o, hd, k, h1, h2, h3, ?_⟩
  cases r <;> exact h4

/-- SETXATTR of three bytes under an empty name. -/
def nameless : Bytes := raw 21 9 1 ([3, 0, 0, 0, 0, 0, 0, 0] ++ [0, 0x61, 0x62, 0x63])

theorem forget_lost : outcome server 3 200 (sends [hugeForget] []) [] = some (some [[]], none, none) := by decide +kernel

theorem nameless_taken : outcome server 3 200 (sends [nameless] []) [] =
    some (some [[frame 9 (-2) []]], none, some [(⟨5, 6, 7⟩, .setxattr ⟨1, by decide⟩ [] [0, 0x61, 0x62] 0 0)]) := by
  decide +kernel

end Hostile

/-- C84: neither BATCH_FORGET nor SETXATTR can be allowed without a restriction.  A BATCH_FORGET that claims to have `2^28`
items makes the handler panic, and a SETXATTR with an empty name reaches the filesystem, with a wrong value. -/
theorem C84_violated : ¬ ClientsConfined (fun _ m => u32At m 4 = 42) ∧ ¬ ClientsConfined (fun _ m => u32At m 4 = 21) := by
  constructor
  · intro h
    obtain ⟨_, _, _, _, _, _, _, h1, _⟩ := h _ _ Hostile.server (fun _ => (by decide : 0x1000 % 8 = 0)) (by decide) false
      (by decide) _ (Hostile.note_keeps false) (Hostile.sends [hugeForget] []) [] (List.replicate 200 0)
      (Hostile.sends_only (show ∀ m ∈ [hugeForget], u32At m 4 = 42 by decide) []) (fun _ h => nomatch h)
    obtain ⟨_, _, _, h2⟩ := Hostile.outcome_serves Hostile.forget_lost
    cases LoopReturns.unique h1 h2
  · intro h
    obtain ⟨_, _, _, _, _, _, hc, h1, _⟩ := h _ _ Hostile.server (fun _ => (by decide : 0x1000 % 8 = 0)) (by decide) false
      (by decide) _ (Hostile.note_keeps false) (Hostile.sends [Hostile.nameless] []) [] (List.replicate 200 0)
      (Hostile.sends_only (show ∀ m ∈ [Hostile.nameless], u32At m 4 = 21 by decide) []) (fun _ h => nomatch h)
    obtain ⟨_, _, _, h2⟩ := Hostile.outcome_serves Hostile.nameless_taken
    cases LoopReturns.unique h1 h2
    have := hc _ (.head _)
    exact this.1 rfl

end Fuse
