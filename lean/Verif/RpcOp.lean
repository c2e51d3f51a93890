import Verif.Rpc
import Verif.PropWhole

/-!
# Requests for operations
-/

namespace Fuse
open Spec

namespace Spec

/-- The client can say where the bytes are. -/
def Span.Ok (s : Span) : Prop :=
  match s.length with
  | none => s.start.toNat < 2 ^ 63
  | some n => s.start.toNat + n.val.toNat < 2 ^ 63

/-- A time has fewer than `10^9` nanoseconds. -/
def TimeOk (t : Option UnixTime) : Prop := ∀ x, t = some x → x.nanos < 1000000000

/-- Operations as the protocol has them. -/
def Op.Ok (ext : Bool) : Op → Prop
  | .create _ name _ _ _ _ | .link _ _ name | .lookup _ name | .mkdir _ name _ _ | .rmdir _ name | .unlink _ name =>
    NameOk name
  | .rename _ name _ newName _ => NameOk name ∧ NameOk newName
  | .symlink _ name content => NameOk name ∧ content ≠ [] ∧ 0 ∉ content
  | .mknod _ name mode _ device => NameOk name ∧
    (device.isSome = true ↔ mode &&& 0xF000 = 0x2000 ∨ mode &&& 0xF000 = 0x6000)
  | .getlk _ _ _ _ span | .setlk _ _ _ _ _ _ span _ => span.Ok
  | .getxattr _ name _ | .removexattr _ name => 0 ∉ name
  | .setxattr _ name _ _ extFlags => name ≠ [] ∧ 0 ∉ name ∧ (ext = false → extFlags = 0)
  | .setattr _ c => TimeOk c.atime ∧ TimeOk c.mtime ∧ TimeOk c.ctime
  | .write _ _ _ _ flags owner _ => owner.isSome = true ↔ flags &&& 2 ≠ 0
  | _ => True

end Spec

/-! ## What the server takes from a request -/

theorem flagIf_and_self (c : Bool) (b : UInt32) : flagIf c b &&& b = flagIf c b := by
  cases c
  · exact UInt32.zero_and
  · exact UInt32.and_self

theorem flagIf_and (c : Bool) {b b' : UInt32} (h : b &&& b' = 0) : flagIf c b &&& b' = 0 := by
  cases c
  · exact UInt32.zero_and
  · exact h

theorem flagIf_zero {c : Bool} {b : UInt32} (h : b ≠ 0) : flagIf c b = 0 ↔ c = false := by
  cases c
  · exact ⟨fun _ => rfl, fun _ => rfl⟩
  · exact ⟨fun e => absurd e h, fun e => nomatch e⟩

theorem selected_flag {α : Type} {o : Option α} {m b : UInt32} (x : α) (hb : b ≠ 0) (hm : m &&& b = flagIf o.isSome b) :
    selected m b (o.getD x) = o := by
  unfold selected
  rw [hm]
  cases o with
  | none => exact if_pos rfl
  | some y => exact if_neg hb

theorem or_and_bits (a b c : UInt32) : (a ||| b) &&& c = (a &&& c) ||| (b &&& c) :=
  UInt32.toBitVec_inj.mp (by
    simp only [UInt32.toBitVec_and, UInt32.toBitVec_or]
    exact BitVec.eq_of_getLsbD_eq fun i _ => by simp [Bool.and_or_distrib_right])

theorem mask_bits (c : Changes) :
    c.mask &&& 1 = flagIf c.mode.isSome 1 ∧ c.mask &&& 2 = flagIf c.uid.isSome 2 ∧ c.mask &&& 4 = flagIf c.gid.isSome 4 ∧
      c.mask &&& 8 = flagIf c.size.isSome 8 ∧ c.mask &&& 16 = flagIf c.atime.isSome 16 ∧
      c.mask &&& 32 = flagIf c.mtime.isSome 32 ∧ c.mask &&& 64 = flagIf c.fh.isSome 64 ∧
      c.mask &&& 128 = flagIf c.atimeNow 128 ∧ c.mask &&& 256 = flagIf c.mtimeNow 256 ∧
      c.mask &&& 512 = flagIf c.owner.isSome 512 ∧ c.mask &&& 1024 = flagIf c.ctime.isSome 1024 := by
  unfold Changes.mask
  refine ⟨?_, ?_, ?_, ?_, ?_, ?_, ?_, ?_, ?_, ?_, ?_⟩ <;>
    · simp only [or_and_bits]
      repeat rw [flagIf_and_self]
      repeat rw [flagIf_and _ (by decide)]
      simp only [UInt32.or_zero, UInt32.zero_or]

theorem IdIs.eq {x : Except Fault NodeId} {i : NodeId} (h : IdIs x i.val) : x = .ok i := by
  obtain ⟨n, h1, h2⟩ := h
  rw [h1, Subtype.ext h2]

theorem IdOrRoot.eq {x i : NodeId} (h : IdOrRoot x i.val) : x = i := by
  refine Subtype.ext ?_
  have h : x.val = if i.val = 0 then 1 else i.val := h
  rwa [if_neg i.2] at h

theorem span_means {s : Span} (h : s.Ok) {type pid : UInt32} {r : LockRange} (hr : LockMeans ⟨s.start, s.last, type, pid⟩ r) :
    (⟨r.start, r.length⟩ : Span) = s := by
  obtain ⟨start, length⟩ := s
  unfold LockMeans at hr
  cases length with
  | none =>
    have h : start.toNat < 2 ^ 63 := h
    have e : (⟨start, none⟩ : Span).last = 0x7FFFFFFFFFFFFFFF := rfl
    rw [e] at hr
    rw [if_neg (by
      show ¬ (0x7FFFFFFFFFFFFFFF : UInt64) < start
      rw [UInt64.lt_iff_toNat_lt]
      show ¬ 0x7FFFFFFFFFFFFFFF < start.toNat
      omega), if_pos (by show 2 ^ 63 - 1 ≤ (0x7FFFFFFFFFFFFFFF : UInt64).toNat; decide)] at hr
    show Span.mk r.start r.length = _
    rw [hr.1, hr.2]
  | some n =>
    have h : start.toNat + n.val.toNat < 2 ^ 63 := h
    have hn : n.val.toNat ≠ 0 := fun e => n.2 (UInt64.toNat_inj.mp e)
    have hs : start.toNat < 2 ^ 64 := start.toNat_lt
    have e : (⟨start, some n⟩ : Span).last.toNat = start.toNat + n.val.toNat - 1 := by
      show (start + n.val - 1).toNat = _
      rw [UInt64.toNat_sub, UInt64.toNat_add]
      show (2 ^ 64 - 1 + _) % _ = _
      omega
    rw [if_neg (by rw [UInt64.lt_iff_toNat_lt]; show ¬ (Span.last _).toNat < start.toNat; rw [e]; omega),
      if_neg (by show ¬ _ ≤ (Span.last _).toNat; rw [e]; omega)] at hr
    obtain ⟨h1, m, h2, h3⟩ := hr
    have h3 : m.val.toNat = (Span.last ⟨start, some n⟩).toNat - start.toNat + 1 := h3
    rw [e] at h3
    have : m = n := Subtype.ext (UInt64.toNat_inj.mp (by omega))
    show Span.mk r.start r.length = _
    rw [h1, h2, this]

theorem pid_value {pid : UInt32} {x : Option { n : UInt32 // n ≠ 0 }} (h : PidMeans pid x) :
    (x.map Subtype.val).getD 0 = pid := by
  rw [show x.map Subtype.val = _ from h]
  split
  · rename_i h; exact h.symm
  · rfl

theorem size_value {n : UInt32} {x : Option { n : Nat // n ≠ 0 }}
    (h : x.map Subtype.val = if n = 0 then none else some n.toNat) : UInt32.ofNat ((x.map Subtype.val).getD 0) = n := by
  rw [h]
  split
  · rename_i h; exact h.symm
  · exact UInt32.ofNat_toNat

theorem offset_value {n : UInt64} {x : Option NonZeroU64}
    (h : x.map Subtype.val = if n = 0 then none else some n) : (x.map Subtype.val).getD 0 = n := by
  rw [h]
  split
  · rename_i h; exact h.symm
  · rfl

theorem time_eq (t : Option UnixTime) {m b : UInt32} (hb : b ≠ 0) (hm : m &&& b = flagIf t.isSome b) :
    selected m b (timespec (secondsOf t) (nanosOf t)) = t := by
  have : timespec (secondsOf t) (nanosOf t) = t.getD ⟨0, 0⟩ := by
    unfold timespec secondsOf nanosOf
    generalize t.getD ⟨0, 0⟩ = x
    obtain ⟨s, n⟩ := x
    rfl
  rw [this]
  exact selected_flag _ hb hm

theorem forget_items {l : List ForgetItem} {items : List (NodeId × UInt64)}
    (h : l.map (fun i => (i.nodeId.val, i.lookupCount)) = items.map fun i => (i.1.val, i.2)) :
    (l.map fun i => (i.nodeId, i.lookupCount)) = items := by
  induction l generalizing items with
  | nil => cases items with
    | nil => rfl
    | cons _ _ => cases h
  | cons a l ih =>
    cases items with
    | nil => cases h
    | cons b items =>
      simp only [List.map_cons, List.cons.injEq, Prod.mk.injEq] at h ⊢
      exact ⟨Prod.ext (Subtype.ext h.1.1) h.1.2, ih h.2⟩

/-- The server takes from a request what the client meant. -/
theorem op_of_matches {ext : Bool} {op : Op} {q : AnyRequest} (hv : op.Ok ext)
    (h : (op.request ext).2.Matches (op.request ext).1 false q) : q.op = .ok (some op) := by
  cases op with
  | forget items =>
    rcases items with _ | ⟨⟨i, n⟩, _ | ⟨j, items⟩⟩
    · cases q <;> try exact h.elim
      rename_i r
      have h : r.items.map (fun i => (i.nodeId.val, i.lookupCount)) = [] := h
      rw [List.map_eq_nil_iff] at h
      show Except.ok (some (Op.forget (r.items.map _))) = _
      rw [h]; rfl
    · cases q <;> try exact h.elim
      rename_i r
      have h : r.items.map (fun i => (i.nodeId.val, i.lookupCount)) = if i.val = 0 then [] else [(i.val, n)] := h
      rw [if_neg i.2] at h
      show Except.ok (some (Op.forget (r.items.map _))) = _
      rw [forget_items (items := [(i, n)]) h]
    · cases q <;> try exact h.elim
      rename_i r
      have h : r.items.map (fun i => (i.nodeId.val, i.lookupCount)) =
        ((((i, n) :: j :: items).map fun i : NodeId × UInt64 => (⟨i.1.val, i.2⟩ : FuseForgetOne)).filter
          (·.nodeid ≠ 0)).map fun i => (i.nodeid, i.nlookup) := h
      rw [List.filter_eq_self.mpr (by
        intro x hx
        obtain ⟨y, _, rfl⟩ := List.mem_map.mp hx
        exact decide_eq_true y.1.2), List.map_map] at h
      show Except.ok (some (Op.forget (r.items.map _))) = _
      rw [forget_items h]
  | access node mask =>
    cases q <;> try exact h.elim
    obtain ⟨h1, h2⟩ := h
    simp only [AnyRequest.op, show _ = node from Subtype.ext h1, h2, pure, Except.pure]
  | bmap node block blockSize =>
    cases q <;> try exact h.elim
    obtain ⟨h1, h2, h3⟩ := h
    simp only [AnyRequest.op, IdIs.eq (i := node) h1, h2, h3, bind, Except.bind, pure, Except.pure]
  | copyFileRange node fh off outNode outFh outOff len flags =>
    cases q <;> try exact h.elim
    obtain ⟨h1, h2, h3, h4, h5, h6, h7, h8⟩ := h
    simp only [AnyRequest.op, IdIs.eq (i := node) h1, h2, h3, IdIs.eq (i := outNode) h4, h5, h6, h7, h8, bind, Except.bind, pure, Except.pure]
  | create parent name openFlags flags mode umask =>
    cases q <;> try exact h.elim
    obtain ⟨h1, h2, h3, h4, h5, h6⟩ := h
    simp only [AnyRequest.op, IdIs.eq (i := parent) h1, h2, h3, h4, h5, h6, bind, Except.bind, pure, Except.pure]
  | fallocate node fh offset length mode =>
    cases q <;> try exact h.elim
    obtain ⟨h1, h2, h3, h4, h5⟩ := h
    simp only [AnyRequest.op, IdIs.eq (i := node) h1, h2, h3, h4, h5, bind, Except.bind, pure, Except.pure]
  | flush node fh owner =>
    cases q <;> try exact h.elim
    obtain ⟨h1, h2, h3⟩ := h
    simp only [AnyRequest.op, show _ = node from Subtype.ext h1, h2, h3, pure, Except.pure]
  | fsync node fh flags =>
    cases q <;> try exact h.elim
    obtain ⟨h1, h2, h3⟩ := h
    simp only [AnyRequest.op, IdOrRoot.eq (i := node) h1, h2, h3, pure, Except.pure]
  | fsyncdir node fh flags =>
    cases q <;> try exact h.elim
    obtain ⟨h1, h2, h3⟩ := h
    simp only [AnyRequest.op, IdIs.eq (i := node) h1, h2, h3, bind, Except.bind, pure, Except.pure]
  | getattr node fh =>
    cases q <;> try exact h.elim
    obtain ⟨h1, h2⟩ := h
    simp only [AnyRequest.op, IdIs.eq (i := node) h1, h2, selected_flag (o := fh) 0 (show (1 : UInt32) ≠ 0 by decide) (flagIf_and_self _ _), bind, Except.bind, pure, Except.pure]
  | getlk node fh owner mode span =>
    cases q <;> try exact h.elim
    obtain ⟨h1, h2, h3, h4, h5⟩ := h
    simp only [AnyRequest.op, IdIs.eq (i := node) h1, h2, h3, h4, span_means hv h5, bind, Except.bind, pure, Except.pure]
  | setlk node fh owner flags wait mode span pid =>
    cases wait <;> cases q <;> try exact h.elim
    all_goals
      obtain ⟨h1, h2, h3, h4, h5, h6, h7, h8⟩ := h
      simp only [AnyRequest.op, IdIs.eq (i := node) h1, h2, h3, h4, h5, h6, span_means hv h7, pid_value h8, bind, Except.bind,
        pure, Except.pure]
  | getxattr node name size =>
    cases q <;> try exact h.elim
    obtain ⟨h1, h2, h3⟩ := h
    simp only [AnyRequest.op, IdIs.eq (i := node) h1, h2, size_value h3, bind, Except.bind, pure, Except.pure]
  | listxattr node size =>
    cases q <;> try exact h.elim
    obtain ⟨h1, h2⟩ := h
    simp only [AnyRequest.op, IdIs.eq (i := node) h1, size_value h2, bind, Except.bind, pure, Except.pure]
  | removexattr node name =>
    cases q <;> try exact h.elim
    obtain ⟨h1, h2⟩ := h
    simp only [AnyRequest.op, IdIs.eq (i := node) h1, h2, bind, Except.bind, pure, Except.pure]
  | setxattr node name value flags extFlags =>
    cases ext <;> cases q <;> try exact h.elim
    · obtain ⟨h1, h2, h3, h4, h5⟩ := h
      simp only [AnyRequest.op, IdIs.eq (i := node) h1, h2, h3, h4, h5, bind, Except.bind, pure, Except.pure, hv.2.2 rfl]
    · obtain ⟨h1, h2, h3, h4, h5⟩ := h
      simp only [AnyRequest.op, IdIs.eq (i := node) h1, h2, h3, h4, h5, bind, Except.bind, pure, Except.pure]
  | interrupt id =>
    cases q <;> try exact h.elim
    obtain ⟨u, h1, h2⟩ := h
    simp only [AnyRequest.op, h1, show u = id from Subtype.ext h2, bind, Except.bind, pure, Except.pure]
  | ioctl node fh cmd arg flags input outSize =>
    cases q <;> try exact h.elim
    obtain ⟨h1, h2, h3, h4, h5, h6, h7, h8⟩ := h
    simp only [AnyRequest.op, IdOrRoot.eq (i := node) h1, h2, h3, h4, h6, h7, h8, pure, Except.pure]
  | link node parent name =>
    cases q <;> try exact h.elim
    obtain ⟨h1, h2, h3⟩ := h
    simp only [AnyRequest.op, show _ = node from Subtype.ext h1, show _ = parent from Subtype.ext h2, h3, pure, Except.pure]
  | lookup parent name =>
    cases q <;> try exact h.elim
    obtain ⟨h1, h2⟩ := h
    simp only [AnyRequest.op, show _ = parent from Subtype.ext h1, h2, pure, Except.pure]
  | lseek node fh offset whence =>
    cases q <;> try exact h.elim
    obtain ⟨h1, h2, h3, h4⟩ := h
    simp only [AnyRequest.op, show _ = node from Subtype.ext h1, h2, h3, h4, pure, Except.pure]
  | mkdir parent name mode umask =>
    cases q <;> try exact h.elim
    obtain ⟨h1, h2, h3, h4⟩ := h
    simp only [AnyRequest.op, show _ = parent from Subtype.ext h1, h2, h3, h4, pure, Except.pure]
  | mknod parent name mode umask device =>
    cases q <;> try exact h.elim
    obtain ⟨h1, h2, h3, h4, h5⟩ := h
    have hd : (if mode &&& 0xF000 = 0x2000 ∨ mode &&& 0xF000 = 0x6000 then some (device.getD 0) else none) = device := by
      cases device with
      | none => exact if_neg fun e => absurd (hv.2.mpr e) (by decide)
      | some d => exact if_pos (hv.2.mp rfl)
    simp only [AnyRequest.op, IdIs.eq (i := parent) h1, h2, h3, h4, h5, hd, bind, Except.bind, pure, Except.pure]
  | open_ node openFlags flags =>
    cases q <;> try exact h.elim
    obtain ⟨h1, h2, h3⟩ := h
    simp only [AnyRequest.op, IdOrRoot.eq (i := node) h1, h2, h3, pure, Except.pure]
  | opendir node openFlags flags =>
    cases q <;> try exact h.elim
    obtain ⟨h1, h2, h3⟩ := h
    simp only [AnyRequest.op, IdIs.eq (i := node) h1, h2, h3, bind, Except.bind, pure, Except.pure]
  | poll node handle events flags =>
    cases q <;> try exact h.elim
    obtain ⟨h1, h2, h3, h4⟩ := h
    simp only [AnyRequest.op, IdIs.eq (i := node) h1, h2, h3, h4, bind, Except.bind, pure, Except.pure]
  | read node fh offset size owner openFlags =>
    cases q <;> try exact h.elim
    obtain ⟨h1, h2, h3, h4, h5, h6⟩ := h
    simp only [AnyRequest.op, IdOrRoot.eq (i := node) h1, h2, h3, h4, h5, h6, selected_flag (o := owner) 0 (show (2 : UInt32) ≠ 0 by decide) (flagIf_and_self _ _), bind, Except.bind, pure, Except.pure]
  | readdir node fh offset size openFlags =>
    cases q <;> try exact h.elim
    obtain ⟨h1, h2, h3, h4, o, h5, h6⟩ := h
    simp only [AnyRequest.op, IdIs.eq (i := node) h1, h2, h3, h4, h5, offset_value h6, bind, Except.bind, pure, Except.pure]
  | readdirplus node fh offset size openFlags =>
    cases q <;> try exact h.elim
    obtain ⟨h1, h2, h3, h4, o, h5, h6⟩ := h
    simp only [AnyRequest.op, IdIs.eq (i := node) h1, h2, h3, h4, h5, offset_value h6, bind, Except.bind, pure, Except.pure]
  | readlink node =>
    cases q <;> try exact h.elim
    simp only [AnyRequest.op, show _ = node from Subtype.ext h, pure, Except.pure]
  | release node fh openFlags owner =>
    cases q <;> try exact h.elim
    obtain ⟨h1, h2, h3, h4⟩ := h
    simp only [AnyRequest.op, IdOrRoot.eq (i := node) h1, h2, h3, h4, selected_flag (o := owner) 0 (show (2 : UInt32) ≠ 0 by decide) (flagIf_and_self _ _), bind, Except.bind, pure, Except.pure]
  | releasedir node fh openFlags owner =>
    cases q <;> try exact h.elim
    obtain ⟨h1, h2, h3, h4⟩ := h
    simp only [AnyRequest.op, IdIs.eq (i := node) h1, h2, h3, h4, selected_flag (o := owner) 0 (show (2 : UInt32) ≠ 0 by decide) (flagIf_and_self _ _), bind, Except.bind, pure, Except.pure]
  | rename parent name newParent newName flags =>
    by_cases hf : flags = 0
    · subst hf
      cases q <;> try exact h.elim
      obtain ⟨h1, h2, h3, h4, h5⟩ := h
      simp only [AnyRequest.op, show _ = parent from Subtype.ext h1, h2, show _ = newParent from Subtype.ext h3, h4, h5, pure,
        Except.pure]
    · have e : (Op.rename parent name newParent newName flags).request ext =
          (parent.val, .rename2 ⟨newParent.val, flags, 0⟩ name newName) :=
        Prod.ext rfl (if_neg hf)
      rw [e] at h
      cases q <;> try exact h.elim
      obtain ⟨h1, h2, h3, h4, h5⟩ := h
      simp only [AnyRequest.op, show _ = parent from Subtype.ext h1, h2, show _ = newParent from Subtype.ext h3, h4, h5, pure,
        Except.pure]
  | rmdir parent name =>
    cases q <;> try exact h.elim
    obtain ⟨h1, h2⟩ := h
    simp only [AnyRequest.op, show _ = parent from Subtype.ext h1, h2, pure, Except.pure]
  | setattr node c =>
    cases q <;> try exact h.elim
    obtain ⟨h1, h2, h3, h4, h5, h6, h7, h8, h9, h10, h11, h12⟩ := h
    obtain ⟨m1, m2, m4, m8, m16, m32, m64, m128, m256, m512, m1024⟩ := mask_bits c
    have hn : ∀ {b c : Bool} {m k : UInt32}, (b = true ↔ m ≠ 0) → m = flagIf c k → k ≠ 0 → b = c := by
      intro b c m k e1 e2 e3
      rw [e2, ne_eq, flagIf_zero e3] at e1
      cases b <;> cases c <;> simp_all
    have hmode : (selected c.mask 1 (⟨c.mode.getD 0⟩ : FileMode)).map FileMode.bits = c.mode := by
      have := selected_flag (o := c.mode) 0 (by decide) m1
      unfold selected at this ⊢
      split
      · rename_i e; rw [if_pos e] at this; exact this
      · rename_i e; rw [if_neg e] at this; exact this
    have h9' := hn h9 m128 (by decide)
    have h10' := hn h10 m256 (by decide)
    simp only [AnyRequest.op, IdIs.eq (i := node) h1, h2, h3, h4, h5, h6, h7, h8, h9', h10', h11, h12, bind, Except.bind, pure,
      Except.pure, hmode, selected_flag (o := c.uid) 0 (by decide) m2, selected_flag (o := c.gid) 0 (by decide) m4,
      selected_flag (o := c.size) 0 (by decide) m8, time_eq c.atime (by decide) m16, time_eq c.mtime (by decide) m32,
      selected_flag (o := c.fh) 0 (by decide) m64, selected_flag (o := c.owner) 0 (by decide) m512,
      time_eq c.ctime (by decide) m1024]
  | statfs node =>
    cases q <;> try exact h.elim
    simp only [AnyRequest.op, show _ = node from Subtype.ext h, pure, Except.pure]
  | symlink parent name content =>
    cases q <;> try exact h.elim
    obtain ⟨h1, h2, h3⟩ := h
    simp only [AnyRequest.op, show _ = parent from Subtype.ext h1, h2, h3, pure, Except.pure]
  | unlink parent name =>
    cases q <;> try exact h.elim
    obtain ⟨h1, h2⟩ := h
    simp only [AnyRequest.op, show _ = parent from Subtype.ext h1, h2, pure, Except.pure]
  | write node fh offset data flags owner openFlags =>
    cases q <;> try exact h.elim
    obtain ⟨⟨n, h0, h1⟩, h2, h3, h4, h5, h6, h7⟩ := h
    have ho : selected flags 2 (owner.getD 0) = owner := by
      unfold selected
      cases owner with
      | none => exact if_pos (Decidable.byContradiction fun e => absurd (hv.mpr e) (by decide))
      | some x => exact if_neg (hv.mp rfl)
    simp only [AnyRequest.op, h0, IdOrRoot.eq (i := node) h1, h2, h3, h4, h5, h6, h7, ho, bind, Except.bind, pure, Except.pure]

/-! ## Requests reach their handlers -/

theorem forget_request {ext : Bool} (items : List (NodeId × UInt64)) :
    (∃ i n, items = [(i, n)] ∧ (Op.forget items).request ext = (i.val, .forget ⟨n⟩)) ∨
    (Op.forget items).request ext =
      (0, .batchForget ⟨UInt32.ofNat items.length, 0⟩ (items.map fun i => ⟨i.1.val, i.2⟩)) := by
  rcases items with _ | ⟨⟨i, n⟩, _ | ⟨j, items⟩⟩
  · exact .inr rfl
  · exact .inl ⟨i, n, rfl, rfl⟩
  · exact .inr rfl

theorem span_ok {s : Span} (h : s.Ok) {type pid : UInt32} : LockOk ⟨s.start, s.last, type, pid⟩ := by
  refine .inl ?_
  obtain ⟨start, length⟩ := s
  show start ≤ Span.last _
  rw [UInt64.le_iff_toNat_le]
  cases length with
  | none =>
    have h : start.toNat < 2 ^ 63 := h
    show start.toNat ≤ 0x7FFFFFFFFFFFFFFF
    omega
  | some n =>
    have h : start.toNat + n.val.toNat < 2 ^ 63 := h
    have hn : n.val.toNat ≠ 0 := fun e => n.2 (UInt64.toNat_inj.mp e)
    show start.toNat ≤ (start + n.val - 1).toNat
    rw [UInt64.toNat_sub, UInt64.toNat_add]
    show _ ≤ (2 ^ 64 - 1 + _) % _
    omega

theorem nanos_ok {t : Option UnixTime} (h : TimeOk t) {m b : UInt32} : NanosOk m b (nanosOf t) := by
  intro _
  cases t with
  | none => decide
  | some x => exact h x rfl

/-- What is to be known about a request for it to be decoded. -/
structure Reaches (layout : FuseLayout) (checks : Bool) (node : UInt64) (a : ClientReq) (m : FuseMethod) (t : ReqType) :
    Prop where
  method : fuseMethodAt a.opcode = some m
  type : m.reqType layout checks = some t
  has : a.HasType t
  wf : a.WellFormed node false
  fuse : t.isCuse = false
  shift : a.ShiftFree
  new : a.IsOldWrite → 80 ≤ 40 + a.body.length

/-- The version has the newest form of the request for an operation. -/
def Spec.Op.NewIn (minor : UInt16) : Op → Prop
  | .create .. | .mknod .. => 12 ≤ minor
  | .getattr .. | .read .. | .readdir .. | .readdirplus .. | .write .. => 9 ≤ minor
  | .release .. | .releasedir .. => 8 ≤ minor
  | _ => True

theorem Spec.Op.NewIn.of {minor : UInt16} (h : 12 ≤ minor) (op : Op) : op.NewIn minor := by
  have h9 : 9 ≤ minor := UInt16.le_trans (by decide) h
  have h8 : 8 ≤ minor := UInt16.le_trans (by decide) h
  cases op <;> first | exact trivial | exact h | exact h9 | exact h8

theorem layout_minor_le {layout : FuseLayout} {n : Nat} (hn : n < 2 ^ 16) (h : UInt16.ofNat n ≤ layout.versionMinor) :
    UInt32.ofNat n ≤ layout.minor := by
  rw [UInt32.le_iff_toNat_le]
  show _ ≤ layout.versionMinor.toUInt32.toNat
  rw [UInt16.toNat_toUInt32, UInt32.toNat_ofNat']
  rw [UInt16.le_iff_toNat_le, UInt16.toNat_ofNat'] at h
  omega

theorem request_reaches {layout : FuseLayout} {checks ext : Bool} {op : Op} (hnew : op.NewIn layout.versionMinor)
    (hext : ext = true ↔ layout.features &&& 1 ≠ 0) (hv : op.Ok ext)
    (hl : 40 + (op.request ext).2.body.length < 2 ^ 32) :
    ∃ m t, Reaches layout checks (op.request ext).1 (op.request ext).2 m t := by
  have len {b : Bytes} (h : b.length < 2 ^ 32) : (UInt32.ofNat b.length).toNat = b.length := by
    rw [UInt32.toNat_ofNat']; omega
  cases op with
  | forget items =>
    rcases forget_request (ext := ext) items with ⟨i, n, rfl, e⟩ | e
    · rw [e]
      exact ⟨_, _, rfl, rfl, trivial, trivial, rfl, trivial, False.elim⟩
    · rw [e] at hl ⊢
      refine ⟨_, _, rfl, rfl, trivial, ?_, rfl, trivial, False.elim⟩
      show (UInt32.ofNat items.length).toNat = (items.map _).length
      have hb : ((items.map fun i : NodeId × UInt64 => (⟨i.1.val, i.2⟩ : FuseForgetOne)).flatMap
          layout_fuse_forget_one).length = 16 * items.length := by
        clear hl e hv hnew
        induction items with
        | nil => rfl
        | cons i items ih =>
          rw [List.map_cons, List.flatMap_cons, List.length_append, ih]
          simp [layout_fuse_forget_one]
          omega
      simp only [ClientReq.body, List.length_append, hb] at hl
      rw [UInt32.toNat_ofNat', List.length_map]
      omega
  | setlk node fh owner flags wait mode span pid =>
    cases wait
    · exact ⟨_, _, rfl, rfl, trivial, ⟨node.2, span_ok hv⟩, rfl, trivial, False.elim⟩
    · exact ⟨_, _, rfl, rfl, trivial, ⟨node.2, span_ok hv⟩, rfl, trivial, False.elim⟩
  | setxattr node name value flags extFlags =>
    cases ext
    · refine ⟨_, _, rfl, rfl, ?_, ⟨node.2, hv.2.1, len ?_⟩, rfl, hv.1, False.elim⟩
      · show layout.features &&& 1 = 0
        exact Decidable.byContradiction fun e => absurd (hext.mpr e) (by decide)
      · have hl : 40 + (layout_fuse_setxattr_in_v7p1 _ ++ cstring name ++ value).length < 2 ^ 32 := hl
        simp only [List.length_append] at hl
        omega
    · refine ⟨_, _, rfl, rfl, hext.mp rfl, ⟨node.2, hv.2.1, len ?_⟩, rfl, hv.1, False.elim⟩
      have hl : 40 + (layout_fuse_setxattr_in _ ++ cstring name ++ value).length < 2 ^ 32 := hl
      simp only [List.length_append] at hl
      omega
  | rename parent name newParent newName flags =>
    by_cases hf : flags = 0
    · subst hf
      exact ⟨_, _, rfl, rfl, trivial, ⟨parent.2, newParent.2, hv.1, hv.2⟩, rfl, trivial, False.elim⟩
    · have e : (Op.rename parent name newParent newName flags).request ext =
          (parent.val, .rename2 ⟨newParent.val, flags, 0⟩ name newName) :=
        Prod.ext rfl (if_neg hf)
      rw [e]
      exact ⟨_, _, rfl, rfl, trivial, ⟨parent.2, newParent.2, hv.1, hv.2⟩, rfl, trivial, False.elim⟩
  | access node mask => exact ⟨_, _, rfl, rfl, trivial, node.2, rfl, trivial, False.elim⟩
  | bmap node block blockSize => exact ⟨_, _, rfl, rfl, trivial, node.2, rfl, trivial, False.elim⟩
  | copyFileRange node fh off outNode outFh outOff len flags =>
    exact ⟨_, _, rfl, rfl, trivial, ⟨node.2, outNode.2⟩, rfl, trivial, False.elim⟩
  | create parent name openFlags flags mode umask =>
    exact ⟨_, _, rfl, rfl, hnew, ⟨parent.2, hv⟩, rfl, trivial, False.elim⟩
  | fallocate node fh offset length mode => exact ⟨_, _, rfl, rfl, trivial, node.2, rfl, trivial, False.elim⟩
  | flush node fh owner => exact ⟨_, _, rfl, rfl, trivial, .inr node.2, rfl, trivial, False.elim⟩
  | fsync node fh flags => exact ⟨_, _, rfl, rfl, trivial, .inr node.2, rfl, trivial, False.elim⟩
  | fsyncdir node fh flags => exact ⟨_, _, rfl, rfl, trivial, node.2, rfl, trivial, False.elim⟩
  | getattr node fh => exact ⟨_, _, rfl, rfl, hnew, node.2, rfl, trivial, False.elim⟩
  | getlk node fh owner mode span => exact ⟨_, _, rfl, rfl, trivial, ⟨node.2, span_ok hv⟩, rfl, trivial, False.elim⟩
  | getxattr node name size => exact ⟨_, _, rfl, rfl, trivial, ⟨node.2, hv⟩, rfl, trivial, False.elim⟩
  | listxattr node size => exact ⟨_, _, rfl, rfl, trivial, node.2, rfl, trivial, False.elim⟩
  | removexattr node name => exact ⟨_, _, rfl, rfl, trivial, ⟨node.2, hv⟩, rfl, trivial, False.elim⟩
  | interrupt id => exact ⟨_, _, rfl, rfl, trivial, id.2, rfl, trivial, False.elim⟩
  | ioctl node fh cmd arg flags input outSize =>
    refine ⟨_, _, rfl, rfl, trivial, ⟨.inr node.2, len ?_⟩, rfl, trivial, False.elim⟩
    have hl : 40 + (layout_fuse_ioctl_in _ ++ input).length < 2 ^ 32 := hl
    simp only [List.length_append] at hl
    omega
  | link node parent name => exact ⟨_, _, rfl, rfl, trivial, ⟨parent.2, node.2, hv⟩, rfl, trivial, False.elim⟩
  | lookup parent name => exact ⟨_, _, rfl, rfl, trivial, ⟨parent.2, hv⟩, rfl, trivial, False.elim⟩
  | lseek node fh offset whence => exact ⟨_, _, rfl, rfl, trivial, node.2, rfl, trivial, False.elim⟩
  | mkdir parent name mode umask => exact ⟨_, _, rfl, rfl, trivial, ⟨parent.2, hv⟩, rfl, trivial, False.elim⟩
  | mknod parent name mode umask device => exact ⟨_, _, rfl, rfl, hnew, ⟨parent.2, hv.1⟩, rfl, trivial, False.elim⟩
  | open_ node openFlags flags => exact ⟨_, _, rfl, rfl, trivial, .inr node.2, rfl, trivial, False.elim⟩
  | opendir node openFlags flags => exact ⟨_, _, rfl, rfl, trivial, node.2, rfl, trivial, False.elim⟩
  | poll node handle events flags => exact ⟨_, _, rfl, rfl, trivial, node.2, rfl, trivial, False.elim⟩
  | read node fh offset size owner openFlags => exact ⟨_, _, rfl, rfl, layout_minor_le (n := 9) (by decide) hnew, .inr node.2, rfl, trivial, False.elim⟩
  | readdir node fh offset size openFlags => exact ⟨_, _, rfl, rfl, hnew, node.2, rfl, trivial, False.elim⟩
  | readdirplus node fh offset size openFlags => exact ⟨_, _, rfl, rfl, hnew, node.2, rfl, trivial, False.elim⟩
  | readlink node => exact ⟨_, _, rfl, rfl, trivial, node.2, rfl, trivial, False.elim⟩
  | release node fh openFlags owner => exact ⟨_, _, rfl, rfl, layout_minor_le (n := 8) (by decide) hnew, .inr node.2, rfl, trivial, False.elim⟩
  | releasedir node fh openFlags owner => exact ⟨_, _, rfl, rfl, hnew, node.2, rfl, trivial, False.elim⟩
  | rmdir parent name => exact ⟨_, _, rfl, rfl, trivial, ⟨parent.2, hv⟩, rfl, trivial, False.elim⟩
  | setattr node c =>
    exact ⟨_, _, rfl, rfl, trivial, ⟨node.2, nanos_ok hv.1, nanos_ok hv.2.1, nanos_ok hv.2.2⟩, rfl, trivial, False.elim⟩
  | statfs node => exact ⟨_, _, rfl, rfl, trivial, node.2, rfl, trivial, False.elim⟩
  | symlink parent name content =>
    exact ⟨_, _, rfl, rfl, trivial, ⟨parent.2, hv.2.2, hv.1⟩, rfl, hv.2.1, False.elim⟩
  | unlink parent name => exact ⟨_, _, rfl, rfl, trivial, ⟨parent.2, hv⟩, rfl, trivial, False.elim⟩
  | write node fh offset data flags owner openFlags =>
    refine ⟨_, _, rfl, rfl, layout_minor_le (n := 9) (by decide) hnew, ⟨.inr node.2, len ?_⟩, rfl, trivial, False.elim⟩
    have hl : 40 + (layout_fuse_write_in _ ++ data).length < 2 ^ 32 := hl
    simp only [List.length_append] at hl
    omega

end Fuse
