import Verif.HostileMany
import Verif.PropHostileDev
import Verif.PropMany

/-!
# C86: threads keep operations atomic for clients that send anything

C83 with the clients of C84 and C85.
-/

namespace Fuse
open Spec

namespace Many

/-! ## The number of a message -/

theorem renumber_length {id : UInt64} {m : Bytes} (h : 16 ≤ m.length) : (renumber id m).length = m.length := by
  simp only [renumber, List.length_append, List.length_take, List.length_drop, le64_length]
  omega

theorem renumber_head {id : UInt64} {m : Bytes} (h : 16 ≤ m.length) {i : Nat} (hi : i + 4 ≤ 8) :
    u32At (renumber id m) i = u32At m i := by
  rw [← u32At_of_take (bs := renumber id m) (n := 8) hi, ← u32At_of_take (bs := m) (n := 8) hi]
  congr 1
  unfold renumber
  rw [List.append_assoc, List.take_append_of_le_length (by rw [List.length_take]; omega), List.take_take, Nat.min_self]

theorem renumber_tail {id : UInt64} {m : Bytes} (h : 16 ≤ m.length) : (renumber id m).drop 16 = m.drop 16 := by
  unfold renumber
  have : (m.take 8 ++ le64 id).length = 16 := by
    rw [List.length_append, List.length_take, le64_length]
    omega
  exact List.drop_left' this

theorem renumber_u32 {id : UInt64} {m : Bytes} (h : 16 ≤ m.length) {i : Nat} (hi : 16 ≤ i) :
    u32At (renumber id m) i = u32At m i := by
  have h1 := u32At_drop (bs := renumber id m) (n := 16) (i := i - 16)
  have h2 := u32At_drop (bs := m) (n := 16) (i := i - 16)
  rw [renumber_tail h, h2, show 16 + (i - 16) = i by omega] at h1
  exact h1.symm

theorem renumber_id {id : UInt64} {m : Bytes} (h : 16 ≤ m.length) : u64At (renumber id m) 8 = id.toNat := by
  have h8 : (m.take 8).length = 8 := by
    rw [List.length_take]
    omega
  have := u64At_append (m.take 8) (le64 id ++ m.drop 16) 0
  rw [h8, Nat.zero_add, ← List.append_assoc] at this
  rw [renumber, this, u64At_le64]

theorem renumber_acceptable {id : UInt64} (hid : id ≠ 0) {m : Bytes} (h : Acceptable m) : Acceptable (renumber id m) := by
  obtain ⟨h1, h2, h3⟩ := h
  have h16 : 16 ≤ m.length := by omega
  refine ⟨by rw [renumber_length h16]; exact h1, ?_, by rw [renumber_length h16, renumber_head h16 (by omega)]; exact h3⟩
  rw [renumber_id h16]
  exact fun e => hid (UInt64.toNat_inj.mp e)

theorem renumber_args {id : UInt64} {m : Bytes} (h : 16 ≤ m.length) : argsOf (renumber id m) = argsOf m := by
  unfold argsOf
  rw [renumber_head h (by omega), List.drop_take, List.drop_take]
  congr 1
  have key : ∀ b : Bytes, b.drop 40 = (b.drop 16).drop 24 := fun b => by rw [List.drop_drop]
  rw [key, renumber_tail h, ← key]

theorem renumber_node {id : UInt64} {m : Bytes} (h : 16 ≤ m.length) : nodeOf (renumber id m) = nodeOf m := by
  unfold nodeOf u64At
  rw [renumber_u32 h (by omega), renumber_u32 h (by omega)]

theorem renumber_sender {id : UInt64} {m : Bytes} (h : 16 ≤ m.length) : senderOf (renumber id m) = senderOf m := by
  unfold senderOf
  rw [renumber_u32 h (by omega), renumber_u32 h (by omega), renumber_u32 h (by omega)]

theorem renumber_encodes {id : UInt64} (hid : id ≠ 0) {m : Bytes} (h : Acceptable m) {t : ReqType} {a : ClientReq} :
    Encodes t a (renumber id m) ↔ Encodes t a m := by
  have h16 : 16 ≤ m.length := Nat.le_trans (by decide) h.1
  unfold Encodes
  rw [renumber_head h16 (by omega), renumber_args h16, renumber_node h16]
  exact and_congr ⟨fun _ => h, fun _ => renumber_acceptable hid h⟩ .rfl

theorem renumber_asked {id : UInt64} (hid : id ≠ 0) {m : Bytes} (h : Acceptable m) (layout : FuseLayout) :
    asked layout (renumber id m) = asked layout m := by
  have h16 : 16 ≤ m.length := Nat.le_trans (by decide) h.1
  unfold asked
  simp only [renumber_head h16 (show 4 + 4 ≤ 8 by omega), renumber_args h16, renumber_node h16, renumber_sender h16,
    renumber_encodes hid h]

theorem renumber_devAsked {id : UInt64} (hid : id ≠ 0) {m : Bytes} (h : Acceptable m) (layout : CuseLayout) :
    devAsked layout (renumber id m) = devAsked layout m := by
  have h16 : 16 ≤ m.length := Nat.le_trans (by decide) h.1
  unfold devAsked
  simp only [renumber_head h16 (show 4 + 4 ≤ 8 by omega), renumber_args h16, renumber_sender h16, renumber_encodes hid h]

theorem renumber_vicious {id : UInt64} {m : Bytes} (h : Acceptable m) (layout : FuseLayout) :
    Vicious layout (renumber id m) ↔ Vicious layout m := by
  have h16 : 16 ≤ m.length := Nat.le_trans (by decide) h.1
  unfold Vicious
  rw [renumber_head h16 (by omega), renumber_args h16, renumber_u32 h16 (by omega)]

/-! ## Serving any messages -/

/-- Any message that has a header, with a number, is not shorter than it says, and has at most `n` bytes. -/
def AnyOk (n : Nat) (m : Bytes) : Prop := m.length ≤ n ∧ Acceptable m

/-- What may be answered. -/
def AnyAllows {O : Type} (ask : Bytes → Option (Caller × O)) (kind : O → Kind) (m : Bytes) (a : Ans) : Prop :=
  match ask m with
  | some (_, op) => (kind op).Allows a
  | none => True

theorem replied_iff {k : Kind} : replied k = true ↔ k ≠ .silent := by
  cases k <;> simp [replied]

theorem any_willing {O S : Type} {svc : Service (Option S × Net) Unit} {ask : Bytes → Option (Caller × O)} {kind : O → Kind}
    {no : Bytes → Option FuseError} {act : Caller → O → S → Ans × S} {inv : S → Prop} {ok : Bytes → Prop} {n : Nat} {loud : Bool}
    (hok : ∀ m, ok m → AnyOk n m)
    (hb : ∀ m who op s, ok m → ask m = some (who, op) → inv s → (kind op).Allows (act who op s).1 ∧ inv (act who op s).2)
    (hrecv : ∀ {buf m : Bytes} {ms rs : List Bytes} {s : Option S}, Acceptable m → m.length ≤ buf.length →
      svc.recv buf (s, ⟨m :: ms, rs⟩) = ((.ok (some ⟨m⟩), m ++ buf.drop m.length), (s, ⟨ms, rs⟩)))
    (hclosed : ∀ (buf : Bytes) (s : Option S) (rs : List Bytes), svc.recv buf (s, ⟨[], rs⟩) =
      ((if loud then .error (.recv (.connectionClosed ())) else .ok none, buf), (s, ⟨[], rs⟩))) :
    Willing svc (anyWire ask kind no) (anyAct ask no act) ok (AnyAllows ask kind) inv n loud := by
  refine ⟨?_, ?_, ?_, hclosed⟩
  · intro m s hm hs
    unfold AnyAllows anyAct
    cases ha : ask m with
    | none => exact ⟨trivial, hs⟩
    | some x => exact hb m x.1 x.2 s hm ha hs
  · intro m hm
    unfold AnyAllows
    cases ha : ask m with
    | none => exact trivial
    | some x =>
      have hm : (match ask m with | some (_, op) => replied (kind op) | none => (no m).isSome) = false := hm
      rw [ha] at hm
      have hm : replied (kind x.2) = false := hm
      have : kind x.2 = .silent := Decidable.byContradiction fun h => by
        rw [replied_iff.mpr h] at hm
        cases hm
      show (kind x.2).Allows _
      rw [this]
      rfl
  · intro id m hid hm buf s ms rs hbuf
    obtain ⟨h1, h2⟩ := hok m hm
    have hl : (renumber id m).length = m.length := renumber_length (Nat.le_trans (by decide) h2.1)
    refine ⟨_, ?_, hrecv (renumber_acceptable hid h2) (Nat.le_trans (Nat.le_of_eq hl) (by omega))⟩
    rw [List.length_append, List.length_drop]
    omega

theorem any_faithful {O S : Type} {svc : Service (Option S × Net) Unit} {ask : Bytes → Option (Caller × O)} {kind : O → Kind}
    {no : Bytes → Option FuseError} {act : Caller → O → S → Ans × S} {inv : S → Prop} {ok : Bytes → Prop} {n : Nat} {loud : Bool}
    (hok : ∀ m, ok m → AnyOk n m)
    (hb : ∀ m who op s, ok m → ask m = some (who, op) → inv s → (kind op).Allows (act who op s).1 ∧ inv (act who op s).2)
    (hrecv : ∀ {buf m : Bytes} {ms rs : List Bytes} {s : Option S}, Acceptable m → m.length ≤ buf.length →
      svc.recv buf (s, ⟨m :: ms, rs⟩) = ((.ok (some ⟨m⟩), m ++ buf.drop m.length), (s, ⟨ms, rs⟩)))
    (hclosed : ∀ (buf : Bytes) (s : Option S) (rs : List Bytes), svc.recv buf (s, ⟨[], rs⟩) =
      ((if loud then .error (.recv (.connectionClosed ())) else .ok none, buf), (s, ⟨[], rs⟩)))
    (hdispatch : ∀ id m s, id ≠ 0 → ok m → inv s → ∀ net : Net, ∃ out s',
      svc.dispatch ⟨renumber id m⟩ (some s, net) = .ok (some s', { net with replies := net.replies ++ out }) ∧
      match ask m with
      | some (who, op) => s' = (act who op s).2 ∧ (kind op).hear id out = (act who op s).1 ∧
          ((kind op = .silent ∧ out = []) ∨ ∃ r, out = [r] ∧ u64At r 8 = id.toNat)
      | none => s' = s ∧ out = match no m with | some e => [frame id e.val []] | none => []) :
    Faithful svc (anyWire ask kind no) (anyAct ask no act) ok (AnyAllows ask kind) inv n loud := by
  have hw := any_willing (no := no) hok hb hrecv hclosed
  refine ⟨hw.behaves, hw.quiet, hw.recv, hw.closed, ?_⟩
  · intro id m s hid hm hs net
    obtain ⟨out, s', h1, h2⟩ := hdispatch id m s hid hm hs net
    unfold anyAct
    have hans : (anyWire ask kind no).answered m =
      (match ask m with | some (_, op) => replied (kind op) | none => (no m).isSome) := rfl
    have hhear : ∀ r, (anyWire ask kind no).hear m id r =
      (match ask m with | some (_, op) => (kind op).hear id [r] | none => Kind.empty.hear id [r]) := fun _ => rfl
    rw [hans]
    cases ha : ask m with
    | none =>
      rw [ha] at h2 hhear
      obtain ⟨rfl, h3⟩ := h2
      dsimp only
      cases hn : no m with
      | none =>
        rw [hn] at h3
        subst h3
        exact ⟨[], h1, rfl, rfl, fun _ h => nomatch h⟩
      | some e =>
        rw [hn] at h3
        subst h3
        refine ⟨[(frame id e.val [], .inr (id, m, .error e))], h1, rfl, rfl, ?_⟩
        intro x hx
        rw [List.mem_singleton] at hx
        subst hx
        exact ⟨hid, (C17_frame id e.val [] (by decide)).2.2.1, (hhear _).trans (hear_error e (nomatch ·))⟩
    | some x =>
      obtain ⟨who, op⟩ := x
      rw [ha] at h2 hhear
      obtain ⟨rfl, h3, h4⟩ := h2
      dsimp only
      rcases h4 with ⟨h5, rfl⟩ | ⟨r, rfl, h5⟩
      · refine ⟨[], h1, rfl, ?_, fun _ h => nomatch h⟩
        rw [if_neg fun h => replied_iff.mp h h5]
        rfl
      · refine ⟨[(r, .inr (id, m, (act who op s).1))], h1, rfl, ?_, ?_⟩
        · have hk : kind op ≠ .silent := by
            intro hk
            have hal := (hb m who op s hm ha hs).1
            rw [hk] at h3 hal
            rw [← h3] at hal
            cases hal
          rw [if_pos (replied_iff.mpr hk)]
          rfl
        · intro x hx
          rw [List.mem_singleton] at hx
          subst hx
          exact ⟨hid, h5, (hhear _).trans h3⟩

theorem any_fuse_faithful {S : Type} (srv : RpcServer S) (haddr : ∀ op, srv.addr op % 8 = 0)
    (h12 : 12 ≤ srv.layout.versionMinor) {ext : Bool} (hext : ext = true ↔ srv.layout.features &&& 1 ≠ 0) {inv : S → Prop}
    (hinv : Keeps srv.act ext inv) (n : Nat) :
    Faithful (guardedThreads srv) (anyWire (asked srv.layout) Op.kind (fuseNo srv.layout))
      (anyAct (asked srv.layout) (fuseNo srv.layout) srv.act) (fun m => AnyOk n m ∧ ¬ Vicious srv.layout m)
      (AnyAllows (asked srv.layout) Op.kind) inv n false := by
  refine any_faithful (fun m hm => hm.1) ?_ (fun h1 h2 => net_recv h1 h2) (fun _ _ _ => rfl) ?_
  · intro m who op s hm ha hs
    exact hinv who op s hs (asked_sound h12 hext ha)
  · intro id m s hid hm hs net
    have h16 : 16 ≤ m.length := Nat.le_trans (by decide) hm.1.2.1
    have hacc := renumber_acceptable hid hm.1.2
    obtain ⟨out, s', e1, e2, _⟩ := guard_handles srv (Net.socket S) (fun m w => { w with replies := w.replies ++ [m] })
      (fun hb w => net_send hb w) haddr h12 hacc (fun h => hm.2 ((renumber_vicious hm.1.2 _).mp h)) s
      (fun who op ha => (hinv who op s hs (asked_sound h12 hext ha)).1) net
    rw [foldl_replies] at e1
    refine ⟨out, s', (C25_fuse (srv.guards (Net.socket S)) _ _ (acceptable_new hacc) (some s, net)).trans
      (congrArg Except.ok e1), ?_⟩
    unfold Dealt at e2
    rw [renumber_asked hid hm.1.2, renumber_id h16, UInt64.ofNat_toNat] at e2
    cases ha : asked srv.layout m with
    | none =>
      rw [ha] at e2
      obtain ⟨e3, e4⟩ := e2
      refine ⟨e3, e4.trans ?_⟩
      unfold refusal fuseNo
      rw [renumber_head h16 (by omega), renumber_id h16, UInt64.ofNat_toNat]
      split
      · rfl
      · split <;> rfl
    | some x =>
      rw [ha] at e2
      exact e2

theorem any_device_faithful {S : Type} (srv : DevServer S) (h9 : 9 ≤ srv.layout.versionMinor) {inv : S → Prop}
    (hinv : DevKeeps srv.act inv) (n : Nat) :
    Faithful (guardedDeviceThreads srv) (anyWire (devAsked srv.layout) DevOp.kind (deviceNo srv.layout))
      (anyAct (devAsked srv.layout) (deviceNo srv.layout) srv.act) (AnyOk n)
      (AnyAllows (devAsked srv.layout) DevOp.kind) inv n true := by
  refine any_faithful (fun m hm => hm) ?_ (fun h1 h2 => device_recv h1 h2) (fun _ _ _ => rfl) ?_
  · intro m who op s hm ha hs
    exact hinv who op s hs (devAsked_ok ha)
  · intro id m s hid hm hs net
    have h16 : 16 ≤ m.length := Nat.le_trans (by decide) hm.2.1
    have hacc := renumber_acceptable hid hm.2
    obtain ⟨out, s', e1, e2, _⟩ := dev_guard_handles srv (Net.socket S) (fun m w => { w with replies := w.replies ++ [m] })
      (fun hb w => net_send hb w) h9 hacc s (fun who op ha => (hinv who op s hs (devAsked_ok ha)).1) net
    rw [foldl_replies] at e1
    refine ⟨out, s', (C25_cuse (srv.guards (Net.socket S)) _ _ (acceptable_new hacc) (some s, net)).trans
      (congrArg Except.ok e1), ?_⟩
    unfold DevDealt at e2
    rw [renumber_devAsked hid hm.2, renumber_id h16, UInt64.ofNat_toNat] at e2
    cases ha : devAsked srv.layout m with
    | none =>
      rw [ha] at e2
      obtain ⟨e3, e4⟩ := e2
      refine ⟨e3, e4.trans ?_⟩
      unfold devRefusal deviceNo
      rw [renumber_head h16 (by omega), renumber_id h16, UInt64.ofNat_toNat]
      split
      · rfl
      · split <;> rfl
    | some x =>
      rw [ha] at e2
      exact e2

/-! ## What follows -/

/-- Whatever the operations rely upon holds at any time. -/
def Kept {S R A N : Type} (svc : Service (Option S × Net) Unit) (wire : Wire R A N) (ok : R → Prop) (allows : R → A → Prop)
    (inv : S → Prop) (n : Nat) : Prop :=
  ∀ {α : Type} {s : S}, inv s → ∀ {uses : List (Calls R A α)} {bufs : List Bytes},
    (∀ u ∈ uses, u.Asks ok allows) → (∀ b ∈ bufs, n ≤ b.length) → ∀ {es : List (Visible R A N)} {q : Threaded S R A α},
    Threaded.Run svc wire (.start s bufs uses) es q → ∃ s', q.state = some s' ∧ inv s'

/-- When all threads have returned, what is served is as it would be if what has been asked for, all of it and each once, and
nothing else, had been done in some order, one after the other. -/
def Ordered {S O : Type} (svc : Service (Option S × Net) Unit) (wire : Wire Bytes Ans Empty) (ok : Bytes → Prop)
    (allows : Bytes → Ans → Prop) (inv : S → Prop) (n : Nat) (ask : Bytes → Option (Caller × O))
    (act : Caller → O → S → Ans × S) : Prop :=
  ∀ {α : Type} {s : S}, inv s → ∀ {uses : List (Calls Bytes Ans α)} {bufs : List Bytes},
    (∀ u ∈ uses, u.Asks ok allows) → (∀ b ∈ bufs, n ≤ b.length) → bufs ≠ [] →
    ∀ {es : List (Visible Bytes Ans Empty)} {q : Threaded S Bytes Ans α}, Threaded.Run svc wire (.start s bufs uses) es q →
    q.pool.Returned →
    ∃ l : List (Caller × O), l.Perm ((Visible.calls es).filterMap ask) ∧
      q.state = some (l.foldl (fun s x => (act x.1 x.2 s).2) s)

theorem Faithful.kept {S R A N : Type} {svc : Service (Option S × Net) Unit} {wire : Wire R A N}
    {act : R → S → List N × A × S} {ok : R → Prop} {allows : R → A → Prop} {inv : S → Prop} {n : Nat} {loud : Bool}
    (hf : Faithful svc wire act ok allows inv n loud) : Kept svc wire ok allows inv n := by
  intro α s hs uses bufs hu hb es q h
  obtain ⟨o, _, _, _, _, h1⟩ := run_inStep hf (inStep_start hs hu hb) h
  exact ⟨o.state, h1.state, h1.good.state⟩

theorem inTurn_asked {S O : Type} {ask : Bytes → Option (Caller × O)} {no : Bytes → Option FuseError}
    {act : Caller → O → S → Ans × S} (l : List Bytes) (s : S) :
    (inTurn (anyAct ask no act) s l).2 = (l.filterMap ask).foldl (fun s x => (act x.1 x.2 s).2) s := by
  induction l generalizing s with
  | nil => rfl
  | cons m l ih =>
    show (inTurn (anyAct ask no act) (anyAct ask no act m s).2.2 l).2 = _
    rw [ih, List.filterMap_cons]
    unfold anyAct
    cases ask m <;> rfl

theorem Faithful.ordered {S O : Type} {svc : Service (Option S × Net) Unit} {ask : Bytes → Option (Caller × O)}
    {kind : O → Kind} {no : Bytes → Option FuseError} {act : Caller → O → S → Ans × S} {ok : Bytes → Prop}
    {allows : Bytes → Ans → Prop} {inv : S → Prop} {n : Nat} {loud : Bool}
    (hf : Faithful svc (anyWire ask kind no) (anyAct ask no act) ok allows inv n loud) :
    Ordered svc (anyWire ask kind no) ok allows inv n ask act := by
  intro α s hs uses bufs hu hb hne es q h hr
  obtain ⟨l, h1, h2, _⟩ := Many.order hf hs hu hb hne h hr
  exact ⟨l.filterMap ask, h1.filterMap ask, h2.trans (congrArg some (inTurn_asked l s))⟩

/-- C86 for filesystems, and messages that are `P`. -/
def ThreadsConfine (P : FuseLayout → Bytes → Prop) : Prop :=
  ∀ (S : Type) (srv : RpcServer S), (∀ op, srv.addr op % 8 = 0) → 12 ≤ srv.layout.versionMinor →
    ∀ ext : Bool, (ext = true ↔ srv.layout.features &&& 1 ≠ 0) → ∀ inv : S → Prop, Keeps srv.act ext inv → ∀ n : Nat,
    Atomic (guardedThreads srv) (anyWire (asked srv.layout) Op.kind (fuseNo srv.layout))
      (anyAct (asked srv.layout) (fuseNo srv.layout) srv.act) (fun m => AnyOk n m ∧ P srv.layout m)
      (AnyAllows (asked srv.layout) Op.kind) inv n false ∧
    Kept (guardedThreads srv) (anyWire (asked srv.layout) Op.kind (fuseNo srv.layout))
      (fun m => AnyOk n m ∧ P srv.layout m) (AnyAllows (asked srv.layout) Op.kind) inv n ∧
    Ordered (guardedThreads srv) (anyWire (asked srv.layout) Op.kind (fuseNo srv.layout))
      (fun m => AnyOk n m ∧ P srv.layout m) (AnyAllows (asked srv.layout) Op.kind) inv n (asked srv.layout) srv.act

end Many

section
open Many

/-- C86 for filesystems: whatever programs send, what they ask for takes place, one thing at a time, and nothing else.
Missing for the full claim, which is `ThreadsConfine fun _ _ => True`: the two messages of C84; see C86_violated. -/
theorem C86_partial : ThreadsConfine fun layout m => ¬ Vicious layout m := by
  intro S srv haddr h12 ext hext inv hinv n
  have hf := any_fuse_faithful srv haddr h12 hext hinv n
  exact ⟨hf.atomic, hf.kept, hf.ordered⟩

/-- C86 for devices. -/
theorem C86_device {S : Type} (srv : DevServer S) (h9 : 9 ≤ srv.layout.versionMinor) (inv : S → Prop)
    (hinv : DevKeeps srv.act inv) (n : Nat) :
    Atomic (guardedDeviceThreads srv) (anyWire (devAsked srv.layout) DevOp.kind (deviceNo srv.layout))
      (anyAct (devAsked srv.layout) (deviceNo srv.layout) srv.act) (AnyOk n)
      (AnyAllows (devAsked srv.layout) DevOp.kind) inv n true ∧
    Kept (guardedDeviceThreads srv) (anyWire (devAsked srv.layout) DevOp.kind (deviceNo srv.layout)) (AnyOk n)
      (AnyAllows (devAsked srv.layout) DevOp.kind) inv n ∧
    Ordered (guardedDeviceThreads srv) (anyWire (devAsked srv.layout) DevOp.kind (deviceNo srv.layout)) (AnyOk n)
      (AnyAllows (devAsked srv.layout) DevOp.kind) inv n (devAsked srv.layout) srv.act := by
  have hf := any_device_faithful srv h9 hinv n
  exact ⟨hf.atomic, hf.kept, hf.ordered⟩

/-! ## Concrete cases -/

namespace HostileMany

/-- Sends messages, and tells what it heard. -/
def sender : List Bytes → List Ans → Calls Bytes Ans (List Ans)
  | [], heard => .done heard
  | m :: ms, heard => .call m fun a => sender ms (heard ++ [a])

theorem sender_asks {ok : Bytes → Prop} {allows : Bytes → Ans → Prop} {ms : List Bytes} (h : ∀ m ∈ ms, ok m)
    (heard : List Ans) : (sender ms heard).Asks ok allows := by
  induction ms generalizing heard with
  | nil => exact trivial
  | cons m ms ih => exact ⟨h m (.head ..), fun a _ => ih (fun m hm => h m (.tail _ hm)) _⟩

instance decidableAnyOk (n : Nat) (m : Bytes) : Decidable (AnyOk n m) := inferInstanceAs (Decidable (_ ∧ _))

/-- What is said: a name with a slash, then MKDIR; and by the other program BATCH_FORGET cut short, an opcode that there is none
of, and FORGET. -/
def first : List Bytes := [Hostile.raw 1 1 1 [0x61, 0x2F, 0], Hostile.raw 9 1 1 ([1, 0, 0, 0, 2, 0, 0, 0] ++ [0x64, 0] ++ [1, 2, 3])]

def second : List Bytes :=
  [Hostile.raw 42 1 0 [1, 0, 0, 0], Hostile.raw 99 1 1 [1, 2, 3], Hostile.raw 2 1 7 [9, 0, 0, 0, 0, 0, 0, 0]]

def wire : Many.Wire Bytes Ans Empty := anyWire (asked ⟨31, 0⟩) Op.kind (fuseNo ⟨31, 0⟩)

def opening : Many.Threaded (List (Caller × Op)) Bytes Ans (List Ans) :=
  .start [] [List.replicate 100 0, List.replicate 100 0] [sender first [], sender second []]

def schedule : List Turn :=
  [.call 0 5 0, .call 1 6 0, .work 0, .call 1 7 0, .work 1, .work 1, .work 1, .work 0, .work 1, .ret 1 0, .call 1 9 0, .ret 0 0,
    .call 0 5 0, .work 0, .work 1, .work 0, .ret 0 0, .work 0, .work 1, .work 1]

/-- What has been asked for: not more than this. -/
def mkdir : Caller × Op := (⟨5, 6, 7⟩, .mkdir ⟨1, by decide⟩ [0x64] 1 2)

def forget : Caller × Op := (⟨5, 6, 7⟩, .forget [(⟨7, by decide⟩, 9)])

/-- By running the model. -/
example : seen (turns (guardedThreads Hostile.server) wire [] opening schedule) =
    some ⟨[first[0], second[0], second[1], second[2], first[1]], [],
      [some [.error ⟨-5, by decide⟩, .error ⟨-2, by decide⟩], some [.silent, .error ⟨-38, by decide⟩, .silent]],
      some [mkdir, forget], [true, true], 0⟩ := by decide +kernel

theorem they_ask : ∀ u ∈ [sender first [], sender second []],
    u.Asks (fun m => AnyOk 100 m ∧ ¬ Vicious ⟨31, 0⟩ m) (AnyAllows (asked ⟨31, 0⟩) Op.kind) := by
  intro u hu
  simp only [List.mem_cons, List.not_mem_nil, or_false] at hu
  rcases hu with rfl | rfl <;> exact sender_asks (by decide +kernel) []

/-- C86_partial for all runs with these programs: at any time nothing unsound has been asked, and at the end there has been
asked what the messages ask for. -/
example {es : List (Many.Visible Bytes Ans Empty)} {q : Many.Threaded (List (Caller × Op)) Bytes Ans (List Ans)}
    (h : Many.Threaded.Run (guardedThreads Hostile.server) wire opening es q) :
    (∃ past, q.state = some past ∧ Hostile.Clean false past) ∧
    (q.pool.Returned → ∃ l : List (Caller × Op), l.Perm ((Many.Visible.calls es).filterMap (asked ⟨31, 0⟩)) ∧
      q.state = some (l.foldl (fun s x => (Hostile.note x.1 x.2 s).2) [])) := by
  have hat := C86_partial _ Hostile.server (fun _ => (by decide : 0x1000 % 8 = 0)) (by decide) false (by decide) _
    (Hostile.note_keeps false) 100
  exact ⟨hat.2.1 (s := []) (fun _ h => nomatch h) they_ask (by decide) h,
    hat.2.2 (s := []) (fun _ h => nomatch h) they_ask (by decide) (by simp) h⟩

/-- And there is always an end. -/
example (f : Nat → Many.Threaded (List (Caller × Op)) Bytes Ans (List Ans)) (h : f 0 = opening) :
    ¬ ∀ i, ∃ e, Many.Threaded.Step (guardedThreads Hostile.server) wire e (f i) (f (i + 1)) :=
  (C86_partial _ Hostile.server (fun _ => (by decide : 0x1000 % 8 = 0)) (by decide) false (by decide) _
    (Hostile.note_keeps false) 100).1.ends (s := []) (fun _ h => nomatch h) they_ask (by decide) f h

/-- The same for a device, by running the model: POLL without a node ID and READ cut short, INTERRUPT, and WRITE. -/
example : seen (turns (guardedDeviceThreads ⟨HostileDev.note, ⟨31⟩⟩)
      (anyWire (devAsked ⟨31⟩) DevOp.kind (deviceNo ⟨31⟩)) []
      (.start [] [List.replicate 100 0] [sender [HostileDev.messages[4], HostileDev.messages[0]] [],
        sender [HostileDev.messages[6], HostileDev.messages[7]] []])
      [.call 0 5 0, .call 1 6 0, .call 1 7 0, .work 0, .work 0, .ret 1 0, .work 0, .work 0, .work 0, .work 0, .ret 0 0,
        .call 0 6 0, .work 0, .work 0, .ret 0 0, .work 0, .work 0]) =
    some ⟨[HostileDev.messages[4], HostileDev.messages[6], HostileDev.messages[7], HostileDev.messages[0]], [],
      [some [.error ⟨-5, by decide⟩, .error ⟨-5, by decide⟩], some [.silent, .error ⟨-2, by decide⟩]],
      some [(⟨5, 6, 7⟩, .write 7 8 [1, 2] 0 none 0), (⟨5, 6, 7⟩, .interrupt ⟨11, by decide⟩)], [true], 1⟩ := by
  decide +kernel

/-- C86_device for all runs with such programs. -/
example {es : List (Many.Visible Bytes Ans Empty)} {q : Many.Threaded (List (Caller × DevOp)) Bytes Ans (List Ans)}
    (h : Many.Threaded.Run (guardedDeviceThreads ⟨HostileDev.note, ⟨31⟩⟩)
      (anyWire (devAsked ⟨31⟩) DevOp.kind (deviceNo ⟨31⟩))
      (.start [] [List.replicate 100 0, List.replicate 200 0] [sender HostileDev.messages [], sender HostileDev.messages []])
      es q) :
    (∃ past, q.state = some past ∧ HostileDev.Clean past) ∧
    (q.pool.Returned → ∃ l : List (Caller × DevOp), l.Perm ((Many.Visible.calls es).filterMap (devAsked ⟨31⟩)) ∧
      q.state = some (l.foldl (fun s x => (HostileDev.note x.1 x.2 s).2) [])) := by
  have hat := C86_device (⟨HostileDev.note, ⟨31⟩⟩ : DevServer _) (by decide) _ HostileDev.note_keeps 100
  have hu : ∀ u ∈ [sender HostileDev.messages [], sender HostileDev.messages []],
      u.Asks (AnyOk 100) (AnyAllows (devAsked ⟨31⟩) DevOp.kind) := by
    intro u hu
    simp only [List.mem_cons, List.not_mem_nil, or_false] at hu
    rcases hu with rfl | rfl <;> exact sender_asks (by decide +kernel) []
  exact ⟨hat.2.1 (s := []) (fun _ h => nomatch h) hu (by decide) h,
    hat.2.2 (s := []) (fun _ h => nomatch h) hu (by decide) (by simp) h⟩

/-- The two messages of C84_violated, by running the model. -/
theorem forget_run : ((turns (guardedThreads Hostile.server) wire []
      (.start [] [List.replicate 100 0] [sender [hugeForget] []]) [.call 0 5 0, .work 0, .work 0]).map fun x =>
        x.2.state) = some none := by decide +kernel

theorem nameless_run : ((turns (guardedThreads Hostile.server) wire []
      (.start [] [List.replicate 100 0] [sender [Hostile.nameless] []]) [.call 0 5 0, .work 0, .work 0]).map fun x =>
        x.2.state) = some (some [(⟨5, 6, 7⟩, .setxattr ⟨1, by decide⟩ [] [0, 0x61, 0x62] 0 0)]) := by decide +kernel

end HostileMany

/-- C86: as in C84_violated, neither BATCH_FORGET nor SETXATTR can be allowed without a restriction. -/
theorem C86_violated : ¬ ThreadsConfine (fun _ m => u32At m 4 = 42) ∧ ¬ ThreadsConfine (fun _ m => u32At m 4 = 21) := by
  have key : ∀ (P : FuseLayout → Bytes → Prop) (m : Bytes), AnyOk 100 m → P ⟨31, 0⟩ m → ThreadsConfine P →
      ∀ x, ((turns (guardedThreads Hostile.server) HostileMany.wire []
        (.start [] [List.replicate 100 0] [HostileMany.sender [m] []]) [.call 0 5 0, .work 0, .work 0]).map fun x =>
          x.2.state) = some x → ∃ past, x = some past ∧ Hostile.Clean false past := by
    intro P m hm hP h x hx
    obtain ⟨⟨es, q⟩, h1, h2⟩ := Option.map_eq_some_iff.mp hx
    obtain ⟨past, h3, h4⟩ := (h _ Hostile.server (fun _ => (by decide : 0x1000 % 8 = 0)) (by decide) false (by decide) _
      (Hostile.note_keeps false) 100).2.1 (s := []) (uses := [HostileMany.sender [m] []]) (fun _ h => nomatch h)
      (by
        intro u hu
        rw [List.mem_singleton] at hu
        subst hu
        exact HostileMany.sender_asks (by intro m' hm'; rw [List.mem_singleton] at hm'; subst hm'; exact ⟨hm, hP⟩) [])
      (by decide) (turns_sound .start h1)
    exact ⟨past, h2.symm.trans h3, h4⟩
  constructor
  · intro h
    obtain ⟨past, h1, _⟩ := key _ hugeForget (by decide) (by show u32At hugeForget 4 = 42; decide) h _ HostileMany.forget_run
    cases h1
  · intro h
    obtain ⟨past, h1, h2⟩ := key _ Hostile.nameless (by decide) (by show u32At Hostile.nameless 4 = 21; decide) h _
      HostileMany.nameless_run
    cases h1
    exact (h2 _ (.head _)).1 rfl

end

end Fuse
