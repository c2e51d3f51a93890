import Verif.Many
import Verif.PropConc
import Verif.PropOld
import Verif.PropNote
import Verif.PropDev

/-!
# C83: threads keep operations atomic, whatever is served

C79 for character devices, for clients of older versions, and for filesystems that send notifications.  The general part does
not know what is served; see `Many`.
-/

namespace Fuse
open Spec (u64At Caller Op Ans Notice DevOp readNotice readNotices)

namespace Many

section
variable {S R A N α : Type}

/-- The program only makes requests it can make, whatever it is answered. -/
def Calls.Asks (ok : R → Prop) (allows : R → A → Prop) : Calls R A α → Prop
  | .done _ => True
  | .call r k => ok r ∧ ∀ a, allows r a → (k a).Asks ok allows

/-- The same for a program that waits. -/
def Party.Asks (ok : R → Prop) (allows : R → A → Prop) : Party R A α → Prop
  | .ready use => use.Asks ok allows
  | .waiting _ r k => ∀ a, allows r a → (k a).Asks ok allows

/-- The program waits for the answer to everything it calls for. -/
def Calls.Waits (style : Style R A) : Calls R A α → Prop
  | .done _ => True
  | .call r k => style.answered r = true ∧ ∀ a, (k a).Waits style

/-- What has been called for. -/
def Visible.calls : List (Visible R A N) → List R
  | [] => []
  | .call _ _ r :: es => r :: calls es
  | _ :: es => calls es

/-- What has been announced. -/
def Visible.heard : List (Visible R A N) → List (Option N)
  | [] => []
  | .news x :: es => x :: heard es
  | _ :: es => heard es

/-- The state after these operations, one after the other, and what is announced. -/
def inTurn (act : R → S → List N × A × S) (s : S) : List R → List N × S
  | [] => ([], s)
  | r :: l => ((act r s).1 ++ (inTurn act (act r s).2.2 l).1, (inTurn act (act r s).2.2 l).2)

/-- What is waited for. -/
def Object.tickets (style : Style R A) (o : Object S R A N α) : List (UInt64 × R) :=
  (o.pending.filter fun t => style.answered t.2) ++ o.answers.map fun t => (t.1, t.2.1)

/-- What a message says: an announcement, or an answer. -/
abbrev Says (R A N : Type) := N ⊕ UInt64 × R × A

/-- A message is read as what it says. -/
def Wire.Reads (wire : Wire R A N) (x : Bytes × Says R A N) : Prop :=
  match x.2 with
  | .inl n => u64At x.1 8 = 0 ∧ wire.news x.1 = some n
  | .inr (id, r, a) => id ≠ 0 ∧ u64At x.1 8 = id.toNat ∧ wire.hear r id x.1 = a

/-- What is asked of a server: requests are received, what is served does what it is asked, and the answer and the
announcements are sent. -/
structure Faithful (svc : Service (Option S × Net) Unit) (wire : Wire R A N) (act : R → S → List N × A × S) (ok : R → Prop)
    (allows : R → A → Prop) (inv : S → Prop) (n : Nat) (loud : Bool) : Prop where
  behaves : ∀ r s, ok r → inv s → allows r (act r s).2.1 ∧ inv (act r s).2.2
  quiet : ∀ r, wire.answered r = false → allows r wire.silent
  recv : ∀ id r, id ≠ 0 → ok r → ∀ (buf : Bytes) (s : Option S) (ms rs : List Bytes), n ≤ buf.length →
    ∃ buf' : Bytes, n ≤ buf'.length ∧ svc.recv buf (s, ⟨wire.message id r :: ms, rs⟩) =
      ((.ok (some ⟨wire.message id r⟩), buf'), (s, ⟨ms, rs⟩))
  closed : ∀ (buf : Bytes) (s : Option S) (rs : List Bytes), svc.recv buf (s, ⟨[], rs⟩) =
    ((if loud then .error (.recv (.connectionClosed ())) else .ok none, buf), (s, ⟨[], rs⟩))
  dispatch : ∀ id r s, id ≠ 0 → ok r → inv s → ∀ net : Net, ∃ items : List (Bytes × Says R A N),
    svc.dispatch ⟨wire.message id r⟩ (some s, net) =
      .ok (some (act r s).2.2, { net with replies := net.replies ++ items.map Prod.fst }) ∧
    (items.filterMap fun x => x.2.getLeft?) = (act r s).1 ∧
    (items.filterMap fun x => x.2.getRight?) = (if wire.answered r then [(id, r, (act r s).2.1)] else []) ∧
    ∀ x ∈ items, wire.Reads x

/-- A server that receives requests, whatever it does then. -/
structure Willing (svc : Service (Option S × Net) Unit) (wire : Wire R A N) (act : R → S → List N × A × S) (ok : R → Prop)
    (allows : R → A → Prop) (inv : S → Prop) (n : Nat) (loud : Bool) : Prop where
  behaves : ∀ r s, ok r → inv s → allows r (act r s).2.1 ∧ inv (act r s).2.2
  quiet : ∀ r, wire.answered r = false → allows r wire.silent
  recv : ∀ id r, id ≠ 0 → ok r → ∀ (buf : Bytes) (s : Option S) (ms rs : List Bytes), n ≤ buf.length →
    ∃ buf' : Bytes, n ≤ buf'.length ∧ svc.recv buf (s, ⟨wire.message id r :: ms, rs⟩) =
      ((.ok (some ⟨wire.message id r⟩), buf'), (s, ⟨ms, rs⟩))
  closed : ∀ (buf : Bytes) (s : Option S) (rs : List Bytes), svc.recv buf (s, ⟨[], rs⟩) =
    ((if loud then .error (.recv (.connectionClosed ())) else .ok none, buf), (s, ⟨[], rs⟩))

/-- What is served does what it is asked, and the answer and the announcements are sent. -/
def Does (svc : Service (Option S × Net) Unit) (wire : Wire R A N) (act : R → S → List N × A × S) (inv : S → Prop)
    (id : UInt64) (r : R) : Prop :=
  ∀ s, inv s → ∀ net : Net, ∃ items : List (Bytes × Says R A N),
    svc.dispatch ⟨wire.message id r⟩ (some s, net) =
      .ok (some (act r s).2.2, { net with replies := net.replies ++ items.map Prod.fst }) ∧
    (items.filterMap fun x => x.2.getLeft?) = (act r s).1 ∧
    (items.filterMap fun x => x.2.getRight?) = (if wire.answered r then [(id, r, (act r s).2.1)] else []) ∧
    ∀ x ∈ items, wire.Reads x

theorem Faithful.willing {svc : Service (Option S × Net) Unit} {wire : Wire R A N} {act : R → S → List N × A × S}
    {ok : R → Prop} {allows : R → A → Prop} {inv : S → Prop} {n : Nat} {loud : Bool}
    (hf : Faithful svc wire act ok allows inv n loud) : Willing svc wire act ok allows inv n loud :=
  ⟨hf.behaves, hf.quiet, hf.recv, hf.closed⟩

theorem lefts_cons {m : Bytes} {x : N} {l : List (Bytes × Says R A N)} :
    (((m, .inl x) :: l : List (Bytes × Says R A N)).filterMap fun x => x.2.getLeft?) = x :: l.filterMap fun x => x.2.getLeft? :=
  rfl

/-! ## Direct use -/

variable {svc : Service (Option S × Net) Unit} {wire : Wire R A N} {act : R → S → List N × A × S} {ok : R → Prop}
  {allows : R → A → Prop} {inv : S → Prop} {n : Nat} {loud : Bool}

/-- What holds of programs that use something directly. -/
structure Object.Good (style : Style R A) (ok : R → Prop) (allows : R → A → Prop) (inv : S → Prop) (o : Object S R A N α) :
    Prop where
  state : inv o.state
  tickets : (o.tickets style).Perm (o.clients.filterMap Party.ticket)
  nodup : ((o.clients.filterMap Party.ticket).map Prod.fst).Nodup
  clients : ∀ t ∈ o.clients, t.Asks ok allows
  pending : ∀ t ∈ o.pending, t.1 ≠ 0 ∧ ok t.2
  answers : ∀ t ∈ o.answers, t.1 ≠ 0 ∧ allows t.2.1 t.2.2

theorem ticket_called {style : Style R A} {r : R} {id : UInt64} {k : A → Calls R A α} :
    (style.called r id k).ticket = if style.answered r then some (id, r) else none := by
  unfold Style.called
  split <;> rfl

theorem good_start {style : Style R A} {s : S} (hs : inv s) {uses : List (Calls R A α)} (hu : ∀ u ∈ uses, u.Asks ok allows) :
    (Object.start s uses : Object S R A N α).Good style ok allows inv := by
  have h : ((uses.map Party.ready).filterMap Party.ticket) = ([] : List (UInt64 × R)) := by
    induction uses with
    | nil => rfl
    | cons u us ih => exact ih fun v hv => hu v (List.mem_cons_of_mem _ hv)
  refine ⟨hs, ?_, ?_, ?_, (fun _ h => nomatch h), (fun _ h => nomatch h)⟩
  · show List.Perm [] ((uses.map Party.ready).filterMap Party.ticket)
    rw [h]
  · show (((uses.map Party.ready).filterMap Party.ticket).map Prod.fst).Nodup
    rw [h]
    exact List.nodup_nil
  · intro t ht
    obtain ⟨u, hu', rfl⟩ := List.mem_map.mp ht
    exact hu u hu'

theorem good_step {style : Style R A} (hb : ∀ r s, ok r → inv s → allows r (act r s).2.1 ∧ inv (act r s).2.2)
    (hquiet : ∀ r, style.answered r = false → allows r style.silent) {e : Option (Visible R A N)} {o o' : Object S R A N α}
    (hg : o.Good style ok allows inv) (h : Object.Step style act e o o') : o'.Good style ok allows inv := by
  obtain ⟨state, clients, pending, answers, announced⟩ := o
  obtain ⟨h1, h2, h3, h4, h5, h6⟩ := hg
  cases h with
  | @call _ i id r k p q hc hid hn hp =>
    dsimp only at hc hn hp h1 h2 h3 h4 h5 h6 ⊢
    obtain ⟨a, b, rfl, hset⟩ := set_split hc
    rw [hset]
    subst hp
    have hask := h4 _ (List.mem_append_right _ (List.mem_cons_self ..))
    obtain ⟨k1, k2⟩ := hask
    refine ⟨h1, ?_, ?_, ?_, ?_, h6⟩
    · unfold Object.tickets at h2 ⊢
      simp only [List.filterMap_append, List.filter_append, List.filter_cons, List.filterMap_cons, ticket_called] at h2 ⊢
      cases hop : style.answered r
      · simpa [hop, Party.ticket] using h2
      · simp only [Party.ticket, if_true] at h2 ⊢
        refine (List.perm_middle.append_right _).trans (.trans ?_ List.perm_middle.symm)
        exact List.Perm.cons _ h2
    · simp only [List.filterMap_append, List.filterMap_cons, ticket_called] at h3 hn ⊢
      cases hop : style.answered r
      · simpa [hop, Party.ticket] using h3
      · simp only [Party.ticket, if_true] at h3 hn ⊢
        rw [List.map_append, List.map_cons]
        refine (List.perm_middle.nodup_iff).mpr (List.nodup_cons.mpr ⟨?_, ?_⟩)
        · rwa [List.map_append] at hn
        · rwa [List.map_append] at h3
    · intro t ht
      rcases List.mem_append.mp ht with ht | ht
      · exact h4 _ (List.mem_append_left _ ht)
      · rcases List.mem_cons.mp ht with rfl | ht
        · unfold Style.called
          split
          · exact k2
          · rename_i hop
            exact k2 _ (hquiet r (Bool.eq_false_iff.mpr hop))
        · exact h4 _ (List.mem_append_right _ (List.mem_cons_of_mem _ ht))
    · intro t ht
      rcases List.mem_append.mp ht with ht | ht
      · exact h5 _ (List.mem_append_left _ ht)
      · rcases List.mem_cons.mp ht with rfl | ht
        · exact ⟨hid, k1⟩
        · exact h5 _ (List.mem_append_right _ ht)
  | @perform _ id r p q hp =>
    dsimp only at hp h1 h2 h3 h4 h5 h6 ⊢
    subst hp
    obtain ⟨k1, k2⟩ := h5 _ (List.mem_append_right _ (List.mem_cons_self ..))
    obtain ⟨b1, b2⟩ := hb r state k2 h1
    refine ⟨b2, ?_, h3, h4, ?_, ?_⟩
    · refine .trans ?_ h2
      unfold Object.tickets
      simp only [List.filter_append, List.filter_cons]
      cases hop : style.answered r
      · simp
      · simp only [if_true, List.map_append, List.map_cons, List.map_nil]
        refine .trans ?_ (List.perm_middle.append_right _).symm
        rw [← List.append_assoc]
        exact List.perm_append_comm
    · intro t ht
      refine h5 _ ?_
      rcases List.mem_append.mp ht with ht | ht
      · exact List.mem_append_left _ ht
      · exact List.mem_append_right _ (List.mem_cons_of_mem _ ht)
    · intro t ht
      rcases List.mem_append.mp ht with ht | ht
      · exact h6 _ ht
      · split at ht
        · rw [List.mem_singleton] at ht
          subst ht
          exact ⟨k1, b1⟩
        · cases ht
  | @ret _ i id r k a p q hc ha =>
    dsimp only at hc ha h1 h2 h3 h4 h5 h6 ⊢
    obtain ⟨c, d, rfl, hset⟩ := set_split hc
    rw [hset]
    subst ha
    have hask := h4 _ (List.mem_append_right _ (List.mem_cons_self ..))
    refine ⟨h1, ?_, ?_, ?_, h5, ?_⟩
    · unfold Object.tickets at h2 ⊢
      simp only [List.filterMap_append, List.filterMap_cons, List.map_append, List.map_cons, Party.ticket] at h2 ⊢
      rw [← List.append_assoc] at h2 ⊢
      exact List.Perm.cons_inv ((List.perm_middle.symm.trans h2).trans List.perm_middle)
    · simp only [List.filterMap_append, List.filterMap_cons, List.map_append, List.map_cons, Party.ticket] at h3 ⊢
      exact (List.nodup_cons.mp ((List.perm_middle.nodup_iff).mp h3)).2
    · intro t ht
      rcases List.mem_append.mp ht with ht | ht
      · exact h4 _ (List.mem_append_left _ ht)
      · rcases List.mem_cons.mp ht with rfl | ht
        · exact hask _ (h6 _ (List.mem_append_right _ (List.mem_cons_self ..))).2
        · exact h4 _ (List.mem_append_right _ (List.mem_cons_of_mem _ ht))
    · intro t ht
      refine h6 _ ?_
      rcases List.mem_append.mp ht with ht | ht
      · exact List.mem_append_left _ ht
      · exact List.mem_append_right _ (List.mem_cons_of_mem _ ht)
  | news hx => exact ⟨h1, h2, h3, h4, h5, h6⟩

/-! ## The threads -/

/-- The number of steps a thread has left, if nothing else arrives. -/
def Worker.left : Worker Unit → Nat
  | .receiving _ => 2
  | .handling _ _ => 3
  | .reporting _ _ => 1
  | _ => 0

/-- The number of steps the threads have left, if nothing else arrives. -/
def Threaded.left (p : Threaded S R A α) : Nat :=
  3 * p.pool.world.2.queue.length + (p.pool.workers.map Worker.left).sum

/-- 1 for a thread that has ended. -/
def Worker.over : Worker Unit → Nat
  | .finished => 1
  | _ => 0

/-- What a thread is at: nothing, a request, or, if it tells, that the connection is closed. -/
def AtWork (wire : Wire R A N) (n : Nat) (loud : Bool) : Worker Unit → Option (UInt64 × R) → Prop
  | .receiving buf, none => n ≤ buf.length
  | .handling buf q, some t => n ≤ buf.length ∧ q = ⟨wire.message t.1 t.2⟩
  | .reporting _ e, none => loud = true ∧ e = .recv (.connectionClosed ())
  | .finished, none => True
  | _, _ => False

/-- A thread has found the connection closed. -/
def HasClosed : Worker Unit → Prop
  | .reporting _ _ => True
  | .finished => True
  | _ => False

/-- The threads and direct use agree. -/
structure InStep (wire : Wire R A N) (ok : R → Prop) (allows : R → A → Prop) (inv : S → Prop) (n : Nat) (loud : Bool)
    (p : Threaded S R A α) (o : Object S R A N α) (queued : List (UInt64 × R))
    (ws : List (Worker Unit × Option (UInt64 × R))) (rs : List (Bytes × Says R A N)) : Prop where
  good : o.Good wire.toStyle ok allows inv
  state : p.pool.world.1 = some o.state
  clients : p.clients = o.clients
  queue : p.pool.world.2.queue = queued.map fun t => wire.message t.1 t.2
  workers : p.pool.workers = ws.map Prod.fst
  work : ∀ w ∈ ws, AtWork wire n loud w.1 w.2
  pending : o.pending.Perm (queued ++ ws.filterMap Prod.snd)
  replies : p.pool.world.2.replies = rs.map Prod.fst
  answers : o.answers = rs.filterMap fun x => x.2.getRight?
  announced : o.announced = rs.filterMap fun x => x.2.getLeft?
  read : ∀ x ∈ rs, wire.Reads x
  closed : ∀ w ∈ ws, HasClosed w.1 → queued = [] ∧ ∀ t ∈ o.clients, t.Ended
  channel : p.pool.channel =
    if loud then List.replicate (ws.map fun w => Worker.over w.1).sum (.recv (.connectionClosed ())) else []
  capacity : p.pool.capacity = ws.length

theorem over_zero (bufs : List Bytes) :
    ((bufs.map fun b => ((.receiving b, none) : Worker Unit × Option (UInt64 × R))).map fun w => Worker.over w.1).sum = 0 := by
  induction bufs with
  | nil => rfl
  | cons b bs ih => rw [List.map_cons, List.map_cons, List.sum_cons, ih]; rfl

theorem inStep_start {s : S} (hs : inv s) {uses : List (Calls R A α)} (hu : ∀ u ∈ uses, u.Asks ok allows)
    {bufs : List Bytes} (hbufs : ∀ b ∈ bufs, n ≤ b.length) :
    InStep wire ok allows inv n loud (.start s bufs uses) (.start s uses) [] (bufs.map fun b => (.receiving b, none)) [] := by
  refine ⟨good_start hs hu, rfl, rfl, rfl, ?_, ?_, ?_, rfl, rfl, rfl, (fun _ h => nomatch h), ?_, ?_, ?_⟩
  · rw [List.map_map]
    rfl
  · intro w hw
    obtain ⟨b, hb, rfl⟩ := List.mem_map.mp hw
    exact hbufs b hb
  · have : (bufs.map fun b => ((.receiving b, none) : Worker Unit × Option (UInt64 × R))).filterMap Prod.snd = [] := by
      induction bufs with
      | nil => rfl
      | cons b bs ih => exact ih fun b hb => hbufs b (List.mem_cons_of_mem _ hb)
    show List.Perm [] _
    rw [this]
    exact .nil
  · intro w hw hc
    obtain ⟨b, _, rfl⟩ := List.mem_map.mp hw
    exact hc.elim
  · rw [over_zero]
    split <;> rfl
  · exact (List.length_map ..).symm

/-- Tickets with one number are the same. -/
theorem same_ticket {l : List (UInt64 × R)} (h : (l.map Prod.fst).Nodup) {id : UInt64} {r r' : R} (h1 : (id, r) ∈ l)
    (h2 : (id, r') ∈ l) : r = r' := by
  induction l with
  | nil => cases h1
  | cons a l ih =>
    rw [List.map_cons, List.nodup_cons] at h
    rcases List.mem_cons.mp h1 with e1 | h1 <;> rcases List.mem_cons.mp h2 with e2 | h2
    · exact (Prod.mk.inj (e1.trans e2.symm)).2
    · exact absurd (List.mem_map.mpr ⟨_, h2, by rw [← e1]⟩) h.1
    · exact absurd (List.mem_map.mpr ⟨_, h1, by rw [← e2]⟩) h.1
    · exact ih h.2 h1 h2

theorem over_le (l : List (Worker Unit × Option (UInt64 × R))) : (l.map fun w => Worker.over w.1).sum ≤ l.length := by
  induction l with
  | nil => exact Nat.le_refl _
  | cons w l ih =>
    rw [List.map_cons, List.sum_cons, List.length_cons]
    have : Worker.over w.1 ≤ 1 := by unfold Worker.over; split <;> decide
    omega

theorem waiting_ne {style : Style R A} {o : Object S R A N α} (hg : o.Good style ok allows inv) {id : UInt64} {r : R}
    (h : (id, r) ∈ o.clients.filterMap Party.ticket) : id ≠ 0 := by
  rcases List.mem_append.mp (hg.tickets.mem_iff.mpr h) with h | h
  · exact (hg.pending _ (List.mem_filter.mp h).1).1
  · obtain ⟨t, ht, e⟩ := List.mem_map.mp h
    cases e
    exact (hg.answers t ht).1

/-- A step of the threads or of a program is a step of direct use, or none, unless a request is dealt with in some other
way. -/
theorem inStep_or (hf : Willing svc wire act ok allows inv n loud) {p p' : Threaded S R A α} {o : Object S R A N α}
    {queued : List (UInt64 × R)} {ws : List (Worker Unit × Option (UInt64 × R))} {rs : List (Bytes × Says R A N)}
    (h : InStep wire ok allows inv n loud p o queued ws rs) {e : Option (Visible R A N)}
    (hstep : Threaded.Step svc wire e p p') :
    (∃ o' queued' ws' rs', InStep wire ok allows inv n loud p' o' queued' ws' rs' ∧
      (∀ t ∈ o.pending, t ∉ o'.pending → Does svc wire act inv t.1 t.2) ∧
      ((e = none ∧ o' = o) ∨ Object.Step wire.toStyle act e o o') ∧ (e = none → p'.left < p.left)) ∨
    ∃ i buf id r, p.pool.workers[i]? = some (.handling buf ⟨wire.message id r⟩) ∧ (id, r) ∈ o.pending ∧
      ¬ Does svc wire act inv id r ∧ e = none ∧ ∃ ev w channel x,
        workerStep svc p.pool.capacity p.pool.channel p.pool.world (.handling buf ⟨wire.message id r⟩) =
          some (ev, w, channel, x) ∧ p' = { p with pool := ⟨x, p.pool.workers.set i w, channel, p.pool.capacity⟩ } := by
  obtain ⟨h1, h2, h3, h4, h5, h6, h7, h8, h9, h9', h10, h11, h12, h13⟩ := h
  cases hstep with
  | @call _ i id r k a b hc hid hn hq =>
    rw [h3] at hc hn
    have hs : Object.Step wire.toStyle act (some (.call i id r)) o
        { o with clients := o.clients.set i (wire.called r id k), pending := (id, r) :: o.pending } :=
      .call (p := []) hc hid hn rfl
    obtain ⟨x, y, rfl, hx, hy⟩ := List.map_eq_append_iff.mp (h4.symm.trans hq)
    refine .inl ⟨_, x ++ (id, r) :: y, ws, rs, ⟨good_step hf.behaves hf.quiet h1 hs, h2, ?_, ?_, h5, h6, ?_, h8, h9, h9', h10, ?_,
      h12, h13⟩, fun _ h h' => absurd (List.mem_cons_of_mem _ h) h', .inr hs, (fun h => nomatch h)⟩
    · show p.clients.set _ _ = _
      rw [h3]
    · show a ++ wire.message id r :: b = _
      rw [List.map_append, List.map_cons, hx, hy]
    · rw [List.append_assoc, List.cons_append]
      refine .trans (.cons _ ?_) List.perm_middle.symm
      rwa [List.append_assoc] at h7
    · intro w hw hcl
      have := (h11 w hw hcl).2 _ (List.mem_of_getElem? hc)
      exact this.elim
  | @ret _ i id r k m a b hc hr hm =>
    rw [h3] at hc
    obtain ⟨x, z, rfl, hx, hz⟩ := List.map_eq_append_iff.mp (h8.symm.trans hr)
    obtain ⟨t, y, rfl, hm', hy⟩ := List.map_eq_cons_iff.mp hz
    have hread := h10 t (List.mem_append_right _ (List.mem_cons_self ..))
    have hwait : (id, r) ∈ o.clients.filterMap Party.ticket := List.mem_filterMap.mpr ⟨_, List.mem_of_getElem? hc, rfl⟩
    obtain ⟨m', says⟩ := t
    dsimp only at hm'
    subst hm'
    cases says with
    | inl nn =>
      obtain ⟨r1, _⟩ := hread
      dsimp only at r1
      exact absurd (UInt64.toNat_inj (b := 0).mp (hm.symm.trans r1)) (waiting_ne h1 hwait)
    | inr t =>
      obtain ⟨id', r', a'⟩ := t
      obtain ⟨_, r1, r2⟩ := hread
      dsimp only at r1 r2
      have hid : id' = id := UInt64.toNat_inj.mp (r1.symm.trans hm)
      subst hid
      have hop : r' = r := by
        refine same_ticket h1.nodup (h1.tickets.mem_iff.mp ?_) hwait
        refine List.mem_append_right _ (List.mem_map.mpr ⟨(id', r', a'), ?_, rfl⟩)
        rw [h9]
        exact List.mem_filterMap.mpr ⟨_, List.mem_append_right _ (List.mem_cons_self ..), rfl⟩
      subst hop
      rw [r2]
      have hs : Object.Step wire.toStyle act (some (.ret i id' a')) o
          { o with clients := o.clients.set i (.ready (k a')),
                   answers := (x.filterMap fun x => x.2.getRight?) ++ (y.filterMap fun x => x.2.getRight?) } :=
        .ret hc (by rw [h9, List.filterMap_append]; rfl)
      refine .inl ⟨_, queued, ws, x ++ y, ⟨good_step hf.behaves hf.quiet h1 hs, h2, ?_, h4, h5, h6, h7, ?_, ?_, ?_, ?_, ?_, h12,
        h13⟩, fun _ h h' => absurd h h', .inr hs, (fun h => nomatch h)⟩
      · show p.clients.set _ _ = _
        rw [h3]
      · show a ++ b = _
        rw [List.map_append, hx, hy]
      · rw [List.filterMap_append]
      · show o.announced = _
        rw [h9', List.filterMap_append, List.filterMap_append]
        rfl
      · intro r hr
        refine h10 r ?_
        rcases List.mem_append.mp hr with hr | hr
        · exact List.mem_append_left _ hr
        · exact List.mem_append_right _ (List.mem_cons_of_mem _ hr)
      · intro w hw hcl
        have := (h11 w hw hcl).2 _ (List.mem_of_getElem? hc)
        exact this.elim
  | @news _ m a b hr hm =>
    obtain ⟨x, z, rfl, hx, hz⟩ := List.map_eq_append_iff.mp (h8.symm.trans hr)
    obtain ⟨t, y, rfl, hm', hy⟩ := List.map_eq_cons_iff.mp hz
    have hread := h10 t (List.mem_append_right _ (List.mem_cons_self ..))
    obtain ⟨m', says⟩ := t
    dsimp only at hm'
    subst hm'
    cases says with
    | inr t =>
      obtain ⟨r0, r1, _⟩ := hread
      dsimp only at r1
      exact absurd (UInt64.toNat_inj (b := 0).mp (r1.symm.trans hm)) r0
    | inl nn =>
      obtain ⟨_, r2⟩ := hread
      dsimp only at r2
      rw [r2]
      have hs : Object.Step wire.toStyle act (some (.news (some nn))) o
          { o with announced := (x.filterMap fun x => x.2.getLeft?) ++ (y.filterMap fun x => x.2.getLeft?) } :=
        .news (by rw [h9', List.filterMap_append]; rfl)
      refine .inl ⟨_, queued, ws, x ++ y, ⟨good_step hf.behaves hf.quiet h1 hs, h2, h3, h4, h5, h6, h7, ?_, ?_, ?_, ?_, h11, h12,
        h13⟩, fun _ h h' => absurd h h', .inr hs, (fun h => nomatch h)⟩
      · show a ++ b = _
        rw [List.map_append, hx, hy]
      · show o.answers = _
        rw [h9, List.filterMap_append, List.filterMap_append]
        rfl
      · rw [List.filterMap_append]
      · intro r hr
        refine h10 r ?_
        rcases List.mem_append.mp hr with hr | hr
        · exact List.mem_append_left _ hr
        · exact List.mem_append_right _ (List.mem_cons_of_mem _ hr)
  | @work _ e pool hp hclosed =>
    obtain ⟨⟨⟨fs, queue, replies⟩, workers, channel, capacity⟩, clients⟩ := p
    dsimp only at h2 h3 h4 h5 h8 h12 h13 hp hclosed ⊢
    subst h2 h3 h4 h5 h8 h12 h13
    cases hp with
    | @mk _ i w w' e channel s hi hw =>
      dsimp only at hi hw
      rw [List.getElem?_map] at hi
      obtain ⟨⟨w0, t⟩, hi', rfl⟩ := Option.map_eq_some_iff.mp hi
      have hat := h6 _ (List.mem_of_getElem? hi')
      obtain ⟨x, y, rfl, hset⟩ := set_split hi'
      have hset' : ∀ w' t', ((x ++ (w0, t) :: y).map Prod.fst).set i w' = (x ++ (w', t') :: y).map Prod.fst := by
        intro w' t'
        exact (List.map_set (f := Prod.fst) (l := x ++ (w0, t) :: y) (i := i) (a := (w', t'))).symm.trans
          (congrArg _ (hset _))
      dsimp only at hat hw
      have hmem : ∀ {w' t'}, AtWork wire n loud w' t' → ∀ w ∈ x ++ (w', t') :: y, AtWork wire n loud w.1 w.2 := by
        intro w' t' hw' w hw
        rcases List.mem_append.mp hw with hw | hw
        · exact h6 _ (List.mem_append_left _ hw)
        · rcases List.mem_cons.mp hw with rfl | hw
          · exact hw'
          · exact h6 _ (List.mem_append_right _ (List.mem_cons_of_mem _ hw))
      have hfin : ∀ {w' t'}, ¬ HasClosed w' → ∀ w ∈ x ++ (w', t') :: y, HasClosed w.1 →
          queued = [] ∧ ∀ t ∈ o.clients, t.Ended := by
        intro w' t' hne w hw hcl
        rcases List.mem_append.mp hw with hw | hw
        · exact h11 w (List.mem_append_left _ hw) hcl
        · rcases List.mem_cons.mp hw with rfl | hw
          · exact absurd hcl hne
          · exact h11 w (List.mem_append_right _ (List.mem_cons_of_mem _ hw)) hcl
      have hsame : ∀ {w' t'}, Worker.over w' = Worker.over w0 →
          ((x ++ (w0, t) :: y).map fun w => Worker.over w.1).sum = ((x ++ (w', t') :: y).map fun w => Worker.over w.1).sum := by
        intro w' t' h
        simp only [List.map_append, List.map_cons, List.sum_append, List.sum_cons, h]
      have hlen : ∀ {w' t'}, (x ++ (w0, t) :: y).length = (x ++ (w', t') :: y).length := by
        intro w' t'
        simp only [List.length_append, List.length_cons]
      cases w0 with
      | receiving buf =>
        cases t with
        | some t => exact hat.elim
        | none =>
          cases queued with
          | nil =>
            rw [List.map_nil] at hw
            unfold workerStep at hw
            dsimp only at hw
            rw [hf.closed] at hw
            cases loud with
            | false =>
              cases hw
              refine .inl ⟨o, [], x ++ (.finished, none) :: y, rs, ⟨h1, rfl, rfl, rfl, hset' _ _, hmem trivial, ?_, rfl, h9, h9',
                h10, ?_, rfl, hlen⟩, fun _ h h' => absurd h h', .inl ⟨rfl, rfl⟩, fun _ => ?_⟩
              · simpa [List.filterMap_append] using h7
              · exact fun _ _ _ => ⟨rfl, hclosed (.inl rfl)⟩
              · unfold Threaded.left
                dsimp only
                rw [hset' _ none]
                simp only [List.map_append, List.map_cons, List.sum_append, List.sum_cons, Worker.left, List.map_nil,
                  List.length_nil]
                omega
            | true =>
              cases hw
              refine .inl ⟨o, [], x ++ (.reporting buf _, none) :: y, rs, ⟨h1, rfl, rfl, rfl, hset' _ _, hmem ⟨rfl, rfl⟩, ?_, rfl, h9,
                h9', h10, ?_, ?_, hlen⟩, fun _ h h' => absurd h h', .inl ⟨rfl, rfl⟩, fun _ => ?_⟩
              · simpa [List.filterMap_append] using h7
              · exact fun _ _ _ => ⟨rfl, hclosed (.inr rfl)⟩
              · rw [hsame (w' := .reporting buf _) (t' := none) rfl]
              · unfold Threaded.left
                dsimp only
                rw [hset' _ none]
                simp only [List.map_append, List.map_cons, List.sum_append, List.sum_cons, Worker.left, List.map_nil,
                  List.length_nil]
                omega
          | cons t queued =>
            have ht : t ∈ o.pending := h7.mem_iff.mpr (List.mem_append_left _ (List.mem_cons_self ..))
            obtain ⟨k1, k2⟩ := h1.pending _ ht
            obtain ⟨buf', hb', hrecv⟩ := hf.recv t.1 t.2 k1 k2 buf (some o.state)
              (queued.map fun t => wire.message t.1 t.2) (rs.map Prod.fst) hat
            rw [List.map_cons] at hw
            unfold workerStep at hw
            dsimp only at hw
            rw [hrecv] at hw
            cases hw
            refine .inl ⟨o, queued, x ++ (_, some t) :: y, rs, ⟨h1, rfl, rfl, rfl, hset' _ _, hmem ⟨hb', rfl⟩, ?_, rfl, h9, h9', h10,
              (fun w hw hcl => absurd (hfin (w' := .handling buf' ⟨wire.message t.1 t.2⟩) (fun h => h) w hw hcl).1 (List.cons_ne_nil _ _)), ?_, hlen⟩, fun _ h h' => absurd h h', .inl ⟨rfl, rfl⟩,
              fun _ => ?_⟩
            · refine h7.trans ?_
              simp only [List.filterMap_append, List.filterMap_cons, List.cons_append, ← List.append_assoc]
              exact List.perm_middle.symm
            · rw [hsame (w' := .handling buf' _) (t' := some t) rfl]
            · unfold Threaded.left
              dsimp only
              rw [hset' _ none]
              simp only [List.map_append, List.map_cons, List.sum_append, List.sum_cons, Worker.left, List.length_cons,
                List.length_map]
              omega
      | handling buf r =>
        cases t with
        | none => exact hat.elim
        | some t =>
          obtain ⟨hb, rfl⟩ := hat
          have ht : t ∈ o.pending := h7.mem_iff.mpr (List.mem_append_right _ (by simp))
          by_cases hdoes : Does svc wire act inv t.1 t.2
          case neg =>
            exact .inr ⟨i, buf, t.1, t.2, by rw [List.getElem?_map, hi']; rfl, ht, hdoes, rfl, _, _, _, _, hw, rfl⟩
          obtain ⟨items, m3, m4, m5, m6⟩ := hdoes o.state h1.state
            ⟨queued.map fun t => wire.message t.1 t.2, rs.map Prod.fst⟩
          unfold workerStep at hw
          dsimp only at hw
          rw [m3] at hw
          cases hw
          obtain ⟨p1, p2, hp⟩ := List.append_of_mem ht
          have hs : Object.Step wire.toStyle act none o _ := .perform hp
          have hlost : ∀ t' ∈ o.pending, t' ∉ p1 ++ p2 → Does svc wire act inv t'.1 t'.2 := by
            intro t' h h'
            rw [hp] at h
            rcases List.mem_append.mp h with h | h
            · exact absurd (List.mem_append_left _ h) h'
            · rcases List.mem_cons.mp h with rfl | h
              · exact hdoes
              · exact absurd (List.mem_append_right _ h) h'
          refine .inl ⟨_, queued, x ++ (_, none) :: y, rs ++ items,
            ⟨good_step hf.behaves hf.quiet h1 hs, rfl, rfl, rfl, hset' _ _, hmem hb, ?_, ?_, ?_, ?_, ?_, hfin (fun h => h), ?_,
              hlen⟩, hlost, .inr hs, fun _ => ?_⟩
          · rw [hp] at h7
            refine List.Perm.cons_inv (a := t) ((List.perm_middle.symm.trans h7).trans ?_)
            simp only [List.filterMap_append, List.filterMap_cons, ← List.append_assoc]
            exact List.perm_middle
          · show rs.map Prod.fst ++ items.map Prod.fst = _
            rw [List.map_append]
          · show o.answers ++ _ = _
            rw [List.filterMap_append, h9, m5]
          · show o.announced ++ _ = _
            rw [List.filterMap_append, h9', m4]
          · intro r hr
            rcases List.mem_append.mp hr with hr | hr
            · exact h10 r hr
            · exact m6 r hr
          · rw [hsame (w' := .receiving buf) (t' := none) rfl]
          · unfold Threaded.left
            dsimp only
            rw [hset' _ none]
            simp only [List.map_append, List.map_cons, List.sum_append, List.sum_cons, Worker.left]
            omega
      | reporting buf e =>
        cases t with
        | some t => exact hat.elim
        | none =>
          obtain ⟨rfl, rfl⟩ := hat
          unfold workerStep at hw
          dsimp only at hw
          rw [if_pos rfl, if_pos (show isFatalError (.recv (.connectionClosed ()) : ServerError Unit) = true from rfl)] at hw
          split at hw
          · cases hw
            refine .inl ⟨o, queued, x ++ (.finished, none) :: y, rs, ⟨h1, rfl, rfl, rfl, hset' _ _, hmem trivial, ?_, rfl, h9,
              h9', h10, ?_, ?_, hlen⟩, fun _ h h' => absurd h h', .inl ⟨rfl, rfl⟩, fun _ => ?_⟩
            · simpa [List.filterMap_append] using h7
            · exact fun _ _ _ => h11 _ (List.mem_append_right _ (List.mem_cons_self ..)) trivial
            · have : ((x ++ (.finished, none) :: y).map fun w : Worker Unit × Option (UInt64 × R) => Worker.over w.1).sum =
                  ((x ++ (.reporting buf (.recv (.connectionClosed ())), none) :: y).map fun w => Worker.over w.1).sum + 1 := by
                simp only [List.map_append, List.map_cons, List.sum_append, List.sum_cons, Worker.over]
                omega
              rw [if_pos rfl, this, List.replicate_succ']
              rfl
            · unfold Threaded.left
              dsimp only
              rw [hset' _ none]
              simp only [List.map_append, List.map_cons, List.sum_append, List.sum_cons, Worker.left]
              omega
          · cases hw
      | finished => cases hw
      | faulted f => cases t <;> exact hat.elim

/-- A step of the threads or of a program is a step of direct use, or none. -/
theorem inStep_step (hf : Faithful svc wire act ok allows inv n loud) {p p' : Threaded S R A α} {o : Object S R A N α}
    {queued : List (UInt64 × R)} {ws : List (Worker Unit × Option (UInt64 × R))} {rs : List (Bytes × Says R A N)}
    (h : InStep wire ok allows inv n loud p o queued ws rs) {e : Option (Visible R A N)}
    (hstep : Threaded.Step svc wire e p p') :
    ∃ o' queued' ws' rs', InStep wire ok allows inv n loud p' o' queued' ws' rs' ∧
      ((e = none ∧ o' = o) ∨ Object.Step wire.toStyle act e o o') ∧ (e = none → p'.left < p.left) := by
  rcases inStep_or hf.willing h hstep with ⟨o', queued', ws', rs', h1, _, h2⟩ | ⟨_, _, id, r, _, hp, hd, _⟩
  · exact ⟨o', queued', ws', rs', h1, h2⟩
  · exact absurd (fun s hs => hf.dispatch id r s (h.good.pending _ hp).1 (h.good.pending _ hp).2 hs) hd

theorem run_inStep (hf : Faithful svc wire act ok allows inv n loud) {p q : Threaded S R A α} {o : Object S R A N α}
    {queued : List (UInt64 × R)} {ws : List (Worker Unit × Option (UInt64 × R))} {rs : List (Bytes × Says R A N)}
    (h : InStep wire ok allows inv n loud p o queued ws rs) {es : List (Visible R A N)} (hrun : Threaded.Run svc wire p es q) :
    ∃ o' queued' ws' rs', Object.Run wire.toStyle act o es o' ∧ InStep wire ok allows inv n loud q o' queued' ws' rs' := by
  induction hrun with
  | start => exact ⟨o, queued, ws, rs, .start, h⟩
  | step _ hs ih =>
    obtain ⟨o1, a1, b1, c1, hr, h1⟩ := ih
    obtain ⟨o2, a2, b2, c2, h2, hs, _⟩ := inStep_step hf h1 hs
    refine ⟨o2, a2, b2, c2, ?_, h2⟩
    rcases hs with ⟨rfl, rfl⟩ | hs
    · rw [Option.toList_none, List.append_nil]
      exact hr
    · exact .step hr hs

theorem workers_length {p q : Threaded S R A α} {e : Option (Visible R A N)} (h : Threaded.Step svc wire e p q) :
    q.pool.workers.length = p.pool.workers.length := by
  cases h with
  | call => rfl
  | ret => rfl
  | news => rfl
  | work hp _ =>
    cases hp
    exact List.length_set

theorem clients_length {p q : Threaded S R A α} {e : Option (Visible R A N)} (h : Threaded.Step svc wire e p q) :
    q.clients.length = p.clients.length := by
  cases h with
  | call => exact List.length_set
  | ret => exact List.length_set
  | news => rfl
  | work => rfl

theorem run_lengths {p q : Threaded S R A α} {es : List (Visible R A N)} (h : Threaded.Run svc wire p es q) :
    q.pool.workers.length = p.pool.workers.length ∧ q.clients.length = p.clients.length := by
  induction h with
  | start => exact ⟨rfl, rfl⟩
  | step _ hs ih => exact ⟨(workers_length hs).trans ih.1, (clients_length hs).trans ih.2⟩

/-! ## Going on -/

theorem workerStep_error {σ ε : Type} {srv : Service σ ε} {capacity : Nat} {channel : List (ServerError ε)} {w w' : σ}
    {buf buf' : Bytes} {e : ServerError ε} (h : srv.recv buf w = ((.error e, buf'), w')) :
    workerStep srv capacity channel w (.receiving buf) = some (.error e, .reporting buf' e, channel, w') := by
  simp only [workerStep, h]

/-- Somebody can go on, or all have ended. -/
theorem inStep_progress (hf : Willing svc wire act ok allows inv n loud) {p : Threaded S R A α} {o : Object S R A N α}
    {queued : List (UInt64 × R)} {ws : List (Worker Unit × Option (UInt64 × R))} {rs : List (Bytes × Says R A N)}
    (h : InStep wire ok allows inv n loud p o queued ws rs) (hw : 0 < p.pool.workers.length)
    (hc : p.clients.length < 2 ^ 64 - 1) :
    (∃ e q, Threaded.Step svc wire e p q) ∨ ((∀ t ∈ p.clients, t.Ended) ∧ p.pool.Returned) := by
  obtain ⟨h1, h2, h3, h4, h5, h6, h7, h8, h9, h9', h10, h11, h12, h13⟩ := h
  obtain ⟨⟨⟨fs, queue, replies⟩, workers, channel, capacity⟩, clients⟩ := p
  dsimp only at h2 h3 h4 h5 h8 h12 h13 hw hc
  subst h2 h3 h4 h5 h8 h13
  -- a program that can call
  by_cases hready : ∃ (i : Nat) (r : R) (k : A → Calls R A α), o.clients[i]? = some (.ready (.call r k))
  · obtain ⟨i, r, k, hi⟩ := hready
    obtain ⟨id, hid, hn⟩ := fresh_id ((o.clients.filterMap Party.ticket).map Prod.fst) (by
      rw [List.length_map]
      exact Nat.lt_of_le_of_lt (List.length_filterMap_le _ _) hc)
    exact .inl ⟨_, _, .call (p := []) hi hid hn rfl⟩
  -- a thread that handles a request
  by_cases hhand : ∃ (i : Nat) (buf : Bytes) (t : UInt64 × R), ws[i]? = some (.handling buf ⟨wire.message t.1 t.2⟩, some t)
  · obtain ⟨i, buf, t, hi⟩ := hhand
    have hget : (ws.map Prod.fst)[i]? = some (.handling buf ⟨wire.message t.1 t.2⟩) := by
      rw [List.getElem?_map, hi]; rfl
    cases hd : svc.dispatch ⟨wire.message t.1 t.2⟩
        (some o.state, ⟨queued.map fun t => wire.message t.1 t.2, rs.map Prod.fst⟩) with
    | ok y =>
      have hstep := workerStep_handling (srv := svc) (capacity := ws.length) (channel := channel) (buf := buf) hd
      exact .inl ⟨_, _, .work (.mk hget hstep) (fun h => by rcases h with h | h <;> cases h)⟩
    | error f =>
      have hstep : workerStep svc ws.length channel (some o.state, ⟨queued.map fun t => wire.message t.1 t.2, rs.map Prod.fst⟩)
          (.handling buf ⟨wire.message t.1 t.2⟩) = some (.handled ⟨wire.message t.1 t.2⟩, .faulted f, channel,
            (some o.state, ⟨queued.map fun t => wire.message t.1 t.2, rs.map Prod.fst⟩)) := by
        simp only [workerStep, hd]
      exact .inl ⟨_, _, .work (.mk hget hstep) (fun h => by rcases h with h | h <;> cases h)⟩
  -- a thread that reports
  by_cases hrep : ∃ (i : Nat) (buf : Bytes) (e : ServerError Unit), ws[i]? = some (.reporting buf e, none)
  · obtain ⟨i, buf, e, hi⟩ := hrep
    obtain ⟨rfl, rfl⟩ := h6 _ (List.mem_of_getElem? hi)
    have hget : (ws.map Prod.fst)[i]? = some (.reporting buf (.recv (.connectionClosed ()))) := by
      rw [List.getElem?_map, hi]; rfl
    have hroom : channel.length < ws.length := by
      rw [h12, if_pos rfl, List.length_replicate]
      obtain ⟨x, y, rfl, _⟩ := set_split hi
      have hx := over_le x
      have hy := over_le y
      have hw : Worker.over (.reporting buf (.recv (.connectionClosed ()))) = 0 := rfl
      simp only [List.map_append, List.map_cons, List.sum_append, List.sum_cons, List.length_append, List.length_cons, hw]
      omega
    have hstep : workerStep svc ws.length channel (some o.state, ⟨queued.map fun t => wire.message t.1 t.2, rs.map Prod.fst⟩)
        (.reporting buf (.recv (.connectionClosed ()))) = some (_, _, _, _) := if_pos hroom
    exact .inl ⟨_, _, .work (.mk hget hstep) (fun h => by rcases h with h | h <;> cases h)⟩
  -- a reply to be taken
  by_cases hans : o.answers = []
  · -- a thread that can receive
    by_cases hrec : ∃ (i : Nat) (buf : Bytes), ws[i]? = some (.receiving buf, none)
    · obtain ⟨i, buf, hi⟩ := hrec
      have hget : (ws.map Prod.fst)[i]? = some (.receiving buf) := by rw [List.getElem?_map, hi]; rfl
      have hat := h6 _ (List.mem_of_getElem? hi)
      cases queued with
      | cons t queued =>
        have ht : t ∈ o.pending := h7.mem_iff.mpr (List.mem_append_left _ (List.mem_cons_self ..))
        obtain ⟨k1, k2⟩ := h1.pending _ ht
        obtain ⟨buf', _, hrecv⟩ := hf.recv t.1 t.2 k1 k2 buf (some o.state)
          (queued.map fun t => wire.message t.1 t.2) (rs.map Prod.fst) hat
        have hstep := workerStep_request (srv := svc) (capacity := ws.length) (channel := channel) hrecv
        exact .inl ⟨_, _, .work (.mk hget hstep) (fun h => by rcases h with h | h <;> cases h)⟩
      | nil =>
        -- nothing is pending, so nobody waits
        have hpend : o.pending = [] := by
          refine List.eq_nil_iff_forall_not_mem.mpr fun t ht => ?_
          rw [List.nil_append] at h7
          obtain ⟨⟨w, t'⟩, hw, e⟩ := List.mem_filterMap.mp (h7.mem_iff.mp ht)
          dsimp only at e
          subst e
          have hat := h6 _ hw
          cases w with
          | handling buf r =>
            obtain ⟨_, rfl⟩ := hat
            obtain ⟨j, hj⟩ := List.getElem?_of_mem hw
            exact hhand ⟨j, buf, t, hj⟩
          | _ => exact hat.elim
        have htick : o.clients.filterMap Party.ticket = [] := by
          have := h1.tickets
          unfold Object.tickets at this
          rw [hpend, hans] at this
          exact this.symm.eq_nil
        have hended : ∀ t ∈ o.clients, t.Ended := by
          intro t ht
          cases t with
          | waiting id r k =>
            have : (id, r) ∈ o.clients.filterMap Party.ticket := List.mem_filterMap.mpr ⟨_, ht, rfl⟩
            rw [htick] at this
            cases this
          | ready use =>
            cases use with
            | done a => trivial
            | call r k =>
              obtain ⟨j, hj⟩ := List.getElem?_of_mem ht
              exact absurd ⟨j, r, k, hj⟩ hready
        have hcl := hf.closed buf (some o.state) (rs.map Prod.fst)
        cases loud with
        | false =>
          have hstep := workerStep_closed (srv := svc) (capacity := ws.length) (channel := channel) hcl
          exact .inl ⟨_, _, .work (.mk hget hstep) (fun _ => hended)⟩
        | true =>
          have hstep := workerStep_error (srv := svc) (capacity := ws.length) (channel := channel) hcl
          exact .inl ⟨_, _, .work (.mk hget hstep) (fun _ => hended)⟩
    · -- all threads have finished
      have hfin : ∀ w ∈ ws, w = (.finished, none) := by
        rintro ⟨w, t⟩ hw
        have hat := h6 _ hw
        obtain ⟨j, hj⟩ := List.getElem?_of_mem hw
        cases w with
        | finished =>
          cases t with
          | none => rfl
          | some t => exact hat.elim
        | receiving buf =>
          cases t with
          | none => exact absurd ⟨j, buf, hj⟩ hrec
          | some t => exact hat.elim
        | handling buf r =>
          cases t with
          | none => exact hat.elim
          | some t =>
            obtain ⟨_, rfl⟩ := hat
            exact absurd ⟨j, buf, t, hj⟩ hhand
        | reporting buf e =>
          cases t with
          | none => exact absurd ⟨j, buf, e, hj⟩ hrep
          | some t => exact hat.elim
        | faulted f => cases t <;> exact hat.elim
      refine .inr ⟨?_, ?_⟩
      · cases ws with
        | nil => exact absurd hw (by simp)
        | cons w ws => exact (h11 w (List.mem_cons_self ..) (by rw [hfin w (List.mem_cons_self ..)]; trivial)).2
      · intro w hw
        obtain ⟨w', hw', rfl⟩ := List.mem_map.mp hw
        rw [hfin _ hw']
  · obtain ⟨⟨id, r, a⟩, answers, hl⟩ := List.exists_cons_of_ne_nil hans
    have hmem : (id, r, a) ∈ o.answers := by rw [hl]; exact List.mem_cons_self ..
    have : (id, r) ∈ o.clients.filterMap Party.ticket :=
      h1.tickets.mem_iff.mp (List.mem_append_right _ (List.mem_map.mpr ⟨_, hmem, rfl⟩))
    obtain ⟨t, ht, e⟩ := List.mem_filterMap.mp this
    cases t with
    | ready use => cases e
    | waiting id' r' k =>
      cases e
      obtain ⟨j, hj⟩ := List.getElem?_of_mem ht
      rw [h9] at hmem
      obtain ⟨⟨m, says⟩, hx, e⟩ := List.mem_filterMap.mp hmem
      cases says with
      | inl nn => cases e
      | inr t =>
        cases e
        obtain ⟨_, hr, _⟩ := h10 _ hx
        obtain ⟨x, y, rfl⟩ := List.append_of_mem hx
        exact .inl ⟨_, _, .ret (p := x.map Prod.fst) (q := y.map Prod.fst) hj
          (by show List.map _ _ = _; rw [List.map_append, List.map_cons]) hr⟩

/-! ## Coming to an end -/

/-- A program goes on. -/
inductive PartyNext (style : Style R A) : Party R A α → Party R A α → Prop
  | called {id : UInt64} {r : R} {k : A → Calls R A α} : PartyNext style (style.called r id k) (.ready (.call r k))
  | returned {id : UInt64} {r : R} {k : A → Calls R A α} {a : A} : PartyNext style (.ready (k a)) (.waiting id r k)

theorem acc_ready {style : Style R A} (use : Calls R A α) : Acc (PartyNext style) (Party.ready use) := by
  induction use with
  | done a => exact ⟨_, fun y h => by cases h⟩
  | call r k ih =>
    refine ⟨_, fun y h => ?_⟩
    cases h
    unfold Style.called
    split
    · refine ⟨_, fun y h => ?_⟩
      cases h
      exact ih _
    · exact ih _

theorem acc_party {style : Style R A} (t : Party R A α) : Acc (PartyNext style) t := by
  cases t with
  | ready use => exact acc_ready use
  | waiting id r k =>
    refine ⟨_, fun y h => ?_⟩
    cases h
    exact acc_ready _

/-- One of the programs goes on. -/
def PartiesNext (style : Style R A) (l' l : List (Party R A α)) : Prop :=
  ∃ i x y, l[i]? = some x ∧ PartyNext style y x ∧ l' = l.set i y

theorem acc_parties {style : Style R A} (l : List (Party R A α)) : Acc (PartiesNext style) l := by
  induction l with
  | nil => exact ⟨_, fun y h => by obtain ⟨i, x, y, h, _⟩ := h; simp at h⟩
  | cons t l ih =>
    have ht := acc_party (style := style) t
    induction ht generalizing l with
    | intro t _ iht =>
      induction ih with
      | intro l hl ihl =>
        refine ⟨_, fun l' h => ?_⟩
        obtain ⟨i, x, y, h1, h2, rfl⟩ := h
        cases i with
        | zero =>
          simp only [List.getElem?_cons_zero, Option.some.injEq] at h1
          subst h1
          rw [List.set_cons_zero]
          exact iht y h2 l ⟨_, hl⟩
        | succ i =>
          rw [List.getElem?_cons_succ] at h1
          rw [List.set_cons_succ]
          exact ihl _ ⟨i, x, y, h1, h2, rfl⟩

theorem acc_threaded (hf : Faithful svc wire act ok allows inv n loud) {clients : List (Party R A α)}
    (hacc : Acc (PartiesNext wire.toStyle) clients) :
    ∀ (m k : Nat) (p : Threaded S R A α), p.clients = clients → p.left = m → p.net.replies.length = k →
      (∃ o queued ws rs, InStep wire ok allows inv n loud p o queued ws rs) →
      Acc (fun q p => ∃ e, Threaded.Step svc wire e p q) p := by
  induction hacc with
  | intro clients _ ih =>
    intro m
    induction m using Nat.strongRecOn with
    | ind m ihm =>
      intro k
      induction k using Nat.strongRecOn with
      | ind k ihk =>
        intro p hp hm hk ⟨o, queued, ws, rs, h⟩
        refine ⟨_, fun q ⟨e, hs⟩ => ?_⟩
        obtain ⟨o', queued', ws', rs', h', _, hl⟩ := inStep_step hf h hs
        cases hs with
        | @call _ i id r k a b hc hid hn hq =>
          rw [hp] at hc
          exact ih _ ⟨i, _, _, hc, .called, by rw [← hp]; rfl⟩ _ _ _ rfl rfl rfl ⟨o', queued', ws', rs', h'⟩
        | @ret _ i id r k msg a b hc hr hu =>
          rw [hp] at hc
          exact ih _ ⟨i, _, _, hc, .returned, by rw [← hp]; rfl⟩ _ _ _ rfl rfl rfl ⟨o', queued', ws', rs', h'⟩
        | @news _ msg a b hr hu =>
          refine ihk _ ?_ _ hp hm rfl ⟨o', queued', ws', rs', h'⟩
          rw [← hk, hr]
          show (a ++ b).length < (a ++ msg :: b).length
          rw [List.length_append, List.length_append, List.length_cons]
          omega
        | work hw hc => exact ihm _ (hm ▸ hl rfl) _ _ hp rfl rfl ⟨o', queued', ws', rs', h'⟩

/-! ## What has taken place -/

theorem inTurn_append {s : S} {l : List R} {r : R} :
    inTurn act s (l ++ [r]) = ((inTurn act s l).1 ++ (act r (inTurn act s l).2).1, (act r (inTurn act s l).2).2.2) := by
  induction l generalizing s with
  | nil => simp only [List.nil_append, inTurn, List.append_nil]
  | cons t l ih => simp only [List.cons_append, inTurn, ih, List.append_assoc]

theorem calls_append {es es' : List (Visible R A N)} : Visible.calls (es ++ es') = Visible.calls es ++ Visible.calls es' := by
  induction es with
  | nil => rfl
  | cons e es ih => cases e <;> simp only [List.cons_append, Visible.calls, ih]

theorem heard_append {es es' : List (Visible R A N)} : Visible.heard (es ++ es') = Visible.heard es ++ Visible.heard es' := by
  induction es with
  | nil => rfl
  | cons e es ih => cases e <;> simp only [List.cons_append, Visible.heard, ih]

theorem object_order {style : Style R A} {o o' : Object S R A N α} {es : List (Visible R A N)} (hp : o.pending = [])
    (hq : o.announced = []) (h : Object.Run style act o es o') :
    ∃ l, (l ++ o'.pending.map Prod.snd).Perm (Visible.calls es) ∧ o'.state = (inTurn act o.state l).2 ∧
      (Visible.heard es ++ o'.announced.map some).Perm ((inTurn act o.state l).1.map some) := by
  induction h with
  | start => exact ⟨[], by rw [hp]; exact .nil, rfl, by rw [hq]; exact .nil⟩
  | step _ hs ih =>
    obtain ⟨l, h1, h2, h3⟩ := ih
    cases hs with
    | @call _ i id r k a b hc hid hn hq =>
      refine ⟨l, ?_, h2, ?_⟩
      · rw [calls_append]
        rw [hq] at h1
        refine List.Perm.trans ?_ (h1.append_right _)
        simp only [List.map_append, List.map_cons, Option.toList, Visible.calls, List.append_assoc]
        exact (List.Perm.append_left _ (List.Perm.append_left _ (List.perm_append_singleton _ _).symm))
      · rw [heard_append]
        simpa only [Option.toList, Visible.heard, List.append_nil] using h3
    | @perform _ id r a b hq =>
      refine ⟨l ++ [r], ?_, by rw [inTurn_append, ← h2], ?_⟩
      · rw [Option.toList, List.append_nil]
        rw [hq] at h1
        refine List.Perm.trans ?_ h1
        simp only [List.map_append, List.map_cons, List.append_assoc, List.singleton_append]
        exact List.Perm.append_left _ List.perm_middle.symm
      · rw [Option.toList, List.append_nil, inTurn_append, ← h2]
        dsimp only
        rw [List.map_append, List.map_append, ← List.append_assoc]
        exact h3.append_right _
    | @ret _ i id r k x a b hc hr =>
      refine ⟨l, ?_, h2, ?_⟩
      · rw [calls_append]
        simpa only [Option.toList, Visible.calls, List.append_nil] using h1
      · rw [heard_append]
        simpa only [Option.toList, Visible.heard, List.append_nil] using h3
    | @news _ x a b hr =>
      refine ⟨l, ?_, h2, ?_⟩
      · rw [calls_append]
        simpa only [Option.toList, Visible.calls, List.append_nil] using h1
      · rw [heard_append]
        rw [hr] at h3
        refine .trans ?_ h3
        simp only [Option.toList, Visible.heard, List.map_append, List.map_cons, List.append_assoc, List.singleton_append]
        exact List.Perm.append_left _ List.perm_middle.symm

/-- What holds when one program uses something directly. -/
inductive Single (style : Style R A) (act : R → S → List N × A × S) (x : α × S) : Object S R A N α → Prop
  | ready {s : S} {use : Calls R A α} {l : List N} : use.Waits style → use.run act s = x →
      Single style act x ⟨s, [.ready use], [], [], l⟩
  | called {s : S} {id : UInt64} {r : R} {k : A → Calls R A α} {l : List N} : style.answered r = true →
      (∀ a, (k a).Waits style) → (Calls.call r k).run act s = x → Single style act x ⟨s, [.waiting id r k], [(id, r)], [], l⟩
  | answered {s : S} {id : UInt64} {r : R} {k : A → Calls R A α} {a : A} {l : List N} : (∀ a, (k a).Waits style) →
      (k a).run act s = x → Single style act x ⟨s, [.waiting id r k], [], [(id, r, a)], l⟩

theorem single_step {style : Style R A} {x : α × S} {o o' : Object S R A N α} {e : Option (Visible R A N)}
    (h : Single style act x o) (hs : Object.Step style act e o o') : Single style act x o' := by
  have one : ∀ {β : Type} {x y : β} {i : Nat}, [x][i]? = some y → i = 0 ∧ y = x := by
    intro β x y i h
    cases i with
    | zero => exact ⟨rfl, by simpa using h.symm⟩
    | succ i => simp at h
  cases h with
  | ready hw hr =>
    cases hs with
    | @call _ i id r k a b hc hid hn hq =>
      obtain ⟨rfl, hy⟩ := one hc
      cases hy
      obtain ⟨rfl, rfl⟩ : a = [] ∧ b = [] := List.append_eq_nil_iff.mp hq.symm
      have : style.called r id k = .waiting id r k := if_pos hw.1
      dsimp only
      rw [this]
      exact .called hw.1 hw.2 hr
    | @perform _ id r a b hq => exact absurd hq (by simp)
    | @ret _ i id r k y a b hc hr => cases (one hc).2
    | news _ => exact .ready hw hr
  | called hk hw hr =>
    cases hs with
    | @call _ i id r k a b hc hid hn hq => cases (one hc).2
    | @perform _ id r a b hq =>
      cases a with
      | cons _ a => exact absurd hq (by simp)
      | nil =>
        cases hq
        dsimp only
        rw [if_pos hk]
        exact .answered hw hr
    | @ret _ i id r k y a b hc hr => exact absurd hr (by simp)
    | news _ => exact .called hk hw hr
  | answered hw hr =>
    cases hs with
    | @call _ i id r k a b hc hid hn hq => cases (one hc).2
    | @perform _ id r a b hq => exact absurd hq (by simp)
    | @ret _ i id r k y a b hc hr' =>
      obtain ⟨rfl, hy⟩ := one hc
      cases hy
      cases a with
      | cons _ a => exact absurd hr' (by simp)
      | nil =>
        cases hr'
        exact .ready (hw _) hr
    | news _ => exact .answered hw hr

theorem single_run {style : Style R A} {x : α × S} {o o' : Object S R A N α} {es : List (Visible R A N)}
    (h : Single style act x o) (hs : Object.Run style act o es o') : Single style act x o' := by
  induction hs with
  | start => exact h
  | step _ hs ih => exact single_step ih hs

/-! ## The theorems, whatever is served -/

/-- What the threads tell about the end of the connection. -/
def farewell (loud : Bool) (threads : Nat) : List (ServerError Unit) :=
  if loud then List.replicate threads (.recv (.connectionClosed ())) else []

theorem linearizable (hf : Faithful svc wire act ok allows inv n loud) {s : S} (hs : inv s) {uses : List (Calls R A α)}
    {bufs : List Bytes} (hu : ∀ u ∈ uses, u.Asks ok allows) (hb : ∀ b ∈ bufs, n ≤ b.length) {es : List (Visible R A N)}
    {q : Threaded S R A α} (h : Threaded.Run svc wire (.start s bufs uses) es q) :
    ∃ o, Object.Run wire.toStyle act (.start s uses) es o ∧ o.clients = q.clients ∧ q.state = some o.state ∧
      (∃ m, m ≤ bufs.length ∧ q.pool.channel = farewell loud m) ∧
      (bufs ≠ [] → q.pool.Returned → (∀ t ∈ o.clients, t.Ended) ∧ o.pending = [] ∧ o.answers = [] ∧
        q.net.replies.map wire.news = o.announced.map some ∧ q.pool.channel = farewell loud bufs.length) := by
  obtain ⟨o, queued, ws, rs, hrun, hin⟩ := run_inStep hf (inStep_start hs hu hb) h
  have hlen' : ws.length = bufs.length := by
    have h1 := (run_lengths h).1
    rw [hin.workers, List.length_map] at h1
    rw [h1]
    show (bufs.map Worker.receiving).length = _
    rw [List.length_map]
  refine ⟨o, hrun, hin.clients.symm, hin.state, ⟨_, hlen' ▸ over_le ws, hin.channel⟩, fun hne hret => ?_⟩
  have hfin : ∀ w ∈ ws, w = (.finished, none) := by
    rintro ⟨w, t⟩ hw
    have hat := hin.work _ hw
    obtain rfl : w = .finished := hret w (by rw [hin.workers]; exact List.mem_map.mpr ⟨_, hw, rfl⟩)
    cases t with
    | none => rfl
    | some t => exact hat.elim
  have hlen : 0 < ws.length := by
    rw [hlen']
    exact List.length_pos_iff.mpr hne
  have hmem : (.finished, none) ∈ ws := by
    cases ws with
    | nil => exact absurd hlen (by simp)
    | cons w ws => rw [hfin w (List.mem_cons_self ..)]; exact List.mem_cons_self ..
  obtain ⟨hq, hend⟩ := hin.closed _ hmem trivial
  have hpend : o.pending = [] := by
    have := hin.pending
    rw [hq, List.nil_append, show ws.filterMap Prod.snd = [] from
      List.filterMap_eq_nil_iff.mpr fun w hw => by rw [hfin w hw]] at this
    exact this.eq_nil
  have hans : o.answers = [] := by
    have htick : o.clients.filterMap Party.ticket = [] := List.filterMap_eq_nil_iff.mpr fun t ht => by
      have := hend t ht
      cases t with
      | ready use => rfl
      | waiting id r k => exact this.elim
    have := hin.good.tickets
    rw [htick] at this
    have := this.eq_nil
    unfold Object.tickets at this
    exact List.map_eq_nil_iff.mp (List.append_eq_nil_iff.mp this).2
  refine ⟨hend, hpend, hans, ?_, ?_⟩
  · show q.pool.world.2.replies.map wire.news = _
    rw [hin.replies, hin.announced]
    have hno := hin.answers
    rw [hans] at hno
    have hread := hin.read
    clear hin hrun
    induction rs with
    | nil => rfl
    | cons x rs ih =>
      obtain ⟨m, says⟩ := x
      cases says with
      | inr t => simp at hno
      | inl nn =>
        have := (hread _ (List.mem_cons_self ..)).2
        rw [List.map_cons, List.map_cons, lefts_cons, List.map_cons]
        dsimp only at this ⊢
        rw [this, ih (by simpa using hno) fun x hx => hread x (List.mem_cons_of_mem _ hx)]
  · rw [hin.channel, ← hlen']
    unfold farewell
    have : (ws.map fun w => Worker.over w.1).sum = ws.length := by
      clear hin hrun hlen hmem hlen' hpend
      induction ws with
      | nil => rfl
      | cons w ws ih =>
        rw [List.map_cons, List.sum_cons, ih fun w hw => hfin w (List.mem_cons_of_mem _ hw), hfin w (List.mem_cons_self ..),
          List.length_cons]
        exact Nat.add_comm ..
    rw [this]

theorem progress (hf : Faithful svc wire act ok allows inv n loud) {s : S} (hs : inv s) {uses : List (Calls R A α)}
    {bufs : List Bytes} (hu : ∀ u ∈ uses, u.Asks ok allows) (hb : ∀ b ∈ bufs, n ≤ b.length) (hne : bufs ≠ [])
    (hl : uses.length < 2 ^ 64 - 1) {es : List (Visible R A N)} {q : Threaded S R A α}
    (h : Threaded.Run svc wire (.start s bufs uses) es q) :
    (∃ e q', Threaded.Step svc wire e q q') ∨ ((∀ t ∈ q.clients, t.Ended) ∧ q.pool.Returned) := by
  obtain ⟨o, queued, ws, rs, _, hin⟩ := run_inStep hf (inStep_start hs hu hb) h
  have hlen := run_lengths h
  refine inStep_progress hf.willing hin ?_ ?_
  · rw [hlen.1]
    show 0 < (bufs.map Worker.receiving).length
    rw [List.length_map]
    exact List.length_pos_iff.mpr hne
  · rw [hlen.2]
    show (uses.map Party.ready).length < _
    rwa [List.length_map]

theorem ends (hf : Faithful svc wire act ok allows inv n loud) {s : S} (hs : inv s) {uses : List (Calls R A α)}
    {bufs : List Bytes} (hu : ∀ u ∈ uses, u.Asks ok allows) (hb : ∀ b ∈ bufs, n ≤ b.length) (f : Nat → Threaded S R A α)
    (h0 : f 0 = .start s bufs uses) : ¬ ∀ i, ∃ e, Threaded.Step svc wire e (f i) (f (i + 1)) :=
  no_descent (acc_threaded hf (acc_parties _) _ _ _ rfl rfl rfl ⟨_, _, _, _, inStep_start hs hu hb⟩) f h0

theorem order (hf : Faithful svc wire act ok allows inv n loud) {s : S} (hs : inv s) {uses : List (Calls R A α)}
    {bufs : List Bytes} (hu : ∀ u ∈ uses, u.Asks ok allows) (hb : ∀ b ∈ bufs, n ≤ b.length) (hne : bufs ≠ [])
    {es : List (Visible R A N)} {q : Threaded S R A α} (h : Threaded.Run svc wire (.start s bufs uses) es q)
    (hr : q.pool.Returned) :
    ∃ l, l.Perm (Visible.calls es) ∧ q.state = some (inTurn act s l).2 ∧
      (Visible.heard es ++ q.net.replies.map wire.news).Perm ((inTurn act s l).1.map some) := by
  obtain ⟨o, h1, _, h2, _, h3⟩ := linearizable hf hs hu hb h
  obtain ⟨_, hp, _, hn, _⟩ := h3 hne hr
  obtain ⟨l, h4, h5, h6⟩ := object_order rfl rfl h1
  rw [hp, List.map_nil, List.append_nil] at h4
  exact ⟨l, h4, by rw [h2, h5]; rfl, by rw [hn]; exact h6⟩

theorem single (hf : Faithful svc wire act ok allows inv n loud) {s : S} (hs : inv s) {use : Calls R A α}
    {bufs : List Bytes} (hu : use.Asks ok allows) (hw : use.Waits wire.toStyle) (hb : ∀ b ∈ bufs, n ≤ b.length)
    (hne : bufs ≠ []) {es : List (Visible R A N)} {q : Threaded S R A α}
    (h : Threaded.Run svc wire (.start s bufs [use]) es q) (hr : q.pool.Returned) :
    q.clients = [.ready (.done (use.run act s).1)] ∧ q.state = some (use.run act s).2 := by
  obtain ⟨o, h1, hc, h2, _, h3⟩ := linearizable hf hs (by simpa using hu) hb h
  obtain ⟨hend, hp, ha, _⟩ := h3 hne hr
  have hi : Single wire.toStyle act (use.run act s) o := single_run (.ready hw rfl) h1
  rw [← hc, h2]
  cases hi with
  | called => cases hp
  | answered => cases ha
  | @ready s' use' l hw' hr' =>
    have hd := hend _ (List.mem_cons_self ..)
    cases use' with
    | done a => rw [← hr']; exact ⟨rfl, rfl⟩
    | call r k => exact hd.elim

end

/-! ## What is served -/

/-- What is said by notifications. -/
theorem notices_say {R A : Type} {wire : Wire R A Notice} (hn : wire.news = readNotice) {out : List Bytes} {l : List Notice}
    (h : readNotices out = some l) (h0 : ∀ m ∈ out, u64At m 8 = 0) :
    ∃ items : List (Bytes × Says R A Notice), items.map Prod.fst = out ∧ (items.filterMap fun x => x.2.getLeft?) = l ∧
      (items.filterMap fun x => x.2.getRight?) = [] ∧ ∀ x ∈ items, wire.Reads x := by
  induction out generalizing l with
  | nil =>
    cases h
    exact ⟨[], rfl, rfl, rfl, fun _ h => nomatch h⟩
  | cons m out ih =>
    unfold readNotices at h ih
    rw [List.mapM_cons] at h
    cases hm : readNotice m with
    | none => rw [hm] at h; cases h
    | some nn =>
      cases ho : out.mapM readNotice with
      | none => rw [hm, ho] at h; cases h
      | some ns =>
        rw [hm, ho] at h
        cases h
        obtain ⟨items, h1, h2, h3, h4⟩ := ih ho fun x hx => h0 x (List.mem_cons_of_mem _ hx)
        refine ⟨(m, .inl nn) :: items, by rw [List.map_cons, h1], ?_, ?_, ?_⟩
        · rw [lefts_cons, h2]
        · rw [List.filterMap_cons_none rfl, h3]
        · intro x hx
          rcases List.mem_cons.mp hx with rfl | hx
          · exact ⟨h0 m (List.mem_cons_self ..), hn ▸ hm⟩
          · exact h4 x hx

theorem foldl_replies (out : List Bytes) (net : Net) :
    out.foldl (fun (w : Net) m => { w with replies := w.replies ++ [m] }) net =
      { net with replies := net.replies ++ out } := by
  induction out generalizing net with
  | nil => rw [List.foldl_nil, List.append_nil]
  | cons m out ih => rw [List.foldl_cons, ih, List.append_assoc]; rfl

/-- What a program may ask a filesystem for, in version 7.`minor` and requests of at most `n` bytes. -/
def FuseOk (minor : Nat) (ext : Bool) (n : Nat) (r : Caller × Op) : Prop :=
  r.2.OkIn minor ext ∧ 40 + (r.2.requestIn minor ext).2.body.length ≤ min n 0xFFFFFFFF

/-- What a filesystem may answer. -/
def FuseAllows (minor : Nat) (r : Caller × Op) (a : Ans) : Prop := r.2.kind.Allows a ∧ a.FitsIn minor

/-- A filesystem that answers and announces what version 7.`minor` can express. -/
def FuseBehaves {S : Type} (act : Caller → Op → S → Reaction × S) (minor : Nat) (ext : Bool) (inv : S → Prop) : Prop :=
  ∀ who op s, inv s → op.OkIn minor ext →
    (op.kind.Allows (act who op s).1.ans ∧ (act who op s).1.ans.FitsIn minor) ∧
    (∀ a ∈ (act who op s).1.before ++ (act who op s).1.after, a.size < 2 ^ 32) ∧ inv (act who op s).2

theorem FuseBehaves.seen {S : Type} {act : Caller → Op → S → Reaction × S} {minor : Nat} {ext : Bool} {inv : S → Prop}
    (hb : FuseBehaves act minor ext inv) : FuseBehaves (fun who op s => act who (op.seenIn minor) s) minor ext inv := by
  intro who op s hs hok
  have hok' : (op.seenIn minor).OkIn minor ext := by cases op <;> exact hok
  obtain ⟨⟨h1, h2⟩, h3, h4⟩ := hb who _ s hs hok'
  rw [op.seenIn_kind] at h1
  exact ⟨⟨h1, h2⟩, h3, h4⟩

theorem fuse_willing {S : Type} (srv : NoteServer S) {minor : Nat} {ext : Bool} {act : Caller → Op → S → Reaction × S}
    {inv : S → Prop} (hb : FuseBehaves act minor ext inv) (n : Nat) :
    Willing (fuseThreads srv) (fuseWire minor ext) (fuseAct act) (FuseOk minor ext n) (FuseAllows minor) inv n false := by
  have small : ∀ {r : Caller × Op}, FuseOk minor ext n r → 40 + (r.2.requestIn minor ext).2.body.length < 2 ^ 32 :=
    fun hr => Nat.lt_of_le_of_lt (Nat.le_trans hr.2 (Nat.min_le_right _ _)) (by decide)
  refine ⟨?_, ?_, ?_, ?_⟩
  · intro r s hr hs
    obtain ⟨h1, _, h3⟩ := hb r.1 r.2 s hs hr.1
    exact ⟨h1, h3⟩
  · intro r hr
    refine ⟨?_, trivial⟩
    have : r.2.kind = .silent := by
      refine Decidable.byContradiction fun h => ?_
      rw [show (fuseWire minor ext).answered r = true from answered_iff.mpr h] at hr
      cases hr
    rw [this]
    rfl
  · intro id r hid hr buf s ms rs hbuf
    have hacc : Acceptable ((fuseWire minor ext).message id r) := by
      have := message_acceptable (a := (r.2.requestIn minor ext).2) (unique := id) (nodeid := (r.2.requestIn minor ext).1)
        (uid := r.1.uid) (gid := r.1.gid) (pid := r.1.pid) (padding := 0) (tail := []) hid (small hr)
      rwa [List.append_nil] at this
    have hml : ((fuseWire minor ext).message id r).length = 40 + (r.2.requestIn minor ext).2.body.length := message_length
    have hlen : ((fuseWire minor ext).message id r).length ≤ buf.length :=
      Nat.le_trans (Nat.le_of_eq hml) (Nat.le_trans hr.2 (Nat.le_trans (Nat.min_le_left _ _) hbuf))
    refine ⟨_, ?_, net_recv hacc hlen⟩
    rw [List.length_append, List.length_drop]
    omega
  · exact fun _ _ _ => rfl

theorem fuse_faithful {S : Type} (srv : NoteServer S) (haddr : ∀ op, srv.addr op % 8 = 0) {minor : Nat}
    (hm : srv.layout.versionMinor.toNat = minor) (h7 : 7 ≤ minor) {ext : Bool}
    (hext : ext = true ↔ srv.layout.features &&& 1 ≠ 0) {act : Caller → Op → S → Reaction × S} {good : Op → Prop}
    (hgood : ∀ op, good op → op.Arrives minor) (hact : ∀ who op s, good op → srv.act who (op.seenIn minor) s = act who op s)
    {inv : S → Prop} (hb : FuseBehaves act minor ext inv) (n : Nat) :
    Faithful (fuseThreads srv) (fuseWire minor ext) (fuseAct act) (fun r => FuseOk minor ext n r ∧ good r.2)
      (FuseAllows minor) inv n false := by
  have small : ∀ {r : Caller × Op}, FuseOk minor ext n r → 40 + (r.2.requestIn minor ext).2.body.length < 2 ^ 32 :=
    fun hr => Nat.lt_of_le_of_lt (Nat.le_trans hr.2 (Nat.min_le_right _ _)) (by decide)
  have hw := fuse_willing srv hb n
  refine ⟨fun r s hr => hw.behaves r s hr.1, hw.quiet, fun id r hid hr => hw.recv id r hid hr.1, hw.closed, ?_⟩
  · intro id r s hid hr hs net
    obtain ⟨who, op⟩ := r
    obtain ⟨⟨m0, t0, hreach⟩, hmatch⟩ := request_in (checks := srv.checks) (op := op) hm hext hr.1.1 (hgood op hr.2) (small hr.1)
    obtain ⟨hacc, hml, m, t, id', hdr, q, h1, ht, hh, rfl, rfl, hq, hop⟩ :=
      reaches_taken hreach hmatch hid (who := who) (small hr.1) (msg := (fuseWire minor ext).message id (who, op)) rfl
    obtain ⟨⟨b1, b2⟩, b3, b4⟩ := hb _ op s hs hr.1.1
    have hact := hact ⟨hdr.uid, hdr.gid, hdr.pid⟩ op s hr.2
    rw [← op.seenIn_kind (minor := minor)] at b1
    obtain ⟨pre, p1, p2, p3⟩ := announceAll_sends (Net.socket S) (fun m w => { w with replies := w.replies ++ [m] })
      (fun hb w => net_send hb w) (act ⟨hdr.uid, hdr.gid, hdr.pid⟩ op s).2 (act ⟨hdr.uid, hdr.gid, hdr.pid⟩ op s).1.before
      (fun a ha => b3 a (List.mem_append_left _ ha)) net
    obtain ⟨mid, m1, m2, m3⟩ := reply_runs_in (Net.socket S) (fun m w => { w with replies := w.replies ++ [m] })
      (fun hb w => net_send hb w) hm (by omega) (os := srv.os) (haddr (op.seenIn minor)) (id := id') b1 b2
      (s' := (act ⟨hdr.uid, hdr.gid, hdr.pid⟩ op s).2)
      (w := pre.foldl (fun w m => { w with replies := w.replies ++ [m] }) net)
    rw [op.seenIn_kind] at m2 m3
    obtain ⟨post, q1, q2, q3⟩ := announceAll_sends (Net.socket S) (fun m w => { w with replies := w.replies ++ [m] })
      (fun hb w => net_send hb w) (act ⟨hdr.uid, hdr.gid, hdr.pid⟩ op s).2 (act ⟨hdr.uid, hdr.gid, hdr.pid⟩ op s).1.after
      (fun a ha => b3 a (List.mem_append_right _ ha))
      (mid.foldl (fun w m => { w with replies := w.replies ++ [m] })
        (pre.foldl (fun w m => { w with replies := w.replies ++ [m] }) net))
    have hhandle : fuseHandle (srv.handlers (Net.socket S)) ((fuseWire minor ext).message id'.val (⟨hdr.uid, hdr.gid, hdr.pid⟩, op))
        (some s, net) = (some (act ⟨hdr.uid, hdr.gid, hdr.pid⟩ op s).2,
          { net with replies := net.replies ++ (pre ++ (mid ++ post)) }) := by
      refine .trans (b := srv.answer (Net.socket S) t
        ⟨(fuseWire minor ext).message id'.val (⟨hdr.uid, hdr.gid, hdr.pid⟩, op)⟩ s net) ?_ ?_
      · unfold fuseHandle
        rw [h1]
        dsimp only
        unfold NoteServer.handlers
        dsimp only
        rw [ht]
        rfl
      · rw [note_answer_eq srv hh hq hop hact p1 m1, q1, foldl_replies, foldl_replies, foldl_replies]
        simp only [List.append_assoc]
    obtain ⟨i1, a1, a2, a3, a4⟩ := notices_say (R := Caller × Op) (A := Ans) (wire := fuseWire minor ext) rfl p2 p3
    obtain ⟨i2, c1, c2, c3, c4⟩ := notices_say (R := Caller × Op) (A := Ans) (wire := fuseWire minor ext) rfl q2 q3
    have hmid : ∃ items : List (Bytes × Says (Caller × Op) Ans Notice), items.map Prod.fst = mid ∧
        (items.filterMap fun x => x.2.getLeft?) = [] ∧
        (items.filterMap fun x => x.2.getRight?) = (if op.answered then
          [(id'.val, (⟨hdr.uid, hdr.gid, hdr.pid⟩, op), (act ⟨hdr.uid, hdr.gid, hdr.pid⟩ op s).1.ans)] else []) ∧
        ∀ x ∈ items, (fuseWire minor ext).Reads x := by
      rcases m3 with ⟨h, rfl⟩ | ⟨h, x, rfl, hx⟩
      · refine ⟨[], rfl, rfl, ?_, fun _ h => nomatch h⟩
        rw [if_neg fun h' => answered_iff.mp h' h]
        rfl
      · refine ⟨[(x, .inr (id'.val, (⟨hdr.uid, hdr.gid, hdr.pid⟩, op), (act ⟨hdr.uid, hdr.gid, hdr.pid⟩ op s).1.ans))], rfl,
          rfl, ?_, ?_⟩
        · rw [if_pos (answered_iff.mpr h)]
          rfl
        · intro y hy
          rw [List.mem_singleton] at hy
          subst hy
          exact ⟨hid, hx, m2⟩
    obtain ⟨i3, d1, d2, d3, d4⟩ := hmid
    refine ⟨i1 ++ (i3 ++ i2), ?_, ?_, ?_, ?_⟩
    · refine (C25_fuse (srv.handlers (Net.socket S)) _ _ (acceptable_new hacc) (some s, net)).trans (congrArg Except.ok ?_)
      refine hhandle.trans ?_
      rw [List.map_append, List.map_append, a1, c1, d1]
      rfl
    · rw [List.filterMap_append, List.filterMap_append, a2, c2, d2, List.nil_append, ← List.map_append]
      rfl
    · rw [List.filterMap_append, List.filterMap_append, a3, c3, d3, List.nil_append, List.append_nil]
      rfl
    · intro x hx
      rcases List.mem_append.mp hx with hx | hx
      · exact a4 x hx
      · rcases List.mem_append.mp hx with hx | hx
        · exact d4 x hx
        · exact c4 x hx

/-- What a program may ask a device for, in requests of at most `n` bytes. -/
def DeviceOk (n : Nat) (r : Caller × UInt64 × DevOp) : Prop :=
  r.2.2.Ok ∧ 40 + r.2.2.request.body.length ≤ min n 0xFFFFFFFF

/-- POLL names the node. -/
def PollsNode (r : Caller × UInt64 × DevOp) : Prop := ∀ handle events flags, r.2.2 = .poll handle events flags → r.2.1 ≠ 0

/-- What a device may answer. -/
def DeviceAllows (r : Caller × UInt64 × DevOp) (a : Ans) : Prop := r.2.2.kind.Allows a

/-- A device that answers what the protocol can express. -/
def DeviceBehaves {S : Type} (act : Caller → DevOp → S → Ans × S) (inv : S → Prop) : Prop :=
  ∀ who op s, inv s → op.Ok → op.kind.Allows (act who op s).1 ∧ inv (act who op s).2

theorem device_answered {op : DevOp} {who : Caller} {node : UInt64} :
    deviceWire.answered (who, node, op) = true ↔ op.kind ≠ .silent := by
  cases op <;> simp [deviceWire, DevOp.kind]

theorem device_recv {S : Type} {h : Handlers CuseMethod (Option S × Net)} {buf m : Bytes} {ms rs : List Bytes} {s : Option S}
    (ha : Acceptable m) (hl : m.length ≤ buf.length) :
    (cuseService (Net.socket S) h).recv buf (s, ⟨m :: ms, rs⟩) =
      ((.ok (some ⟨m⟩), m ++ buf.drop m.length), (s, ⟨ms, rs⟩)) := by
  have hr : (Net.socket S).recv buf (s, ⟨m :: ms, rs⟩) = ((.ok m.length, m ++ buf.drop m.length), (s, ⟨ms, rs⟩)) :=
    if_pos hl
  have htake : (m ++ buf.drop m.length).take m.length = m := List.take_left
  unfold cuseService
  simp only [cuseRecv, hr, truncateSlice_eq, htake, acceptable_new ha]

theorem device_willing {S : Type} (srv : DevServer S) {inv : S → Prop} (hb : DeviceBehaves srv.act inv) (n : Nat) :
    Willing (deviceThreads srv) deviceWire (deviceAct srv.act) (DeviceOk n) DeviceAllows inv n true := by
  have accepted : ∀ {id : UInt64} {r : Caller × UInt64 × DevOp}, id ≠ 0 → DeviceOk n r →
      Acceptable (deviceWire.message id r) ∧ (deviceWire.message id r).length = 40 + r.2.2.request.body.length := by
    intro id r hid hr
    have hacc := message_acceptable (a := r.2.2.request) (unique := id) (nodeid := r.2.1) (uid := r.1.uid) (gid := r.1.gid)
      (pid := r.1.pid) (padding := 0) (tail := []) hid
      (Nat.lt_of_le_of_lt (Nat.le_trans hr.2 (Nat.min_le_right _ _)) (by decide))
    rw [List.append_nil] at hacc
    exact ⟨hacc, message_length⟩
  refine ⟨?_, ?_, ?_, ?_⟩
  · exact fun r s hr hs => hb r.1 r.2.2 s hs hr.1
  · intro r hr
    have : r.2.2.kind = .silent := by
      refine Decidable.byContradiction fun h => ?_
      rw [show deviceWire.answered r = true from device_answered.mpr h] at hr
      cases hr
    show r.2.2.kind.Allows _
    rw [this]
    rfl
  · intro id r hid hr buf s ms rs hbuf
    obtain ⟨hacc, hml⟩ := accepted hid hr
    have hlen : (deviceWire.message id r).length ≤ buf.length :=
      Nat.le_trans (Nat.le_of_eq hml) (Nat.le_trans hr.2 (Nat.le_trans (Nat.min_le_left _ _) hbuf))
    refine ⟨_, ?_, device_recv hacc hlen⟩
    rw [List.length_append, List.length_drop]
    omega
  · exact fun _ _ _ => rfl

theorem device_faithful {S : Type} (srv : DevServer S) (h9 : 9 ≤ srv.layout.versionMinor) {inv : S → Prop}
    (hb : DeviceBehaves srv.act inv) (n : Nat) :
    Faithful (deviceThreads srv) deviceWire (deviceAct srv.act) (fun r => DeviceOk n r ∧ PollsNode r) DeviceAllows inv n true := by
  have hw := device_willing srv hb n
  refine ⟨fun r s hr => hw.behaves r s hr.1, hw.quiet, fun id r hid hr => hw.recv id r hid hr.1, hw.closed, ?_⟩
  · intro id r s hid hr hs net
    obtain ⟨hacc, _, out, e1, e2, e3⟩ := dev_handles srv (Net.socket S) (fun m w => { w with replies := w.replies ++ [m] })
      (fun hb w => net_send hb w) h9 hid (node := r.2.1) hr.1.1 hr.2
      (Nat.lt_of_le_of_lt (Nat.le_trans hr.1.2 (Nat.min_le_right _ _)) (by decide)) (hb r.1 r.2.2 s hs hr.1.1).1 (w := net) rfl
    rw [foldl_replies] at e1
    have hd := (C25_cuse (srv.handlers (Net.socket S)) _ _ (acceptable_new hacc) (some s, net)).trans (congrArg Except.ok e1)
    rcases e3 with ⟨h, rfl⟩ | ⟨h, m, rfl, hm⟩
    · refine ⟨[], hd, rfl, ?_, fun _ h => nomatch h⟩
      rw [if_neg fun h' => device_answered.mp h' h]
      rfl
    · refine ⟨[(m, .inr (id, r, (srv.act r.1 r.2.2 s).1))], hd, rfl, ?_, ?_⟩
      · rw [if_pos (device_answered.mpr h)]
        rfl
      · intro y hy
        rw [List.mem_singleton] at hy
        subst hy
        exact ⟨hid, hm, e2⟩

/-! ## The theorems -/

/-- Operations take place one at a time, for programs that only make requests that are `ok`, with buffers of `n` bytes or
more. -/
structure Atomic {S R A N : Type} (svc : Service (Option S × Net) Unit) (wire : Wire R A N) (act : R → S → List N × A × S)
    (ok : R → Prop) (allows : R → A → Prop) (inv : S → Prop) (n : Nat) (loud : Bool) : Prop where
  /-- Whatever is seen could have been seen using what is served directly, every operation taking place in one instant
  between its call and its return, and what it announces being announced in that instant.  What is served is in the same
  state.  Threads only report that the connection is closed.  When all threads have returned, all programs have ended,
  everything called for has been done, all answers have been taken, and nothing but announcements is left in the socket. -/
  object : ∀ {α : Type} {s : S}, inv s → ∀ {uses : List (Calls R A α)} {bufs : List Bytes},
    (∀ u ∈ uses, u.Asks ok allows) → (∀ b ∈ bufs, n ≤ b.length) → ∀ {es : List (Visible R A N)} {q : Threaded S R A α},
    Threaded.Run svc wire (.start s bufs uses) es q →
    ∃ o, Object.Run wire.toStyle act (.start s uses) es o ∧ o.clients = q.clients ∧ q.state = some o.state ∧
      (∃ m, m ≤ bufs.length ∧ q.pool.channel = farewell loud m) ∧
      (bufs ≠ [] → q.pool.Returned → (∀ t ∈ o.clients, t.Ended) ∧ o.pending = [] ∧ o.answers = [] ∧
        q.net.replies.map wire.news = o.announced.map some ∧ q.pool.channel = farewell loud bufs.length)
  /-- As long as not all programs have ended and all threads have returned, something can happen. -/
  progress : ∀ {α : Type} {s : S}, inv s → ∀ {uses : List (Calls R A α)} {bufs : List Bytes},
    (∀ u ∈ uses, u.Asks ok allows) → (∀ b ∈ bufs, n ≤ b.length) → bufs ≠ [] → uses.length < 2 ^ 64 - 1 →
    ∀ {es : List (Visible R A N)} {q : Threaded S R A α}, Threaded.Run svc wire (.start s bufs uses) es q →
    (∃ e q', Threaded.Step svc wire e q q') ∨ ((∀ t ∈ q.clients, t.Ended) ∧ q.pool.Returned)
  /-- It cannot go on forever. -/
  ends : ∀ {α : Type} {s : S}, inv s → ∀ {uses : List (Calls R A α)} {bufs : List Bytes},
    (∀ u ∈ uses, u.Asks ok allows) → (∀ b ∈ bufs, n ≤ b.length) → ∀ f : Nat → Threaded S R A α,
    f 0 = .start s bufs uses → ¬ ∀ i, ∃ e, Threaded.Step svc wire e (f i) (f (i + 1))
  /-- When all threads have returned, what is served is as it would be if what has been called for, all of it and each once,
  had been done in some order, one after the other; and what that would announce has been announced, nothing else and
  nothing twice. -/
  order : ∀ {α : Type} {s : S}, inv s → ∀ {uses : List (Calls R A α)} {bufs : List Bytes},
    (∀ u ∈ uses, u.Asks ok allows) → (∀ b ∈ bufs, n ≤ b.length) → bufs ≠ [] →
    ∀ {es : List (Visible R A N)} {q : Threaded S R A α}, Threaded.Run svc wire (.start s bufs uses) es q → q.pool.Returned →
    ∃ l, l.Perm (Visible.calls es) ∧ q.state = some (inTurn act s l).2 ∧
      (Visible.heard es ++ q.net.replies.map wire.news).Perm ((inTurn act s l).1.map some)
  /-- With any number of threads, a program that is alone and waits for its answers gets the result it would get using what
  is served itself. -/
  single : ∀ {α : Type} {s : S}, inv s → ∀ {use : Calls R A α} {bufs : List Bytes}, use.Asks ok allows →
    use.Waits wire.toStyle → (∀ b ∈ bufs, n ≤ b.length) → bufs ≠ [] → ∀ {es : List (Visible R A N)} {q : Threaded S R A α},
    Threaded.Run svc wire (.start s bufs [use]) es q → q.pool.Returned →
    q.clients = [.ready (.done (use.run act s).1)] ∧ q.state = some (use.run act s).2

section
variable {S R A N : Type} {svc : Service (Option S × Net) Unit} {wire : Wire R A N} {act : R → S → List N × A × S}
  {ok ok' : R → Prop} {allows : R → A → Prop} {inv : S → Prop} {n : Nat} {loud : Bool}

theorem Faithful.atomic (hf : Faithful svc wire act ok allows inv n loud) : Atomic svc wire act ok allows inv n loud where
  object hs _ _ hu hb _ _ h := linearizable hf hs hu hb h
  progress hs _ _ hu hb hne hl _ _ h := Many.progress hf hs hu hb hne hl h
  ends hs _ _ hu hb f h := Many.ends hf hs hu hb f h
  order hs _ _ hu hb hne _ _ h hr := Many.order hf hs hu hb hne h hr
  single hs _ _ hu hw hb hne _ _ h hr := Many.single hf hs hu hw hb hne h hr

theorem Faithful.weaken (hf : Faithful svc wire act ok allows inv n loud) (h : ∀ r, ok' r → ok r) :
    Faithful svc wire act ok' allows inv n loud where
  behaves r s hr hs := hf.behaves r s (h r hr) hs
  quiet := hf.quiet
  recv id r hid hr := hf.recv id r hid (h r hr)
  closed := hf.closed
  dispatch id r s hid hr hs := hf.dispatch id r s hid (h r hr) hs

end

/-- C83 for filesystems: all versions from 7.7 on. -/
def FilesystemsAtomic : Prop :=
  ∀ (S : Type) (srv : NoteServer S), (∀ op, srv.addr op % 8 = 0) → 7 ≤ srv.layout.versionMinor.toNat →
    ∀ ext : Bool, (ext = true ↔ srv.layout.features &&& 1 ≠ 0) → ∀ inv : S → Prop,
    FuseBehaves srv.act srv.layout.versionMinor.toNat ext inv → ∀ n : Nat,
    Atomic (fuseThreads srv) (fuseWire srv.layout.versionMinor.toNat ext) (fuseAct srv.act)
      (FuseOk srv.layout.versionMinor.toNat ext n) (FuseAllows srv.layout.versionMinor.toNat) inv n false

/-- C83 for devices: any node ID. -/
def DevicesAtomic : Prop :=
  ∀ (S : Type) (srv : DevServer S), 9 ≤ srv.layout.versionMinor → ∀ inv : S → Prop, DeviceBehaves srv.act inv → ∀ n : Nat,
    Atomic (deviceThreads srv) deviceWire (deviceAct srv.act) (DeviceOk n) DeviceAllows inv n true

end Many

section
open Many

/-- **C83** for filesystems, from version 7.12 on: with notifications, and whatever the number of threads, operations take
place one at a time. -/
theorem C83_fuse {S : Type} (srv : NoteServer S) (haddr : ∀ op, srv.addr op % 8 = 0)
    (h12 : 12 ≤ srv.layout.versionMinor.toNat) (ext : Bool) (hext : ext = true ↔ srv.layout.features &&& 1 ≠ 0)
    (inv : S → Prop) (hb : FuseBehaves srv.act srv.layout.versionMinor.toNat ext inv) (n : Nat) :
    Atomic (fuseThreads srv) (fuseWire srv.layout.versionMinor.toNat ext) (fuseAct srv.act)
      (FuseOk srv.layout.versionMinor.toNat ext n) (FuseAllows srv.layout.versionMinor.toNat) inv n false := by
  refine ((fuse_faithful srv haddr rfl (by omega) hext (good := Op.Arrives srv.layout.versionMinor.toNat) (fun _ h => h)
    (fun _ op _ _ => by rw [op.seenIn_new h12]) hb n).weaken fun r hr => ⟨hr, ?_⟩).atomic
  unfold Op.Arrives
  split
  · exact fun h => by omega
  · trivial

/-- C83 for filesystems as far as it holds for older versions: without WRITE of less than 16 bytes before 7.9, and without a
mode in CREATE before 7.12. -/
theorem C83_fuse_partial {S : Type} (srv : NoteServer S) (haddr : ∀ op, srv.addr op % 8 = 0)
    (h7 : 7 ≤ srv.layout.versionMinor.toNat) (ext : Bool) (hext : ext = true ↔ srv.layout.features &&& 1 ≠ 0)
    (inv : S → Prop) (hb : FuseBehaves srv.act srv.layout.versionMinor.toNat ext inv) (n : Nat) :
    Atomic (fuseThreads srv) (fuseWire srv.layout.versionMinor.toNat ext) (fuseAct srv.act)
      (fun r => FuseOk srv.layout.versionMinor.toNat ext n r ∧ r.2.Understood srv.layout.versionMinor.toNat)
      (FuseAllows srv.layout.versionMinor.toNat) inv n false :=
  (fuse_faithful srv haddr rfl h7 hext (fun _ h => h.arrives.1) (fun _ _ _ h => by rw [h.arrives.2]) hb n).atomic

/-- **C83** for filesystems, exactly: the operations that take place one at a time are those with no mode in CREATE before
7.12.  A WRITE of less than 16 bytes before 7.9 is lost with everything else (`C82_exact_write`). -/
theorem C83_fuse_exact {S : Type} (srv : NoteServer S) (haddr : ∀ op, srv.addr op % 8 = 0)
    (h7 : 7 ≤ srv.layout.versionMinor.toNat) (ext : Bool) (hext : ext = true ↔ srv.layout.features &&& 1 ≠ 0)
    (inv : S → Prop) (hb : FuseBehaves srv.act srv.layout.versionMinor.toNat ext inv) (n : Nat) :
    Atomic (fuseThreads srv) (fuseWire srv.layout.versionMinor.toNat ext)
      (fuseAct fun who op s => srv.act who (op.seenIn srv.layout.versionMinor.toNat) s)
      (fun r => FuseOk srv.layout.versionMinor.toNat ext n r ∧ r.2.Arrives srv.layout.versionMinor.toNat)
      (FuseAllows srv.layout.versionMinor.toNat) inv n false :=
  (fuse_faithful srv haddr rfl h7 hext (good := Op.Arrives srv.layout.versionMinor.toNat) (fun _ h => h)
    (fun _ _ _ _ => rfl) hb.seen n).atomic

/-- C83 for devices as far as it holds: no POLL is sent with node ID 0. -/
theorem C83_device_partial {S : Type} (srv : DevServer S) (h9 : 9 ≤ srv.layout.versionMinor) (inv : S → Prop)
    (hb : DeviceBehaves srv.act inv) (n : Nat) :
    Atomic (deviceThreads srv) deviceWire (deviceAct srv.act) (fun r => DeviceOk n r ∧ PollsNode r) DeviceAllows inv n true :=
  (device_faithful srv h9 hb n).atomic

end

namespace Many

/-! ## Cases -/

/-- Who makes the next step. -/
inductive Turn
  | call (i : Nat) (id : UInt64) (place : Nat)
  | work (j : Nat)
  | ret (i : Nat) (place : Nat)
  | news (place : Nat)

section
variable {S R A N α : Type}

def ended : Party R A α → Bool
  | .ready (.done _) => true
  | _ => false

def closing : Event Unit → Bool
  | .closed => true
  | .error (.recv (.connectionClosed ())) => true
  | _ => false

/-- Making that step. -/
def turn (svc : Service (Option S × Net) Unit) (wire : Wire R A N) (p : Threaded S R A α) :
    Turn → Option (Option (Visible R A N) × Threaded S R A α)
  | .call i id place =>
    match p.clients[i]? with
    | some (.ready (.call r k)) =>
      if id ≠ 0 ∧ id ∉ (p.clients.filterMap Party.ticket).map Prod.fst then
        some (some (.call i id r), p.withNet { p.net with
          queue := p.net.queue.take place ++ wire.message id r :: p.net.queue.drop place } (p.clients.set i (wire.called r id k)))
      else none
    | _ => none
  | .work j =>
    match p.pool.workers[j]? with
    | some w =>
      match workerStep svc p.pool.capacity p.pool.channel p.pool.world w with
      | some (e, w', channel, s) =>
        if closing e → p.clients.all ended then
          some (none, { p with pool := ⟨s, p.pool.workers.set j w', channel, p.pool.capacity⟩ })
        else none
      | none => none
    | none => none
  | .ret i place =>
    match p.clients[i]?, p.net.replies[place]? with
    | some (.waiting id r k), some m =>
      if u64At m 8 = id.toNat then
        some (some (.ret i id (wire.hear r id m)), p.withNet { p.net with
          replies := p.net.replies.take place ++ p.net.replies.drop (place + 1) } (p.clients.set i (.ready (k (wire.hear r id m)))))
      else none
    | _, _ => none
  | .news place =>
    match p.net.replies[place]? with
    | some m =>
      if u64At m 8 = 0 then
        some (some (.news (wire.news m)), p.withNet { p.net with
          replies := p.net.replies.take place ++ p.net.replies.drop (place + 1) } p.clients)
      else none
    | none => none

theorem ended_iff {t : Party R A α} (h : ended t = true) : t.Ended := by
  unfold ended at h
  split at h
  · trivial
  · cases h

theorem turn_sound {svc : Service (Option S × Net) Unit} {wire : Wire R A N} {p q : Threaded S R A α} {t : Turn}
    {e : Option (Visible R A N)} (h : turn svc wire p t = some (e, q)) : Threaded.Step svc wire e p q := by
  unfold turn at h
  split at h
  · split at h
    · split at h
      · rename_i h1 h2
        cases h
        exact .call h1 h2.1 h2.2 (List.take_append_drop _ _).symm
      · cases h
    · cases h
  · split at h
    · rename_i h1
      split at h
      · rename_i h2
        split at h
        · rename_i h3
          cases h
          refine .work (.mk h1 h2) fun hc t ht => ended_iff (List.all_eq_true.mp (h3 ?_) t ht)
          rcases hc with rfl | rfl <;> rfl
        · cases h
      · cases h
    · cases h
  · split at h
    · rename_i h1 h2
      split at h
      · rename_i h3
        cases h
        refine .ret h1 ?_ h3
        obtain ⟨hl, h2⟩ := List.getElem?_eq_some_iff.mp h2
        rw [← h2, List.getElem_cons_drop, List.take_append_drop]
      · cases h
    · cases h
  · split at h
    · rename_i h2
      split at h
      · rename_i h3
        cases h
        refine .news ?_ h3
        obtain ⟨hl, h2⟩ := List.getElem?_eq_some_iff.mp h2
        rw [← h2, List.getElem_cons_drop, List.take_append_drop]
      · cases h
    · cases h

/-- Making several steps. -/
def turns (svc : Service (Option S × Net) Unit) (wire : Wire R A N) (es : List (Visible R A N)) (p : Threaded S R A α) :
    List Turn → Option (List (Visible R A N) × Threaded S R A α)
  | [] => some (es, p)
  | t :: ts =>
    match turn svc wire p t with
    | some (e, p) => turns svc wire (es ++ e.toList) p ts
    | none => none

theorem turns_sound {svc : Service (Option S × Net) Unit} {wire : Wire R A N} {ts : List Turn} {p q r : Threaded S R A α}
    {es es' : List (Visible R A N)} (hp : Threaded.Run svc wire r es p) (h : turns svc wire es p ts = some (es', q)) :
    Threaded.Run svc wire r es' q := by
  induction ts generalizing p es with
  | nil => cases h; exact hp
  | cons t ts ih =>
    unfold turns at h
    split at h
    · rename_i h1
      exact ih (hp.step (turn_sound h1)) h
    · cases h

def result : Party R A α → Option α
  | .ready (.done a) => some a
  | _ => none

def finished {ε : Type} : Worker ε → Bool
  | .finished => true
  | _ => false

/-- What has become of it: what has been called for and what has been announced, the results, the state, which threads have
returned, how many errors have been reported. -/
structure Seen (S R N α : Type) where
  calls : List R
  heard : List (Option N)
  results : List (Option α)
  state : Option S
  returned : List Bool
  errors : Nat
deriving DecidableEq

def seen (x : Option (List (Visible R A N) × Threaded S R A α)) : Option (Seen S R N α) :=
  x.map fun (es, p) =>
    ⟨Visible.calls es, Visible.heard es, p.clients.map result, p.state, p.pool.workers.map finished, p.pool.channel.length⟩

end

open Rpc (alice bob root notFound)

/-- Something that is only ever added to, and tells so. -/
def Journal (who : Caller) (op : Op) (s : Bytes) : Reaction × Bytes :=
  ({ ans := (Rpc.Journal who op s).1,
     before := match op with
       | .forget _ => [.poll 9]
       | _ => [],
     after := match op with
       | .write _ _ _ data _ _ _ => [.invalidateInode root (some (.ofNat s.length)) none, .poll (.ofNat data.length)]
       | _ => [] }, (Rpc.Journal who op s).2)

theorem journal_behaves (minor : Nat) (ext : Bool) : FuseBehaves Journal minor ext fun _ => True := by
  intro who op s _ ho
  refine ⟨⟨(Rpc.journal_behaves ext who op s trivial ho.1).1, ?_⟩, ?_, trivial⟩
  · unfold Journal Rpc.Journal
    dsimp only
    split <;> trivial
  · intro a ha
    unfold Journal at ha
    dsimp only at ha
    rcases List.mem_append.mp ha with h | h <;> split at h
    all_goals simp only [List.mem_cons, List.not_mem_nil, or_false] at h
    · subst h; decide
    · rcases h with rfl | rfl
      · show 40 < 2 ^ 32; decide
      · show 24 < 2 ^ 32; decide

def journal (minor : UInt16) : NoteServer Bytes := ⟨Journal, ⟨minor, 0⟩, true, .linux, fun _ => 0x1000⟩

/-- Adds something, and looks. -/
def adds (who : Caller) (data : Bytes) : Calls (Caller × Op) Ans Bytes :=
  .call (who, .write root 0 0 data 0 none 0) fun _ =>
  .call (who, .read root 0 0 100 none 0) fun
    | .data b => .done b
    | _ => .done []

def both : Threaded Bytes (Caller × Op) Ans Bytes :=
  .start [] [List.replicate 100 0, List.replicate 100 0] [adds alice [1], adds bob [2, 3]]

/-- The second thread handles the second request while the first has been received by the first thread; announcements are
heard late, and not in the order in which they were sent; one is never heard. -/
def schedule : List Turn :=
  [.call 0 5 0, .call 1 6 1, .work 0, .work 1, .work 1, .work 0, .news 5, .ret 0 3, .news 1, .ret 1 0, .call 1 5 0, .call 0 6 0,
    .work 1, .work 1, .work 0, .work 0, .ret 0 2, .ret 1 2, .work 0, .news 0, .work 1]

example : seen (turns (fuseThreads (journal 31)) (fuseWire 31 false) [] both schedule) = some
    ⟨[(alice, .write root 0 0 [1] 0 none 0), (bob, .write root 0 0 [2, 3] 0 none 0), (bob, .read root 0 0 100 none 0),
      (alice, .read root 0 0 100 none 0)], [some (.poll 1), some (.invalInode 1 0 0), some (.poll 2)],
      [some [2, 3, 1], some [2, 3, 1]], some [2, 3, 1], [true, true], 0⟩ := by decide +kernel

theorem adds_asks (who : Caller) (data : Bytes) (h : data.length ≤ 20) :
    (adds who data).Asks (FuseOk 31 false 100) (FuseAllows 31) := by
  refine ⟨⟨⟨?_, ?_⟩, ?_⟩, fun a _ => ⟨⟨⟨trivial, ?_⟩, ?_⟩, fun a _ => ?_⟩⟩
  · show _ ↔ _
    decide
  · exact fun h => absurd h (by decide)
  · show 40 + (ClientReq.body _).length ≤ _
    simp only [Op.requestIn, Op.request, ClientReq.body, List.length_append, if_neg (show ¬ 31 < 9 by decide)]
    have : (layout_fuse_write_in { size := UInt32.ofNat data.length, lock_owner := (none : Option UInt64).getD 0 }).length = 40 :=
      rfl
    omega
  · exact fun h => absurd h (by decide)
  · show 40 + List.length (ClientReq.body (.read ..)) ≤ _
    exact (by decide : 40 + 40 ≤ min 100 0xFFFFFFFF)
  · cases a <;> trivial

theorem both_asks : ∀ u ∈ [adds alice [1], adds bob [2, 3]], u.Asks (FuseOk 31 false 100) (FuseAllows 31) := by
  intro u hu
  simp only [List.mem_cons, List.not_mem_nil, or_false] at hu
  rcases hu with rfl | rfl <;> exact adds_asks _ _ (by decide)

theorem journal_atomic : Atomic (fuseThreads (journal 31)) (fuseWire 31 false) (fuseAct Journal) (FuseOk 31 false 100)
    (FuseAllows 31) (fun _ => True) 100 false :=
  C83_fuse (journal 31) (fun _ => (by decide : 0x1000 % 8 = 0)) (by decide) false (by decide) _ (journal_behaves _ _) 100

/-- C83_fuse for that run: it could have been seen using the journal directly, and at the end something has not been heard. -/
example : ∃ es q o, turns (fuseThreads (journal 31)) (fuseWire 31 false) [] both schedule = some (es, q) ∧
    Object.Run (fuseWire 31 false).toStyle (fuseAct Journal) (.start [] [adds alice [1], adds bob [2, 3]]) es o ∧
    o.state = [2, 3, 1] ∧ q.net.replies.map readNotice = [some (.invalInode 1 2 0)] := by
  have hd : ((turns (fuseThreads (journal 31)) (fuseWire 31 false) [] both schedule).map fun x =>
      (x.2.state, x.2.net.replies.map readNotice)) = some (some [2, 3, 1], [some (.invalInode 1 2 0)]) := by decide +kernel
  obtain ⟨⟨es, q⟩, h1, h2⟩ := Option.map_eq_some_iff.mp hd
  obtain ⟨h2, h3⟩ := Prod.mk.inj h2
  obtain ⟨o, ho, _, hs, _⟩ := journal_atomic.object trivial both_asks (by decide) (turns_sound .start h1)
  exact ⟨es, q, o, h1, ho, Option.some.inj (hs.symm.trans h2), h3⟩

/-- And for all runs with these programs: the announcements are those of the writes, in one order or the other. -/
example {es : List (Visible (Caller × Op) Ans Notice)} {q : Threaded Bytes (Caller × Op) Ans Bytes}
    (h : Threaded.Run (fuseThreads (journal 31)) (fuseWire 31 false) both es q) (hr : q.pool.Returned) :
    ∃ l, l.Perm (Visible.calls es) ∧ q.state = some (inTurn (fuseAct Journal) [] l).2 ∧
      (Visible.heard es ++ q.net.replies.map readNotice).Perm ((inTurn (fuseAct Journal) [] l).1.map some) :=
  journal_atomic.order trivial both_asks (by decide) (by simp) h hr

example (f : Nat → Threaded Bytes (Caller × Op) Ans Bytes) (h : f 0 = both) :
    ¬ ∀ i, ∃ e, Threaded.Step (fuseThreads (journal 31)) (fuseWire 31 false) e (f i) (f (i + 1)) :=
  journal_atomic.ends trivial both_asks (by decide) f h

example {es : List (Visible (Caller × Op) Ans Notice)} {q : Threaded Bytes (Caller × Op) Ans Bytes}
    (h : Threaded.Run (fuseThreads (journal 31)) (fuseWire 31 false) (.start [9] (List.replicate 3 (List.replicate 100 0))
      [adds alice [1]]) es q) (hr : q.pool.Returned) :
    q.clients = [.ready (.done [9, 1])] ∧ q.state = some [9, 1] :=
  journal_atomic.single trivial (adds_asks _ _ (by decide))
    ⟨rfl, fun a => ⟨rfl, fun a => by cases a <;> trivial⟩⟩ (by decide) (by simp) h hr

/-- An announcement with nobody waiting for an answer: FORGET is not answered. -/
example : seen (turns (fuseThreads (journal 8)) (fuseWire 8 false) []
      (.start [] [List.replicate 100 0] [Calls.call (alice, Op.forget [(root, 1)]) fun _ => .done ()])
      [.call 0 5 0, .work 0, .work 0, .work 0, .news 0]) =
    some ⟨[(alice, .forget [(root, 1)])], [some (.poll 9)], [some ()], some [0], [true], 0⟩ := by decide +kernel

/-- A reply is not taken for an announcement, nor an announcement for a reply, and a thread does not return while programs
are running. -/
example : (turns (fuseThreads (journal 31)) (fuseWire 31 false) [] both [.call 0 5 0, .work 0, .work 0, .news 0]).isNone ∧
    (turns (fuseThreads (journal 31)) (fuseWire 31 false) [] both [.call 0 5 0, .work 0, .work 0, .ret 0 1]).isNone ∧
    (turns (fuseThreads (journal 31)) (fuseWire 31 false) [] both [.work 0]).isNone := by decide +kernel

/-! ### Older clients -/

/-- Remembers what it is asked; there is nothing else to it. -/
def Nothing (who : Caller) (op : Op) (s : List (Caller × Op)) : Reaction × List (Caller × Op) :=
  ({ ans := if op.answered then .error notFound else .silent }, s ++ [(who, op)])

theorem nothing_behaves (minor : Nat) (ext : Bool) : FuseBehaves Nothing minor ext fun _ => True := by
  intro who op s _ _
  unfold Nothing
  refine ⟨?_, (fun _ h => nomatch h), trivial⟩
  dsimp only
  split
  · rename_i h
    refine ⟨?_, trivial⟩
    have := answered_iff.mp h
    generalize op.kind = k at this
    cases k <;> first | trivial | exact absurd rfl this
  · rename_i h
    refine ⟨?_, trivial⟩
    have : op.kind = .silent := Decidable.byContradiction fun h' => h (answered_iff.mpr h')
    rw [this]
    rfl

def nothing (minor : UInt16) : NoteServer (List (Caller × Op)) := ⟨Nothing, ⟨minor, 0⟩, true, .linux, fun _ => 0x1000⟩

/-- Does one thing. -/
def once {R A : Type} (r : R) : Calls R A A := .call r .done

/-- C83_fuse_partial, version 7.8: a program that reads and looks, whatever the threads do. -/
example {es : List (Visible (Caller × Op) Ans Notice)} {q : Threaded (List (Caller × Op)) (Caller × Op) Ans Ans}
    (h : Threaded.Run (fuseThreads (nothing 8)) (fuseWire 8 false) (.start [] (List.replicate 3 (List.replicate 100 0))
      [once (alice, .read root 1 2 3 none 0)]) es q) (hr : q.pool.Returned) :
    q.clients = [.ready (.done (.error notFound))] ∧ q.state = some [(alice, .read root 1 2 3 none 0)] :=
  (C83_fuse_partial (nothing 8) (fun _ => (by decide : 0x1000 % 8 = 0)) (by decide) false (by decide) _
    (nothing_behaves _ _) 100).single (use := once (alice, .read root 1 2 3 none 0)) trivial
    ⟨⟨⟨⟨trivial, fun _ => ⟨rfl, rfl⟩⟩, by show 40 + _ ≤ _; decide⟩, trivial⟩, fun _ _ => trivial⟩
    ⟨rfl, fun _ => trivial⟩ (by decide) (by simp) h hr

/-- C83_fuse_exact, version 7.11: a program that creates, whatever the threads do. -/
example {es : List (Visible (Caller × Op) Ans Notice)} {q : Threaded (List (Caller × Op)) (Caller × Op) Ans Ans}
    (h : Threaded.Run (fuseThreads (nothing 11)) (fuseWire 11 false) (.start [] (List.replicate 3 (List.replicate 100 0))
      [once (alice, .create root [0x61] 1 0 0o644 0)]) es q) (hr : q.pool.Returned) :
    q.clients = [.ready (.done (.error notFound))] ∧ q.state = some [(alice, .create root [0x61] 1 0 0 0)] :=
  (C83_fuse_exact (nothing 11) (fun _ => (by decide : 0x1000 % 8 = 0)) (by decide) false (by decide) _
    (nothing_behaves _ _) 100).single (use := once (alice, .create root [0x61] 1 0 0o644 0)) trivial
    ⟨⟨⟨⟨(by decide : Op.Ok false (.create root [0x61] 1 0 0o644 0)), fun _ => ⟨rfl, rfl⟩⟩, by show 40 + _ ≤ _; decide⟩, trivial⟩, fun _ _ => trivial⟩
    ⟨rfl, fun _ => trivial⟩ (by decide) (by simp) h hr

/-- CREATE in version 7.11, by running the model: the mode is lost. -/
theorem create_run : seen (turns (fuseThreads (nothing 11)) (fuseWire 11 false) []
      (.start [] [List.replicate 100 0] [once (alice, .create root [0x61] 1 0 0o644 0)])
      [.call 0 5 0, .work 0, .work 0, .ret 0 0, .work 0]) =
    some ⟨[(alice, .create root [0x61] 1 0 0o644 0)], [], [some (.error notFound)],
      some [(alice, .create root [0x61] 1 0 0 0)], [true], 0⟩ := by decide +kernel

/-! ### Devices -/

/-- A pipe. -/
def Pipe (_ : Caller) (op : DevOp) (s : Bytes) : Ans × Bytes :=
  match op with
  | .write _ _ data _ _ _ => (.written (.ofNat data.length), s ++ data)
  | .read _ _ size _ _ => (.data (s.take (min size.toNat 4096)), s.drop (min size.toNat 4096))
  | .poll _ events _ => (.polled (if s = [] then events &&& 4 else events), s)
  | .interrupt _ => (.silent, [])
  | _ => (.error notFound, s)

theorem pipe_behaves : DeviceBehaves Pipe fun _ => True := by
  intro who op s _ _
  refine ⟨?_, trivial⟩
  cases op with
  | read =>
    show _ ∧ _
    simp only [List.length_take]
    omega
  | interrupt => rfl
  | _ => trivial

def pipe : DevServer Bytes := ⟨Pipe, ⟨31⟩⟩

/-- Writes, and reads as much. -/
def echoes (who : Caller) (data : Bytes) : Calls (Caller × UInt64 × DevOp) Ans Ans :=
  .call (who, 0, .write 0 0 data 0 none 0) fun _ => .call (who, 0, .read 0 0 (.ofNat data.length) none 0) .done

/-- Two programs and two threads, by running the model: each reads what the other has written, and each thread reports that
the connection is closed. -/
example : seen (turns (deviceThreads pipe) deviceWire []
      (.start [] [List.replicate 100 0, List.replicate 100 0] [echoes alice [1], echoes bob [2]])
      [.call 0 5 0, .call 1 6 0, .work 0, .work 1, .work 0, .work 1, .ret 0 1, .ret 1 0, .call 0 5 0, .call 1 6 1, .work 1, .work 1,
        .work 0, .work 0, .ret 1 1, .ret 0 0, .work 1, .work 0, .work 0, .work 1]) =
    some ⟨[(alice, 0, .write 0 0 [1] 0 none 0), (bob, 0, .write 0 0 [2] 0 none 0), (alice, 0, .read 0 0 1 none 0),
      (bob, 0, .read 0 0 1 none 0)], [], [some (.data [2]), some (.data [1])], some [], [true, true], 2⟩ := by decide +kernel

theorem echoes_asks (who : Caller) (data : Bytes) (h : data.length ≤ 20) :
    (echoes who data).Asks (fun r => DeviceOk 100 r ∧ PollsNode r) DeviceAllows := by
  refine ⟨⟨⟨?_, ?_⟩, (fun _ _ _ h => nomatch h)⟩, fun _ _ => ⟨⟨⟨trivial, ?_⟩, (fun _ _ _ h => nomatch h)⟩, fun _ _ => trivial⟩⟩
  · show _ ↔ _
    decide
  · show 40 + (ClientReq.body _).length ≤ _
    simp only [DevOp.request, ClientReq.body, List.length_append]
    have : (layout_fuse_write_in { size := UInt32.ofNat data.length, lock_owner := (none : Option UInt64).getD 0 }).length = 40 :=
      rfl
    omega
  · show 40 + List.length (ClientReq.body (.read ..)) ≤ _
    exact (by decide : 40 + 40 ≤ min 100 0xFFFFFFFF)

theorem pipe_atomic : Atomic (deviceThreads pipe) deviceWire (deviceAct Pipe) (fun r => DeviceOk 100 r ∧ PollsNode r)
    DeviceAllows (fun _ => True) 100 true :=
  C83_device_partial pipe (by decide) _ pipe_behaves 100

theorem echoers_ask : ∀ u ∈ [echoes alice [1], echoes bob [2]], u.Asks (fun r => DeviceOk 100 r ∧ PollsNode r) DeviceAllows := by
  intro u hu
  simp only [List.mem_cons, List.not_mem_nil, or_false] at hu
  rcases hu with rfl | rfl <;> exact echoes_asks _ _ (by decide)

/-- C83_device_partial for all runs with these programs: at the end the pipe is as after the operations one after another, in
some order; and both threads have reported the end of the connection. -/
example {es : List (Visible (Caller × UInt64 × DevOp) Ans Empty)} {q : Threaded Bytes (Caller × UInt64 × DevOp) Ans Ans}
    (h : Threaded.Run (deviceThreads pipe) deviceWire
      (.start [] [List.replicate 100 0, List.replicate 100 0] [echoes alice [1], echoes bob [2]]) es q) (hr : q.pool.Returned) :
    (∃ l, l.Perm (Visible.calls es) ∧ q.state = some (inTurn (deviceAct Pipe) [] l).2) ∧
      q.pool.channel = [.recv (.connectionClosed ()), .recv (.connectionClosed ())] := by
  obtain ⟨l, h1, h2, _⟩ := pipe_atomic.order trivial echoers_ask (by decide) (by simp) h hr
  obtain ⟨o, _, _, _, _, h3⟩ := pipe_atomic.object trivial echoers_ask (by decide) h
  exact ⟨⟨l, h1, h2⟩, (h3 (by simp) hr).2.2.2.2⟩

/-- POLL with node ID 0, by running the model: the pipe never sees it. -/
theorem poll_run : seen (turns (deviceThreads pipe) deviceWire []
      (.start [7] [List.replicate 100 0] [once (alice, 0, .poll 1 2 3)]) [.call 0 5 0, .work 0, .work 0]) =
    some ⟨[(alice, 0, .poll 1 2 3)], [], [none], none, [false], 0⟩ := by decide +kernel

/-- With node ID 1 it does. -/
example : seen (turns (deviceThreads pipe) deviceWire []
      (.start [7] [List.replicate 100 0] [once (alice, 1, .poll 1 2 3)])
      [.call 0 5 0, .work 0, .work 0, .ret 0 0, .work 0, .work 0]) =
    some ⟨[(alice, 1, .poll 1 2 3)], [], [some (.polled 2)], some [7], [true], 1⟩ := by decide +kernel

end Many

section
open Many
open Rpc (alice root)

/-! ### The violations -/

/-- C83 does not hold for filesystems in version 7.11: the mode in CREATE is lost. -/
theorem C83_fuse_violated : ¬ FilesystemsAtomic := by
  intro h
  have hat := h _ (nothing 11) (fun _ => (by decide : 0x1000 % 8 = 0)) (by decide) false (by decide) (fun _ => True)
    (nothing_behaves _ _) 100
  have hd : ((turns (fuseThreads (nothing 11)) (fuseWire 11 false) []
      (.start [] [List.replicate 100 0] [once (alice, .create root [0x61] 1 0 0o644 0)])
      [.call 0 5 0, .work 0, .work 0, .ret 0 0, .work 0]).map fun x => (x.2.state, x.2.pool.workers.map finished)) =
      some (some [(alice, .create root [0x61] 1 0 0 0)], [true]) := by decide +kernel
  obtain ⟨⟨es, q⟩, h1, h2⟩ := Option.map_eq_some_iff.mp hd
  obtain ⟨h2, h3⟩ := Prod.mk.inj h2
  have hr : q.pool.Returned := by
    intro w hw
    have : finished w ∈ [true] := h3 ▸ List.mem_map.mpr ⟨w, hw, rfl⟩
    rw [List.mem_singleton] at this
    cases w <;> first | rfl | cases this
  have := (hat.single (use := once (alice, .create root [0x61] 1 0 0o644 0)) trivial
    ⟨⟨⟨by show _ ∧ _; decide +kernel, fun _ => ⟨rfl, rfl⟩⟩, by show 40 + _ ≤ _; decide⟩, fun _ _ => trivial⟩
    ⟨rfl, fun _ => trivial⟩ (by decide) (by simp) (turns_sound .start h1) hr).2
  exact absurd (h2.symm.trans this) (by decide)

/-- C83 does not hold for devices: POLL, as Linux sends it, with node ID 0, never gets there. -/
theorem C83_device_violated : ¬ DevicesAtomic := by
  intro h
  have hat := h _ pipe (by decide) (fun _ => True) pipe_behaves 100
  have hd : ((turns (deviceThreads pipe) deviceWire []
      (.start [7] [List.replicate 100 0] [once (alice, 0, .poll 1 2 3)]) [.call 0 5 0, .work 0, .work 0]).map fun x =>
        x.2.state) = some none := by decide +kernel
  obtain ⟨⟨es, q⟩, h1, h2⟩ := Option.map_eq_some_iff.mp hd
  obtain ⟨o, _, _, h3, _⟩ := hat.object (uses := [once (alice, 0, .poll 1 2 3)]) trivial
    (fun u hu => by
      rw [List.mem_singleton] at hu
      subst hu
      exact ⟨⟨trivial, by show 40 + _ ≤ _; decide⟩, fun _ _ => trivial⟩) (by decide) (turns_sound .start h1)
  exact absurd (h2.symm.trans h3) (by simp)

end

end Fuse
