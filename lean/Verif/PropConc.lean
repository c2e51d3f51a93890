import Verif.Conc
import Verif.PropRpc

/-!
# C79: threads keep operations atomic

Programs that use a filesystem at the same time through the threads of `serve_fuse` see what they could have seen using it
directly, each operation taking place in one instant between its call and its return.
-/

namespace Fuse
open Spec

namespace Spec

/-- The program only asks what the protocol can express, in requests of at most `n` bytes, whatever it is answered. -/
def Use.Asks {α : Type} (ext : Bool) (n : Nat) : Use α → Prop
  | .done _ => True
  | .call _ op k => op.Ok ext ∧ 40 + (op.request ext).2.body.length ≤ min n 0xFFFFFFFF ∧
    ∀ a, op.kind.Allows a → (k a).Asks ext n

/-- The same for a program that waits. -/
def Party.Asks {α : Type} (ext : Bool) (n : Nat) : Party α → Prop
  | .ready use => use.Asks ext n
  | .waiting _ op k => ∀ a, op.kind.Allows a → (k a).Asks ext n

/-- What is waited for. -/
def Object.tickets {S α : Type} (o : Object S α) : List (UInt64 × Op) :=
  (o.pending.filterMap fun t => if t.2.2.answered then some (t.1, t.2.2) else none) ++ o.answers.map fun t => (t.1, t.2.1)

/-- The filesystem answers what the protocol can express, as long as its state is as it should be, and it stays so. -/
def Behaves {S : Type} (act : Caller → Op → S → Ans × S) (ext : Bool) (inv : S → Prop) : Prop :=
  ∀ who op s, inv s → op.Ok ext → op.kind.Allows (act who op s).1 ∧ inv (act who op s).2

/-- The program waits for the answer to everything it calls for. -/
def Use.Waits {α : Type} : Use α → Prop
  | .done _ => True
  | .call _ op k => op.kind ≠ .silent ∧ ∀ a, (k a).Waits

/-- What has been called for. -/
def Visible.calls : List Visible → List (Caller × Op)
  | [] => []
  | .call _ _ who op :: es => (who, op) :: calls es
  | .ret .. :: es => calls es

/-- The state after these operations, one after the other. -/
def inTurn {S : Type} (act : Caller → Op → S → Ans × S) (s : S) : List (Caller × Op) → S
  | [] => s
  | (who, op) :: l => inTurn act (act who op s).2 l

end Spec

/-! ## Direct use -/

theorem set_split {α : Type} {l : List α} {i : Nat} {x : α} (h : l[i]? = some x) :
    ∃ p q, l = p ++ x :: q ∧ ∀ y, l.set i y = p ++ y :: q := by
  induction l generalizing i with
  | nil => simp at h
  | cons a l ih =>
    cases i with
    | zero =>
      simp only [List.getElem?_cons_zero, Option.some.injEq] at h
      subst h
      exact ⟨[], l, rfl, fun _ => rfl⟩
    | succ i =>
      rw [List.getElem?_cons_succ] at h
      obtain ⟨p, q, h1, h2⟩ := ih h
      exact ⟨a :: p, q, by rw [h1]; rfl, fun y => by rw [List.set_cons_succ, h2]; rfl⟩

section
variable {S α : Type} {act : Caller → Op → S → Ans × S} {ext : Bool} {n : Nat} {inv : S → Prop}

/-- What holds of programs that use a filesystem directly. -/
structure Spec.Object.Good (ext : Bool) (n : Nat) (inv : S → Prop) (o : Object S α) : Prop where
  fs : inv o.fs
  tickets : o.tickets.Perm (o.clients.filterMap Party.ticket)
  nodup : ((o.clients.filterMap Party.ticket).map Prod.fst).Nodup
  clients : ∀ t ∈ o.clients, t.Asks ext n
  pending : ∀ t ∈ o.pending, t.1 ≠ 0 ∧ t.2.2.Ok ext ∧ 40 + (t.2.2.request ext).2.body.length ≤ min n 0xFFFFFFFF
  answers : ∀ t ∈ o.answers, t.2.1.kind.Allows t.2.2

theorem answered_iff {op : Op} : op.answered = true ↔ op.kind ≠ .silent := by
  unfold Op.answered
  generalize op.kind = k
  cases k <;> simp

theorem ticket_called {op : Op} {id : UInt64} {k : Ans → Use α} :
    (op.called id k).ticket = if op.answered then some (id, op) else none := by
  unfold Op.called
  split <;> rfl

theorem good_start {s : S} (hs : inv s) {uses : List (Use α)} (hu : ∀ u ∈ uses, u.Asks ext n) :
    (Object.start s uses).Good ext n inv := by
  have h : ((uses.map Party.ready).filterMap Party.ticket) = ([] : List (UInt64 × Op)) := by
    induction uses with
    | nil => rfl
    | cons u us ih => exact ih fun v hv => hu v (List.mem_cons_of_mem _ hv)
  refine ⟨hs, ?_, ?_, ?_, (fun _ h => nomatch h), (fun _ h => nomatch h)⟩
  · show List.Perm [] ((uses.map Party.ready).filterMap Party.ticket)
    rw [h]
  · show (((uses.map Party.ready).filterMap Party.ticket).map Prod.fst).Nodup
    rw [h]
    exact List.nodup_nil
  · intro t ht
    obtain ⟨u, hu', rfl⟩ := List.mem_map.mp ht
    exact hu u hu'

theorem good_step (hb : Behaves act ext inv) {e : Option Visible} {o o' : Object S α} (hg : o.Good ext n inv)
    (h : Object.Step act e o o') : o'.Good ext n inv := by
  obtain ⟨fs, clients, pending, answers⟩ := o
  obtain ⟨h1, h2, h3, h4, h5, h6⟩ := hg
  cases h with
  | @call _ i id who op k p q hc hid hn hp =>
    dsimp only at hc hn hp h1 h2 h3 h4 h5 h6 ⊢
    obtain ⟨a, b, rfl, hset⟩ := set_split hc
    rw [hset]
    subst hp
    have hask := h4 _ (List.mem_append_right _ (List.mem_cons_self ..))
    obtain ⟨k1, k2, k3⟩ := hask
    refine ⟨h1, ?_, ?_, ?_, ?_, h6⟩
    · unfold Object.tickets at h2 ⊢
      simp only [List.filterMap_append, List.filterMap_cons, ticket_called] at h2 ⊢
      cases hop : op.answered
      · simpa [hop, Party.ticket] using h2
      · simp only [Party.ticket, if_true] at h2 ⊢
        refine (List.perm_middle.append_right _).trans (.trans ?_ List.perm_middle.symm)
        exact List.Perm.cons _ h2
    · simp only [List.filterMap_append, List.filterMap_cons, ticket_called] at h3 hn ⊢
      cases hop : op.answered
      · simpa [hop, Party.ticket] using h3
      · simp only [Party.ticket, if_true] at h3 hn ⊢
        rw [List.map_append, List.map_cons]
        refine (List.perm_middle.nodup_iff).mpr (List.nodup_cons.mpr ⟨?_, ?_⟩)
        · rwa [List.map_append] at hn
        · rwa [List.map_append] at h3
    · intro t ht
      rcases List.mem_append.mp ht with ht | ht
      · exact h4 _ (List.mem_append_left _ ht)
      · rcases List.mem_cons.mp ht with rfl | ht
        · unfold Op.called
          split
          · exact k3
          · rename_i hop
            have : op.kind = .silent := by
              by_cases hk : op.kind = .silent
              · exact hk
              · exact absurd (answered_iff.mpr hk) hop
            exact k3 _ (by rw [this]; rfl)
        · exact h4 _ (List.mem_append_right _ (List.mem_cons_of_mem _ ht))
    · intro t ht
      rcases List.mem_append.mp ht with ht | ht
      · exact h5 _ (List.mem_append_left _ ht)
      · rcases List.mem_cons.mp ht with rfl | ht
        · exact ⟨hid, k1, k2⟩
        · exact h5 _ (List.mem_append_right _ ht)
  | @perform _ id who op p q hp =>
    dsimp only at hp h1 h2 h3 h4 h5 h6 ⊢
    subst hp
    obtain ⟨k1, k2, k3⟩ := h5 _ (List.mem_append_right _ (List.mem_cons_self ..))
    obtain ⟨b1, b2⟩ := hb who op fs h1 k2
    refine ⟨b2, ?_, h3, h4, ?_, ?_⟩
    · refine .trans ?_ h2
      unfold Object.tickets
      simp only [List.filterMap_append, List.filterMap_cons]
      cases hop : op.answered
      · simp
      · simp only [if_true, List.map_append, List.map_cons, List.map_nil]
        refine .trans ?_ (List.perm_middle.append_right _).symm
        rw [← List.append_assoc]
        exact List.perm_append_comm
    · intro t ht
      refine h5 _ ?_
      rcases List.mem_append.mp ht with ht | ht
      · exact List.mem_append_left _ ht
      · exact List.mem_append_right _ (List.mem_cons_of_mem _ ht)
    · intro t ht
      rcases List.mem_append.mp ht with ht | ht
      · exact h6 _ ht
      · split at ht
        · rw [List.mem_singleton] at ht
          subst ht
          exact b1
        · cases ht
  | @ret _ i id op k a p q hc ha =>
    dsimp only at hc ha h1 h2 h3 h4 h5 h6 ⊢
    obtain ⟨c, d, rfl, hset⟩ := set_split hc
    rw [hset]
    subst ha
    have hask := h4 _ (List.mem_append_right _ (List.mem_cons_self ..))
    refine ⟨h1, ?_, ?_, ?_, h5, ?_⟩
    · unfold Object.tickets at h2 ⊢
      simp only [List.filterMap_append, List.filterMap_cons, List.map_append, List.map_cons, Party.ticket] at h2 ⊢
      rw [← List.append_assoc] at h2 ⊢
      exact List.Perm.cons_inv ((List.perm_middle.symm.trans h2).trans List.perm_middle)
    · simp only [List.filterMap_append, List.filterMap_cons, List.map_append, List.map_cons, Party.ticket] at h3 ⊢
      exact (List.nodup_cons.mp ((List.perm_middle.nodup_iff).mp h3)).2
    · intro t ht
      rcases List.mem_append.mp ht with ht | ht
      · exact h4 _ (List.mem_append_left _ ht)
      · rcases List.mem_cons.mp ht with rfl | ht
        · exact hask _ (h6 _ (List.mem_append_right _ (List.mem_cons_self ..)))
        · exact h4 _ (List.mem_append_right _ (List.mem_cons_of_mem _ ht))
    · intro t ht
      refine h6 _ ?_
      rcases List.mem_append.mp ht with ht | ht
      · exact List.mem_append_left _ ht
      · exact List.mem_append_right _ (List.mem_cons_of_mem _ ht)

/-! ## The threads -/

/-- The number of steps a thread has left, if nothing else arrives. -/
def Worker.left : Worker Unit → Nat
  | .receiving _ => 1
  | .handling _ _ => 2
  | _ => 0

/-- The number of steps the threads have left, if nothing else arrives. -/
def Threaded.left (p : Threaded S α) : Nat :=
  3 * p.pool.world.2.queue.length + (p.pool.workers.map Worker.left).sum

/-- What a thread is at: nothing, or a request. -/
def AtWork (ext : Bool) (n : Nat) : Worker Unit → Option (UInt64 × Caller × Op) → Prop
  | .receiving buf, none => n ≤ buf.length
  | .handling buf r, some t => n ≤ buf.length ∧ r = ⟨t.2.2.message ext t.1 t.2.1⟩
  | .finished, none => True
  | _, _ => False

/-- The threads and direct use agree. -/
structure InStep (ext : Bool) (n : Nat) (inv : S → Prop) (p : Threaded S α) (o : Object S α)
    (queued : List (UInt64 × Caller × Op)) (ws : List (Worker Unit × Option (UInt64 × Caller × Op)))
    (rs : List (Bytes × UInt64 × Op × Ans)) : Prop where
  good : o.Good ext n inv
  fs : p.pool.world.1 = some o.fs
  clients : p.clients = o.clients
  queue : p.pool.world.2.queue = queued.map fun t => t.2.2.message ext t.1 t.2.1
  workers : p.pool.workers = ws.map Prod.fst
  work : ∀ w ∈ ws, AtWork ext n w.1 w.2
  pending : o.pending.Perm (queued ++ ws.filterMap Prod.snd)
  replies : p.pool.world.2.replies = rs.map Prod.fst
  answers : o.answers = rs.map Prod.snd
  read : ∀ r ∈ rs, u64At r.1 8 = r.2.1.toNat ∧ r.2.2.1.hear r.2.1 [r.1] = r.2.2.2
  closed : (.finished, none) ∈ ws → queued = [] ∧ ∀ t ∈ o.clients, t.Ended
  channel : p.pool.channel = []

theorem inStep_start {s : S} (hs : inv s) {uses : List (Use α)} (hu : ∀ u ∈ uses, u.Asks ext n) {bufs : List Bytes}
    (hbufs : ∀ b ∈ bufs, n ≤ b.length) :
    InStep ext n inv (.start s bufs uses) (.start s uses) [] (bufs.map fun b => (.receiving b, none)) [] := by
  refine ⟨good_start hs hu, rfl, rfl, rfl, ?_, ?_, ?_, rfl, rfl, (fun _ h => nomatch h), ?_, rfl⟩
  · rw [List.map_map]
    rfl
  · intro w hw
    obtain ⟨b, hb, rfl⟩ := List.mem_map.mp hw
    exact hbufs b hb
  · have : (bufs.map fun b => ((.receiving b, none) : Worker Unit × Option (UInt64 × Caller × Op))).filterMap Prod.snd = [] := by
      induction bufs with
      | nil => rfl
      | cons b bs ih => exact ih fun b hb => hbufs b (List.mem_cons_of_mem _ hb)
    show List.Perm [] _
    rw [this]
    exact .nil
  · intro h
    obtain ⟨b, _, hb⟩ := List.mem_map.mp h
    cases hb

theorem net_send {out : SendBuf} {msg : Bytes} (h : Carries out msg) (w : Option S × Net) :
    (Net.socket S).send out w = (.ok (), (w.1, { w.2 with replies := w.2.replies ++ [msg] })) := by
  obtain ⟨cs, h1, _, h2, _⟩ := h
  show (match out.chunks with | .ok cs => _ | .error _ => _) = _
  rw [h1]
  dsimp only
  rw [h2]

theorem net_recv {h : Handlers FuseMethod (Option S × Net)} {buf m : Bytes} {ms rs : List Bytes} {s : Option S}
    (ha : Acceptable m) (hl : m.length ≤ buf.length) :
    (fuseService (Net.socket S) h).recv buf (s, ⟨m :: ms, rs⟩) =
      ((.ok (some ⟨m⟩), m ++ buf.drop m.length), (s, ⟨ms, rs⟩)) := by
  have hr : (Net.socket S).recv buf (s, ⟨m :: ms, rs⟩) = ((.ok m.length, m ++ buf.drop m.length), (s, ⟨ms, rs⟩)) :=
    if_pos hl
  have htake : (m ++ buf.drop m.length).take m.length = m := List.take_left
  show fuseRecv _ _ _ = _
  simp only [fuseRecv, hr, truncateSlice_eq, htake, acceptable_new ha]

theorem net_closed {h : Handlers FuseMethod (Option S × Net)} {buf : Bytes} {rs : List Bytes} {s : Option S} :
    (fuseService (Net.socket S) h).recv buf (s, ⟨[], rs⟩) = ((.ok none, buf), (s, ⟨[], rs⟩)) := rfl

/-- What is asked of a server. -/
structure Fit (srv : RpcServer S) (ext : Bool) (inv : S → Prop) : Prop where
  addr : ∀ op, srv.addr op % 8 = 0
  minor : 12 ≤ srv.layout.versionMinor
  form : ext = true ↔ srv.layout.features &&& 1 ≠ 0
  behaves : Behaves srv.act ext inv

/-- Tickets with one number are the same. -/
theorem same_ticket {l : List (UInt64 × Op)} (h : (l.map Prod.fst).Nodup) {id : UInt64} {op op' : Op} (h1 : (id, op) ∈ l)
    (h2 : (id, op') ∈ l) : op = op' := by
  induction l with
  | nil => cases h1
  | cons a l ih =>
    rw [List.map_cons, List.nodup_cons] at h
    rcases List.mem_cons.mp h1 with e1 | h1 <;> rcases List.mem_cons.mp h2 with e2 | h2
    · exact (Prod.mk.inj (e1.trans e2.symm)).2
    · exact absurd (List.mem_map.mpr ⟨_, h2, by rw [← e1]⟩) h.1
    · exact absurd (List.mem_map.mpr ⟨_, h1, by rw [← e2]⟩) h.1
    · exact ih h.2 h1 h2

theorem message_caught {srv : RpcServer S} (hf : Fit srv ext inv) {o : Object S α} (hg : o.Good ext n inv)
    {t : UInt64 × Caller × Op} (ht : t ∈ o.pending) (w : Net) :
    Acceptable (t.2.2.message ext t.1 t.2.1) ∧ (t.2.2.message ext t.1 t.2.1).length ≤ n ∧
      ∃ out : List Bytes, fuseHandle (srv.handlers (Net.socket S)) (t.2.2.message ext t.1 t.2.1) (some o.fs, w) =
          (some (srv.act t.2.1 t.2.2 o.fs).2, { w with replies := w.replies ++ out }) ∧
        t.2.2.hear t.1 out = (srv.act t.2.1 t.2.2 o.fs).1 ∧
        ((t.2.2.answered = false ∧ out = []) ∨ (t.2.2.answered = true ∧ ∃ m, out = [m] ∧ u64At m 8 = t.1.toNat)) := by
  obtain ⟨id, who, op⟩ := t
  obtain ⟨k1, k2, k3⟩ := hg.pending _ ht
  dsimp only at k3
  obtain ⟨hacc, hml, out, e1, e2, e3⟩ := rpc_handles srv (Net.socket S) (fun m w => { w with replies := w.replies ++ [m] })
    (fun hb w => net_send hb w) hf.addr hf.minor hf.form k1 k2 (show 40 + (op.request ext).2.body.length < 2 ^ 32 by omega)
    (hf.behaves who op o.fs hg.fs k2).1 (w := w) rfl
  refine ⟨hacc, Nat.le_trans (Nat.le_of_eq hml) (by dsimp only; omega), out, e1.trans ?_, e2, ?_⟩
  · rcases e3 with ⟨_, rfl⟩ | ⟨_, m, rfl, _⟩
    · simp
    · rfl
  · rcases e3 with ⟨h, rfl⟩ | ⟨h, m, rfl, hm⟩
    · exact .inl ⟨Bool.eq_false_iff.mpr fun h' => answered_iff.mp h' h, rfl⟩
    · exact .inr ⟨answered_iff.mpr h, m, rfl, hm⟩

/-- A step of the threads or of a program is a step of direct use, or none. -/
theorem inStep_step {srv : RpcServer S} (hf : Fit srv ext inv) {p p' : Threaded S α} {o : Object S α}
    {queued : List (UInt64 × Caller × Op)} {ws : List (Worker Unit × Option (UInt64 × Caller × Op))}
    {rs : List (Bytes × UInt64 × Op × Ans)} (h : InStep ext n inv p o queued ws rs) {e : Option Visible}
    (hstep : Threaded.Step srv ext e p p') :
    ∃ o' queued' ws' rs', InStep ext n inv p' o' queued' ws' rs' ∧
      ((e = none ∧ o' = o) ∨ Object.Step srv.act e o o') ∧ (e = none → p'.left < p.left) := by
  obtain ⟨h1, h2, h3, h4, h5, h6, h7, h8, h9, h10, h11, h12⟩ := h
  cases hstep with
  | @call _ i id who op k a b hc hid hn hq =>
    rw [h3] at hc hn
    have hs : Object.Step srv.act (some (.call i id who op)) o
        { o with clients := o.clients.set i (op.called id k), pending := (id, who, op) :: o.pending } :=
      .call (p := []) hc hid hn rfl
    obtain ⟨x, y, rfl, hx, hy⟩ := List.map_eq_append_iff.mp (h4.symm.trans hq)
    refine ⟨_, x ++ (id, who, op) :: y, ws, rs, ⟨good_step hf.behaves h1 hs, h2, ?_, ?_, h5, h6, ?_, h8, h9, h10, ?_, h12⟩, .inr hs, (fun h => nomatch h)⟩
    · show p.clients.set _ _ = _
      rw [h3]
    · show a ++ op.message ext id who :: b = _
      rw [List.map_append, List.map_cons, hx, hy]
    · rw [List.append_assoc, List.cons_append]
      refine .trans (.cons _ ?_) List.perm_middle.symm
      rwa [List.append_assoc] at h7
    · intro hw
      have := (h11 hw).2 _ (List.mem_of_getElem? hc)
      exact this.elim
  | @ret _ i id op k m a b hc hr hm =>
    rw [h3] at hc
    obtain ⟨x, z, rfl, hx, hz⟩ := List.map_eq_append_iff.mp (h8.symm.trans hr)
    obtain ⟨r, y, rfl, hm', hy⟩ := List.map_eq_cons_iff.mp hz
    obtain ⟨r1, r2⟩ := h10 r (List.mem_append_right _ (List.mem_cons_self ..))
    obtain ⟨m', id', op', a'⟩ := r
    dsimp only at hm' r1 r2
    subst hm'
    have hid : id' = id := UInt64.toNat_inj.mp (r1.symm.trans hm)
    subst hid
    have hop : op' = op := by
      refine same_ticket h1.nodup (h1.tickets.mem_iff.mp ?_) (List.mem_filterMap.mpr ⟨_, List.mem_of_getElem? hc, rfl⟩)
      refine List.mem_append_right _ (List.mem_map.mpr ⟨(id', op', a'), ?_, rfl⟩)
      rw [h9]
      exact List.mem_map.mpr ⟨_, List.mem_append_right _ (List.mem_cons_self ..), rfl⟩
    subst hop
    rw [r2]
    have hs : Object.Step srv.act (some (.ret i id' a')) o
        { o with clients := o.clients.set i (.ready (k a')), answers := x.map Prod.snd ++ y.map Prod.snd } :=
      .ret hc (by rw [h9, List.map_append]; rfl)
    refine ⟨_, queued, ws, x ++ y, ⟨good_step hf.behaves h1 hs, h2, ?_, h4, h5, h6, h7, ?_, ?_, ?_, ?_, h12⟩, .inr hs, (fun h => nomatch h)⟩
    · show p.clients.set _ _ = _
      rw [h3]
    · show a ++ b = _
      rw [List.map_append, hx, hy]
    · rw [List.map_append]
    · intro r hr
      refine h10 r ?_
      rcases List.mem_append.mp hr with hr | hr
      · exact List.mem_append_left _ hr
      · exact List.mem_append_right _ (List.mem_cons_of_mem _ hr)
    · intro hw
      have := (h11 hw).2 _ (List.mem_of_getElem? hc)
      exact this.elim
  | @work _ e pool hp hclosed =>
    obtain ⟨⟨⟨fs, queue, replies⟩, workers, channel, capacity⟩, clients⟩ := p
    dsimp only at h2 h3 h4 h5 h8 h12 hp hclosed ⊢
    subst h2 h3 h4 h5 h8 h12
    cases hp with
    | @mk _ i w w' e channel s hi hw =>
      dsimp only at hi hw
      rw [List.getElem?_map] at hi
      obtain ⟨⟨w0, t⟩, hi', rfl⟩ := Option.map_eq_some_iff.mp hi
      have hat := h6 _ (List.mem_of_getElem? hi')
      obtain ⟨x, y, rfl, hset⟩ := set_split hi'
      have hset' : ∀ w' t', ((x ++ (w0, t) :: y).map Prod.fst).set i w' = (x ++ (w', t') :: y).map Prod.fst := by
        intro w' t'
        exact (List.map_set (f := Prod.fst) (l := x ++ (w0, t) :: y) (i := i) (a := (w', t'))).symm.trans
          (congrArg _ (hset _))
      dsimp only at hat hw
      have hmem : ∀ {w' t'}, AtWork ext n w' t' → ∀ w ∈ x ++ (w', t') :: y, AtWork ext n w.1 w.2 := by
        intro w' t' hw' w hw
        rcases List.mem_append.mp hw with hw | hw
        · exact h6 _ (List.mem_append_left _ hw)
        · rcases List.mem_cons.mp hw with rfl | hw
          · exact hw'
          · exact h6 _ (List.mem_append_right _ (List.mem_cons_of_mem _ hw))
      have hfin : ∀ {w' t'}, w' ≠ .finished → (.finished, none) ∈ x ++ (w', t') :: y →
          queued = [] ∧ ∀ t ∈ o.clients, t.Ended := by
        intro w' t' hne hw
        refine h11 ?_
        rcases List.mem_append.mp hw with hw | hw
        · exact List.mem_append_left _ hw
        · rcases List.mem_cons.mp hw with hw | hw
          · exact absurd (Prod.mk.inj hw).1.symm hne
          · exact List.mem_append_right _ (List.mem_cons_of_mem _ hw)
      cases w0 with
      | receiving buf =>
        cases t with
        | some t => exact hat.elim
        | none =>
          cases queued with
          | nil =>
            rw [List.map_nil] at hw
            unfold workerStep at hw
            dsimp only at hw
            rw [net_closed] at hw
            cases hw
            refine ⟨o, [], x ++ (.finished, none) :: y, rs, ⟨h1, rfl, rfl, rfl, hset' _ _, hmem trivial, ?_, rfl, h9, h10, ?_, rfl⟩,
              .inl ⟨rfl, rfl⟩, fun _ => ?_⟩
            · simpa [List.filterMap_append] using h7
            · exact fun _ => ⟨rfl, hclosed rfl⟩
            · unfold Threaded.left
              dsimp only
              rw [hset' _ none]
              simp only [List.map_append, List.map_cons, List.sum_append, List.sum_cons, Worker.left, List.map_nil,
                List.length_nil]
              omega
          | cons t queued =>
            have ht : t ∈ o.pending := h7.mem_iff.mpr (List.mem_append_left _ (List.mem_cons_self ..))
            obtain ⟨m1, m2, _⟩ := message_caught hf h1 ht ⟨[], []⟩
            rw [List.map_cons] at hw
            unfold workerStep at hw
            dsimp only at hw
            rw [net_recv m1 (Nat.le_trans m2 hat)] at hw
            cases hw
            refine ⟨o, queued, x ++ (_, some t) :: y, rs, ⟨h1, rfl, rfl, rfl, hset' _ _, hmem ⟨?_, rfl⟩, ?_, rfl, h9, h10,
              (fun hw => absurd (hfin (by intro h; cases h) hw).1 (List.cons_ne_nil _ _)), rfl⟩, .inl ⟨rfl, rfl⟩, fun _ => ?_⟩
            · rw [List.length_append, List.length_drop]
              have : n ≤ buf.length := hat
              omega
            · refine h7.trans ?_
              simp only [List.filterMap_append, List.filterMap_cons, List.cons_append, ← List.append_assoc]
              exact List.perm_middle.symm
            · unfold Threaded.left
              dsimp only
              rw [hset' _ none]
              simp only [List.map_append, List.map_cons, List.sum_append, List.sum_cons, Worker.left, List.length_cons,
                List.length_map]
              omega
      | handling buf r =>
        cases t with
        | none => exact hat.elim
        | some t =>
          obtain ⟨hb, rfl⟩ := hat
          have ht : t ∈ o.pending := h7.mem_iff.mpr (List.mem_append_right _ (by simp))
          obtain ⟨m1, m2, out, m3, m4, m5⟩ := message_caught hf h1 ht
            ⟨queued.map fun t => t.2.2.message ext t.1 t.2.1, rs.map Prod.fst⟩
          unfold workerStep at hw
          dsimp only at hw
          rw [show (fuseService (Net.socket S) (srv.handlers (Net.socket S))).dispatch ⟨t.2.2.message ext t.1 t.2.1⟩ _ =
            .ok (fuseHandle (srv.handlers (Net.socket S)) (t.2.2.message ext t.1 t.2.1) _) from
            C25_fuse _ _ _ (acceptable_new m1) _, m3] at hw
          cases hw
          obtain ⟨p1, p2, hp⟩ := List.append_of_mem ht
          have hs : Object.Step srv.act none o _ := .perform hp
          refine ⟨_, queued, x ++ (_, none) :: y,
            rs ++ out.map fun m => (m, t.1, t.2.2, (srv.act t.2.1 t.2.2 o.fs).1),
            ⟨good_step hf.behaves h1 hs, rfl, rfl, rfl, hset' _ _, hmem hb, ?_, ?_, ?_, ?_, hfin (fun h => nomatch h), rfl⟩, .inr hs,
            fun _ => ?_⟩
          · rw [hp] at h7
            refine List.Perm.cons_inv (a := t) ((List.perm_middle.symm.trans h7).trans ?_)
            simp only [List.filterMap_append, List.filterMap_cons, ← List.append_assoc]
            exact List.perm_middle
          · show rs.map Prod.fst ++ out = _
            rw [List.map_append, List.map_map]
            congr 1
            exact (List.map_id _).symm
          · show o.answers ++ _ = _
            rw [List.map_append, h9, List.map_map]
            congr 1
            rcases m5 with ⟨h, rfl⟩ | ⟨h, m, rfl, _⟩ <;> rw [h] <;> rfl
          · intro r hr
            rcases List.mem_append.mp hr with hr | hr
            · exact h10 r hr
            · obtain ⟨m, hm, rfl⟩ := List.mem_map.mp hr
              rcases m5 with ⟨h, rfl⟩ | ⟨h, m', rfl, hm'⟩
              · cases hm
              · rw [List.mem_singleton] at hm
                subst hm
                exact ⟨hm', m4⟩
          · unfold Threaded.left
            dsimp only
            rw [hset' _ none]
            simp only [List.map_append, List.map_cons, List.sum_append, List.sum_cons, Worker.left]
            omega
      | reporting buf e => cases t <;> exact hat.elim
      | finished =>
        cases hw
      | faulted f => cases t <;> exact hat.elim

theorem run_inStep {srv : RpcServer S} (hf : Fit srv ext inv) {p q : Threaded S α} {o : Object S α}
    {queued : List (UInt64 × Caller × Op)} {ws : List (Worker Unit × Option (UInt64 × Caller × Op))}
    {rs : List (Bytes × UInt64 × Op × Ans)} (h : InStep ext n inv p o queued ws rs) {es : List Visible}
    (hrun : Threaded.Run srv ext p es q) :
    ∃ o' queued' ws' rs', Object.Run srv.act o es o' ∧ InStep ext n inv q o' queued' ws' rs' := by
  induction hrun with
  | start => exact ⟨o, queued, ws, rs, .start, h⟩
  | step _ hs ih =>
    obtain ⟨o1, a1, b1, c1, hr, h1⟩ := ih
    obtain ⟨o2, a2, b2, c2, h2, hs, _⟩ := inStep_step hf h1 hs
    refine ⟨o2, a2, b2, c2, ?_, h2⟩
    rcases hs with ⟨rfl, rfl⟩ | hs
    · rw [Option.toList_none, List.append_nil]
      exact hr
    · exact .step hr hs

/-- A thread step keeps the number of threads. -/
theorem workers_length {srv : RpcServer S} {p q : Threaded S α} {e : Option Visible} (h : Threaded.Step srv ext e p q) :
    q.pool.workers.length = p.pool.workers.length := by
  cases h with
  | call => rfl
  | ret => rfl
  | work hp _ =>
    cases hp
    exact List.length_set

theorem clients_length {srv : RpcServer S} {p q : Threaded S α} {e : Option Visible} (h : Threaded.Step srv ext e p q) :
    q.clients.length = p.clients.length := by
  cases h with
  | call => exact List.length_set
  | ret => exact List.length_set
  | work => rfl

theorem run_lengths {srv : RpcServer S} {p q : Threaded S α} {es : List Visible} (h : Threaded.Run srv ext p es q) :
    q.pool.workers.length = p.pool.workers.length ∧ q.clients.length = p.clients.length := by
  induction h with
  | start => exact ⟨rfl, rfl⟩
  | step _ hs ih => exact ⟨(workers_length hs).trans ih.1, (clients_length hs).trans ih.2⟩

/-! ## Going on -/

theorem missing (m : Nat) : ∀ l : List Nat, l.length < m → ∃ x, x < m ∧ x ∉ l := by
  induction m with
  | zero => exact fun l h => absurd h (Nat.not_lt_zero _)
  | succ m ih =>
    intro l h
    by_cases hm : m ∈ l
    · obtain ⟨x, h1, h2⟩ := ih (l.erase m) (by
        have := List.length_pos_of_mem hm
        rw [List.length_erase_of_mem hm]
        omega)
      exact ⟨x, by omega, fun hx => h2 ((List.mem_erase_of_ne (by omega)).mpr hx)⟩
    · exact ⟨m, by omega, hm⟩

/-- There is always another number. -/
theorem fresh_id (l : List UInt64) (h : l.length < 2 ^ 64 - 1) : ∃ id, id ≠ 0 ∧ id ∉ l := by
  obtain ⟨x, h1, h2⟩ := missing (2 ^ 64 - 1) (l.map fun y => y.toNat - 1) (by rwa [List.length_map])
  have hx : (UInt64.ofNat (x + 1)).toNat = x + 1 := UInt64.toNat_ofNat_of_lt' (by show x + 1 < 2 ^ 64; omega)
  refine ⟨.ofNat (x + 1), fun h0 => ?_, fun hm => h2 (List.mem_map.mpr ⟨_, hm, by rw [hx]; rfl⟩)⟩
  rw [h0] at hx
  exact absurd hx.symm (Nat.succ_ne_zero x)

section

variable {σ ε : Type} {srv : Service σ ε} {capacity : Nat} {channel : List (ServerError ε)} {w w' : σ} {buf buf' : Bytes}

theorem workerStep_handling {r : Request} (h : srv.dispatch r w = .ok w') :
    workerStep srv capacity channel w (.handling buf r) = some (.handled r, .receiving buf, channel, w') := by
  simp only [workerStep, h]

theorem workerStep_request {r : Request} (h : srv.recv buf w = ((.ok (some r), buf'), w')) :
    workerStep srv capacity channel w (.receiving buf) = some (.request r, .handling buf' r, channel, w') := by
  simp only [workerStep, h]

theorem workerStep_closed (h : srv.recv buf w = ((.ok none, buf'), w')) :
    workerStep srv capacity channel w (.receiving buf) = some (.closed, .finished, channel, w') := by
  simp only [workerStep, h]

end

/-- Somebody can go on, or all have ended. -/
theorem inStep_progress {srv : RpcServer S} (hf : Fit srv ext inv) {p : Threaded S α} {o : Object S α}
    {queued : List (UInt64 × Caller × Op)} {ws : List (Worker Unit × Option (UInt64 × Caller × Op))}
    {rs : List (Bytes × UInt64 × Op × Ans)} (h : InStep ext n inv p o queued ws rs) (hw : 0 < p.pool.workers.length)
    (hc : p.clients.length < 2 ^ 64 - 1) :
    (∃ e q, Threaded.Step srv ext e p q) ∨ ((∀ t ∈ p.clients, t.Ended) ∧ p.pool.Returned) := by
  obtain ⟨h1, h2, h3, h4, h5, h6, h7, h8, h9, h10, h11, h12⟩ := h
  obtain ⟨⟨⟨fs, queue, replies⟩, workers, channel, capacity⟩, clients⟩ := p
  dsimp only at h2 h3 h4 h5 h8 h12 hw hc
  subst h2 h3 h4 h5 h8 h12
  -- a program that can call
  by_cases hready : ∃ (i : Nat) (who : Caller) (op : Op) (k : Ans → Use α), o.clients[i]? = some (.ready (.call who op k))
  · obtain ⟨i, who, op, k, hi⟩ := hready
    obtain ⟨id, hid, hn⟩ := fresh_id ((o.clients.filterMap Party.ticket).map Prod.fst) (by
      rw [List.length_map]
      exact Nat.lt_of_le_of_lt (List.length_filterMap_le _ _) hc)
    exact .inl ⟨_, _, .call (p := []) hi hid hn rfl⟩
  -- a thread that handles a request
  by_cases hhand : ∃ (i : Nat) (buf : Bytes) (t : UInt64 × Caller × Op), ws[i]? = some (.handling buf ⟨t.2.2.message ext t.1 t.2.1⟩, some t)
  · obtain ⟨i, buf, t, hi⟩ := hhand
    have ht : t ∈ o.pending := h7.mem_iff.mpr
      (List.mem_append_right _ (List.mem_filterMap.mpr ⟨_, List.mem_of_getElem? hi, rfl⟩))
    obtain ⟨m1, _⟩ := message_caught hf h1 ht ⟨[], []⟩
    have hget : (ws.map Prod.fst)[i]? = some (.handling buf ⟨t.2.2.message ext t.1 t.2.1⟩) := by
      rw [List.getElem?_map, hi]; rfl
    have hstep := workerStep_handling (srv := fuseService (Net.socket S) (srv.handlers (Net.socket S)))
      (capacity := capacity) (channel := []) (buf := buf)
      (C25_fuse (srv.handlers (Net.socket S)) (t.2.2.message ext t.1 t.2.1) _ (acceptable_new m1)
        (some o.fs, ⟨queued.map fun t => t.2.2.message ext t.1 t.2.1, rs.map Prod.fst⟩))
    exact .inl ⟨_, _, .work (.mk hget hstep) (fun h => nomatch h)⟩
  -- a reply to be taken
  by_cases hans : o.answers = []
  · -- a thread that can receive
    by_cases hrec : ∃ (i : Nat) (buf : Bytes), ws[i]? = some (.receiving buf, none)
    · obtain ⟨i, buf, hi⟩ := hrec
      have hget : (ws.map Prod.fst)[i]? = some (.receiving buf) := by rw [List.getElem?_map, hi]; rfl
      have hat := h6 _ (List.mem_of_getElem? hi)
      cases queued with
      | cons t queued =>
        have ht : t ∈ o.pending := h7.mem_iff.mpr (List.mem_append_left _ (List.mem_cons_self ..))
        obtain ⟨m1, m2, _⟩ := message_caught hf h1 ht ⟨[], []⟩
        have hstep := workerStep_request (srv := fuseService (Net.socket S) (srv.handlers (Net.socket S)))
          (capacity := capacity) (channel := []) (net_recv (h := srv.handlers (Net.socket S)) (s := some o.fs)
            (ms := queued.map fun t => t.2.2.message ext t.1 t.2.1) (rs := rs.map Prod.fst) m1 (Nat.le_trans m2 hat))
        exact .inl ⟨_, _, .work (.mk hget hstep) (fun h => nomatch h)⟩
      | nil =>
        -- nothing is pending, so nobody waits
        have hpend : o.pending = [] := by
          refine List.eq_nil_iff_forall_not_mem.mpr fun t ht => ?_
          rw [List.nil_append] at h7
          obtain ⟨⟨w, t'⟩, hw, e⟩ := List.mem_filterMap.mp (h7.mem_iff.mp ht)
          dsimp only at e
          subst e
          have hat := h6 _ hw
          cases w with
          | handling buf r =>
            obtain ⟨_, rfl⟩ := hat
            obtain ⟨j, hj⟩ := List.getElem?_of_mem hw
            exact hhand ⟨j, buf, t, hj⟩
          | _ => exact hat.elim
        have htick : o.clients.filterMap Party.ticket = [] := by
          have := h1.tickets
          unfold Object.tickets at this
          rw [hpend, hans] at this
          exact this.symm.eq_nil
        have hended : ∀ t ∈ o.clients, t.Ended := by
          intro t ht
          cases t with
          | waiting id op k =>
            have : (id, op) ∈ o.clients.filterMap Party.ticket := List.mem_filterMap.mpr ⟨_, ht, rfl⟩
            rw [htick] at this
            cases this
          | ready use =>
            cases use with
            | done a => trivial
            | call who op k =>
              obtain ⟨j, hj⟩ := List.getElem?_of_mem ht
              exact absurd ⟨j, who, op, k, hj⟩ hready
        have hstep := workerStep_closed (srv := fuseService (Net.socket S) (srv.handlers (Net.socket S)))
          (capacity := capacity) (channel := []) (net_closed (h := srv.handlers (Net.socket S)) (buf := buf)
            (s := some o.fs) (rs := rs.map Prod.fst))
        exact .inl ⟨_, _, .work (.mk hget hstep) (fun _ => hended)⟩
    · -- all threads have finished
      have hfin : ∀ w ∈ ws, w = (.finished, none) := by
        rintro ⟨w, t⟩ hw
        have hat := h6 _ hw
        cases w with
        | finished =>
          cases t with
          | none => rfl
          | some t => exact hat.elim
        | receiving buf =>
          cases t with
          | none =>
            obtain ⟨j, hj⟩ := List.getElem?_of_mem hw
            exact absurd ⟨j, buf, hj⟩ hrec
          | some t => exact hat.elim
        | handling buf r =>
          cases t with
          | none => exact hat.elim
          | some t =>
            obtain ⟨_, rfl⟩ := hat
            obtain ⟨j, hj⟩ := List.getElem?_of_mem hw
            exact absurd ⟨j, buf, t, hj⟩ hhand
        | _ => cases t <;> exact hat.elim
      refine .inr ⟨?_, ?_⟩
      · refine (h11 ?_).2
        cases ws with
        | nil => exact absurd hw (by simp)
        | cons w ws => rw [hfin w (List.mem_cons_self ..)]; exact List.mem_cons_self ..
      · intro w hw
        obtain ⟨w', hw', rfl⟩ := List.mem_map.mp hw
        rw [hfin _ hw']
  · obtain ⟨⟨id, op, a⟩, answers, hl⟩ := List.exists_cons_of_ne_nil hans
    have : (id, op) ∈ o.clients.filterMap Party.ticket := by
      refine h1.tickets.mem_iff.mp (List.mem_append_right _ ?_)
      rw [hl]
      exact List.mem_cons_self ..
    obtain ⟨t, ht, e⟩ := List.mem_filterMap.mp this
    cases t with
    | ready use => cases e
    | waiting id' op' k =>
      cases e
      obtain ⟨j, hj⟩ := List.getElem?_of_mem ht
      cases rs with
      | nil => rw [hl] at h9; cases h9
      | cons r rs =>
        have hr := (h10 r (List.mem_cons_self ..)).1
        have hid : r.2.1 = id := by
          rw [hl, List.map_cons] at h9
          have := (List.cons.inj h9).1
          rw [← this]
        exact .inl ⟨_, _, .ret (p := []) hj rfl (by rw [hr, hid])⟩

/-! ## Coming to an end -/

/-- A program goes on. -/
inductive PartyNext : Party α → Party α → Prop
  | called {id : UInt64} {who : Caller} {op : Op} {k : Ans → Use α} : PartyNext (op.called id k) (.ready (.call who op k))
  | returned {id : UInt64} {op : Op} {k : Ans → Use α} {a : Ans} : PartyNext (.ready (k a)) (.waiting id op k)

theorem acc_ready (use : Use α) : Acc PartyNext (Party.ready use) := by
  induction use with
  | done a => exact ⟨_, fun y h => by cases h⟩
  | call who op k ih =>
    refine ⟨_, fun y h => ?_⟩
    cases h
    unfold Op.called
    split
    · refine ⟨_, fun y h => ?_⟩
      cases h
      exact ih _
    · exact ih _

theorem acc_party (t : Party α) : Acc PartyNext t := by
  cases t with
  | ready use => exact acc_ready use
  | waiting id op k =>
    refine ⟨_, fun y h => ?_⟩
    cases h
    exact acc_ready _

/-- One of the programs goes on. -/
def PartiesNext (l' l : List (Party α)) : Prop := ∃ i x y, l[i]? = some x ∧ PartyNext y x ∧ l' = l.set i y

theorem acc_parties (l : List (Party α)) : Acc PartiesNext l := by
  induction l with
  | nil => exact ⟨_, fun y h => by obtain ⟨i, x, y, h, _⟩ := h; simp at h⟩
  | cons t l ih =>
    have ht := acc_party t
    induction ht generalizing l with
    | intro t _ iht =>
      induction ih with
      | intro l hl ihl =>
        refine ⟨_, fun l' h => ?_⟩
        obtain ⟨i, x, y, h1, h2, rfl⟩ := h
        cases i with
        | zero =>
          simp only [List.getElem?_cons_zero, Option.some.injEq] at h1
          subst h1
          rw [List.set_cons_zero]
          exact iht y h2 l ⟨_, hl⟩
        | succ i =>
          rw [List.getElem?_cons_succ] at h1
          rw [List.set_cons_succ]
          exact ihl _ ⟨i, x, y, h1, h2, rfl⟩

theorem acc_threaded {srv : RpcServer S} (hf : Fit srv ext inv) {clients : List (Party α)} (hacc : Acc PartiesNext clients) :
    ∀ (m : Nat) (p : Threaded S α), p.clients = clients → p.left = m →
      (∃ o queued ws rs, InStep ext n inv p o queued ws rs) → Acc (fun q p => ∃ e, Threaded.Step srv ext e p q) p := by
  induction hacc with
  | intro clients _ ih =>
    intro m
    induction m using Nat.strongRecOn with
    | ind m ihm =>
      intro p hp hm ⟨o, queued, ws, rs, h⟩
      refine ⟨_, fun q ⟨e, hs⟩ => ?_⟩
      obtain ⟨o', queued', ws', rs', h', _, hl⟩ := inStep_step hf h hs
      cases hs with
      | @call _ i id who op k a b hc hid hn hq =>
        rw [hp] at hc
        exact ih _ ⟨i, _, _, hc, .called, by rw [← hp]; rfl⟩ _ _ rfl rfl ⟨o', queued', ws', rs', h'⟩
      | @ret _ i id op k msg a b hc hr hu =>
        rw [hp] at hc
        exact ih _ ⟨i, _, _, hc, .returned, by rw [← hp]; rfl⟩ _ _ rfl rfl ⟨o', queued', ws', rs', h'⟩
      | work hw hc => exact ihm _ (hm ▸ hl rfl) _ hp rfl ⟨o', queued', ws', rs', h'⟩

theorem no_descent {β : Type} {r : β → β → Prop} {b : β} (h : Acc r b) :
    ∀ f : Nat → β, f 0 = b → ¬ ∀ i, r (f (i + 1)) (f i) := by
  induction h with
  | intro b _ ih =>
    intro f h0 hf
    exact ih (f 1) (h0 ▸ hf 0) (fun i => f (i + 1)) rfl fun i => hf (i + 1)

/-! ## What has taken place -/

theorem inTurn_append {s : S} {l : List (Caller × Op)} {who : Caller} {op : Op} :
    inTurn act s (l ++ [(who, op)]) = (act who op (inTurn act s l)).2 := by
  induction l generalizing s with
  | nil => rfl
  | cons t l ih => exact ih

theorem visible_calls_append {es es' : List Visible} : Visible.calls (es ++ es') = Visible.calls es ++ Visible.calls es' := by
  induction es with
  | nil => rfl
  | cons e es ih => cases e <;> simp only [List.cons_append, Visible.calls, ih]

theorem object_order {o o' : Object S α} {es : List Visible} (hp : o.pending = []) (h : Object.Run act o es o') :
    ∃ l, (l ++ o'.pending.map Prod.snd).Perm (Visible.calls es) ∧ o'.fs = inTurn act o.fs l := by
  induction h with
  | start => exact ⟨[], by rw [hp]; exact .nil, rfl⟩
  | step _ hs ih =>
    obtain ⟨l, h1, h2⟩ := ih
    cases hs with
    | @call _ i id who op k a b hc hid hn hq =>
      refine ⟨l, ?_, h2⟩
      rw [visible_calls_append]
      rw [hq] at h1
      refine List.Perm.trans ?_ (h1.append_right _)
      simp only [List.map_append, List.map_cons, Option.toList, Visible.calls, List.append_assoc]
      exact (List.Perm.append_left _ (List.Perm.append_left _ (List.perm_append_singleton _ _).symm))
    | @perform _ id who op a b hq =>
      refine ⟨l ++ [(who, op)], ?_, by rw [inTurn_append, ← h2]⟩
      rw [Option.toList, List.append_nil]
      rw [hq] at h1
      refine List.Perm.trans ?_ h1
      simp only [List.map_append, List.map_cons, List.append_assoc, List.singleton_append]
      exact List.Perm.append_left _ List.perm_middle.symm
    | @ret _ i id op k r a b hc hr =>
      refine ⟨l, ?_, h2⟩
      rw [visible_calls_append]
      simpa only [Option.toList, Visible.calls, List.append_nil] using h1

/-- What holds when one program uses a filesystem directly. -/
inductive Single (act : Caller → Op → S → Ans × S) (r : α × S) : Object S α → Prop
  | ready {s : S} {use : Use α} : use.Waits → use.run act s = r → Single act r ⟨s, [.ready use], [], []⟩
  | called {s : S} {id : UInt64} {who : Caller} {op : Op} {k : Ans → Use α} : op.kind ≠ .silent → (∀ a, (k a).Waits) →
      (Use.call who op k).run act s = r → Single act r ⟨s, [.waiting id op k], [(id, who, op)], []⟩
  | answered {s : S} {id : UInt64} {op : Op} {k : Ans → Use α} {a : Ans} : (∀ a, (k a).Waits) →
      (k a).run act s = r → Single act r ⟨s, [.waiting id op k], [], [(id, op, a)]⟩

theorem single_step {r : α × S} {o o' : Object S α} {e : Option Visible} (h : Single act r o) (hs : Object.Step act e o o') :
    Single act r o' := by
  have one : ∀ {β : Type} {x y : β} {i : Nat}, [x][i]? = some y → i = 0 ∧ y = x := by
    intro β x y i h
    cases i with
    | zero => exact ⟨rfl, by simpa using h.symm⟩
    | succ i => simp at h
  cases h with
  | ready hw hr =>
    cases hs with
    | @call _ i id who op k a b hc hid hn hq =>
      obtain ⟨rfl, hy⟩ := one hc
      cases hy
      obtain ⟨rfl, rfl⟩ : a = [] ∧ b = [] := List.append_eq_nil_iff.mp hq.symm
      have : op.called id k = .waiting id op k := if_pos (answered_iff.mpr hw.1)
      dsimp only
      rw [this]
      exact .called hw.1 hw.2 hr
    | @perform _ id who op a b hq => exact absurd hq (by simp)
    | @ret _ i id op k r a b hc hr => cases (one hc).2
  | called hk hw hr =>
    cases hs with
    | @call _ i id who op k a b hc hid hn hq => cases (one hc).2
    | @perform _ id who op a b hq =>
      cases a with
      | cons _ a => exact absurd hq (by simp)
      | nil =>
        cases hq
        dsimp only
        rw [if_pos (answered_iff.mpr hk)]
        exact .answered hw hr
    | @ret _ i id op k r a b hc hr => exact absurd hr (by simp)
  | answered hw hr =>
    cases hs with
    | @call _ i id who op k a b hc hid hn hq => cases (one hc).2
    | @perform _ id who op a b hq => exact absurd hq (by simp)
    | @ret _ i id op k r a b hc hr' =>
      obtain ⟨rfl, hy⟩ := one hc
      cases hy
      cases a with
      | cons _ a => exact absurd hr' (by simp)
      | nil =>
        cases hr'
        exact .ready (hw _) hr

theorem single_run {r : α × S} {o o' : Object S α} {es : List Visible} (h : Single act r o) (hs : Object.Run act o es o') :
    Single act r o' := by
  induction hs with
  | start => exact h
  | step _ hs ih => exact single_step ih hs

/-! ## The theorems -/

/-- **C79**: whatever programs see that use a filesystem at the same time through the threads of `serve_fuse`, they could
have seen using it directly, every operation taking place in one instant between its call and its return; the filesystem is
in the same state, and no thread reports an error.  When `serve_fuse` returns, all programs have ended, and everything
called for has been done. -/
theorem C79 {srv : RpcServer S} (hf : Fit srv ext inv) {s : S} (hs : inv s) {uses : List (Use α)} {bufs : List Bytes}
    (hu : ∀ u ∈ uses, u.Asks ext n) (hb : ∀ b ∈ bufs, n ≤ b.length) {es : List Visible} {q : Threaded S α}
    (h : Threaded.Run srv ext (.start s bufs uses) es q) :
    ∃ o, Object.Run srv.act (.start s uses) es o ∧ o.clients = q.clients ∧ q.fs = some o.fs ∧ q.pool.channel = [] ∧
      (bufs ≠ [] → q.pool.Returned → (∀ t ∈ o.clients, t.Ended) ∧ o.pending = [] ∧ o.answers = []) := by
  obtain ⟨o, queued, ws, rs, hrun, hin⟩ := run_inStep hf (inStep_start hs hu hb) h
  refine ⟨o, hrun, hin.clients.symm, hin.fs, hin.channel, fun hne hret => ?_⟩
  have hfin : ∀ w ∈ ws, w = (.finished, none) := by
    rintro ⟨w, t⟩ hw
    have hat := hin.work _ hw
    obtain rfl : w = .finished := hret w (by rw [hin.workers]; exact List.mem_map.mpr ⟨_, hw, rfl⟩)
    cases t with
    | none => rfl
    | some t => exact hat.elim
  have hlen : 0 < ws.length := by
    have h1 := (run_lengths h).1
    rw [hin.workers, List.length_map] at h1
    rw [h1]
    show 0 < (bufs.map Worker.receiving).length
    rw [List.length_map]
    exact List.length_pos_iff.mpr hne
  have hmem : (.finished, none) ∈ ws := by
    cases ws with
    | nil => exact absurd hlen (by simp)
    | cons w ws => rw [hfin w (List.mem_cons_self ..)]; exact List.mem_cons_self ..
  obtain ⟨hq, hend⟩ := hin.closed hmem
  have hpend : o.pending = [] := by
    have := hin.pending
    rw [hq, List.nil_append, show ws.filterMap Prod.snd = [] from
      List.filterMap_eq_nil_iff.mpr fun w hw => by rw [hfin w hw]] at this
    exact this.eq_nil
  refine ⟨hend, hpend, ?_⟩
  have htick : o.clients.filterMap Party.ticket = [] := List.filterMap_eq_nil_iff.mpr fun t ht => by
    have := hend t ht
    cases t with
    | ready use => rfl
    | waiting id op k => exact this.elim
  have := hin.good.tickets
  rw [htick] at this
  have := this.eq_nil
  unfold Object.tickets at this
  exact List.map_eq_nil_iff.mp (List.append_eq_nil_iff.mp this).2

/-- **C79**, progress: as long as not all programs have ended and all threads have returned, something can happen. -/
theorem C79_progress {srv : RpcServer S} (hf : Fit srv ext inv) {s : S} (hs : inv s) {uses : List (Use α)}
    {bufs : List Bytes} (hu : ∀ u ∈ uses, u.Asks ext n) (hb : ∀ b ∈ bufs, n ≤ b.length) (hne : bufs ≠ [])
    (hl : uses.length < 2 ^ 64 - 1) {es : List Visible} {q : Threaded S α}
    (h : Threaded.Run srv ext (.start s bufs uses) es q) :
    (∃ e q', Threaded.Step srv ext e q q') ∨ ((∀ t ∈ q.clients, t.Ended) ∧ q.pool.Returned) := by
  obtain ⟨o, queued, ws, rs, _, hin⟩ := run_inStep hf (inStep_start hs hu hb) h
  have hlen := run_lengths h
  refine inStep_progress hf hin ?_ ?_
  · rw [hlen.1]
    show 0 < (bufs.map Worker.receiving).length
    rw [List.length_map]
    exact List.length_pos_iff.mpr hne
  · rw [hlen.2]
    show (uses.map Party.ready).length < _
    rwa [List.length_map]

/-- **C79**, termination: this cannot go on forever, whatever the order of steps is. -/
theorem C79_ends {srv : RpcServer S} (hf : Fit srv ext inv) {s : S} (hs : inv s) {uses : List (Use α)}
    {bufs : List Bytes} (hu : ∀ u ∈ uses, u.Asks ext n) (hb : ∀ b ∈ bufs, n ≤ b.length) (f : Nat → Threaded S α)
    (h0 : f 0 = .start s bufs uses) : ¬ ∀ i, ∃ e, Threaded.Step srv ext e (f i) (f (i + 1)) :=
  no_descent (acc_threaded hf (acc_parties _) _ _ rfl rfl ⟨_, _, _, _, inStep_start hs hu hb⟩) f h0

/-- **C79**, order: when `serve_fuse` returns, the filesystem is as it would be if what has been called for, all of it and
each once, had been done in some order, one after the other. -/
theorem C79_order {srv : RpcServer S} (hf : Fit srv ext inv) {s : S} (hs : inv s) {uses : List (Use α)}
    {bufs : List Bytes} (hu : ∀ u ∈ uses, u.Asks ext n) (hb : ∀ b ∈ bufs, n ≤ b.length) (hne : bufs ≠ [])
    {es : List Visible} {q : Threaded S α} (h : Threaded.Run srv ext (.start s bufs uses) es q) (hr : q.pool.Returned) :
    ∃ l, l.Perm (Visible.calls es) ∧ q.fs = some (inTurn srv.act s l) := by
  obtain ⟨o, h1, _, h2, _, h3⟩ := C79 hf hs hu hb h
  obtain ⟨_, hp, _⟩ := h3 hne hr
  obtain ⟨l, h4, h5⟩ := object_order rfl h1
  rw [hp, List.map_nil, List.append_nil] at h4
  exact ⟨l, h4, by rw [h2, h5]; rfl⟩

/-- **C79**, one program: with any number of threads, a program that waits for its answers gets the result it would get
using the filesystem itself. -/
theorem C79_single {srv : RpcServer S} (hf : Fit srv ext inv) {s : S} (hs : inv s) {use : Use α}
    {bufs : List Bytes} (hu : use.Asks ext n) (hw : use.Waits) (hb : ∀ b ∈ bufs, n ≤ b.length) (hne : bufs ≠ [])
    {es : List Visible} {q : Threaded S α} (h : Threaded.Run srv ext (.start s bufs [use]) es q) (hr : q.pool.Returned) :
    q.clients = [.ready (.done (use.run srv.act s).1)] ∧ q.fs = some (use.run srv.act s).2 := by
  obtain ⟨o, h1, hc, h2, _, h3⟩ := C79 hf hs (by simpa using hu) hb h
  obtain ⟨hend, hp, ha⟩ := h3 hne hr
  have hi : Single srv.act (use.run srv.act s) o := single_run (.ready hw rfl) h1
  rw [← hc, h2]
  cases hi with
  | called => cases hp
  | answered => cases ha
  | @ready s' use' hw' hr' =>
    have hd := hend _ (List.mem_cons_self ..)
    cases use' with
    | done a => rw [← hr']; exact ⟨rfl, rfl⟩
    | call who op k => exact hd.elim

end

/-! ## Cases -/

namespace Rpc

/-- Who makes the next step. -/
inductive Turn
  | call (i : Nat) (id : UInt64) (place : Nat)
  | work (j : Nat)
  | ret (i : Nat) (place : Nat)

def ended {α : Type} : Party α → Bool
  | .ready (.done _) => true
  | _ => false

/-- Making that step. -/
def turn {S α : Type} (srv : RpcServer S) (ext : Bool) (p : Threaded S α) : Turn → Option (Option Visible × Threaded S α)
  | .call i id place =>
    match p.clients[i]? with
    | some (.ready (.call who op k)) =>
      if id ≠ 0 ∧ id ∉ (p.clients.filterMap Party.ticket).map Prod.fst then
        some (some (.call i id who op), p.withNet { p.net with
          queue := p.net.queue.take place ++ op.message ext id who :: p.net.queue.drop place } (p.clients.set i (op.called id k)))
      else none
    | _ => none
  | .work j =>
    match p.pool.workers[j]? with
    | some w =>
      match workerStep (fuseService (Net.socket S) (srv.handlers (Net.socket S))) p.pool.capacity p.pool.channel p.pool.world w with
      | some (.closed, w', channel, s) =>
        if p.clients.all ended then some (none, { p with pool := ⟨s, p.pool.workers.set j w', channel, p.pool.capacity⟩ })
        else none
      | some (_, w', channel, s) => some (none, { p with pool := ⟨s, p.pool.workers.set j w', channel, p.pool.capacity⟩ })
      | none => none
    | none => none
  | .ret i place =>
    match p.clients[i]?, p.net.replies[place]? with
    | some (.waiting id op k), some m =>
      if u64At m 8 = id.toNat then
        some (some (.ret i id (op.hear id [m])), p.withNet { p.net with
          replies := p.net.replies.take place ++ p.net.replies.drop (place + 1) } (p.clients.set i (.ready (k (op.hear id [m])))))
      else none
    | _, _ => none

theorem ended_iff {α : Type} {t : Party α} (h : ended t = true) : t.Ended := by
  unfold ended at h
  split at h
  · trivial
  · cases h

theorem turn_sound {S α : Type} {srv : RpcServer S} {ext : Bool} {p q : Threaded S α} {t : Turn} {e : Option Visible}
    (h : turn srv ext p t = some (e, q)) : Threaded.Step srv ext e p q := by
  unfold turn at h
  split at h
  · split at h
    · split at h
      · rename_i h1 h2
        cases h
        exact .call h1 h2.1 h2.2 (List.take_append_drop _ _).symm
      · cases h
    · cases h
  · split at h
    · rename_i h1
      split at h
      · rename_i h2
        split at h
        · rename_i h3
          cases h
          exact .work (.mk h1 h2) fun _ t ht => ended_iff (List.all_eq_true.mp h3 t ht)
        · cases h
      · rename_i h3 h2
        cases h
        exact .work (.mk h1 h2) fun he => absurd he h3
      · cases h
    · cases h
  · split at h
    · rename_i h1 h2
      split at h
      · rename_i h3
        cases h
        refine .ret h1 ?_ h3
        obtain ⟨hl, h2⟩ := List.getElem?_eq_some_iff.mp h2
        rw [← h2, List.getElem_cons_drop, List.take_append_drop]
      · cases h
    · cases h

/-- Making several steps. -/
def turns {S α : Type} (srv : RpcServer S) (ext : Bool) (es : List Visible) (p : Threaded S α) :
    List Turn → Option (List Visible × Threaded S α)
  | [] => some (es, p)
  | t :: ts =>
    match turn srv ext p t with
    | some (e, p) => turns srv ext (es ++ e.toList) p ts
    | none => none

theorem turns_sound {S α : Type} {srv : RpcServer S} {ext : Bool} {ts : List Turn} {p q r : Threaded S α}
    {es es' : List Visible} (hp : Threaded.Run srv ext r es p) (h : turns srv ext es p ts = some (es', q)) :
    Threaded.Run srv ext r es' q := by
  induction ts generalizing p es with
  | nil => cases h; exact hp
  | cons t ts ih =>
    unfold turns at h
    split at h
    · rename_i h1
      exact ih (hp.step (turn_sound h1)) h
    · cases h

def result {α : Type} : Party α → Option α
  | .ready (.done a) => some a
  | _ => none

def finished {ε : Type} : Worker ε → Bool
  | .finished => true
  | _ => false

/-- What has become of it: what has been called for, the results, the state, which threads have returned, how many errors
have been reported. -/
structure Seen (S α : Type) where
  calls : List (Caller × Op)
  results : List (Option α)
  fs : Option S
  returned : List Bool
  errors : Nat
deriving DecidableEq

def seen {S α : Type} (x : Option (List Visible × Threaded S α)) : Option (Seen S α) :=
  x.map fun (es, p) =>
    ⟨Visible.calls es, p.clients.map result, p.fs, p.pool.workers.map finished, p.pool.channel.length⟩

/-- Something that is only ever added to. -/
def Journal (_ : Caller) (op : Op) (s : Bytes) : Ans × Bytes :=
  match op with
  | .write _ _ _ data _ _ _ => (.written (.ofNat data.length), s ++ data)
  | .read _ _ offset size _ _ => (.data ((s.drop offset.toNat).take (min size.toNat 4096)), s)
  | .forget _ => (.silent, s ++ [0])
  | .interrupt _ => (.silent, s)
  | _ => (.error notFound, s)

theorem journal_behaves (ext : Bool) : Behaves Journal ext fun _ => True := by
  intro who op s _ _
  refine ⟨?_, trivial⟩
  unfold Journal
  split
  · trivial
  · show _ ∧ _
    simp only [List.length_take, List.length_drop]
    omega
  · rfl
  · rfl
  · unfold Op.kind
    split <;> first | trivial | skip
    all_goals first
      | exact absurd rfl (by rename_i h1 h2 h3 h4; first | exact h3 _ | exact h4 _)
      | (split <;> trivial)

def journal : RpcServer Bytes := ⟨Journal, ⟨31, 0⟩, true, .linux, fun _ => 0x1000⟩

theorem journal_fit : Fit journal false fun _ => True :=
  ⟨fun _ => (by decide : 0x1000 % 8 = 0), by decide, by decide, journal_behaves _⟩

/-- Adds something, and looks. -/
def adds (who : Caller) (data : Bytes) : Use Bytes :=
  .call who (.write root 0 0 data 0 none 0) fun _ =>
  .call who (.read root 0 0 100 none 0) fun
    | .data b => .done b
    | _ => .done []

def both : Threaded Bytes Bytes := .start [] [List.replicate 100 0, List.replicate 100 0] [adds alice [1], adds bob [2, 3]]

/-- The second thread takes the second request, which has gone in front of the first, and is done with the write and the
read before the first has begun; the replies are taken later. -/
def schedule : List Turn :=
  [.call 0 5 0, .call 1 6 0, .work 1, .work 1, .ret 1 0, .call 1 7 0, .work 0, .work 1, .work 0, .work 1, .ret 0 1, .call 0 6 0,
    .work 0, .work 0, .ret 0 1, .ret 1 0, .work 1, .work 0]

example : seen (turns journal false [] both schedule) =
    some ⟨[(alice, .write root 0 0 [1] 0 none 0), (bob, .write root 0 0 [2, 3] 0 none 0), (bob, .read root 0 0 100 none 0),
      (alice, .read root 0 0 100 none 0)], [some [2, 3, 1], some [2, 3]], some [2, 3, 1], [true, true], 0⟩ := by
  decide +kernel

theorem adds_asks (who : Caller) (data : Bytes) (h : data.length ≤ 20) : (adds who data).Asks false 100 := by
  refine ⟨by show _ ↔ _; decide, ?_, fun a _ => ⟨trivial, by show 40 + _ ≤ _; decide +revert, fun a _ => ?_⟩⟩
  · show 40 + (ClientReq.body _).length ≤ _
    simp only [Op.request, ClientReq.body, List.length_append]
    have : (layout_fuse_write_in { size := UInt32.ofNat data.length, lock_owner := (none : Option UInt64).getD 0 }).length = 40 :=
      rfl
    omega
  · cases a <;> trivial

theorem both_asks : ∀ u ∈ [adds alice [1], adds bob [2, 3]], u.Asks false 100 := by
  intro u hu
  simp only [List.mem_cons, List.not_mem_nil, or_false] at hu
  rcases hu with rfl | rfl <;> exact adds_asks _ _ (by decide)

/-- C79 for it: this could have been seen using the journal directly. -/
example : ∃ es q o, turns journal false [] both schedule = some (es, q) ∧ Object.Run Journal (.start [] [adds alice [1], adds bob [2, 3]]) es o ∧
    o.fs = [2, 3, 1] := by
  have hd : ((turns journal false [] both schedule).bind fun x => x.2.fs) = some [2, 3, 1] := by decide +kernel
  obtain ⟨⟨es, q⟩, h1, h2⟩ := Option.bind_eq_some_iff.mp hd
  obtain ⟨o, ho, _, hfs, _⟩ := C79 journal_fit trivial both_asks (by decide) (turns_sound .start h1)
  exact ⟨es, q, o, h1, ho, Option.some.inj (hfs.symm.trans h2)⟩

/-- C79_progress and C79_ends for all runs with these programs. -/
example {es : List Visible} {q : Threaded Bytes Bytes} (h : Threaded.Run journal false both es q) :
    (∃ e q', Threaded.Step journal false e q q') ∨ ((∀ t ∈ q.clients, t.Ended) ∧ q.pool.Returned) :=
  C79_progress journal_fit trivial both_asks (by decide) (by simp) (by decide) h

example (f : Nat → Threaded Bytes Bytes) (h : f 0 = both) : ¬ ∀ i, ∃ e, Threaded.Step journal false e (f i) (f (i + 1)) :=
  C79_ends journal_fit trivial both_asks (by decide) f h

/-- C79_order for it. -/
example {es : List Visible} {q : Threaded Bytes Bytes} (h : turns journal false [] both schedule = some (es, q))
    (hr : q.pool.Returned) : ∃ l, l.Perm [(alice, .write root 0 0 [1] 0 none 0), (bob, .write root 0 0 [2, 3] 0 none 0),
      (bob, .read root 0 0 100 none 0), (alice, .read root 0 0 100 none 0)] ∧ q.fs = some (inTurn Journal [] l) := by
  have hd : ((turns journal false [] both schedule).map fun x => Visible.calls x.1) =
      some [(alice, .write root 0 0 [1] 0 none 0), (bob, .write root 0 0 [2, 3] 0 none 0),
        (bob, .read root 0 0 100 none 0), (alice, .read root 0 0 100 none 0)] := by decide +kernel
  rw [h, Option.map_some, Option.some.injEq] at hd
  have := C79_order journal_fit trivial both_asks (by decide) (by simp) (turns_sound .start h) hr
  rwa [hd] at this

/-- C79_single: one program, three threads, any order. -/
example {es : List Visible} {q : Threaded Bytes Bytes}
    (h : Threaded.Run journal false (.start [9] (List.replicate 3 (List.replicate 100 0)) [adds alice [1]]) es q)
    (hr : q.pool.Returned) : q.clients = [.ready (.done [9, 1])] ∧ q.fs = some [9, 1] :=
  C79_single (inv := fun _ => True) journal_fit trivial (adds_asks _ _ (by decide))
    ⟨(fun h => nomatch h), fun a => ⟨(fun h => nomatch h), fun a => by cases a <;> trivial⟩⟩ (by decide) (by simp) h hr

/-- The same program with two threads, by running the model. -/
example : seen (turns journal false [] (.start [9] (List.replicate 2 (List.replicate 100 0)) [adds alice [1]])
      [.call 0 5 0, .work 1, .work 1, .ret 0 0, .call 0 5 0, .work 0, .work 0, .ret 0 0, .work 1, .work 0]) =
    some ⟨[(alice, .write root 0 0 [1] 0 none 0), (alice, .read root 0 0 100 none 0)], [some [9, 1]], some [9, 1],
      [true, true], 0⟩ := by decide +kernel

/-- Nobody waits for FORGET: it may take place after what has been called for later. -/
example : (seen (turns journal false [] (.start [] (List.replicate 2 (List.replicate 100 0))
      [.call alice (.forget [(root, 1)]) fun _ => adds alice [1]])
      [.call 0 5 0, .work 0, .call 0 6 0, .work 1, .work 1, .ret 0 0, .call 0 7 0, .work 1, .work 0, .work 1, .ret 0 0,
        .work 0, .work 1])).map (fun x => (x.results, x.fs)) = some ([some [1, 0]], some [1, 0]) := by decide +kernel

example : (Use.call alice (.forget [(root, 1)]) fun _ => adds alice [1]).run Journal [] = (([0, 1] : Bytes), [0, 1]) := by
  decide +kernel

/-- A number cannot be used while it is waited for, and a thread does not return while programs are running. -/
example : (turns journal false [] both [.call 0 5 0, .call 1 5 0]).isNone ∧ (turns journal false [] both [.call 0 0 0]).isNone ∧
    (turns journal false [] both [.work 0]).isNone := by decide +kernel

/-- With a buffer that is too small, an error is reported. -/
example : ((turns journal false [] (.start [] [List.replicate 70 0] [adds alice [1]])
    [.call 0 5 0, .work 0, .work 0]).map fun x => x.2.pool.channel.length) = some 1 := by decide +kernel

end Rpc

end Fuse
