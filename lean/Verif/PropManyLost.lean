import Verif.PropMany
import Verif.PropDevAll
import Verif.PropHostileAll

/-!
# C83 and C86: what is lost stays lost

The requests that C83 and C86 leave out take with them what is served.  From then on, whatever the threads and the programs
do, nothing is answered: a program that waits for a reply that is not there yet waits forever.  But nothing is seen, before
or afterwards, that could not be seen with what is served used directly.
-/

namespace Fuse
open Spec

namespace Many

/-- From the loss on, nothing is sent, and programs wait in vain. -/
def Silenced {S R A N : Type} (svc : Service (Option S × Net) Unit) (wire : Wire R A N) : Prop :=
  ∀ (α : Type) (p q : Threaded S R A α) (es : List (Visible R A N)), p.state = none → Threaded.Run svc wire p es q →
    q.state = none ∧ q.net.replies.Sublist p.net.replies ∧
    (∀ i id a, Visible.ret i id a ∈ es → ∃ m ∈ p.net.replies, u64At m 8 = id.toNat) ∧
    ∀ (i : Nat) (id : UInt64) (r : R) (k : A → Calls R A α), p.clients[i]? = some (.waiting id r k) →
      (∀ m ∈ p.net.replies, u64At m 8 ≠ id.toNat) → q.clients[i]? = some (.waiting id r k)

section
variable {S R A N α : Type}

/-- Threads that receive without sending, and whose handlers do nothing any more after the loss. -/
structure Mute (svc : Service (Option S × Net) Unit) : Prop where
  recv : ∀ buf x, (svc.recv buf x).2.1 = x.1 ∧ (svc.recv buf x).2.2.replies = x.2.replies
  dispatch : ∀ r net y, svc.dispatch r (none, net) = .ok y → y = (none, net)

theorem Mute.pool {svc : Service (Option S × Net) Unit} (h : Mute svc) {p q : Pool (Option S × Net) Unit} {e : Event Unit}
    (hs : Pool.Step svc e p q) (hl : p.world.1 = none) : q.world.1 = none ∧ q.world.2.replies = p.world.2.replies := by
  cases hs with
  | @mk _ i w w' _ channel s hw hstep =>
    show s.1 = none ∧ s.2.replies = _
    obtain ⟨⟨ps, net⟩, workers, ch, cap⟩ := p
    cases hl
    cases w with
    | receiving buf =>
      have h1 := h.recv buf (none, net)
      unfold workerStep at hstep
      dsimp only at hstep
      revert hstep h1
      generalize svc.recv buf (none, net) = o
      obtain ⟨⟨r, b⟩, s'⟩ := o
      intro hstep h1
      rcases r with _ | _ | _ <;> cases hstep <;> exact h1
    | handling buf r =>
      unfold workerStep at hstep
      dsimp only at hstep
      cases hd : svc.dispatch r (none, net) with
      | ok y =>
        rw [hd] at hstep
        cases hstep
        cases h.dispatch _ _ _ hd
        exact ⟨rfl, rfl⟩
      | error f =>
        rw [hd] at hstep
        cases hstep
        exact ⟨rfl, rfl⟩
    | reporting buf e =>
      unfold workerStep at hstep
      dsimp only at hstep
      split at hstep
      · cases hstep; exact ⟨rfl, rfl⟩
      · cases hstep
    | finished => cases hstep
    | faulted f => cases hstep

theorem Mute.silenced {svc : Service (Option S × Net) Unit} (h : Mute svc) (wire : Wire R A N) : Silenced svc wire := by
  intro α p q es hl hr
  induction hr with
  | start => exact ⟨hl, List.Sublist.refl _, fun _ _ _ h => (List.not_mem_nil h).elim, fun _ _ _ _ h _ => h⟩
  | @step es e q q' _ hs ih =>
    obtain ⟨h1, h2, h3, h4⟩ := ih
    have hsub : ∀ {a b : List Bytes} {m : Bytes}, q.net.replies = a ++ m :: b → (a ++ b).Sublist p.net.replies := by
      intro a b m e
      refine List.Sublist.trans ?_ h2
      rw [e]
      exact List.Sublist.append_left (List.sublist_cons_self m b) a
    have keep : ∀ {i j : Nat} {id : UInt64} {r : R} {k : A → Calls R A α} {t : Party R A α},
        q.clients[j]? = some (.waiting id r k) → i ≠ j → (q.clients.set i t)[j]? = some (.waiting id r k) := by
      intro i j id r k t hq hij
      rw [List.getElem?_set_ne hij]
      exact hq
    cases hs with
    | @call _ i id r k a b hc _ _ _ =>
      refine ⟨h1, h2, ?_, fun j id' r' k' hp hno => keep (h4 _ _ _ _ hp hno) ?_⟩
      · intro j id' x hx
        rcases List.mem_append.mp hx with hx | hx
        · exact h3 _ _ _ hx
        · cases List.mem_singleton.mp hx
      · rintro rfl
        rw [h4 _ _ _ _ hp hno] at hc
        cases hc
    | work hp _ =>
      obtain ⟨e1, e2⟩ := h.pool hp h1
      refine ⟨e1, ?_, ?_, h4⟩
      · exact e2.symm ▸ h2
      · intro j id' x hx
        rw [Option.toList_none, List.append_nil] at hx
        exact h3 _ _ _ hx
    | @ret _ i id r k m a b hc he hid =>
      have hm : m ∈ p.net.replies := h2.mem (he ▸ List.mem_append_right _ (List.mem_cons_self ..))
      refine ⟨h1, hsub he, ?_, fun j id' r' k' hp hno => keep (h4 _ _ _ _ hp hno) ?_⟩
      · intro j id' x hx
        rcases List.mem_append.mp hx with hx | hx
        · exact h3 _ _ _ hx
        · cases List.mem_singleton.mp hx
          exact ⟨m, hm, hid⟩
      · rintro rfl
        rw [h4 _ _ _ _ hp hno] at hc
        cases hc
        exact hno m hm hid
    | @news _ m a b he _ =>
      refine ⟨h1, hsub he, ?_, h4⟩
      intro j id' x hx
      rcases List.mem_append.mp hx with hx | hx
      · exact h3 _ _ _ hx
      · cases List.mem_singleton.mp hx

/-- Until a request that is `bad` is dealt with, operations take place one at a time.  Whatever is seen, even afterwards, could
have been seen using directly what is served, which just does nothing any more; nothing that is `bad` is ever done.  Threads do
not return before all programs have ended. -/
def AtomicUntil {S R A N : Type} (svc : Service (Option S × Net) Unit) (wire : Wire R A N) (act : R → S → List N × A × S)
    (ok bad : R → Prop) (allows : R → A → Prop) (inv : S → Prop) (n : Nat) : Prop :=
  ∀ (α : Type) (s : S) (uses : List (Calls R A α)) (bufs : List Bytes) (es : List (Visible R A N)) (q : Threaded S R A α),
    inv s → (∀ u ∈ uses, u.Asks ok allows) → (∀ b ∈ bufs, n ≤ b.length) → Threaded.Run svc wire (.start s bufs uses) es q →
    ∃ o, Object.Run wire.toStyle act (.start s uses) es o ∧ o.clients = q.clients ∧ inv o.state ∧
      (∀ i id r, Visible.call i id r ∈ es → bad r → (id, r) ∈ o.pending) ∧
      (q.state = some o.state ∨ q.state = none ∧ ∃ t ∈ o.pending, bad t.2) ∧
      ∀ w ∈ q.pool.workers, w = .finished → ∀ t ∈ q.clients, t.Ended

/-- What programs have been told, or are about to be, agrees with direct use. -/
structure Told (wire : Wire R A N) (ok : R → Prop) (allows : R → A → Prop) (inv : S → Prop) (p : Threaded S R A α)
    (o : Object S R A N α) (rs : List (Bytes × Says R A N)) : Prop where
  good : o.Good wire.toStyle ok allows inv
  clients : p.clients = o.clients
  replies : p.pool.world.2.replies = rs.map Prod.fst
  answers : o.answers = rs.filterMap fun x => x.2.getRight?
  announced : o.announced = rs.filterMap fun x => x.2.getLeft?
  read : ∀ x ∈ rs, wire.Reads x

theorem InStep.told {wire : Wire R A N} {ok : R → Prop} {allows : R → A → Prop} {inv : S → Prop} {n : Nat} {loud : Bool}
    {p p' : Threaded S R A α} {o : Object S R A N α} {queued : List (UInt64 × R)}
    {ws : List (Worker Unit × Option (UInt64 × R))} {rs : List (Bytes × Says R A N)}
    (h : InStep wire ok allows inv n loud p o queued ws rs) (hc : p'.clients = p.clients)
    (hr : p'.pool.world.2.replies = p.pool.world.2.replies) : Told wire ok allows inv p' o rs :=
  ⟨h.good, hc.trans h.clients, hr.trans h.replies, h.answers, h.announced, h.read⟩

/-- What programs see does not depend upon the threads. -/
theorem Told.step {svc : Service (Option S × Net) Unit} {wire : Wire R A N} {act : R → S → List N × A × S} {ok : R → Prop}
    {allows : R → A → Prop} {inv : S → Prop} {n : Nat} {loud : Bool} (hf : Willing svc wire act ok allows inv n loud)
    {p p' : Threaded S R A α} {o : Object S R A N α} {rs : List (Bytes × Says R A N)} (h : Told wire ok allows inv p o rs)
    {e : Visible R A N} (hs : Threaded.Step svc wire (some e) p p') :
    ∃ o' rs', Told wire ok allows inv p' o' rs' ∧ Object.Step wire.toStyle act (some e) o o' ∧ p'.pool.world.1 = p.pool.world.1 := by
  have hi : InStep wire ok allows inv n loud
      ⟨⟨(some o.state, ⟨o.pending.map fun t => wire.message t.1 t.2, p.pool.world.2.replies⟩), [], [], 0⟩, p.clients⟩ o
      o.pending [] rs := by
    refine ⟨h.good, rfl, h.clients, rfl, rfl, fun _ h => (nomatch h), ?_, h.replies, h.answers, h.announced, h.read,
      fun _ h => (nomatch h), ?_, rfl⟩
    · rw [List.filterMap_nil, List.append_nil]
    · cases loud <;> rfl
  have key : ∀ {x : Threaded S R A α}, Threaded.Step svc wire (some e)
      ⟨⟨(some o.state, ⟨o.pending.map fun t => wire.message t.1 t.2, p.pool.world.2.replies⟩), [], [], 0⟩, p.clients⟩ x →
      p'.clients = x.clients → p'.pool.world.2.replies = x.pool.world.2.replies →
      ∃ o' rs', Told wire ok allows inv p' o' rs' ∧ Object.Step wire.toStyle act (some e) o o' := by
    intro x hx h1 h2
    rcases inStep_or hf hi hx with ⟨o', _, _, rs', hi', _, hs', _⟩ | ⟨_, _, _, _, hw, _⟩
    · rcases hs' with ⟨h, _⟩ | hs'
      · cases h
      · exact ⟨o', rs', hi'.told h1 h2, hs'⟩
    · cases hw
  cases hs with
  | call hc hid hn hq =>
    obtain ⟨o', rs', h1, h2⟩ := key (.call hc hid hn (p := []) rfl) rfl rfl
    exact ⟨o', rs', h1, h2, rfl⟩
  | ret hc hr hm =>
    obtain ⟨o', rs', h1, h2⟩ := key (.ret hc hr hm) rfl rfl
    exact ⟨o', rs', h1, h2, rfl⟩
  | news hr hm =>
    obtain ⟨o', rs', h1, h2⟩ := key (.news hr hm) rfl rfl
    exact ⟨o', rs', h1, h2, rfl⟩

theorem Object.Step.called {style : Style R A} {act : R → S → List N × A × S} {o o' : Object S R A N α} {i : Nat} {id : UInt64}
    {r : R} (h : Object.Step style act (some (.call i id r)) o o') : (id, r) ∈ o'.pending := by
  cases h with
  | call hc hid hn hp => exact List.mem_append_right _ (List.mem_cons_self ..)

theorem Object.Step.pending {style : Style R A} {act : R → S → List N × A × S} {o o' : Object S R A N α} {e : Visible R A N}
    (h : Object.Step style act (some e) o o') {t : UInt64 × R} (ht : t ∈ o.pending) : t ∈ o'.pending := by
  cases h with
  | call hc hid hn hp =>
    rw [hp] at ht
    rcases List.mem_append.mp ht with ht | ht
    · exact List.mem_append_left _ ht
    · exact List.mem_append_right _ (List.mem_cons_of_mem _ ht)
  | ret => exact ht
  | news => exact ht

/-- A thread that may be about to end only if all programs have. -/
def Stays (n : Nat) (clients : List (Party R A α)) : Worker Unit → Prop
  | .receiving buf => n ≤ buf.length
  | .handling buf _ => n ≤ buf.length
  | .reporting _ e => isFatalError e = true ∧ ∀ t ∈ clients, t.Ended
  | .finished => ∀ t ∈ clients, t.Ended
  | .faulted _ => True

/-- What there is to be received can be, and threads stay. -/
structure Fits (wire : Wire R A N) (n : Nat) (p : Threaded S R A α) (o : Object S R A N α) : Prop where
  queue : ∃ queued : List (UInt64 × R), p.pool.world.2.queue = queued.map (fun t => wire.message t.1 t.2) ∧
    ∀ t ∈ queued, t ∈ o.pending
  workers : ∀ w ∈ p.pool.workers, Stays n p.clients w

theorem InStep.fits {wire : Wire R A N} {ok : R → Prop} {allows : R → A → Prop} {inv : S → Prop} {n : Nat} {loud : Bool}
    {p : Threaded S R A α} {o : Object S R A N α} {queued : List (UInt64 × R)}
    {ws : List (Worker Unit × Option (UInt64 × R))} {rs : List (Bytes × Says R A N)}
    (h : InStep wire ok allows inv n loud p o queued ws rs) : Fits wire n p o := by
  refine ⟨⟨queued, h.queue, fun t ht => h.pending.mem_iff.mpr (List.mem_append_left _ ht)⟩, fun w hw => ?_⟩
  rw [h.workers] at hw
  obtain ⟨⟨w, t⟩, hm, rfl⟩ := List.mem_map.mp hw
  have ha := h.work _ hm
  have hc := h.closed _ hm
  rw [← h.clients] at hc
  dsimp only at ha hc ⊢
  cases w with
  | receiving buf =>
    cases t with
    | none => exact ha
    | some _ => exact ha.elim
  | handling buf r =>
    cases t with
    | none => exact ha.elim
    | some _ => exact ha.1
  | reporting buf e =>
    cases t with
    | none =>
      obtain ⟨_, rfl⟩ := ha
      exact ⟨rfl, (hc trivial).2⟩
    | some _ => exact ha.elim
  | finished => exact (hc trivial).2
  | faulted f => exact trivial

/-- A thread's step after the loss. -/
theorem Fits.work {svc : Service (Option S × Net) Unit} {wire : Wire R A N} {act : R → S → List N × A × S} {ok : R → Prop}
    {allows : R → A → Prop} {inv : S → Prop} {n : Nat} {loud : Bool} (hf : Willing svc wire act ok allows inv n loud)
    (hm : Mute svc) {p : Threaded S R A α} {o : Object S R A N α} (hg : o.Good wire.toStyle ok allows inv) (h : Fits wire n p o)
    (hl : p.pool.world.1 = none) {e : Event Unit} {pool : Pool (Option S × Net) Unit} (hs : Pool.Step svc e p.pool pool)
    (hc : Closing e → ∀ t ∈ p.clients, t.Ended) : Fits wire n { p with pool := pool } o := by
  obtain ⟨⟨queued, h1, h2⟩, h3⟩ := h
  obtain ⟨⟨⟨ps, queue, replies⟩, workers, ch, cap⟩, clients⟩ := p
  dsimp only at hl h1 h3 hc hs ⊢
  subst hl h1
  cases hs with
  | @mk _ i w w' _ channel s hw hstep =>
    dsimp only at hw hstep
    have hw' := h3 w (List.mem_of_getElem? hw)
    suffices h : (∃ queued' : List (UInt64 × R), s.2.queue = queued'.map (fun t => wire.message t.1 t.2) ∧
        ∀ t ∈ queued', t ∈ queued) ∧ Stays n clients w' by
      obtain ⟨⟨queued', h4, h5⟩, h6⟩ := h
      refine ⟨⟨queued', h4, fun t ht => h2 t (h5 t ht)⟩, fun x hx => ?_⟩
      rcases List.mem_or_eq_of_mem_set hx with hx | rfl
      · exact h3 x hx
      · exact h6
    cases w with
    | receiving buf =>
      cases queued with
      | nil =>
        unfold workerStep at hstep
        dsimp only at hstep
        rw [List.map_nil, hf.closed] at hstep
        cases loud with
        | false => cases hstep; exact ⟨⟨[], rfl, fun _ h => h⟩, hc (.inl rfl)⟩
        | true => cases hstep; exact ⟨⟨[], rfl, fun _ h => h⟩, rfl, hc (.inr rfl)⟩
      | cons t queued =>
        obtain ⟨k1, k2⟩ := hg.pending t (h2 t (List.mem_cons_self ..))
        obtain ⟨buf', hb, hr⟩ := hf.recv t.1 t.2 k1 k2 buf none (queued.map fun t => wire.message t.1 t.2) replies hw'
        unfold workerStep at hstep
        dsimp only at hstep
        rw [List.map_cons, hr] at hstep
        cases hstep
        exact ⟨⟨queued, rfl, fun _ h => List.mem_cons_of_mem _ h⟩, hb⟩
    | handling buf r =>
      unfold workerStep at hstep
      dsimp only at hstep
      cases hd : svc.dispatch r (none, ⟨queued.map fun t => wire.message t.1 t.2, replies⟩) with
      | ok y =>
        rw [hd] at hstep
        cases hstep
        cases hm.dispatch _ _ _ hd
        exact ⟨⟨queued, rfl, fun _ h => h⟩, hw'⟩
      | error f =>
        rw [hd] at hstep
        cases hstep
        exact ⟨⟨queued, rfl, fun _ h => h⟩, trivial⟩
    | reporting buf e =>
      unfold workerStep at hstep
      dsimp only at hstep
      split at hstep
      · cases hstep
        rw [if_pos hw'.1]
        exact ⟨⟨queued, rfl, fun _ h => h⟩, hw'.2⟩
      · cases hstep
    | finished => cases hstep
    | faulted f => cases hstep

/-- A program's step. -/
theorem Fits.visible {svc : Service (Option S × Net) Unit} {wire : Wire R A N} {act : R → S → List N × A × S} {n : Nat}
    {p p' : Threaded S R A α} {o o' : Object S R A N α} (h : Fits wire n p o) {e : Visible R A N}
    (hs : Threaded.Step svc wire (some e) p p') (ho : Object.Step wire.toStyle act (some e) o o') : Fits wire n p' o' := by
  obtain ⟨⟨queued, h1, h2⟩, h3⟩ := h
  have stays : ∀ {i : Nat} {t t' : Party R A α}, p.clients[i]? = some t → ¬ t.Ended →
      ∀ w ∈ p.pool.workers, Stays n (p.clients.set i t') w := by
    intro i t t' hi ht w hw
    have := h3 w hw
    cases w with
    | receiving buf => exact this
    | handling buf r => exact this
    | reporting buf e => exact absurd (this.2 t (List.mem_of_getElem? hi)) ht
    | finished => exact absurd (this t (List.mem_of_getElem? hi)) ht
    | faulted f => exact trivial
  cases hs with
  | @call _ i id r k a b hc hid hn hq =>
    obtain ⟨x, y, rfl, hx, hy⟩ := List.map_eq_append_iff.mp (h1.symm.trans hq)
    refine ⟨⟨x ++ (id, r) :: y, ?_, fun t ht => ?_⟩, stays hc fun h => h⟩
    · show a ++ wire.message id r :: b = _
      rw [List.map_append, List.map_cons, hx, hy]
    · rcases List.mem_append.mp ht with ht | ht
      · exact ho.pending (h2 t (List.mem_append_left _ ht))
      · rcases List.mem_cons.mp ht with rfl | ht
        · exact ho.called
        · exact ho.pending (h2 t (List.mem_append_right _ ht))
  | ret hc _ _ => exact ⟨⟨queued, h1, fun t ht => ho.pending (h2 t ht)⟩, stays hc fun h => h⟩
  | news _ _ => exact ⟨⟨queued, h1, fun t ht => ho.pending (h2 t ht)⟩, h3⟩

theorem until_ruin {svc : Service (Option S × Net) Unit} {wire : Wire R A N} {act : R → S → List N × A × S} {ok bad : R → Prop}
    {allows : R → A → Prop} {inv : S → Prop} {n : Nat} {loud : Bool} (hf : Willing svc wire act ok allows inv n loud)
    (hm : Mute svc) (hgood : ∀ id r, id ≠ 0 → ok r → ¬ bad r → Does svc wire act inv id r)
    (hruin : ∀ id r s net, id ≠ 0 → ok r → bad r → svc.dispatch ⟨wire.message id r⟩ (some s, net) = .ok (none, net)) :
    AtomicUntil svc wire act ok bad allows inv n := by
  intro α s uses bufs es q hs hu hbufs hrun
  suffices h : ∃ o, Object.Run wire.toStyle act (.start s uses) es o ∧
      (∀ i id r, Visible.call i id r ∈ es → bad r → (id, r) ∈ o.pending) ∧
      ((∃ queued ws rs, InStep wire ok allows inv n loud q o queued ws rs) ∨
        (q.pool.world.1 = none ∧ (∃ t ∈ o.pending, bad t.2) ∧ Fits wire n q o ∧ ∃ rs, Told wire ok allows inv q o rs)) by
    obtain ⟨o, h1, h2, ⟨_, _, _, h⟩ | ⟨h3, h4, h5, _, h⟩⟩ := h
    · exact ⟨o, h1, h.clients.symm, h.good.state, h2, .inl h.state, fun w hw e => by subst e; exact h.fits.workers _ hw⟩
    · exact ⟨o, h1, h.clients.symm, h.good.state, h2, .inr ⟨h3, h4⟩, fun w hw e => by subst e; exact h5.workers _ hw⟩
  induction hrun with
  | start => exact ⟨_, .start, fun _ _ _ h => (nomatch h), .inl ⟨_, _, _, inStep_start hs hu hbufs⟩⟩
  | @step es e p p' _ hstep ih =>
    obtain ⟨o, h1, h2, h⟩ := ih
    have calls : ∀ {o' : Object S R A N α}, (∀ t ∈ o.pending, bad t.2 → t ∈ o'.pending) →
        ((e = none ∧ o' = o) ∨ Object.Step wire.toStyle act e o o') →
        ∀ i id r, Visible.call i id r ∈ es ++ e.toList → bad r → (id, r) ∈ o'.pending := by
      intro o' hk hs' i id r hc hb
      rcases List.mem_append.mp hc with hc | hc
      · exact hk _ (h2 i id r hc hb) hb
      · cases e with
        | none => cases hc
        | some e =>
          cases List.mem_singleton.mp hc
          rcases hs' with ⟨h, _⟩ | hs'
          · cases h
          · exact hs'.called
    rcases h with ⟨queued, ws, rs, h⟩ | ⟨h3, ⟨t, h4, h5⟩, h6, rs, h⟩
    · rcases inStep_or hf h hstep with ⟨o', queued', ws', rs', h', hk, hs', _⟩ | ⟨i, buf, id, r, hi, hp, hd, rfl, ev, w, ch, x, hw, rfl⟩
      · refine ⟨o', ?_, calls (fun t ht hb => ?_) hs', .inl ⟨_, _, _, h'⟩⟩
        · rcases hs' with ⟨rfl, rfl⟩ | hs'
          · rw [Option.toList_none, List.append_nil]
            exact h1
          · exact .step h1 hs'
        · refine Classical.byContradiction fun hn => ?_
          obtain ⟨_, e1, _⟩ := hk t ht hn o.state h.good.state ⟨[], []⟩
          obtain ⟨k1, k2⟩ := h.good.pending t ht
          rw [hruin t.1 t.2 o.state _ k1 k2 hb] at e1
          cases e1
      · obtain ⟨k1, k2⟩ := h.good.pending _ hp
        have hb : bad r := Classical.byContradiction fun hb => hd (hgood _ _ k1 k2 hb)
        have e1 : p.pool.world = (some o.state, p.pool.world.2) := Prod.ext h.state rfl
        unfold workerStep at hw
        dsimp only at hw
        rw [e1, hruin _ _ _ _ k1 k2 hb] at hw
        cases hw
        refine ⟨o, ?_, calls (fun _ h _ => h) (.inl ⟨rfl, rfl⟩), .inr ⟨rfl, ⟨_, hp, hb⟩,
          ⟨h.fits.queue, fun x hx => ?_⟩, rs, h.told rfl rfl⟩⟩
        · rw [Option.toList_none, List.append_nil]
          exact h1
        · rcases List.mem_or_eq_of_mem_set hx with hx | rfl
          · exact h.fits.workers x hx
          · have := h.fits.workers _ (List.mem_of_getElem? hi)
            exact this
    · cases e with
      | none =>
        cases hstep with
        | work hp hc =>
          obtain ⟨e1, e2⟩ := hm.pool hp h3
          refine ⟨o, ?_, calls (fun _ h _ => h) (.inl ⟨rfl, rfl⟩), .inr ⟨e1, ⟨t, h4, h5⟩,
            h6.work hf hm h.good h3 hp hc, rs, ⟨h.good, h.clients, e2.trans h.replies,
            h.answers, h.announced, h.read⟩⟩⟩
          rw [Option.toList_none, List.append_nil]
          exact h1
      | some e =>
        obtain ⟨o', rs', h', hs', e1⟩ := h.step hf hstep
        exact ⟨o', .step h1 hs', calls (fun _ h _ => hs'.pending h) (.inr hs'),
          .inr ⟨e1.trans h3, ⟨t, hs'.pending h4, h5⟩, h6.visible hstep hs', rs', h'⟩⟩

theorem run_then {svc : Service (Option S × Net) Unit} {wire : Wire R A N} {p q r : Threaded S R A α}
    {es es' : List (Visible R A N)} (h : Threaded.Run svc wire p es q) (h' : Threaded.Run svc wire q es' r) :
    Threaded.Run svc wire p (es ++ es') r := by
  induction h' with
  | start => rwa [List.append_nil]
  | step _ hs ih =>
    rw [← List.append_assoc]
    exact .step ih hs

theorem net_recv_keeps (buf : Bytes) (x : Option S × Net) :
    ((Net.socket S).recv buf x).2.1 = x.1 ∧ ((Net.socket S).recv buf x).2.2.replies = x.2.replies := by
  obtain ⟨s, queue, replies⟩ := x
  cases queue with
  | nil => exact ⟨rfl, rfl⟩
  | cons m ms =>
    show (if m.length ≤ buf.length then _ else _ : (_ × _) × (Option S × Net)).2.1 = _ ∧
      (if m.length ≤ buf.length then _ else _ : (_ × _) × (Option S × Net)).2.2.replies = _
    split <;> exact ⟨rfl, rfl⟩

/-- Handlers that do nothing after the loss. -/
def MuteHandlers {M : Type} (h : Handlers M (Option S × Net)) : Prop :=
  (∀ r net, h.unimplemented r (none, net) = (none, net)) ∧
  ∀ m f, h.overridden m = some f → ∀ r net, f r (none, net) = (none, net)

theorem mute_fuse {h : Handlers FuseMethod (Option S × Net)} (hh : MuteHandlers h) : Mute (fuseService (Net.socket S) h) where
  recv buf x := by
    show (fuseRecv (Net.socket S) buf x).2.1 = x.1 ∧ (fuseRecv (Net.socket S) buf x).2.2.replies = x.2.replies
    have h1 := net_recv_keeps buf x
    unfold fuseRecv
    revert h1
    generalize (Net.socket S).recv buf x = o
    obtain ⟨⟨r, b⟩, s'⟩ := o
    intro h1
    cases r with
    | error e => cases e <;> exact h1
    | ok n =>
      dsimp only
      cases Request.new (truncateSlice b n) <;> exact h1
  dispatch r net y hy := by
    have hy : fuseDispatch h r (none, net) = .ok y := hy
    unfold fuseDispatch at hy
    cases hr : r.rawHeader with
    | error f => rw [hr] at hy; cases hy
    | ok hd =>
      rw [hr] at hy
      have hy : Except.ok (fuseSelect h hd.opcode r (none, net)) = .ok y := hy
      cases hy
      rw [fuseSelect_eq]
      cases fuseMethodAt hd.opcode.toNat with
      | none => exact hh.1 _ _
      | some m =>
        show fuseCall h m r (none, net) = _
        unfold fuseCall
        cases ho : h.overridden m with
        | some f => exact hh.2 _ _ ho _ _
        | none => cases m <;> first | rfl | exact hh.1 _ _

theorem mute_cuse {h : Handlers CuseMethod (Option S × Net)} (hh : MuteHandlers h) : Mute (cuseService (Net.socket S) h) where
  recv buf x := by
    have h1 := net_recv_keeps buf x
    unfold cuseService cuseRecv
    dsimp only
    revert h1
    generalize (Net.socket S).recv buf x = o
    obtain ⟨⟨r, b⟩, s'⟩ := o
    intro h1
    cases r with
    | error e => exact h1
    | ok n =>
      dsimp only
      cases Request.new (truncateSlice b n) <;> exact h1
  dispatch r net y hy := by
    have hy : cuseDispatch h r (none, net) = .ok y := hy
    unfold cuseDispatch at hy
    cases hr : r.rawHeader with
    | error f => rw [hr] at hy; cases hy
    | ok hd =>
      rw [hr] at hy
      have hy : Except.ok (cuseSelect h hd.opcode r (none, net)) = .ok y := hy
      cases hy
      rw [cuseSelect_eq]
      cases cuseMethodAt hd.opcode.toNat with
      | none => exact hh.1 _ _
      | some m =>
        show cuseCall h m r (none, net) = _
        unfold cuseCall
        cases ho : h.overridden m with
        | some f => exact hh.2 _ _ ho _ _
        | none => cases m <;> first | rfl | exact hh.1 _ _

theorem note_mute (srv : NoteServer S) : MuteHandlers (srv.handlers (Net.socket S)) := by
  refine ⟨fun _ _ => rfl, fun m f hf r net => ?_⟩
  obtain ⟨t, -, rfl⟩ := Option.map_eq_some_iff.mp hf
  rfl

theorem guards_mute (srv : RpcServer S) : MuteHandlers (srv.guards (Net.socket S)) := by
  refine ⟨fun _ _ => rfl, fun m f hf r net => ?_⟩
  obtain ⟨t, -, rfl⟩ := Option.map_eq_some_iff.mp hf
  rfl

theorem dev_mute (srv : DevServer S) : MuteHandlers (srv.handlers (Net.socket S)) :=
  ⟨fun _ _ => rfl, fun m f hf r net => by cases hf; rfl⟩

/-- No handler survives a WRITE of less than 16 bytes before 7.9. -/
theorem short_write_handles (srv : NoteServer S) {minor : Nat} (hm : srv.layout.versionMinor.toNat = minor) (ext : Bool)
    {u : UInt64} (hu : u ≠ 0) (who : Caller) (op : Op) (s : S) (hlost : ¬ op.Arrives minor) (net : Net) :
    (fuseThreads srv).dispatch ⟨(fuseWire minor ext).message u (who, op)⟩ (some s, net) = .ok (none, net) := by
  cases op with
  | write node fh offset data flags owner openFlags =>
    have h9 : minor < 9 := Decidable.byContradiction fun h => hlost fun h' => absurd h' h
    have h16 : data.length < 16 := Decidable.byContradiction fun h => hlost fun _ => by omega
    have e : (Op.write node fh offset data flags owner openFlags).requestIn minor ext =
      (node.val, .writeOld ⟨fh, offset, UInt32.ofNat data.length, flags⟩ data) := if_pos h9
    show fuseDispatch (srv.handlers (Net.socket S)) ⟨_⟩ _ = _
    unfold fuseWire
    dsimp only
    rw [e]
    dsimp only
    have hb : (ClientReq.writeOld ⟨fh, offset, UInt32.ofNat data.length, flags⟩ data).body.length = 24 + data.length :=
      List.length_append ..
    have hd : (UInt32.ofNat data.length).toNat = data.length := UInt32.toNat_ofNat_of_lt' (show _ < 2 ^ 32 by omega)
    have hacc := message_acceptable (a := .writeOld ⟨fh, offset, UInt32.ofNat data.length, flags⟩ data) (unique := u)
      (nodeid := node.val) (uid := who.uid) (gid := who.gid) (pid := who.pid) (padding := 0) (tail := []) hu (by omega)
    have hopc := message_opcode (a := .writeOld ⟨fh, offset, UInt32.ofNat data.length, flags⟩ data) (unique := u)
      (nodeid := node.val) (uid := who.uid) (gid := who.gid) (pid := who.pid) (padding := 0) (tail := [])
    obtain ⟨f, hf⟩ := C13_exact ⟨fh, offset, UInt32.ofNat data.length, flags⟩ data srv.layout.minor false u node.val who.uid
      who.gid who.pid 0 [] (layout_minor_lt (n := 9) (by decide) (by omega)) (.inr node.2) hd hu (by
        show 64 + data.length + 0 < 80
        omega)
    rw [List.append_nil] at hacc hopc hf
    unfold decodeMessage at hf
    rw [acceptable_new hacc] at hf
    dsimp only at hf
    generalize (ClientReq.writeOld ⟨fh, offset, UInt32.ofNat data.length, flags⟩ data).message u node.val who.uid who.gid
      who.pid 0 = msg at *
    refine (C25_fuse _ _ _ (acceptable_new hacc) _).trans (congrArg Except.ok ?_)
    unfold fuseHandle
    rw [hopc]
    show srv.answer (Net.socket S) (.write srv.layout.minor false) ⟨msg⟩ s net = _
    unfold NoteServer.answer
    rw [hf]
    rcases Filesystem.idAndHeader ⟨msg⟩ with _ | _ <;> rfl
  | _ => exact absurd trivial hlost

end

end Many

section
open Many

/-- **C83** for devices, the other case: no handler survives a POLL with node ID 0.  The device is lost, nothing is answered
then or later, and whoever waits for a reply that has not been sent yet waits forever. -/
theorem C83_device_ruin {S : Type} (srv : DevServer S) :
    (∀ (id : UInt64) (r : Caller × UInt64 × DevOp) (s : S) (net : Net), id ≠ 0 → ¬ PollsNode r →
      (deviceThreads srv).dispatch ⟨deviceWire.message id r⟩ (some s, net) = .ok (none, net)) ∧
    Silenced (deviceThreads srv) deviceWire := by
  refine ⟨fun id ⟨who, node, op⟩ s net hid hr => ?_, (mute_cuse (dev_mute srv)).silenced _⟩
  have ha : op.Astray node := by
    refine Decidable.byContradiction fun h => hr fun handle events flags e h0 => h ?_
    have e : op = _ := e
    have h0 : node = 0 := h0
    rw [e]
    exact h0
  have hl : 40 + op.request.body.length < 2 ^ 32 := by
    cases op <;> try exact ha.elim
    simp only [DevOp.request, ClientReq.body, ← enc_fuse_poll_in, Wire.enc_length]; decide
  have hacc := message_acceptable (a := op.request) (unique := id) (nodeid := node) (uid := who.uid) (gid := who.gid)
    (pid := who.pid) (padding := 0) (tail := []) hid hl
  rw [List.append_nil] at hacc
  exact (C25_cuse _ _ _ (acceptable_new hacc) _).trans (congrArg Except.ok (astray_handles srv _ hid ha s net))

/-- **C83** for filesystems, the other case: no handler survives a WRITE of less than 16 bytes before 7.9.  See
C83_device_ruin. -/
theorem C83_fuse_ruin {S : Type} (srv : NoteServer S) (ext : Bool) :
    (∀ (id : UInt64) (r : Caller × Op) (s : S) (net : Net), id ≠ 0 → ¬ r.2.Arrives srv.layout.versionMinor.toNat →
      (fuseThreads srv).dispatch ⟨(fuseWire srv.layout.versionMinor.toNat ext).message id r⟩ (some s, net) = .ok (none, net)) ∧
    Silenced (fuseThreads srv) (fuseWire srv.layout.versionMinor.toNat ext) :=
  ⟨fun _ r s net hid hr => short_write_handles srv rfl ext hid r.1 r.2 s hr net, (mute_fuse (note_mute srv)).silenced _⟩

/-- C86: what C86_ruin says of one message, for everything that can come after it. -/
theorem C86_silenced {S : Type} (srv : RpcServer S) :
    Silenced (guardedThreads srv) (anyWire (made srv.layout) Op.kind (fuseNo srv.layout)) :=
  (mute_fuse (guards_mute srv)).silenced _

/-- C83 and C86: if a program waits for a reply that is not there when what is served has been lost, no thread ever returns. -/
theorem C83_hangs {S R A N α : Type} {svc : Service (Option S × Net) Unit} {wire : Many.Wire R A N} {act : R → S → List N × A × S}
    {ok bad : R → Prop} {allows : R → A → Prop} {inv : S → Prop} {n : Nat}
    (hu : AtomicUntil svc wire act ok bad allows inv n) (hs : Silenced svc wire) {s : S} (hi : inv s)
    {uses : List (Calls R A α)} {bufs : List Bytes} (ha : ∀ u ∈ uses, u.Asks ok allows) (hb : ∀ b ∈ bufs, n ≤ b.length)
    {es es' : List (Many.Visible R A N)} {p q : Many.Threaded S R A α}
    (hr : Many.Threaded.Run svc wire (.start s bufs uses) es p) (hl : p.state = none)
    {i : Nat} {id : UInt64} {r : R} {k : A → Calls R A α} (hw : p.clients[i]? = some (.waiting id r k))
    (hno : ∀ m ∈ p.net.replies, u64At m 8 ≠ id.toNat) (hr' : Many.Threaded.Run svc wire p es' q) :
    ∀ w ∈ q.pool.workers, w ≠ .finished := by
  intro w hw' e
  obtain ⟨_, _, _, _, _, _, h⟩ := hu α s uses bufs (es ++ es') q hi ha hb (run_then hr hr')
  exact h w hw' e _ (List.mem_of_getElem? ((hs α p q es' hl hr').2.2.2 i id r k hw hno))

/-- **C83** for devices, exactly: operations take place one at a time, whatever programs do.  If one sends a POLL with node ID 0,
that only means that at some time nothing takes place any more; see C83_device_ruin. -/
theorem C83_device_until {S : Type} (srv : DevServer S) (h9 : 9 ≤ srv.layout.versionMinor) (inv : S → Prop)
    (hb : DeviceBehaves srv.act inv) (n : Nat) :
    AtomicUntil (deviceThreads srv) deviceWire (deviceAct srv.act) (DeviceOk n) (fun r => ¬ PollsNode r) DeviceAllows inv n :=
  until_ruin (device_willing srv hb n) (mute_cuse (dev_mute srv))
    (fun id r hid hr hg s hs => (device_faithful srv h9 hb n).dispatch id r s hid ⟨hr, Classical.not_not.mp hg⟩ hs)
    fun id r s net hid _ hr => (C83_device_ruin srv).1 id r s net hid hr

/-- **C83** for filesystems, exactly: see C83_device_until. -/
theorem C83_fuse_until {S : Type} (srv : NoteServer S) (haddr : ∀ op, srv.addr op % 8 = 0)
    (h7 : 7 ≤ srv.layout.versionMinor.toNat) (ext : Bool) (hext : ext = true ↔ srv.layout.features &&& 1 ≠ 0)
    (inv : S → Prop) (hb : FuseBehaves srv.act srv.layout.versionMinor.toNat ext inv) (n : Nat) :
    AtomicUntil (fuseThreads srv) (fuseWire srv.layout.versionMinor.toNat ext)
      (fuseAct fun who op s => srv.act who (op.seenIn srv.layout.versionMinor.toNat) s)
      (FuseOk srv.layout.versionMinor.toNat ext n) (fun r => ¬ r.2.Arrives srv.layout.versionMinor.toNat)
      (FuseAllows srv.layout.versionMinor.toNat) inv n :=
  until_ruin (fuse_willing srv hb.seen n) (mute_fuse (note_mute srv))
    (fun id r hid hr hg s hs => (fuse_faithful srv haddr rfl h7 hext (good := Op.Arrives srv.layout.versionMinor.toNat)
      (fun _ h => h) (fun _ _ _ _ => rfl) hb.seen n).dispatch id r s hid ⟨hr, Classical.not_not.mp hg⟩ hs)
    fun id r s net hid _ hr => (C83_fuse_ruin srv ext).1 id r s net hid hr

/-- **C86** for filesystems and programs that send any messages whatsoever: what is made of them takes place, one thing at a
time.  If one sends a BATCH_FORGET that no handler survives, that only means that at some time nothing takes place any more. -/
theorem C86_until {S : Type} (srv : RpcServer S) (haddr : ∀ op, srv.addr op % 8 = 0) (h12 : 12 ≤ srv.layout.versionMinor)
    (ext : Bool) (hext : ext = true ↔ srv.layout.features &&& 1 ≠ 0) (inv : S → Prop) (hinv : KeepsAll srv.act ext inv)
    (n : Nat) :
    AtomicUntil (guardedThreads srv) (anyWire (made srv.layout) Op.kind (fuseNo srv.layout))
      (anyAct (made srv.layout) (fuseNo srv.layout) srv.act) (AnyOk n) (Ruinous srv.checks)
      (AnyAllows (made srv.layout) Op.kind) inv n :=
  until_ruin (any_willing (fun _ h => h) (fun _ who op s hm ha hs => hinv who op s hs (made_sound h12 hext hm.2 ha))
      (fun h1 h2 => net_recv h1 h2) (loud := false) fun _ _ _ => rfl) (mute_fuse (guards_mute srv))
    (fun id m hid hm hg s hs => (all_fuse_faithful srv haddr h12 hext hinv n).dispatch id m s hid ⟨hm, hg⟩ hs)
    fun id _ s net hid hm hr => (C86_ruin srv hm.2 id hid net).1 hr s

end

/-! ## Concrete cases -/

namespace ManyLost
open Many
open Rpc (alice bob root)

/-- Alice sends a POLL with node ID 0, Bob reads. -/
def first : Option (List (Many.Visible (Caller × UInt64 × DevOp) Ans Empty) × Many.Threaded Bytes (Caller × UInt64 × DevOp) Ans Ans) :=
  turns (deviceThreads pipe) deviceWire []
    (.start [7] [List.replicate 100 0] [once (alice, 0, .poll 1 2 3), once (bob, 0, .read 1 0 8 none 0)])
    [.call 0 5 0, .call 1 6 1, .work 0, .work 0]

/-- C83_device_ruin: neither hears anything, whatever is done. -/
example : ∃ es p, first = some (es, p) ∧ ∀ es' q, Many.Threaded.Run (deviceThreads pipe) deviceWire p es' q →
    q.state = none ∧ q.net.replies = [] ∧ ∀ i < 2, ∃ id r k, q.clients[i]? = some (.waiting id r k) := by
  have hd : first.map (fun x => (x.2.state, x.2.net.replies, x.2.clients.map fun t => t.ticket.map Prod.fst)) =
      some (none, [], [some 5, some 6]) := by decide +kernel
  obtain ⟨⟨es, p⟩, h1, h2⟩ := Option.map_eq_some_iff.mp hd
  obtain ⟨h2, h3⟩ := Prod.mk.inj h2
  obtain ⟨h3, h4⟩ := Prod.mk.inj h3
  refine ⟨es, p, h1, fun es' q hr => ?_⟩
  obtain ⟨e1, e2, -, e4⟩ := (C83_device_ruin pipe).2 _ p q es' h2 hr
  dsimp only at h3
  rw [h3] at e2 e4
  refine ⟨e1, List.eq_nil_of_subset_nil e2.subset, fun i hi => ?_⟩
  have h5 : (p.clients.map fun t => t.ticket.map Prod.fst)[i]? = some (some (if i = 0 then 5 else 6)) := by
    dsimp only at h4
    rw [h4]
    match i, hi with
    | 0, _ => rfl
    | 1, _ => rfl
  rw [List.getElem?_map] at h5
  obtain ⟨t, h6, h7⟩ := Option.map_eq_some_iff.mp h5
  cases t with
  | ready u => cases h7
  | waiting id r k => exact ⟨id, r, k, e4 _ _ _ _ h6 nofun⟩

/-- Alice sends a POLL with node ID 0, after Bob has sent a READ; Bob only hears about it when the device is lost. -/
def late : Option (List (Many.Visible (Caller × UInt64 × DevOp) Ans Empty) × Many.Threaded Bytes (Caller × UInt64 × DevOp) Ans Ans) :=
  turns (deviceThreads pipe) deviceWire []
    (.start [7] [List.replicate 100 0] [once (alice, 0, .poll 1 2 3), once (bob, 0, .read 1 0 8 none 0)])
    [.call 1 6 0, .call 0 5 1, .work 0, .work 0, .work 0, .work 0, .ret 1 0]

/-- What happened, for comparison. -/
inductive What
  | asked (i : Nat) (id : UInt64) (r : Caller × UInt64 × DevOp)
  | heard (i : Nat) (id : UInt64) (a : Ans)
  | other
deriving DecidableEq

def what : Many.Visible (Caller × UInt64 × DevOp) Ans Empty → What
  | .call i id r => .asked i id r
  | .ret i id a => .heard i id a
  | .news _ => .other

/-- C83_device_until: that could have been seen with the device, had Alice's POLL taken more time. -/
example : ∃ es q, late = some (es, q) ∧ q.state = none ∧ Many.Visible.ret 1 6 (.data [7]) ∈ es ∧
    ∃ o, Many.Object.Run deviceWire.toStyle (deviceAct pipe.act)
      (.start [7] [once (alice, 0, .poll 1 2 3), once (bob, 0, .read 1 0 8 none 0)]) es o ∧ o.clients = q.clients ∧
      (5, alice, 0, .poll 1 2 3) ∈ o.pending := by
  have hd : late.map (fun x => (x.1.map what, x.2.state)) =
      some ([.asked 1 6 (bob, 0, .read 1 0 8 none 0), .asked 0 5 (alice, 0, .poll 1 2 3), .heard 1 6 (.data [7])], none) := by decide +kernel
  obtain ⟨⟨es, q⟩, h1, h2⟩ := Option.map_eq_some_iff.mp hd
  obtain ⟨h2, h3⟩ := Prod.mk.inj h2
  dsimp only at h2 h3
  obtain ⟨o, e1, e2, -, e3, -⟩ := C83_device_until pipe (by decide) (fun _ => True) pipe_behaves 100 _ _ _ _ _ _ trivial
    (fun u hu => by
      rcases List.mem_cons.mp hu with rfl | hu
      · exact ⟨⟨trivial, by show 40 + _ ≤ _; decide⟩, fun _ _ => trivial⟩
      · rw [List.mem_singleton] at hu
        subst hu
        exact ⟨⟨trivial, by show 40 + _ ≤ _; decide⟩, fun _ _ => trivial⟩) (by decide) (turns_sound .start h1)
  refine ⟨es, q, h1, h3, ?_, o, e1, e2, e3 0 5 (alice, 0, .poll 1 2 3) ?_ fun h => h 1 2 3 rfl rfl⟩
  · obtain ⟨e, he, h⟩ := List.mem_map.mp (h2 ▸ .tail _ (.tail _ (.head _)) : What.heard 1 6 (.data [7]) ∈ es.map what)
    cases e <;> cases h
    exact he
  · obtain ⟨e, he, h⟩ := List.mem_map.mp
      (h2 ▸ .tail _ (.head _) : What.asked 0 5 (alice, 0, .poll 1 2 3) ∈ es.map what)
    cases e <;> cases h
    exact he

/-- C83_hangs: the thread never returns. -/
example : ∃ es p, first = some (es, p) ∧ ∀ es' q, Many.Threaded.Run (deviceThreads pipe) deviceWire p es' q →
    ∀ w ∈ q.pool.workers, w ≠ .finished := by
  have hd : first.map (fun x => (x.2.state, x.2.net.replies, x.2.clients.map fun t => t.ticket.map Prod.fst)) =
      some (none, [], [some 5, some 6]) := by decide +kernel
  obtain ⟨⟨es, p⟩, h1, h2⟩ := Option.map_eq_some_iff.mp hd
  obtain ⟨h2, h3⟩ := Prod.mk.inj h2
  obtain ⟨h3, h4⟩ := Prod.mk.inj h3
  dsimp only at h2 h3 h4
  have h5 : (p.clients.map fun t => t.ticket.map Prod.fst)[0]? = some (some 5) := by rw [h4]; rfl
  rw [List.getElem?_map] at h5
  obtain ⟨t, h6, h7⟩ := Option.map_eq_some_iff.mp h5
  cases t with
  | ready u => cases h7
  | waiting id r k =>
    refine ⟨es, p, h1, fun es' q hr => C83_hangs (C83_device_until pipe (by decide) (fun _ => True) pipe_behaves 100)
      (C83_device_ruin pipe).2 trivial ?_ (by decide) (turns_sound .start h1) h2 h6 ?_ hr⟩
    · intro u hu
      rcases List.mem_cons.mp hu with rfl | hu
      · exact ⟨⟨trivial, by show 40 + _ ≤ _; decide⟩, fun _ _ => trivial⟩
      · rw [List.mem_singleton] at hu
        subst hu
        exact ⟨⟨trivial, by show 40 + _ ≤ _; decide⟩, fun _ _ => trivial⟩
    · rw [h3]
      exact fun _ h => nomatch h

/-- C83_fuse_ruin: a WRITE of one byte in 7.8, not in 7.9. -/
example (s : List (Caller × Op)) :
    (fuseThreads (nothing 8)).dispatch ⟨(fuseWire 8 false).message 5 (alice, .write root 1 2 [3] 0 none 0)⟩ (some s, ⟨[], []⟩) =
      .ok (none, ⟨[], []⟩) ∧
    ((fuseThreads (nothing 9)).dispatch ⟨(fuseWire 9 false).message 5 (alice, .write root 1 2 [3] 0 none 0)⟩
      (some [], ⟨[], []⟩)).toOption.map Prod.fst = some (some [(alice, .write root 1 2 [3] 0 none 0)]) :=
  ⟨(C83_fuse_ruin (nothing 8) false).1 5 (alice, .write root 1 2 [3] 0 none 0) s _ (by decide) (by decide), by decide +kernel⟩

end ManyLost

end Fuse
