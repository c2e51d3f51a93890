import Verif.PropManyLost

/-!
# C83 and C86: there is no infinite execution

Whatever programs do, even if a request that no handler survives is among it: at some time nothing happens any more.
-/

namespace Fuse
open Spec

namespace Many

/-- Programs that do `ok` things, and the threads, come to an end. -/
def ComesToEnd {S R A N : Type} (svc : Service (Option S × Net) Unit) (wire : Wire R A N) (ok : R → Prop)
    (allows : R → A → Prop) (inv : S → Prop) (n : Nat) : Prop :=
  ∀ (α : Type) (s : S) (uses : List (Calls R A α)) (bufs : List Bytes) (f : Nat → Threaded S R A α),
    inv s → (∀ u ∈ uses, u.Asks ok allows) → (∀ b ∈ bufs, n ≤ b.length) → f 0 = .start s bufs uses →
    ¬ ∀ i, ∃ e, Threaded.Step svc wire e (f i) (f (i + 1))

/-- When nothing can happen any more, all programs have ended and all threads have returned, or what is served has been lost and a
program waits for a reply that is not there. -/
def StopsOnlyLost {S R A N : Type} (svc : Service (Option S × Net) Unit) (wire : Wire R A N) (ok : R → Prop)
    (allows : R → A → Prop) (inv : S → Prop) (n : Nat) : Prop :=
  ∀ (α : Type) (s : S) (uses : List (Calls R A α)) (bufs : List Bytes) (es : List (Visible R A N)) (q : Threaded S R A α),
    inv s → (∀ u ∈ uses, u.Asks ok allows) → (∀ b ∈ bufs, n ≤ b.length) → bufs ≠ [] → uses.length < 2 ^ 64 - 1 →
    Threaded.Run svc wire (.start s bufs uses) es q → (∀ e q', ¬ Threaded.Step svc wire e q q') →
    ((∀ t ∈ q.clients, t.Ended) ∧ q.pool.Returned) ∨
    (q.state = none ∧ ∃ (i : Nat) (id : UInt64) (r : R) (k : A → Calls R A α), q.clients[i]? = some (.waiting id r k) ∧
      ∀ m ∈ q.net.replies, u64At m 8 ≠ id.toNat)

section
variable {S R A N α : Type} {svc : Service (Option S × Net) Unit} {wire : Wire R A N} {act : R → S → List N × A × S}
  {ok bad : R → Prop} {allows : R → A → Prop} {inv : S → Prop} {n : Nat} {loud : Bool}

theorem sum_set_lt {ws : List (Worker Unit)} {i : Nat} {w w' : Worker Unit} (h : ws[i]? = some w) {a b : Nat}
    (hl : a + Worker.left w' < b + Worker.left w) :
    a + ((ws.set i w').map Worker.left).sum < b + (ws.map Worker.left).sum := by
  induction ws generalizing i with
  | nil => simp at h
  | cons x ws ih =>
    cases i with
    | zero =>
      cases h
      rw [List.set_cons_zero, List.map_cons, List.map_cons, List.sum_cons, List.sum_cons]
      omega
    | succ i =>
      have := ih h
      rw [List.set_cons_succ, List.map_cons, List.map_cons, List.sum_cons, List.sum_cons]
      omega

/-- A thread's step after the loss is one of those it has left. -/
theorem Fits.left (hf : Willing svc wire act ok allows inv n loud) (hm : Mute svc) {p : Threaded S R A α}
    {o : Object S R A N α} (hg : o.Good wire.toStyle ok allows inv) (h : Fits wire n p o) (hl : p.pool.world.1 = none)
    {e : Event Unit} {pool : Pool (Option S × Net) Unit} (hs : Pool.Step svc e p.pool pool) :
    Threaded.left { p with pool := pool } < p.left := by
  obtain ⟨⟨queued, h1, h2⟩, h3⟩ := h
  obtain ⟨⟨⟨ps, queue, replies⟩, workers, ch, cap⟩, clients⟩ := p
  dsimp only at hl h1 h3 hs ⊢
  subst hl h1
  cases hs with
  | @mk _ i w w' _ channel s hw hstep =>
    dsimp only at hw hstep
    have hw' := h3 w (List.mem_of_getElem? hw)
    refine sum_set_lt hw ?_
    dsimp only
    cases w with
    | receiving buf =>
      cases queued with
      | nil =>
        unfold workerStep at hstep
        dsimp only at hstep
        rw [List.map_nil, hf.closed] at hstep
        cases loud with
        | false => cases hstep; exact (by decide : 3 * 0 + 0 < 3 * 0 + 2)
        | true => cases hstep; exact (by decide : 3 * 0 + 1 < 3 * 0 + 2)
      | cons t queued =>
        obtain ⟨k1, k2⟩ := hg.pending t (h2 t (List.mem_cons_self ..))
        obtain ⟨buf', hb, hr⟩ := hf.recv t.1 t.2 k1 k2 buf none (queued.map fun t => wire.message t.1 t.2) replies hw'
        unfold workerStep at hstep
        dsimp only at hstep
        rw [List.map_cons, hr] at hstep
        cases hstep
        simp only [List.length_map, List.length_cons, Worker.left]
        omega
    | handling buf r =>
      unfold workerStep at hstep
      dsimp only at hstep
      cases hd : svc.dispatch r (none, ⟨queued.map fun t => wire.message t.1 t.2, replies⟩) with
      | ok y =>
        rw [hd] at hstep
        cases hstep
        cases hm.dispatch _ _ _ hd
        simp only [Worker.left]
        omega
      | error f =>
        rw [hd] at hstep
        cases hstep
        simp only [Worker.left]
        omega
    | reporting buf e =>
      unfold workerStep at hstep
      dsimp only at hstep
      split at hstep
      · cases hstep
        rw [if_pos hw'.1]
        simp only [Worker.left]
        omega
      · cases hstep
    | finished => cases hstep
    | faulted f => cases hstep

/-- In step with direct use, or lost. -/
def Either (wire : Wire R A N) (ok : R → Prop) (allows : R → A → Prop) (inv : S → Prop) (n : Nat) (loud : Bool)
    (p : Threaded S R A α) : Prop :=
  (∃ o queued ws rs, InStep wire ok allows inv n loud p o queued ws rs) ∨
    (p.pool.world.1 = none ∧ ∃ o, Fits wire n p o ∧ ∃ rs, Told wire ok allows inv p o rs)

theorem Either.step (hf : Willing svc wire act ok allows inv n loud) (hm : Mute svc)
    (hgood : ∀ id r, id ≠ 0 → ok r → ¬ bad r → Does svc wire act inv id r)
    (hruin : ∀ id r s net, id ≠ 0 → ok r → bad r → svc.dispatch ⟨wire.message id r⟩ (some s, net) = .ok (none, net))
    {p p' : Threaded S R A α} (h : Either wire ok allows inv n loud p) {e : Option (Visible R A N)}
    (hstep : Threaded.Step svc wire e p p') :
    Either wire ok allows inv n loud p' ∧ (e = none → p'.left < p.left) := by
  rcases h with ⟨o, queued, ws, rs, h⟩ | ⟨h3, o, h6, rs, h⟩
  · rcases inStep_or hf h hstep with ⟨o', queued', ws', rs', h', _, _, hl⟩ | ⟨i, buf, id, r, hi, hp, hd, rfl, ev, w, ch, x, hw, rfl⟩
    · exact ⟨.inl ⟨o', _, _, _, h'⟩, hl⟩
    · obtain ⟨k1, k2⟩ := h.good.pending _ hp
      have hb : bad r := Classical.byContradiction fun hb => hd (hgood _ _ k1 k2 hb)
      have e1 : p.pool.world = (some o.state, p.pool.world.2) := Prod.ext h.state rfl
      unfold workerStep at hw
      dsimp only at hw
      rw [e1, hruin _ _ _ _ k1 k2 hb] at hw
      cases hw
      refine ⟨.inr ⟨rfl, o, ⟨h.fits.queue, fun x hx => ?_⟩, rs, h.told rfl rfl⟩, fun _ => ?_⟩
      · rcases List.mem_or_eq_of_mem_set hx with hx | rfl
        · exact h.fits.workers x hx
        · have := h.fits.workers _ (List.mem_of_getElem? hi)
          exact this
      · refine sum_set_lt hi ?_
        simp only [Worker.left]
        omega
  · cases e with
    | none =>
      cases hstep with
      | work hp hc =>
        obtain ⟨e1, e2⟩ := hm.pool hp h3
        exact ⟨.inr ⟨e1, o, h6.work hf hm h.good h3 hp hc, rs, ⟨h.good, h.clients, e2.trans h.replies,
          h.answers, h.announced, h.read⟩⟩, fun _ => h6.left hf hm h.good h3 hp⟩
    | some e =>
      obtain ⟨o', rs', h', hs', e1⟩ := h.step hf hstep
      exact ⟨.inr ⟨e1.trans h3, o', h6.visible hstep hs', rs', h'⟩, fun h => nomatch h⟩

theorem acc_either (hf : Willing svc wire act ok allows inv n loud) (hm : Mute svc)
    (hgood : ∀ id r, id ≠ 0 → ok r → ¬ bad r → Does svc wire act inv id r)
    (hruin : ∀ id r s net, id ≠ 0 → ok r → bad r → svc.dispatch ⟨wire.message id r⟩ (some s, net) = .ok (none, net))
    {clients : List (Party R A α)} (hacc : Acc (PartiesNext wire.toStyle) clients) :
    ∀ (m k : Nat) (p : Threaded S R A α), p.clients = clients → p.left = m → p.net.replies.length = k →
      Either wire ok allows inv n loud p → Acc (fun q p => ∃ e, Threaded.Step svc wire e p q) p := by
  induction hacc with
  | intro clients _ ih =>
    intro m
    induction m using Nat.strongRecOn with
    | ind m ihm =>
      intro k
      induction k using Nat.strongRecOn with
      | ind k ihk =>
        intro p hp hm' hk h
        refine ⟨_, fun q ⟨e, hs⟩ => ?_⟩
        obtain ⟨h', hl⟩ := h.step hf hm hgood hruin hs
        cases hs with
        | @call _ i id r k a b hc hid hn hq =>
          rw [hp] at hc
          exact ih _ ⟨i, _, _, hc, .called, by rw [← hp]; rfl⟩ _ _ _ rfl rfl rfl h'
        | @ret _ i id r k msg a b hc hr hu =>
          rw [hp] at hc
          exact ih _ ⟨i, _, _, hc, .returned, by rw [← hp]; rfl⟩ _ _ _ rfl rfl rfl h'
        | @news _ msg a b hr hu =>
          refine ihk _ ?_ _ hp hm' rfl h'
          rw [← hk, hr]
          show (a ++ b).length < (a ++ msg :: b).length
          rw [List.length_append, List.length_append, List.length_cons]
          omega
        | work hw hc => exact ihm _ (hm' ▸ hl rfl) _ _ hp rfl rfl h'

theorem acc_of_no_descent {β : Type} {r : β → β → Prop} {b : β} (h : ∀ f : Nat → β, f 0 = b → ¬ ∀ i, r (f (i + 1)) (f i)) :
    Acc r b := by
  refine Classical.byContradiction fun hn => ?_
  have go : ∀ x : { x // ¬ Acc r x }, ∃ y : { x // ¬ Acc r x }, r y.1 x.1 := by
    rintro ⟨x, hx⟩
    exact Classical.byContradiction fun h =>
      hx ⟨_, fun y hy => Classical.byContradiction fun hy' => h ⟨⟨y, hy'⟩, hy⟩⟩
  let f : Nat → { x // ¬ Acc r x } := fun i => Nat.rec ⟨b, hn⟩ (fun _ x => Classical.choose (go x)) i
  exact h (fun i => (f i).1) rfl fun i => Classical.choose_spec (go (f i))

theorem acc_last {p : Threaded S R A α} (h : Acc (fun q p => ∃ e, Threaded.Step svc wire e p q) p) :
    ∃ es q, Threaded.Run svc wire p es q ∧ ∀ e q', ¬ Threaded.Step svc wire e q q' := by
  induction h with
  | intro p _ ih =>
    by_cases hs : ∃ e q, Threaded.Step svc wire e p q
    · obtain ⟨e, q, hs⟩ := hs
      obtain ⟨es, q', h1, h2⟩ := ih q ⟨e, hs⟩
      exact ⟨_, q', run_then (.step .start hs) h1, h2⟩
    · exact ⟨[], p, .start, fun e q h => hs ⟨e, q, h⟩⟩

theorem acc_run {p q : Threaded S R A α} {es : List (Visible R A N)} (hr : Threaded.Run svc wire p es q)
    (h : Acc (fun q p => ∃ e, Threaded.Step svc wire e p q) p) : Acc (fun q p => ∃ e, Threaded.Step svc wire e p q) q := by
  induction hr with
  | start => exact h
  | step _ hs ih => exact ih.inv ⟨_, hs⟩

/-- Handlers can be called with a request or not, whatever state they are in. -/
def Steady (svc : Service (Option S × Net) Unit) : Prop :=
  ∀ r x x' y, svc.dispatch r x = .ok y → ∃ y', svc.dispatch r x' = .ok y'

/-- A thread that has not panicked and will not. -/
def Able (svc : Service (Option S × Net) Unit) : Worker Unit → Prop
  | .handling _ r => ∀ x, ∃ y, svc.dispatch r x = .ok y
  | .faulted _ => False
  | _ => True

/-- Threads have not panicked, and there is room for what they are about to report. -/
structure Room (svc : Service (Option S × Net) Unit) (p : Threaded S R A α) : Prop where
  capacity : p.pool.capacity = p.pool.workers.length
  channel : p.pool.channel.length ≤ (p.pool.workers.map Worker.over).sum
  able : ∀ w ∈ p.pool.workers, Able svc w

theorem sum_set (f : Worker Unit → Nat) {ws : List (Worker Unit)} {i : Nat} {w w' : Worker Unit} (h : ws[i]? = some w) :
    ((ws.set i w').map f).sum + f w = (ws.map f).sum + f w' := by
  induction ws generalizing i with
  | nil => simp at h
  | cons x ws ih =>
    cases i with
    | zero =>
      cases h
      rw [List.set_cons_zero, List.map_cons, List.map_cons, List.sum_cons, List.sum_cons]
      omega
    | succ i =>
      have := ih h
      rw [List.set_cons_succ, List.map_cons, List.map_cons, List.sum_cons, List.sum_cons]
      omega

theorem over_sum_le (ws : List (Worker Unit)) : (ws.map Worker.over).sum ≤ ws.length := by
  induction ws with
  | nil => exact Nat.le_refl _
  | cons w l ih =>
    rw [List.map_cons, List.sum_cons, List.length_cons]
    have : Worker.over w ≤ 1 := by unfold Worker.over; split <;> decide
    omega

theorem Room.step (hf : Willing svc wire act ok allows inv n loud)
    (hw : ∀ id r, id ≠ 0 → ok r → ∀ x, ∃ y, svc.dispatch ⟨wire.message id r⟩ x = .ok y) {p p' : Threaded S R A α}
    {o : Object S R A N α} (hg : o.Good wire.toStyle ok allows inv) (h : Fits wire n p o) (hr : Room svc p)
    {e : Option (Visible R A N)} (hs : Threaded.Step svc wire e p p') : Room svc p' := by
  cases hs with
  | call _ _ _ _ => exact ⟨hr.capacity, hr.channel, hr.able⟩
  | ret _ _ _ => exact ⟨hr.capacity, hr.channel, hr.able⟩
  | news _ _ => exact ⟨hr.capacity, hr.channel, hr.able⟩
  | work hs _ =>
    obtain ⟨⟨queued, h1, h2⟩, h3⟩ := h
    obtain ⟨r1, r2, r3⟩ := hr
    obtain ⟨⟨⟨ps, queue, replies⟩, workers, ch, cap⟩, clients⟩ := p
    dsimp only at h1 h3 hs r1 r2 r3 ⊢
    subst h1
    cases hs with
    | @mk _ i w w' _ channel s hi hstep =>
      dsimp only at hi hstep
      have hw' := h3 w (List.mem_of_getElem? hi)
      have ha := r3 w (List.mem_of_getElem? hi)
      have hsum := sum_set Worker.over (w' := w') hi
      suffices h : Able svc w' ∧ channel.length + Worker.over w ≤ ch.length + Worker.over w' by
        refine ⟨r1.trans (List.length_set ..).symm, ?_, fun x hx => ?_⟩
        · show channel.length ≤ ((workers.set i w').map Worker.over).sum
          omega
        · rcases List.mem_or_eq_of_mem_set hx with hx | rfl
          · exact r3 x hx
          · exact h.1
      cases w with
      | receiving buf =>
        cases queued with
        | nil =>
          unfold workerStep at hstep
          dsimp only at hstep
          rw [List.map_nil, hf.closed] at hstep
          cases loud with
          | false => cases hstep; exact ⟨trivial, Nat.le_succ _⟩
          | true => cases hstep; exact ⟨trivial, Nat.le_refl _⟩
        | cons t queued =>
          obtain ⟨k1, k2⟩ := hg.pending t (h2 t (List.mem_cons_self ..))
          obtain ⟨buf', hb, hr⟩ := hf.recv t.1 t.2 k1 k2 buf ps (queued.map fun t => wire.message t.1 t.2) replies hw'
          unfold workerStep at hstep
          dsimp only at hstep
          rw [List.map_cons, hr] at hstep
          cases hstep
          exact ⟨hw _ _ k1 k2, Nat.le_refl _⟩
      | handling buf r =>
        obtain ⟨y, hy⟩ := ha (ps, ⟨queued.map fun t => wire.message t.1 t.2, replies⟩)
        unfold workerStep at hstep
        dsimp only at hstep
        rw [hy] at hstep
        cases hstep
        exact ⟨trivial, Nat.le_refl _⟩
      | reporting buf e =>
        unfold workerStep at hstep
        dsimp only at hstep
        split at hstep
        · cases hstep
          rw [if_pos hw'.1]
          refine ⟨trivial, ?_⟩
          rw [List.length_append]
          exact Nat.le_refl _
        · cases hstep
      | finished => cases hstep
      | faulted f => cases hstep

/-- Threads return when all programs have ended. -/
theorem Room.returned (hf : Willing svc wire act ok allows inv n loud) {p : Threaded S R A α}
    {o : Object S R A N α} (hg : o.Good wire.toStyle ok allows inv) (h : Fits wire n p o) (hr : Room svc p)
    (he : ∀ t ∈ p.clients, t.Ended) (hstop : ∀ e q, ¬ Threaded.Step svc wire e p q) : p.pool.Returned := by
  intro w hw
  obtain ⟨i, hi⟩ := List.mem_iff_getElem?.mp hw
  have step : workerStep svc p.pool.capacity p.pool.channel p.pool.world w = none :=
    Option.eq_none_iff_forall_ne_some.mpr fun ⟨e, w', ch, x⟩ h => hstop _ _ (.work (.mk hi h) fun _ => he)
  obtain ⟨⟨queued, h1, h2⟩, h3⟩ := h
  obtain ⟨r1, r2, r3⟩ := hr
  have hw' := h3 w hw
  have ha := r3 w hw
  obtain ⟨⟨⟨ps, queue, replies⟩, workers, ch, cap⟩, clients⟩ := p
  dsimp only at h1 r1 r2 step hi
  subst h1
  cases w with
  | receiving buf =>
    unfold workerStep at step
    dsimp only at step
    cases queued with
    | nil =>
      rw [List.map_nil, hf.closed] at step
      cases loud <;> cases step
    | cons t queued =>
      obtain ⟨k1, k2⟩ := hg.pending t (h2 t (List.mem_cons_self ..))
      obtain ⟨buf', hb, hr⟩ := hf.recv t.1 t.2 k1 k2 buf ps (queued.map fun t => wire.message t.1 t.2) replies hw'
      rw [List.map_cons, hr] at step
      cases step
  | handling buf r =>
    obtain ⟨y, hy⟩ := ha (ps, ⟨queued.map fun t => wire.message t.1 t.2, replies⟩)
    unfold workerStep at step
    dsimp only at step
    rw [hy] at step
    cases step
  | reporting buf e =>
    have h4 := sum_set Worker.over (w' := .finished) hi
    have h5 := over_sum_le (workers.set i .finished)
    rw [List.length_set] at h5
    have h6 : Worker.over (.reporting buf e) = 0 := rfl
    have h7 : Worker.over .finished = 1 := rfl
    unfold workerStep at step
    dsimp only at step
    rw [if_pos (by omega)] at step
    cases step
  | finished => rfl
  | faulted f => exact ha.elim

theorem ruin_stops (hf : Willing svc wire act ok allows inv n loud) (hm : Mute svc) (hst : Steady svc)
    (hgood : ∀ id r, id ≠ 0 → ok r → ¬ bad r → Does svc wire act inv id r)
    (hruin : ∀ id r s net, id ≠ 0 → ok r → bad r → svc.dispatch ⟨wire.message id r⟩ (some s, net) = .ok (none, net)) :
    StopsOnlyLost svc wire ok allows inv n := by
  intro α s uses bufs es q hs hu hb hne hl hr hstop
  have hw : ∀ id r, id ≠ 0 → ok r → ∀ x, ∃ y, svc.dispatch ⟨wire.message id r⟩ x = .ok y := by
    intro id r hid hok x
    by_cases hbad : bad r
    · exact hst _ _ x _ (hruin id r s ⟨[], []⟩ hid hok hbad)
    · obtain ⟨_, h, _⟩ := hgood id r hid hok hbad s hs ⟨[], []⟩
      exact hst _ _ x _ h
  have hlen := run_lengths hr
  have hc : q.clients.length < 2 ^ 64 - 1 := by
    rw [hlen.2]
    show (uses.map Party.ready).length < _
    rwa [List.length_map]
  have fits : ∀ {p : Threaded S R A α}, Either wire ok allows inv n loud p →
      ∃ o : Object S R A N α, o.Good wire.toStyle ok allows inv ∧ Fits wire n p o := by
    rintro p (⟨o, _, _, _, h⟩ | ⟨_, o, h, _, h'⟩)
    · exact ⟨o, h.good, h.fits⟩
    · exact ⟨o, h'.good, h⟩
  have he : Either wire ok allows inv n loud q ∧ Room svc q := by
    clear hstop hlen hc
    induction hr with
    | start =>
      refine ⟨.inl ⟨_, _, _, _, inStep_start hs hu hb⟩, (List.length_map ..).symm, Nat.zero_le _, fun w hw => ?_⟩
      obtain ⟨b, _, rfl⟩ := List.mem_map.mp hw
      trivial
    | step _ hs ih =>
      obtain ⟨o, h1, h2⟩ := fits ih.1
      exact ⟨(ih.1.step hf hm hgood hruin hs).1, ih.2.step hf hw h1 h2 hs⟩
  obtain ⟨he, hroom⟩ := he
  obtain ⟨o', hg, hfit⟩ := fits he
  by_cases hall : ∀ t ∈ q.clients, t.Ended
  · exact .inl ⟨hall, hroom.returned hf hg hfit hall hstop⟩
  rcases he with ⟨o, queued, ws, rs, h⟩ | ⟨h, -⟩
  · rcases inStep_progress hf h (by
      rw [hlen.1]
      show 0 < (bufs.map Worker.receiving).length
      rw [List.length_map]
      exact List.length_pos_iff.mpr hne) hc with ⟨e, q', hs⟩ | h
    · exact absurd hs (hstop e q')
    · exact .inl h
  · refine .inr ⟨h, Classical.byContradiction fun hno => hall fun t ht => ?_⟩
    obtain ⟨i, hi⟩ := List.mem_iff_getElem?.mp ht
    match t with
    | .ready (.done a) => trivial
    | .ready (.call r k) =>
      obtain ⟨id, hid, hn⟩ := fresh_id ((q.clients.filterMap Party.ticket).map Prod.fst) (by
        rw [List.length_map]
        exact Nat.lt_of_le_of_lt (List.length_filterMap_le _ _) hc)
      exact absurd (.call (p := []) hi hid hn rfl) (hstop _ _)
    | .waiting id r k =>
      refine absurd ⟨i, id, r, k, hi, fun m hm e => ?_⟩ hno
      obtain ⟨x, y, hx⟩ := List.append_of_mem hm
      exact hstop _ _ (.ret hi hx e)

theorem steady_fuse {h : Handlers FuseMethod (Option S × Net)} : Steady (fuseService (Net.socket S) h) := by
  intro r x x' y hy
  have hy : fuseDispatch h r x = .ok y := hy
  show ∃ y', fuseDispatch h r x' = .ok y'
  unfold fuseDispatch at hy ⊢
  cases hr : r.rawHeader with
  | error f => rw [hr] at hy; cases hy
  | ok hd => exact ⟨_, rfl⟩

theorem steady_cuse {h : Handlers CuseMethod (Option S × Net)} : Steady (cuseService (Net.socket S) h) := by
  intro r x x' y hy
  have hy : cuseDispatch h r x = .ok y := hy
  show ∃ y', cuseDispatch h r x' = .ok y'
  unfold cuseDispatch at hy ⊢
  cases hr : r.rawHeader with
  | error f => rw [hr] at hy; cases hy
  | ok hd => exact ⟨_, rfl⟩

theorem ruin_ends (hf : Willing svc wire act ok allows inv n loud) (hm : Mute svc)
    (hgood : ∀ id r, id ≠ 0 → ok r → ¬ bad r → Does svc wire act inv id r)
    (hruin : ∀ id r s net, id ≠ 0 → ok r → bad r → svc.dispatch ⟨wire.message id r⟩ (some s, net) = .ok (none, net)) :
    ComesToEnd svc wire ok allows inv n := by
  intro α s uses bufs f hs hu hb h0
  exact no_descent (acc_either hf hm hgood hruin (acc_parties _) _ _ _ rfl rfl rfl
    (.inl ⟨_, _, _, _, inStep_start hs hu hb⟩)) f h0

end

end Many

open Many

/-- **C83** for devices: there is no infinite execution, whatever programs do. -/
theorem C83_device_ends {S : Type} (srv : DevServer S) (h9 : 9 ≤ srv.layout.versionMinor) (inv : S → Prop)
    (hb : DeviceBehaves srv.act inv) (n : Nat) :
    ComesToEnd (deviceThreads srv) deviceWire (DeviceOk n) DeviceAllows inv n :=
  ruin_ends (bad := fun r => ¬ PollsNode r) (device_willing srv hb n) (mute_cuse (dev_mute srv))
    (fun id r hid hr hg s hs => (device_faithful srv h9 hb n).dispatch id r s hid ⟨hr, Classical.not_not.mp hg⟩ hs)
    fun id r s net hid _ hr => (C83_device_ruin srv).1 id r s net hid hr

/-- **C83** for filesystems: there is no infinite execution, whatever programs do, in any version. -/
theorem C83_fuse_ends {S : Type} (srv : NoteServer S) (haddr : ∀ op, srv.addr op % 8 = 0)
    (h7 : 7 ≤ srv.layout.versionMinor.toNat) (ext : Bool) (hext : ext = true ↔ srv.layout.features &&& 1 ≠ 0)
    (inv : S → Prop) (hb : FuseBehaves srv.act srv.layout.versionMinor.toNat ext inv) (n : Nat) :
    ComesToEnd (fuseThreads srv) (fuseWire srv.layout.versionMinor.toNat ext) (FuseOk srv.layout.versionMinor.toNat ext n)
      (FuseAllows srv.layout.versionMinor.toNat) inv n :=
  ruin_ends (bad := fun r => ¬ r.2.Arrives srv.layout.versionMinor.toNat) (fuse_willing srv hb.seen n)
    (mute_fuse (note_mute srv))
    (fun id r hid hr hg s hs => (fuse_faithful srv haddr rfl h7 hext (good := Op.Arrives srv.layout.versionMinor.toNat)
      (fun _ h => h) (fun _ _ _ _ => rfl) hb.seen n).dispatch id r s hid ⟨hr, Classical.not_not.mp hg⟩ hs)
    fun id r s net hid _ hr => (C83_fuse_ruin srv ext).1 id r s net hid hr

/-- **C86** for filesystems: there is no infinite execution, whichever messages programs send. -/
theorem C86_ends {S : Type} (srv : RpcServer S) (haddr : ∀ op, srv.addr op % 8 = 0) (h12 : 12 ≤ srv.layout.versionMinor)
    (ext : Bool) (hext : ext = true ↔ srv.layout.features &&& 1 ≠ 0) (inv : S → Prop) (hinv : KeepsAll srv.act ext inv)
    (n : Nat) :
    ComesToEnd (guardedThreads srv) (anyWire (made srv.layout) Op.kind (fuseNo srv.layout)) (AnyOk n)
      (AnyAllows (made srv.layout) Op.kind) inv n :=
  ruin_ends (bad := Ruinous srv.checks)
    (any_willing (fun _ h => h) (fun _ who op s hm ha hs => hinv who op s hs (made_sound h12 hext hm.2 ha))
      (fun h1 h2 => net_recv h1 h2) (loud := false) fun _ _ _ => rfl) (mute_fuse (guards_mute srv))
    (fun id m hid hm hg s hs => (all_fuse_faithful srv haddr h12 hext hinv n).dispatch id m s hid ⟨hm, hg⟩ hs)
    fun id _ s net hid hm hr => (C86_ruin srv hm.2 id hid net).1 hr s

/-- **C83** for devices: nothing but the loss of what is served can keep programs from ending and threads from returning. -/
theorem C83_device_stops {S : Type} (srv : DevServer S) (h9 : 9 ≤ srv.layout.versionMinor) (inv : S → Prop)
    (hb : DeviceBehaves srv.act inv) (n : Nat) :
    StopsOnlyLost (deviceThreads srv) deviceWire (DeviceOk n) DeviceAllows inv n :=
  ruin_stops (bad := fun r => ¬ PollsNode r) (device_willing srv hb n) (mute_cuse (dev_mute srv)) steady_cuse
    (fun id r hid hr hg s hs => (device_faithful srv h9 hb n).dispatch id r s hid ⟨hr, Classical.not_not.mp hg⟩ hs)
    fun id r s net hid _ hr => (C83_device_ruin srv).1 id r s net hid hr

/-- **C83** for filesystems: see C83_device_stops. -/
theorem C83_fuse_stops {S : Type} (srv : NoteServer S) (haddr : ∀ op, srv.addr op % 8 = 0)
    (h7 : 7 ≤ srv.layout.versionMinor.toNat) (ext : Bool) (hext : ext = true ↔ srv.layout.features &&& 1 ≠ 0)
    (inv : S → Prop) (hb : FuseBehaves srv.act srv.layout.versionMinor.toNat ext inv) (n : Nat) :
    StopsOnlyLost (fuseThreads srv) (fuseWire srv.layout.versionMinor.toNat ext) (FuseOk srv.layout.versionMinor.toNat ext n)
      (FuseAllows srv.layout.versionMinor.toNat) inv n :=
  ruin_stops (bad := fun r => ¬ r.2.Arrives srv.layout.versionMinor.toNat) (fuse_willing srv hb.seen n)
    (mute_fuse (note_mute srv)) steady_fuse
    (fun id r hid hr hg s hs => (fuse_faithful srv haddr rfl h7 hext (good := Op.Arrives srv.layout.versionMinor.toNat)
      (fun _ h => h) (fun _ _ _ _ => rfl) hb.seen n).dispatch id r s hid ⟨hr, Classical.not_not.mp hg⟩ hs)
    fun id r s net hid _ hr => (C83_fuse_ruin srv ext).1 id r s net hid hr

/-- **C86** for filesystems: see C83_device_stops. -/
theorem C86_stops {S : Type} (srv : RpcServer S) (haddr : ∀ op, srv.addr op % 8 = 0) (h12 : 12 ≤ srv.layout.versionMinor)
    (ext : Bool) (hext : ext = true ↔ srv.layout.features &&& 1 ≠ 0) (inv : S → Prop) (hinv : KeepsAll srv.act ext inv)
    (n : Nat) :
    StopsOnlyLost (guardedThreads srv) (anyWire (made srv.layout) Op.kind (fuseNo srv.layout)) (AnyOk n)
      (AnyAllows (made srv.layout) Op.kind) inv n :=
  ruin_stops (bad := Ruinous srv.checks)
    (any_willing (fun _ h => h) (fun _ who op s hm ha hs => hinv who op s hs (made_sound h12 hext hm.2 ha))
      (fun h1 h2 => net_recv h1 h2) (loud := false) fun _ _ _ => rfl) (mute_fuse (guards_mute srv)) steady_fuse
    (fun id m hid hm hg s hs => (all_fuse_faithful srv haddr h12 hext hinv n).dispatch id m s hid ⟨hm, hg⟩ hs)
    fun id _ s net hid hm hr => (C86_ruin srv hm.2 id hid net).1 hr s

/-- C83 and C86: if a program waits for a reply that is not there when what is served has been lost, then whatever is done from
there, it can be gone on with until nothing can happen any more, with no thread having returned. -/
theorem C83_deadlock {S R A N α : Type} {svc : Service (Option S × Net) Unit} {wire : Many.Wire R A N}
    {act : R → S → List N × A × S} {ok bad : R → Prop} {allows : R → A → Prop} {inv : S → Prop} {n : Nat}
    (hu : AtomicUntil svc wire act ok bad allows inv n) (hs : Silenced svc wire) (he : ComesToEnd svc wire ok allows inv n)
    {s : S} (hi : inv s) {uses : List (Calls R A α)} {bufs : List Bytes} (ha : ∀ u ∈ uses, u.Asks ok allows)
    (hb : ∀ b ∈ bufs, n ≤ b.length) {es es' : List (Many.Visible R A N)} {p q : Many.Threaded S R A α}
    (hr : Many.Threaded.Run svc wire (.start s bufs uses) es p) (hl : p.state = none)
    {i : Nat} {id : UInt64} {r : R} {k : A → Calls R A α} (hw : p.clients[i]? = some (.waiting id r k))
    (hno : ∀ m ∈ p.net.replies, u64At m 8 ≠ id.toNat) (hr' : Many.Threaded.Run svc wire p es' q) :
    ∃ es'' q', Many.Threaded.Run svc wire q es'' q' ∧ (∀ e x, ¬ Many.Threaded.Step svc wire e q' x) ∧
      q'.clients[i]? = some (.waiting id r k) ∧ ∀ w ∈ q'.pool.workers, w ≠ .finished := by
  obtain ⟨es'', q', h1, h2⟩ := acc_last (acc_run (run_then hr hr')
    (acc_of_no_descent fun f h0 hf => he α s uses bufs f hi ha hb h0 hf))
  exact ⟨es'', q', h1, h2, (hs α p q' _ hl (run_then hr' h1)).2.2.2 i id r k hw hno,
    C83_hangs hu hs hi ha hb hr hl hw hno (run_then hr' h1)⟩

/-! ## Concrete cases -/

namespace ManyLost

/-- C83_device_ends, C83_deadlock: whatever is done after `first`, it comes to a state in which Alice waits for the answer to her
POLL, the thread has not returned, and nothing can happen any more. -/
example : ∃ es p, first = some (es, p) ∧ ∀ es' q, Many.Threaded.Run (deviceThreads pipe) deviceWire p es' q →
    ∃ es'' q', Many.Threaded.Run (deviceThreads pipe) deviceWire q es'' q' ∧
      (∀ e x, ¬ Many.Threaded.Step (deviceThreads pipe) deviceWire e q' x) ∧
      (∃ id r k, q'.clients[0]? = some (.waiting id r k)) ∧ ∀ w ∈ q'.pool.workers, w ≠ .finished := by
  have hd : first.map (fun x => (x.2.state, x.2.net.replies, x.2.clients.map fun t => t.ticket.map Prod.fst)) =
      some (none, [], [some 5, some 6]) := by decide +kernel
  obtain ⟨⟨es, p⟩, h1, h2⟩ := Option.map_eq_some_iff.mp hd
  obtain ⟨h2, h3⟩ := Prod.mk.inj h2
  obtain ⟨h3, h4⟩ := Prod.mk.inj h3
  dsimp only at h2 h3 h4
  have h5 : (p.clients.map fun t => t.ticket.map Prod.fst)[0]? = some (some 5) := by rw [h4]; rfl
  rw [List.getElem?_map] at h5
  obtain ⟨t, h6, h7⟩ := Option.map_eq_some_iff.mp h5
  cases t with
  | ready u => cases h7
  | waiting id r k =>
    refine ⟨es, p, h1, fun es' q hr => ?_⟩
    obtain ⟨es'', q', e1, e2, e3, e4⟩ := C83_deadlock (C83_device_until pipe (by decide) (fun _ => True) pipe_behaves 100)
      (C83_device_ruin pipe).2 (C83_device_ends pipe (by decide) _ pipe_behaves 100) trivial (fun u hu => by
        rcases List.mem_cons.mp hu with rfl | hu
        · exact ⟨⟨trivial, by show 40 + _ ≤ _; decide⟩, fun _ _ => trivial⟩
        · rw [List.mem_singleton] at hu
          subst hu
          exact ⟨⟨trivial, by show 40 + _ ≤ _; decide⟩, fun _ _ => trivial⟩) (by decide) (turns_sound .start h1) h2 h6
      (by rw [h3]; exact fun _ h => nomatch h) hr
    exact ⟨es'', q', e1, e2, ⟨id, r, k, e3⟩, e4⟩

/-- C83_device_stops: when nothing can happen any more, Alice and Bob have ended or the device has been lost. -/
example {es : List (Many.Visible (Caller × UInt64 × DevOp) Ans Empty)} {q : Many.Threaded Bytes (Caller × UInt64 × DevOp) Ans Ans}
    (hr : Many.Threaded.Run (deviceThreads pipe) deviceWire (.start [7] [List.replicate 100 0]
      [once (Rpc.alice, 0, .poll 1 2 3), once (Rpc.bob, 0, .read 1 0 8 none 0)]) es q)
    (hq : ∀ e q', ¬ Many.Threaded.Step (deviceThreads pipe) deviceWire e q q') :
    q.state = none ∨ ((∀ t ∈ q.clients, t.Ended) ∧ q.pool.Returned) := by
  rcases C83_device_stops pipe (by decide) _ pipe_behaves 100 _ _ _ _ es q trivial (fun u hu => by
    rcases List.mem_cons.mp hu with rfl | hu
    · exact ⟨⟨trivial, by show 40 + _ ≤ _; decide⟩, fun _ _ => trivial⟩
    · rw [List.mem_singleton] at hu
      subst hu
      exact ⟨⟨trivial, by show 40 + _ ≤ _; decide⟩, fun _ _ => trivial⟩) (by decide) (by simp) (by decide) hr hq with
    h | ⟨h, _⟩
  · exact .inr h
  · exact .inl h

/-- C83_fuse_ends: a program that sends a WRITE of one byte in 7.8, which no handler survives. -/
example (f : Nat → Many.Threaded (List (Caller × Op)) (Caller × Op) Ans Ans)
    (h0 : f 0 = .start [] [List.replicate 100 0] [once (Rpc.alice, .write Rpc.root 1 2 [3] 0 none 0)]) :
    ¬ ∀ i, ∃ e, Many.Threaded.Step (fuseThreads (nothing 8)) (fuseWire 8 false) e (f i) (f (i + 1)) :=
  C83_fuse_ends (nothing 8) (fun _ => (by decide : 0x1000 % 8 = 0)) (by decide) false (by decide) _ (nothing_behaves _ _) 100
    _ _ _ _ f trivial (fun u hu => by
      rw [List.mem_singleton] at hu
      subst hu
      exact ⟨⟨⟨(by decide : Op.Ok false (.write Rpc.root 1 2 [3] 0 none 0)), fun _ => ⟨rfl, rfl⟩⟩, by show 40 + _ ≤ _; decide⟩,
        fun _ _ => trivial⟩) (by decide) h0

/-- C86_ends for programs that send any messages of at most 100 bytes. -/
example : ComesToEnd (guardedThreads Hostile.server)
    (anyWire (made Hostile.server.layout) Op.kind (fuseNo Hostile.server.layout)) (AnyOk 100)
    (AnyAllows (made Hostile.server.layout) Op.kind) (HostileAll.Fair false) 100 :=
  C86_ends Hostile.server (fun _ => (by decide : 0x1000 % 8 = 0)) (by decide) false (by decide) _ (HostileAll.note_keeps_all false) 100

end ManyLost

end Fuse
