import Verif.Std
import Verif.PropServe

/-!
# C26: the multi-threaded server

Every schedule of the threads is a `Pool.Run`.
-/

namespace Fuse
open Spec

variable {σ ε : Type}

def Worker.isReporting : Worker ε → Bool
  | .reporting _ _ => true
  | _ => false

def Worker.isFinished : Worker ε → Bool
  | .finished => true
  | _ => false

def Event.isError : Event ε → Bool
  | .error _ => true
  | _ => false

theorem set_decompose {α : Type} {l : List α} {i : Nat} {w : α} (h : l[i]? = some w) :
    ∃ a b, l = a ++ w :: b ∧ ∀ w', l.set i w' = a ++ w' :: b := by
  obtain ⟨hi, rfl⟩ := List.getElem?_eq_some_iff.mp h
  refine ⟨l.take i, l.drop (i + 1), ?_, ?_⟩
  · rw [← List.drop_eq_getElem_cons, List.take_append_drop]
  · intro w'
    rw [List.set_eq_take_append_cons_drop, if_pos hi]

theorem Pool.Step.out {srv : Service σ ε} {e : Event ε} {q q' : Pool σ ε} (h : Pool.Step srv e q q') :
    ∃ i w w' channel s, q.workers[i]? = some w ∧
      workerStep srv q.capacity q.channel q.world w = some (e, w', channel, s) ∧
      q' = ⟨s, q.workers.set i w', channel, q.capacity⟩ := by
  cases h with
  | mk h1 h2 => exact ⟨_, _, _, _, _, h1, h2, rfl⟩

/-! ## Any service -/

/-- The errors noticed and not yet lost are with the reporting threads and in the channel. -/
structure Pool.Counts (n : Nat) (es : List (Event ε)) (p : Pool σ ε) : Prop where
  capacity : p.capacity = n
  workers : p.workers.length = n
  channel : p.channel.length ≤ n
  errors : p.workers.countP Worker.isReporting + p.channel.length = es.countP Event.isError

theorem countP_start (bufs : List Bytes) :
    (bufs.map (Worker.receiving (ε := ε))).countP Worker.isReporting = 0 := by
  induction bufs with
  | nil => rfl
  | cons b bs ih => rw [List.map_cons, List.countP_cons, ih]; rfl

theorem pool_counts (srv : Service σ ε) (s : σ) (bufs : List Bytes) {es : List (Event ε)} {p : Pool σ ε}
    (h : Pool.Run srv (Pool.start s bufs) es p) : p.Counts bufs.length es := by
  induction h with
  | start => exact ⟨rfl, List.length_map .., Nat.zero_le _, by
      show (bufs.map _).countP _ + 0 = 0; rw [countP_start]⟩
  | @step es q q' e _ hst ih =>
    obtain ⟨h1, h2, h3, h4⟩ := ih
    obtain ⟨i, w, w', channel, s, hw, hs, rfl⟩ := hst.out
    obtain ⟨a, b, hl, hset⟩ := set_decompose hw
    rw [hl, List.countP_append, List.countP_cons] at h4
    rw [hl] at h2
    have key : channel.length ≤ bufs.length ∧
        (if w'.isReporting then 1 else 0) + channel.length =
          (if w.isReporting then 1 else 0) + q.channel.length + (if e.isError then 1 else 0) := by
      unfold workerStep at hs
      cases w with
      | receiving buf =>
        rcases hr : srv.recv buf q.world with ⟨⟨r | (_ | r), b⟩, s1⟩ <;> simp only [hr] at hs <;> cases hs <;>
          refine ⟨h3, ?_⟩ <;> simp [Worker.isReporting, Event.isError] <;> omega
      | handling buf r =>
        rcases hr : srv.dispatch r q.world with f | s1 <;> simp only [hr] at hs <;> cases hs <;>
          refine ⟨h3, ?_⟩ <;> simp [Worker.isReporting, Event.isError]
      | reporting buf e' =>
        simp only at hs
        split at hs
        · next hc =>
          cases hs
          rw [h1] at hc
          refine ⟨by rw [List.length_append]; exact hc, ?_⟩
          cases isFatalError e' <;> simp [Worker.isReporting, Event.isError] <;> omega
        · cases hs
      | finished => cases hs
      | faulted f => cases hs
    refine ⟨h1, ?_, key.1, ?_⟩
    · show (q.workers.set i w').length = _
      rw [hset]
      simp only [List.length_append, List.length_cons] at h2 ⊢
      exact h2
    · show (q.workers.set i w').countP _ + channel.length = _
      rw [hset, List.countP_append, List.countP_cons, List.countP_append, List.countP_cons, List.countP_nil]
      have := key.2
      omega

theorem countP_pos_of_mem {α : Type} {p : α → Bool} {l : List α} {a : α} (h : a ∈ l) (hp : p a = true) :
    0 < l.countP p := List.countP_pos_iff.mpr ⟨a, h, hp⟩

/-- **C26**, the part that holds, for every connection, handlers and schedule: while no more errors have occurred
than there are threads, every thread that has not ended can go on. -/
theorem C26_never_blocks_partial (srv : Service σ ε) (s : σ) (bufs : List Bytes) (es : List (Event ε))
    (p : Pool σ ε) (h : Pool.Run srv (Pool.start s bufs) es p)
    (herr : es.countP Event.isError ≤ bufs.length) (i : Nat) (w : Worker ε) (hw : p.workers[i]? = some w) :
    w = .finished ∨ (∃ f, w = .faulted f) ∨
      ∃ e w' channel s', workerStep srv p.capacity p.channel p.world w = some (e, w', channel, s') := by
  obtain ⟨h1, h2, h3, h4⟩ := pool_counts srv s bufs h
  unfold workerStep
  cases w with
  | finished => exact Or.inl rfl
  | faulted f => exact Or.inr (Or.inl ⟨f, rfl⟩)
  | receiving buf =>
    right; right
    rcases hr : srv.recv buf p.world with ⟨⟨r | (_ | r), b⟩, s1⟩ <;> simp only [hr] <;> exact ⟨_, _, _, _, rfl⟩
  | handling buf r =>
    right; right
    rcases hr : srv.dispatch r p.world with f | s1 <;> simp only [hr] <;> exact ⟨_, _, _, _, rfl⟩
  | reporting buf e =>
    right; right
    have hpos : 0 < p.workers.countP Worker.isReporting :=
      countP_pos_of_mem (List.mem_of_getElem? hw) rfl
    simp only [if_pos (show p.channel.length < p.capacity by omega)]
    exact ⟨_, _, _, _, rfl⟩

/-! ## A stream of receive outcomes -/

/-- A stream of `N` messages after which the connection is closed. -/
structure Stream (ε : Type) where
  f : Nat → Except (RecvError ε) Bytes
  msgs : Nat → Bytes
  N : Nat
  message : ∀ k < N, f k = .ok (msgs k)
  closed : ∀ k, N ≤ k → ∃ e, f k = .error (.connectionClosed e)

/-- The service that receives from a stream and logs the calls of handlers. -/
def Stream.service (st : Stream ε) : Service (Nat × List (Option FuseMethod × Bytes)) ε :=
  fuseService (feed st.f) logAll

/-- The number of malformed messages among the first `k`. -/
def Stream.malformed (st : Stream ε) (k : Nat) : Nat :=
  (List.range k).countP fun j => !decide (Acceptable (st.msgs j))

/-- The log of handling exactly the well-formed messages among the first `k`, in order. -/
def Stream.log (st : Stream ε) (k : Nat) : List (Option FuseMethod × Bytes) :=
  (((List.range k).map st.msgs).filter fun m => decide (Acceptable m)).map
    fun m => (fuseMethodAt (u32At m 4), m)

def Worker.weight : Worker ε → Nat
  | .receiving _ => 1
  | .handling _ _ => 2
  | .reporting _ _ => 2
  | .finished => 0
  | .faulted _ => 0

/-- The log line that a thread is about to write. -/
def Worker.line : Worker ε → Option (Option FuseMethod × Bytes)
  | .handling _ r => some (fuseMethodAt (u32At r.mem 4), r.mem)
  | _ => none

/-- What is known of each thread; `L` is the length of the longest message. -/
def Worker.Valid (L : Nat) : Worker ε → Prop
  | .receiving b => L ≤ b.length
  | .handling b r => L ≤ b.length ∧ Acceptable r.mem
  | .reporting b e => L ≤ b.length ∧ isFatalError e = false
  | .finished => True
  | .faulted _ => False

structure StreamInv (st : Stream ε) (L n : Nat) (es : List (Event ε))
    (p : Pool (Nat × List (Option FuseMethod × Bytes)) ε) : Prop where
  capacity : p.capacity = n
  workers : p.workers.length = n
  channel : p.channel.length ≤ n
  valid : ∀ w ∈ p.workers, w.Valid L
  errors : p.workers.countP Worker.isReporting + p.channel.length = st.malformed (min p.world.1 st.N)
  finished : p.workers.countP Worker.isFinished = p.world.1 - st.N
  log : (p.world.2 ++ p.workers.filterMap Worker.line).Perm (st.log (min p.world.1 st.N))
  weight : es.length + (3 * (st.N - p.world.1) + (p.workers.map Worker.weight).sum) ≤ 3 * st.N + n

theorem service_recv_message (st : Stream ε) (buf : Bytes) (k : Nat) (log) (hk : k < st.N)
    (hl : (st.msgs k).length ≤ buf.length) :
    ∃ b, b.length = buf.length ∧
      (Acceptable (st.msgs k) → st.service.recv buf (k, log) = ((.ok (some ⟨st.msgs k⟩), b), k + 1, log)) ∧
      (¬ Acceptable (st.msgs k) →
        ∃ e, st.service.recv buf (k, log) = ((.error (.request e), b), k + 1, log)) := by
  obtain ⟨b, h1, h2, h3⟩ := feed_recv st.f buf (st.msgs k) k log (st.message k hk) hl
  refine ⟨b, h3, ?_, ?_⟩
  · intro ha
    show fuseRecv (feed st.f) buf (k, log) = _
    simp only [fuseRecv, h1, truncateSlice_eq, h2, acceptable_new ha]
  · intro ha
    obtain ⟨e, he, _⟩ := unacceptable_new ha
    refine ⟨e, ?_⟩
    show fuseRecv (feed st.f) buf (k, log) = _
    simp only [fuseRecv, h1, truncateSlice_eq, h2, he]

theorem service_recv_closed (st : Stream ε) (buf : Bytes) (k : Nat) (log) (hk : st.N ≤ k) :
    st.service.recv buf (k, log) = ((.ok none, buf), k + 1, log) := by
  obtain ⟨e, he⟩ := st.closed k hk
  show fuseRecv (feed st.f) buf (k, log) = _
  simp only [fuseRecv, feed, he]

theorem service_dispatch (st : Stream ε) (r : Request) (s) (h : Acceptable r.mem) :
    st.service.dispatch r s = .ok (s.1, s.2 ++ [(fuseMethodAt (u32At r.mem 4), r.mem)]) := by
  show fuseDispatch logAll r s = _
  rw [C25_fuse logAll r.mem r (acceptable_new h), logAll_handle]

theorem malformed_succ (st : Stream ε) (k : Nat) :
    st.malformed (k + 1) = st.malformed k + if Acceptable (st.msgs k) then 0 else 1 := by
  unfold Stream.malformed
  rw [List.range_succ, List.countP_append, List.countP_cons, List.countP_nil]
  by_cases h : Acceptable (st.msgs k) <;> simp [h]

theorem log_succ (st : Stream ε) (k : Nat) :
    st.log (k + 1) = st.log k ++
      if Acceptable (st.msgs k) then [(fuseMethodAt (u32At (st.msgs k) 4), st.msgs k)] else [] := by
  unfold Stream.log
  rw [List.range_succ, List.map_append, List.filter_append, List.map_append]
  by_cases h : Acceptable (st.msgs k) <;> simp [h]

theorem start_inv (st : Stream ε) (L : Nat) (bufs : List Bytes) (hb : ∀ b ∈ bufs, L ≤ b.length) :
    StreamInv st L bufs.length [] (Pool.start (0, []) bufs) := by
  refine ⟨rfl, List.length_map .., Nat.zero_le _, ?_, ?_, ?_, ?_, ?_⟩
  · intro w hw
    obtain ⟨b, hb', rfl⟩ := List.mem_map.mp hw
    exact hb b hb'
  · show (bufs.map _).countP _ + 0 = st.malformed (min 0 st.N)
    rw [countP_start, Nat.zero_min]; rfl
  · show (bufs.map _).countP _ = 0 - st.N
    rw [Nat.zero_sub]
    induction bufs with
    | nil => rfl
    | cons b bs ih =>
      rw [List.map_cons, List.countP_cons, ih (fun b h => hb b (List.mem_cons_of_mem _ h))]; rfl
  · show ([] ++ (bufs.map _).filterMap _).Perm (st.log (min 0 st.N))
    rw [Nat.zero_min, List.nil_append]
    have : (bufs.map (Worker.receiving (ε := ε))).filterMap Worker.line = [] := by
      clear hb
      induction bufs with
      | nil => rfl
      | cons b bs ih => exact ih
    rw [this]; exact .nil
  · show 0 + (3 * (st.N - 0) + ((bufs.map (Worker.receiving (ε := ε))).map Worker.weight).sum) ≤ _
    have : ((bufs.map (Worker.receiving (ε := ε))).map Worker.weight).sum = bufs.length := by
      clear hb
      induction bufs with
      | nil => rfl
      | cons b bs ih =>
        rw [List.map_cons, List.map_cons, List.sum_cons, ih, List.length_cons]
        show 1 + _ = _; omega
    omega

theorem step_inv (st : Stream ε) (L n : Nat) (hL : ∀ k < st.N, (st.msgs k).length ≤ L)
    {es : List (Event ε)} {q q' : Pool (Nat × List (Option FuseMethod × Bytes)) ε} {e : Event ε}
    (ih : StreamInv st L n es q) (hst : Pool.Step st.service e q q') : StreamInv st L n (es ++ [e]) q' := by
  obtain ⟨h1, h2, h3, h4, h5, h6, h7, h8⟩ := ih
  obtain ⟨i, w, w', channel, s, hw, hs, rfl⟩ := hst.out
  obtain ⟨a, b, hl, hset⟩ := set_decompose hw
  have hv := h4 w (List.mem_of_getElem? hw)
  have hvab : ∀ x, x ∈ a ∨ x ∈ b → x.Valid L := by
    intro x hx
    apply h4
    rw [hl, List.mem_append, List.mem_cons]
    rcases hx with hx | hx
    · exact Or.inl hx
    · exact Or.inr (Or.inr hx)
  rw [hl] at h2 h5 h6 h7 h8
  rw [List.length_append, List.length_cons] at h2
  rw [List.countP_append, List.countP_cons] at h5 h6
  rw [List.filterMap_append] at h7
  rw [List.map_append, List.map_cons, List.sum_append, List.sum_cons] at h8
  -- what the step must establish about the changed thread
  have key : channel.length ≤ n ∧ w'.Valid L ∧
      (if w'.isReporting then 1 else 0) + channel.length + st.malformed (min q.world.1 st.N) =
        (if w.isReporting then 1 else 0) + q.channel.length + st.malformed (min s.1 st.N) ∧
      (if w'.isFinished then 1 else 0) + (q.world.1 - st.N) =
        (if w.isFinished then 1 else 0) + (s.1 - st.N) ∧
      (∀ l, (q.world.2 ++ (l ++ w.line.toList)).Perm (st.log (min q.world.1 st.N)) →
        (s.2 ++ (l ++ w'.line.toList)).Perm (st.log (min s.1 st.N))) ∧
      1 + (3 * (st.N - s.1) + w'.weight) ≤ 3 * (st.N - q.world.1) + w.weight := by
    obtain ⟨⟨k, log⟩, workers, ch, cap⟩ := q
    cases w with
    | receiving buf =>
      simp only [workerStep] at hs
      by_cases hk : k < st.N
      · obtain ⟨b', hb', hr1, hr2⟩ := service_recv_message st buf k log hk
          (Nat.le_trans (hL k hk) hv)
        have e1 : min k st.N = k := by omega
        have e2 : min (k + 1) st.N = k + 1 := by omega
        by_cases ha : Acceptable (st.msgs k)
        · simp only [hr1 ha] at hs
          cases hs
          refine ⟨h3, ⟨by rw [hb']; exact hv, ha⟩, ?_, ?_, ?_, ?_⟩
          · simp only [e1, e2, malformed_succ, ha, Worker.isReporting, ↓reduceIte]; rfl
          · simp only [Worker.isFinished, ↓reduceIte, Bool.false_eq_true]; omega
          · intro l hp
            simp only [e1, e2, log_succ, ha, ↓reduceIte, Worker.line, Option.toList, List.append_nil] at hp ⊢
            rw [← List.append_assoc]
            exact hp.append_right _
          · simp only [Worker.weight]; omega
        · obtain ⟨e', hr⟩ := hr2 ha
          simp only [hr] at hs
          cases hs
          refine ⟨h3, ⟨by rw [hb']; exact hv, rfl⟩, ?_, ?_, ?_, ?_⟩
          · simp only [e1, e2, malformed_succ, ha, Worker.isReporting, ↓reduceIte, Bool.false_eq_true]; omega
          · simp only [Worker.isFinished, ↓reduceIte, Bool.false_eq_true]; omega
          · intro l hp
            simp only [e1, e2, log_succ, ha, ↓reduceIte, Worker.line, Option.toList, List.append_nil] at hp ⊢
            exact hp
          · simp only [Worker.weight]; omega
      · have hr := service_recv_closed st buf k log (by omega)
        simp only [hr] at hs
        cases hs
        have e1 : min k st.N = st.N := by omega
        have e2 : min (k + 1) st.N = st.N := by omega
        refine ⟨h3, trivial, ?_, ?_, ?_, ?_⟩
        · simp only [e1, e2, Worker.isReporting, ↓reduceIte, Bool.false_eq_true]
        · simp only [Worker.isFinished, ↓reduceIte, Bool.false_eq_true]; omega
        · intro l hp
          simp only [e1, e2, Worker.line] at hp ⊢
          exact hp
        · simp only [Worker.weight]; omega
    | handling buf r =>
      simp only [workerStep, service_dispatch st r _ hv.2] at hs
      cases hs
      refine ⟨h3, hv.1, by simp [Worker.isReporting], by simp [Worker.isFinished], ?_, by simp [Worker.weight]; omega⟩
      intro l hp
      simp only [Worker.line, Option.toList, List.append_nil] at hp ⊢
      refine List.Perm.trans ?_ hp
      rw [List.append_assoc]
      exact (List.perm_append_comm).append_left _
    | reporting buf e' =>
      simp only [workerStep] at hs
      by_cases hc : ch.length < cap
      · rw [if_pos hc, hv.2] at hs
        cases hs
        have hc' : ch.length < n := by rw [← h1]; exact hc
        refine ⟨by rw [List.length_append]; exact hc', hv.1, ?_, by simp [Worker.isFinished], fun l hp => ?_,
          by simp [Worker.weight]; omega⟩
        · simp [Worker.isReporting]; omega
        · simpa [Worker.line] using hp
      · rw [if_neg hc] at hs; cases hs
    | finished => cases hs
    | faulted f => cases hs
  obtain ⟨k1, k2, k3, k4, k5, k6⟩ := key
  have perm : ∀ x : Worker ε, (a.filterMap Worker.line ++ (x :: b).filterMap Worker.line).Perm
      ((a.filterMap Worker.line ++ b.filterMap Worker.line) ++ x.line.toList) := by
    intro x
    rw [List.append_assoc]
    refine List.Perm.append_left _ ?_
    rw [List.filterMap_cons]
    cases x.line with
    | none => rw [Option.toList, List.append_nil]
    | some y => exact (List.perm_append_singleton y _).symm
  refine ⟨h1, ?_, k1, ?_, ?_, ?_, ?_, ?_⟩
  · show (q.workers.set i w').length = _
    rw [hset, List.length_append, List.length_cons]; exact h2
  · show ∀ x ∈ q.workers.set i w', _
    rw [hset]
    intro x hx
    rw [List.mem_append, List.mem_cons] at hx
    rcases hx with hx | rfl | hx
    · exact hvab x (Or.inl hx)
    · exact k2
    · exact hvab x (Or.inr hx)
  · show (q.workers.set i w').countP _ + channel.length = st.malformed (min s.1 st.N)
    rw [hset, List.countP_append, List.countP_cons]
    omega
  · show (q.workers.set i w').countP _ = s.1 - st.N
    rw [hset, List.countP_append, List.countP_cons]
    omega
  · show (s.2 ++ (q.workers.set i w').filterMap _).Perm (st.log (min s.1 st.N))
    rw [hset, List.filterMap_append]
    refine (List.Perm.append_left _ (perm w')).trans (k5 _ ?_)
    exact (List.Perm.append_left _ (perm w).symm).trans h7
  · show (es ++ [e]).length + (3 * (st.N - s.1) + ((q.workers.set i w').map _).sum) ≤ _
    rw [hset, List.map_append, List.map_cons, List.sum_append, List.sum_cons, List.length_append,
      List.length_singleton]
    omega

theorem stream_inv (st : Stream ε) (L : Nat) (bufs : List Bytes) (hL : ∀ k < st.N, (st.msgs k).length ≤ L)
    (hb : ∀ b ∈ bufs, L ≤ b.length) {es : List (Event ε)}
    {p : Pool (Nat × List (Option FuseMethod × Bytes)) ε}
    (h : Pool.Run st.service (Pool.start (0, []) bufs) es p) : StreamInv st L bufs.length es p := by
  induction h with
  | start => exact start_inv st L bufs hb
  | step _ hst ih => exact step_inv st L bufs.length hL ih hst

theorem stuck_iff (srv : Service σ ε) (p : Pool σ ε) :
    p.Stuck srv ↔ ∀ (i : Nat) (w : Worker ε), p.workers[i]? = some w → workerStep srv p.capacity p.channel p.world w = none := by
  constructor
  · intro h i w hw
    cases hs : workerStep srv p.capacity p.channel p.world w with
    | none => rfl
    | some x =>
      obtain ⟨e, w', ch, s⟩ := x
      exact absurd (Pool.Step.mk hw hs) (h _ _)
  · intro h e q hst
    obtain ⟨i, w, w', ch, s, hw, hs, _⟩ := hst.out
    rw [h i w hw] at hs
    cases hs

/-- **C26**, every finite stream of messages, well-formed or not, followed by the closing of the connection:
every run ends, after at most `3N + n` steps. -/
theorem C26_runs_end (st : Stream ε) (L : Nat) (bufs : List Bytes)
    (hL : ∀ k < st.N, (st.msgs k).length ≤ L) (hb : ∀ b ∈ bufs, L ≤ b.length) (es : List (Event ε))
    (p : Pool (Nat × List (Option FuseMethod × Bytes)) ε)
    (h : Pool.Run st.service (Pool.start (0, []) bufs) es p) : es.length ≤ 3 * st.N + bufs.length := by
  have := (stream_inv st L bufs hL hb h).weight
  omega

theorem not_finished_steps (st : Stream ε) (L : Nat) (w : Worker ε) (hv : w.Valid L) (cap : Nat)
    (ch : List (ServerError ε)) (s) (hr : w.isReporting = true → ch.length < cap)
    (hs : workerStep st.service cap ch s w = none) : w = .finished := by
  cases w with
  | receiving buf =>
    exfalso
    simp only [workerStep] at hs
    rcases h : st.service.recv buf s with ⟨⟨r | (_ | r), b⟩, s1⟩ <;> simp only [h] at hs <;> cases hs
  | handling buf r => simp only [workerStep, service_dispatch st r _ hv.2] at hs; cases hs
  | reporting buf e => simp only [workerStep, if_pos (hr rfl)] at hs; cases hs
  | finished => rfl
  | faulted f => exact hv.elim

theorem countP_all_finished {l : List (Worker ε)} (h : ∀ w ∈ l, w = .finished) :
    l.countP Worker.isFinished = l.length ∧ l.countP Worker.isReporting = 0 ∧ l.filterMap Worker.line = [] := by
  induction l with
  | nil => exact ⟨rfl, rfl, rfl⟩
  | cons w l ih =>
    obtain ⟨h1, h2, h3⟩ := ih (fun w hw => h w (List.mem_cons_of_mem _ hw))
    cases h w List.mem_cons_self
    refine ⟨?_, ?_, h3⟩
    · rw [List.countP_cons, h1]; rfl
    · rw [List.countP_cons, h2]; rfl

/-- What is known when all threads have ended. -/
theorem returned_inv (st : Stream ε) (L n : Nat) (hn : 0 < n) {es : List (Event ε)}
    {p : Pool (Nat × List (Option FuseMethod × Bytes)) ε} (inv : StreamInv st L n es p) (h : p.Returned) :
    p.channel.length = st.malformed st.N ∧ p.world.2.Perm (st.log st.N) := by
  obtain ⟨h1, h2, h3, h4, h5, h6, h7, h8⟩ := inv
  obtain ⟨g1, g2, g3⟩ := countP_all_finished h
  rw [g1, h2] at h6
  have e : min p.world.1 st.N = st.N := by omega
  rw [g2, e, Nat.zero_add] at h5
  rw [g3, e, List.append_nil] at h7
  exact ⟨h5, h7⟩

/-- **C26**, the part that holds: if at most as many messages are malformed as there are threads, then every
run that has ended has ended with all threads finished, so that the server returns; every well-formed message has
been handled exactly once, and there is an error in the channel for every malformed one. -/
theorem C26_returns_partial (st : Stream ε) (L : Nat) (bufs : List Bytes) (hn : bufs ≠ [])
    (hL : ∀ k < st.N, (st.msgs k).length ≤ L) (hb : ∀ b ∈ bufs, L ≤ b.length)
    (hbad : st.malformed st.N ≤ bufs.length) (es : List (Event ε))
    (p : Pool (Nat × List (Option FuseMethod × Bytes)) ε)
    (h : Pool.Run st.service (Pool.start (0, []) bufs) es p) (hstuck : p.Stuck st.service) :
    p.Returned ∧ p.world.2.Perm (st.log st.N) ∧ p.channel.length = st.malformed st.N := by
  have inv := stream_inv st L bufs hL hb h
  have hret : p.Returned := by
    intro w hw
    obtain ⟨i, hi⟩ := List.getElem?_of_mem hw
    refine not_finished_steps st L w (inv.valid w hw) _ _ _ ?_ ((stuck_iff _ p).mp hstuck i w hi)
    intro hrep
    have hpos : 0 < p.workers.countP Worker.isReporting := countP_pos_of_mem hw hrep
    have hmono : st.malformed (min p.world.1 st.N) ≤ st.malformed st.N := by
      unfold Stream.malformed
      exact List.Sublist.countP_le (List.range_sublist.mpr (Nat.min_le_right _ _))
    have h5 := inv.errors
    have h1 := inv.capacity
    omega
  obtain ⟨h1, h2⟩ := returned_inv st L _ (List.length_pos_iff.mpr hn) inv hret
  exact ⟨hret, h2, h1⟩

/-- A run that cannot be longer than `bound` can be continued until no thread can make a step. -/
theorem run_to_stuck (srv : Service σ ε) (p0 : Pool σ ε) (bound : Nat)
    (hbound : ∀ es p, Pool.Run srv p0 es p → es.length ≤ bound) (d : Nat) :
    ∀ es p, Pool.Run srv p0 es p → bound - es.length ≤ d → ∃ es' q, Pool.Run srv p0 es' q ∧ q.Stuck srv := by
  induction d with
  | zero =>
    intro es p h hd
    refine ⟨es, p, h, ?_⟩
    intro e q hst
    have := hbound _ _ (h.step hst)
    rw [List.length_append, List.length_singleton] at this
    omega
  | succ d ih =>
    intro es p h hd
    by_cases hs : p.Stuck srv
    · exact ⟨es, p, h, hs⟩
    · obtain ⟨e, he⟩ := Classical.not_forall.mp hs
      obtain ⟨q, hq⟩ := Classical.not_forall.mp he
      have hst := Classical.not_not.mp hq
      refine ih _ q (h.step hst) ?_
      rw [List.length_append, List.length_singleton]
      omega

/-- **C26** is violated: with more malformed messages than threads, the server never returns after the connection
closes, under any schedule; every run ends with threads waiting for room in the channel. -/
theorem C26_violated (st : Stream ε) (L : Nat) (bufs : List Bytes) (hn : bufs ≠ [])
    (hL : ∀ k < st.N, (st.msgs k).length ≤ L) (hb : ∀ b ∈ bufs, L ≤ b.length)
    (hbad : bufs.length < st.malformed st.N) :
    (∀ es p, Pool.Run st.service (Pool.start (0, []) bufs) es p → ¬ p.Returned) ∧
    ∃ es p, Pool.Run st.service (Pool.start (0, []) bufs) es p ∧ p.Stuck st.service := by
  constructor
  · intro es p h hret
    have inv := stream_inv st L bufs hL hb h
    obtain ⟨h1, _⟩ := returned_inv st L _ (List.length_pos_iff.mpr hn) inv hret
    have := inv.channel
    omega
  · exact run_to_stuck _ _ _ (C26_runs_end st L bufs hL hb) _ [] _ .start (Nat.le_refl _)

/-! ## A burst of malformed messages -/

structure StallInv (f : Nat → Except (RecvError ε) Bytes) (L n : Nat) (es : List (Event ε))
    (p : Pool (Nat × List (Option FuseMethod × Bytes)) ε) : Prop where
  capacity : p.capacity = n
  workers : p.workers.length = n
  channel : p.channel.length ≤ n
  valid : ∀ w ∈ p.workers, (∃ b, w = .receiving b ∧ L ≤ b.length) ∨
    ∃ b e, w = .reporting b (.request e) ∧ L ≤ b.length
  received : p.world.1 = p.workers.countP Worker.isReporting + p.channel.length
  log : p.world.2 = []
  steps : es.length = p.world.1 + p.channel.length

theorem stall_inv (f : Nat → Except (RecvError ε) Bytes) (msgs : Nat → Bytes) (L : Nat) (bufs : List Bytes)
    (hf : ∀ k < 2 * bufs.length, f k = .ok (msgs k) ∧ ¬ Acceptable (msgs k) ∧ (msgs k).length ≤ L)
    (hb : ∀ b ∈ bufs, L ≤ b.length) {es : List (Event ε)}
    {p : Pool (Nat × List (Option FuseMethod × Bytes)) ε}
    (h : Pool.Run (fuseService (feed f) logAll) (Pool.start (0, []) bufs) es p) :
    StallInv f L bufs.length es p := by
  induction h with
  | start =>
    refine ⟨rfl, List.length_map .., Nat.zero_le _, ?_, ?_, rfl, rfl⟩
    · intro w hw
      obtain ⟨b, hb', rfl⟩ := List.mem_map.mp hw
      exact Or.inl ⟨b, rfl, hb b hb'⟩
    · show 0 = (bufs.map _).countP _ + 0
      rw [countP_start]
  | @step es q q' e _ hst ih =>
    obtain ⟨h1, h2, h3, h4, h5, h6, h7⟩ := ih
    obtain ⟨i, w, w', channel, s, hw, hs, rfl⟩ := hst.out
    obtain ⟨a, b, hl, hset⟩ := set_decompose hw
    have hv := h4 w (List.mem_of_getElem? hw)
    have hvab : ∀ x, x ∈ a ∨ x ∈ b → (∃ b, x = .receiving b ∧ L ≤ b.length) ∨
        ∃ b e, x = .reporting b (.request e) ∧ L ≤ b.length := by
      intro x hx
      apply h4
      rw [hl, List.mem_append, List.mem_cons]
      rcases hx with hx | hx
      · exact Or.inl hx
      · exact Or.inr (Or.inr hx)
    rw [hl, List.length_append, List.length_cons] at h2
    rw [hl, List.countP_append, List.countP_cons] at h5
    have ha := List.countP_le_length (p := Worker.isReporting) (l := a)
    have hb' := List.countP_le_length (p := Worker.isReporting) (l := b)
    have key : channel.length ≤ bufs.length ∧ ((∃ b, w' = .receiving b ∧ L ≤ b.length) ∨
          ∃ b e, w' = .reporting b (.request e) ∧ L ≤ b.length) ∧
        s.1 + ((if w.isReporting then 1 else 0) + q.channel.length) =
          q.world.1 + ((if w'.isReporting then 1 else 0) + channel.length) ∧
        s.2 = q.world.2 ∧ s.1 + channel.length = q.world.1 + q.channel.length + 1 := by
      rcases hv with ⟨buf, rfl, hbuf⟩ | ⟨buf, e', rfl, hbuf⟩
      · have hk : q.world.1 < 2 * bufs.length := by
          simp only [Worker.isReporting, ↓reduceIte, Bool.false_eq_true] at h5
          omega
        obtain ⟨hf1, hf2, hf3⟩ := hf _ hk
        obtain ⟨b', r1, r2, r3⟩ := feed_recv (M := FuseMethod) f buf _ q.world.1 q.world.2 hf1 (by omega)
        obtain ⟨e2, he, _⟩ := unacceptable_new hf2
        have hr : (fuseService (feed f) logAll).recv buf q.world =
            ((.error (.request e2), b'), q.world.1 + 1, q.world.2) := by
          show fuseRecv (feed f) buf (q.world.1, q.world.2) = _
          simp only [fuseRecv, r1, truncateSlice_eq, r2, he]
        simp only [workerStep, hr] at hs
        cases hs
        refine ⟨h3, Or.inr ⟨b', e2, rfl, by omega⟩, ?_, rfl, ?_⟩
        · simp only [Worker.isReporting, ↓reduceIte, Bool.false_eq_true]; omega
        · simp only; omega
      · simp only [workerStep] at hs
        split at hs
        · next hc =>
          cases hs
          rw [h1] at hc
          refine ⟨by rw [List.length_append]; exact hc, Or.inl ⟨buf, rfl, hbuf⟩, ?_, rfl, ?_⟩
          · simp [Worker.isReporting, isFatalError]; omega
          · rw [List.length_append, List.length_singleton]; omega
        · cases hs
    obtain ⟨k1, k2, k3, k4, k5⟩ := key
    refine ⟨h1, ?_, k1, ?_, ?_, k4.trans h6, ?_⟩
    · show (q.workers.set i w').length = _
      rw [hset, List.length_append, List.length_cons]; exact h2
    · show ∀ x ∈ q.workers.set i w', _
      rw [hset]
      intro x hx
      rw [List.mem_append, List.mem_cons] at hx
      rcases hx with hx | rfl | hx
      · exact hvab x (Or.inl hx)
      · exact k2
      · exact hvab x (Or.inr hx)
    · show s.1 = (q.workers.set i w').countP _ + channel.length
      rw [hset, List.countP_append, List.countP_cons]
      omega
    · show (es ++ [e]).length = s.1 + channel.length
      rw [List.length_append, List.length_singleton]
      omega

/-- **C26** is violated also in that the server stops receiving: whatever the client sends after `2n` malformed
messages, under every schedule the `n` threads receive nothing more; every run ends within `3n` steps, and
then all threads wait for room in the channel. -/
theorem C26_violated_stall (f : Nat → Except (RecvError ε) Bytes) (msgs : Nat → Bytes) (L : Nat)
    (bufs : List Bytes)
    (hf : ∀ k < 2 * bufs.length, f k = .ok (msgs k) ∧ ¬ Acceptable (msgs k) ∧ (msgs k).length ≤ L)
    (hb : ∀ b ∈ bufs, L ≤ b.length) (es : List (Event ε))
    (p : Pool (Nat × List (Option FuseMethod × Bytes)) ε)
    (h : Pool.Run (fuseService (feed f) logAll) (Pool.start (0, []) bufs) es p) :
    p.world.1 ≤ 2 * bufs.length ∧ es.length ≤ 3 * bufs.length ∧
    (p.Stuck (fuseService (feed f) logAll) →
      p.world.1 = 2 * bufs.length ∧ ∀ w ∈ p.workers, ∃ b e, w = .reporting b e) := by
  obtain ⟨h1, h2, h3, h4, h5, h6, h7⟩ := stall_inv f msgs L bufs hf hb h
  have hc := List.countP_le_length (p := Worker.isReporting) (l := p.workers)
  refine ⟨by omega, by omega, ?_⟩
  intro hs
  have hall : ∀ w ∈ p.workers, ∃ b e, w = .reporting b e := by
    intro w hw
    rcases h4 w hw with ⟨b, rfl, _⟩ | ⟨b, e, rfl, _⟩
    · exfalso
      obtain ⟨i, hi⟩ := List.getElem?_of_mem hw
      have hn := (stuck_iff _ p).mp hs i _ hi
      simp only [workerStep] at hn
      rcases hr : (fuseService (feed f) logAll).recv b p.world with ⟨⟨r | (_ | r), b⟩, s1⟩ <;>
        simp only [hr] at hn <;> cases hn
    · exact ⟨b, _, rfl⟩
  refine ⟨?_, hall⟩
  have hcount : p.workers.countP Worker.isReporting = p.workers.length := by
    rw [List.countP_eq_length]
    intro w hw
    obtain ⟨b, e, rfl⟩ := hall w hw
    rfl
  cases hws : p.workers with
  | nil =>
    rw [hws] at h2 hcount
    rw [hws] at h5
    simp only [List.length_nil] at h2
    simp only [List.countP_nil] at h5
    omega
  | cons w ws =>
    have hi : p.workers[0]? = some w := by rw [hws]; rfl
    have hn := (stuck_iff _ p).mp hs 0 _ hi
    obtain ⟨b, e, rfl⟩ := hall w (by rw [hws]; exact List.mem_cons_self)
    simp only [workerStep] at hn
    split at hn
    · cases hn
    · omega

/-! ## CUSE

A CUSE server takes the closing of its connection for an error, and reports it once per thread, which is as much
as the channel holds. -/

/-- The CUSE service that receives from a stream and logs the calls of handlers. -/
def Stream.cuseService (st : Stream ε) : Service (Nat × List (Option CuseMethod × Bytes)) ε :=
  Fuse.cuseService (feed st.f) logAll

/-- About to report a fatal error (`fatal`), or one that is not fatal. -/
def Worker.reports (fatal : Bool) : Worker ε → Bool
  | .reporting _ e => isFatalError e == fatal
  | _ => false

/-- See `Worker.Valid`. -/
def Worker.CuseValid (L : Nat) : Worker ε → Prop
  | .receiving b => L ≤ b.length
  | .handling b r => L ≤ b.length ∧ Acceptable r.mem
  | .reporting b _ => L ≤ b.length
  | .finished => True
  | .faulted _ => False

structure CuseInv (st : Stream ε) (L n : Nat) (p : Pool (Nat × List (Option CuseMethod × Bytes)) ε) : Prop where
  capacity : p.capacity = n
  workers : p.workers.length = n
  channel : p.channel.length ≤ n
  valid : ∀ w ∈ p.workers, w.CuseValid L
  malformed : p.workers.countP (Worker.reports false) + p.channel.countP (fun e => !isFatalError e) =
    st.malformed (min p.world.1 st.N)
  fatal : p.workers.countP Worker.isFinished = p.channel.countP isFatalError
  closed : p.workers.countP Worker.isFinished + p.workers.countP (Worker.reports true) = p.world.1 - st.N

theorem logAll_cuse (msg : Bytes) (s : Nat × List (Option CuseMethod × Bytes)) :
    cuseHandle logAll msg s = (s.1, s.2 ++ [(cuseMethodAt (u32At msg 4), msg)]) := by
  unfold cuseHandle logAll
  cases cuseMethodAt (u32At msg 4) <;> rfl

theorem cuse_service_recv (st : Stream ε) (buf : Bytes) (k : Nat) (log) :
    (k < st.N → (st.msgs k).length ≤ buf.length → ∃ b, b.length = buf.length ∧
      (Acceptable (st.msgs k) → st.cuseService.recv buf (k, log) = ((.ok (some ⟨st.msgs k⟩), b), k + 1, log)) ∧
      (¬ Acceptable (st.msgs k) →
        ∃ e, st.cuseService.recv buf (k, log) = ((.error (.request e), b), k + 1, log))) ∧
    (st.N ≤ k → ∃ e, st.cuseService.recv buf (k, log) = ((.error (.recv e), buf), k + 1, log)) := by
  constructor
  · intro hk hl
    obtain ⟨b, h1, h2, h3⟩ := feed_recv st.f buf (st.msgs k) k log (st.message k hk) hl
    refine ⟨b, h3, ?_, ?_⟩
    · intro ha
      simp only [Stream.cuseService, cuseService, cuseRecv, h1, truncateSlice_eq, h2, acceptable_new ha]
    · intro ha
      obtain ⟨e, he, _⟩ := unacceptable_new ha
      exact ⟨e, by simp only [Stream.cuseService, cuseService, cuseRecv, h1, truncateSlice_eq, h2, he]⟩
  · intro hk
    obtain ⟨e, he⟩ := st.closed k hk
    refine ⟨.connectionClosed e, ?_⟩
    simp only [Stream.cuseService, cuseService, cuseRecv, feed, he]

theorem countP_start' (q : Worker ε → Bool) (hq : ∀ b, q (.receiving b) = false) (bufs : List Bytes) :
    (bufs.map (Worker.receiving (ε := ε))).countP q = 0 := by
  rw [List.countP_eq_zero]
  intro w hw
  obtain ⟨b, _, rfl⟩ := List.mem_map.mp hw
  rw [hq]; decide

theorem cuse_inv (st : Stream ε) (L : Nat) (bufs : List Bytes) (hL : ∀ k < st.N, (st.msgs k).length ≤ L)
    (hb : ∀ b ∈ bufs, L ≤ b.length) {es : List (Event ε)}
    {p : Pool (Nat × List (Option CuseMethod × Bytes)) ε}
    (h : Pool.Run st.cuseService (Pool.start (0, []) bufs) es p) : CuseInv st L bufs.length p := by
  induction h with
  | start =>
    refine ⟨rfl, List.length_map .., Nat.zero_le _, ?_, ?_, ?_, ?_⟩
    · intro w hw
      obtain ⟨b, hb', rfl⟩ := List.mem_map.mp hw
      exact hb _ hb'
    · show (bufs.map _).countP _ + 0 = st.malformed (min 0 st.N)
      rw [countP_start' _ (fun _ => rfl), Nat.zero_min]; rfl
    · show (bufs.map _).countP _ = 0
      rw [countP_start' _ (fun _ => rfl)]
    · show (bufs.map _).countP _ + (bufs.map _).countP _ = 0 - st.N
      rw [countP_start' _ (fun _ => rfl), countP_start' _ (fun _ => rfl)]; omega
  | @step es q q' e _ hst ih =>
    obtain ⟨h1, h2, h3, h4, h5, h6, h7⟩ := ih
    obtain ⟨i, w, w', channel, s, hw, hs, rfl⟩ := hst.out
    obtain ⟨a, b, hl, hset⟩ := set_decompose hw
    have hv := h4 w (List.mem_of_getElem? hw)
    rw [hl, List.length_append, List.length_cons] at h2
    rw [hl, List.countP_append, List.countP_cons] at h5 h6 h7
    rw [List.countP_append, List.countP_cons] at h7
    have key : channel.length ≤ bufs.length ∧ w'.CuseValid L ∧
        (if w'.reports false then 1 else 0) + channel.countP (fun e => !isFatalError e) +
            st.malformed (min q.world.1 st.N) =
          (if w.reports false then 1 else 0) + q.channel.countP (fun e => !isFatalError e) +
            st.malformed (min s.1 st.N) ∧
        (if w'.isFinished then 1 else 0) + q.channel.countP isFatalError =
          (if w.isFinished then 1 else 0) + channel.countP isFatalError ∧
        (if w'.isFinished then 1 else 0) + (if w'.reports true then 1 else 0) + (q.world.1 - st.N) =
          (if w.isFinished then 1 else 0) + (if w.reports true then 1 else 0) + (s.1 - st.N) := by
      obtain ⟨⟨k, log⟩, workers, ch, cap⟩ := q
      cases w with
      | receiving buf =>
        simp only [workerStep] at hs
        by_cases hk : k < st.N
        · obtain ⟨b', hb', hr1, hr2⟩ := (cuse_service_recv st buf k log).1 hk
            (Nat.le_trans (hL k hk) hv)
          have e1 : min k st.N = k := by omega
          have e2 : min (k + 1) st.N = k + 1 := by omega
          have hlen : L ≤ b'.length := by rw [hb']; exact hv
          by_cases ha : Acceptable (st.msgs k)
          · simp only [hr1 ha] at hs
            cases hs
            refine ⟨h3, ⟨hlen, ha⟩, ?_, ?_, ?_⟩
            · simp only [e1, e2, malformed_succ, ha, Worker.reports, ↓reduceIte, Bool.false_eq_true]; omega
            · simp only [Worker.isFinished, ↓reduceIte, Bool.false_eq_true]
            · simp only [Worker.isFinished, Worker.reports, ↓reduceIte, Bool.false_eq_true]; omega
          · obtain ⟨e', hr⟩ := hr2 ha
            simp only [hr] at hs
            cases hs
            refine ⟨h3, hlen, ?_, ?_, ?_⟩
            · simp only [e1, e2, malformed_succ, ha, Worker.reports, isFatalError, ↓reduceIte, Bool.false_eq_true,
                beq_self_eq_true]; omega
            · simp only [Worker.isFinished, ↓reduceIte, Bool.false_eq_true]
            · simp only [Worker.isFinished, Worker.reports, isFatalError, ↓reduceIte, Bool.false_eq_true,
                show (false == true) = false from rfl]; omega
        · obtain ⟨e', hr⟩ := (cuse_service_recv st buf k log).2 (by omega)
          simp only [hr] at hs
          cases hs
          have e1 : min k st.N = st.N := by omega
          have e2 : min (k + 1) st.N = st.N := by omega
          refine ⟨h3, hv, ?_, ?_, ?_⟩
          · simp only [e1, e2, Worker.reports, isFatalError, show (true == false) = false from rfl,
              ↓reduceIte, Bool.false_eq_true]
          · simp only [Worker.isFinished, ↓reduceIte, Bool.false_eq_true]
          · simp only [Worker.isFinished, Worker.reports, isFatalError, ↓reduceIte, Bool.false_eq_true,
              beq_self_eq_true]; omega
      | handling buf r =>
        obtain ⟨g1, g2⟩ := hv
        have hd : st.cuseService.dispatch r (k, log) =
            .ok (k, log ++ [(cuseMethodAt (u32At r.mem 4), r.mem)]) := by
          show cuseDispatch logAll r (k, log) = _
          rw [C25_cuse logAll r.mem r (acceptable_new g2), logAll_cuse]
        simp only [workerStep, hd] at hs
        cases hs
        refine ⟨h3, g1, ?_, ?_, ?_⟩ <;>
          simp only [Worker.reports, Worker.isFinished, ↓reduceIte, Bool.false_eq_true]
      | reporting buf e' =>
        simp only [workerStep] at hs
        by_cases hc : ch.length < cap
        · rw [if_pos hc] at hs
          have hc' : ch.length < bufs.length := by rw [← h1]; exact hc
          cases hf : isFatalError e' with
          | true =>
            rw [hf] at hs
            cases hs
            refine ⟨by rw [List.length_append]; exact hc', trivial, ?_, ?_, ?_⟩
            · simp [Worker.reports, hf]
            · simp [Worker.isFinished, hf]; omega
            · simp [Worker.isFinished, Worker.reports, hf]
          | false =>
            rw [hf] at hs
            cases hs
            refine ⟨by rw [List.length_append]; exact hc', hv, ?_, ?_, ?_⟩
            · simp [Worker.reports, hf]; omega
            · simp [Worker.isFinished, hf]
            · simp [Worker.isFinished, Worker.reports, hf]
        · rw [if_neg hc] at hs; cases hs
      | finished => cases hs
      | faulted f => cases hs
    obtain ⟨k1, k2, k3, k4, k5⟩ := key
    refine ⟨h1, ?_, k1, ?_, ?_, ?_, ?_⟩
    · show (q.workers.set i w').length = _
      rw [hset, List.length_append, List.length_cons]; exact h2
    · show ∀ x ∈ q.workers.set i w', _
      rw [hset]
      intro x hx
      rw [List.mem_append, List.mem_cons] at hx
      rcases hx with hx | rfl | hx
      · exact h4 x (by rw [hl]; exact List.mem_append_left _ hx)
      · exact k2
      · exact h4 x (by rw [hl]; exact List.mem_append_right _ (List.mem_cons_of_mem _ hx))
    · show (q.workers.set i w').countP _ + channel.countP _ = st.malformed (min s.1 st.N)
      rw [hset, List.countP_append, List.countP_cons]
      omega
    · show (q.workers.set i w').countP _ = channel.countP _
      rw [hset, List.countP_append, List.countP_cons]
      omega
    · show (q.workers.set i w').countP _ + (q.workers.set i w').countP _ = s.1 - st.N
      rw [hset, List.countP_append, List.countP_cons, List.countP_append, List.countP_cons]
      omega

theorem countP_fatal (l : List (ServerError ε)) :
    l.countP isFatalError + l.countP (fun e => !isFatalError e) = l.length := by
  induction l with
  | nil => rfl
  | cons e l ih => rw [List.countP_cons, List.countP_cons, List.length_cons]; cases isFatalError e <;> simp <;> omega

/-- **C26** is violated by `serve_cuse` after a single malformed message: once the connection is closed, every
thread has that to report, and there is no room for all of the reports. -/
theorem C26_violated_cuse (st : Stream ε) (L : Nat) (bufs : List Bytes) (hn : bufs ≠ [])
    (hL : ∀ k < st.N, (st.msgs k).length ≤ L) (hb : ∀ b ∈ bufs, L ≤ b.length)
    (hbad : 0 < st.malformed st.N) (es : List (Event ε))
    (p : Pool (Nat × List (Option CuseMethod × Bytes)) ε)
    (h : Pool.Run st.cuseService (Pool.start (0, []) bufs) es p) : ¬ p.Returned := by
  intro hret
  obtain ⟨h1, h2, h3, h4, h5, h6, h7⟩ := cuse_inv st L bufs hL hb h
  obtain ⟨g1, _, _⟩ := countP_all_finished hret
  have hz : ∀ x, p.workers.countP (Worker.reports x) = 0 := by
    intro x
    rw [List.countP_eq_zero]
    intro w hw
    rw [hret w hw]
    simp [Worker.reports]
  rw [hz] at h5 h7
  have hc := countP_fatal p.channel
  have hpos : 0 < bufs.length := List.length_pos_iff.mpr hn
  have e : min p.world.1 st.N = st.N := by omega
  rw [e] at h5
  omega

/-- **C26** for CUSE, the part that holds: if no message is malformed, every run that has ended has ended with all
threads finished. -/
theorem C26_cuse_partial (st : Stream ε) (L : Nat) (bufs : List Bytes)
    (hL : ∀ k < st.N, (st.msgs k).length ≤ L) (hb : ∀ b ∈ bufs, L ≤ b.length)
    (hgood : ∀ k < st.N, Acceptable (st.msgs k)) (es : List (Event ε))
    (p : Pool (Nat × List (Option CuseMethod × Bytes)) ε)
    (h : Pool.Run st.cuseService (Pool.start (0, []) bufs) es p) (hs : p.Stuck st.cuseService) : p.Returned := by
  obtain ⟨h1, h2, h3, h4, h5, h6, h7⟩ := cuse_inv st L bufs hL hb h
  have hm : st.malformed (min p.world.1 st.N) = 0 := by
    unfold Stream.malformed
    rw [List.countP_eq_zero]
    intro k hk
    rw [List.mem_range] at hk
    simp [hgood k (by omega)]
  have hc := countP_fatal p.channel
  intro w hw
  obtain ⟨i, hi⟩ := List.getElem?_of_mem hw
  have hn := (stuck_iff _ p).mp hs i w hi
  have hv := h4 w hw
  cases w with
  | receiving buf =>
    exfalso
    simp only [workerStep] at hn
    rcases hr : st.cuseService.recv buf p.world with ⟨⟨r | (_ | r), b⟩, s1⟩ <;> simp only [hr] at hn <;> cases hn
  | handling buf r =>
    have hd : st.cuseService.dispatch r p.world = _ := C25_cuse logAll r.mem r (acceptable_new hv.2) _
    simp only [workerStep, hd] at hn
    cases hn
  | reporting buf e =>
    exfalso
    have hlt : p.workers.countP Worker.isFinished < p.workers.length := by
      obtain ⟨a, b, hl, _⟩ := set_decompose hi
      rw [hl, List.countP_append, List.countP_cons, List.length_append, List.length_cons]
      have ha := List.countP_le_length (p := Worker.isFinished) (l := a)
      have hb' := List.countP_le_length (p := Worker.isFinished) (l := b)
      simp only [Worker.isFinished, ↓reduceIte, Bool.false_eq_true]
      omega
    simp only [workerStep, if_pos (show p.channel.length < p.capacity by omega)] at hn
    cases hn
  | finished => rfl
  | faulted f => exact hv.elim

/-- The number of threads is the available parallelism up to 16, and 1 if that is unknown; never 0. -/
theorem C26_threads (available : Option Nat) (h : ∀ n, available = some n → 0 < n) :
    (available = none → serverThreads available = 1) ∧
    (∀ n, available = some n → n ≤ 16 → serverThreads available = n) ∧
    (∀ n, available = some n → 16 < n → serverThreads available = 16) ∧
    1 ≤ serverThreads available ∧ serverThreads available ≤ 16 := by
  unfold serverThreads
  cases available with
  | none => exact ⟨fun _ => by decide, nofun, nofun, by decide, by decide⟩
  | some n =>
    have := h n rfl
    simp only [Option.getD_some]
    refine ⟨nofun, fun k hk => ?_, fun k hk => ?_, by omega, by omega⟩ <;> · cases hk; omega

/-- A malformed message: its request ID is zero. -/
def exampleMalformed : Bytes := le32 40 ++ le32 1 ++ le64 0 ++ le64 1 ++ le64 0 ++ le64 0

/-- Two threads, and three messages of which `bad` are malformed. -/
def exampleStream (bad : Nat) : Stream Unit where
  f k := if k < 3 then .ok (if k < bad then exampleMalformed else exampleLookup) else .error (.connectionClosed ())
  msgs k := if k < bad then exampleMalformed else exampleLookup
  N := 3
  message k hk := if_pos hk
  closed k hk := ⟨(), if_neg (by omega)⟩

example : (exampleStream 2).malformed 3 = 2 ∧ (exampleStream 3).malformed 3 = 3 ∧
    (exampleStream 2).log 3 = [(some .lookup, exampleLookup)] := by decide

/-- Two threads return after two malformed messages, not after three. -/
example (es p) (bufs : List Bytes) (h : bufs.length = 2) (hb : ∀ b ∈ bufs, 44 ≤ b.length)
    (hr : Pool.Run (exampleStream 2).service (Pool.start (0, []) bufs) es p)
    (hs : p.Stuck (exampleStream 2).service) : p.Returned :=
  (C26_returns_partial (exampleStream 2) 44 bufs (by rintro rfl; cases h)
    (by intro k hk; show List.length (if k < 2 then _ else _) ≤ 44; split <;> decide) hb
    (by rw [h]; decide) es p hr hs).1

example (es p) (bufs : List Bytes) (h : bufs.length = 2) (hb : ∀ b ∈ bufs, 44 ≤ b.length)
    (hr : Pool.Run (exampleStream 3).service (Pool.start (0, []) bufs) es p) : ¬ p.Returned :=
  (C26_violated (exampleStream 3) 44 bufs (by rintro rfl; cases h)
    (by intro k hk; show List.length (if k < 3 then _ else _) ≤ 44; split <;> decide) hb
    (by rw [h]; decide)).1 es p hr

end Fuse
