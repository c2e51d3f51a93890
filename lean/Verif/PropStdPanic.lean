import Verif.StdPanic
import Verif.PropStd

/-!
# C91: a handler that panics costs the threaded server one thread

A stream of messages, well-formed or not, is served by the threads of `serve_fuse`; the handlers do anything to
their part of the world, and end by returning or by a panic.
-/

namespace Fuse

open Spec

variable {σ τ ε : Type}

/-! ## Any service -/

theorem Frail.Step.out {srv : Frail σ ε} {q q' : Pool σ ε} (h : Frail.Step srv q q') :
    ∃ (i : Nat) (w w' : Worker ε) (channel : List (ServerError ε)) (s : σ), q.workers[i]? = some w ∧
      frailStep srv q.capacity q.channel q.world w = some (w', channel, s) ∧
      q' = ⟨s, q.workers.set i w', channel, q.capacity⟩ := by
  cases h with
  | mk h1 h2 => exact ⟨_, _, _, _, _, h1, h2, rfl⟩

theorem frail_stuck_iff (srv : Frail σ ε) (p : Pool σ ε) :
    srv.Stuck p ↔ ∀ (i : Nat) (w : Worker ε), p.workers[i]? = some w →
      frailStep srv p.capacity p.channel p.world w = none := by
  constructor
  · intro h i w hw
    cases hs : frailStep srv p.capacity p.channel p.world w with
    | none => rfl
    | some x => exact absurd (Frail.Step.mk hw hs) (h _)
  · intro h q hst
    obtain ⟨i, w, w', ch, s, hw, hs, _⟩ := hst.out
    rw [h i w hw] at hs
    cases hs

theorem Frail.Run.keeps {srv : Frail σ ε} {p q : Pool σ ε} {k i : Nat} {f : Fault} (h : Frail.Run srv p k q)
    (hp : p.workers[i]? = some (.faulted f)) : q.workers[i]? = some (.faulted f) := by
  induction h with
  | start => exact hp
  | step _ hst ih =>
    obtain ⟨j, w, w', ch, s, hw, hs, rfl⟩ := hst.out
    show (List.set _ j w')[i]? = _
    by_cases hj : j = i
    · subst hj
      rw [ih] at hw
      cases hw
      cases hs
    · rw [List.getElem?_set_ne hj]; exact ih

/-- **C91**, any connection and any handlers: once a handler has panicked, its thread never does anything again,
and `serve_fuse` never returns: if it ends at all, it panics, and the errors the threads reported are lost. -/
theorem C91_never_returns (srv : Frail σ ε) {p q : Pool σ ε} {k i : Nat} (h : Frail.Run srv p k q)
    (hp : (p.workers[i]?).map Worker.hasPanicked = some true) :
    q.workers[i]? = p.workers[i]? ∧ ∀ es, q.outcome ≠ some (.ok es) := by
  obtain ⟨f, hf⟩ : ∃ f, p.workers[i]? = some (.faulted f) := by
    cases hw : p.workers[i]? with
    | none => rw [hw] at hp; cases hp
    | some w =>
      rw [hw] at hp
      cases w with
      | faulted f => exact ⟨f, rfl⟩
      | _ => cases hp
  have hq := h.keeps hf
  refine ⟨hq.trans hf.symm, fun es he => ?_⟩
  unfold Pool.outcome at he
  have : q.workers.any Worker.hasPanicked = true := List.any_eq_true.mpr ⟨_, List.mem_of_getElem? hq, rfl⟩
  rw [this] at he
  split at he <;> cases he

/-! ## Streams -/

/-- A socket on which the `k`-th receive has the outcome `f k`; the state is the number of receives so far, and
what the handlers work on. -/
def feedTo (f : Nat → Except (RecvError ε) Bytes) : Socket (Nat × τ) ε where
  recv buf s :=
    match f s.1 with
    | .error e => ((.error e, buf), s.1 + 1, s.2)
    | .ok m => ((.ok (min m.length buf.length), m.take buf.length ++ buf.drop m.length), s.1 + 1, s.2)
  recv_length buf s := by
    cases f s.1 with
    | error e => rfl
    | ok m => show (m.take buf.length ++ buf.drop m.length).length = _; simp; omega
  send _ s := (.ok (), s)

/-- Handlers that leave the stream alone. -/
def Handlers.aside {M : Type} (h : Handlers M (τ × Bool)) : Handlers M ((Nat × τ) × Bool) where
  unimplemented r s := ((s.1.1, (h.unimplemented r (s.1.2, s.2)).1), (h.unimplemented r (s.1.2, s.2)).2)
  overridden m := (h.overridden m).map fun f r s => ((s.1.1, (f r (s.1.2, s.2)).1), (f r (s.1.2, s.2)).2)

/-- The service that receives from a stream, for handlers that may panic. -/
def Stream.frail (st : Stream ε) (h : Handlers FuseMethod (τ × Bool)) : Frail (Nat × τ) ε :=
  fuseFrail (feedTo st.f) h.aside

/-- The well-formed messages among the first `k`. -/
def Stream.sound (st : Stream ε) (k : Nat) : List Bytes :=
  ((List.range k).map st.msgs).filter fun m => decide (Acceptable m)

/-- What becomes of the handlers' world, and how many of them panic, if they handle these messages one after the
other. -/
def aftermath (f : Bytes → τ × Bool → τ × Bool) (t : τ) : List Bytes → τ × Nat
  | [] => (t, 0)
  | m :: ms =>
    ((aftermath f (f m (t, false)).1 ms).1, (aftermath f (f m (t, false)).1 ms).2 + (f m (t, false)).2.toNat)

theorem aftermath_snoc (f : Bytes → τ × Bool → τ × Bool) (t : τ) (l : List Bytes) (m : Bytes) :
    aftermath f t (l ++ [m]) =
      ((f m ((aftermath f t l).1, false)).1, (aftermath f t l).2 + (f m ((aftermath f t l).1, false)).2.toNat) := by
  induction l generalizing t with
  | nil => simp only [aftermath, Nat.zero_add, List.nil_append]
  | cons a l ih =>
    rw [List.cons_append]
    simp only [aftermath, ih]
    congr 1
    omega

theorem countP_cons_toNat {α : Type} (p : α → Bool) (a : α) (l : List α) :
    (a :: l).countP p = l.countP p + (p a).toNat := by
  rw [List.countP_cons]
  cases p a <;> rfl

theorem aside_handle (h : Handlers FuseMethod (τ × Bool)) (m : Bytes) (k : Nat) (t : τ) :
    fuseHandle h.aside m ((k, t), false) =
      ((k, (fuseHandle h m (t, false)).1), (fuseHandle h m (t, false)).2) := by
  unfold fuseHandle
  cases fuseMethodAt (u32At m 4) with
  | none => rfl
  | some x =>
    simp only [Handlers.aside]
    cases h.overridden x with
    | some f => rfl
    | none =>
      simp only [Option.map_none]
      split <;> rfl

theorem frail_recv_message (st : Stream ε) (h : Handlers FuseMethod (τ × Bool)) (buf : Bytes) (k : Nat) (t : τ)
    (hk : k < st.N) (hl : (st.msgs k).length ≤ buf.length) :
    ∃ b, b.length = buf.length ∧
      (Acceptable (st.msgs k) → (st.frail h).recv buf (k, t) = ((.ok (some ⟨st.msgs k⟩), b), k + 1, t)) ∧
      (¬ Acceptable (st.msgs k) →
        ∃ e, (st.frail h).recv buf (k, t) = ((.error (.request e), b), k + 1, t)) := by
  have h1 : (feedTo (τ := τ) st.f).recv buf (k, t) =
      ((.ok (st.msgs k).length, (st.msgs k).take buf.length ++ buf.drop (st.msgs k).length), k + 1, t) := by
    simp only [feedTo, st.message k hk, Nat.min_eq_left hl]
  have h2 : ((st.msgs k).take buf.length ++ buf.drop (st.msgs k).length).take (st.msgs k).length = st.msgs k := by
    rw [List.take_of_length_le hl, List.take_left' rfl]
  refine ⟨(st.msgs k).take buf.length ++ buf.drop (st.msgs k).length, ?_, ?_, ?_⟩
  · rw [List.length_append, List.length_take, List.length_drop]; omega
  · intro ha
    show fuseRecv (feedTo st.f) buf (k, t) = _
    simp only [fuseRecv, h1, truncateSlice_eq, h2, acceptable_new ha]
  · intro ha
    obtain ⟨e, he, _⟩ := unacceptable_new ha
    refine ⟨e, ?_⟩
    show fuseRecv (feedTo st.f) buf (k, t) = _
    simp only [fuseRecv, h1, truncateSlice_eq, h2, he]

theorem frail_recv_closed (st : Stream ε) (h : Handlers FuseMethod (τ × Bool)) (buf : Bytes) (k : Nat) (t : τ)
    (hk : st.N ≤ k) : (st.frail h).recv buf (k, t) = ((.ok none, buf), k + 1, t) := by
  obtain ⟨e, he⟩ := st.closed k hk
  show fuseRecv (feedTo st.f) buf (k, t) = _
  simp only [fuseRecv, feedTo, he]

theorem frail_run (st : Stream ε) (h : Handlers FuseMethod (τ × Bool)) (r : Request) (k : Nat) (t : τ)
    (ha : Acceptable r.mem) : (st.frail h).run r (k, t) =
      ((k, (fuseHandle h r.mem (t, false)).1), (fuseHandle h r.mem (t, false)).2) := by
  simp only [Stream.frail, fuseFrail]
  rw [C25_fuse _ r.mem r (acceptable_new ha), aside_handle]

theorem sound_succ (st : Stream ε) (k : Nat) :
    st.sound (k + 1) = st.sound k ++ if Acceptable (st.msgs k) then [st.msgs k] else [] := by
  unfold Stream.sound
  rw [List.range_succ, List.map_append, List.filter_append]
  by_cases h : Acceptable (st.msgs k) <;> simp [h]

/-- The message that a thread is about to handle. -/
def Worker.inHand : Worker ε → Option Bytes
  | .handling _ r => some r.mem
  | _ => none

/-- What is known of each thread; `L` is the length of the longest message. -/
def Worker.Sane (L : Nat) : Worker ε → Prop
  | .receiving b => L ≤ b.length
  | .handling b r => L ≤ b.length ∧ Acceptable r.mem
  | .reporting b e => L ≤ b.length ∧ isFatalError e = false
  | .finished => True
  | .faulted _ => True

structure FrailInv (st : Stream ε) (h : Handlers FuseMethod (τ × Bool)) (t : τ) (L n k : Nat)
    (p : Pool (Nat × τ) ε) : Prop where
  capacity : p.capacity = n
  workers : p.workers.length = n
  channel : p.channel.length ≤ n
  sane : ∀ w ∈ p.workers, w.Sane L
  errors : p.workers.countP Worker.isReporting + p.channel.length = st.malformed (min p.world.1 st.N)
  finished : p.workers.countP Worker.isFinished = p.world.1 - st.N
  handled : ∃ l, (l ++ p.workers.filterMap Worker.inHand).Perm (st.sound (min p.world.1 st.N)) ∧
    aftermath (fuseHandle h) t l = (p.world.2, p.workers.countP Worker.hasPanicked)
  weight : k + (3 * (st.N - p.world.1) + (p.workers.map Worker.weight).sum) ≤ 3 * st.N + n

theorem frail_start (st : Stream ε) (h : Handlers FuseMethod (τ × Bool)) (t : τ) (L : Nat) (bufs : List Bytes)
    (hb : ∀ b ∈ bufs, L ≤ b.length) : FrailInv st h t L bufs.length 0 (Pool.start (0, t) bufs) := by
  have c : ∀ q : Worker ε → Bool, (∀ b, q (.receiving b) = false) →
      (bufs.map (Worker.receiving (ε := ε))).countP q = 0 := fun q hq => countP_start' q hq bufs
  refine ⟨rfl, List.length_map .., Nat.zero_le _, ?_, ?_, ?_, ⟨[], ?_, ?_⟩, ?_⟩
  · intro w hw
    obtain ⟨b, hb', rfl⟩ := List.mem_map.mp hw
    exact hb b hb'
  · show (bufs.map _).countP _ + 0 = st.malformed (min 0 st.N)
    rw [countP_start, Nat.zero_min]; rfl
  · show (bufs.map _).countP _ = 0 - st.N
    rw [Nat.zero_sub, c _ fun _ => rfl]
  · show ([] ++ (bufs.map _).filterMap _).Perm (st.sound (min 0 st.N))
    rw [Nat.zero_min, List.nil_append]
    have : (bufs.map (Worker.receiving (ε := ε))).filterMap Worker.inHand = [] := by
      clear hb c
      induction bufs with
      | nil => rfl
      | cons b bs ih => exact ih
    rw [this]; exact .nil
  · show (t, 0) = (t, (bufs.map _).countP _)
    rw [c _ fun _ => rfl]
  · show 0 + (3 * (st.N - 0) + ((bufs.map (Worker.receiving (ε := ε))).map Worker.weight).sum) ≤ _
    have : ((bufs.map (Worker.receiving (ε := ε))).map Worker.weight).sum = bufs.length := by
      clear hb c
      induction bufs with
      | nil => rfl
      | cons b bs ih =>
        rw [List.map_cons, List.map_cons, List.sum_cons, ih, List.length_cons]
        show 1 + _ = _; omega
    omega

theorem frail_step (st : Stream ε) (h : Handlers FuseMethod (τ × Bool)) (t : τ) (L n k : Nat)
    (hL : ∀ k < st.N, (st.msgs k).length ≤ L) {q q' : Pool (Nat × τ) ε}
    (ih : FrailInv st h t L n k q) (hst : Frail.Step (st.frail h) q q') : FrailInv st h t L n (k + 1) q' := by
  obtain ⟨h1, h2, h3, h4, h5, h6, h7, h8⟩ := ih
  obtain ⟨i, w, w', channel, s, hw, hs, rfl⟩ := hst.out
  obtain ⟨a, b, hl, hset⟩ := set_decompose hw
  have hv := h4 w (List.mem_of_getElem? hw)
  have hvab : ∀ x, x ∈ a ∨ x ∈ b → x.Sane L := by
    intro x hx
    apply h4
    rw [hl, List.mem_append, List.mem_cons]
    rcases hx with hx | hx
    · exact Or.inl hx
    · exact Or.inr (Or.inr hx)
  rw [hl] at h2 h5 h6 h7 h8
  rw [List.length_append, List.length_cons] at h2
  rw [List.countP_append, List.countP_cons] at h5 h6
  rw [List.countP_append, countP_cons_toNat] at h7
  rw [List.filterMap_append] at h7
  rw [List.map_append, List.map_cons, List.sum_append, List.sum_cons] at h8
  -- what the step must establish about the changed thread
  have key : channel.length ≤ n ∧ w'.Sane L ∧
      (if w'.isReporting then 1 else 0) + channel.length + st.malformed (min q.world.1 st.N) =
        (if w.isReporting then 1 else 0) + q.channel.length + st.malformed (min s.1 st.N) ∧
      (if w'.isFinished then 1 else 0) + (q.world.1 - st.N) =
        (if w.isFinished then 1 else 0) + (s.1 - st.N) ∧
      (∀ (r : List Bytes) (c : Nat), (∃ l, (l ++ (r ++ w.inHand.toList)).Perm (st.sound (min q.world.1 st.N)) ∧
          aftermath (fuseHandle h) t l = (q.world.2, c + w.hasPanicked.toNat)) →
        ∃ l, (l ++ (r ++ w'.inHand.toList)).Perm (st.sound (min s.1 st.N)) ∧
          aftermath (fuseHandle h) t l = (s.2, c + w'.hasPanicked.toNat)) ∧
      1 + (3 * (st.N - s.1) + w'.weight) ≤ 3 * (st.N - q.world.1) + w.weight := by
    obtain ⟨⟨k, u⟩, workers, ch, cap⟩ := q
    cases w with
    | receiving buf =>
      simp only [frailStep] at hs
      by_cases hk : k < st.N
      · obtain ⟨b', hb', hr1, hr2⟩ := frail_recv_message st h buf k u hk
          (Nat.le_trans (hL k hk) hv)
        have e1 : min k st.N = k := by omega
        have e2 : min (k + 1) st.N = k + 1 := by omega
        by_cases ha : Acceptable (st.msgs k)
        · simp only [hr1 ha] at hs
          cases hs
          refine ⟨h3, ⟨by rw [hb']; exact hv, ha⟩, ?_, ?_, ?_, ?_⟩
          · simp only [e1, e2, malformed_succ, ha, Worker.isReporting, ↓reduceIte]; rfl
          · simp only [Worker.isFinished, ↓reduceIte, Bool.false_eq_true]; omega
          · rintro r c ⟨l, hp, ho⟩
            refine ⟨l, ?_, ho⟩
            simp only [e1, e2, sound_succ, ha, ↓reduceIte, Worker.inHand, Option.toList, List.append_nil] at hp ⊢
            rw [← List.append_assoc]
            exact hp.append_right _
          · simp only [Worker.weight]; omega
        · obtain ⟨e', hr⟩ := hr2 ha
          simp only [hr] at hs
          cases hs
          refine ⟨h3, ⟨by rw [hb']; exact hv, rfl⟩, ?_, ?_, ?_, ?_⟩
          · simp only [e1, e2, malformed_succ, ha, Worker.isReporting, ↓reduceIte, Bool.false_eq_true]; omega
          · simp only [Worker.isFinished, ↓reduceIte, Bool.false_eq_true]; omega
          · rintro r c ⟨l, hp, ho⟩
            refine ⟨l, ?_, ho⟩
            simp only [e1, e2, sound_succ, ha, ↓reduceIte, Worker.inHand, Option.toList, List.append_nil] at hp ⊢
            exact hp
          · simp only [Worker.weight]; omega
      · have hr := frail_recv_closed st h buf k u (by omega)
        simp only [hr] at hs
        cases hs
        have e1 : min k st.N = st.N := by omega
        have e2 : min (k + 1) st.N = st.N := by omega
        refine ⟨h3, trivial, ?_, ?_, ?_, ?_⟩
        · simp only [e1, e2, Worker.isReporting, ↓reduceIte, Bool.false_eq_true]
        · simp only [Worker.isFinished, ↓reduceIte, Bool.false_eq_true]; omega
        · rintro r c ⟨l, hp, ho⟩
          refine ⟨l, ?_, ho⟩
          simp only [e1, e2, Worker.inHand] at hp ⊢
          exact hp
        · simp only [Worker.weight]; omega
    | handling buf r =>
      simp only [frailStep, frail_run st h r _ _ hv.2] at hs
      have more : ∀ (w' : Worker ε), w'.inHand = none →
          w'.hasPanicked = (fuseHandle h r.mem (u, false)).2 →
          ∀ (ms : List Bytes) (c : Nat),
          (∃ l, (l ++ (ms ++ (Worker.handling (ε := ε) buf r).inHand.toList)).Perm (st.sound (min k st.N)) ∧
            aftermath (fuseHandle h) t l = (u, c + (Worker.handling (ε := ε) buf r).hasPanicked.toNat)) →
          ∃ l, (l ++ (ms ++ w'.inHand.toList)).Perm (st.sound (min k st.N)) ∧
            aftermath (fuseHandle h) t l = ((fuseHandle h r.mem (u, false)).1, c + w'.hasPanicked.toNat) := by
        rintro w' hw' hp' ms c ⟨l, hp, ho⟩
        refine ⟨l ++ [r.mem], ?_, ?_⟩
        · rw [hw']
          simp only [Worker.inHand, Option.toList, List.append_nil] at hp ⊢
          refine List.Perm.trans ?_ hp
          rw [List.append_assoc]
          exact (List.perm_append_comm).append_left _
        · rw [aftermath_snoc, ho, hp']
          rfl
      cases hf : (fuseHandle h r.mem (u, false)).2 with
      | false =>
        simp only [hf] at hs
        cases hs
        exact ⟨h3, hv.1, by simp [Worker.isReporting], by simp [Worker.isFinished],
          more _ rfl hf.symm, by simp [Worker.weight]; omega⟩
      | true =>
        simp only [hf] at hs
        cases hs
        exact ⟨h3, trivial, by simp [Worker.isReporting], by simp [Worker.isFinished],
          more _ rfl hf.symm, by simp [Worker.weight]; omega⟩
    | reporting buf e' =>
      simp only [frailStep] at hs
      by_cases hc : ch.length < cap
      · rw [if_pos hc, hv.2] at hs
        cases hs
        have hc' : ch.length < n := by rw [← h1]; exact hc
        refine ⟨by rw [List.length_append]; exact hc', hv.1, ?_, by simp [Worker.isFinished], fun r c hp => ?_,
          by simp [Worker.weight]; omega⟩
        · simp [Worker.isReporting]; omega
        · simpa [Worker.inHand, Worker.hasPanicked] using hp
      · rw [if_neg hc] at hs; cases hs
    | finished => cases hs
    | faulted f => cases hs
  obtain ⟨k1, k2, k3, k4, k5, k6⟩ := key
  have perm : ∀ x : Worker ε, (a.filterMap Worker.inHand ++ (x :: b).filterMap Worker.inHand).Perm
      ((a.filterMap Worker.inHand ++ b.filterMap Worker.inHand) ++ x.inHand.toList) := by
    intro x
    rw [List.append_assoc]
    refine List.Perm.append_left _ ?_
    rw [List.filterMap_cons]
    cases x.inHand with
    | none => rw [Option.toList, List.append_nil]
    | some y => exact (List.perm_append_singleton y _).symm
  refine ⟨h1, ?_, k1, ?_, ?_, ?_, ?_, ?_⟩
  · show (q.workers.set i w').length = _
    rw [hset, List.length_append, List.length_cons]; exact h2
  · show ∀ x ∈ q.workers.set i w', _
    rw [hset]
    intro x hx
    rw [List.mem_append, List.mem_cons] at hx
    rcases hx with hx | rfl | hx
    · exact hvab x (Or.inl hx)
    · exact k2
    · exact hvab x (Or.inr hx)
  · show (q.workers.set i w').countP _ + channel.length = st.malformed (min s.1 st.N)
    rw [hset, List.countP_append, List.countP_cons]
    omega
  · show (q.workers.set i w').countP _ = s.1 - st.N
    rw [hset, List.countP_append, List.countP_cons]
    omega
  · show ∃ l, (l ++ (q.workers.set i w').filterMap _).Perm (st.sound (min s.1 st.N)) ∧
      aftermath (fuseHandle h) t l = (s.2, (q.workers.set i w').countP _)
    rw [hset, List.filterMap_append, List.countP_append, countP_cons_toNat]
    obtain ⟨l0, hp0, ho0⟩ := h7
    obtain ⟨l, hp, ho⟩ := k5 (a.filterMap Worker.inHand ++ b.filterMap Worker.inHand)
      (a.countP Worker.hasPanicked + b.countP Worker.hasPanicked)
      ⟨l0, (List.Perm.append_left _ (perm w).symm).trans hp0, by rw [ho0, Nat.add_assoc]⟩
    exact ⟨l, (List.Perm.append_left _ (perm w')).trans hp, by rw [ho, Nat.add_assoc]⟩
  · show (k + 1) + (3 * (st.N - s.1) + ((q.workers.set i w').map _).sum) ≤ _
    rw [hset, List.map_append, List.map_cons, List.sum_append, List.sum_cons]
    omega

theorem frail_inv (st : Stream ε) (h : Handlers FuseMethod (τ × Bool)) (t : τ) (L : Nat) (bufs : List Bytes)
    (hL : ∀ k < st.N, (st.msgs k).length ≤ L) (hb : ∀ b ∈ bufs, L ≤ b.length) {k : Nat}
    {p : Pool (Nat × τ) ε} (hr : Frail.Run (st.frail h) (Pool.start (0, t) bufs) k p) :
    FrailInv st h t L bufs.length k p := by
  induction hr with
  | start => exact frail_start st h t L bufs hb
  | step _ hst ih => exact frail_step st h t L bufs.length _ hL ih hst

/-! ## When nothing moves any more -/

/-- A thread that cannot make a step has ended, or waits for room in the channel. -/
theorem frail_blocked (srv : Frail σ ε) (w : Worker ε) (cap : Nat) (ch : List (ServerError ε)) (s : σ)
    (hs : frailStep srv cap ch s w = none) :
    w.isFinished.toNat + w.hasPanicked.toNat + w.isReporting.toNat = 1 ∧
      w.hasEnded = !w.isReporting ∧ w.inHand = none ∧ (w.isReporting = true → cap ≤ ch.length) := by
  cases w with
  | receiving buf =>
    exfalso
    simp only [frailStep] at hs
    rcases hr : srv.recv buf s with ⟨⟨r | (_ | r), b⟩, s1⟩ <;> simp only [hr] at hs <;> cases hs
  | handling buf r =>
    exfalso
    simp only [frailStep] at hs
    rcases hr : srv.run r s with ⟨s1, _ | _⟩ <;> simp only [hr] at hs <;> cases hs
  | reporting buf e =>
    refine ⟨rfl, rfl, rfl, fun _ => ?_⟩
    simp only [frailStep] at hs
    by_cases hc : ch.length < cap
    · rw [if_pos hc] at hs; cases hs
    · omega
  | finished => exact ⟨rfl, rfl, rfl, nofun⟩
  | faulted f => exact ⟨rfl, rfl, rfl, nofun⟩

theorem blocked_counts {ws : List (Worker ε)} {cap ch : Nat}
    (h : ∀ w ∈ ws, w.isFinished.toNat + w.hasPanicked.toNat + w.isReporting.toNat = 1 ∧
      w.hasEnded = !w.isReporting ∧ w.inHand = none ∧ (w.isReporting = true → cap ≤ ch)) :
    ws.countP Worker.isFinished + ws.countP Worker.hasPanicked + ws.countP Worker.isReporting = ws.length ∧
      ws.filterMap Worker.inHand = [] ∧ (0 < ws.countP Worker.isReporting → cap ≤ ch) ∧
      (ws.all Worker.hasEnded = true ↔ ws.countP Worker.isReporting = 0) := by
  induction ws with
  | nil => exact ⟨rfl, rfl, nofun, by simp⟩
  | cons w ws ih =>
    obtain ⟨i1, i2, i3, i4⟩ := ih fun w hw => h w (List.mem_cons_of_mem _ hw)
    obtain ⟨h1, h2, h3, h4⟩ := h w List.mem_cons_self
    rw [countP_cons_toNat, countP_cons_toNat, countP_cons_toNat, List.length_cons]
    refine ⟨by omega, ?_, ?_, ?_⟩
    · rw [List.filterMap_cons, h3]; exact i2
    · intro hp
      cases hr : w.isReporting with
      | true => exact h4 hr
      | false => rw [hr] at hp; exact i3 hp
    · rw [List.all_cons, h2, Bool.and_eq_true, i4]
      cases w.isReporting <;> simp

/-- **C91**, any handlers: whether one panics may depend on anything it sees.  When nothing moves any more, the
first `k` messages have been received, for some `k`, and all the well-formed ones among them have been handled,
one after the other, each exactly once, panics or not.  Every panic has cost one thread, and every malformed
message beyond the `n`-th has blocked one; `k` messages are all of them unless that made up all `n` threads.  The
server then hangs if there were more than `n` malformed messages; otherwise it returns an error for each of the
malformed messages if no handler panicked, and panics if one did. -/
theorem C91_any (st : Stream ε) (h : Handlers FuseMethod (τ × Bool)) (t : τ) (L : Nat) (bufs : List Bytes)
    (hL : ∀ k < st.N, (st.msgs k).length ≤ L) (hb : ∀ b ∈ bufs, L ≤ b.length) (steps : Nat)
    (p : Pool (Nat × τ) ε) (hr : Frail.Run (st.frail h) (Pool.start (0, t) bufs) steps p)
    (hs : (st.frail h).Stuck p) :
    ∃ (k : Nat) (l : List Bytes) (c : Nat), k = min p.world.1 st.N ∧ l.Perm (st.sound k) ∧
      aftermath (fuseHandle h) t l = (p.world.2, c) ∧ c ≤ bufs.length ∧
      (c + (st.malformed k - bufs.length) = bufs.length ∨
        k = st.N ∧ c + (st.malformed k - bufs.length) < bufs.length) ∧
      p.outcome = (if bufs.length < st.malformed k then none
        else if c = 0 then some (.ok p.channel) else some (.error .panic)) ∧
      p.channel.length = min (st.malformed k) bufs.length := by
  obtain ⟨h1, h2, h3, _, h5, h6, ⟨l, h7, h8⟩, _⟩ := frail_inv st h t L bufs hL hb hr
  obtain ⟨g1, g2, g3, g4⟩ := blocked_counts (ws := p.workers) (cap := p.capacity) (ch := p.channel.length) (by
    intro w hw
    obtain ⟨i, hi⟩ := List.getElem?_of_mem hw
    exact frail_blocked (st.frail h) w _ _ _ ((frail_stuck_iff _ p).mp hs i w hi))
  rw [g2, List.append_nil] at h7
  refine ⟨_, l, _, rfl, h7, h8, ?_, ?_, ?_, ?_⟩
  · rw [← h2]; exact List.countP_le_length
  · rw [h1] at g3
    by_cases hk : st.N < p.world.1
    · right
      rw [Nat.min_eq_right (by omega)] at h5 ⊢
      refine ⟨rfl, ?_⟩
      omega
    · left; omega
  · have hany : p.workers.any Worker.hasPanicked = true ↔ ¬ p.workers.countP Worker.hasPanicked = 0 := by
      rw [List.any_eq_true, ← List.countP_pos_iff]; omega
    unfold Pool.outcome
    rw [h1] at g3
    by_cases hm : bufs.length < st.malformed (min p.world.1 st.N)
    · rw [if_pos hm, if_neg]
      rw [g4]; omega
    · rw [if_neg hm, if_pos (g4.mpr (by omega))]
      by_cases hc : p.workers.countP Worker.hasPanicked = 0
      · rw [if_pos hc, if_neg (by rw [hany]; exact not_not_intro hc)]
      · rw [if_neg hc, if_pos (hany.mpr hc)]
  · rw [h1] at g3; omega

/-- If runs cannot be longer than `n`, every run can be continued until nothing moves any more. -/
theorem frail_ends {srv : Frail σ ε} {p0 p : Pool σ ε} {n steps : Nat}
    (bound : ∀ steps p, Frail.Run srv p0 steps p → steps ≤ n) (hr : Frail.Run srv p0 steps p) :
    ∃ more q, Frail.Run srv p more q ∧ srv.Stuck q := by
  have go : ∀ d k q, Frail.Run srv p k q → Frail.Run srv p0 (steps + k) q → n - (steps + k) ≤ d →
      ∃ more q, Frail.Run srv p more q ∧ srv.Stuck q := by
    intro d
    induction d with
    | zero =>
      intro k q h1 h2 hd
      refine ⟨k, q, h1, fun q' hst => ?_⟩
      have := bound _ _ (h2.step hst)
      omega
    | succ d ih =>
      intro k q h1 h2 hd
      by_cases hs : srv.Stuck q
      · exact ⟨k, q, h1, hs⟩
      · obtain ⟨q', hq⟩ := Classical.not_forall.mp hs
        have hst := Classical.not_not.mp hq
        exact ih (k + 1) q' (h1.step hst) (h2.step hst) (by omega)
  exact go _ 0 p .start hr (Nat.le_refl _)

/-- **C91**: whatever the handlers do, nothing goes on forever: the threads make at most `3N + n` steps, and every
run can be continued until nothing moves any more. -/
theorem C91_runs_end (st : Stream ε) (h : Handlers FuseMethod (τ × Bool)) (t : τ) (L : Nat) (bufs : List Bytes)
    (hL : ∀ k < st.N, (st.msgs k).length ≤ L) (hb : ∀ b ∈ bufs, L ≤ b.length) (steps : Nat)
    (p : Pool (Nat × τ) ε) (hr : Frail.Run (st.frail h) (Pool.start (0, t) bufs) steps p) :
    steps ≤ 3 * st.N + bufs.length ∧ ∃ more q, Frail.Run (st.frail h) p more q ∧ (st.frail h).Stuck q := by
  have bound : ∀ steps p, Frail.Run (st.frail h) (Pool.start (0, t) bufs) steps p →
      steps ≤ 3 * st.N + bufs.length := by
    intro steps p hr
    have := (frail_inv st h t L bufs hL hb hr).weight
    omega
  exact ⟨bound _ _ hr, frail_ends bound hr⟩

/-! ## Handlers that panic on some messages -/

/-- The threads lost to the first `k` messages if `n` threads serve them with handlers that panic on the messages
in `bad`: one for every panic, and one for every malformed message beyond the `n`-th. -/
def Stream.losses (st : Stream ε) (bad : Bytes → Bool) (n k : Nat) : Nat :=
  (st.sound k).countP bad + (st.malformed k - n)

theorem aftermath_bad {f : Bytes → τ × Bool → τ × Bool} {bad : Bytes → Bool}
    (hp : ∀ m t, (f m (t, false)).2 = bad m) (t : τ) (l : List Bytes) :
    (aftermath f t l).2 = l.countP bad := by
  induction l generalizing t with
  | nil => rfl
  | cons m l ih =>
    rw [countP_cons_toNat]
    show (aftermath f _ l).2 + _ = _
    rw [ih, hp]

theorem losses_mono (st : Stream ε) (bad : Bytes → Bool) (n : Nat) {j k : Nat} (h : j ≤ k) :
    st.losses bad n j ≤ st.losses bad n k := by
  have h1 : (st.sound j).countP bad ≤ (st.sound k).countP bad := by
    unfold Stream.sound
    exact (((List.range_sublist.mpr h).map _).filter _).countP_le
  have h2 : st.malformed j ≤ st.malformed k := by
    unfold Stream.malformed
    exact List.Sublist.countP_le (List.range_sublist.mpr h)
  unfold Stream.losses
  omega

def Worker.isReceiving : Worker ε → Bool
  | .receiving _ => true
  | _ => false

theorem busy_le (bad : Bytes → Bool) (ws : List (Worker ε)) :
    ws.countP Worker.hasPanicked + ws.countP Worker.isReporting + (ws.filterMap Worker.inHand).countP bad +
      ws.countP Worker.isReceiving ≤ ws.length := by
  induction ws with
  | nil => exact Nat.le_refl _
  | cons w ws ih =>
    rw [countP_cons_toNat, countP_cons_toNat, countP_cons_toNat, List.length_cons, List.filterMap_cons]
    cases w with
    | handling b r =>
      simp only [Worker.inHand, Worker.hasPanicked, Worker.isReporting, Worker.isReceiving, countP_cons_toNat,
        Bool.toNat_false]
      have := Bool.toNat_le (bad r.mem)
      omega
    | _ =>
      simp only [Worker.inHand, Worker.hasPanicked, Worker.isReporting, Worker.isReceiving, Bool.toNat_false,
        Bool.toNat_true]
      omega

theorem frail_losses (st : Stream ε) (h : Handlers FuseMethod (τ × Bool)) (t : τ) (L : Nat) (bufs : List Bytes)
    (hL : ∀ k < st.N, (st.msgs k).length ≤ L) (hb : ∀ b ∈ bufs, L ≤ b.length) (bad : Bytes → Bool)
    (hp : ∀ m t, (fuseHandle h m (t, false)).2 = bad m) {k : Nat} {p : Pool (Nat × τ) ε}
    (hr : Frail.Run (st.frail h) (Pool.start (0, t) bufs) k p) :
    ∀ j < min p.world.1 st.N, st.losses bad bufs.length j < bufs.length := by
  induction hr with
  | start => intro j hj; exact absurd hj (by show ¬ j < min 0 _; omega)
  | @step k q q' hq hst ih =>
    obtain ⟨_, h2, h3, h4, h5, _, ⟨l, h7, h8⟩, _⟩ := frail_inv st h t L bufs hL hb hq
    obtain ⟨i, w, w', channel, s, hw, hs, rfl⟩ := hst.out
    have hv := h4 w (List.mem_of_getElem? hw)
    show ∀ j < min s.1 st.N, _
    have same : s.1 = q.world.1 ∨ w.isReceiving = true ∧ s.1 = q.world.1 + 1 := by
      obtain ⟨⟨k, u⟩, workers, ch, cap⟩ := q
      cases w with
      | receiving buf =>
        right
        refine ⟨rfl, ?_⟩
        simp only [frailStep] at hs
        by_cases hk : k < st.N
        · obtain ⟨b', hb', hr1, hr2⟩ := frail_recv_message st h buf k u hk (Nat.le_trans (hL k hk) hv)
          by_cases ha : Acceptable (st.msgs k)
          · simp only [hr1 ha] at hs; cases hs; rfl
          · obtain ⟨e', hr⟩ := hr2 ha
            simp only [hr] at hs; cases hs; rfl
        · simp only [frail_recv_closed st h buf k u (by omega)] at hs; cases hs; rfl
      | handling buf r =>
        left
        simp only [frailStep, frail_run st h r _ _ hv.2] at hs
        cases hf : (fuseHandle h r.mem (u, false)).2 <;> simp only [hf] at hs <;> cases hs <;> rfl
      | reporting buf e' =>
        left
        simp only [frailStep] at hs
        split at hs <;> cases hs
        rfl
      | finished => cases hs
      | faulted f => cases hs
    rcases same with e | ⟨hrec, e⟩
    · rw [e]; exact ih
    · intro j hj
      by_cases hj' : j < min q.world.1 st.N
      · exact ih j hj'
      · have ej : min q.world.1 st.N = j := by omega
        have hb1 := busy_le bad q.workers
        have hb2 : 0 < q.workers.countP Worker.isReceiving := countP_pos_of_mem (List.mem_of_getElem? hw) hrec
        have hc := h7.countP_eq bad
        rw [List.countP_append, ← aftermath_bad hp t l, h8] at hc
        rw [ej] at hc h5
        dsimp only at hc
        unfold Stream.losses
        omega

/-- **C91**, exactly, for handlers that panic on the messages in `bad`.  Let message `j` be any of the `N`.  When
nothing moves any more, under any schedule, it has been received if and only if the messages before it have cost
fewer than all `n` threads; the well-formed ones of the messages received have been handled, in some order, each
exactly once. -/
theorem C91_exact (st : Stream ε) (h : Handlers FuseMethod (τ × Bool)) (t : τ) (L : Nat) (bufs : List Bytes)
    (hL : ∀ k < st.N, (st.msgs k).length ≤ L) (hb : ∀ b ∈ bufs, L ≤ b.length) (bad : Bytes → Bool)
    (hp : ∀ m t, (fuseHandle h m (t, false)).2 = bad m) (steps : Nat) (p : Pool (Nat × τ) ε)
    (hr : Frail.Run (st.frail h) (Pool.start (0, t) bufs) steps p) (hs : (st.frail h).Stuck p) :
    (∀ j < st.N, (j < p.world.1 ↔ st.losses bad bufs.length j < bufs.length)) ∧
    ∃ l, l.Perm (st.sound (min p.world.1 st.N)) ∧ p.world.2 = (aftermath (fuseHandle h) t l).1 := by
  obtain ⟨k, l, c, hk, h1, h2, _, h4, _⟩ := C91_any st h t L bufs hL hb steps p hr hs
  have hlt := frail_losses st h t L bufs hL hb bad hp hr
  refine ⟨fun j hj => ⟨fun hjw => hlt j (by omega), fun hjl => ?_⟩, l, hk ▸ h1, by rw [h2]⟩
  have hc : c = (st.sound k).countP bad := by
    rw [← h1.countP_eq bad, ← aftermath_bad hp t l, h2]
  rw [hc] at h4
  rcases h4 with h4 | ⟨h4, _⟩
  · by_cases hkj : k ≤ j
    · have := losses_mono st bad bufs.length hkj
      unfold Stream.losses at this hjl
      omega
    · omega
  · omega

/-- **C91**: as long as fewer threads are lost than there are, panics keep no other message from being received
and handled, and the server ends unless malformed messages block it. -/
theorem C91_goes_on (st : Stream ε) (h : Handlers FuseMethod (τ × Bool)) (t : τ) (L : Nat) (bufs : List Bytes)
    (hL : ∀ k < st.N, (st.msgs k).length ≤ L) (hb : ∀ b ∈ bufs, L ≤ b.length) (bad : Bytes → Bool)
    (hp : ∀ m t, (fuseHandle h m (t, false)).2 = bad m) (hn : st.losses bad bufs.length st.N < bufs.length)
    (steps : Nat) (p : Pool (Nat × τ) ε) (hr : Frail.Run (st.frail h) (Pool.start (0, t) bufs) steps p)
    (hs : (st.frail h).Stuck p) :
    (∃ l, l.Perm (st.sound st.N) ∧ p.world.2 = (aftermath (fuseHandle h) t l).1) ∧
    p.outcome = (if bufs.length < st.malformed st.N then none
      else if (st.sound st.N).countP bad = 0 then some (.ok p.channel) else some (.error .panic)) ∧
    p.channel.length = min (st.malformed st.N) bufs.length := by
  obtain ⟨k, l, c, hk, h1, h2, _, h4, h5, h6⟩ := C91_any st h t L bufs hL hb steps p hr hs
  have hc : c = (st.sound k).countP bad := by
    rw [← h1.countP_eq bad, ← aftermath_bad hp t l, h2]
  have hN : k = st.N := by
    rcases h4 with h4 | ⟨h4, _⟩
    · exfalso
      have := losses_mono st bad bufs.length (show k ≤ st.N by omega)
      unfold Stream.losses at this hn
      omega
    · exact h4
  rw [hN] at h1 h5 h6 hc
  exact ⟨⟨l, h1, by rw [h2]⟩, hc ▸ h5, h6⟩

/-! ## Examples -/

namespace StdPanic

/-- A `STATFS` request. -/
def statfs : Bytes := le32 40 ++ le32 17 ++ le64 1 ++ le64 1 ++ le64 0 ++ le64 0

/-- A malformed message, two that make a handler panic, and between them and after them one that does not. -/
def message (k : Nat) : Bytes :=
  if k = 0 then exampleMalformed else if k = 1 ∨ k = 3 then exampleLookup else statfs

def stream : Stream Unit where
  f k := if k < 5 then .ok (message k) else .error (.connectionClosed ())
  msgs := message
  N := 5
  message k hk := if_pos hk
  closed k hk := ⟨(), if_neg (by omega)⟩

/-- Looking up a name panics; everything else is noted. -/
def handlers : Handlers FuseMethod (List Nat × Bool) where
  unimplemented r s := (s.1 ++ [u32At r.mem 4], s.2)
  overridden
    | .lookup => some fun _ s => (s.1, true)
    | _ => none

def bad (m : Bytes) : Bool := decide (u32At m 4 = 1)

theorem panics (m : Bytes) (t : List Nat) : (fuseHandle handlers m (t, false)).2 = bad m := by
  unfold fuseHandle bad
  by_cases h : u32At m 4 = 1
  · rw [h]; rfl
  · rw [decide_eq_false h]
    generalize hx : fuseMethodAt (u32At m 4) = x
    cases x with
    | none => rfl
    | some f =>
      cases f with
      | lookup =>
        exfalso
        revert hx
        unfold fuseMethodAt
        intro hx
        repeat' (split at hx <;> first | exact h ‹_› | cases hx | skip)
      | _ => dsimp only [handlers]; split <;> rfl

theorem fits : ∀ k < stream.N, (stream.msgs k).length ≤ 44 := by
  intro k hk
  show (message k).length ≤ 44
  unfold message
  split
  · decide
  · split <;> decide

example : (List.range 6).map (stream.losses bad 2) = [0, 0, 1, 1, 2, 2] ∧
    (List.range 6).map (stream.losses bad 3) = [0, 0, 1, 1, 2, 2] ∧ stream.malformed 5 = 1 := by decide +kernel

/-- Two threads never receive the last message: both have panicked before. -/
example (bufs : List Bytes) (hn : bufs.length = 2) (hb : ∀ b ∈ bufs, 44 ≤ b.length) (steps p)
    (hr : Frail.Run (stream.frail handlers) (Pool.start (0, []) bufs) steps p)
    (hs : (stream.frail handlers).Stuck p) : 3 < p.world.1 ∧ ¬ 4 < p.world.1 := by
  have h := (C91_exact stream handlers [] 44 bufs fits hb bad panics steps p hr hs).1
  rw [hn] at h
  exact ⟨(h 3 (by decide)).mpr (by decide +kernel), fun h4 => absurd ((h 4 (by decide)).mp h4) (by decide +kernel)⟩

/-- Three threads receive all of them, and the two that need no lookup are handled; but the error of the malformed
message is lost, as `serve_fuse` panics. -/
example (bufs : List Bytes) (hn : bufs.length = 3) (hb : ∀ b ∈ bufs, 44 ≤ b.length) (steps p)
    (hr : Frail.Run (stream.frail handlers) (Pool.start (0, []) bufs) steps p)
    (hs : (stream.frail handlers).Stuck p) : p.channel.length = 1 ∧ p.outcome = some (.error .panic) := by
  obtain ⟨_, h2, h3⟩ := C91_goes_on stream handlers [] 44 bufs fits hb bad panics
    (by rw [hn]; decide +kernel) steps p hr hs
  rw [hn] at h2 h3
  exact ⟨h3.trans (by decide +kernel), h2.trans (by
    rw [if_neg (by decide +kernel), if_neg (by decide +kernel)])⟩

example : aftermath (fuseHandle handlers) [] [exampleLookup, statfs, exampleLookup, statfs] = ([17, 17], 2) := by
  decide +kernel

end StdPanic

end Fuse
