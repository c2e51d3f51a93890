import Verif.PropStdPanic

/-!
# C91: a handler that panics costs the threaded server one thread, for CUSE

A CUSE server takes the closing of its connection for an error, which every thread that is left reports.  As the
channel has room for one error per thread, every malformed message takes the room of a thread's last error, and
every panic makes room for one.
-/

namespace Fuse

open Spec

variable {τ ε : Type}

/-- The CUSE service that receives from a stream, for handlers that may panic. -/
def Stream.cuseFrail (st : Stream ε) (h : Handlers CuseMethod (τ × Bool)) : Frail (Nat × τ) ε :=
  Fuse.cuseFrail (feedTo st.f) h.aside

theorem aside_cuse (h : Handlers CuseMethod (τ × Bool)) (m : Bytes) (k : Nat) (t : τ) :
    cuseHandle h.aside m ((k, t), false) =
      ((k, (cuseHandle h m (t, false)).1), (cuseHandle h m (t, false)).2) := by
  unfold cuseHandle
  cases cuseMethodAt (u32At m 4) with
  | none => rfl
  | some x =>
    simp only [Handlers.aside]
    cases h.overridden x with
    | some f => rfl
    | none =>
      simp only [Option.map_none]
      split <;> rfl

theorem cuse_frail_message (st : Stream ε) (h : Handlers CuseMethod (τ × Bool)) (buf : Bytes) (k : Nat) (t : τ)
    (hk : k < st.N) (hl : (st.msgs k).length ≤ buf.length) :
    ∃ b, b.length = buf.length ∧
      (Acceptable (st.msgs k) → (st.cuseFrail h).recv buf (k, t) = ((.ok (some ⟨st.msgs k⟩), b), k + 1, t)) ∧
      (¬ Acceptable (st.msgs k) →
        ∃ e, (st.cuseFrail h).recv buf (k, t) = ((.error (.request e), b), k + 1, t)) := by
  have h1 : (feedTo (τ := τ) st.f).recv buf (k, t) =
      ((.ok (st.msgs k).length, (st.msgs k).take buf.length ++ buf.drop (st.msgs k).length), k + 1, t) := by
    simp only [feedTo, st.message k hk, Nat.min_eq_left hl]
  have h2 : ((st.msgs k).take buf.length ++ buf.drop (st.msgs k).length).take (st.msgs k).length = st.msgs k := by
    rw [List.take_of_length_le hl, List.take_left' rfl]
  refine ⟨(st.msgs k).take buf.length ++ buf.drop (st.msgs k).length, ?_, ?_, ?_⟩
  · rw [List.length_append, List.length_take, List.length_drop]; omega
  · intro ha
    simp only [Stream.cuseFrail, Fuse.cuseFrail, cuseRecv, h1, truncateSlice_eq, h2, acceptable_new ha]
  · intro ha
    obtain ⟨e, he, _⟩ := unacceptable_new ha
    exact ⟨e, by simp only [Stream.cuseFrail, Fuse.cuseFrail, cuseRecv, h1, truncateSlice_eq, h2, he]⟩

theorem cuse_frail_closed (st : Stream ε) (h : Handlers CuseMethod (τ × Bool)) (buf : Bytes) (k : Nat) (t : τ)
    (hk : st.N ≤ k) : ∃ e, (st.cuseFrail h).recv buf (k, t) = ((.error (.recv e), buf), k + 1, t) := by
  obtain ⟨e, he⟩ := st.closed k hk
  refine ⟨.connectionClosed e, ?_⟩
  simp only [Stream.cuseFrail, Fuse.cuseFrail, cuseRecv, feedTo, he]

theorem cuse_frail_run (st : Stream ε) (h : Handlers CuseMethod (τ × Bool)) (r : Request) (k : Nat) (t : τ)
    (ha : Acceptable r.mem) : (st.cuseFrail h).run r (k, t) =
      ((k, (cuseHandle h r.mem (t, false)).1), (cuseHandle h r.mem (t, false)).2) := by
  simp only [Stream.cuseFrail, Fuse.cuseFrail]
  rw [C25_cuse _ r.mem r (acceptable_new ha), aside_cuse]

/-- See `Worker.Sane`. -/
def Worker.CuseSane (L : Nat) : Worker ε → Prop
  | .receiving b => L ≤ b.length
  | .handling b r => L ≤ b.length ∧ Acceptable r.mem
  | .reporting b _ => L ≤ b.length
  | .finished => True
  | .faulted _ => True

/-- See `Worker.weight`; here receiving may be followed by one more report. -/
def Worker.frailWeight : Worker ε → Nat
  | .receiving _ => 2
  | .handling _ _ => 3
  | .reporting _ e => if isFatalError e then 1 else 3
  | .finished => 0
  | .faulted _ => 0

structure CuseFrailInv (st : Stream ε) (h : Handlers CuseMethod (τ × Bool)) (t : τ) (L n k : Nat)
    (p : Pool (Nat × τ) ε) : Prop where
  capacity : p.capacity = n
  workers : p.workers.length = n
  channel : p.channel.length ≤ n
  sane : ∀ w ∈ p.workers, w.CuseSane L
  malformed : p.workers.countP (Worker.reports false) + p.channel.countP (fun e => !isFatalError e) =
    st.malformed (min p.world.1 st.N)
  fatal : p.workers.countP Worker.isFinished = p.channel.countP isFatalError
  closed : p.workers.countP Worker.isFinished + p.workers.countP (Worker.reports true) = p.world.1 - st.N
  handled : ∃ l, (l ++ p.workers.filterMap Worker.inHand).Perm (st.sound (min p.world.1 st.N)) ∧
    aftermath (cuseHandle h) t l = (p.world.2, p.workers.countP Worker.hasPanicked)
  weight : k + (3 * (st.N - p.world.1) + (p.workers.map Worker.frailWeight).sum) ≤ 3 * st.N + 2 * n

theorem cuse_frail_start (st : Stream ε) (h : Handlers CuseMethod (τ × Bool)) (t : τ) (L : Nat)
    (bufs : List Bytes) (hb : ∀ b ∈ bufs, L ≤ b.length) :
    CuseFrailInv st h t L bufs.length 0 (Pool.start (0, t) bufs) := by
  have c : ∀ q : Worker ε → Bool, (∀ b, q (.receiving b) = false) →
      (bufs.map (Worker.receiving (ε := ε))).countP q = 0 := fun q hq => countP_start' q hq bufs
  refine ⟨rfl, List.length_map .., Nat.zero_le _, ?_, ?_, ?_, ?_, ⟨[], ?_, ?_⟩, ?_⟩
  · intro w hw
    obtain ⟨b, hb', rfl⟩ := List.mem_map.mp hw
    exact hb b hb'
  · show (bufs.map _).countP _ + 0 = st.malformed (min 0 st.N)
    rw [c _ fun _ => rfl, Nat.zero_min]; rfl
  · show (bufs.map _).countP _ = 0
    rw [c _ fun _ => rfl]
  · show (bufs.map _).countP _ + (bufs.map _).countP _ = 0 - st.N
    rw [c _ fun _ => rfl, c _ fun _ => rfl]; omega
  · show ([] ++ (bufs.map _).filterMap _).Perm (st.sound (min 0 st.N))
    rw [Nat.zero_min, List.nil_append]
    have : (bufs.map (Worker.receiving (ε := ε))).filterMap Worker.inHand = [] := by
      clear hb c
      induction bufs with
      | nil => rfl
      | cons b bs ih => exact ih
    rw [this]; exact .nil
  · show (t, 0) = (t, (bufs.map _).countP _)
    rw [c _ fun _ => rfl]
  · show 0 + (3 * (st.N - 0) + ((bufs.map (Worker.receiving (ε := ε))).map Worker.frailWeight).sum) ≤ _
    have : ((bufs.map (Worker.receiving (ε := ε))).map Worker.frailWeight).sum = 2 * bufs.length := by
      clear hb c
      induction bufs with
      | nil => rfl
      | cons b bs ih =>
        rw [List.map_cons, List.map_cons, List.sum_cons, ih, List.length_cons]
        show 2 + _ = _; omega
    omega

theorem cuse_frail_step (st : Stream ε) (h : Handlers CuseMethod (τ × Bool)) (t : τ) (L n k : Nat)
    (hL : ∀ k < st.N, (st.msgs k).length ≤ L) {q q' : Pool (Nat × τ) ε}
    (ih : CuseFrailInv st h t L n k q) (hst : Frail.Step (st.cuseFrail h) q q') :
    CuseFrailInv st h t L n (k + 1) q' := by
  obtain ⟨h1, h2, h3, h4, h5, h6, h6', h7, h8⟩ := ih
  obtain ⟨i, w, w', channel, s, hw, hs, rfl⟩ := hst.out
  obtain ⟨a, b, hl, hset⟩ := set_decompose hw
  have hv := h4 w (List.mem_of_getElem? hw)
  have hvab : ∀ x, x ∈ a ∨ x ∈ b → x.CuseSane L := by
    intro x hx
    apply h4
    rw [hl, List.mem_append, List.mem_cons]
    rcases hx with hx | hx
    · exact Or.inl hx
    · exact Or.inr (Or.inr hx)
  rw [hl] at h2 h5 h6 h6' h7 h8
  rw [List.length_append, List.length_cons] at h2
  rw [List.countP_append, countP_cons_toNat] at h5 h6 h6' h7
  rw [List.countP_append, countP_cons_toNat] at h6'
  rw [List.filterMap_append] at h7
  rw [List.map_append, List.map_cons, List.sum_append, List.sum_cons] at h8
  -- what the step must establish about the changed thread
  have key : channel.length ≤ n ∧ w'.CuseSane L ∧
      (w'.reports false).toNat + channel.countP (fun e => !isFatalError e) + st.malformed (min q.world.1 st.N) =
        (w.reports false).toNat + q.channel.countP (fun e => !isFatalError e) + st.malformed (min s.1 st.N) ∧
      w'.isFinished.toNat + q.channel.countP isFatalError = w.isFinished.toNat + channel.countP isFatalError ∧
      w'.isFinished.toNat + (w'.reports true).toNat + (q.world.1 - st.N) =
        w.isFinished.toNat + (w.reports true).toNat + (s.1 - st.N) ∧
      (∀ (r : List Bytes) (c : Nat), (∃ l, (l ++ (r ++ w.inHand.toList)).Perm (st.sound (min q.world.1 st.N)) ∧
          aftermath (cuseHandle h) t l = (q.world.2, c + w.hasPanicked.toNat)) →
        ∃ l, (l ++ (r ++ w'.inHand.toList)).Perm (st.sound (min s.1 st.N)) ∧
          aftermath (cuseHandle h) t l = (s.2, c + w'.hasPanicked.toNat)) ∧
      1 + (3 * (st.N - s.1) + w'.frailWeight) ≤ 3 * (st.N - q.world.1) + w.frailWeight := by
    obtain ⟨⟨k, u⟩, workers, ch, cap⟩ := q
    cases w with
    | receiving buf =>
      simp only [frailStep] at hs
      by_cases hk : k < st.N
      · obtain ⟨b', hb', hr1, hr2⟩ := cuse_frail_message st h buf k u hk
          (Nat.le_trans (hL k hk) hv)
        have e1 : min k st.N = k := by omega
        have e2 : min (k + 1) st.N = k + 1 := by omega
        by_cases ha : Acceptable (st.msgs k)
        · simp only [hr1 ha] at hs
          cases hs
          refine ⟨h3, ⟨by rw [hb']; exact hv, ha⟩, ?_, ?_, ?_, ?_, ?_⟩
          · simp only [e1, e2, malformed_succ, ha, Worker.reports, ↓reduceIte]; rfl
          · simp only [Worker.isFinished]
          · simp only [Worker.isFinished, Worker.reports]; omega
          · rintro r c ⟨l, hp, ho⟩
            refine ⟨l, ?_, ho⟩
            simp only [e1, e2, sound_succ, ha, ↓reduceIte, Worker.inHand, Option.toList, List.append_nil] at hp ⊢
            rw [← List.append_assoc]
            exact hp.append_right _
          · simp only [Worker.frailWeight]; omega
        · obtain ⟨e', hr⟩ := hr2 ha
          simp only [hr] at hs
          cases hs
          refine ⟨h3, by show L ≤ b'.length; rw [hb']; exact hv, ?_, ?_, ?_, ?_, ?_⟩
          · simp only [e1, e2, malformed_succ, ha, Worker.reports, isFatalError, ↓reduceIte, beq_self_eq_true,
              Bool.toNat_true, Bool.toNat_false]; omega
          · simp only [Worker.isFinished]
          · simp only [Worker.isFinished, Worker.reports, isFatalError, show (false == true) = false from rfl]; omega
          · rintro r c ⟨l, hp, ho⟩
            refine ⟨l, ?_, ho⟩
            simp only [e1, e2, sound_succ, ha, ↓reduceIte, Worker.inHand, Option.toList, List.append_nil] at hp ⊢
            exact hp
          · simp only [Worker.frailWeight, isFatalError, Bool.false_eq_true, ↓reduceIte]; omega
      · obtain ⟨e', hr⟩ := cuse_frail_closed st h buf k u (by omega)
        simp only [hr] at hs
        cases hs
        have e1 : min k st.N = st.N := by omega
        have e2 : min (k + 1) st.N = st.N := by omega
        refine ⟨h3, hv, ?_, ?_, ?_, ?_, ?_⟩
        · simp only [e1, e2, Worker.reports, isFatalError, show (true == false) = false from rfl]
        · simp only [Worker.isFinished]
        · simp only [Worker.isFinished, Worker.reports, isFatalError, beq_self_eq_true, Bool.toNat_true,
            Bool.toNat_false]; omega
        · rintro r c ⟨l, hp, ho⟩
          refine ⟨l, ?_, ho⟩
          simp only [e1, e2, Worker.inHand] at hp ⊢
          exact hp
        · simp only [Worker.frailWeight, isFatalError, ↓reduceIte]; omega
    | handling buf r =>
      simp only [frailStep, cuse_frail_run st h r _ _ hv.2] at hs
      have more : ∀ (w' : Worker ε), w'.inHand = none →
          w'.hasPanicked = (cuseHandle h r.mem (u, false)).2 →
          ∀ (ms : List Bytes) (c : Nat),
          (∃ l, (l ++ (ms ++ (Worker.handling (ε := ε) buf r).inHand.toList)).Perm (st.sound (min k st.N)) ∧
            aftermath (cuseHandle h) t l = (u, c + (Worker.handling (ε := ε) buf r).hasPanicked.toNat)) →
          ∃ l, (l ++ (ms ++ w'.inHand.toList)).Perm (st.sound (min k st.N)) ∧
            aftermath (cuseHandle h) t l = ((cuseHandle h r.mem (u, false)).1, c + w'.hasPanicked.toNat) := by
        rintro w' hw' hp' ms c ⟨l, hp, ho⟩
        refine ⟨l ++ [r.mem], ?_, ?_⟩
        · rw [hw']
          simp only [Worker.inHand, Option.toList, List.append_nil] at hp ⊢
          refine List.Perm.trans ?_ hp
          rw [List.append_assoc]
          exact (List.perm_append_comm).append_left _
        · rw [aftermath_snoc, ho, hp']
          rfl
      cases hf : (cuseHandle h r.mem (u, false)).2 with
      | false =>
        simp only [hf] at hs
        cases hs
        exact ⟨h3, hv.1, by simp [Worker.reports], by simp [Worker.isFinished],
          by simp [Worker.isFinished, Worker.reports], more _ rfl hf.symm, by simp [Worker.frailWeight]; omega⟩
      | true =>
        simp only [hf] at hs
        cases hs
        exact ⟨h3, trivial, by simp [Worker.reports], by simp [Worker.isFinished],
          by simp [Worker.isFinished, Worker.reports], more _ rfl hf.symm, by simp [Worker.frailWeight]; omega⟩
    | reporting buf e' =>
      simp only [frailStep] at hs
      by_cases hc : ch.length < cap
      · rw [if_pos hc] at hs
        have hc' : ch.length < n := by rw [← h1]; exact hc
        cases hf : isFatalError e' with
        | true =>
          rw [hf] at hs
          cases hs
          refine ⟨by rw [List.length_append]; exact hc', trivial, ?_, ?_, ?_, fun r c hp => ?_, ?_⟩
          · simp [Worker.reports, hf]
          · simp [Worker.isFinished, hf]; omega
          · simp [Worker.isFinished, Worker.reports, hf]
          · simpa [Worker.inHand, Worker.hasPanicked] using hp
          · simp [Worker.frailWeight, hf]; omega
        | false =>
          rw [hf] at hs
          cases hs
          refine ⟨by rw [List.length_append]; exact hc', hv, ?_, ?_, ?_, fun r c hp => ?_, ?_⟩
          · simp [Worker.reports, hf]; omega
          · simp [Worker.isFinished, hf]
          · simp [Worker.isFinished, Worker.reports, hf]
          · simpa [Worker.inHand, Worker.hasPanicked] using hp
          · simp [Worker.frailWeight, hf]; omega
      · rw [if_neg hc] at hs; cases hs
    | finished => cases hs
    | faulted f => cases hs
  obtain ⟨k1, k2, k3, k4, k4', k5, k6⟩ := key
  have perm : ∀ x : Worker ε, (a.filterMap Worker.inHand ++ (x :: b).filterMap Worker.inHand).Perm
      ((a.filterMap Worker.inHand ++ b.filterMap Worker.inHand) ++ x.inHand.toList) := by
    intro x
    rw [List.append_assoc]
    refine List.Perm.append_left _ ?_
    rw [List.filterMap_cons]
    cases x.inHand with
    | none => rw [Option.toList, List.append_nil]
    | some y => exact (List.perm_append_singleton y _).symm
  refine ⟨h1, ?_, k1, ?_, ?_, ?_, ?_, ?_, ?_⟩
  · show (q.workers.set i w').length = _
    rw [hset, List.length_append, List.length_cons]; exact h2
  · show ∀ x ∈ q.workers.set i w', _
    rw [hset]
    intro x hx
    rw [List.mem_append, List.mem_cons] at hx
    rcases hx with hx | rfl | hx
    · exact hvab x (Or.inl hx)
    · exact k2
    · exact hvab x (Or.inr hx)
  · show (q.workers.set i w').countP _ + channel.countP _ = st.malformed (min s.1 st.N)
    rw [hset, List.countP_append, countP_cons_toNat]
    omega
  · show (q.workers.set i w').countP _ = channel.countP _
    rw [hset, List.countP_append, countP_cons_toNat]
    omega
  · show (q.workers.set i w').countP _ + (q.workers.set i w').countP _ = s.1 - st.N
    rw [hset, List.countP_append, countP_cons_toNat, List.countP_append, countP_cons_toNat]
    omega
  · show ∃ l, (l ++ (q.workers.set i w').filterMap _).Perm (st.sound (min s.1 st.N)) ∧
      aftermath (cuseHandle h) t l = (s.2, (q.workers.set i w').countP _)
    rw [hset, List.filterMap_append, List.countP_append, countP_cons_toNat]
    obtain ⟨l0, hp0, ho0⟩ := h7
    obtain ⟨l, hp, ho⟩ := k5 (a.filterMap Worker.inHand ++ b.filterMap Worker.inHand)
      (a.countP Worker.hasPanicked + b.countP Worker.hasPanicked)
      ⟨l0, (List.Perm.append_left _ (perm w).symm).trans hp0, by rw [ho0, Nat.add_assoc]⟩
    exact ⟨l, (List.Perm.append_left _ (perm w')).trans hp, by rw [ho, Nat.add_assoc]⟩
  · show (k + 1) + (3 * (st.N - s.1) + ((q.workers.set i w').map _).sum) ≤ _
    rw [hset, List.map_append, List.map_cons, List.sum_append, List.sum_cons]
    omega

theorem cuse_frail_inv (st : Stream ε) (h : Handlers CuseMethod (τ × Bool)) (t : τ) (L : Nat) (bufs : List Bytes)
    (hL : ∀ k < st.N, (st.msgs k).length ≤ L) (hb : ∀ b ∈ bufs, L ≤ b.length) {k : Nat}
    {p : Pool (Nat × τ) ε} (hr : Frail.Run (st.cuseFrail h) (Pool.start (0, t) bufs) k p) :
    CuseFrailInv st h t L bufs.length k p := by
  induction hr with
  | start => exact cuse_frail_start st h t L bufs hb
  | step _ hst ih => exact cuse_frail_step st h t L bufs.length _ hL ih hst

theorem countP_reports (ws : List (Worker ε)) :
    ws.countP (Worker.reports false) + ws.countP (Worker.reports true) = ws.countP Worker.isReporting := by
  induction ws with
  | nil => rfl
  | cons w ws ih =>
    rw [countP_cons_toNat, countP_cons_toNat, countP_cons_toNat, ← ih]
    have : (w.reports false).toNat + (w.reports true).toNat = w.isReporting.toNat := by
      cases w with
      | reporting b e => simp only [Worker.reports, Worker.isReporting]; cases isFatalError e <;> rfl
      | _ => rfl
    omega

/-! ## When nothing moves any more -/

/-- **C91**, CUSE, any handlers: when nothing moves any more, the first `k` messages have been received, for some
`k`, and the well-formed ones among them have been handled, one after the other, each exactly once, panics or not.
They are all of the messages unless panics, and malformed messages beyond the `n`-th, made up all threads.  The
server hangs if there were more malformed messages than panics; otherwise it panics, unless there were neither:
then it returns one error per thread. -/
theorem C91_any_cuse (st : Stream ε) (h : Handlers CuseMethod (τ × Bool)) (t : τ) (L : Nat) (bufs : List Bytes)
    (hL : ∀ k < st.N, (st.msgs k).length ≤ L) (hb : ∀ b ∈ bufs, L ≤ b.length) (steps : Nat)
    (p : Pool (Nat × τ) ε) (hr : Frail.Run (st.cuseFrail h) (Pool.start (0, t) bufs) steps p)
    (hs : (st.cuseFrail h).Stuck p) :
    ∃ (k : Nat) (l : List Bytes) (c : Nat), k = min p.world.1 st.N ∧ l.Perm (st.sound k) ∧
      aftermath (cuseHandle h) t l = (p.world.2, c) ∧ c ≤ bufs.length ∧
      (c + (st.malformed k - bufs.length) = bufs.length ∨ k = st.N) ∧
      p.outcome = (if c < st.malformed k then none
        else if c = 0 then some (.ok p.channel) else some (.error .panic)) ∧
      p.channel.length = (if c < st.malformed k then bufs.length else bufs.length - c + st.malformed k) := by
  obtain ⟨h1, h2, h3, _, h5, h6, h6', ⟨l, h7, h8⟩, _⟩ := cuse_frail_inv st h t L bufs hL hb hr
  obtain ⟨g1, g2, g3, g4⟩ := blocked_counts (ws := p.workers) (cap := p.capacity) (ch := p.channel.length) (by
    intro w hw
    obtain ⟨i, hi⟩ := List.getElem?_of_mem hw
    exact frail_blocked (st.cuseFrail h) w _ _ _ ((frail_stuck_iff _ p).mp hs i w hi))
  rw [g2, List.append_nil] at h7
  have g5 := countP_reports p.workers
  have g6 := countP_fatal p.channel
  rw [h1] at g3
  refine ⟨_, l, _, rfl, h7, h8, ?_, ?_, ?_, ?_⟩
  · rw [← h2]; exact List.countP_le_length
  · by_cases hk : st.N < p.world.1
    · right; omega
    · left; omega
  · have hany : p.workers.any Worker.hasPanicked = true ↔ ¬ p.workers.countP Worker.hasPanicked = 0 := by
      rw [List.any_eq_true, ← List.countP_pos_iff]; omega
    unfold Pool.outcome
    by_cases hm : p.workers.countP Worker.hasPanicked < st.malformed (min p.world.1 st.N)
    · rw [if_pos hm, if_neg]
      rw [g4]; omega
    · rw [if_neg hm, if_pos (g4.mpr (by omega))]
      by_cases hc : p.workers.countP Worker.hasPanicked = 0
      · rw [if_pos hc, if_neg (by rw [hany]; exact not_not_intro hc)]
      · rw [if_neg hc, if_pos (hany.mpr hc)]
  · by_cases hm : p.workers.countP Worker.hasPanicked < st.malformed (min p.world.1 st.N)
    · rw [if_pos hm]; omega
    · rw [if_neg hm]; omega

/-- **C91**, CUSE: whatever the handlers do, the threads make at most `3N + 2n` steps, and every run can be continued
until nothing moves any more. -/
theorem C91_runs_end_cuse (st : Stream ε) (h : Handlers CuseMethod (τ × Bool)) (t : τ) (L : Nat)
    (bufs : List Bytes) (hL : ∀ k < st.N, (st.msgs k).length ≤ L) (hb : ∀ b ∈ bufs, L ≤ b.length) (steps : Nat)
    (p : Pool (Nat × τ) ε) (hr : Frail.Run (st.cuseFrail h) (Pool.start (0, t) bufs) steps p) :
    steps ≤ 3 * st.N + 2 * bufs.length ∧
      ∃ more q, Frail.Run (st.cuseFrail h) p more q ∧ (st.cuseFrail h).Stuck q := by
  have bound : ∀ steps p, Frail.Run (st.cuseFrail h) (Pool.start (0, t) bufs) steps p →
      steps ≤ 3 * st.N + 2 * bufs.length := by
    intro steps p hr
    have := (cuse_frail_inv st h t L bufs hL hb hr).weight
    omega
  exact ⟨bound _ _ hr, frail_ends bound hr⟩

/-! ## Handlers that panic on some messages -/

theorem cuse_frail_losses (st : Stream ε) (h : Handlers CuseMethod (τ × Bool)) (t : τ) (L : Nat)
    (bufs : List Bytes) (hL : ∀ k < st.N, (st.msgs k).length ≤ L) (hb : ∀ b ∈ bufs, L ≤ b.length)
    (bad : Bytes → Bool) (hp : ∀ m t, (cuseHandle h m (t, false)).2 = bad m) {k : Nat} {p : Pool (Nat × τ) ε}
    (hr : Frail.Run (st.cuseFrail h) (Pool.start (0, t) bufs) k p) :
    ∀ j < min p.world.1 st.N, st.losses bad bufs.length j < bufs.length := by
  induction hr with
  | start => intro j hj; exact absurd hj (by show ¬ j < min 0 _; omega)
  | @step k q q' hq hst ih =>
    obtain ⟨_, h2, h3, h4, h5, h6, h6', ⟨l, h7, h8⟩, _⟩ := cuse_frail_inv st h t L bufs hL hb hq
    obtain ⟨i, w, w', channel, s, hw, hs, rfl⟩ := hst.out
    have hv := h4 w (List.mem_of_getElem? hw)
    show ∀ j < min s.1 st.N, _
    have same : s.1 = q.world.1 ∨ w.isReceiving = true ∧ s.1 = q.world.1 + 1 := by
      obtain ⟨⟨k, u⟩, workers, ch, cap⟩ := q
      cases w with
      | receiving buf =>
        right
        refine ⟨rfl, ?_⟩
        simp only [frailStep] at hs
        by_cases hk : k < st.N
        · obtain ⟨b', hb', hr1, hr2⟩ := cuse_frail_message st h buf k u hk (Nat.le_trans (hL k hk) hv)
          by_cases ha : Acceptable (st.msgs k)
          · simp only [hr1 ha] at hs; cases hs; rfl
          · obtain ⟨e', hr⟩ := hr2 ha
            simp only [hr] at hs; cases hs; rfl
        · obtain ⟨e', hr⟩ := cuse_frail_closed st h buf k u (by omega)
          simp only [hr] at hs; cases hs; rfl
      | handling buf r =>
        left
        simp only [frailStep, cuse_frail_run st h r _ _ hv.2] at hs
        cases hf : (cuseHandle h r.mem (u, false)).2 <;> simp only [hf] at hs <;> cases hs <;> rfl
      | reporting buf e' =>
        left
        simp only [frailStep] at hs
        split at hs <;> cases hs
        rfl
      | finished => cases hs
      | faulted f => cases hs
    rcases same with e | ⟨hrec, e⟩
    · rw [e]; exact ih
    · intro j hj
      by_cases hj' : j < min q.world.1 st.N
      · exact ih j hj'
      · have ej : min q.world.1 st.N = j := by omega
        have hb1 := busy_le bad q.workers
        have hb2 : 0 < q.workers.countP Worker.isReceiving := countP_pos_of_mem (List.mem_of_getElem? hw) hrec
        have hc := h7.countP_eq bad
        have g5 := countP_reports q.workers
        have g6 := countP_fatal q.channel
        rw [List.countP_append, ← aftermath_bad hp t l, h8] at hc
        rw [ej] at hc h5
        dsimp only at hc
        unfold Stream.losses
        omega

/-- **C91**, CUSE, exactly, for handlers that panic on the messages in `bad`: when nothing moves any more, under any
schedule, message `j` has been received if and only if the messages before it have cost fewer than all `n`
threads; the well-formed ones of the messages received have been handled, in some order, each exactly once. -/
theorem C91_exact_cuse (st : Stream ε) (h : Handlers CuseMethod (τ × Bool)) (t : τ) (L : Nat) (bufs : List Bytes)
    (hL : ∀ k < st.N, (st.msgs k).length ≤ L) (hb : ∀ b ∈ bufs, L ≤ b.length) (bad : Bytes → Bool)
    (hp : ∀ m t, (cuseHandle h m (t, false)).2 = bad m) (steps : Nat) (p : Pool (Nat × τ) ε)
    (hr : Frail.Run (st.cuseFrail h) (Pool.start (0, t) bufs) steps p) (hs : (st.cuseFrail h).Stuck p) :
    (∀ j < st.N, (j < p.world.1 ↔ st.losses bad bufs.length j < bufs.length)) ∧
    ∃ l, l.Perm (st.sound (min p.world.1 st.N)) ∧ p.world.2 = (aftermath (cuseHandle h) t l).1 := by
  obtain ⟨k, l, c, hk, h1, h2, _, h4, _⟩ := C91_any_cuse st h t L bufs hL hb steps p hr hs
  have hlt := cuse_frail_losses st h t L bufs hL hb bad hp hr
  refine ⟨fun j hj => ⟨fun hjw => hlt j (by omega), fun hjl => ?_⟩, l, hk ▸ h1, by rw [h2]⟩
  have hc : c = (st.sound k).countP bad := by
    rw [← h1.countP_eq bad, ← aftermath_bad hp t l, h2]
  rw [hc] at h4
  rcases h4 with h4 | h4
  · by_cases hkj : k ≤ j
    · have := losses_mono st bad bufs.length hkj
      unfold Stream.losses at this hjl
      omega
    · omega
  · omega

/-! ## Examples -/

namespace StdPanic

/-- Opening the device panics; everything else is noted. -/
def cuseHandlers : Handlers CuseMethod (List Nat × Bool) where
  unimplemented r s := (s.1 ++ [u32At r.mem 4], s.2)
  overridden
    | .open_ => some fun _ s => (s.1, true)
    | _ => none

/-- An `OPEN` request. -/
def opening : Bytes := le32 48 ++ le32 14 ++ le64 1 ++ le64 1 ++ le64 0 ++ le64 0 ++ le64 0

/-- A malformed message and one that makes a handler panic. -/
def two : Stream Unit where
  f k := if k < 2 then .ok (if k = 0 then exampleMalformed else opening) else .error (.connectionClosed ())
  msgs k := if k = 0 then exampleMalformed else opening
  N := 2
  message k hk := if_pos hk
  closed k hk := ⟨(), if_neg (by omega)⟩

theorem two_sound : two.sound 2 = [opening] ∧ two.malformed 2 = 1 ∧ two.malformed 1 = 1 ∧ two.malformed 0 = 0 ∧
    (cuseHandle cuseHandlers opening ([], false)) = ([], true) := by decide +kernel

/-- Without the panic, the malformed message would make two threads hang (C26); with it, `serve_cuse` ends,
by a panic. -/
example (bufs : List Bytes) (hn : bufs.length = 2) (hb : ∀ b ∈ bufs, 48 ≤ b.length) (steps p)
    (hr : Frail.Run (two.cuseFrail cuseHandlers) (Pool.start (0, []) bufs) steps p)
    (hs : (two.cuseFrail cuseHandlers).Stuck p) : p.outcome = some (.error .panic) ∧ p.channel.length = 2 := by
  obtain ⟨k, l, c, hk, h1, h2, h3, h4, h5, h6⟩ := C91_any_cuse two cuseHandlers [] 48 bufs
    (by intro k _; show List.length (if k = 0 then _ else _) ≤ 48; split <;> decide) hb steps p hr hs
  obtain ⟨e1, e2, e3, e4, e5⟩ := two_sound
  rw [hn] at h4 h6
  have hk2 : k = 2 := by
    have hkN : k ≤ 2 := by rw [hk]; exact Nat.min_le_right _ _
    rcases h4 with h4 | h4
    · have hlen : l.length = (two.sound k).length := h1.length_eq
      have hle : c ≤ l.length := by
        have : ∀ (t : List Nat) (l : List Bytes), (aftermath (cuseHandle cuseHandlers) t l).2 ≤ l.length := by
          intro t l
          induction l generalizing t with
          | nil => exact Nat.le_refl _
          | cons m l ih =>
            have := ih (cuseHandle cuseHandlers m (t, false)).1
            have := Bool.toNat_le (cuseHandle cuseHandlers m (t, false)).2
            simp only [aftermath, List.length_cons]
            omega
        have := this [] l
        rw [h2] at this
        exact this
      have hs0 : (two.sound 0).length = 0 := by decide +kernel
      have hs1 : (two.sound 1).length = 0 := by decide +kernel
      match k, hkN with
      | 0, _ => omega
      | 1, _ => omega
      | 2, _ => rfl
    · exact h4
  rw [hk2] at h1 h5 h6
  rw [e1] at h1
  rw [List.perm_singleton.mp h1] at h2
  have hc : c = 1 := by
    have : (aftermath (cuseHandle cuseHandlers) [] [opening]).2 = 1 := by
      simp only [aftermath, e5]; rfl
    rw [h2] at this
    exact this
  rw [hc, e2] at h5 h6
  exact ⟨h5, h6⟩

end StdPanic

end Fuse
