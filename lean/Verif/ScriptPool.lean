import Verif.PropStd

/-!
# The multi-threaded server and a scripted client

A client sends well-formed messages and closes the connection; the handlers answer each message in their own
way.  Whatever the schedule, the threads end, and together they send the answers to all messages.
-/

namespace Fuse
open Spec

variable {ε : Type}

/-- The answers that a thread is about to send. -/
def Worker.pending (reply : Bytes → List Bytes) : Worker ε → List Bytes
  | .handling _ r => reply r.mem
  | _ => []

/-- What is known of each thread; `L` is the length of the longest message. -/
def Worker.Working (msgs : List Bytes) (L : Nat) : Worker ε → Prop
  | .receiving b => L ≤ b.length
  | .handling b r => L ≤ b.length ∧ r.mem ∈ msgs
  | .finished => True
  | .reporting _ _ => False
  | .faulted _ => False

structure ScriptInv (msgs : List Bytes) (reply : Bytes → List Bytes) (out0 : List Bytes) (L n : Nat)
    (es : List (Event ε)) (p : Pool (Script ε) ε) (done rest : List Bytes) : Prop where
  split : done ++ rest = msgs
  incoming : p.world.incoming = rest.map .ok
  workers : p.workers.length = n
  valid : ∀ w ∈ p.workers, w.Working msgs L
  closed : .finished ∈ p.workers → rest = []
  channel : p.channel = []
  sent : (p.world.outgoing ++ p.workers.flatMap (Worker.pending reply)).Perm (out0 ++ done.flatMap reply)
  weight : es.length + (2 * rest.length + (p.workers.map Worker.weight).sum) ≤ 2 * msgs.length + n

theorem script_start (msgs : List Bytes) (reply : Bytes → List Bytes) (out0 : List Bytes) (L : Nat)
    (bufs : List Bytes) (hb : ∀ b ∈ bufs, L ≤ b.length) :
    ScriptInv (ε := ε) msgs reply out0 L bufs.length [] (Pool.start ⟨msgs.map .ok, out0⟩ bufs) [] msgs := by
  refine ⟨rfl, rfl, List.length_map .., ?_, ?_, rfl, ?_, ?_⟩
  · intro w hw
    obtain ⟨b, hb', rfl⟩ := List.mem_map.mp hw
    exact hb b hb'
  · intro h
    obtain ⟨b, _, h⟩ := List.mem_map.mp h
    cases h
  · have : (bufs.map (Worker.receiving (ε := ε))).flatMap (Worker.pending reply) = [] := by
      clear hb
      induction bufs with
      | nil => rfl
      | cons b bs ih => exact ih
    show (out0 ++ (bufs.map _).flatMap _).Perm _
    rw [this]; exact .refl _
  · show 0 + (2 * msgs.length + ((bufs.map (Worker.receiving (ε := ε))).map Worker.weight).sum) ≤ _
    have : ((bufs.map (Worker.receiving (ε := ε))).map Worker.weight).sum = bufs.length := by
      clear hb
      induction bufs with
      | nil => rfl
      | cons b bs ih =>
        rw [List.map_cons, List.map_cons, List.sum_cons, ih, List.length_cons]
        show 1 + _ = _; omega
    omega

section
variable {srv : Service (Script ε) ε} {e0 : ε} {msgs : List Bytes} {reply : Bytes → List Bytes}

theorem script_recv_message (hrecv : srv.recv = fuseRecv (scripted (.connectionClosed e0)))
    (buf m : Bytes) (rest) (o : List Bytes) (hl : m.length ≤ buf.length) (ha : Acceptable m) :
    ∃ b, b.length = buf.length ∧ srv.recv buf ⟨.ok m :: rest, o⟩ = ((.ok (some ⟨m⟩), b), ⟨rest, o⟩) := by
  obtain ⟨b, h1, h2, h3⟩ := scripted_recv (.connectionClosed e0) buf m rest o hl
  refine ⟨b, h3, ?_⟩
  rw [hrecv]
  simp only [fuseRecv, h1, truncateSlice_eq, h2, acceptable_new ha]

theorem script_recv_closed (hrecv : srv.recv = fuseRecv (scripted (.connectionClosed e0)))
    (buf : Bytes) (o : List Bytes) : srv.recv buf ⟨[], o⟩ = ((.ok none, buf), ⟨[], o⟩) := by
  rw [hrecv]; rfl

theorem script_step (hrecv : srv.recv = fuseRecv (scripted (.connectionClosed e0))) (out0 : List Bytes)
    (L n : Nat) (hacc : ∀ m ∈ msgs, Acceptable m ∧ m.length ≤ L)
    (hdisp : ∀ m ∈ msgs, ∀ s, srv.dispatch ⟨m⟩ s = .ok ⟨s.incoming, s.outgoing ++ reply m⟩)
    {es : List (Event ε)} {q q' : Pool (Script ε) ε} {e : Event ε} {done rest : List Bytes}
    (inv : ScriptInv msgs reply out0 L n es q done rest) (hst : Pool.Step srv e q q') :
    ∃ done rest, ScriptInv msgs reply out0 L n (es ++ [e]) q' done rest := by
  obtain ⟨i, w, w', channel, s, hw, hs, rfl⟩ := hst.out
  obtain ⟨a, b, hl, hset⟩ := set_decompose hw
  have hv := inv.valid w (List.mem_of_getElem? hw)
  obtain ⟨⟨inc, out⟩, workers, ch, cap⟩ := q
  obtain ⟨h1, h2, h3, h4, h5, h6, h7, h8⟩ := inv
  dsimp only at *
  subst h2 h6
  rw [hset]
  rw [hl] at h3 h4 h5 h7 h8
  have hvab : ∀ x, x.Working msgs L → ∀ y ∈ a ++ x :: b, y.Working msgs L := by
    intro x hx y hy
    rw [List.mem_append, List.mem_cons] at hy
    rcases hy with hy | rfl | hy
    · exact h4 y (by simp [hy])
    · exact hx
    · exact h4 y (by simp [hy])
  have hlen : ∀ x : Worker ε, (a ++ x :: b).length = n := by
    intro x; rw [← h3]; simp
  simp only [List.flatMap_append, List.flatMap_cons] at h7
  simp only [List.map_append, List.map_cons, List.sum_append, List.sum_cons] at h8
  cases w with
  | receiving buf =>
    simp only [workerStep] at hs
    cases rest with
    | nil =>
      rw [show ([] : List Bytes).map (Except.ok (ε := RecvError ε)) = [] from rfl,
        script_recv_closed hrecv] at hs
      cases hs
      refine ⟨done, [], h1, rfl, hlen _, hvab _ trivial, fun _ => rfl, rfl, ?_, ?_⟩
      · simp only [List.flatMap_append, List.flatMap_cons]; exact h7
      · simp only [List.map_append, List.map_cons, List.sum_append, List.sum_cons, List.length_append,
          List.length_singleton, Worker.weight] at h8 ⊢
        omega
    | cons m rest =>
      have hm : m ∈ msgs := by rw [← h1]; simp
      obtain ⟨b', hb', hr⟩ := script_recv_message hrecv buf m (rest.map .ok) out
        (Nat.le_trans (hacc m hm).2 hv) (hacc m hm).1
      rw [List.map_cons, hr] at hs
      cases hs
      refine ⟨done ++ [m], rest, by rw [← h1]; simp, rfl, hlen _,
        hvab _ ⟨by rw [hb']; exact hv, hm⟩, ?_, rfl, ?_, ?_⟩
      · intro hf
        have := h5 (by
          rw [List.mem_append, List.mem_cons] at hf ⊢
          rcases hf with hf | hf | hf
          · exact Or.inl hf
          · cases hf
          · exact Or.inr (Or.inr hf))
        cases this
      · simp only [List.flatMap_append, List.flatMap_cons, List.flatMap_nil, List.append_nil]
        show (out ++ (a.flatMap _ ++ (reply m ++ b.flatMap _))).Perm (out0 ++ (done.flatMap reply ++ reply m))
        have h7' : (out ++ (a.flatMap (Worker.pending reply) ++ b.flatMap (Worker.pending reply))).Perm
          (out0 ++ done.flatMap reply) := h7
        rw [← List.append_assoc out0]
        refine .trans ?_ (h7'.append_right (reply m))
        rw [List.append_assoc, List.append_assoc]
        exact (List.Perm.append_left _ (List.Perm.append_left _ List.perm_append_comm))
      · simp only [List.map_append, List.map_cons, List.sum_append, List.sum_cons, List.length_append,
          List.length_cons, List.length_nil, Worker.weight] at h8 ⊢
        omega
  | handling buf r =>
    have hd := hdisp r.mem hv.2 ⟨rest.map .ok, out⟩
    simp only [workerStep] at hs
    rw [hd] at hs
    cases hs
    refine ⟨done, rest, h1, rfl, hlen _, hvab _ hv.1, ?_, rfl, ?_, ?_⟩
    · intro hf
      apply h5
      rw [List.mem_append, List.mem_cons] at hf ⊢
      rcases hf with hf | hf | hf
      · exact Or.inl hf
      · cases hf
      · exact Or.inr (Or.inr hf)
    · simp only [List.flatMap_append, List.flatMap_cons]
      refine .trans ?_ h7
      show ((out ++ reply r.mem) ++ (a.flatMap _ ++ b.flatMap _)).Perm
        (out ++ (a.flatMap _ ++ (reply r.mem ++ b.flatMap _)))
      rw [List.append_assoc]
      refine List.Perm.append_left _ ?_
      rw [← List.append_assoc, ← List.append_assoc]
      exact List.Perm.append_right _ List.perm_append_comm
    · simp only [List.map_append, List.map_cons, List.sum_append, List.sum_cons, List.length_append,
        List.length_singleton, Worker.weight] at h8 ⊢
      omega
  | reporting buf e => exact hv.elim
  | finished => cases hs
  | faulted f => exact hv.elim

/-- Every run of the threads against a scripted client: it is finite; it can only come to an end when all threads
have finished; then the messages sent are the answers to all the client's messages, in some order, and no error
was reported. -/
theorem script_pool (hrecv : srv.recv = fuseRecv (scripted (.connectionClosed e0))) (out0 : List Bytes)
    (L : Nat) (bufs : List Bytes) (hn : bufs ≠ []) (hb : ∀ b ∈ bufs, L ≤ b.length)
    (hacc : ∀ m ∈ msgs, Acceptable m ∧ m.length ≤ L)
    (hdisp : ∀ m ∈ msgs, ∀ s, srv.dispatch ⟨m⟩ s = .ok ⟨s.incoming, s.outgoing ++ reply m⟩)
    (es : List (Event ε)) (p : Pool (Script ε) ε)
    (h : Pool.Run srv (Pool.start ⟨msgs.map .ok, out0⟩ bufs) es p) :
    es.length ≤ 2 * msgs.length + bufs.length ∧
    (p.Stuck srv → p.Returned ∧ p.channel = [] ∧ p.world.incoming = [] ∧
      p.world.outgoing.Perm (out0 ++ msgs.flatMap reply)) := by
  have hinv : ∃ done rest, ScriptInv msgs reply out0 L bufs.length es p done rest := by
    induction h with
    | start => exact ⟨[], msgs, script_start msgs reply out0 L bufs hb⟩
    | step _ hst ih =>
      obtain ⟨done, rest, inv⟩ := ih
      exact script_step hrecv out0 L _ hacc hdisp inv hst
  obtain ⟨done, rest, inv⟩ := hinv
  refine ⟨by have := inv.weight; omega, fun hstuck => ?_⟩
  have hret : p.Returned := by
    intro w hw
    obtain ⟨i, hi⟩ := List.getElem?_of_mem hw
    have hs := (stuck_iff _ p).mp hstuck i w hi
    have hv := inv.valid w hw
    cases w with
    | receiving buf =>
      exfalso
      simp only [workerStep] at hs
      rcases h : srv.recv buf p.world with ⟨⟨r | (_ | r), b⟩, s1⟩ <;> simp only [h] at hs <;> cases hs
    | handling buf r =>
      simp only [workerStep] at hs
      rw [hdisp r.mem hv.2] at hs; cases hs
    | reporting buf e => exact hv.elim
    | finished => rfl
    | faulted f => exact hv.elim
  obtain ⟨w, hw⟩ : ∃ w, w ∈ p.workers := by
    have h1 := inv.workers
    have h2 := List.length_pos_iff.mpr hn
    exact List.exists_mem_of_length_pos (by omega)
  have hrest : rest = [] := inv.closed (hret w hw ▸ hw)
  subst hrest
  refine ⟨hret, inv.channel, inv.incoming, ?_⟩
  have h7 := inv.sent
  have hp : p.workers.flatMap (Worker.pending reply) = [] := by
    rw [List.flatMap_eq_nil_iff]
    intro x hx
    rw [hret x hx]; rfl
  rw [hp, List.append_nil] at h7
  rw [← inv.split, List.append_nil]
  exact h7

end

end Fuse
