import Verif.PropDevice

/-!
# C63 for CUSE: a whole session on a character device in userspace

As in `PropDevice`, with `cuse_serve_local` in the threads: the end of the connection is an error, which each thread
reports before it ends.
-/

namespace Fuse
open Spec

variable {σ ε δ : Type}

/-! ## The handshake -/

theorem cuse_device_rejects {sock : Socket σ ε} {v : View σ} (ha : ActsOn sock v) (name : CuseDeviceName)
    (num : CuseDeviceNumber) (f : CuseInitFn σ)
    (bad : List Bytes) (hbad : ∀ m ∈ bad, m.length ≤ 8192 ∧ IsCuseInit m ∧ u32At m 40 ≠ 7)
    (rest : List Bytes) (buf : Bytes) (hbuf : buf.length = 8192) (s : σ) (hs : v.incoming s = bad ++ rest) :
    ∃ buf' s', buf'.length = 8192 ∧
      iterate (cuseConnectStep sock name num f) bad.length (buf, s) = .inr (buf', s') ∧
      v.Done s s' rest (bad.map fun m => frame (idOf m) 0 cuseRejectionBytes) := by
  induction bad generalizing buf s with
  | nil => exact ⟨buf, s, hbuf, rfl, hs, by rw [List.map_nil, List.append_nil], Nat.le_refl _⟩
  | cons m bad ih =>
    obtain ⟨hl, hi, hm⟩ := hbad m (List.mem_cons_self ..)
    obtain ⟨b, s1, hr, ht, h1⟩ := ha.message buf s m (bad ++ rest) hs (by omega)
    have hb : b.length = buf.length := by have := sock.recv_length buf s; rw [hr] at this; exact this
    obtain ⟨out, ho, hst⟩ := cuse_step_reject (name := name) (num := num) (initFn := f) hr
      (by rw [ht]; exact hi) (by rw [ht]; exact hm)
    rw [ht] at ho
    obtain ⟨s2, hsend, h2⟩ := ha.send out _ s1 ho (by rw [frame_length]; decide)
    rw [hsend] at hst
    obtain ⟨buf', s', h3, h4, h5⟩ := ih (fun x hx => hbad x (List.mem_cons_of_mem _ hx)) b (by omega) s2
      (by rw [h2.1, h1.1])
    refine ⟨buf', s', h3, ?_, ?_⟩
    · simp only [List.length_cons, iterate]
      rw [hst]
      exact h4
    · exact done_trans (done_trans h1 h2) h5

/-- **C63**, connecting a CUSE server made with the builder to a device, whatever interruptions there are. -/
theorem C63_cuse_connect {sock : Socket σ ε} {v : View σ} (ha : ActsOn sock v) (c : CuseServer)
    (hname : c.deviceName.bytes.length + 97 < 2 ^ 32) (bad : List Bytes) (good : Bytes)
    (hbad : ∀ m ∈ bad, m.length ≤ 8192 ∧ IsCuseInit m ∧ u32At m 40 ≠ 7)
    (hgood : good.length ≤ 8192 ∧ IsCuseInit good ∧ u32At good 40 = 7)
    (rest : List Bytes) (s : σ) (hs : v.incoming s = bad ++ good :: rest) :
    ∃ (conn : CuseConnection) (p : Bytes) (s' : σ),
      c.Connects sock s (.ok conn, s') ∧
      v.Done s s' rest (bad.map (fun m => frame (idOf m) 0 (le32 7 ++ le32 36 ++ List.replicate 64 0)) ++
          [frame (idOf good) 0 p]) ∧
      u32At p 0 = 7 ∧ u32At p 4 = min (u32At good 44) 36 ∧
      conn.layout.versionMinor.toNat = min (u32At good 44) 36 ∧
      conn.recvBufLen = max (c.maxWrite.toNat + 4096) 8192 := by
  obtain ⟨buf, s1, hb, hi, h1⟩ := cuse_device_rejects ha c.deviceName c.deviceNumber c.initFn bad hbad (good :: rest)
    minReadBuffer (List.length_replicate ..) s hs
  obtain ⟨b, s2, hr, ht, h2⟩ := ha.message buf s1 good rest h1.1 (by omega)
  obtain ⟨req, res, hv, hfl, hso, hst⟩ := cuse_step_accept (name := c.deviceName) (num := c.deviceNumber)
    (initFn := c.initFn) hr (by rw [ht]; exact hgood.2.1) (by rw [ht]; exact hgood.2.2)
  rw [ht] at hso hst
  have hmin : (UInt32.ofNat (min (u32At good 44) 36)).toNat = min (u32At good 44) 36 := by
    rw [UInt32.toNat_ofNat']; omega
  have hlen : ∀ reply : CuseInitResponse, reply.deviceName = some c.deviceName →
      (CuseReply.init reply).payload.length = 72 + 8 + c.deviceName.bytes.length + 1 := by
    intro reply h
    have hs : reply.raw.spare.bytes.length = 40 := Reserved.len _
    simp [CuseReply.payload, h, layout_cuse_init_out, hs, devname]
    omega
  obtain ⟨out, ho, hres⟩ := hso.1 (by rw [hlen _ rfl]; omega)
  obtain ⟨s3, hsend, h3⟩ := ha.send out _ (c.initFn req (cuseBlank c.deviceName c.deviceNumber) s2).2 ho
    (by rw [frame_length, hlen _ rfl]; omega)
  rw [hsend] at hres
  rw [hres] at hst
  refine ⟨⟨⟨UInt16.ofNat (min (u32At good 44) 36)⟩, max (c.maxWrite.toNat + 4096) 8192⟩,
    (CuseReply.init (cuseAcceptReply (c.initFn req (cuseBlank c.deviceName c.deviceNumber) ()).1
      (u32At good 44))).payload, s3, ⟨bad.length + 1, ?_⟩, ?_, ?_, ?_, ?_, rfl⟩
  · rw [iterate_add _ 1 _ _ hi]
    simp only [iterate]
    rw [hst]; rfl
  · have := done_trans (done_trans h1 h2) h3
    rw [show v.incoming (c.initFn req (cuseBlank c.deviceName c.deviceNumber) s2).2 = rest from h2.1,
      List.append_nil] at this
    exact this
  · simp only [CuseReply.payload, layout_cuse_init_out, cuseAcceptReply]
    read_at; rfl
  · simp only [CuseReply.payload, layout_cuse_init_out, cuseAcceptReply]
    read_at; exact hmin
  · show (UInt16.ofNat (min (u32At good 44) 36)).toNat = _
    rw [UInt16.toNat_ofNat']; omega

/-! ## The threads -/

section
variable {srv : DeviceService σ ε} {v : View σ} {ends : RecvError ε} {msgs : List Bytes}
  {reply : Bytes → List Bytes}

/-- What is known of each thread; `L` is the length of the longest message, and `rest` what is yet to come. -/
def Worker.CuseBusy (ends : RecvError ε) (msgs rest : List Bytes) (L : Nat) : Worker ε → Prop
  | .receiving b => L ≤ b.length
  | .handling b r => L ≤ b.length ∧ r.mem ∈ msgs ∧ Acceptable r.mem
  | .reporting b e => (L ≤ b.length ∧ isFatalError e = false) ∨ (e = .recv ends ∧ rest = [])
  | .finished => rest = []
  | .faulted _ => False

/-- The number of steps that a thread can make without receiving another message. -/
def Worker.cuseWeight : Worker ε → Nat
  | .receiving _ => 2
  | .handling _ _ => 3
  | .reporting _ e => if isFatalError e then 1 else 3
  | .finished => 0
  | .faulted _ => 0

structure CuseDeviceInv (v : View σ) (ends : RecvError ε) (msgs : List Bytes) (reply : Bytes → List Bytes) (s0 : σ)
    (L n : Nat) (es : List (Option (Event ε))) (p : Pool σ ε) (done rest : List Bytes) : Prop where
  split : done ++ rest = msgs
  incoming : v.incoming p.world = rest
  workers : p.workers.length = n
  valid : ∀ w ∈ p.workers, w.CuseBusy ends msgs rest L
  capacity : p.capacity = n
  channel : p.channel.length ≤ n
  reported : ∀ e ∈ p.channel, isFatalError e = true → e = .recv ends
  malformed : p.workers.countP (Worker.reports false) + p.channel.countP (fun e => !isFatalError e) = malformedIn done
  fatal : p.workers.countP Worker.isFinished = p.channel.countP isFatalError
  sent : (v.outgoing p.world ++ p.workers.flatMap (Worker.pending reply)).Perm
    (v.outgoing s0 ++ (wellFormedIn done).flatMap reply)
  weight : es.length + (2 * rest.length + (p.workers.map Worker.cuseWeight).sum + v.interrupts p.world) ≤
    2 * msgs.length + 2 * n + v.interrupts s0

theorem cuse_device_start (bufs : List Bytes) (s0 : σ) (L : Nat) (hs : v.incoming s0 = msgs)
    (hb : ∀ b ∈ bufs, L ≤ b.length) :
    CuseDeviceInv v ends msgs reply s0 L bufs.length [] (Pool.start s0 bufs) [] msgs := by
  refine ⟨rfl, hs, List.length_map .., ?_, rfl, Nat.zero_le _, nofun, ?_, ?_, ?_, ?_⟩
  · intro w hw
    obtain ⟨b, hb', rfl⟩ := List.mem_map.mp hw
    exact hb b hb'
  · exact countP_start' _ (fun _ => rfl) bufs
  · exact countP_start' _ (fun _ => rfl) bufs
  · have : (bufs.map (Worker.receiving (ε := ε))).flatMap (Worker.pending reply) = [] := by
      clear hb
      induction bufs with
      | nil => rfl
      | cons b bs ih => exact ih
    show (v.outgoing s0 ++ (bufs.map _).flatMap _).Perm _
    rw [this]; exact .refl _
  · show 0 + (2 * msgs.length + ((bufs.map (Worker.receiving (ε := ε))).map Worker.cuseWeight).sum + _) ≤ _
    have : ((bufs.map (Worker.receiving (ε := ε))).map Worker.cuseWeight).sum = 2 * bufs.length := by
      clear hb
      induction bufs with
      | nil => rfl
      | cons b bs ih =>
        rw [List.map_cons, List.map_cons, List.sum_cons, ih, List.length_cons]
        show 2 + _ = _; omega
    have hw : (Pool.start (ε := ε) s0 bufs).world = s0 := rfl
    rw [hw]
    omega

theorem CuseBusy.mono {msgs rest rest' : List Bytes} {L : Nat} {w : Worker ε} (h : w.CuseBusy ends msgs rest L)
    (hr : rest = [] → rest' = []) : w.CuseBusy ends msgs rest' L := by
  cases w with
  | receiving b => exact h
  | handling b r => exact h
  | reporting b e => exact h.imp_right fun h => ⟨h.1, hr h.2⟩
  | finished => exact hr h
  | faulted f => exact h

theorem cuse_device_step (hf : srv.received = cuseReceived) (ha : Attempts srv.attempt v ends) (s0 : σ) (L n : Nat)
    (hlen' : ∀ m ∈ msgs, m.length ≤ L)
    (hdisp : ∀ m ∈ msgs, Acceptable m →
      ∀ s, ∃ s', srv.dispatch ⟨m⟩ s = .ok s' ∧ v.Done s s' (v.incoming s) (reply m))
    {es : List (Option (Event ε))} {q q' : Pool σ ε} {e : Option (Event ε)} {done rest : List Bytes}
    (inv : CuseDeviceInv v ends msgs reply s0 L n es q done rest) (hst : Pool.DeviceStep srv e q q') :
    ∃ done rest, CuseDeviceInv v ends msgs reply s0 L n (es ++ [e]) q' done rest := by
  obtain ⟨i, w, w', channel, s, hw, hs, rfl⟩ := DeviceStep.out hst
  obtain ⟨a, b, hl, hset⟩ := set_decompose hw
  have hv := inv.valid w (List.mem_of_getElem? hw)
  obtain ⟨world, workers, ch, cap⟩ := q
  obtain ⟨h1, h2, h3, h4, hcap, hch, hrep, h5, h6, h7, h8⟩ := inv
  dsimp only at *
  rw [hset]
  rw [hl] at h3 h4 h5 h6 h7 h8
  have hvab : ∀ x rest', (rest = [] → rest' = []) → x.CuseBusy ends msgs rest' L →
      ∀ y ∈ a ++ x :: b, y.CuseBusy ends msgs rest' L := by
    intro x rest' hr hx y hy
    rw [List.mem_append, List.mem_cons] at hy
    rcases hy with hy | rfl | hy
    · exact CuseBusy.mono (h4 y (by simp [hy])) hr
    · exact hx
    · exact CuseBusy.mono (h4 y (by simp [hy])) hr
  have hlen : ∀ x : Worker ε, (a ++ x :: b).length = n := by
    intro x; rw [← h3]; simp
  simp only [List.flatMap_append, List.flatMap_cons] at h7
  simp only [List.countP_append, List.countP_cons] at h5 h6
  simp only [List.map_append, List.map_cons, List.sum_append, List.sum_cons] at h8
  cases w with
  | receiving buf =>
    simp only [deviceWorkerStep, hf] at hs
    simp only [Worker.reports, Worker.isFinished] at h5 h6
    have retry : ∀ b' s', srv.attempt (buf, world) = .inr (b', s') → b'.length = buf.length →
        v.Interrupted world s' → ∃ done rest, CuseDeviceInv v ends msgs reply s0 L n (es ++ [e])
          ⟨s, a ++ w' :: b, channel, cap⟩ done rest := by
      intro b' s' hat hb' hi
      rw [hat] at hs
      cases hs
      refine ⟨done, rest, h1, by rw [← h2]; exact hi.1, hlen _, hvab _ _ id ?_, hcap, hch, hrep, ?_, ?_, ?_, ?_⟩
      · show L ≤ b'.length
        rw [hb']; exact hv
      · simp only [List.countP_append, List.countP_cons, Worker.reports]
        exact h5
      · simp only [List.countP_append, List.countP_cons, Worker.isFinished]
        exact h6
      · simp only [List.flatMap_append, List.flatMap_cons]
        rw [hi.2.1]; exact h7
      · have := hi.2.2
        simp only [List.map_append, List.map_cons, List.sum_append, List.sum_cons, List.length_append,
          List.length_singleton, Worker.cuseWeight] at h8 ⊢
        omega
    cases rest with
    | nil =>
      rcases ha.closed buf world h2 with ⟨b', s', hat, hb', hi⟩ | ⟨b', s', hat, hi⟩
      · exact retry b' s' hat hb' hi
      · rw [hat] at hs
        cases hs
        refine ⟨done, [], h1, hi.1, hlen _, hvab _ _ id (.inr ⟨rfl, rfl⟩), hcap, hch, hrep, ?_, ?_, ?_, ?_⟩
        · simp only [List.countP_append, List.countP_cons, Worker.reports, isFatalError]
          exact h5
        · simp only [List.countP_append, List.countP_cons, Worker.isFinished]
          exact h6
        · simp only [List.flatMap_append, List.flatMap_cons]
          rw [hi.2.1, List.append_nil]; exact h7
        · have := hi.2.2
          simp only [List.map_append, List.map_cons, List.sum_append, List.sum_cons, List.length_append,
            List.length_singleton, Worker.cuseWeight, isFatalError, if_true] at h8 ⊢
          omega
    | cons m rest =>
      have hm : m ∈ msgs := by rw [← h1]; simp
      rcases ha.message buf world m rest h2 (Nat.le_trans (hlen' m hm) hv) with
        ⟨b', s', hat, hb', hi⟩ | ⟨b', s', hat, ht, hb', hi⟩
      · exact retry b' s' hat hb' hi
      · rw [hat] at hs
        by_cases hacc : Acceptable m
        · simp only [cuseReceived, truncateSlice_eq, ht, acceptable_new hacc] at hs
          cases hs
          refine ⟨done ++ [m], rest, by rw [← h1]; simp, hi.1, hlen _,
            hvab _ _ nofun ⟨by rw [hb']; exact hv, hm, hacc⟩, hcap, hch, hrep, ?_, ?_, ?_, ?_⟩
          · simp only [List.countP_append, List.countP_cons, Worker.reports, malformedIn_snoc, if_pos hacc]
            exact h5
          · simp only [List.countP_append, List.countP_cons, Worker.isFinished]
            exact h6
          · simp only [wellFormedIn_snoc, if_pos hacc, List.flatMap_append, List.flatMap_cons, List.flatMap_nil,
              List.append_nil]
            rw [hi.2.1, List.append_nil]
            show (v.outgoing world ++ (a.flatMap _ ++ (reply m ++ b.flatMap _))).Perm
              (v.outgoing s0 ++ ((wellFormedIn done).flatMap reply ++ reply m))
            have h7' : (v.outgoing world ++ (a.flatMap (Worker.pending reply) ++ b.flatMap (Worker.pending reply))).Perm
              (v.outgoing s0 ++ (wellFormedIn done).flatMap reply) := h7
            rw [← List.append_assoc (v.outgoing s0)]
            refine .trans ?_ (h7'.append_right (reply m))
            rw [List.append_assoc, List.append_assoc]
            exact (List.Perm.append_left _ (List.Perm.append_left _ List.perm_append_comm))
          · have := hi.2.2
            simp only [List.map_append, List.map_cons, List.sum_append, List.sum_cons, List.length_append,
              List.length_cons, List.length_nil, Worker.cuseWeight] at h8 ⊢
            omega
        · obtain ⟨er, he, _⟩ := unacceptable_new hacc
          simp only [cuseReceived, truncateSlice_eq, ht, he] at hs
          cases hs
          refine ⟨done ++ [m], rest, by rw [← h1]; simp, hi.1, hlen _,
            hvab _ _ nofun (.inl ⟨by rw [hb']; exact hv, rfl⟩), hcap, hch, hrep, ?_, ?_, ?_, ?_⟩
          · simp only [List.countP_append, List.countP_cons, Worker.reports,
              show isFatalError (.request er : ServerError ε) = false from rfl, malformedIn_snoc, if_neg hacc]
            simp only [beq_self_eq_true, if_true, Bool.false_eq_true, if_false] at h5 ⊢
            omega
          · simp only [List.countP_append, List.countP_cons, Worker.isFinished]
            exact h6
          · simp only [wellFormedIn_snoc, if_neg hacc, List.append_nil, List.flatMap_append, List.flatMap_cons]
            rw [hi.2.1, List.append_nil]
            exact h7
          · have := hi.2.2
            simp only [List.map_append, List.map_cons, List.sum_append, List.sum_cons, List.length_append,
              List.length_cons, List.length_nil, Worker.cuseWeight, isFatalError, Bool.false_eq_true,
              if_false] at h8 ⊢
            omega
  | handling buf r =>
    obtain ⟨s', hd, hi⟩ := hdisp r.mem hv.2.1 hv.2.2 world
    simp only [deviceWorkerStep] at hs
    simp only [Worker.reports, Worker.isFinished] at h5 h6
    rw [hd] at hs
    cases hs
    refine ⟨done, rest, h1, by rw [← h2]; exact hi.1, hlen _, hvab _ _ id hv.1, hcap, hch, hrep, ?_, ?_, ?_, ?_⟩
    · simp only [List.countP_append, List.countP_cons, Worker.reports]
      exact h5
    · simp only [List.countP_append, List.countP_cons, Worker.isFinished]
      exact h6
    · simp only [List.flatMap_append, List.flatMap_cons]
      rw [hi.2.1]
      refine .trans ?_ h7
      show ((v.outgoing world ++ reply r.mem) ++ (a.flatMap _ ++ b.flatMap _)).Perm
        (v.outgoing world ++ (a.flatMap _ ++ (reply r.mem ++ b.flatMap _)))
      rw [List.append_assoc]
      refine List.Perm.append_left _ ?_
      rw [← List.append_assoc, ← List.append_assoc]
      exact List.Perm.append_right _ List.perm_append_comm
    · have := hi.2.2
      simp only [List.map_append, List.map_cons, List.sum_append, List.sum_cons, List.length_append,
        List.length_singleton, Worker.cuseWeight] at h8 ⊢
      omega
  | reporting buf er =>
    simp only [deviceWorkerStep] at hs
    split at hs
    · rename_i hroom
      cases hfat : isFatalError er with
      | true =>
        have hv' : er = .recv ends ∧ rest = [] := by
          rcases hv with ⟨_, h⟩ | h
          · rw [hfat] at h; cases h
          · exact h
        simp only [Worker.reports, Worker.isFinished, hfat] at h5 h6
        rw [hfat, if_pos rfl] at hs
        cases hs
        refine ⟨done, rest, h1, h2, hlen _, hvab _ _ id hv'.2, hcap, ?_, ?_, ?_, ?_, ?_, ?_⟩
        · simp only [List.length_append, List.length_singleton]; omega
        · intro e he hfe
          rcases List.mem_append.mp he with he | he
          · exact hrep e he hfe
          · rw [List.mem_singleton.mp he]; exact hv'.1
        · simp only [List.countP_append, List.countP_cons, List.countP_nil, Worker.reports, hfat, Bool.not_true,
            Bool.false_eq_true, if_false] at h5 ⊢
          simpa using h5
        · simp only [List.countP_append, List.countP_cons, List.countP_nil, Worker.isFinished, hfat, if_true,
            Bool.false_eq_true, if_false] at h6 ⊢
          omega
        · simp only [List.flatMap_append, List.flatMap_cons]
          exact h7
        · simp only [List.map_append, List.map_cons, List.sum_append, List.sum_cons, List.length_append,
            List.length_singleton, Worker.cuseWeight, hfat, if_true] at h8 ⊢
          omega
      | false =>
        have hv' : L ≤ buf.length := by
          rcases hv with ⟨h, _⟩ | ⟨h, _⟩
          · exact h
          · rw [h] at hfat; cases hfat
        simp only [Worker.reports, Worker.isFinished, hfat] at h5 h6
        rw [hfat, if_neg Bool.false_ne_true] at hs
        cases hs
        refine ⟨done, rest, h1, h2, hlen _, hvab _ _ id hv', hcap, ?_, ?_, ?_, ?_, ?_, ?_⟩
        · simp only [List.length_append, List.length_singleton]; omega
        · intro e he hfe
          rcases List.mem_append.mp he with he | he
          · exact hrep e he hfe
          · rw [List.mem_singleton.mp he, hfat] at hfe; cases hfe
        · simp only [List.countP_append, List.countP_cons, List.countP_nil, Worker.reports, hfat, Bool.not_false,
            beq_self_eq_true, if_true, Bool.false_eq_true, if_false] at h5 ⊢
          omega
        · simp only [List.countP_append, List.countP_cons, List.countP_nil, Worker.isFinished, hfat, if_true,
            Bool.false_eq_true, if_false] at h6 ⊢
          omega
        · simp only [List.flatMap_append, List.flatMap_cons]
          exact h7
        · simp only [List.map_append, List.map_cons, List.sum_append, List.sum_cons, List.length_append,
            List.length_singleton, Worker.cuseWeight, hfat, Bool.false_eq_true, if_false] at h8 ⊢
          omega
    · cases hs
  | finished => cases hs
  | faulted f => exact hv.elim

theorem cuse_device_inv (hf : srv.received = cuseReceived) (ha : Attempts srv.attempt v ends) (s0 : σ)
    (hs0 : v.incoming s0 = msgs) (L : Nat) (bufs : List Bytes) (hb : ∀ b ∈ bufs, L ≤ b.length)
    (hlen : ∀ m ∈ msgs, m.length ≤ L)
    (hdisp : ∀ m ∈ msgs, Acceptable m →
      ∀ s, ∃ s', srv.dispatch ⟨m⟩ s = .ok s' ∧ v.Done s s' (v.incoming s) (reply m))
    {es : List (Option (Event ε))} {p : Pool σ ε} (h : Pool.DeviceRun srv (Pool.start s0 bufs) es p) :
    ∃ done rest, CuseDeviceInv v ends msgs reply s0 L bufs.length es p done rest := by
  induction h with
  | start => exact ⟨[], msgs, cuse_device_start bufs s0 L hs0 hb⟩
  | step _ hst ih =>
    obtain ⟨done, rest, inv⟩ := ih
    exact cuse_device_step hf ha s0 L _ hlen hdisp inv hst

/-- **C63** for CUSE, any number of threads on one device, at every interleaving of their system calls: the run is
finite; it can only come to an end when all threads have finished; then all messages have been received, the messages
sent are the answers to them, in some order, and each thread has reported the end of the connection.  `reply` is what
the handlers send for a message. -/
theorem C63_cuse_threads (hf : srv.received = cuseReceived) (ha : Attempts srv.attempt v ends) (s0 : σ)
    (hs0 : v.incoming s0 = msgs) (L : Nat) (bufs : List Bytes) (hn : bufs ≠ []) (hb : ∀ b ∈ bufs, L ≤ b.length)
    (hacc : ∀ m ∈ msgs, Acceptable m ∧ m.length ≤ L)
    (hdisp : ∀ m ∈ msgs, ∀ s, ∃ s', srv.dispatch ⟨m⟩ s = .ok s' ∧ v.Done s s' (v.incoming s) (reply m))
    (es : List (Option (Event ε))) (p : Pool σ ε) (h : Pool.DeviceRun srv (Pool.start s0 bufs) es p) :
    es.length ≤ 2 * msgs.length + 2 * bufs.length + v.interrupts s0 ∧
    (p.DeviceStuck srv → p.Returned ∧ p.channel = List.replicate bufs.length (.recv ends) ∧
      v.incoming p.world = [] ∧ (v.outgoing p.world).Perm (v.outgoing s0 ++ msgs.flatMap reply)) := by
  obtain ⟨done, rest, inv⟩ := cuse_device_inv hf ha s0 hs0 L bufs hb (fun m hm => (hacc m hm).2)
    (fun m hm _ => hdisp m hm) h
  refine ⟨by have := inv.weight; omega, fun hstuck => ?_⟩
  have hwf : ∀ l : List Bytes, (∀ m ∈ l, m ∈ msgs) → malformedIn l = 0 ∧ wellFormedIn l = l := by
    intro l hl
    unfold malformedIn wellFormedIn
    rw [List.countP_eq_zero, List.filter_eq_self]
    constructor <;> intro m hm <;> simp [(hacc m (hl m hm)).1]
  have hdone := hwf done (fun m hm => by rw [← inv.split]; exact List.mem_append_left _ hm)
  have hmal := inv.malformed
  rw [hdone.1] at hmal
  have hc := countP_fatal p.channel
  have hret : p.Returned := by
    intro w hw
    obtain ⟨i, hi⟩ := List.getElem?_of_mem hw
    have hs : deviceWorkerStep srv p.capacity p.channel p.world w = none := by
      rcases h : deviceWorkerStep srv p.capacity p.channel p.world w with _ | ⟨e, w', ch, s⟩
      · rfl
      · exact absurd (Pool.DeviceStep.mk hi h) (hstuck _ _)
    have hv := inv.valid w hw
    cases w with
    | receiving buf =>
      exfalso
      simp only [deviceWorkerStep] at hs
      rcases h : srv.attempt (buf, p.world) with out | ⟨b, s1⟩
      · rw [h] at hs
        dsimp only at hs
        rcases h' : srv.received out with ⟨⟨r | (_ | r), b⟩, s1⟩ <;> simp only [h'] at hs <;> cases hs
      · rw [h] at hs; cases hs
    | handling buf r =>
      obtain ⟨s', hd, _⟩ := hdisp r.mem hv.2.1 p.world
      simp only [deviceWorkerStep] at hs
      rw [show (⟨r.mem⟩ : Request) = r from rfl] at hd
      rw [hd] at hs; cases hs
    | reporting buf e =>
      exfalso
      have hlt : p.workers.countP Worker.isFinished < p.workers.length := by
        obtain ⟨a, b, hl, _⟩ := set_decompose hi
        rw [hl, List.countP_append, List.countP_cons, List.length_append, List.length_cons]
        have ha := List.countP_le_length (p := Worker.isFinished) (l := a)
        have hb' := List.countP_le_length (p := Worker.isFinished) (l := b)
        simp only [Worker.isFinished, ↓reduceIte, Bool.false_eq_true]
        omega
      have h1 := inv.fatal
      have h2 := inv.capacity
      have h3 := inv.workers
      simp only [deviceWorkerStep, if_pos (show p.channel.length < p.capacity by omega)] at hs
      cases hs
    | finished => rfl
    | faulted f => exact hv.elim
  obtain ⟨g1, _, _⟩ := countP_all_finished hret
  have hrest : rest = [] := by
    obtain ⟨w, hw⟩ : ∃ w, w ∈ p.workers := by
      have h1 := inv.workers
      have h2 := List.length_pos_iff.mpr hn
      exact List.exists_mem_of_length_pos (by omega)
    have := inv.valid w hw
    rw [hret w hw] at this
    exact this
  subst hrest
  have hd : done = msgs := by rw [← inv.split, List.append_nil]
  subst hd
  refine ⟨hret, ?_, inv.incoming, ?_⟩
  · have h1 := inv.fatal
    have h3 := inv.workers
    have hz : p.channel.countP (fun e => !isFatalError e) = 0 := by omega
    rw [List.countP_eq_zero] at hz
    rw [List.eq_replicate_iff]
    refine ⟨by omega, fun e he => inv.reported e he ?_⟩
    have := hz e he
    cases h : isFatalError e
    · rw [h] at this; exact absurd rfl this
    · rfl
  · have h7 := inv.sent
    have hp : p.workers.flatMap (Worker.pending reply) = [] := by
      rw [List.flatMap_eq_nil_iff]
      intro x hx
      rw [hret x hx]; rfl
    rwa [hp, List.append_nil, hdone.2] at h7

/-- **C26** is violated by `serve_cuse` on a device after a single malformed message: it does not return, whatever the
interleaving and the interruptions, although every run comes to an end. -/
theorem C26_violated_cuse_device (hf : srv.received = cuseReceived) (ha : Attempts srv.attempt v ends) (s0 : σ)
    (hs0 : v.incoming s0 = msgs) (L : Nat) (bufs : List Bytes) (hn : bufs ≠ []) (hb : ∀ b ∈ bufs, L ≤ b.length)
    (hlen : ∀ m ∈ msgs, m.length ≤ L) (hbad : 0 < malformedIn msgs)
    (hdisp : ∀ m ∈ msgs, Acceptable m →
      ∀ s, ∃ s', srv.dispatch ⟨m⟩ s = .ok s' ∧ v.Done s s' (v.incoming s) (reply m))
    (es : List (Option (Event ε))) (p : Pool σ ε) (h : Pool.DeviceRun srv (Pool.start s0 bufs) es p) :
    es.length ≤ 2 * msgs.length + 2 * bufs.length + v.interrupts s0 ∧ ¬ p.Returned := by
  obtain ⟨done, rest, inv⟩ := cuse_device_inv hf ha s0 hs0 L bufs hb hlen hdisp h
  refine ⟨by have := inv.weight; omega, fun hret => ?_⟩
  obtain ⟨g1, _, _⟩ := countP_all_finished hret
  have hrest : rest = [] := by
    obtain ⟨w, hw⟩ : ∃ w, w ∈ p.workers := by
      have h1 := inv.workers
      have h2 := List.length_pos_iff.mpr hn
      exact List.exists_mem_of_length_pos (by omega)
    have := inv.valid w hw
    rw [hret w hw] at this
    exact this
  subst hrest
  have hd : done = msgs := by rw [← inv.split, List.append_nil]
  subst hd
  have hz : p.workers.countP (Worker.reports false) = 0 := by
    rw [List.countP_eq_zero]
    intro w hw
    rw [hret w hw]
    simp [Worker.reports]
  have h1 := inv.malformed
  have h2 := inv.fatal
  have h3 := inv.workers
  have h4 := inv.channel
  have hc := countP_fatal p.channel
  omega

end

/-! ## A whole session -/

/-- A server made with the builder on a device, with handlers of which it is known what they send. -/
def CuseSession (sock : Socket σ ε) (attempt : Bytes × σ → ((Except (RecvError ε) Nat × Bytes) × σ) ⊕ (Bytes × σ))
    (v : View σ) (e0 : ε) (s : σ) : Prop :=
  ∀ (c : CuseServer) (_ : c.deviceName.bytes.length + 97 < 2 ^ 32) (bad : List Bytes) (good : Bytes)
    (msgs : List Bytes) (h : Handlers CuseMethod σ) (answer : Bytes → List Bytes),
    v.incoming s = bad ++ good :: msgs → v.outgoing s = [] →
    (∀ m ∈ bad, m.length ≤ 8192 ∧ IsCuseInit m ∧ u32At m 40 ≠ 7) →
    (good.length ≤ 8192 ∧ IsCuseInit good ∧ u32At good 40 = 7) →
    (∀ m ∈ msgs, Acceptable m ∧ m.length ≤ max (c.maxWrite.toNat + 4096) 8192 ∧
      ∀ s, v.Done s (cuseHandle h m s) (v.incoming s) (answer m)) →
    ∃ (conn : CuseConnection) (p : Bytes) (s1 : σ),
      c.Connects sock s (.ok conn, s1) ∧
      u32At p 0 = 7 ∧ u32At p 4 = min (u32At good 44) 36 ∧
      ∀ (bufs : List Bytes) (_ : bufs ≠ []) (_ : ∀ b ∈ bufs, b.length = max conn.recvBufLen 8192)
        (es : List (Option (Event ε))) (q : Pool σ ε),
        let srv : DeviceService σ ε := ⟨attempt, cuseReceived, cuseDispatch h⟩
        Pool.DeviceRun srv (Pool.start s1 bufs) es q →
        es.length ≤ 2 * msgs.length + 2 * bufs.length + v.interrupts s ∧
        (q.DeviceStuck srv → q.Returned ∧ q.channel = List.replicate bufs.length (.recv (.other e0)) ∧
          v.incoming q.world = [] ∧
          (v.outgoing q.world).Perm
            (bad.map (fun m => frame (idOf m) 0 (le32 7 ++ le32 36 ++ List.replicate 64 0)) ++
              frame (idOf good) 0 p :: msgs.flatMap answer))

theorem cuse_session {sock : Socket σ ε}
    {attempt : Bytes × σ → ((Except (RecvError ε) Nat × Bytes) × σ) ⊕ (Bytes × σ)} {v : View σ} {e0 : ε}
    (ha : Attempts attempt v (.other e0)) (hs : ActsOn sock v) (s : σ) : CuseSession sock attempt v e0 s := by
  intro c hname bad good msgs h answer hin hout hbad hgood hmsgs
  obtain ⟨conn, p, s1, h1, h2, h3, h4, h5, h6⟩ := C63_cuse_connect hs c hname bad good hbad hgood msgs s hin
  refine ⟨conn, p, s1, h1, h3, h4, ?_⟩
  intro bufs hn hb es q srv hrun
  have key := C63_cuse_threads (srv := srv) (v := v) (msgs := msgs) (reply := answer) rfl ha s1 h2.1
    (max (c.maxWrite.toNat + 4096) 8192) bufs hn (fun b hb' => by rw [hb b hb', h6]; omega)
    (fun m hm => ⟨(hmsgs m hm).1, (hmsgs m hm).2.1⟩)
    (fun m hm s => ⟨_, C25_cuse h m ⟨m⟩ (acceptable_new (hmsgs m hm).1) s, (hmsgs m hm).2.2 s⟩) es q hrun
  refine ⟨by have := key.1; have := h2.2.2; omega, fun hst => ?_⟩
  have := key.2 hst
  rw [h2.2.1, hout, List.nil_append, List.append_assoc] at this
  exact this

/-- **C63** for CUSE, `fuse-linux`: sockets for CUSE do not take `ENODEV` for the end of the connection. -/
theorem C63_cuse_linux {sys : Sys δ} {s : DeviceSocket} {v : View δ} (hd : FuseDevice sys s.fd v)
    (he : s.enodevIsEof = false) {sock : Socket δ Errno} (hs : OnLinux sys s sock) (d : δ) :
    CuseSession sock (Linux.recvStep sys s) v ENODEV d :=
  cuse_session (by have := linux_attempts hd; rwa [DeviceSocket.ends, he, if_neg Bool.false_ne_true] at this)
    (linux_actsOn hd hs) d

/-- **C63** for CUSE, `fuse-libc`. -/
theorem C63_cuse_libc {sys : Sys δ} {s : DeviceSocket} {v : View δ} (hd : FuseDevice sys s.fd v)
    (he : s.enodevIsEof = false) {sock : Socket (Libc.Thread δ) Libc.LibcError} (hs : OnLibc sys s sock)
    (t : Libc.Thread δ) :
    CuseSession sock (Libc.recvStep sys s) (v.through Libc.Thread.sys) ⟨Libc.cInt ENODEV⟩ t :=
  cuse_session (by have := libc_attempts hd; rwa [DeviceSocket.ends, he, if_neg Bool.false_ne_true] at this)
    (libc_actsOn hd hs) t

/-! ### Examples -/

/-- Handlers that answer everything with "not implemented". -/
def exampleCuseHandlers (sock : Socket σ ε) : Handlers CuseMethod σ where
  unimplemented r s :=
    match NonZeroU64.new (UInt64.ofNat (u64At r.mem 8)) with
    | some id => ((CuseAnswer.err ⟨-38, by decide⟩).run (.new sock ⟨36⟩ id) s).2
    | none => s
  overridden := fun _ => none

/-- A request to flush (25). -/
def exampleFlush : Bytes := le32 40 ++ le32 25 ++ le64 10 ++ le64 1 ++ List.replicate 16 0

theorem exampleCuse_done {sock : Socket σ ε} {v : View σ} (ha : ActsOn sock v) (s : σ) :
    v.Done s (cuseHandle (exampleCuseHandlers sock) exampleFlush s) (v.incoming s) [frame 10 (-38) []] := by
  obtain ⟨out, ho, hres⟩ := (cuse_answer_once sock ⟨36⟩ ⟨10, by decide⟩ (.err ⟨-38, by decide⟩) s).1 (by decide)
  obtain ⟨s', h1, h2⟩ := ha.send out _ s ho (by decide)
  have : cuseHandle (exampleCuseHandlers sock) exampleFlush s =
      ((CuseAnswer.err ⟨-38, by decide⟩).run (.new sock ⟨36⟩ ⟨10, by decide⟩) s).2 := rfl
  rw [this, hres, h1]
  exact h2

/-- C63 for CUSE on a device with 3 interruptions and two threads: at most 9 steps, and two reports of `ENODEV`. -/
example : ∃ (sock : Socket Noisy Errno) (conn : CuseConnection) (p : Bytes) (s1 : Noisy),
    OnLinux noisySys ⟨3, false⟩ sock ∧
    ∀ (b1 b2 : Bytes), b1.length = max conn.recvBufLen 8192 → b2.length = max conn.recvBufLen 8192 →
      ∀ es q,
      let srv : DeviceService Noisy Errno :=
        ⟨Linux.recvStep noisySys ⟨3, false⟩, cuseReceived, cuseDispatch (exampleCuseHandlers sock)⟩
      Pool.DeviceRun srv (Pool.start s1 [b1, b2]) es q →
      es.length ≤ 9 ∧ (q.DeviceStuck srv → q.Returned ∧
        q.channel = [.recv (.other ENODEV), .recv (.other ENODEV)] ∧
        q.world.outgoing.Perm [frame 2 0 p, frame 10 (-38) []]) := by
  obtain ⟨sock, hs⟩ := linux_socket (s := ⟨3, false⟩) (noisy_device 3)
  obtain ⟨conn, p, s1, -, -, -, h⟩ := C63_cuse_linux (s := ⟨3, false⟩) (noisy_device 3) rfl hs
    ⟨[cuseInitMessage 2 7 34, exampleFlush], [], [true, false, true, true]⟩
    ⟨⟨[0x78]⟩, ⟨1, 2⟩, 0, 0, 65536⟩ (by decide) [] (cuseInitMessage 2 7 34) [exampleFlush] (exampleCuseHandlers sock)
    (fun _ => [frame 10 (-38) []]) rfl rfl nofun (by decide) (by
      intro m hm
      rw [List.mem_singleton] at hm
      subst hm
      exact ⟨by decide, by decide, exampleCuse_done (linux_actsOn (noisy_device 3) hs)⟩)
  refine ⟨sock, conn, p, s1, hs, ?_⟩
  intro b1 b2 h1 h2 es q srv hrun
  obtain ⟨h3, h4⟩ := h [b1, b2] nofun (by
    intro b hb
    simp only [List.mem_cons, List.not_mem_nil, or_false] at hb
    rcases hb with rfl | rfl <;> assumption) es q hrun
  exact ⟨h3, fun hst => ⟨(h4 hst).1, (h4 hst).2.1, (h4 hst).2.2.2⟩⟩

/-- C26 on a device: two threads, handlers that send nothing.  After two malformed messages the server returns, with
both of them reported; after three it does not. -/
example (sock : Bytes × Noisy → ((Except (RecvError Errno) Nat × Bytes) × Noisy) ⊕ (Bytes × Noisy))
    (hsock : sock = Linux.recvStep noisySys ⟨3, true⟩) (b1 b2 : Bytes) (h1 : b1.length = 8192) (h2 : b2.length = 8192)
    (noise : List Bool) (es : List (Option (Event Errno))) (q : Pool Noisy Errno) :
    let srv : DeviceService Noisy Errno := ⟨sock, fuseReceived, fun _ s => .ok s⟩
    (Pool.DeviceRun srv (Pool.start ⟨[exampleMalformed, exampleFlush, exampleMalformed], [], noise⟩ [b1, b2]) es q →
      q.DeviceStuck srv → q.Returned ∧ q.channel.length = 2) ∧
    (Pool.DeviceRun srv
      (Pool.start ⟨[exampleMalformed, exampleMalformed, exampleMalformed], [], noise⟩ [b1, b2]) es q →
      es.length ≤ 8 + noise.count true ∧ ¬ q.Returned) := by
  intro srv
  have ha : Attempts srv.attempt noisyView (.connectionClosed ENODEV) := by
    have := linux_attempts (s := ⟨3, true⟩) (noisy_device 3)
    show Attempts sock _ _
    rw [hsock]; exact this
  have hb : ∀ b ∈ [b1, b2], 8192 ≤ b.length := by
    intro b hb
    simp only [List.mem_cons, List.not_mem_nil, or_false] at hb
    rcases hb with rfl | rfl <;> omega
  constructor
  · intro hrun hst
    have := (C26_device_partial (reply := fun _ => []) rfl ha ⟨_, [], noise⟩ rfl 8192 [b1, b2] nofun hb
      (show ∀ m ∈ [exampleMalformed, exampleFlush, exampleMalformed], List.length m ≤ 8192 by decide)
      (show malformedIn [exampleMalformed, exampleFlush, exampleMalformed] ≤ 2 by decide)
      (fun m _ _ s => ⟨s, rfl, rfl, (List.append_nil _).symm, Nat.le_refl _⟩) es q hrun).2 hst
    exact ⟨this.1, this.2.1.trans
      (show malformedIn [exampleMalformed, exampleFlush, exampleMalformed] = 2 by decide)⟩
  · intro hrun
    exact C26_violated_device (reply := fun _ => []) rfl ha ⟨_, [], noise⟩ rfl 8192 [b1, b2] nofun hb
      (show ∀ m ∈ [exampleMalformed, exampleMalformed, exampleMalformed], List.length m ≤ 8192 by decide)
      (show 2 < malformedIn [exampleMalformed, exampleMalformed, exampleMalformed] by decide)
      (fun m _ _ s => ⟨s, rfl, rfl, (List.append_nil _).symm, Nat.le_refl _⟩) es q hrun

end Fuse
