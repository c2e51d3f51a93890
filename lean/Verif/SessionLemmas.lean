import Verif.InitMessage

/-!
# One iteration of the connect loops
-/

namespace Fuse
open Spec

/-! ## Loops -/

section
variable {α β : Type} {step : α → β ⊕ α}

theorem iterate_add (n m : Nat) (a a' : α) (h : iterate step n a = .inr a') :
    iterate step (n + m) a = iterate step m a' := by
  induction n generalizing a with
  | zero => cases h; rw [Nat.zero_add]
  | succ n ih =>
    rw [Nat.succ_add]
    simp only [iterate] at h ⊢
    cases hs : step a with
    | inl b => rw [hs] at h; cases h
    | inr a1 => rw [hs] at h; exact ih a1 h

theorem iterate_mono (n m : Nat) (a : α) (b : β) (h : iterate step n a = .inl b) :
    iterate step (n + m) a = .inl b := by
  induction n generalizing a with
  | zero => cases h
  | succ n ih =>
    rw [Nat.succ_add]
    simp only [iterate] at h ⊢
    cases hs : step a with
    | inl b => rw [hs] at h; exact h
    | inr a1 => rw [hs] at h; exact ih a1 h

/-- A loop returns at most one result. -/
theorem LoopReturns.unique {a : α} {b b' : β} (h : LoopReturns step a b) (h' : LoopReturns step a b') :
    b = b' := by
  obtain ⟨n, h⟩ := h
  obtain ⟨m, h'⟩ := h'
  have h1 := iterate_mono n m a b h
  have h2 := iterate_mono m n a b' h'
  rw [Nat.add_comm, h1] at h2
  cases h2; rfl

/-- The last iteration of a loop that returns. -/
theorem LoopReturns.last {a : α} {b : β} (h : LoopReturns step a b) :
    ∃ n a', iterate step n a = .inr a' ∧ step a' = .inl b := by
  obtain ⟨n, h⟩ := h
  induction n generalizing a with
  | zero => cases h
  | succ n ih =>
    simp only [iterate] at h
    cases hs : step a with
    | inl b' => rw [hs] at h; cases h; exact ⟨0, a, rfl, hs⟩
    | inr a1 =>
      rw [hs] at h
      obtain ⟨m, a', h1, h2⟩ := ih h
      exact ⟨m + 1, a', by simp only [iterate, hs]; exact h1, h2⟩

theorem LoopReturns.of_step {a : α} {b : β} (h : step a = .inl b) : LoopReturns step a b :=
  ⟨1, by simp only [iterate, h]⟩

theorem LoopReturns.of_next {a a' : α} {b : β} (h : step a = .inr a') (h' : LoopReturns step a' b) :
    LoopReturns step a b := by
  obtain ⟨n, h'⟩ := h'
  exact ⟨n + 1, by simp only [iterate, h]; exact h'⟩

/-- A loop either returns or runs forever. -/
theorem returns_or_forever (a : α) : (∃ b, LoopReturns step a b) ∨ RunsForever step a := by
  by_cases h : ∃ b, LoopReturns step a b
  · exact Or.inl h
  · right
    intro n
    cases hn : iterate step n a with
    | inl b => exact absurd ⟨b, n, hn⟩ h
    | inr a' => exact ⟨a', rfl⟩

theorem not_returns_and_forever {a : α} {b : β} (h : LoopReturns step a b) : ¬ RunsForever step a := by
  intro hf
  obtain ⟨n, h⟩ := h
  obtain ⟨a', h'⟩ := hf n
  rw [h] at h'; cases h'

end

/-! ## Small facts -/

theorem truncateSlice_eq (b : Bytes) (n : Nat) : truncateSlice b n = b.take n := by
  unfold truncateSlice
  split
  · rw [List.take_of_length_le (by omega)]
  · rfl

theorem recvBufLen_eq (m : UInt32) : recvBufLen m = max (m.toNat + 4096) 8192 := by
  have := m.toNat_lt
  rw [recvBufLen, satLen, if_pos (by omega)]

theorem negotiateVersion_eq (v : Version) :
    negotiateVersion v =
      if v.major.toNat = 7 then some ⟨7, UInt32.ofNat (min v.minor.toNat 36)⟩ else none := by
  unfold negotiateVersion Version.latest
  by_cases h : v.major.toNat = 7
  · have h' : v.major = 7 := UInt32.toNat_inj.mp (h.trans rfl)
    rw [if_pos h, if_neg (by simp [h'])]
    congr 2
    apply UInt32.toNat_inj.mp
    rw [UInt32.toNat_ofNat', Nat.mod_eq_of_lt (a := min _ _) (by omega)]
    show (min v.minor 36).toNat = _
    rw [show min v.minor 36 = if v.minor ≤ 36 then v.minor else 36 from rfl]
    split
    · rename_i hle
      have := UInt32.le_iff_toNat_le.mp hle
      have h36 : (36 : UInt32).toNat = 36 := rfl
      omega
    · rename_i hle
      have : ¬ v.minor.toNat ≤ 36 := fun h => hle (UInt32.le_iff_toNat_le.mpr h)
      show 36 = _
      omega
  · have h' : v.major ≠ 7 := fun e => h (by rw [e]; rfl)
    rw [if_neg h, if_pos h']

variable {σ ε : Type}

/-! ## FUSE -/

/-- The reply rejecting a major version, as it appears on the wire. -/
def rejectionBytes : Bytes := le32 7 ++ le32 36 ++ List.replicate 56 0

theorem rejectionBytes_eq : rejectionBytes = initBytes (({} : FuseInitResponse).setVersion .latest).raw := by
  decide

theorem initBytes_length_le (x : FuseInitOut) : (initBytes x).length ≤ 64 := by
  have hs : x.unused.bytes.length = 28 := x.unused.len
  unfold initBytes
  rw [List.length_append, List.length_append, le32_length, le32_length]
  split
  · simp
  · split <;> simp [hs]

/-- Sending an `INIT` reply is one `send` of the framed reply. -/
theorem sendInitOut_once (sock : Socket σ ε) (id : NonZeroU64) (x : FuseInitOut) (s : σ) :
    ∃ out, Carries out (frame id.val 0 (initBytes x)) ∧
      sendInitOut x ⟨⟨sock, id.val⟩, ⟨36, 0⟩⟩ s = sock.send out s :=
  (fuse_answer_once sock ⟨36, 0⟩ id (.ok (.init x)) s).1
    (by have := initBytes_length_le x; show 16 + (initBytes x).length < _; omega)

/-- The request reports what the message says. -/
def FuseInitRequest.Reports (r : FuseInitRequest) (msg : Bytes) : Prop :=
  r.version.major.toNat = u32At msg 40 ∧ r.version.minor.toNat = u32At msg 44 ∧
    r.maxReadahead.toNat = fuseInitReadahead msg ∧ r.flags.toNat = fuseInitFlags msg

theorem id_ofNat {id : NonZeroU64} {n : Nat} (h : id.val.toNat = n) : id.val = UInt64.ofNat n := by
  rw [← h, UInt64.ofNat_toNat]

section
variable {sock : Socket σ ε} {initFn : FuseInitFn σ} {buf b : Bytes} {s s1 : σ} {n : Nat}

theorem fuse_step_closed {e : RecvError ε} (hr : sock.recv buf s = ((.error e, b), s1)) :
    fuseConnectStep sock initFn (buf, s) = .inl (.err (.recv e), s1) := by
  simp only [fuseConnectStep, hr]

theorem fuse_step_not_init (hr : sock.recv buf s = ((.ok n, b), s1)) (hi : ¬ IsFuseInit (b.take n)) :
    ∃ e, fuseConnectStep sock initFn (buf, s) = .inl (.err (.request e), s1) := by
  obtain ⟨e, he⟩ := receive_fuse_init_only (ε := ε) hi
  exact ⟨e, by simp only [fuseConnectStep, hr, truncateSlice_eq, he]⟩

theorem fuse_step_reject (hr : sock.recv buf s = ((.ok n, b), s1)) (hi : IsFuseInit (b.take n))
    (hm : u32At (b.take n) 40 ≠ 7) :
    ∃ out, Carries out (frame (UInt64.ofNat (u64At (b.take n) 8)) 0 rejectionBytes) ∧
      fuseConnectStep sock initFn (buf, s) =
        match sock.send out s1 with
        | (.error e, s2) => .inl (.err (.send e), s2)
        | (.ok _, s2) => .inr (b, s2) := by
  obtain ⟨req, id, h1, h2, h3, _⟩ := receive_fuse_init (ε := ε) hi
  obtain ⟨out, ho, hs⟩ := sendInitOut_once sock id (({} : FuseInitResponse).setVersion .latest).raw s1
  refine ⟨out, by rw [← id_ofNat h2, rejectionBytes_eq]; exact ho, ?_⟩
  have hn : negotiateVersion req.version = none := by
    rw [negotiateVersion_eq, if_neg (by rw [h3]; exact hm)]
  simp only [fuseConnectStep, hr, truncateSlice_eq, h1, fuseHandshake, hn, hs]
  cases sock.send out s1 with
  | mk r s2 => cases r <;> rfl

/-- The reply a server sends on accepting a version: the closure's reply with the version overwritten. -/
def acceptReply (reply : FuseInitResponse) (minor : Nat) : FuseInitOut :=
  { reply.raw with major := 7, minor := UInt32.ofNat (min minor 36) }

theorem fuse_step_accept (hr : sock.recv buf s = ((.ok n, b), s1)) (hi : IsFuseInit (b.take n))
    (hm : u32At (b.take n) 40 = 7) :
    ∃ req out, FuseInitRequest.Reports req (b.take n) ∧
      Carries out (frame (UInt64.ofNat (u64At (b.take n) 8)) 0
        (initBytes (acceptReply (initFn req {} s1).1 (u32At (b.take n) 44)))) ∧
      fuseConnectStep sock initFn (buf, s) =
        match sock.send out (initFn req {} s1).2 with
        | (.error e, s2) => .inl (.err (.send e), s2)
        | (.ok _, s2) => .inl (.ok ⟨.new2 (acceptReply (initFn req {} s1).1 (u32At (b.take n) 44)),
            max ((initFn req {} s1).1.raw.max_write.toNat + 4096) 8192⟩, s2) := by
  obtain ⟨req, id, h1, h2, h3, h4, h5⟩ := receive_fuse_init (ε := ε) hi
  have hn : negotiateVersion req.version = some ⟨7, UInt32.ofNat (min (u32At (b.take n) 44) 36)⟩ := by
    rw [negotiateVersion_eq, if_pos (by rw [h3]; exact hm), h4]
  cases hf : initFn req {} s1 with
  | mk reply s2 =>
  obtain ⟨out, ho, hs⟩ := sendInitOut_once sock id (acceptReply reply (u32At (b.take n) 44)) s2
  refine ⟨req, out, ⟨h3, h4, h5⟩, by rw [← id_ofNat h2, hf]; exact ho, ?_⟩
  simp only [fuseConnectStep, hr, truncateSlice_eq, h1, fuseHandshake, hn, hf]
  have : (reply.setVersion ⟨7, UInt32.ofNat (min (u32At (b.take n) 44) 36)⟩).raw =
      acceptReply reply (u32At (b.take n) 44) := rfl
  rw [this, hs]
  cases sock.send out s2 with
  | mk r s3 =>
    cases r
    · rfl
    · show Sum.inl _ = Sum.inl _
      rw [← recvBufLen_eq]; rfl

/-- The exchange that concludes a successful connect. -/
theorem fuse_connect_last {conn : FuseConnection} {s s' : σ}
    (h : FuseConnects sock initFn s (.ok conn, s')) :
    ∃ buf s0 n b s1 req out, sock.recv buf s0 = ((.ok n, b), s1) ∧ IsFuseInit (b.take n) ∧
      u32At (b.take n) 40 = 7 ∧ FuseInitRequest.Reports req (b.take n) ∧
      Carries out (frame (UInt64.ofNat (u64At (b.take n) 8)) 0
        (initBytes (acceptReply (initFn req {} s1).1 (u32At (b.take n) 44)))) ∧
      sock.send out (initFn req {} s1).2 = (.ok (), s') ∧
      conn = ⟨.new2 (acceptReply (initFn req {} s1).1 (u32At (b.take n) 44)),
        max ((initFn req {} s1).1.raw.max_write.toNat + 4096) 8192⟩ := by
  obtain ⟨k, ⟨buf, s0⟩, _, hstep⟩ := h.last
  cases hr : sock.recv buf s0 with
  | mk p s1 =>
  obtain ⟨r, b⟩ := p
  cases r with
  | error e => rw [fuse_step_closed hr] at hstep; cases hstep
  | ok n =>
    by_cases hi : IsFuseInit (b.take n)
    · by_cases hm : u32At (b.take n) 40 = 7
      · obtain ⟨req, out, h1, h2, h3⟩ := fuse_step_accept (initFn := initFn) hr hi hm
        rw [h3] at hstep
        cases hsend : sock.send out (initFn req {} s1).2 with
        | mk r s2 =>
        rw [hsend] at hstep
        cases r with
        | error e => cases hstep
        | ok u =>
          cases hstep
          exact ⟨buf, s0, n, b, s1, req, out, hr, hi, hm, h1, h2, hsend, rfl⟩
      · obtain ⟨out, h1, h2⟩ := fuse_step_reject (initFn := initFn) hr hi hm
        rw [h2] at hstep
        cases hsend : sock.send out s1 with
        | mk r s2 =>
        rw [hsend] at hstep
        cases r <;> cases hstep
    · obtain ⟨e, he⟩ := fuse_step_not_init (initFn := initFn) hr hi
      rw [he] at hstep; cases hstep

end

/-! ## CUSE -/

/-- The reply rejecting a major version, as it appears on the wire. -/
def cuseRejectionBytes : Bytes := le32 7 ++ le32 36 ++ List.replicate 64 0

theorem cuseRejectionBytes_eq : cuseRejectionBytes =
    (CuseReply.init (CuseInitResponse.newNameless.setVersion .latest)).payload := by
  decide

/-- The reply a CUSE server sends on accepting a version. -/
def cuseAcceptReply (reply : CuseInitResponse) (minor : Nat) : CuseInitResponse :=
  ⟨{ reply.raw with major := 7, minor := UInt32.ofNat (min minor 36) }, reply.deviceName⟩

section
variable {sock : Socket σ ε} {name : CuseDeviceName} {num : CuseDeviceNumber} {initFn : CuseInitFn σ}
  {buf b : Bytes} {s s1 : σ} {n : Nat}

/-- The reply the closure passed to `CuseConnection::connect` starts from. -/
def cuseBlank (name : CuseDeviceName) (num : CuseDeviceNumber) : CuseInitResponse :=
  ⟨{ dev_major := num.major, dev_minor := num.minor }, some name⟩

theorem cuse_step_closed {e : RecvError ε} (hr : sock.recv buf s = ((.error e, b), s1)) :
    cuseConnectStep sock name num initFn (buf, s) = .inl (.err (.recv e), s1) := by
  simp only [cuseConnectStep, hr]

theorem cuse_step_not_init (hr : sock.recv buf s = ((.ok n, b), s1)) (hi : ¬ IsCuseInit (b.take n)) :
    ∃ e, cuseConnectStep sock name num initFn (buf, s) = .inl (.err (.request e), s1) := by
  obtain ⟨e, he⟩ := receive_cuse_init_only (ε := ε) hi
  exact ⟨e, by simp only [cuseConnectStep, hr, truncateSlice_eq, he]⟩

theorem cuse_step_reject (hr : sock.recv buf s = ((.ok n, b), s1)) (hi : IsCuseInit (b.take n))
    (hm : u32At (b.take n) 40 ≠ 7) :
    ∃ out, Carries out (frame (UInt64.ofNat (u64At (b.take n) 8)) 0 cuseRejectionBytes) ∧
      cuseConnectStep sock name num initFn (buf, s) =
        match sock.send out s1 with
        | (.error e, s2) => .inl (.err (.send e), s2)
        | (.ok _, s2) => .inr (b, s2) := by
  obtain ⟨req, id, h1, h2, h3, _⟩ := receive_cuse_init (ε := ε) hi
  obtain ⟨out, ho, hs⟩ := (cuse_answer_once sock ⟨36⟩ id
    (.ok (.init (CuseInitResponse.newNameless.setVersion .latest))) s1).1 (by decide)
  refine ⟨out, by rw [← id_ofNat h2, cuseRejectionBytes_eq]; exact ho, ?_⟩
  have hn : negotiateVersion req.version = none := by
    rw [negotiateVersion_eq, if_neg (by rw [h3]; exact hm)]
  have hs' : CuseInitResponse.sendTo (CuseInitResponse.newNameless.setVersion .latest)
      ⟨⟨sock, id.val⟩⟩ s1 = sock.send out s1 := hs
  simp only [cuseConnectStep, hr, truncateSlice_eq, h1, cuseHandshake, hn, hs']
  cases sock.send out s1 with
  | mk r s2 => cases r <;> rfl

theorem cuse_step_accept (hr : sock.recv buf s = ((.ok n, b), s1)) (hi : IsCuseInit (b.take n))
    (hm : u32At (b.take n) 40 = 7) :
    ∃ (req : CuseInitRequest) (res : Except (SendError ε) Unit × σ),
      req.version = ⟨7, UInt32.ofNat (u32At (b.take n) 44)⟩ ∧
      req.flags = UInt32.ofNat (u32At (b.take n) 52) ∧
      SendsOnce sock (UInt64.ofNat (u64At (b.take n) 8)) 0
        (CuseReply.init (cuseAcceptReply (initFn req (cuseBlank name num) s1).1
          (u32At (b.take n) 44))).payload (initFn req (cuseBlank name num) s1).2 res ∧
      cuseConnectStep sock name num initFn (buf, s) =
        match res with
        | (.error e, s2) => .inl (.err (.send e), s2)
        | (.ok _, s2) => .inl (.ok ⟨⟨UInt16.ofNat (min (u32At (b.take n) 44) 36)⟩,
            max ((initFn req (cuseBlank name num) s1).1.raw.max_write.toNat + 4096) 8192⟩, s2) := by
  obtain ⟨req, id, h1, h2, h3, h4, h5⟩ := receive_cuse_init (ε := ε) hi
  have hn : negotiateVersion req.version = some ⟨7, UInt32.ofNat (min (u32At (b.take n) 44) 36)⟩ := by
    rw [negotiateVersion_eq, if_pos (by rw [h3]; exact hm), h4]
  have hv : req.version = ⟨7, UInt32.ofNat (u32At (b.take n) 44)⟩ := by
    have e1 : req.version.major = 7 := UInt32.toNat_inj.mp (by rw [h3, hm]; rfl)
    have e2 : req.version.minor = UInt32.ofNat (u32At (b.take n) 44) := by rw [← h4, UInt32.ofNat_toNat]
    cases hreq : req.version with
    | mk a b => rw [hreq] at e1 e2; simp only at e1 e2; rw [e1, e2]
  cases hf : initFn req (cuseBlank name num) s1 with
  | mk reply s2 =>
  refine ⟨req, CuseInitResponse.sendTo (cuseAcceptReply reply (u32At (b.take n) 44))
      ⟨⟨sock, id.val⟩⟩ s2, hv, ?_, ?_, ?_⟩
  · rw [← h5, UInt32.ofNat_toNat]
  · have := cuse_answer_once sock ⟨36⟩ id (.ok (.init (cuseAcceptReply reply (u32At (b.take n) 44)))) s2
    rw [← id_ofNat h2, hf]
    exact this
  · have hb : (CuseInitResponse.new name).setDeviceNumber num = cuseBlank name num := rfl
    simp only [cuseConnectStep, hr, truncateSlice_eq, h1, cuseHandshake, hn, hb, hf]
    have : reply.setVersion ⟨7, UInt32.ofNat (min (u32At (b.take n) 44) 36)⟩ =
        cuseAcceptReply reply (u32At (b.take n) 44) := rfl
    rw [this]
    cases CuseInitResponse.sendTo (cuseAcceptReply reply (u32At (b.take n) 44)) ⟨⟨sock, id.val⟩⟩ s2 with
    | mk r s3 =>
      cases r
      · rfl
      · show Sum.inl _ = Sum.inl _
        have e16 : (UInt32.ofNat (min (u32At (b.take n) 44) 36)).toUInt16 =
            UInt16.ofNat (min (u32At (b.take n) 44) 36) := by
          apply UInt16.toNat_inj.mp
          rw [UInt32.toNat_toUInt16, UInt32.toNat_ofNat', UInt16.toNat_ofNat']
          omega
        rw [← recvBufLen_eq, ← e16]; rfl

/-- The exchange that concludes a successful CUSE connect. -/
theorem cuse_connect_last {conn : CuseConnection} {s s' : σ}
    (h : CuseConnects sock name num initFn s (.ok conn, s')) :
    ∃ buf s0 n b s1 req out, sock.recv buf s0 = ((.ok n, b), s1) ∧ IsCuseInit (b.take n) ∧
      u32At (b.take n) 40 = 7 ∧ CuseInitRequest.version req = ⟨7, UInt32.ofNat (u32At (b.take n) 44)⟩ ∧
      req.flags = UInt32.ofNat (u32At (b.take n) 52) ∧
      Carries out (frame (UInt64.ofNat (u64At (b.take n) 8)) 0
        (CuseReply.init (cuseAcceptReply (initFn req (cuseBlank name num) s1).1
          (u32At (b.take n) 44))).payload) ∧
      sock.send out (initFn req (cuseBlank name num) s1).2 = (.ok (), s') ∧
      conn = ⟨⟨UInt16.ofNat (min (u32At (b.take n) 44) 36)⟩,
        max ((initFn req (cuseBlank name num) s1).1.raw.max_write.toNat + 4096) 8192⟩ := by
  obtain ⟨k, ⟨buf, s0⟩, _, hstep⟩ := h.last
  cases hr : sock.recv buf s0 with
  | mk p s1 =>
  obtain ⟨r, b⟩ := p
  cases r with
  | error e => rw [cuse_step_closed hr] at hstep; cases hstep
  | ok n =>
    by_cases hi : IsCuseInit (b.take n)
    · by_cases hm : u32At (b.take n) 40 = 7
      · obtain ⟨req, ⟨r, s2⟩, h1, h2, h3, h4⟩ :=
          cuse_step_accept (name := name) (num := num) (initFn := initFn) hr hi hm
        rw [h4] at hstep
        cases r with
        | error e => cases hstep
        | ok u =>
          cases hstep
          by_cases hl : 16 + (CuseReply.init (cuseAcceptReply (initFn req (cuseBlank name num) s1).1
              (u32At (b.take n) 44))).payload.length < 2 ^ 32
          · obtain ⟨out, ho, hs⟩ := h3.1 hl
            exact ⟨buf, s0, n, b, s1, req, out, hr, hi, hm, h1, h2, ho, hs.symm, rfl⟩
          · have := h3.2 hl
            cases this
      · obtain ⟨out, h1, h2⟩ := cuse_step_reject (name := name) (num := num) (initFn := initFn) hr hi hm
        rw [h2] at hstep
        cases hsend : sock.send out s1 with
        | mk r s2 =>
        rw [hsend] at hstep
        cases r <;> cases hstep
    · obtain ⟨e, he⟩ := cuse_step_not_init (name := name) (num := num) (initFn := initFn) hr hi
      rw [he] at hstep; cases hstep

end

end Fuse
