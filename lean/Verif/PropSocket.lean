import Verif.Sys
import Verif.SessionLemmas

/-!
# Device sockets: properties C40 and C41

The kernel decides the outcome of each system call; a system `Sys δ` is arbitrary, so its outcomes are too.
-/

namespace Fuse

/-- `op` has been tried `n` times in a row, beginning in state `a` and ending in state `b`, each time with an
outcome that asks for another try. -/
inductive Tried {α ρ : Type} (op : α → ρ × α) (again : ρ → Prop) : Nat → α → α → Prop
  | none (a : α) : Tried op again 0 a a
  | more {n : Nat} {a b : α} : again (op a).1 → Tried op again n (op a).2 b → Tried op again (n + 1) a b

section Retry

variable {α β ρ : Type} {op : α → ρ × α} {again : ρ → Prop} {step : α → β ⊕ α}

theorem iterate_tried (hs : ∀ a, again (op a).1 → step a = .inr (op a).2) {n : Nat} {a b : α}
    (h : Tried op again n a b) : iterate step n a = .inr b := by
  induction h with
  | none a => rfl
  | more h1 _ ih => simp only [iterate, hs _ h1, ih]

/-- A loop that tries `op` again as long as the outcome asks for it. -/
theorem retry_returns {fin : ρ × α → β} (hs : ∀ a, again (op a).1 → step a = .inr (op a).2)
    (hf : ∀ a, ¬ again (op a).1 → step a = .inl (fin (op a))) (a : α) (out : β) :
    LoopReturns step a out ↔ ∃ n b, Tried op again n a b ∧ ¬ again (op b).1 ∧ out = fin (op b) := by
  constructor
  · rintro ⟨n, h⟩
    induction n generalizing a with
    | zero => cases h
    | succ n ih =>
      simp only [iterate] at h
      by_cases ha : again (op a).1
      · rw [hs a ha] at h
        obtain ⟨m, b, h1, h2, h3⟩ := ih _ h
        exact ⟨m + 1, b, .more ha h1, h2, h3⟩
      · rw [hf a ha] at h
        cases h
        exact ⟨0, a, .none a, ha, rfl⟩
  · rintro ⟨n, b, h1, h2, h3⟩
    refine ⟨n + 1, ?_⟩
    rw [iterate_add n 1 a b (iterate_tried hs h1)]
    simp only [iterate, hf b h2, h3]

theorem retry_forever {fin : ρ × α → β} (hs : ∀ a, again (op a).1 → step a = .inr (op a).2)
    (hf : ∀ a, ¬ again (op a).1 → step a = .inl (fin (op a))) (a : α) :
    RunsForever step a ↔ ∀ n, ∃ b, Tried op again n a b := by
  constructor
  · intro h n
    induction n generalizing a with
    | zero => exact ⟨a, .none a⟩
    | succ n ih =>
      by_cases ha : again (op a).1
      · have : RunsForever step (op a).2 := by
          intro m
          obtain ⟨b, hb⟩ := h (m + 1)
          simp only [iterate, hs a ha] at hb
          exact ⟨b, hb⟩
        obtain ⟨b, hb⟩ := ih _ this
        exact ⟨b, .more ha hb⟩
      · obtain ⟨b, hb⟩ := h 1
        simp only [iterate, hf a ha] at hb
        cases hb
  · intro h n
    obtain ⟨b, hb⟩ := h n
    exact ⟨b, iterate_tried hs hb⟩

end Retry

/-- Trying in a system with more state than the outcome depends on. -/
theorem Tried.map {α β ρ : Type} {op : α → ρ × α} {op' : β → ρ × β} {again : ρ → Prop} (f : α → β)
    (h : ∀ a, (op' (f a)) = ((op a).1, f (op a).2)) {n : Nat} {a b : α} (ht : Tried op again n a b) :
    Tried op' again n (f a) (f b) := by
  induction ht with
  | none a => exact .none _
  | @more n a b h1 _ ih =>
    refine .more (by rw [h a]; exact h1) ?_
    rw [h a]
    exact ih

theorem Tried.lift {α β ρ : Type} {op : α → ρ × α} {op' : β → ρ × β} {again : ρ → Prop} (f : α → β)
    (h : ∀ a, (op' (f a)) = ((op a).1, f (op a).2)) {n : Nat} {a : α} {b : β} (ht : Tried op' again n (f a) b) :
    ∃ c, f c = b ∧ Tried op again n a c := by
  generalize hx : f a = x at ht
  induction ht generalizing a with
  | none x => exact ⟨a, hx, .none a⟩
  | @more n x b h1 _ ih =>
    subst hx
    rw [h a] at h1
    obtain ⟨c, hc, ht⟩ := ih (a := (op a).2) (by rw [h a])
    exact ⟨c, hc, .more h1 ht⟩

/-! ## The chunks handed to `writev` -/

theorem iovecs_of_carries {buf : SendBuf} {msg : Bytes} (hc : Carries buf msg) :
    ∃ cs, Linux.iovecs buf = .ok cs ∧ Libc.iovecs buf = .ok cs ∧ cs.flatten = msg := by
  obtain ⟨cs, h1, h2, h3, _⟩ := hc
  have hin : ∀ (cs : List Bytes), inOrder (fun c u => (c, u)) cs () = (cs, ()) := by
    intro cs
    induction cs with
    | nil => rfl
    | cons c cs ih => simp only [inOrder, ih]
  have := C48_map_uninit buf cs h1 (List.replicate MAX_CHUNKS_LEN none) (fun c u => (c, u)) ()
  rw [if_pos (by simpa using h2), hin] at this
  exact ⟨cs, by simp only [Linux.iovecs, this]; rfl, by simp only [Libc.iovecs, this]; rfl, h3⟩

/-! ## Sending -/

section Send

variable {δ : Type}

theorem linux_sendStep (sys : Sys δ) (s : DeviceSocket) (len : Nat) (cs : List Bytes) (d : δ) :
    Linux.sendStep sys s len cs d =
      match (sys.writev s.fd cs d).1 with
      | .ok k => .inl (if k = len then .ok () else .error (.other EIO), (sys.writev s.fd cs d).2)
      | .error e =>
        if e = EINTR then .inr (sys.writev s.fd cs d).2
        else .inl (.error (if e = ENOENT then .notFound e else .other e), (sys.writev s.fd cs d).2) := by
  unfold Linux.sendStep
  cases sys.writev s.fd cs d with
  | mk w d =>
    cases w with
    | ok k => by_cases h : k = len <;> simp [h]
    | error e =>
      by_cases h1 : e = EINTR
      · simp [Linux.checkSendErr, h1]
      · by_cases h2 : e = ENOENT
        · simp only [Linux.checkSendErr, h2 ▸ h1, h2, ↓reduceIte]
        · simp only [Linux.checkSendErr, h1, h2, ↓reduceIte]

/-- What `send` returns for the outcome of the last write. -/
def sendVerdict (len : Nat) : Except Errno Nat → Except (SendError Errno) Unit
  | .ok k => if k = len then .ok () else .error (.other EIO)
  | .error e => .error (if e = ENOENT then .notFound e else .other e)

theorem linux_send_iff (sys : Sys δ) (s : DeviceSocket) (len : Nat) (cs : List Bytes) (d : δ)
    (out : Except (SendError Errno) Unit × δ) :
    LoopReturns (Linux.sendStep sys s len cs) d out ↔
      ∃ n d', Tried (sys.writev s.fd cs) (· = .error EINTR) n d d' ∧
        ¬ (sys.writev s.fd cs d').1 = .error EINTR ∧
        out = (sendVerdict len (sys.writev s.fd cs d').1, (sys.writev s.fd cs d').2) := by
  refine retry_returns (fin := fun w => (sendVerdict len w.1, w.2)) ?_ ?_ d out
  · intro d h
    rw [linux_sendStep, h]
    simp
  · intro d h
    rw [linux_sendStep]
    cases hw : (sys.writev s.fd cs d).1 with
    | ok k => rfl
    | error e =>
      have : e ≠ EINTR := fun he => h (by rw [hw, he])
      simp [this, sendVerdict]

theorem linux_send_forever (sys : Sys δ) (s : DeviceSocket) (len : Nat) (cs : List Bytes) (d : δ) :
    RunsForever (Linux.sendStep sys s len cs) d ↔
      ∀ n, ∃ d', Tried (sys.writev s.fd cs) (· = .error EINTR) n d d' := by
  refine retry_forever (fin := fun w => (sendVerdict len w.1, w.2)) ?_ ?_ d
  · intro d h
    rw [linux_sendStep, h]
    simp
  · intro d h
    rw [linux_sendStep]
    cases hw : (sys.writev s.fd cs d).1 with
    | ok k => rfl
    | error e =>
      have : e ≠ EINTR := fun he => h (by rw [hw, he])
      simp [this, sendVerdict]

/-- `writev` through the C library. -/
def cWritev (sys : Sys δ) (fd : Int32) (cs : List Bytes) (t : Libc.Thread δ) : Except Errno Nat × Libc.Thread δ :=
  ((sys.writev fd cs t.sys).1, (Libc.ret (sys.writev fd cs t.sys) t).2)

theorem cWritev_sys (sys : Sys δ) (fd : Int32) (cs : List Bytes) (t : Libc.Thread δ) :
    sys.writev fd cs t.sys = ((cWritev sys fd cs t).1, (cWritev sys fd cs t).2.sys) := by
  unfold cWritev Libc.ret
  cases sys.writev fd cs t.sys with
  | mk w d => cases w <;> rfl

/-- The error of the C library for an error number. -/
def libcError (e : Errno) : Libc.LibcError := ⟨Libc.cInt e⟩

theorem cInt_inj {a b : Errno} : Libc.cInt a = Libc.cInt b ↔ a = b := by
  constructor
  · intro h
    have ha := a.toNat_lt
    have hb := b.toNat_lt
    have h1 : ∀ n : Nat, n < 65536 → (Int32.ofNat n).toInt = n := by
      intro n hn
      exact Int32.toInt_ofNat_of_lt (by omega)
    have := congrArg Int32.toInt h
    unfold Libc.cInt at this
    rw [h1 _ ha, h1 _ hb] at this
    exact UInt16.toNat_inj.1 (by omega)
  · rintro rfl; rfl

theorem libc_sendStep (sys : Sys δ) (s : DeviceSocket) (len : Nat) (cs : List Bytes) (hlen : len < 2 ^ 63)
    (t : Libc.Thread δ) :
    Libc.sendStep sys s len cs t =
      match (cWritev sys s.fd cs t).1 with
      | .ok k => .inl (if k = len then .ok () else .error (.other (libcError EIO)), (cWritev sys s.fd cs t).2)
      | .error e =>
        if e = EINTR then .inr (cWritev sys s.fd cs t).2
        else .inl (.error (if e = ENOENT then .notFound (libcError e) else .other (libcError e)),
          (cWritev sys s.fd cs t).2) := by
  have hl : Libc.asIsize len = (len : Int) := by
    unfold Libc.asIsize
    rw [Int.bmod_eq_of_le] <;> omega
  unfold Libc.sendStep cWritev Libc.ret
  cases sys.writev s.fd cs t.sys with
  | mk w d =>
    cases w with
    | ok k =>
      have h1 : ¬ ((k : Int) = -1) := by omega
      simp only [h1, ↓reduceIte, hl, Int.ofNat_inj]
      by_cases h : k = len <;> simp [h, libcError]
    | error e =>
      simp only [↓reduceIte, Libc.checkSendErr, cInt_inj]
      by_cases h1 : e = EINTR
      · simp only [h1, ↓reduceIte]
      · by_cases h2 : e = ENOENT
        · simp only [h2, ↓reduceIte, libcError, h2 ▸ h1]
        · simp only [h1, h2, ↓reduceIte, libcError]

theorem tried_cWritev (sys : Sys δ) (fd : Int32) (cs : List Bytes) (n : Nat) (t : Libc.Thread δ) (d' : δ) :
    (∃ t', t'.sys = d' ∧ Tried (cWritev sys fd cs) (· = .error EINTR) n t t') ↔
      Tried (sys.writev fd cs) (· = .error EINTR) n t.sys d' := by
  constructor
  · rintro ⟨t', rfl, h⟩
    exact h.map Libc.Thread.sys (cWritev_sys sys fd cs)
  · intro h
    exact h.lift Libc.Thread.sys (cWritev_sys sys fd cs)

theorem libc_send_iff (sys : Sys δ) (s : DeviceSocket) (len : Nat) (cs : List Bytes) (hlen : len < 2 ^ 63)
    (t : Libc.Thread δ) (res : Except (SendError Libc.LibcError) Unit) (d2 : δ) :
    (∃ e, LoopReturns (Libc.sendStep sys s len cs) t (res, ⟨d2, e⟩)) ↔
      ∃ n d', Tried (sys.writev s.fd cs) (· = .error EINTR) n t.sys d' ∧
        ¬ (sys.writev s.fd cs d').1 = .error EINTR ∧
        (res, d2) = ((match (sys.writev s.fd cs d').1 with
          | .ok k => if k = len then .ok () else .error (.other (libcError EIO))
          | .error e => .error (if e = ENOENT then .notFound (libcError e) else .other (libcError e))),
          (sys.writev s.fd cs d').2) := by
  have key := retry_returns (op := cWritev sys s.fd cs) (again := (· = .error EINTR))
    (step := Libc.sendStep sys s len cs)
    (fin := fun w => ((match w.1 with
          | .ok k => if k = len then .ok () else .error (.other (libcError EIO))
          | .error e => .error (if e = ENOENT then .notFound (libcError e) else .other (libcError e))), w.2))
    (by
      intro t h
      rw [libc_sendStep sys s len cs hlen, h]
      simp)
    (by
      intro t h
      rw [libc_sendStep sys s len cs hlen]
      cases hw : (cWritev sys s.fd cs t).1 with
      | ok k => rfl
      | error e =>
        have : e ≠ EINTR := fun he => h (by rw [hw, he])
        simp [this])
  constructor
  · rintro ⟨e, h⟩
    obtain ⟨n, t', h1, h2, h3⟩ := (key t _).1 h
    refine ⟨n, t'.sys, (tried_cWritev sys s.fd cs n t t'.sys).1 ⟨t', rfl, h1⟩, ?_, ?_⟩
    · rw [cWritev_sys]; exact h2
    · rw [cWritev_sys]
      simp only [Prod.mk.injEq] at h3 ⊢
      exact ⟨h3.1, by rw [← h3.2]⟩
  · rintro ⟨n, d', h1, h2, h3⟩
    obtain ⟨t', rfl, ht⟩ := (tried_cWritev sys s.fd cs n t d').2 h1
    refine ⟨(cWritev sys s.fd cs t').2.errno, (key t _).2 ⟨n, t', ht, ?_, ?_⟩⟩
    · rw [cWritev_sys] at h2; exact h2
    · rw [cWritev_sys] at h3
      simp only [Prod.mk.injEq] at h3 ⊢
      refine ⟨h3.1, ?_⟩
      rw [h3.2]

theorem libc_send_forever (sys : Sys δ) (s : DeviceSocket) (len : Nat) (cs : List Bytes) (hlen : len < 2 ^ 63)
    (t : Libc.Thread δ) :
    RunsForever (Libc.sendStep sys s len cs) t ↔
      ∀ n, ∃ d', Tried (sys.writev s.fd cs) (· = .error EINTR) n t.sys d' := by
  rw [retry_forever (op := cWritev sys s.fd cs) (again := (· = .error EINTR))
    (fin := fun w => ((match w.1 with
          | .ok k => if k = len then .ok () else .error (.other (libcError EIO))
          | .error e => .error (if e = ENOENT then .notFound (libcError e) else .other (libcError e))), w.2))]
  · constructor
    · intro h n
      obtain ⟨t', ht⟩ := h n
      exact ⟨t'.sys, (tried_cWritev sys s.fd cs n t t'.sys).1 ⟨t', rfl, ht⟩⟩
    · intro h n
      obtain ⟨d', hd⟩ := h n
      obtain ⟨t', _, ht⟩ := (tried_cWritev sys s.fd cs n t d').2 hd
      exact ⟨t', ht⟩
  · intro t h
    rw [libc_sendStep sys s len cs hlen, h]
    simp
  · intro t h
    rw [libc_sendStep sys s len cs hlen]
    cases hw : (cWritev sys s.fd cs t).1 with
    | ok k => rfl
    | error e =>
      have : e ≠ EINTR := fun he => h (by rw [hw, he])
      simp [this]

end Send

/-! ## Receiving -/

section Recv

variable {δ : Type}

/-- A read into the buffer. -/
def readInto (sys : Sys δ) (fd : Int32) (st : Bytes × δ) : Except Errno Nat × (Bytes × δ) :=
  ((sys.read fd st.1.length st.2).1.1,
    ((sys.read fd st.1.length st.2).1.2 ++ st.1.drop (sys.read fd st.1.length st.2).1.2.length,
      (sys.read fd st.1.length st.2).2))

/-- The outcomes of a read after which it is tried again. -/
def ReadAgain (r : Except Errno Nat) : Prop := r = .error ENOENT ∨ r = .error EINTR

/-- What `recv` returns for the outcome of the last read. -/
def recvVerdict (eof : Bool) : Except Errno Nat → Except (RecvError Errno) Nat
  | .ok k => .ok k
  | .error e => .error (if e = ENODEV ∧ eof = true then .connectionClosed e else .other e)

theorem linux_recvStep_again (sys : Sys δ) (s : DeviceSocket) (st : Bytes × δ)
    (h : ReadAgain (readInto sys s.fd st).1) : Linux.recvStep sys s st = .inr (readInto sys s.fd st).2 := by
  unfold Linux.recvStep
  unfold readInto at h ⊢
  dsimp only at h ⊢
  rcases h with h | h <;> rw [h] <;> simp [Linux.checkRecvErr, overlay]

theorem linux_recvStep_done (sys : Sys δ) (s : DeviceSocket) (st : Bytes × δ)
    (h : ¬ ReadAgain (readInto sys s.fd st).1) : Linux.recvStep sys s st =
      .inl ((recvVerdict s.enodevIsEof (readInto sys s.fd st).1, (readInto sys s.fd st).2.1),
        (readInto sys s.fd st).2.2) := by
  unfold Linux.recvStep
  unfold readInto at h ⊢
  dsimp only at h ⊢
  cases hr : (sys.read s.fd st.1.length st.2).1.1 with
  | ok k => rfl
  | error e =>
    rw [hr] at h
    have h1 : e ≠ ENOENT := fun he => h (Or.inl (by rw [he]))
    have h2 : e ≠ EINTR := fun he => h (Or.inr (by rw [he]))
    simp only [Linux.checkRecvErr, h1, h2, ↓reduceIte, recvVerdict, overlay]
    by_cases h3 : e = ENODEV ∧ s.enodevIsEof = true
    · simp only [h3, and_self, ↓reduceIte]
    · simp only [h3, ↓reduceIte]

/-- `read` through the C library. -/
def cReadInto (sys : Sys δ) (fd : Int32) (st : Bytes × Libc.Thread δ) : Except Errno Nat × (Bytes × Libc.Thread δ) :=
  ((readInto sys fd (st.1, st.2.sys)).1, ((readInto sys fd (st.1, st.2.sys)).2.1,
    (Libc.ret ((readInto sys fd (st.1, st.2.sys)).1, (readInto sys fd (st.1, st.2.sys)).2.2) st.2).2))

/-- The buffer and the system, without `errno`. -/
def noErrno (st : Bytes × Libc.Thread δ) : Bytes × δ := (st.1, st.2.sys)

theorem cReadInto_sys (sys : Sys δ) (fd : Int32) (st : Bytes × Libc.Thread δ) :
    readInto sys fd (noErrno st) = ((cReadInto sys fd st).1, noErrno (cReadInto sys fd st).2) := by
  unfold cReadInto noErrno Libc.ret
  cases readInto sys fd (st.1, st.2.sys) with
  | mk w d => cases w <;> rfl

theorem libc_recvStep_again (sys : Sys δ) (s : DeviceSocket) (st : Bytes × Libc.Thread δ)
    (h : ReadAgain (cReadInto sys s.fd st).1) : Libc.recvStep sys s st = .inr (cReadInto sys s.fd st).2 := by
  unfold Libc.recvStep
  unfold cReadInto readInto at h ⊢
  dsimp only at h ⊢
  rcases h with h | h <;> rw [h] <;>
    simp [Libc.checkRecvErr, overlay, Libc.ret]

/-- What `recv` of fuse-libc returns for the outcome of the last read. -/
def cRecvVerdict (eof : Bool) : Except Errno Nat → Except (RecvError Libc.LibcError) Nat
  | .ok k => .ok k
  | .error e =>
    .error (if e = ENODEV ∧ eof = true then .connectionClosed (libcError e) else .other (libcError e))

theorem libc_recvStep_done (sys : Sys δ) (s : DeviceSocket) (st : Bytes × Libc.Thread δ)
    (h : ¬ ReadAgain (cReadInto sys s.fd st).1) : Libc.recvStep sys s st =
      .inl ((cRecvVerdict s.enodevIsEof (cReadInto sys s.fd st).1, (cReadInto sys s.fd st).2.1),
        (cReadInto sys s.fd st).2.2) := by
  unfold Libc.recvStep
  unfold cReadInto readInto at h ⊢
  dsimp only at h ⊢
  cases hr : (sys.read s.fd st.1.length st.2.sys).1.1 with
  | ok k => simp [Libc.ret, cRecvVerdict, overlay]
  | error e =>
    rw [hr] at h
    have h1 : e ≠ ENOENT := fun he => h (Or.inl (by rw [he]))
    have h2 : e ≠ EINTR := fun he => h (Or.inr (by rw [he]))
    have h0 : ¬ ((-1 : Int) ≥ 0) := by decide
    simp only [Libc.ret, h0, Libc.checkRecvErr, cInt_inj, h1, h2, ↓reduceIte, cRecvVerdict, overlay]
    by_cases h3 : e = ENODEV ∧ s.enodevIsEof = true
    · simp only [h3, and_self, ↓reduceIte, libcError]
    · simp only [h3, ↓reduceIte, libcError]

theorem linux_recv_iff (sys : Sys δ) (s : DeviceSocket) (buf : Bytes) (d : δ)
    (out : (Except (RecvError Errno) Nat × Bytes) × δ) :
    Linux.RecvReturns sys s buf d out ↔
      ∃ n st, Tried (readInto sys s.fd) ReadAgain n (buf, d) st ∧ ¬ ReadAgain (readInto sys s.fd st).1 ∧
        out = ((recvVerdict s.enodevIsEof (readInto sys s.fd st).1, (readInto sys s.fd st).2.1),
          (readInto sys s.fd st).2.2) :=
  retry_returns (op := readInto sys s.fd) (fin := fun w => ((recvVerdict s.enodevIsEof w.1, w.2.1), w.2.2))
    (linux_recvStep_again sys s) (linux_recvStep_done sys s) (buf, d) out

theorem libc_recv_iff (sys : Sys δ) (s : DeviceSocket) (buf : Bytes) (t : Libc.Thread δ)
    (res : Except (RecvError Libc.LibcError) Nat) (buf' : Bytes) (d' : δ) :
    (∃ e, Libc.RecvReturns sys s buf t ((res, buf'), ⟨d', e⟩)) ↔
      ∃ n st, Tried (readInto sys s.fd) ReadAgain n (buf, t.sys) st ∧ ¬ ReadAgain (readInto sys s.fd st).1 ∧
        res = cRecvVerdict s.enodevIsEof (readInto sys s.fd st).1 ∧ (buf', d') = (readInto sys s.fd st).2 := by
  have key := fun out => retry_returns (fin := fun w => ((cRecvVerdict s.enodevIsEof w.1, w.2.1), w.2.2))
    (libc_recvStep_again sys s) (libc_recvStep_done sys s) (buf, t) out
  constructor
  · rintro ⟨e, h⟩
    obtain ⟨n, st, h1, h2, h3⟩ := (key _).1 h
    refine ⟨n, noErrno st, h1.map noErrno (cReadInto_sys sys s.fd), ?_, ?_, ?_⟩
    · rw [cReadInto_sys]; exact h2
    · rw [cReadInto_sys]
      simp only [Prod.mk.injEq] at h3
      exact h3.1.1
    · rw [cReadInto_sys]
      simp only [Prod.mk.injEq] at h3
      simp only [noErrno, ← h3.1.2, ← h3.2]
  · rintro ⟨n, st, h1, h2, h3, h4⟩
    obtain ⟨st', rfl, ht⟩ := Tried.lift noErrno (cReadInto_sys sys s.fd) (a := (buf, t)) h1
    rw [cReadInto_sys] at h2 h3 h4
    refine ⟨(cReadInto sys s.fd st').2.2.errno, (key _).2 ⟨n, st', ht, h2, ?_⟩⟩
    simp only [noErrno, Prod.mk.injEq] at h4
    rw [h3, h4.1, h4.2]

end Recv

/-! ## The properties -/

section Properties

variable {δ ε : Type}

/-- Sending `msg` to the device in state `d`.  `write` is the attempt to transfer the whole message.  Success means
that a write, after interrupted ones only, transferred exactly the whole message; `NotFound` that such a write
failed with `ENOENT`; any other count of bytes and any other error is reported as an error.  In each case the
system is in the state this last write left it in, so nothing is written after it. -/
structure SendSpec (write : δ → Except Errno Nat × δ) (len : Nat) (err : Errno → ε) (d : δ)
    (Returns : Except (SendError ε) Unit → δ → Prop) (Forever : Prop) : Prop where
  ok : ∀ d', Returns (.ok ()) d' ↔
    ∃ n d1, Tried write (· = .error EINTR) n d d1 ∧ write d1 = (.ok len, d')
  notFound : ∀ e d', Returns (.error (.notFound e)) d' ↔
    e = err ENOENT ∧ ∃ n d1, Tried write (· = .error EINTR) n d d1 ∧ write d1 = (.error ENOENT, d')
  other : ∀ e d', Returns (.error (.other e)) d' ↔
    ∃ n d1, Tried write (· = .error EINTR) n d d1 ∧
      ((e = err EIO ∧ ∃ k, k ≠ len ∧ write d1 = (.ok k, d')) ∨
        ∃ no, no ≠ EINTR ∧ no ≠ ENOENT ∧ e = err no ∧ write d1 = (.error no, d'))
  notTooBig : ∀ k d', ¬ Returns (.error (.replyTooBig k)) d'
  forever : Forever ↔ ∀ n, ∃ d1, Tried write (· = .error EINTR) n d d1

theorem SendSpec.of_iff {write : δ → Except Errno Nat × δ} {len : Nat} {err : Errno → ε} {d : δ}
    {Returns : Except (SendError ε) Unit → δ → Prop} {Forever : Prop}
    (h : ∀ res d', Returns res d' ↔ ∃ n d1, Tried write (· = .error EINTR) n d d1 ∧ ¬ (write d1).1 = .error EINTR ∧
      (res, d') = ((match (write d1).1 with
          | .ok k => if k = len then .ok () else .error (.other (err EIO))
          | .error e => .error (if e = ENOENT then .notFound (err e) else .other (err e))), (write d1).2))
    (hf : Forever ↔ ∀ n, ∃ d1, Tried write (· = .error EINTR) n d d1) : SendSpec write len err d Returns Forever := by
  refine ⟨fun d' => ?_, fun e d' => ?_, fun e d' => ?_, fun k d' => ?_, hf⟩
  · rw [h]
    constructor
    · rintro ⟨n, d1, h1, h2, h3⟩
      refine ⟨n, d1, h1, ?_⟩
      cases hw : write d1 with
      | mk w d2 =>
        rw [hw] at h3
        cases w with
        | ok k =>
          by_cases hk : k = len
          · simp only [hk, ↓reduceIte, Prod.mk.injEq] at h3
            rw [hk, h3.2]
          · simp [hk] at h3
        | error e => simp at h3
    · rintro ⟨n, d1, h1, h2⟩
      exact ⟨n, d1, h1, by rw [h2]; simp, by rw [h2]; simp⟩
  · rw [h]
    constructor
    · rintro ⟨n, d1, h1, h2, h3⟩
      cases hw : write d1 with
      | mk w d2 =>
        rw [hw] at h3
        cases w with
        | ok k =>
          by_cases hk : k = len
          · simp [hk] at h3
          · simp [hk] at h3
        | error e' =>
          by_cases he : e' = ENOENT
          · simp only [he, ↓reduceIte, Prod.mk.injEq, Except.error.injEq, SendError.notFound.injEq] at h3
            refine ⟨h3.1, n, d1, h1, ?_⟩
            rw [hw, he, h3.2]
          · simp [he] at h3
    · rintro ⟨rfl, n, d1, h1, h2⟩
      exact ⟨n, d1, h1, by rw [h2]; simp; decide, by rw [h2]; simp⟩
  · rw [h]
    constructor
    · rintro ⟨n, d1, h1, h2, h3⟩
      refine ⟨n, d1, h1, ?_⟩
      cases hw : write d1 with
      | mk w d2 =>
        rw [hw] at h3 h2
        cases w with
        | ok k =>
          by_cases hk : k = len
          · simp [hk] at h3
          · simp only [hk, ↓reduceIte, Prod.mk.injEq, Except.error.injEq, SendError.other.injEq] at h3
            exact Or.inl ⟨h3.1, k, hk, by rw [h3.2]⟩
        | error e' =>
          by_cases he : e' = ENOENT
          · simp [he] at h3
          · simp only [he, ↓reduceIte, Prod.mk.injEq, Except.error.injEq, SendError.other.injEq] at h3
            exact Or.inr ⟨e', fun hi => h2 (by rw [hi]), he, h3.1, by rw [h3.2]⟩
    · rintro ⟨n, d1, h1, ⟨rfl, k, hk, hw⟩ | ⟨no, hn1, hn2, rfl, hw⟩⟩
      · exact ⟨n, d1, h1, by rw [hw]; simp, by rw [hw]; simp [hk]⟩
      · exact ⟨n, d1, h1, by rw [hw]; simpa using hn1, by rw [hw]; simp [hn2]⟩
  · rw [h]
    rintro ⟨n, d1, h1, h2, h3⟩
    cases hw : write d1 with
    | mk w d2 =>
      rw [hw] at h3
      cases w with
      | ok k => by_cases hk : k = len <;> simp [hk] at h3
      | error e => by_cases he : e = ENOENT <;> simp [he] at h3

/-- `Socket::send` of fuse-linux: every message a reply sender builds (`Carries`) is written as a whole, in one
`writev` per attempt. -/
theorem C40_linux (sys : Sys δ) (s : DeviceSocket) (buf : SendBuf) (msg : Bytes) (hc : Carries buf msg) :
    ∃ chunks : List Bytes, chunks.flatten = msg ∧ ∀ d,
      SendSpec (sys.writev s.fd chunks) msg.length id d
        (fun res d' => Linux.SendReturns sys s buf d (res, d')) (Linux.SendForever sys s buf d) := by
  obtain ⟨cs, h1, _, h3⟩ := iovecs_of_carries hc
  obtain ⟨_, _, _, _, hlen⟩ := hc
  refine ⟨cs, h3, fun d => SendSpec.of_iff (fun res d' => ?_) ?_⟩
  · show (∃ v, _) ↔ _
    simp only [h1, Except.ok.injEq, exists_eq_left', hlen, linux_send_iff]
    rfl
  · show (∃ v, _) ↔ _
    simp only [h1, Except.ok.injEq, exists_eq_left', hlen, linux_send_forever]

/-- `Socket::send` of fuse-libc. -/
theorem C40_libc (sys : Sys δ) (s : DeviceSocket) (buf : SendBuf) (msg : Bytes) (hc : Carries buf msg)
    (hlen : msg.length < 2 ^ 63) :
    ∃ chunks : List Bytes, chunks.flatten = msg ∧ ∀ d errno,
      SendSpec (sys.writev s.fd chunks) msg.length (fun e => Libc.LibcError.mk (Int32.ofNat e.toNat)) d
        (fun res d' => ∃ errno', Libc.SendReturns sys s buf ⟨d, errno⟩ (res, ⟨d', errno'⟩))
        (Libc.SendForever sys s buf ⟨d, errno⟩) := by
  obtain ⟨cs, _, h1, h3⟩ := iovecs_of_carries hc
  obtain ⟨_, _, _, _, hl⟩ := hc
  refine ⟨cs, h3, fun d errno => SendSpec.of_iff (fun res d' => ?_) ?_⟩
  · show (∃ e v, _) ↔ _
    simp only [h1, Except.ok.injEq, exists_eq_left', hl]
    exact libc_send_iff sys s msg.length cs hlen ⟨d, errno⟩ res d'
  · show (∃ v, _) ↔ _
    simp only [h1, Except.ok.injEq, exists_eq_left', hl]
    exact libc_send_forever sys s msg.length cs hlen ⟨d, errno⟩

/-- Receiving into a buffer.  A read is tried again after `ENOENT` and `EINTR` only; after that the number of bytes
it yields is returned, `ENODEV` is a closed connection if the socket says so, any other error is returned as it
is. -/
structure RecvSpec (read : Bytes × δ → Except Errno Nat × (Bytes × δ)) (eof : Bool) (err : Errno → ε)
    (st : Bytes × δ) (Returns : Except (RecvError ε) Nat → Bytes × δ → Prop) (Forever : Prop) : Prop where
  ok : ∀ k st', Returns (.ok k) st' ↔
    ∃ n st1, Tried read (fun r => r = .error ENOENT ∨ r = .error EINTR) n st st1 ∧ read st1 = (.ok k, st')
  closed : ∀ e st', Returns (.error (.connectionClosed e)) st' ↔
    eof = true ∧ e = err ENODEV ∧ ∃ n st1,
      Tried read (fun r => r = .error ENOENT ∨ r = .error EINTR) n st st1 ∧ read st1 = (.error ENODEV, st')
  other : ∀ e st', Returns (.error (.other e)) st' ↔
    ∃ no, no ≠ ENOENT ∧ no ≠ EINTR ∧ ¬ (no = ENODEV ∧ eof = true) ∧ e = err no ∧ ∃ n st1,
      Tried read (fun r => r = .error ENOENT ∨ r = .error EINTR) n st st1 ∧ read st1 = (.error no, st')
  forever : Forever ↔ ∀ n, ∃ st1, Tried read (fun r => r = .error ENOENT ∨ r = .error EINTR) n st st1

theorem RecvSpec.of_iff {read : Bytes × δ → Except Errno Nat × (Bytes × δ)} {eof : Bool} {err : Errno → ε}
    {st : Bytes × δ} {Returns : Except (RecvError ε) Nat → Bytes × δ → Prop} {Forever : Prop}
    (h : ∀ res st', Returns res st' ↔ ∃ n st1, Tried read ReadAgain n st st1 ∧ ¬ ReadAgain (read st1).1 ∧
      res = (match (read st1).1 with
        | .ok k => .ok k
        | .error e => .error (if e = ENODEV ∧ eof = true then .connectionClosed (err e) else .other (err e))) ∧
      st' = (read st1).2)
    (hf : Forever ↔ ∀ n, ∃ st1, Tried read ReadAgain n st st1) :
    RecvSpec read eof err st Returns Forever := by
  refine ⟨fun k st' => ?_, fun e st' => ?_, fun e st' => ?_, hf⟩
  · rw [h]
    constructor
    · rintro ⟨n, st1, h1, h2, h3, h4⟩
      refine ⟨n, st1, h1, ?_⟩
      cases hr : read st1 with
      | mk r st2 =>
        rw [hr] at h3 h4
        cases r with
        | ok k' =>
          simp only [Except.ok.injEq] at h3
          rw [h3, h4]
        | error e => simp at h3
    · rintro ⟨n, st1, h1, h2⟩
      exact ⟨n, st1, h1, by rw [h2]; simp [ReadAgain], by rw [h2], by rw [h2]⟩
  · rw [h]
    constructor
    · rintro ⟨n, st1, h1, h2, h3, h4⟩
      cases hr : read st1 with
      | mk r st2 =>
        rw [hr] at h3 h4
        cases r with
        | ok k' => simp at h3
        | error e' =>
          by_cases he : e' = ENODEV ∧ eof = true
          · simp only [he, and_self, ↓reduceIte, Except.error.injEq, RecvError.connectionClosed.injEq] at h3
            exact ⟨he.2, h3, n, st1, h1, by rw [hr, he.1, h4]⟩
          · simp [he] at h3
    · rintro ⟨he, rfl, n, st1, h1, h2⟩
      exact ⟨n, st1, h1, by rw [h2]; simp [ReadAgain]; decide, by rw [h2]; simp [he], by rw [h2]⟩
  · rw [h]
    constructor
    · rintro ⟨n, st1, h1, h2, h3, h4⟩
      cases hr : read st1 with
      | mk r st2 =>
        rw [hr] at h2 h3 h4
        cases r with
        | ok k' => simp at h3
        | error e' =>
          by_cases he : e' = ENODEV ∧ eof = true
          · simp [he] at h3
          · simp only [he, ↓reduceIte, Except.error.injEq, RecvError.other.injEq] at h3
            exact ⟨e', fun hi => h2 (Or.inl (by rw [hi])), fun hi => h2 (Or.inr (by rw [hi])), he, h3, n, st1, h1,
              by rw [hr, h4]⟩
    · rintro ⟨no, h5, h6, h7, rfl, n, st1, h1, h2⟩
      refine ⟨n, st1, h1, ?_, by rw [h2]; simp [h7], by rw [h2]⟩
      rw [h2]
      simpa [ReadAgain] using ⟨h5, h6⟩

/-- `Socket::recv` of fuse-linux; `readInto` is one `read` of the whole buffer. -/
theorem C41_linux (sys : Sys δ) (s : DeviceSocket) (buf : Bytes) (d : δ) :
    RecvSpec (readInto sys s.fd) s.enodevIsEof id (buf, d)
      (fun res st => Linux.RecvReturns sys s buf d ((res, st.1), st.2)) (Linux.RecvForever sys s buf d) := by
  refine RecvSpec.of_iff (fun res st' => ?_) ?_
  · rw [linux_recv_iff]
    constructor
    · rintro ⟨n, st1, h1, h2, h3⟩
      simp only [Prod.mk.injEq] at h3
      refine ⟨n, st1, h1, h2, ?_, Prod.ext h3.1.2 h3.2⟩
      rw [h3.1.1]
      cases (readInto sys s.fd st1).1 <;> rfl
    · rintro ⟨n, st1, h1, h2, h3, h4⟩
      refine ⟨n, st1, h1, h2, ?_⟩
      rw [h3, h4]
      cases (readInto sys s.fd st1).1 <;> rfl
  · exact retry_forever (linux_recvStep_again sys s) (fin := fun w => ((recvVerdict s.enodevIsEof w.1, w.2.1), w.2.2))
      (linux_recvStep_done sys s) (buf, d)

/-- `Socket::recv` of fuse-libc. -/
theorem C41_libc (sys : Sys δ) (s : DeviceSocket) (buf : Bytes) (d : δ) (errno : Int32) :
    RecvSpec (readInto sys s.fd) s.enodevIsEof (fun e => Libc.LibcError.mk (Int32.ofNat e.toNat)) (buf, d)
      (fun res st => ∃ errno', Libc.RecvReturns sys s buf ⟨d, errno⟩ ((res, st.1), ⟨st.2, errno'⟩))
      (Libc.RecvForever sys s buf ⟨d, errno⟩) := by
  refine RecvSpec.of_iff (fun res st' => ?_) ?_
  · rw [libc_recv_iff]
    constructor
    · rintro ⟨n, st1, h1, h2, h3, h4⟩
      refine ⟨n, st1, h1, h2, ?_, h4⟩
      rw [h3]
      cases (readInto sys s.fd st1).1 <;> rfl
    · rintro ⟨n, st1, h1, h2, h3, h4⟩
      refine ⟨n, st1, h1, h2, ?_, h4⟩
      rw [h3]
      cases (readInto sys s.fd st1).1 <;> rfl
  · refine (retry_forever (libc_recvStep_again sys s)
      (fin := fun w => ((cRecvVerdict s.enodevIsEof w.1, w.2.1), w.2.2))
      (libc_recvStep_done sys s) (buf, ⟨d, errno⟩)).trans ?_
    constructor
    · intro h n
      obtain ⟨st, ht⟩ := h n
      exact ⟨noErrno st, ht.map noErrno (cReadInto_sys sys s.fd)⟩
    · intro h n
      obtain ⟨st, ht⟩ := h n
      obtain ⟨c, _, hc⟩ := Tried.lift noErrno (cReadInto_sys sys s.fd) (a := (buf, ⟨d, errno⟩)) ht
      exact ⟨c, hc⟩

/-- Receiving does not change the length of the buffer, and reports at most that many bytes. -/
theorem C41_bounds (sys : Sys δ) (s : DeviceSocket) (buf : Bytes) (d : δ)
    (out : (Except (RecvError Errno) Nat × Bytes) × δ) (h : Linux.RecvReturns sys s buf d out) :
    out.1.2.length = buf.length ∧ ∀ k, out.1.1 = .ok k → k ≤ buf.length := by
  obtain ⟨n, st, h1, h2, rfl⟩ := (linux_recv_iff sys s buf d out).1 h
  have keep : ∀ st : Bytes × δ, (readInto sys s.fd st).2.1.length = st.1.length := by
    intro st
    have := sys.read_fits s.fd st.1.length st.2
    simp only [readInto, List.length_append, List.length_drop]
    omega
  have hl : st.1.length = buf.length := by
    generalize hx : (buf, d) = x at h1
    have : buf.length = x.1.length := by rw [← hx]
    rw [this]
    clear hx this h2 h
    induction h1 with
    | none a => rfl
    | more h1 _ ih => rw [ih, keep]
  refine ⟨by rw [← hl]; exact keep st, fun k hk => ?_⟩
  rw [← hl]
  refine sys.read_count s.fd st.1.length st.2 k ?_
  cases hr : (sys.read s.fd st.1.length st.2).1.1 with
  | ok k' =>
    simp only [readInto, hr, recvVerdict, Except.ok.injEq] at hk
    rw [hk]
  | error e => simp [readInto, hr, recvVerdict] at hk

/-- Sockets of the FUSE device report a closed connection for `ENODEV`, however they are made. -/
theorem C41_fuse (sys : Sys δ) (path : CName) (d : δ) (t : Libc.Thread δ) (fd : Int32) :
    (∀ s, (Linux.fuseOpen sys path d).1 = .ok s → s.enodevIsEof = true) ∧
    (∀ s, (Libc.fuseOpen sys path t).1 = .ok s → s.enodevIsEof = true) ∧
    (Linux.fuseFromRawFd fd).enodevIsEof = true ∧ (Libc.fuseFromRawFd fd).enodevIsEof = true := by
  refine ⟨fun s hs => ?_, fun s hs => ?_, rfl, rfl⟩
  · unfold Linux.fuseOpen at hs
    cases h : (Linux.sysOpen sys path Linux.openFlags 0 d).1 with
    | ok fd => simp only [h, Except.ok.injEq] at hs; rw [← hs]
    | error e => simp [h] at hs
  · unfold Libc.fuseOpen at hs
    by_cases h : (Libc.cOpen sys path Libc.openFlags t).1 = -1
    · simp [h] at hs
    · simp only [h, ↓reduceIte, Except.ok.injEq] at hs; rw [← hs]

/-- Sockets of the CUSE device disagree: opened by path `ENODEV` is an ordinary error, as documented at
`check_recv_err`; made from a descriptor it is a closed connection. -/
theorem C41_cuse (sys : Sys δ) (path : CName) (d : δ) (t : Libc.Thread δ) (fd : Int32) :
    (∀ s, (Linux.cuseOpen sys path d).1 = .ok s → s.enodevIsEof = false) ∧
    (∀ s, (Libc.cuseOpen sys path t).1 = .ok s → s.enodevIsEof = false) ∧
    (Linux.cuseFromRawFd fd).enodevIsEof = true ∧ (Libc.cuseFromRawFd fd).enodevIsEof = true := by
  refine ⟨fun s hs => ?_, fun s hs => ?_, rfl, rfl⟩
  · unfold Linux.cuseOpen at hs
    cases h : (Linux.sysOpen sys path Linux.openFlags 0 d).1 with
    | ok fd => simp only [h, Except.ok.injEq] at hs; rw [← hs]
    | error e => simp [h] at hs
  · unfold Libc.cuseOpen at hs
    by_cases h : (Libc.cOpen sys path Libc.openFlags t).1 = -1
    · simp [h] at hs
    · simp only [h, ↓reduceIte, Except.ok.injEq] at hs; rw [← hs]

/-- Where the kernel does not interrupt one call forever, a device socket is a `Socket` in the sense of the server
model: the theorems on servers apply to servers on device sockets. -/
theorem C41_socket (sys : Sys δ) (s : DeviceSocket)
    (hr : ∀ buf d, ¬ ∀ n, ∃ st, Tried (readInto sys s.fd) (fun r => r = .error ENOENT ∨ r = .error EINTR) n (buf, d) st)
    (hw : ∀ cs d, ¬ ∀ n, ∃ d1, Tried (sys.writev s.fd cs) (· = .error EINTR) n d d1) :
    ∃ sock : Socket δ Errno,
      (∀ buf d, Linux.RecvReturns sys s buf d (sock.recv buf d)) ∧
      (∀ buf msg d, Carries buf msg → Linux.SendReturns sys s buf d (sock.send buf d)) := by
  have hrecv : ∀ buf d, ∃ out, Linux.RecvReturns sys s buf d out := by
    intro buf d
    rcases returns_or_forever (step := Linux.recvStep sys s) (buf, d) with h | h
    · exact h
    · exact absurd ((C41_linux sys s buf d).forever.1 h) (hr buf d)
  have hsend : ∀ buf d, ∃ out, (∃ msg, Carries buf msg) → Linux.SendReturns sys s buf d out := by
    intro buf d
    by_cases hc : ∃ msg, Carries buf msg
    · obtain ⟨msg, hc⟩ := hc
      obtain ⟨cs, h1, _, h3⟩ := iovecs_of_carries hc
      rcases returns_or_forever (step := Linux.sendStep sys s buf.len cs) d with ⟨out, h⟩ | h
      · exact ⟨out, fun _ => ⟨cs, h1, h⟩⟩
      · exact absurd ((linux_send_forever sys s buf.len cs d).1 h) (hw cs d)
    · exact ⟨(.ok (), d), fun h => absurd h hc⟩
  refine ⟨{ recv := fun buf d => Classical.choose (hrecv buf d)
            recv_length := fun buf d => (C41_bounds sys s buf d _ (Classical.choose_spec (hrecv buf d))).1
            send := fun buf d => Classical.choose (hsend buf d) }, fun buf d => Classical.choose_spec (hrecv buf d),
    fun buf msg d hc => Classical.choose_spec (hsend buf d) ⟨msg, hc⟩⟩

/-! ### Examples -/

/-- A device that is interrupted `n` times, then accepts `accept` bytes per write; it counts calls. -/
def exampleSys (n accept : Nat) : Sys Nat where
  read := fun _ _ d => ((if d < n then .error ENOENT else .error ENODEV, []), d + 1)
  read_fits := by intros; simp
  read_count := by
    intro fd len d k h
    by_cases hd : d < n <;> simp [hd] at h
  writev := fun _ _ d => (if d < n then .error EINTR else .ok accept, d + 1)
  openat2 := fun _ _ _ d => (.error ENOSYS, d)
  openat2_fd := by intro _ _ _ _ _ h; cases h
  openat := fun _ _ _ d => (.ok 3, d)
  openat_fd := by intro _ _ _ _ _ h; cases h; decide
  close := fun _ d => (.ok (), d)
  statx := fun _ d => (.ok 0o40755, d)
  getuid := fun d => (1000, d)
  getgid := fun d => (1000, d)
  mount := fun _ _ _ _ _ d => (.ok (), d)
  nmount := fun _ _ d => (.ok (), d)

/-- Two interruptions, then the three bytes are taken: three writes. -/
example : Linux.SendReturns (exampleSys 2 3) ⟨3, true⟩ (.new2 3 [1] [2, 3]) 0 (.ok (), 3) :=
  ⟨[[1], [2, 3]], rfl, 3, rfl⟩

/-- A short write is an error, and is not repeated. -/
example : Linux.SendReturns (exampleSys 2 2) ⟨3, true⟩ (.new2 3 [1] [2, 3]) 0 (.error (.other EIO), 3) :=
  ⟨[[1], [2, 3]], rfl, 3, rfl⟩

/-- The end of the connection, after two interrupted requests; for a CUSE device it is an error. -/
example : Linux.RecvReturns (exampleSys 2 0) ⟨3, true⟩ [0, 0] 0 ((.error (.connectionClosed ENODEV), [0, 0]), 3) :=
  ⟨3, rfl⟩

example : Linux.RecvReturns (exampleSys 2 0) ⟨3, false⟩ [0, 0] 0 ((.error (.other ENODEV), [0, 0]), 3) :=
  ⟨3, rfl⟩

end Properties

end Fuse
