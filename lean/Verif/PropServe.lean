import Verif.Dispatch
import Verif.PropSession

/-!
# Serving requests: C24 and C25
-/

namespace Fuse
open Spec

variable {σ ε : Type}

/-! ## C25: dispatch by opcode -/

/-- The handler of each request code of the FUSE protocol (`enum fuse_opcode` of the Linux header
`fuse.h`, 7.36).  `INIT` (26), `NOTIFY_REPLY` (41), `SETUPMAPPING` (48), `REMOVEMAPPING` (49) and
`CUSE_INIT` (4096) have none. -/
def fuseMethodAt : Nat → Option FuseMethod
  | 1 => some .lookup | 2 => some .forget | 3 => some .getattr | 4 => some .setattr
  | 5 => some .readlink | 6 => some .symlink | 8 => some .mknod | 9 => some .mkdir
  | 10 => some .unlink | 11 => some .rmdir | 12 => some .rename | 13 => some .link
  | 14 => some .open_ | 15 => some .read | 16 => some .write | 17 => some .statfs
  | 18 => some .release | 20 => some .fsync | 21 => some .setxattr | 22 => some .getxattr
  | 23 => some .listxattr | 24 => some .removexattr | 25 => some .flush | 27 => some .opendir
  | 28 => some .readdir | 29 => some .releasedir | 30 => some .fsyncdir | 31 => some .getlk
  | 32 => some .setlk | 33 => some .setlkw | 34 => some .access | 35 => some .create
  | 36 => some .interrupt | 37 => some .bmap | 38 => some .destroy | 39 => some .ioctl
  | 40 => some .poll | 42 => some .batchForget | 43 => some .fallocate | 44 => some .readdirplus
  | 45 => some .rename2 | 46 => some .lseek | 47 => some .copyFileRange | 50 => some .syncfs
  | _ => none

/-- The request codes a character device in userspace receives. -/
def cuseMethodAt : Nat → Option CuseMethod
  | 14 => some .open_ | 15 => some .read | 16 => some .write | 18 => some .release
  | 20 => some .fsync | 25 => some .flush | 36 => some .interrupt | 39 => some .ioctl
  | 40 => some .poll
  | _ => none

/-- What handling the request in `msg` does to the world. -/
def fuseHandle (h : Handlers FuseMethod σ) (msg : Bytes) (s : σ) : σ :=
  match fuseMethodAt (u32At msg 4) with
  | none => h.unimplemented ⟨msg⟩ s
  | some m =>
    match h.overridden m with
    | some f => f ⟨msg⟩ s
    | none => if m = .forget ∨ m = .batchForget ∨ m = .interrupt then s else h.unimplemented ⟨msg⟩ s

/-- See `fuseHandle`. -/
def cuseHandle (h : Handlers CuseMethod σ) (msg : Bytes) (s : σ) : σ :=
  match cuseMethodAt (u32At msg 4) with
  | none => h.unimplemented ⟨msg⟩ s
  | some m =>
    match h.overridden m with
    | some f => f ⟨msg⟩ s
    | none => if m = .interrupt then s else h.unimplemented ⟨msg⟩ s

theorem eq_ofNat_u32 {x : UInt32} {n : Nat} (h : x.toNat = n) : x = UInt32.ofNat n := by
  rw [← h, UInt32.ofNat_toNat]

theorem ite_eq_of {α : Type} {c : Prop} [Decidable c] {a b x : α} (h1 : c → a = x) (h2 : ¬ c → b = x) :
    (if c then a else b) = x := by
  by_cases h : c
  · rw [if_pos h, h1 h]
  · rw [if_neg h, h2 h]

theorem fuseSelect_eq (h : Handlers FuseMethod σ) (op : UInt32) :
    fuseSelect h op = match fuseMethodAt op.toNat with
      | none => h.unimplemented
      | some m => fuseCall h m := by
  unfold fuseSelect
  repeat refine ite_eq_of (fun h => by subst h; rfl) (fun _ => ?_)
  have key : fuseMethodAt op.toNat = none := by
    unfold fuseMethodAt
    split <;> first
      | rfl
      | (rename_i he; exact absurd (eq_ofNat_u32 he) (by assumption))
  rw [key]

theorem cuseSelect_eq (h : Handlers CuseMethod σ) (op : UInt32) :
    cuseSelect h op = match cuseMethodAt op.toNat with
      | none => h.unimplemented
      | some m => cuseCall h m := by
  unfold cuseSelect
  repeat refine ite_eq_of (fun h => by subst h; rfl) (fun _ => ?_)
  have key : cuseMethodAt op.toNat = none := by
    unfold cuseMethodAt
    split <;> first
      | rfl
      | (rename_i he; exact absurd (eq_ofNat_u32 he) (by assumption))
  rw [key]

/-- **C25**: dispatching an accepted message runs exactly one handler, once, on that message: the method of the
message's opcode if overridden, else `unimplemented`; only the defaults for `FORGET`, `BATCH_FORGET` and
`INTERRUPT` do nothing.  A handler is any function on the world. -/
theorem C25_fuse (h : Handlers FuseMethod σ) (msg : Bytes) (r : Request) (hr : Request.new msg = .ok r) (s : σ) :
    fuseDispatch h r s = .ok (fuseHandle h msg s) := by
  have ha := (C02_accepted_iff msg).mp ⟨r, hr⟩
  rw [Request.new_eq, if_neg (by omega), if_neg ha.2.1, if_neg (by omega)] at hr
  cases hr
  have hf := (hdr_fields ha.1).2.1
  simp only [fuseDispatch, Request.rawHeader, size_fuse_in_header, if_pos ha.1]
  show Except.ok (fuseSelect h (dec (List.take 40 msg) : FuseInHeader).opcode ⟨msg⟩ s) = _
  rw [fuseSelect_eq, hf]
  unfold fuseHandle fuseCall
  congr 1
  cases fuseMethodAt (u32At msg 4) with
  | none => rfl
  | some m =>
    cases ho : h.overridden m with
    | some f => simp only [ho]
    | none => simp only [ho]; cases m <;> simp [fuseDefault]

/-- **C25** for CUSE. -/
theorem C25_cuse (h : Handlers CuseMethod σ) (msg : Bytes) (r : Request) (hr : Request.new msg = .ok r) (s : σ) :
    cuseDispatch h r s = .ok (cuseHandle h msg s) := by
  have ha := (C02_accepted_iff msg).mp ⟨r, hr⟩
  rw [Request.new_eq, if_neg (by omega), if_neg ha.2.1, if_neg (by omega)] at hr
  cases hr
  have hf := (hdr_fields ha.1).2.1
  simp only [cuseDispatch, Request.rawHeader, size_fuse_in_header, if_pos ha.1]
  show Except.ok (cuseSelect h (dec (List.take 40 msg) : FuseInHeader).opcode ⟨msg⟩ s) = _
  rw [cuseSelect_eq, hf]
  unfold cuseHandle cuseCall
  congr 1
  cases cuseMethodAt (u32At msg 4) with
  | none => rfl
  | some m =>
    cases ho : h.overridden m with
    | some f => simp only [ho]
    | none => simp only [ho]; cases m <;> simp [cuseDefault]

/-- Handlers that override the methods `on` and log every call: which method (`none` for
`unimplemented`) with which message. -/
def logging {M : Type} (on : M → Bool) : Handlers M (List (Option M × Bytes)) where
  unimplemented r s := s ++ [(none, r.mem)]
  overridden m := if on m then some fun r s => s ++ [(some m, r.mem)] else none

/-- **C25**, read off a log: for every set of overridden methods, dispatch adds one line for the method of
the opcode, or for `unimplemented`, and no line only for the three ignored defaults. -/
theorem C25_fuse_log (on : FuseMethod → Bool) (msg : Bytes) (r : Request) (hr : Request.new msg = .ok r)
    (log : List (Option FuseMethod × Bytes)) :
    fuseDispatch (logging on) r log = .ok (log ++
      match fuseMethodAt (u32At msg 4) with
      | none => [(none, msg)]
      | some m =>
        if on m then [(some m, msg)]
        else if m = .forget ∨ m = .batchForget ∨ m = .interrupt then [] else [(none, msg)]) := by
  rw [C25_fuse _ _ _ hr]
  congr 1
  unfold fuseHandle logging
  cases fuseMethodAt (u32At msg 4) with
  | none => rfl
  | some m =>
    by_cases ho : on m = true
    · simp only [ho, ↓reduceIte]
    · by_cases hm : m = .forget ∨ m = .batchForget ∨ m = .interrupt
      · simp only [ho, hm, ↓reduceIte, Bool.false_eq_true, List.append_nil]
      · simp only [ho, hm, ↓reduceIte, Bool.false_eq_true]

/-- The methods whose documentation promises requests of type `t`. -/
def ReqType.methods : ReqType → List FuseMethod
  | .access => [.access]
  | .bmap => [.bmap]
  | .copyFileRange => [.copyFileRange]
  | .fallocate => [.fallocate]
  | .forget _ => [.forget, .batchForget]
  | .fsyncdir => [.fsyncdir]
  | .getlk => [.getlk]
  | .getxattr => [.getxattr]
  | .interrupt => [.interrupt]
  | .link => [.link]
  | .listxattr => [.listxattr]
  | .lookup => [.lookup]
  | .lseek => [.lseek]
  | .mkdir => [.mkdir]
  | .opendir => [.opendir]
  | .poll => [.poll]
  | .readlink => [.readlink]
  | .removexattr => [.removexattr]
  | .rename => [.rename, .rename2]
  | .rmdir => [.rmdir]
  | .setattr => [.setattr]
  | .setlk => [.setlk, .setlkw]
  | .statfs => [.statfs]
  | .symlink => [.symlink]
  | .unlink => [.unlink]
  | .fuseInit => []
  | .cuseInit => []
  | .create _ => [.create]
  | .getattr _ => [.getattr]
  | .mknod _ => [.mknod]
  | .readdir _ => [.readdir]
  | .readdirplus _ => [.readdirplus]
  | .releasedir _ => [.releasedir]
  | .setxattr _ => [.setxattr]
  | .flush _ => [.flush]
  | .fsync _ => [.fsync]
  | .ioctl _ => [.ioctl]
  | .open_ _ => [.open_]
  | .read _ _ => [.read]
  | .release _ _ => [.release]
  | .write _ _ => [.write]

/-- **C25** and decoding fit together: a message that decodes as type `t` is dispatched to a method meant for
`t` (no method handles `INIT`), if the server overrides it. -/
theorem C25_decodable (t : ReqType) (msg : Bytes) (a : AnyRequest) (h : decodeMessage t msg = .ok a) :
    (t = .fuseInit ∨ t = .cuseInit ∨ ∃ m ∈ t.methods, fuseMethodAt (u32At msg 4) = some m) ∧
    ∃ r, Request.new msg = .ok r := by
  rcases decodeMessage_cases t msg with ⟨e, _, h1⟩ | ⟨hn, h40, _, _, hok, hd⟩
  · rw [h1] at h; cases h
  · refine ⟨?_, _, hn⟩
    have hm : (dec (msg.take 40) : FuseInHeader).opcode ∈ t.opcodes := by
      apply Classical.byContradiction
      intro hno
      rw [hd, wrong_opcode hok hno] at h
      cases h
    rw [← (hdr_fields h40).2.1]
    generalize (dec (msg.take 40) : FuseInHeader).opcode = op at hm ⊢
    cases t <;> simp only [ReqType.opcodes, List.mem_cons, List.not_mem_nil, or_false] at hm
    all_goals first
      | exact Or.inl rfl
      | exact Or.inr (Or.inl rfl)
      | (refine Or.inr (Or.inr ?_)
         rcases hm with rfl | rfl
         · exact ⟨_, List.mem_cons_self, rfl⟩
         · exact ⟨_, List.mem_cons_of_mem _ List.mem_cons_self, rfl⟩)
      | (subst hm; exact Or.inr (Or.inr ⟨_, List.mem_cons_self, rfl⟩))

/-- Lookup, handled; lookup, not handled; forget, ignored; opcode 77, unknown. -/
example : fuseDispatch (logging fun m => m = .lookup) ⟨exampleLookup⟩ [] = .ok [(some .lookup, exampleLookup)] ∧
    fuseDispatch (logging fun _ => false) ⟨exampleLookup⟩ [] = .ok [(none, exampleLookup)] := by
  have hr : Request.new exampleLookup = .ok ⟨exampleLookup⟩ := by decide
  exact ⟨(C25_fuse_log _ _ _ hr _).trans (by decide), (C25_fuse_log _ _ _ hr _).trans (by decide)⟩

/-- A `FORGET` of one node. -/
def exampleForget : Bytes := le32 48 ++ le32 2 ++ le64 7 ++ le64 1 ++ le64 0 ++ le64 0 ++ le64 1
/-- A message with an opcode unknown to the library. -/
def exampleUnknown : Bytes := le32 40 ++ le32 77 ++ le64 8 ++ le64 1 ++ le64 0 ++ le64 0

example : fuseDispatch (logging fun _ => false) ⟨exampleForget⟩ [] = .ok [] ∧
    fuseDispatch (logging fun _ => true) ⟨exampleUnknown⟩ [] = .ok [(none, exampleUnknown)] :=
  ⟨(C25_fuse_log _ exampleForget _ (by decide) _).trans (by decide),
   (C25_fuse_log _ exampleUnknown _ (by decide) _).trans (by decide)⟩

/-! ## C24: the serve loop -/

/-- The messages the library accepts (compare `C02_accepted_iff`). -/
def Acceptable (msg : Bytes) : Prop := 40 ≤ msg.length ∧ u64At msg 8 ≠ 0 ∧ u32At msg 0 ≤ msg.length

instance (msg : Bytes) : Decidable (Acceptable msg) := inferInstanceAs (Decidable (_ ∧ _))

/-- From the first state, a server that receives into a buffer received the messages `msgs`, all
acceptable, one after the other, and handled each as soon as it was received, before receiving the next;
this led to the second state. -/
inductive Served (sock : Socket σ ε) (handle : Bytes → σ → σ) : List Bytes → Bytes × σ → Bytes × σ → Prop
  | none (st) : Served sock handle [] st st
  | more {buf s n b s1 msgs st} : sock.recv buf s = ((.ok n, b), s1) → Acceptable (b.take n) →
      Served sock handle msgs (b, handle (b.take n) s1) st →
      Served sock handle (b.take n :: msgs) (buf, s) st

/-- Why and how serving stops: the connection is closed, or receiving fails otherwise, or the message
received is not acceptable. -/
inductive FuseStops : Except (RecvError ε) Nat → Bytes → Outcome ε Unit → Prop
  | closed (e b) : FuseStops (.error (.connectionClosed e)) b (.ok ())
  | failed (e b) : FuseStops (.error (.other e)) b (.err (.recv (.other e)))
  | noId {n b} : 40 ≤ (b.take n).length → u64At (b.take n) 8 = 0 →
      FuseStops (.ok n) b (.err (.request .invalidRequestId))
  | short {n b} : (b.take n).length < 40 ∨ u64At (b.take n) 8 ≠ 0 ∧ (b.take n).length < u32At (b.take n) 0 →
      FuseStops (.ok n) b (.err (.request .unexpectedEof))

/-- See `FuseStops`; a CUSE server takes the closing of its connection for an error. -/
inductive CuseStops : Except (RecvError ε) Nat → Bytes → Outcome ε Unit → Prop
  | failed (e b) : CuseStops (.error e) b (.err (.recv e))
  | noId {n b} : 40 ≤ (b.take n).length → u64At (b.take n) 8 = 0 →
      CuseStops (.ok n) b (.err (.request .invalidRequestId))
  | short {n b} : (b.take n).length < 40 ∨ u64At (b.take n) 8 ≠ 0 ∧ (b.take n).length < u32At (b.take n) 0 →
      CuseStops (.ok n) b (.err (.request .unexpectedEof))

theorem acceptable_new {msg : Bytes} (h : Acceptable msg) : Request.new msg = .ok ⟨msg⟩ := by
  rw [Request.new_eq, if_neg (by have := h.1; omega), if_neg h.2.1, if_neg (by have := h.2.2; omega)]

theorem unacceptable_new {msg : Bytes} (h : ¬ Acceptable msg) : ∃ e, Request.new msg = .error e ∧
    ((e = .unexpectedEof ∧ (msg.length < 40 ∨ (u64At msg 8 ≠ 0 ∧ msg.length < u32At msg 0))) ∨
      (e = .invalidRequestId ∧ 40 ≤ msg.length ∧ u64At msg 8 = 0)) := by
  cases hn : Request.new msg with
  | ok r => exact absurd ((C02_accepted_iff msg).mp ⟨r, hn⟩) h
  | error e => exact ⟨e, rfl, (C02_error msg e).mp hn⟩

section
variable (sock : Socket σ ε)

theorem fuse_serve_more (h : Handlers FuseMethod σ) {buf s n b s1} (hr : sock.recv buf s = ((.ok n, b), s1))
    (ha : Acceptable (b.take n)) :
    fuseServeStep sock h (buf, s) = .inr (b, fuseHandle h (b.take n) s1) := by
  simp only [fuseServeStep, fuseRecv, hr, truncateSlice_eq, acceptable_new ha,
    C25_fuse h _ _ (acceptable_new ha)]

theorem fuse_serve_stop (h : Handlers FuseMethod σ) {buf s r b s1} (hr : sock.recv buf s = ((r, b), s1))
    (ha : ∀ n, r = .ok n → ¬ Acceptable (b.take n)) :
    ∃ out, FuseStops r b out ∧ fuseServeStep sock h (buf, s) = .inl (out, s1) := by
  cases r with
  | error e =>
    cases e with
    | connectionClosed e => exact ⟨_, .closed e b, by simp only [fuseServeStep, fuseRecv, hr]⟩
    | other e => exact ⟨_, .failed e b, by simp only [fuseServeStep, fuseRecv, hr]⟩
  | ok n =>
    obtain ⟨e, he, hc⟩ := unacceptable_new (ha n rfl)
    refine ⟨.err (.request e), ?_, by simp only [fuseServeStep, fuseRecv, hr, truncateSlice_eq, he]⟩
    rcases hc with ⟨rfl, hc⟩ | ⟨rfl, h1, h2⟩
    · exact .short hc
    · exact .noId h1 h2

theorem cuse_serve_more (h : Handlers CuseMethod σ) {buf s n b s1} (hr : sock.recv buf s = ((.ok n, b), s1))
    (ha : Acceptable (b.take n)) :
    cuseServeStep sock h (buf, s) = .inr (b, cuseHandle h (b.take n) s1) := by
  simp only [cuseServeStep, cuseRecv, hr, truncateSlice_eq, acceptable_new ha,
    C25_cuse h _ _ (acceptable_new ha)]

theorem cuse_serve_stop (h : Handlers CuseMethod σ) {buf s r b s1} (hr : sock.recv buf s = ((r, b), s1))
    (ha : ∀ n, r = .ok n → ¬ Acceptable (b.take n)) :
    ∃ out, CuseStops r b out ∧ cuseServeStep sock h (buf, s) = .inl (out, s1) := by
  cases r with
  | error e => exact ⟨_, .failed e b, by simp only [cuseServeStep, cuseRecv, hr]⟩
  | ok n =>
    obtain ⟨e, he, hc⟩ := unacceptable_new (ha n rfl)
    refine ⟨.err (.request e), ?_, by simp only [cuseServeStep, cuseRecv, hr, truncateSlice_eq, he]⟩
    rcases hc with ⟨rfl, hc⟩ | ⟨rfl, h1, h2⟩
    · exact .short hc
    · exact .noId h1 h2

theorem FuseStops.not_acceptable {r : Except (RecvError ε) Nat} {b : Bytes} {out : Outcome ε Unit}
    (h : FuseStops r b out) : ∀ n, r = .ok n → ¬ Acceptable (b.take n) := by
  intro n hn ⟨h1, h2, h3⟩
  cases h <;> cases hn
  · omega
  · omega

theorem CuseStops.not_acceptable {r : Except (RecvError ε) Nat} {b : Bytes} {out : Outcome ε Unit}
    (h : CuseStops r b out) : ∀ n, r = .ok n → ¬ Acceptable (b.take n) := by
  intro n hn ⟨h1, h2, h3⟩
  cases h <;> cases hn
  · omega
  · omega

theorem FuseStops.unique {r : Except (RecvError ε) Nat} {b : Bytes} {o o' : Outcome ε Unit}
    (h : FuseStops r b o) (h' : FuseStops r b o') : o = o' := by
  cases h <;> cases h' <;> first | rfl | omega

theorem CuseStops.unique {r : Except (RecvError ε) Nat} {b : Bytes} {o o' : Outcome ε Unit}
    (h : CuseStops r b o) (h' : CuseStops r b o') : o = o' := by
  cases h <;> cases h' <;> first | rfl | omega

/-- What the two serve loops have in common. -/
structure LoopServes (handle : Bytes → σ → σ) (step : Bytes × σ → (Outcome ε Unit × σ) ⊕ (Bytes × σ))
    (Stops : Except (RecvError ε) Nat → Bytes → Outcome ε Unit → Prop) : Prop where
  more : ∀ {buf s n b s1}, sock.recv buf s = ((.ok n, b), s1) → Acceptable (b.take n) →
    step (buf, s) = .inr (b, handle (b.take n) s1)
  stop : ∀ {buf s r b s1}, sock.recv buf s = ((r, b), s1) → (∀ n, r = .ok n → ¬ Acceptable (b.take n)) →
    ∃ out, Stops r b out ∧ step (buf, s) = .inl (out, s1)
  no : ∀ {r b out}, Stops r b out → ∀ n, r = .ok n → ¬ Acceptable (b.take n)
  unique : ∀ {r b o o'}, Stops r b o → Stops r b o' → o = o'

variable {sock} {handle : Bytes → σ → σ} {step : Bytes × σ → (Outcome ε Unit × σ) ⊕ (Bytes × σ)}
  {Stops : Except (RecvError ε) Nat → Bytes → Outcome ε Unit → Prop}

theorem LoopServes.iterate_served (L : LoopServes sock handle step Stops) {msgs st st'}
    (h : Served sock handle msgs st st') : iterate step msgs.length st = .inr st' := by
  induction h with
  | none => rfl
  | more hr ha _ ih => simp only [List.length_cons, iterate, L.more hr ha]; exact ih

theorem LoopServes.served_of_iterate (L : LoopServes sock handle step Stops) (n : Nat) {st st'}
    (h : iterate step n st = .inr st') : ∃ msgs, msgs.length = n ∧ Served sock handle msgs st st' := by
  induction n generalizing st with
  | zero => cases h; exact ⟨[], rfl, .none _⟩
  | succ n ih =>
    obtain ⟨buf, s⟩ := st
    rcases hr : sock.recv buf s with ⟨⟨r, b⟩, s1⟩
    by_cases hs : ∃ n, r = .ok n ∧ Acceptable (b.take n)
    · obtain ⟨n, rfl, ha⟩ := hs
      simp only [iterate, L.more hr ha] at h
      obtain ⟨msgs, h1, h2⟩ := ih h
      exact ⟨_ :: msgs, by rw [List.length_cons, h1], .more hr ha h2⟩
    · obtain ⟨out, _, h1⟩ := L.stop hr (fun n hn ha => hs ⟨n, hn, ha⟩)
      simp only [iterate, h1] at h
      cases h

theorem LoopServes.returns_iff (L : LoopServes sock handle step Stops) (buf : Bytes) (s : σ)
    (out : Outcome ε Unit) (s' : σ) :
    LoopReturns step (buf, s) (out, s') ↔
      ∃ msgs b0 s0 r b1, Served sock handle msgs (buf, s) (b0, s0) ∧ sock.recv b0 s0 = ((r, b1), s') ∧
        Stops r b1 out := by
  constructor
  · intro h
    obtain ⟨n, ⟨b0, s0⟩, h1, h2⟩ := h.last
    obtain ⟨msgs, _, h3⟩ := L.served_of_iterate n h1
    rcases hr : sock.recv b0 s0 with ⟨⟨r, b⟩, s1⟩
    by_cases hs : ∃ n, r = .ok n ∧ Acceptable (b.take n)
    · obtain ⟨n, rfl, ha⟩ := hs
      rw [L.more hr ha] at h2
      cases h2
    · obtain ⟨out', h4, h5⟩ := L.stop hr (fun n hn ha => hs ⟨n, hn, ha⟩)
      rw [h5] at h2
      cases h2
      exact ⟨msgs, b0, s0, r, b, h3, hr, h4⟩
  · rintro ⟨msgs, b0, s0, r, b1, h1, h2, h3⟩
    obtain ⟨out', h4, h5⟩ := L.stop h2 (L.no h3)
    cases L.unique h3 h4
    refine ⟨msgs.length + 1, ?_⟩
    rw [iterate_add _ 1 _ _ (L.iterate_served h1)]
    simp only [iterate, h5]

theorem LoopServes.forever_iff (L : LoopServes sock handle step Stops) (buf : Bytes) (s : σ) :
    RunsForever step (buf, s) ↔
      ∀ n, ∃ msgs st, msgs.length = n ∧ Served sock handle msgs (buf, s) st := by
  constructor
  · intro h n
    obtain ⟨st, h⟩ := h n
    obtain ⟨msgs, h1, h2⟩ := L.served_of_iterate n h
    exact ⟨msgs, st, h1, h2⟩
  · intro h n
    obtain ⟨msgs, st, h1, h2⟩ := h n
    exact ⟨st, by rw [← h1]; exact L.iterate_served h2⟩

end

theorem fuse_loop (sock : Socket σ ε) (h : Handlers FuseMethod σ) :
    LoopServes sock (fuseHandle h) (fuseServeStep sock h) FuseStops where
  more := fuse_serve_more sock h
  stop := fuse_serve_stop sock h
  no := fun h => h.not_acceptable
  unique := fun h h' => h.unique h'

theorem cuse_loop (sock : Socket σ ε) (h : Handlers CuseMethod σ) :
    LoopServes sock (cuseHandle h) (cuseServeStep sock h) CuseStops where
  more := cuse_serve_more sock h
  stop := cuse_serve_stop sock h
  no := fun h => h.not_acceptable
  unique := fun h h' => h.unique h'

/-- **C24**, for every socket, handlers and world: the loop ends exactly when, after handling a number of
acceptable messages each once and in order, receiving fails or yields an unacceptable message; and it returns
what `FuseStops` says, `Ok` only for a closed connection.  (No other end, such as a fault, is possible.) -/
theorem C24_fuse (sock : Socket σ ε) (h : Handlers FuseMethod σ) (buf : Bytes) (s : σ)
    (out : Outcome ε Unit) (s' : σ) :
    FuseServes sock h buf s (out, s') ↔
      ∃ msgs b0 s0 r b1, Served sock (fuseHandle h) msgs (buf, s) (b0, s0) ∧
        sock.recv b0 s0 = ((r, b1), s') ∧ FuseStops r b1 out :=
  (fuse_loop sock h).returns_iff buf s out s'

/-- **C24**: the loop goes on forever exactly when there is always another acceptable message. -/
theorem C24_fuse_forever (sock : Socket σ ε) (h : Handlers FuseMethod σ) (buf : Bytes) (s : σ) :
    RunsForever (fuseServeStep sock h) (buf, s) ↔
      ∀ n, ∃ msgs st, msgs.length = n ∧ Served sock (fuseHandle h) msgs (buf, s) st :=
  (fuse_loop sock h).forever_iff buf s

/-- **C24** for CUSE: the same, except that a closed connection also ends in an error. -/
theorem C24_cuse (sock : Socket σ ε) (h : Handlers CuseMethod σ) (buf : Bytes) (s : σ)
    (out : Outcome ε Unit) (s' : σ) :
    CuseServes sock h buf s (out, s') ↔
      ∃ msgs b0 s0 r b1, Served sock (cuseHandle h) msgs (buf, s) (b0, s0) ∧
        sock.recv b0 s0 = ((r, b1), s') ∧ CuseStops r b1 out :=
  (cuse_loop sock h).returns_iff buf s out s'

/-- **C24** for CUSE. -/
theorem C24_cuse_forever (sock : Socket σ ε) (h : Handlers CuseMethod σ) (buf : Bytes) (s : σ) :
    RunsForever (cuseServeStep sock h) (buf, s) ↔
      ∀ n, ∃ msgs st, msgs.length = n ∧ Served sock (cuseHandle h) msgs (buf, s) st :=
  (cuse_loop sock h).forever_iff buf s

/-- **C24**, where the code departs from it: `cuse_serve_local` never returns `Ok`; it reports even a closed
connection as an error. -/
theorem C24_violated_cuse (sock : Socket σ ε) (h : Handlers CuseMethod σ) (buf : Bytes) (s s' : σ) :
    ¬ CuseServes sock h buf s (.ok (), s') := by
  intro hc
  obtain ⟨_, _, _, _, _, _, _, hs⟩ := (C24_cuse sock h buf s _ s').mp hc
  cases hs

/-! ### Streams of receive outcomes -/

/-- A socket on which the `k`-th receive has the outcome `f k`; the state is the number of receives so far
and the log of `logging`. -/
def feed {M : Type} (f : Nat → Except (RecvError ε) Bytes) : Socket (Nat × List (Option M × Bytes)) ε where
  recv buf s :=
    match f s.1 with
    | .error e => ((.error e, buf), s.1 + 1, s.2)
    | .ok m => ((.ok (min m.length buf.length), m.take buf.length ++ buf.drop m.length), s.1 + 1, s.2)
  recv_length buf s := by
    cases f s.1 with
    | error e => rfl
    | ok m => show (m.take buf.length ++ buf.drop m.length).length = _; simp; omega
  send _ s := (.ok (), s)

/-- Handlers that log every call of every method. -/
def logAll {M : Type} : Handlers M (Nat × List (Option M × Bytes)) where
  unimplemented r s := (s.1, s.2 ++ [(none, r.mem)])
  overridden m := some fun r s => (s.1, s.2 ++ [(some m, r.mem)])

theorem logAll_handle (msg : Bytes) (s : Nat × List (Option FuseMethod × Bytes)) :
    fuseHandle logAll msg s = (s.1, s.2 ++ [(fuseMethodAt (u32At msg 4), msg)]) := by
  unfold fuseHandle logAll
  cases fuseMethodAt (u32At msg 4) <;> rfl

theorem feed_recv {M : Type} (f : Nat → Except (RecvError ε) Bytes) (buf m : Bytes) (k : Nat)
    (log : List (Option M × Bytes)) (hf : f k = .ok m) (hm : m.length ≤ buf.length) :
    ∃ b, (feed f).recv buf (k, log) = ((.ok m.length, b), k + 1, log) ∧ b.take m.length = m ∧
      b.length = buf.length := by
  refine ⟨m.take buf.length ++ buf.drop m.length, ?_, ?_, ?_⟩
  · simp only [feed, hf, Nat.min_eq_left hm]
  · rw [List.take_of_length_le hm, List.take_left' rfl]
  · rw [List.length_append, List.length_take, List.length_drop]; omega

/-- **C24** for a stream of receive outcomes, finite or infinite as far as the loop is concerned: as long as
the outcomes are acceptable messages that fit the buffer, after `n` iterations each of the first `n` has been
passed to its handler, once and in order, and the loop goes on. -/
theorem C24_fuse_stream (f : Nat → Except (RecvError ε) Bytes) (buf : Bytes) (msgs : Nat → Bytes) (n : Nat)
    (hf : ∀ k < n, f k = .ok (msgs k) ∧ Acceptable (msgs k) ∧ (msgs k).length ≤ buf.length) :
    ∃ b, b.length = buf.length ∧
      iterate (fuseServeStep (feed f) logAll) n (buf, 0, []) =
        .inr (b, n, (List.range n).map fun k => (fuseMethodAt (u32At (msgs k) 4), msgs k)) := by
  induction n with
  | zero => exact ⟨buf, rfl, rfl⟩
  | succ n ih =>
    obtain ⟨b, hb, h1⟩ := ih (fun k hk => hf k (by omega))
    obtain ⟨hf1, hf2, hf3⟩ := hf n (by omega)
    obtain ⟨b', h2, h3, h4⟩ := feed_recv f b (msgs n) n
      ((List.range n).map fun k => (fuseMethodAt (u32At (msgs k) 4), msgs k)) hf1 (by omega)
    refine ⟨b', by omega, ?_⟩
    rw [iterate_add n 1 _ _ h1]
    have hs := fuse_serve_more (feed f) (logAll (M := FuseMethod)) h2 (by rw [h3]; exact hf2)
    simp only [iterate, hs, h3]
    rw [logAll_handle, List.range_succ, List.map_append]
    rfl

/-- **C24** for a stream of receive outcomes: at the first outcome that is not an acceptable message the
loop stops, having called a handler for exactly the messages before. -/
theorem C24_fuse_stream_end (f : Nat → Except (RecvError ε) Bytes) (buf : Bytes) (msgs : Nat → Bytes) (n : Nat)
    (hf : ∀ k < n, f k = .ok (msgs k) ∧ Acceptable (msgs k) ∧ (msgs k).length ≤ buf.length) :
    let log := (List.range n).map fun k => (fuseMethodAt (u32At (msgs k) 4), msgs k)
    (∀ e, f n = .error (.connectionClosed e) →
      FuseServes (feed f) logAll buf (0, []) (.ok (), n + 1, log)) ∧
    (∀ e, f n = .error (.other e) →
      FuseServes (feed f) logAll buf (0, []) (.err (.recv (.other e)), n + 1, log)) ∧
    (∀ m, f n = .ok m → m.length ≤ buf.length → ¬ Acceptable m →
      ∃ e, FuseServes (feed f) logAll buf (0, []) (.err (.request e), n + 1, log)) := by
  intro log
  obtain ⟨b, hb, h1⟩ := C24_fuse_stream f buf msgs n hf
  have fin : ∀ out, fuseServeStep (feed f) logAll (b, n, log) = .inl out →
      FuseServes (feed f) logAll buf (0, []) out := by
    intro out h
    refine ⟨n + 1, ?_⟩
    rw [iterate_add n 1 _ _ h1]
    simp only [iterate]
    rw [show fuseServeStep (feed f) logAll (b, n, log) = _ from h]
  refine ⟨?_, ?_, ?_⟩
  · intro e he
    apply fin
    simp only [fuseServeStep, fuseRecv, feed, he]
  · intro e he
    apply fin
    simp only [fuseServeStep, fuseRecv, feed, he]
  · intro m hm hl ha
    obtain ⟨b', h2, h3, h4⟩ := feed_recv f b m n log hm (by omega)
    obtain ⟨e, he, _⟩ := unacceptable_new ha
    refine ⟨e, fin _ ?_⟩
    simp only [fuseServeStep, fuseRecv, h2, truncateSlice_eq, h3, he]

/-- Two requests, then the connection closes. -/
example : FuseServes (feed (ε := Unit) fun k =>
      if k = 0 then .ok exampleLookup else if k = 1 then .ok exampleUnknown else .error (.connectionClosed ()))
    logAll (List.replicate 8192 0) (0, [])
    (.ok (), 3, [(some .lookup, exampleLookup), (none, exampleUnknown)]) :=
  (C24_fuse_stream_end _ _ (fun k => if k = 0 then exampleLookup else exampleUnknown) 2 (by
    intro k hk
    rw [List.length_replicate]
    match k, hk with
    | 0, _ => exact ⟨rfl, by decide, by decide⟩
    | 1, _ => exact ⟨rfl, by decide, by decide⟩)).1 () rfl

end Fuse
