import Verif.VfsFacts
import Verif.VfsDemo

/-!
# C42–C46: the VFS layer under any interleaving of its threads
-/

namespace Fuse

open Spec VfsEv

variable {ν φ η σ ε : Type}

/-- A filesystem with root `root` has handled the messages `bufs` (thread `t` handles `bufs t`) for the steps
`tr`, and has arrived at the programs `pool` and the state `s`.  Not every thread need have started. -/
structure Serving (fs : Filesystem ν φ η σ ε) (root : ν) (w0 : σ) (bufs : Nat → Bytes)
    (tr : List (Nat × Vfs ν φ η (σ × List (Obs ν φ η)) × Vfs ν φ η (σ × List (Obs ν φ η))))
    (pool : Nat → Prog (Vfs ν φ η (σ × List (Obs ν φ η))) (Option (Outcome ε Unit)))
    (s : Vfs ν φ η (σ × List (Obs ν φ η))) : Prop where
  accepted : ∀ t, Request.new (bufs t) = .ok ⟨bufs t⟩
  runs : Runs (fun t => fs.recorded.dispatch ⟨bufs t⟩) (Vfs.new root (w0, [])) tr pool s

/-- The message `buf` is decoded as the request `q`. -/
def RequestIs (fs : Filesystem ν φ η σ ε) (buf : Bytes) (q : AnyRequest) : Prop :=
  ∃ ty, vfsRequestType fs.layout fs.checks (u32At buf 4) = some ty ∧ decodeMessage ty buf = .ok q

theorem requestIs_unique {fs : Filesystem ν φ η σ ε} {buf : Bytes} {q q' : AnyRequest}
    (h : RequestIs fs buf q) (h' : RequestIs fs buf q') : q = q' := by
  obtain ⟨t, h1, h2⟩ := h
  obtain ⟨t', h1', h2'⟩ := h'
  rw [h1] at h1'
  cases h1'
  rw [h2] at h2'
  cases h2'
  rfl

/-- The concrete executions are executions. -/
theorem demo_serving (msgs : List Bytes) (ts : List Nat)
    (h : ∀ m ∈ msgs, 40 ≤ m.length ∧ u64At m 8 ≠ 0 ∧ u32At m 0 ≤ m.length) :
    Serving demoFs 100 () (demoBufs msgs) (demoSched msgs ts).1 (demoSched msgs ts).2.1
      (demoSched msgs ts).2.2 where
  accepted := by
    intro t
    have hb : 40 ≤ (demoBufs msgs t).length ∧ u64At (demoBufs msgs t) 8 ≠ 0 ∧
        u32At (demoBufs msgs t) 0 ≤ (demoBufs msgs t).length := by
      unfold demoBufs
      cases hm : msgs[t]? with
      | none => decide +kernel
      | some m => exact h m (List.mem_of_getElem? hm)
    rw [Request.new_eq, if_neg (by omega), if_neg hb.2.1, if_neg (by omega)]
  runs := sched_runs _ _ _

/-- The header of a message. -/
def hdrOf (buf : Bytes) : FuseInHeader := dec (buf.take 40)

theorem hdrOf_ok {buf : Bytes} {r : Request} (h : Request.new buf = .ok r) :
    r.rawHeader = .ok (hdrOf buf) ∧ (∃ id, (hdrOf buf).requestId = .ok id) ∧
    (hdrOf buf).opcode.toNat = u32At buf 4 ∧ (hdrOf buf).unique.toNat = u64At buf 8 := by
  have ha := (C02_accepted_iff buf).mp ⟨r, h⟩
  rw [Request.new_eq, if_neg (by omega), if_neg ha.2.1, if_neg (by omega)] at h
  cases h
  have hf := hdr_fields ha.1
  exact ⟨by simp only [Request.rawHeader, size_fuse_in_header, if_pos ha.1]; rfl,
    ⟨_, newUnchecked_ok (fun hz => ha.2.1 ((hdr_unique_zero ha.1).mp hz))⟩, hf.2.1, hf.2.2.1⟩

section
variable {fs : Filesystem ν φ η σ ε} {root : ν} {w0 : σ} {bufs : Nat → Bytes}
  {tr tr2 : List (Nat × Vfs ν φ η (σ × List (Obs ν φ η)) × Vfs ν φ η (σ × List (Obs ν φ η)))}
  {pool pool2 : Nat → Prog (Vfs ν φ η (σ × List (Obs ν φ η))) (Option (Outcome ε Unit))}
  {s s2 : Vfs ν φ η (σ × List (Obs ν φ η))}

/-- An execution in two parts, as a history. -/
theorem Serving.hist (h : Serving fs root w0 bufs tr pool s) (h2 : Runs pool s tr2 pool2 s2) :
    ∃ L L2, Hist fs.recorded (fun t => hdrOf (bufs t)) (Vfs.new root (w0, [])) L s ∧
      Hist fs.recorded (fun t => hdrOf (bufs t)) s L2 s2 ∧
      L.map (·.1) = tr.map (·.1) ∧ L2.map (·.1) = tr2.map (·.1) ∧
      observed tr = obsOf fs.layout.versionMinor.toNat (fun t => hdrOf (bufs t)) L ∧
      observed tr2 = obsOf fs.layout.versionMinor.toNat (fun t => hdrOf (bufs t)) L2 ∧
      (∀ t, Follows fs.recorded ⟨bufs t⟩ (hdrOf (bufs t)) (pool t) (eventsOf t L)) ∧
      ∀ t, Follows fs.recorded ⟨bufs t⟩ (hdrOf (bufs t)) (pool2 t) (eventsOf t (L ++ L2)) := by
  have hs : ∀ t, Sat fs.recorded (hdrOf (bufs t)) (fs.recorded.dispatch ⟨bufs t⟩)
      (DispatchTrace fs.recorded ⟨bufs t⟩ (hdrOf (bufs t))) := by
    intro t
    obtain ⟨h1, ⟨id, h3⟩, _⟩ := hdrOf_ok (h.accepted t)
    exact dispatch_sat fs.recorded h1 h3
  obtain ⟨L, l1, l2, l3, l4⟩ := h.runs.hist hs
  obtain ⟨M, m1, m2, m3, m4⟩ := h2.hist l4
  refine ⟨L, M, l1, m1, l2, m2, l3, m3, fun t => Sat.follows s (l4 t), fun t => ?_⟩
  rw [eventsOf_append]
  refine Sat.follows s ((m4 t).mono fun evs o h => ?_)
  rwa [List.append_assoc]

/-- What thread `t` does, given that it has done something. -/
theorem Follows.trace {buf : Bytes} {p} {evs : List (VfsEv ν φ η ε)} {e}
    (hr : Request.new buf = .ok ⟨buf⟩) (h : Follows fs.recorded ⟨buf⟩ (hdrOf buf) p evs) (he : e ∈ evs) :
    ∃ q rest o, RequestIs fs buf q ∧ VfsTrace fs.recorded q (evs ++ rest) o ∧
      ∀ o', p = .done o' → rest = [] ∧ o' = some o := by
  obtain ⟨rest, out, h1, h2, _⟩ := h
  generalize hl : evs ++ rest = l at h1
  cases h1 with
  | handled ht hd hv =>
    rename_i ty q o
    subst hl
    refine ⟨q, rest, o, ⟨ty, ?_, ?_⟩, hv, fun o' ho => ?_⟩
    · rw [← (hdrOf_ok hr).2.2.1]
      exact ht
    · unfold decodeMessage
      rw [hr]
      exact hd
    · obtain ⟨h3, h4⟩ := h2 o' ho
      exact ⟨h3, h4.symm⟩
  | _ =>
    rw [List.append_eq_nil_iff] at hl
    rw [hl.1] at he
    cases he

end

theorem guarded_mem {α : Type} {G : List α → α → Prop} {evs rest : List α} {e : α}
    (h : Guarded G [] (evs ++ rest)) (he : e ∈ evs) : ∃ past, (∀ x ∈ past, x ∈ evs) ∧ G past e := by
  obtain ⟨A, B, rfl⟩ := List.append_of_mem he
  rw [List.append_assoc] at h
  refine ⟨A.reverse, fun x hx => List.mem_append_left _ (List.mem_reverse.mp hx), ?_⟩
  have := guarded_split h
  rwa [List.append_nil] at this

/-! ## Observations and events -/

section
variable {minor : Nat} {hdr : FuseInHeader} {e : VfsEv ν φ η ε}

theorem obs_sent {m : Bytes} {b : Bool} (h : Obs.sent m b ∈ e.obs minor hdr) :
    ∃ a r, e.sends = some (a, r) ∧ 16 + (a.payload minor).length < 2 ^ 32 ∧
      m = frame hdr.unique a.error (a.payload minor) ∧ b = succeeded r := by
  cases e with
  | sent a r =>
    simp only [VfsEv.obs] at h
    split at h
    · rename_i hs
      rw [List.mem_singleton] at h
      cases h
      exact ⟨a, r, rfl, hs, rfl, rfl⟩
    · cases h
  | lookup v q r =>
    simp only [VfsEv.obs, lookupObs] at h
    split at h
    · split at h <;> simp at h
    · simp at h
  | open_ v q r => cases r <;> simp [VfsEv.obs, openObs] at h
  | opendir v q r => cases r <;> simp [VfsEv.obs, openObs] at h
  | _ => simp [VfsEv.obs, releaseObs] at h

theorem obs_handle {x : φ ⊕ η} : Obs.handle x ∈ e.obs minor hdr ↔ e.uses = some x := by
  cases e with
  | sent a r =>
    simp only [VfsEv.obs]
    split <;> simp [uses]
  | lookup v q r =>
    simp only [VfsEv.obs, lookupObs]
    split
    · split <;> simp [uses]
    · simp [uses]
  | open_ v q r => cases r <;> simp [VfsEv.obs, openObs, uses]
  | opendir v q r => cases r <;> simp [VfsEv.obs, openObs, uses]
  | _ => simp [VfsEv.obs, releaseObs, uses, eq_comm]

theorem obs_opened {x : φ ⊕ η} {fl : UInt32} : Obs.opened x fl ∈ e.obs minor hdr ↔ e.opens = some (x, fl) := by
  cases e with
  | sent a r =>
    simp only [VfsEv.obs]
    split <;> simp [opens]
  | lookup v q r =>
    simp only [VfsEv.obs, lookupObs]
    split
    · split <;> simp [opens]
    · simp [opens]
  | open_ v q r => cases r <;> simp [VfsEv.obs, openObs, opens, eq_comm]
  | opendir v q r => cases r <;> simp [VfsEv.obs, openObs, opens, eq_comm]
  | _ => simp [VfsEv.obs, releaseObs, opens]

theorem obs_node {x : ν} : Obs.node x ∈ e.obs minor hdr ↔ e.usesNode = some x := by
  cases e with
  | sent a r =>
    simp only [VfsEv.obs]
    split <;> simp [usesNode]
  | lookup v q r =>
    simp only [VfsEv.obs, lookupObs]
    split
    · split <;> simp [usesNode]
    · simp [usesNode]
  | open_ v q r => cases r <;> simp [VfsEv.obs, openObs, usesNode]
  | opendir v q r => cases r <;> simp [VfsEv.obs, openObs, usesNode]
  | _ => simp [VfsEv.obs, releaseObs, usesNode, eq_comm]

theorem obs_found {x : ν} {ino : UInt64} : Obs.found x ino ∈ e.obs minor hdr ↔ e.finds = some (x, ino) := by
  cases e with
  | sent a r =>
    simp only [VfsEv.obs]
    split <;> simp [finds]
  | lookup v q r =>
    cases r with
    | error e => simp [VfsEv.obs, lookupObs, finds]
    | ok res =>
      cases hn : res.node with
      | none => simp [VfsEv.obs, lookupObs, finds, hn]
      | some p => simp [VfsEv.obs, lookupObs, finds, hn, eq_comm]
  | open_ v q r => cases r <;> simp [VfsEv.obs, openObs, finds]
  | opendir v q r => cases r <;> simp [VfsEv.obs, openObs, finds]
  | _ => simp [VfsEv.obs, releaseObs, finds]

theorem closes_obs {d fh} (h : e.closes = some (d, fh)) : ∃ x, Obs.released x ∈ e.obs minor hdr := by
  cases e <;> first
    | (cases h; done)
    | exact ⟨_, by simp [VfsEv.obs, releaseObs]; rfl⟩

end

/-- The messages thread `t` has given to the socket, with the socket's verdicts. -/
def messagesOf (t : Nat) (obs : List (Nat × Obs ν φ η)) : List (Bytes × Bool) :=
  obs.filterMap fun x =>
    match x with
    | (u, .sent m ok) => if u = t then some (m, ok) else none
    | _ => none

/-- The message of an event. -/
def evMessages (minor : Nat) (id : UInt64) : VfsEv ν φ η ε → List (Bytes × Bool)
  | .sent a r =>
    if 16 + (a.payload minor).length < 2 ^ 32 then [(frame id a.error (a.payload minor), succeeded r)] else []
  | _ => []

theorem messagesOf_append (t : Nat) (a b : List (Nat × Obs ν φ η)) :
    messagesOf t (a ++ b) = messagesOf t a ++ messagesOf t b := List.filterMap_append

theorem messagesOf_event (minor : Nat) (hdr : FuseInHeader) (t u : Nat) (e : VfsEv ν φ η ε) :
    messagesOf t ((e.obs minor hdr).map fun o => (u, o)) = if u = t then evMessages minor hdr.unique e else [] := by
  cases e with
  | sent a r =>
    by_cases hs : 16 + (a.payload minor).length < 2 ^ 32
    · by_cases hu : u = t <;> simp [VfsEv.obs, evMessages, hs, hu, messagesOf]
    · by_cases hu : u = t <;> simp [VfsEv.obs, evMessages, hs, hu, messagesOf]
  | lookup v q r =>
    cases r with
    | error e => simp [VfsEv.obs, lookupObs, evMessages, messagesOf]
    | ok res =>
      cases hn : res.node with
      | none => simp [VfsEv.obs, lookupObs, evMessages, messagesOf, hn]
      | some p => simp [VfsEv.obs, lookupObs, evMessages, messagesOf, hn]
  | open_ v q r => cases r <;> simp [VfsEv.obs, openObs, evMessages, messagesOf]
  | opendir v q r => cases r <;> simp [VfsEv.obs, openObs, evMessages, messagesOf]
  | _ => simp [VfsEv.obs, releaseObs, evMessages, messagesOf]

theorem messagesOf_obsOf (minor : Nat) (hdr : Nat → FuseInHeader) (t : Nat) (L : List (Nat × VfsEv ν φ η ε)) :
    messagesOf t (obsOf minor hdr L) = (eventsOf t L).flatMap (evMessages minor (hdr t).unique) := by
  induction L with
  | nil => rfl
  | cons x L ih =>
    obtain ⟨u, e⟩ := x
    show messagesOf t ((e.obs minor (hdr u)).map _ ++ obsOf minor hdr L) = _
    rw [messagesOf_append, messagesOf_event, ih]
    by_cases hu : u = t
    · subst hu
      rw [eventsOf_cons_self, if_pos rfl]
      rfl
    · rw [eventsOf_cons_ne hu, if_neg hu]
      rfl

theorem evMessages_length (minor : Nat) (id : UInt64) (evs : List (VfsEv ν φ η ε)) :
    (evs.flatMap (evMessages minor id)).length ≤ (evs.filterMap sends).length := by
  induction evs with
  | nil => exact Nat.le_refl _
  | cons e evs ih =>
    cases e with
    | sent a r =>
      rw [List.flatMap_cons, List.length_append]
      have h1 : (evMessages minor id (VfsEv.sent a r : VfsEv ν φ η ε)).length ≤ 1 := by
        simp only [evMessages]
        split <;> simp
      have h2 : ((VfsEv.sent a r :: evs).filterMap sends).length = (evs.filterMap sends).length + 1 := by
        simp [sends]
      omega
    | _ => exact ih

/-! ## Replies on the wire -/

theorem frame_error (id : UInt64) (e : Int32) (p : Bytes) : u32At (frame id e p) 4 = e.toUInt32.toNat := by
  unfold frame
  read_at

theorem frame_id (id : UInt64) (e : Int32) (p : Bytes) : u64At (frame id e p) 8 = id.toNat := by
  unfold frame
  read_at

theorem frame_error_zero {id : UInt64} {e : Int32} {p : Bytes} (h : u32At (frame id e p) 4 = 0) : e = 0 := by
  rw [frame_error] at h
  have h1 : e.toUInt32 = 0 := UInt32.toNat_inj.mp h
  have h2 := congrArg UInt32.toInt32 h1
  simpa using h2

theorem openReply_handle (id : UInt64) (minor : Nat) (fh : UInt64) (flags : UInt32) :
    u64At (frame id (openReply fh flags).error ((openReply fh flags).payload minor)) 16 = fh.toNat := by
  unfold frame openReply FuseAnswer.payload FuseReply.payload
  dsimp only
  read_at

theorem decode_ctor {α : Type} {r : Request} {t : ReqType} {c : α → AnyRequest} {d : DecM α} {q : AnyRequest}
    (ht : decodeAny t = c <$> d) (h : r.decode (decodeAny t) = .ok q) : ∃ a, q = c a := by
  rw [ht, decode_map] at h
  split at h
  · cases h; exact ⟨_, rfl⟩
  · cases h

theorem requestIs_decode {fs : Filesystem ν φ η σ ε} {buf : Bytes} {q : AnyRequest} (h : RequestIs fs buf q) :
    ∃ r t, vfsRequestType fs.layout fs.checks (u32At buf 4) = some t ∧ Request.decode r (decodeAny t) = .ok q := by
  obtain ⟨t, h1, h2⟩ := h
  unfold decodeMessage at h2
  split at h2
  · cases h2
  · exact ⟨_, t, h1, h2⟩

/-- OPEN and OPENDIR messages are decoded as such. -/
theorem requestIs_opens {fs : Filesystem ν φ η σ ε} {buf : Bytes} {q : AnyRequest} (h : RequestIs fs buf q)
    (ho : u32At buf 4 = 14 ∨ u32At buf 4 = 27) : q.Opens := by
  obtain ⟨r, t, h1, h2⟩ := requestIs_decode h
  rcases ho with ho | ho <;> rw [ho] at h1 <;> cases h1
  · obtain ⟨a, rfl⟩ := decode_ctor (c := .open_) rfl h2
    trivial
  · obtain ⟨a, rfl⟩ := decode_ctor (c := .opendir) rfl h2
    trivial

/-- RELEASE and RELEASEDIR messages are decoded as such. -/
theorem requestIs_releases {fs : Filesystem ν φ η σ ε} {buf : Bytes} {q : AnyRequest} (h : RequestIs fs buf q)
    (ho : u32At buf 4 = 18 ∨ u32At buf 4 = 29) : q.Releases := by
  obtain ⟨r, t, h1, h2⟩ := requestIs_decode h
  rcases ho with ho | ho <;> rw [ho] at h1 <;> cases h1
  · obtain ⟨a, rfl⟩ := decode_ctor (c := .release) rfl h2
    trivial
  · obtain ⟨a, rfl⟩ := decode_ctor (c := .releasedir) rfl h2
    trivial

/-! ## C42 -/

section
variable {fs : Filesystem ν φ η σ ε} {root : ν} {w0 : σ} {bufs : Nat → Bytes}
  {tr tr2 : List (Nat × Vfs ν φ η (σ × List (Obs ν φ η)) × Vfs ν φ η (σ × List (Obs ν φ η)))}
  {pool pool2 : Nat → Prog (Vfs ν φ η (σ × List (Obs ν φ η))) (Option (Outcome ε Unit))}
  {s s2 : Vfs ν φ η (σ × List (Obs ν φ η))}

/-- A thread sends at most one message. -/
theorem Serving.one_message (h : Serving fs root w0 bufs tr pool s) (t : Nat) :
    (messagesOf t (observed tr)).length ≤ 1 := by
  obtain ⟨L, _, _, _, _, _, h1, _, h2, _⟩ := h.hist (.nil _ _)
  rw [h1, messagesOf_obsOf]
  refine Nat.le_trans (evMessages_length _ _ _) ?_
  by_cases he : eventsOf t L = []
  · rw [he]; exact Nat.zero_le _
  · obtain ⟨e, he⟩ := List.exists_mem_of_ne_nil _ he
    obtain ⟨q, rest, o, _, hv, _⟩ := (h2 t).trace (h.accepted t) he
    have := hv.sends_once
    rw [List.filterMap_append, List.length_append] at this
    omega

/-- The events behind a successful reply to OPEN or OPENDIR. -/
theorem opened_event {L : List (Nat × VfsEv ν φ η ε)} {t : Nat} {p} (ha : Request.new (bufs t) = .ok ⟨bufs t⟩)
    (hf : Follows fs.recorded ⟨bufs t⟩ (hdrOf (bufs t)) p (eventsOf t L)) {m b}
    (hm : (t, .sent m b) ∈ obsOf fs.layout.versionMinor.toNat (fun t => hdrOf (bufs t)) L)
    (ho : u32At (bufs t) 4 = 14 ∨ u32At (bufs t) 4 = 27) (he : u32At m 4 = 0) :
    ∃ fh x e, fh.toNat = u64At m 16 ∧ (t, e) ∈ L ∧ e.allocs = some (fh, x) := by
  obtain ⟨e, h1, h2⟩ := mem_obsOf.mp hm
  obtain ⟨a, r, h3, _, h5, _⟩ := obs_sent h2
  obtain ⟨q, rest, o, hq, hv, _⟩ := hf.trace ha (mem_eventsOf.mpr h1)
  obtain ⟨past, hp, hg⟩ := guarded_mem (hv.opens_reply (requestIs_opens hq ho)) (mem_eventsOf.mpr h1)
  rw [h5] at he
  obtain ⟨fh, flags, rfl, x, y, hy, hal⟩ := hg a r h3 (frame_error_zero he)
  exact ⟨fh, x, y, by rw [h5, openReply_handle], mem_eventsOf.mp (hp y hy), hal⟩

/-- **C42**: two successful replies to OPEN (14) or OPENDIR (27) never announce the same handle. -/
theorem C42_unique (h : Serving fs root w0 bufs tr pool s) {A B C t u m m' b b'}
    (ho : observed tr = A ++ (t, .sent m b) :: B ++ (u, .sent m' b') :: C)
    (ht : u32At (bufs t) 4 = 14 ∨ u32At (bufs t) 4 = 27) (hu : u32At (bufs u) 4 = 14 ∨ u32At (bufs u) 4 = 27)
    (he : u32At m 4 = 0) (he' : u32At m' 4 = 0) : u64At m 16 ≠ u64At m' 16 := by
  intro heq
  obtain ⟨L, _, hh, _, _, _, h1, _, h2, _⟩ := h.hist (.nil _ _)
  have hm : (t, Obs.sent m b) ∈ observed tr := by rw [ho]; simp
  have hm' : (u, Obs.sent m' b') ∈ observed tr := by rw [ho]; simp
  rw [h1] at hm hm'
  obtain ⟨fh, x, e, e1, e2, e3⟩ := opened_event (h.accepted t) (h2 t) hm ht he
  obtain ⟨fh', x', e', e1', e2', e3'⟩ := opened_event (h.accepted u) (h2 u) hm' hu he'
  have hfh : fh = fh' := UInt64.toNat_inj.mp (by rw [e1, e1', heq])
  subst hfh
  obtain ⟨rfl, _⟩ := hh.alloc_inj e2 e2' e3 e3'
  have := h.one_message t
  rw [ho] at this
  simp [messagesOf] at this
  omega

/-- **C42**: if OPEN or OPENDIR returned the object `x` and was answered with a handle, a request through
that handle reaches no other object. -/
theorem C42_object (h : Serving fs root w0 bufs tr pool s) {t u m b x fl x' d q fh}
    (hx : (t, .opened x fl) ∈ observed tr) (hm : (t, .sent m b) ∈ observed tr)
    (ht : u32At (bufs t) 4 = 14 ∨ u32At (bufs t) 4 = 27) (he : u32At m 4 = 0)
    (hq : RequestIs fs (bufs u) q) (hd : OnHandle d fh q) (hfh : fh.toNat = u64At m 16)
    (hu : (u, .handle x') ∈ observed tr) : x' = x := by
  obtain ⟨L, _, hh, _, _, _, h1, _, h2, _⟩ := h.hist (.nil _ _)
  rw [h1] at hx hm hu
  obtain ⟨fh1, y, e, e1, e2, e3⟩ := opened_event (h.accepted t) (h2 t) hm ht he
  obtain rfl : fh = fh1 := UInt64.toNat_inj.mp (by rw [e1, hfh])
  obtain ⟨ex, x1, x2⟩ := mem_obsOf.mp hx
  obtain ⟨_, rest, o, _, hv, _⟩ := (h2 t).trace (h.accepted t) (mem_eventsOf.mpr x1)
  obtain rfl := hv.allocs_opened ex (List.mem_append_left _ (mem_eventsOf.mpr x1)) e
    (List.mem_append_left _ (mem_eventsOf.mpr e2)) x fl fh y (obs_opened.mp x2) e3
  obtain ⟨eu, u1, u2⟩ := mem_obsOf.mp hu
  obtain ⟨q', rest, o, hq', hv, _⟩ := (h2 u).trace (h.accepted u) (mem_eventsOf.mpr u1)
  obtain rfl := requestIs_unique hq hq'
  obtain ⟨past, hp, hg⟩ := guarded_mem hv.uses_seen (mem_eventsOf.mpr u1)
  obtain ⟨d', fh', y', hy, hs⟩ := hg x' (obs_handle.mp u2)
  have hy' : y' ∈ eventsOf u L := by
    rcases List.mem_cons.mp hy with rfl | hy
    · exact mem_eventsOf.mpr u1
    · exact hp y' hy
  obtain ⟨rfl, rfl⟩ := onHandle_unique hd (hv.sees_own y' (List.mem_append_left _ hy') d' fh' _ hs)
  obtain ⟨A, B, s1, s2, rfl, hA, hE, _⟩ := hh.split_at (mem_eventsOf.mp hy')
  rcases hA.slot_origin (effect_sees hE hs) with h3 | ⟨t', e', h3, h4, _⟩
  · cases d <;> cases h3
  · exact (hh.alloc_inj (List.mem_append_left _ h3) e2 h4 e3).2

-- Two OPENs and an OPENDIR that overlap, then one request through each handle.
example : let msgs := [demoOpen 1, demoOpendir 1, demoOpen 1, demoReaddir 1, demoRead 2, demoRead 3]
    (∀ m ∈ msgs, 40 ≤ m.length ∧ u64At m 8 ≠ 0 ∧ u32At m 0 ≤ m.length) ∧
    demoRun msgs ([0, 1, 2, 2, 1, 0, 0, 1, 2, 1, 0, 2, 2, 1, 0] ++ [3, 4, 5, 3, 4, 5, 3, 4, 5, 3, 4, 5]) =
      [(2, .node 100), (1, .node 100), (0, .node 100), (0, .opened (.inl 7) 0), (1, .opened (.inr 8) 0),
       (2, .opened (.inl 7) 0),
       (2, .sent [0, 0, 0, 0, 3, 0, 0, 0, 0, 0, 0, 0] true), (1, .sent [0, 0, 0, 0, 1, 0, 0, 0, 0, 0, 0, 0] true),
       (0, .sent [0, 0, 0, 0, 2, 0, 0, 0, 0, 0, 0, 0] true),
       (3, .handle (.inr 8)), (4, .handle (.inl 7)), (5, .handle (.inl 7)),
       (3, .sent [0, 0, 0, 0] true), (4, .sent [0, 0, 0, 0, 104, 105] true),
       (5, .sent [0, 0, 0, 0, 104, 105] true)] := by decide +kernel

/-! ## C43 -/

/-- **C43**: after a successful reply to RELEASE (18) or RELEASEDIR (29), a request through the same handle
that starts later reaches no object, and is answered with "invalid argument" if at all. -/
theorem C43_gone (h : Serving fs root w0 bufs tr pool s) (h2 : Runs pool s tr2 pool2 s2) {t u m b d q q' fh}
    (ht : u32At (bufs t) 4 = 18 ∨ u32At (bufs t) 4 = 29) (hq : RequestIs fs (bufs t) q) (hd : OnHandle d fh q)
    (hm : (t, .sent m b) ∈ observed tr) (he : u32At m 4 = 0)
    (hu : u ∉ tr.map (·.1)) (hq' : RequestIs fs (bufs u) q') (hd' : OnHandle d fh q') :
    (∀ x, (u, .handle x) ∉ observed tr2) ∧
    ∀ m' b', (u, .sent m' b') ∈ observed tr2 →
      m' = frame (hdrOf (bufs u)).unique fs.os.invalidArgument.val [] := by
  obtain ⟨L, M, hL, hM, l1, l2, l3, l4, l5, l6⟩ := h.hist h2
  -- the release
  rw [l3] at hm
  obtain ⟨e, e1, e2⟩ := mem_obsOf.mp hm
  obtain ⟨a, r, e3, _, e5, _⟩ := obs_sent e2
  obtain ⟨q1, rest, o, hq1, hv, _⟩ := (l5 t).trace (h.accepted t) (mem_eventsOf.mpr e1)
  obtain rfl := requestIs_unique hq hq1
  obtain ⟨past, hp, hg⟩ := guarded_mem (hv.releases_reply (requestIs_releases hq ht)) (mem_eventsOf.mpr e1)
  rw [e5] at he
  obtain ⟨d1, fh1, y, hy, hc⟩ := hg a r e3 (frame_error_zero he)
  obtain ⟨rfl, rfl⟩ := onHandle_unique hd (hv.closes_own y (List.mem_append_left _ (hp y hy)) d1 fh1 hc)
  obtain ⟨A, B, s1, s3, rfl, hA, hE, hB⟩ := hL.split_at (mem_eventsOf.mp (hp y hy))
  obtain ⟨hn, hsl⟩ := effect_closes hE hc
  have hgone : s3.slot d fh = none := by rw [hsl, if_pos ⟨rfl, rfl⟩]
  -- the handle had been allocated
  have hsome : ∃ x, s1.slot d fh = some x := by
    have hs : ∃ x, y.sees = some (d, fh, some x) := by
      cases y <;> first
        | (cases hc; done)
        | (cases hc; exact ⟨_, rfl⟩)
    obtain ⟨x, hs⟩ := hs
    exact ⟨x, effect_sees hE hs⟩
  have hlt : fh.toNat < s3.handles.nextHandleId.toNat := by
    obtain ⟨x, hx⟩ := hsome
    rw [hn]
    rcases hA.slot_origin hx with h3 | ⟨t', e', h3, h4, _⟩
    · cases d <;> cases h3
    · exact (hA.alloc_range h3 h4).2
  have hs0 := hB.slot_gone hgone hlt
  have hlt0 := Nat.lt_of_lt_of_le hlt hB.next_mono
  -- thread u
  have hu0 : ∀ e, (u, e) ∉ A ++ (t, y) :: B := fun e he => hu (by
    rw [← l1]; exact List.mem_map.mpr ⟨(u, e), he, rfl⟩)
  have key : ∀ e' x, (u, e') ∈ M → e'.sees ≠ some (d, fh, some x) := by
    intro e' x he' hs
    obtain ⟨A', B', s4, s5, _, hA', hE', _⟩ := hM.split_at he'
    have := effect_sees hE' hs
    rw [hA'.slot_gone hs0 hlt0] at this
    cases this
  have hin : ∀ {e}, e ∈ eventsOf u (A ++ (t, y) :: B ++ M) → (u, e) ∈ M := by
    intro e he
    rcases List.mem_append.mp (mem_eventsOf.mp he) with h3 | h3
    · exact absurd h3 (hu0 e)
    · exact h3
  refine ⟨fun x hx => ?_, fun m' b' hm' => ?_⟩
  · rw [l4] at hx
    obtain ⟨e', f1, f2⟩ := mem_obsOf.mp hx
    have f3 : e' ∈ eventsOf u (A ++ (t, y) :: B ++ M) := mem_eventsOf.mpr (List.mem_append_right _ f1)
    obtain ⟨q2, rest2, o2, hq2, hv2, _⟩ := (l6 u).trace (h.accepted u) f3
    obtain rfl := requestIs_unique hq' hq2
    obtain ⟨past2, hp2, hg2⟩ := guarded_mem hv2.uses_seen f3
    obtain ⟨d', fh', y', hy', hs'⟩ := hg2 x (obs_handle.mp f2)
    have hy2 : y' ∈ eventsOf u (A ++ (t, y) :: B ++ M) := by
      rcases List.mem_cons.mp hy' with rfl | hy'
      · exact f3
      · exact hp2 y' hy'
    obtain ⟨rfl, rfl⟩ := onHandle_unique hd' (hv2.sees_own y' (List.mem_append_left _ hy2) d' fh' _ hs')
    exact key y' x (hin hy2) hs'
  · rw [l4] at hm'
    obtain ⟨e', f1, f2⟩ := mem_obsOf.mp hm'
    obtain ⟨a', r', f4, _, f6, _⟩ := obs_sent f2
    have f3 : e' ∈ eventsOf u (A ++ (t, y) :: B ++ M) := mem_eventsOf.mpr (List.mem_append_right _ f1)
    obtain ⟨q2, rest2, o2, hq2, hv2, _⟩ := (l6 u).trace (h.accepted u) f3
    obtain rfl := requestIs_unique hq' hq2
    obtain ⟨past2, hp2, hg2⟩ := guarded_mem (hv2.handle_reply hd') f3
    rcases hg2 a' r' f4 with ⟨_, rfl⟩ | ⟨x, ⟨y', hy', hs'⟩, _⟩
    · exact f6
    · exact absurd hs' (key y' x (hin (hp2 y' hy')))

/-- **C43**: once OPEN or OPENDIR returned `x` and was answered with a handle, a request through the handle
that starts later is answered only after `x` was asked, unless some RELEASE or RELEASEDIR of this handle
succeeded.  In particular releases of other handles, and releases that fail, do not matter. -/
theorem C43_kept (h : Serving fs root w0 bufs tr pool s) (h2 : Runs pool s tr2 pool2 s2) {t u m b x fl q' fh}
    (hx : (t, .opened x fl) ∈ observed tr) (hm : (t, .sent m b) ∈ observed tr)
    (ht : u32At (bufs t) 4 = 14 ∨ u32At (bufs t) 4 = 27) (he : u32At m 4 = 0) (hfh : fh.toNat = u64At m 16)
    (hr : ∀ v q y, RequestIs fs (bufs v) q → OnHandle x.isRight fh q →
      (v, .released y) ∉ observed (tr ++ tr2))
    (hu : u ∉ tr.map (·.1)) (hq' : RequestIs fs (bufs u) q') (hd' : OnHandle x.isRight fh q')
    {m' b'} (hm' : (u, .sent m' b') ∈ observed tr2) : (u, .handle x) ∈ observed tr2 := by
  obtain ⟨L, M, hL, hM, l1, l2, l3, l4, l5, l6⟩ := h.hist h2
  rw [l3] at hx hm
  obtain ⟨fh1, y, e, e1, e2, e3⟩ := opened_event (h.accepted t) (l5 t) hm ht he
  obtain rfl : fh = fh1 := UInt64.toNat_inj.mp (by rw [e1, hfh])
  obtain ⟨ex, x1, x2⟩ := mem_obsOf.mp hx
  obtain ⟨_, rest, o, _, hv, _⟩ := (l5 t).trace (h.accepted t) (mem_eventsOf.mpr x1)
  obtain rfl := hv.allocs_opened ex (List.mem_append_left _ (mem_eventsOf.mpr x1)) e
    (List.mem_append_left _ (mem_eventsOf.mpr e2)) x fl fh y (obs_opened.mp x2) e3
  -- nobody removes the handle
  have hc : ∀ v e', (v, e') ∈ L ++ M → e'.closes ≠ some (x.isRight, fh) := by
    intro v e' he' hc
    obtain ⟨q1, rest1, o1, hq1, hv1, _⟩ := (l6 v).trace (h.accepted v) (mem_eventsOf.mpr he')
    have hon := hv1.closes_own e' (List.mem_append_left _ (mem_eventsOf.mpr he')) _ _ hc
    obtain ⟨y, hy⟩ := closes_obs (minor := fs.layout.versionMinor.toNat) (hdr := (hdrOf (bufs v))) hc
    refine hr v q1 y hq1 hon ?_
    rw [observed_append, l3, l4, ← obsOf_append]
    exact mem_obsOf.mpr ⟨e', he', hy⟩
  obtain ⟨A, B, s1, s3, rfl, hA, hE, hB⟩ := hL.split_at e2
  obtain ⟨_, hnext, hsl⟩ := effect_allocs hE e3
  have hs3 : s3.slot x.isRight fh = some x := by rw [hsl, if_pos ⟨rfl, rfl⟩]
  have hs0 : s.slot x.isRight fh = some x := hB.slot_kept hs3 (by omega) fun v e' he' =>
    hc v e' (by simp [he'])
  have hlt0 := Nat.lt_of_lt_of_le (by omega : fh.toNat < s3.handles.nextHandleId.toNat) hB.next_mono
  -- thread u
  rw [l4] at hm'
  obtain ⟨e', f1, f2⟩ := mem_obsOf.mp hm'
  obtain ⟨a', r', f4, _, f6, _⟩ := obs_sent f2
  have hin : ∀ {e1}, e1 ∈ eventsOf u (A ++ (t, e) :: B ++ M) → (u, e1) ∈ M := by
    intro e1 he1
    rcases List.mem_append.mp (mem_eventsOf.mp he1) with h3 | h3
    · exact absurd (by rw [← l1]; exact List.mem_map.mpr ⟨(u, e1), h3, rfl⟩) hu
    · exact h3
  have key : ∀ e1 r, (u, e1) ∈ M → e1.sees = some (x.isRight, fh, r) → r = some x := by
    intro e1 r he1 hs
    obtain ⟨A', B', s4, s5, rfl, hA', hE', _⟩ := hM.split_at he1
    have := effect_sees hE' hs
    rw [hA'.slot_kept hs0 hlt0 fun v e2 h2 => hc v e2 (by simp [h2])] at this
    exact this.symm
  have f3 : e' ∈ eventsOf u (A ++ (t, e) :: B ++ M) := mem_eventsOf.mpr (List.mem_append_right _ f1)
  obtain ⟨q2, rest2, o2, hq2, hv2, _⟩ := (l6 u).trace (h.accepted u) f3
  obtain rfl := requestIs_unique hq' hq2
  obtain ⟨past2, hp2, hg2⟩ := guarded_mem (hv2.handle_reply hd') f3
  rcases hg2 a' r' f4 with ⟨⟨y', hy', hs'⟩, _⟩ | ⟨x', ⟨y', hy', hs'⟩, y2, hy2, hu2⟩
  · cases key y' none (hin (hp2 y' hy')) hs'
  · cases key y' _ (hin (hp2 y' hy')) hs'
    rw [l4]
    exact mem_obsOf.mpr ⟨y2, hin (hp2 y2 hy2), obs_handle.mpr hu2⟩

-- After OPEN and OPENDIR, the file is released; reading it fails, reading the directory does not.
example : let msgs := [demoOpen 1, demoOpendir 1, demoRelease 1, demoRead 1, demoReaddir 2]
    (∀ m ∈ msgs, 40 ≤ m.length ∧ u64At m 8 ≠ 0 ∧ u32At m 0 ≤ m.length) ∧
    demoRun msgs [0, 0, 0, 0, 0, 1, 1, 1, 1, 1, 2, 2, 3, 4, 3, 4, 4, 4] =
      [(0, .node 100), (0, .opened (.inl 7) 0), (0, .sent [0, 0, 0, 0, 1, 0, 0, 0, 0, 0, 0, 0] true),
       (1, .node 100), (1, .opened (.inr 8) 0), (1, .sent [0, 0, 0, 0, 2, 0, 0, 0, 0, 0, 0, 0] true),
       (2, .handle (.inl 7)), (2, .released (.inl 7)), (2, .sent [0, 0, 0, 0] true),
       (3, .sent [234, 255, 255, 255] true), (4, .handle (.inr 8)), (4, .sent [0, 0, 0, 0] true)] := by
  decide +kernel

end

end Fuse
