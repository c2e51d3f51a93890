import Verif.VfsReport

/-!
# C46, C55: every request is answered once, with what the implementation returned
-/

namespace Fuse

open Spec VfsEv

variable {ν φ η σ ε : Type}

/-- The opcodes the VFS layer handles: LOOKUP, FORGET, GETATTR, READLINK, OPEN, READ, WRITE, STATFS, RELEASE,
GETXATTR, LISTXATTR, OPENDIR, READDIR, RELEASEDIR, BATCH_FORGET, READDIRPLUS. -/
def vfsOpcodes : List Nat := [1, 2, 3, 5, 14, 15, 16, 17, 18, 22, 23, 27, 28, 29, 42, 44]

theorem vfsRequestType_none {layout : FuseLayout} {checks : Bool} {n : Nat} :
    vfsRequestType layout checks n = none ↔ n ∉ vfsOpcodes := by
  unfold vfsRequestType vfsOpcodes
  split <;> simp_all

/-! ## C46 -/

section
variable {fs : Filesystem ν φ η σ ε} {root : ν} {w0 : σ} {bufs : Nat → Bytes}
  {tr : List (Nat × Vfs ν φ η (σ × List (Obs ν φ η)) × Vfs ν φ η (σ × List (Obs ν φ η)))}
  {pool : Nat → Prog (Vfs ν φ η (σ × List (Obs ν φ η))) (Option (Outcome ε Unit))}
  {s : Vfs ν φ η (σ × List (Obs ν φ η))}

/-- A thread whose only trace is empty. -/
theorem Follows.nothing {r : Request} {hdr : FuseInHeader} {p} {evs : List (VfsEv ν φ η ε)}
    (h : Follows fs.recorded r hdr p evs) {out} (hd : ∀ l o, DispatchTrace fs.recorded r hdr l o → l = [] ∧ o = out) :
    p = .done out ∧ evs = [] := by
  obtain ⟨rest, o, h1, h2, h3⟩ := h
  obtain ⟨hl, rfl⟩ := hd _ _ h1
  obtain ⟨rfl, rfl⟩ := List.append_eq_nil_iff.mp hl
  cases p with
  | done o' => exact ⟨by rw [(h2 o' rfl).2], rfl⟩
  | step f k => exact absurd rfl (h3 f k rfl)

theorem no_steps {L : List (Nat × VfsEv ν φ η ε)} {t : Nat} (h : eventsOf t L = []) : t ∉ L.map (·.1) := by
  intro hm
  obtain ⟨x, hx, rfl⟩ := List.mem_map.mp hm
  have : x.2 ∈ eventsOf x.1 L := mem_eventsOf.mpr hx
  rw [h] at this
  cases this

theorem steps_eq {L : List (Nat × VfsEv ν φ η ε)} {α : Type} {tr : List (Nat × α)} (t : Nat)
    (h : L.map (·.1) = tr.map (·.1)) : (eventsOf t L).length = (tr.filter fun x => x.1 == t).length := by
  unfold eventsOf
  rw [List.length_map, ← List.countP_eq_length_filter, ← List.countP_eq_length_filter]
  have h1 := congrArg (List.countP (· == t)) h
  rwa [List.countP_map, List.countP_map] at h1

/-- **C46**: an opcode the VFS layer does not handle is handed back to the caller (`none`) at once: nothing is
sent and no method is called. -/
theorem C46_unsupported (h : Serving fs root w0 bufs tr pool s) {t} (ho : u32At (bufs t) 4 ∉ vfsOpcodes) :
    pool t = .done none ∧ t ∉ tr.map (·.1) := by
  obtain ⟨L, _, _, _, l1, _, _, _, h2, _⟩ := h.hist (.nil _ _)
  have hh := hdrOf_ok (h.accepted t)
  obtain ⟨h3, h4⟩ := (h2 t).nothing (out := none) (by
    intro l o hd
    cases hd with
    | unsupported => exact ⟨rfl, rfl⟩
    | malformed ht | broken ht | handled ht =>
      rw [hh.2.2.1] at ht
      rw [vfsRequestType_none.mpr ho] at ht
      cases ht)
  refine ⟨h3, ?_⟩
  rw [← l1]
  exact no_steps h4

/-- **C46**: a message that is not a well-formed request of its opcode is reported to the caller at once:
nothing is sent and no method is called. -/
theorem C46_malformed (h : Serving fs root w0 bufs tr pool s) {t ty e}
    (ht : vfsRequestType fs.layout fs.checks (u32At (bufs t) 4) = some ty)
    (hd : decodeMessage ty (bufs t) = .error (.req e)) :
    pool t = .done (some (.err (.request e))) ∧ t ∉ tr.map (·.1) := by
  obtain ⟨L, _, _, _, l1, _, _, _, h2, _⟩ := h.hist (.nil _ _)
  have hh := hdrOf_ok (h.accepted t)
  unfold decodeMessage at hd
  rw [h.accepted t] at hd
  obtain ⟨h3, h4⟩ := (h2 t).nothing (out := some (.err (.request e))) (by
    intro l o hx
    rw [← hh.2.2.1] at ht
    cases hx with
    | unsupported ht' =>
      cases ht.symm.trans ht'
    | malformed ht' hd' =>
      cases ht.symm.trans ht'
      cases hd.symm.trans hd'
      exact ⟨rfl, rfl⟩
    | broken ht' hd' =>
      cases ht.symm.trans ht'
      rcases hd' with ⟨f, hd'⟩ | ⟨a, hd', _⟩ <;> cases hd.symm.trans hd'
    | handled ht' hd' =>
      cases ht.symm.trans ht'
      cases hd.symm.trans hd')
  refine ⟨h3, ?_⟩
  rw [← l1]
  exact no_steps h4

/-- **C46**: a thread makes at most five steps, and an unfinished thread fewer than five, so every request is
dealt with after a bounded number of steps whatever the other threads do. -/
theorem C46_bounded (h : Serving fs root w0 bufs tr pool s) (t : Nat) :
    (tr.filter fun x => x.1 == t).length ≤ 5 ∧
    ((tr.filter fun x => x.1 == t).length < 5 ∨ ∃ o, pool t = .done o) := by
  obtain ⟨L, _, _, _, l1, _, _, _, h2, _⟩ := h.hist (.nil _ _)
  rw [← steps_eq t l1]
  obtain ⟨rest, o, h3, h4, h5⟩ := h2 t
  have : (eventsOf t L ++ rest).length ≤ 5 := by
    cases hl : eventsOf t L ++ rest with
    | nil => exact Nat.zero_le _
    | cons x l =>
      rw [hl] at h3
      cases h3 with
      | handled _ _ hv => exact hv.short
  rw [List.length_append] at this
  refine ⟨by omega, ?_⟩
  cases hp : pool t with
  | done o => exact .inr ⟨o, rfl⟩
  | step f k =>
    left
    have := List.length_pos_iff.mpr (h5 f k hp)
    omega

/-- What a finished thread with a well-formed request has done. -/
theorem Follows.whole {t} {L : List (Nat × VfsEv ν φ η ε)} {p} (ha : Request.new (bufs t) = .ok ⟨bufs t⟩)
    (hf : Follows fs.recorded ⟨bufs t⟩ (hdrOf (bufs t)) p (eventsOf t L)) {q} (hq : RequestIs fs (bufs t) q)
    (hz : q.AccessorsReturn)
    {o} (hp : p = .done o) : ∃ o', o = some o' ∧ VfsTrace fs.recorded q (eventsOf t L) o' := by
  obtain ⟨rest, out, h1, h2, _⟩ := hf
  obtain ⟨rfl, rfl⟩ := h2 o hp
  rw [List.append_nil] at h1
  generalize eventsOf t L = evs at h1
  obtain ⟨ty, ht, hd⟩ := hq
  unfold decodeMessage at hd
  rw [ha] at hd
  rw [← (hdrOf_ok ha).2.2.1] at ht
  cases h1 with
  | unsupported ht' => cases ht.symm.trans ht'
  | malformed ht' hd' =>
    cases ht.symm.trans ht'
    cases hd.symm.trans hd'
  | broken ht' hb =>
    cases ht.symm.trans ht'
    rcases hb with ⟨f, hb⟩ | ⟨a, hb, hn⟩
    · cases hd.symm.trans hb
    · cases hd.symm.trans hb
      exact absurd hz hn
  | handled ht' hd' hv =>
    cases ht.symm.trans ht'
    cases hd.symm.trans hd'
    exact ⟨_, rfl, hv⟩

/-- Every handler returns, unless a `lookup` method gives the node number 0 or the counters are used up. -/
theorem Serving.no_fault (h : Serving fs root w0 bufs tr pool s) {t q f}
    (hq : RequestIs fs (bufs t) q)
    (hz : q.AccessorsReturn)
    (hl : tr.length + 2 < 2 ^ 64) (hn : ∀ v, (t, .found v 0) ∉ observed tr) :
    pool t ≠ .done (some (.fault f)) := by
  intro hp
  obtain ⟨L, _, hL, _, l1, _, l3, _, h2, _⟩ := h.hist (.nil _ _)
  obtain ⟨o, ho, hv⟩ := (h2 t).whole (h.accepted t) hq hz hp
  cases ho
  have hlen : L.length = tr.length := by
    have := congrArg List.length l1
    simpa using this
  rcases hv.faults with ⟨e, he, v, hf⟩ | he | ⟨i, he⟩
  · refine hn v ?_
    rw [l3]
    exact mem_obsOf.mpr ⟨e, mem_eventsOf.mp he, obs_found.mpr hf⟩
  · obtain ⟨A, B, s1, s2, rfl, hA, hE, _⟩ := hL.split_at (mem_eventsOf.mp he)
    have h3 := hA.next_le
    have h4 : s1.handles.nextHandleId.toNat + 1 = 2 ^ 64 := hE.1
    have h5 : (Vfs.new root (w0, []) : Vfs ν φ η (σ × List (Obs ν φ η))).handles.nextHandleId.toNat = 1 := rfl
    rw [List.length_append] at hlen
    omega
  · obtain ⟨A, B, s1, s2, rfl, hA, hE, _⟩ := hL.split_at (mem_eventsOf.mp he)
    obtain ⟨⟨y, hy, h4⟩, _⟩ := hE
    have h3 := hA.count_upper i
    rw [new_count] at h3
    have h5 : s1.count i = y.lookupCount.toNat := by
      unfold Vfs.count
      rw [hy]
      rfl
    have := total_addsFor_le i A
    rw [List.length_append] at hlen
    omega

/-- What a finished thread has sent. -/
theorem Serving.answered (h : Serving fs root w0 bufs tr pool s) {t q o}
    (hq : RequestIs fs (bufs t) q)
    (hz : q.AccessorsReturn)
    (hl : tr.length + 2 < 2 ^ 64) (hn : ∀ v, (t, .found v 0) ∉ observed tr) (hp : pool t = .done o) :
    ((∃ f, q = .forget f) ∧ o = some (.ok ()) ∧ messagesOf t (observed tr) = []) ∨
    ((∀ f, q ≠ .forget f) ∧
      ((∃ m ok, messagesOf t (observed tr) = [(m, ok)] ∧ u64At m 8 = u64At (bufs t) 8 ∧ u32At m 0 = m.length ∧
          (ok = true → o = some (.ok ())) ∧ (ok = false → ∃ e, o = some (.err (.send e)))) ∨
       (messagesOf t (observed tr) = [] ∧ ∃ n, 2 ^ 32 ≤ n ∧ o = some (.err (.send (.replyTooBig n)))))) := by
  have hnf := fun f => h.no_fault (f := f) hq hz hl hn
  obtain ⟨L, _, hL, _, l1, _, l3, _, h2, _⟩ := h.hist (.nil _ _)
  obtain ⟨o', rfl, hv⟩ := (h2 t).whole (h.accepted t) hq hz hp
  have hh := hdrOf_ok (h.accepted t)
  rw [l3, messagesOf_obsOf]
  rcases hv.ends with ⟨f, rfl⟩ | ⟨f, rfl, h3, rfl⟩ | ⟨h3, A, a, r, B, h4, h5, rfl⟩
  · exact absurd hp (hnf f)
  · left
    rw [h3]
    exact ⟨⟨f, rfl⟩, rfl, rfl⟩
  · refine .inr ⟨h3, ?_⟩
    have hm : ∀ l : List (VfsEv ν φ η ε), (∀ e ∈ l, e.sends = none) →
        l.flatMap (evMessages fs.layout.versionMinor.toNat (hdrOf (bufs t)).unique) = [] := by
      intro l hl
      rw [List.flatMap_eq_nil_iff]
      intro e he
      have := hl e he
      cases e <;> first
        | rfl
        | (cases this; done)
    have he : VfsEv.sent a r ∈ eventsOf t L := by rw [h4]; simp
    rw [h4, List.flatMap_append, List.flatMap_cons, hm A fun e he => h5 e (List.mem_append_left _ he),
      hm B fun e he => h5 e (List.mem_append_right _ he), List.append_nil, List.nil_append]
    by_cases hs : 16 + (a.payload fs.layout.versionMinor.toNat).length < 2 ^ 32
    · refine .inl ⟨_, _, if_pos hs, ?_, (C17_frame _ _ _ hs).1, ?_, ?_⟩
      · rw [frame_id]
        exact hh.2.2.2
      · intro hr
        cases r with
        | ok u => rfl
        | error e => cases hr
      · intro hr
        cases r with
        | ok u => cases hr
        | error e => exact ⟨e, rfl⟩
    · refine .inr ⟨if_neg hs, ?_⟩
      obtain ⟨_, _, s1, s2, _, _, hE, _⟩ := hL.split_at (mem_eventsOf.mp he)
      have h6 := hE.1.2 hs
      injection h6 with h6 _
      rw [h6]
      exact ⟨_, by dsimp only [Filesystem.recorded]; omega, rfl⟩

/-- **C46**: a finished thread with a well-formed request has sent exactly one message, carrying the request's
ID and its own length, and `dispatch` reports whether the socket accepted it; FORGET is not answered.
Missing for the full claim: a reply of `2^32` bytes or more is not sent, but reported to the caller; and the
conditions of `DecodeHazard`, of implementations whose `lookup` returns the node number 0 (which the library's
types exclude), and of executions of about `2^64` steps, in which the counters would overflow. -/
theorem C46_answered_partial (h : Serving fs root w0 bufs tr pool s) {t q o}
    (hq : RequestIs fs (bufs t) q)
    (hz : ∀ ty, vfsRequestType fs.layout fs.checks (u32At (bufs t) 4) = some ty → ¬ DecodeHazard ty (bufs t))
    (hl : tr.length + 2 < 2 ^ 64) (hn : ∀ v, (t, .found v 0) ∉ observed tr) (hp : pool t = .done o) :
    ((∃ f, q = .forget f) ∧ o = some (.ok ()) ∧ messagesOf t (observed tr) = []) ∨
    ((∀ f, q ≠ .forget f) ∧
      ((∃ m ok, messagesOf t (observed tr) = [(m, ok)] ∧ u64At m 8 = u64At (bufs t) 8 ∧ u32At m 0 = m.length ∧
          (ok = true → o = some (.ok ())) ∧ (ok = false → ∃ e, o = some (.err (.send e)))) ∨
       (messagesOf t (observed tr) = [] ∧ ∃ n, 2 ^ 32 ≤ n ∧ o = some (.err (.send (.replyTooBig n)))))) :=
  h.answered hq (by
    obtain ⟨ty, ht, hd⟩ := hq
    exact (C04_memory_safe_partial ty (bufs t) (hz ty ht)).2 _ hd) hl hn hp

/-! ## C55 -/

/-- **C55**: the message sent for a request says what the implementation's method returned.  `id` is the
request's ID, `minor` the session's minor version.  Either
* a method of the implementation returned a result, and the message is this result; or
* an `open` or `opendir` method returned an object, and the message announces a handle and the flags the
  method gave; or
* no method returned a result: the node or handle was not found (then no method was called at all, and the
  message is "invalid argument"), or it is not of the kind the request needs (then the message is "not a
  directory" for LOOKUP and OPENDIR, "not supported" for the others). -/
theorem C55_reports (h : Serving fs root w0 bufs tr pool s) {t m b q} (hm : (t, .sent m b) ∈ observed tr)
    (hq : RequestIs fs (bufs t) q) :
    let id := (hdrOf (bufs t)).unique
    let minor := fs.layout.versionMinor.toNat
    (∃ a, (t, .returned a) ∈ observed tr ∧ m = frame id a.error (a.payload minor)) ∨
    (∃ x fl fh, (t, .opened x fl) ∈ observed tr ∧ m = frame id 0 (le64 fh ++ le32 fl ++ le32 0)) ∨
    ((∀ a, (t, .returned a) ∉ observed tr) ∧ (∀ x fl, (t, .opened x fl) ∉ observed tr) ∧
      ((((∃ x, (t, .node x) ∈ observed tr) ∨ ∃ x, (t, .handle x) ∈ observed tr) ∧
        (q.NeedsDir ∧ m = frame id fs.os.notDirectory.val [] ∨ ¬ q.NeedsDir ∧ m = frame id fs.os.notSupported.val [])) ∨
       ((∀ x, (t, .node x) ∉ observed tr) ∧ (∀ x, (t, .handle x) ∉ observed tr) ∧
        m = frame id fs.os.invalidArgument.val []))) := by
  intro id minor
  obtain ⟨L, _, hL, _, _, _, l3, _, h2, _⟩ := h.hist (.nil _ _)
  rw [l3] at hm ⊢
  obtain ⟨e, e1, e2⟩ := mem_obsOf.mp hm
  obtain ⟨a, r, e3, _, e5, _⟩ := obs_sent e2
  obtain ⟨q1, rest, o, hq1, hv, _⟩ := (h2 t).trace (h.accepted t) (mem_eventsOf.mpr e1)
  obtain rfl := requestIs_unique hq hq1
  have hb : ∀ {y}, y ∈ eventsOf t L → y ∈ eventsOf t L ++ rest := fun h => List.mem_append_left _ h
  have hin : ∀ {y : VfsEv ν φ η ε} {ob}, y ∈ eventsOf t L → ob ∈ y.obs fs.layout.versionMinor.toNat (hdrOf (bufs t)) →
      (t, ob) ∈ obsOf fs.layout.versionMinor.toNat (fun t => hdrOf (bufs t)) L :=
    fun hy ho => mem_obsOf.mpr ⟨_, mem_eventsOf.mp hy, ho⟩
  obtain ⟨past, hp, hg⟩ := guarded_mem hv.reports (mem_eventsOf.mpr e1)
  rcases hg a r e3 with ⟨y, hy, hr⟩ | ⟨x, fl, fh, ⟨y, hy, hr⟩, _, rfl⟩ | ⟨hno, hrest⟩
  · exact .inl ⟨a, hin (hp y hy) (obs_returned.mpr hr), e5⟩
  · refine .inr (.inl ⟨x, fl, fh, hin (hp y hy) (obs_opened.mpr hr), ?_⟩)
    rw [e5]
    rfl
  · refine .inr (.inr ⟨fun a' ha => ?_, fun x fl hx => ?_, ?_⟩)
    · obtain ⟨y, y1, y2⟩ := mem_obsOf.mp ha
      have := (hno y (hb (mem_eventsOf.mpr y1))).1
      rw [obs_returned.mp y2] at this
      cases this
    · obtain ⟨y, y1, y2⟩ := mem_obsOf.mp hx
      have := (hno y (hb (mem_eventsOf.mpr y1))).2
      rw [obs_opened.mp y2] at this
      cases this
    · rcases hrest with ⟨⟨y, hy, hu⟩, hk⟩ | ⟨hu, rfl⟩
      · refine .inl ⟨?_, ?_⟩
        · rcases hu with ⟨x, hu⟩ | ⟨x, hu⟩
          · exact .inl ⟨x, hin (hp y hy) (obs_node.mpr hu)⟩
          · exact .inr ⟨x, hin (hp y hy) (obs_handle.mpr hu)⟩
        · rcases hk with ⟨hk, rfl⟩ | ⟨hk, rfl⟩
          · exact .inl ⟨hk, e5⟩
          · exact .inr ⟨hk, e5⟩
      · refine .inr ⟨fun x hx => ?_, fun x hx => ?_, e5⟩
        · obtain ⟨y, y1, y2⟩ := mem_obsOf.mp hx
          have := (hu y (hb (mem_eventsOf.mpr y1))).1
          rw [obs_node.mp y2] at this
          cases this
        · obtain ⟨y, y1, y2⟩ := mem_obsOf.mp hx
          have := (hu y (hb (mem_eventsOf.mpr y1))).2
          rw [obs_handle.mp y2] at this
          cases this

/-- **C55**: at most one result is returned per request, so the message says *the* result. -/
theorem C55_single (h : Serving fs root w0 bufs tr pool s) {t a a'} (ha : (t, .returned a) ∈ observed tr)
    (ha' : (t, .returned a') ∈ observed tr) : a = a' := by
  obtain ⟨L, _, hL, _, _, _, l3, _, h2, _⟩ := h.hist (.nil _ _)
  rw [l3] at ha ha'
  obtain ⟨y, y1, y2⟩ := mem_obsOf.mp ha
  obtain ⟨y', y1', y2'⟩ := mem_obsOf.mp ha'
  obtain ⟨q1, rest, o, hq1, hv, _⟩ := (h2 t).trace (h.accepted t) (mem_eventsOf.mpr y1)
  exact filterMap_unique hv.result_once (List.mem_append_left _ (mem_eventsOf.mpr y1))
    (List.mem_append_left _ (mem_eventsOf.mpr y1')) (obs_returned.mp y2) (obs_returned.mp y2')

/-- **C46** does not hold for oversized results: if a method returned a result that does not fit into a message, no
message is sent for the request, now or later. -/
theorem C46_violated_oversized (h : Serving fs root w0 bufs tr pool s) (h2 : Runs pool s tr2 pool2 s2) {t a}
    (ha : (t, .returned a) ∈ observed tr) (hbig : 2 ^ 32 ≤ 16 + (a.payload fs.layout.versionMinor.toNat).length) :
    messagesOf t (observed (tr ++ tr2)) = [] := by
  have h' : Serving fs root w0 bufs (tr ++ tr2) pool2 s2 := ⟨h.accepted, h.runs.append h2⟩
  have ha' : (t, .returned a) ∈ observed (tr ++ tr2) := by
    rw [observed_append]
    exact List.mem_append_left _ ha
  clear h2 ha h
  obtain ⟨L, _, hL, _, _, _, l3, _, h2, _⟩ := h'.hist (.nil _ _)
  rw [l3] at ha' ⊢
  obtain ⟨y, y1, y2⟩ := mem_obsOf.mp ha'
  obtain ⟨q1, rest, o, hq1, hv, _⟩ := (h2 t).trace (h'.accepted t) (mem_eventsOf.mpr y1)
  refine Classical.byContradiction fun hne => ?_
  obtain ⟨⟨m, b⟩, hm⟩ := List.exists_mem_of_ne_nil _ hne
  obtain ⟨⟨u, x⟩, hx, hy⟩ := List.mem_filterMap.mp hm
  have hx' : u = t ∧ x = .sent m b := by
    cases x <;> simp at hy
    exact ⟨hy.1, by rw [hy.2.1, hy.2.2]⟩
  obtain ⟨rfl, rfl⟩ := hx'
  obtain ⟨e, e1, e2⟩ := mem_obsOf.mp hx
  obtain ⟨a', r, e3, e4, _, _⟩ := obs_sent e2
  have := hv.result_sent (List.mem_append_left _ (mem_eventsOf.mpr y1)) (List.mem_append_left _ (mem_eventsOf.mpr e1))
    (obs_returned.mp y2) e3
  subst this
  omega

end

/-- The small filesystem with a root that is a symbolic link to `target`. -/
def linkFs (target : CStr) : Filesystem Nat Nat Nat Unit Unit :=
  { demoFs with impl := { demoImpl with
      asSymlink := fun v s => (some v, s)
      readlink := fun _ _ _ s => (.ok target, s) } }

/-- READLINK of the root. -/
def linkSched (target : CStr) (ts : List Nat) :=
  sched (fun t => (linkFs target).recorded.dispatch ⟨demoBufs [demoMsg 5 12 1 []] t⟩) (Vfs.new 100 ((), [])) ts

/-- **C46** does not hold: a well-formed READLINK of a link with a target of `2^32 - 16` bytes or more is not answered;
`dispatch` returns with an error. -/
theorem C46_violated (target : CStr) (hbig : 2 ^ 32 ≤ 16 + target.bytes.length) :
    ∃ tr pool s n, Serving (linkFs target) 100 () (demoBufs [demoMsg 5 12 1 []]) tr pool s ∧
      RequestIs (linkFs target) (demoMsg 5 12 1 []) (.readlink ⟨⟨1, by decide⟩⟩) ∧
      pool 0 = .done (some (.err (.send (.replyTooBig n)))) ∧ messagesOf 0 (observed tr) = [] := by
  have hs : Serving (linkFs target) 100 () (demoBufs [demoMsg 5 12 1 []]) (linkSched target [0, 0, 0, 0]).1 (linkSched target [0, 0, 0, 0]).2.1
      (linkSched target [0, 0, 0, 0]).2.2 := ⟨(demo_serving [demoMsg 5 12 1 []] [] (by decide +kernel)).accepted, sched_runs _ _ _⟩
  have hq : RequestIs (linkFs target) (demoMsg 5 12 1 []) (.readlink ⟨⟨1, by decide⟩⟩) :=
    ⟨.readlink, by with_unfolding_all rfl, by with_unfolding_all rfl⟩
  have hw : (linkSched target [0, 0, 0, 0]).2.1 0 = .done (some (afterSend ((linkResult (.ok target)).run
      (.new (linkFs target).recorded.sock ⟨31, 0⟩ ⟨12, by decide⟩) (linkSched target [0, 0, 0]).2.2.world).1)) := by
    with_unfolding_all rfl
  have hp : 16 + ((linkResult (.ok target)).payload 31).length > 0xFFFFFFFF :=
    show 16 + target.bytes.length > 0xFFFFFFFF by omega
  rw [C18_fuse _ ⟨31, 0⟩ _ _ _ hp] at hw
  have hr : (0, .returned (linkResult (.ok target))) ∈ observed (linkSched target [0, 0, 0, 0]).1 :=
    List.mem_of_getElem? (i := 3) (by with_unfolding_all rfl)
  have hm := C46_violated_oversized hs (.nil _ _) hr hbig
  rw [List.append_nil] at hm
  exact ⟨_, _, _, _, hs, hq, hw, hm⟩

example (n : Nat) (hn : 2 ^ 32 ≤ n + 16) : ∃ tr pool s k,
    Serving (linkFs ⟨List.replicate n 0x61⟩) 100 () (demoBufs [demoMsg 5 12 1 []]) tr pool s ∧
    pool 0 = .done (some (.err (.send (.replyTooBig k)))) := by
  obtain ⟨tr, pool, s, k, h1, _, h2, _⟩ := C46_violated ⟨List.replicate n 0x61⟩ (by
    rw [List.length_replicate]; omega)
  exact ⟨tr, pool, s, k, h1, h2⟩

-- POLL (not handled), a LOOKUP whose name is not terminated, FORGET, READ through an unknown handle, READLINK
-- of a node that is no symlink, and GETATTR, step by step in turns.
example : let msgs := [demoMsg 40 10 1 [], demoMsg 1 11 1 [97], demoForget 2 1, demoRead 9, demoMsg 5 12 1 [],
      demoGetattr 1]
    let run := demoSched msgs [0, 1, 2, 3, 4, 5, 0, 1, 2, 3, 4, 5, 4, 5]
    (∀ m ∈ msgs, 40 ≤ m.length ∧ u64At m 8 ≠ 0 ∧ u32At m 0 ≤ m.length) ∧
    (List.range 6).map (fun t => (run.2.1 t).isDone) = [true, true, true, true, true, true] ∧
    run.1.map (·.1) = [2, 3, 4, 5, 3, 4, 5, 4, 5] ∧
    (List.range 6).map (fun t => (messagesOf t (observed run.1)).map fun x => x.1.take 16) =
      [[], [], [],
       [[16, 0, 0, 0, 234, 255, 255, 255, 30, 0, 0, 0, 0, 0, 0, 0]],
       [[16, 0, 0, 0, 161, 255, 255, 255, 12, 0, 0, 0, 0, 0, 0, 0]],
       [[120, 0, 0, 0, 0, 0, 0, 0, 60, 0, 0, 0, 0, 0, 0, 0]]] := by
  decide +kernel

-- The result of `getattr`, and the reply.
example : let run := demoSched [demoGetattr 1] [0, 0, 0]
    let attr : FuseAnswer := .ok (.attr { attr := demoAttr.raw, attr_valid := 1 })
    (0, .returned attr) ∈ observed run.1 ∧ attr.error = 0 ∧
    (0, .sent (frame 60 0 (attr.payload 31)) true) ∈ observed run.1 := by
  decide +kernel

end Fuse
