import Verif.PropVfsReply

/-!
# C56: which methods of the implementation are called, on what, and with which arguments
-/

namespace Fuse

open Spec VfsEv

variable {ν φ η σ ε : Type}

/-- The kind of object a request needs; `none` if its method is one of `Node`, `FileHandle` or
`DirectoryHandle`. -/
def AnyRequest.kind : AnyRequest → Option VfsKind
  | .lookup _ | .opendir _ => some .directory
  | .open_ _ => some .file
  | .readlink _ => some .symlink
  | .readdir _ => some .readdir
  | .readdirplus _ => some .readdirplus
  | .read _ => some .read
  | .write _ => some .write
  | _ => none

namespace VfsEv

/-- The event is a call of a method with a request. -/
def calls : VfsEv ν φ η ε → Option ((ν ⊕ φ ⊕ η) × AnyRequest)
  | .getattr v q _ => some (.inl v, .getattr q)
  | .getxattr v q _ => some (.inl v, .getxattr q)
  | .listxattr v q _ => some (.inl v, .listxattr q)
  | .statfs v q _ => some (.inl v, .statfs q)
  | .lookup v q _ => some (.inl v, .lookup q)
  | .opendir v q _ => some (.inl v, .opendir q)
  | .open_ v q _ => some (.inl v, .open_ q)
  | .readlink v q _ => some (.inl v, .readlink q)
  | .readdir x q _ => some (.inr (.inr x), .readdir q)
  | .readdirplus x q _ => some (.inr (.inr x), .readdirplus q)
  | .read x q _ => some (.inr (.inl x), .read q)
  | .write x q _ => some (.inr (.inl x), .write q)
  | .releaseFailed _ x q _ | .released _ x q => some (.inr (.inl x), .release q)
  | .releasedirFailed _ x q _ | .releasedDir _ x q => some (.inr (.inr x), .releasedir q)
  | _ => none

/-- The event asks an object whether it is of some kind. -/
def asks : VfsEv ν φ η ε → Option (VfsKind × (ν ⊕ φ ⊕ η) × Option (ν ⊕ φ ⊕ η))
  | .asDirectory v r => some (.directory, .inl v, r.map .inl)
  | .asFile v r => some (.file, .inl v, r.map .inl)
  | .asSymlink v r => some (.symlink, .inl v, r.map .inl)
  | .asReaddir x r => some (.readdir, .inr (.inr x), r.map fun y => .inr (.inr y))
  | .asReaddirplus x r => some (.readdirplus, .inr (.inr x), r.map fun y => .inr (.inr y))
  | .asRead x r => some (.read, .inr (.inl x), r.map fun y => .inr (.inl y))
  | .asWrite x r => some (.write, .inr (.inl x), r.map fun y => .inr (.inl y))
  | _ => none

end VfsEv

/-- The event is a call of a method of an object taken from one of the maps. -/
def VfsEv.UsesObj (e : VfsEv ν φ η ε) : ν ⊕ φ ⊕ η → Prop
  | .inl v => e.usesNode = some v
  | .inr x => e.uses = some x

section
variable {minor : Nat} {hdr : FuseInHeader} {e : VfsEv ν φ η ε}

theorem obs_called {x : ν ⊕ φ ⊕ η} {h : FuseInHeader} {q : AnyRequest} :
    Obs.called x h q ∈ e.obs minor hdr ↔ h = hdr ∧ e.calls = some (x, q) := by
  cases e with
  | sent a r =>
    simp only [VfsEv.obs]
    split <;> simp [calls]
  | lookup v q r =>
    cases r with
    | error e => simp [VfsEv.obs, lookupObs, calls, eq_comm, and_left_comm]
    | ok res =>
      cases hn : res.node with
      | none => simp [VfsEv.obs, lookupObs, calls, hn, eq_comm, and_left_comm]
      | some p => simp [VfsEv.obs, lookupObs, calls, hn, eq_comm, and_left_comm]
  | open_ v q r => cases r <;> simp [VfsEv.obs, openObs, calls, eq_comm, and_left_comm]
  | opendir v q r => cases r <;> simp [VfsEv.obs, openObs, calls, eq_comm, and_left_comm]
  | _ => simp [VfsEv.obs, releaseObs, calls, eq_comm, and_left_comm]

theorem obs_asked {k : VfsKind} {x : ν ⊕ φ ⊕ η} {r : Option (ν ⊕ φ ⊕ η)} :
    Obs.asked k x r ∈ e.obs minor hdr ↔ e.asks = some (k, x, r) := by
  cases e with
  | sent a r =>
    simp only [VfsEv.obs]
    split <;> simp [asks]
  | lookup v q r =>
    cases r with
    | error e => simp [VfsEv.obs, lookupObs, asks]
    | ok res =>
      cases hn : res.node with
      | none => simp [VfsEv.obs, lookupObs, asks, hn]
      | some p => simp [VfsEv.obs, lookupObs, asks, hn]
  | open_ v q r => cases r <;> simp [VfsEv.obs, openObs, asks]
  | opendir v q r => cases r <;> simp [VfsEv.obs, openObs, asks]
  | _ => simp [VfsEv.obs, releaseObs, asks, eq_comm]

end

section
variable {fs : Filesystem ν φ η σ ε} {q : AnyRequest} {evs : List (VfsEv ν φ η ε)} {out : Outcome ε Unit}

/-- Methods are called with the request. -/
theorem VfsTrace.calls_own (h : VfsTrace fs q evs out) :
    ∀ e ∈ evs, ∀ x q', e.calls = some (x, q') → q' = q := by
  cases h <;> simp [calls, eq_comm]

/-- At most one method is called. -/
theorem VfsTrace.calls_once (h : VfsTrace fs q evs out) : (evs.filterMap calls).length ≤ 1 := by
  cases h <;> first | exact Nat.le_refl 1 | exact Nat.zero_le 1

/-- What a method is called on. -/
theorem VfsTrace.calls_object (h : VfsTrace fs q evs out) :
    Guarded (fun past e => ∀ x q', e.calls = some (x, q') →
      (q.kind = none ∧ e.UsesObj x) ∨
      ∃ k y, q.kind = some k ∧ ∃ e' ∈ past, e'.asks = some (k, y, some x) ∧ e'.UsesObj y) [] evs := by
  cases h <;> simp [Guarded, calls, asks, AnyRequest.kind, UsesObj, usesNode, uses]

/-- Objects are asked for the request's kind only. -/
theorem VfsTrace.asks_own (h : VfsTrace fs q evs out) :
    ∀ e ∈ evs, ∀ k y r, e.asks = some (k, y, r) → q.kind = some k ∧ e.UsesObj y := by
  cases h <;> simp [asks, AnyRequest.kind, UsesObj, usesNode, uses]

/-- After a negative answer nothing is called. -/
theorem VfsTrace.asks_none (h : VfsTrace fs q evs out) :
    ∀ e ∈ evs, ∀ k y, e.asks = some (k, y, none) → ∀ e' ∈ evs, e'.calls = none := by
  cases h <;> simp [asks, calls]

end

section
variable {fs : Filesystem ν φ η σ ε} {root : ν} {w0 : σ} {bufs : Nat → Bytes}
  {tr : List (Nat × Vfs ν φ η (σ × List (Obs ν φ η)) × Vfs ν φ η (σ × List (Obs ν φ η)))}
  {pool : Nat → Prog (Vfs ν φ η (σ × List (Obs ν φ η))) (Option (Outcome ε Unit))}
  {s : Vfs ν φ η (σ × List (Obs ν φ η))}

/-- A method of `x`, taken from one of the maps, is called by thread `t`. -/
def Uses (obs : List (Nat × Obs ν φ η)) (t : Nat) : ν ⊕ φ ⊕ η → Prop
  | .inl v => (t, .node v) ∈ obs
  | .inr x => (t, .handle x) ∈ obs

theorem usesObj_obs {t : Nat} {L : List (Nat × VfsEv ν φ η ε)} {minor : Nat} {hdr : Nat → FuseInHeader}
    {e : VfsEv ν φ η ε} {x : ν ⊕ φ ⊕ η} (he : (t, e) ∈ L) (h : e.UsesObj x) : Uses (obsOf minor hdr L) t x := by
  cases x with
  | inl v => exact mem_obsOf.mpr ⟨e, he, obs_node.mpr h⟩
  | inr y => exact mem_obsOf.mpr ⟨e, he, obs_handle.mpr h⟩

/-- **C56**: a method is called with the header and the request that its message is decoded to. -/
theorem C56_arguments (h : Serving fs root w0 bufs tr pool s) {t x hd q} (hc : (t, .called x hd q) ∈ observed tr) :
    layout_fuse_in_header hd = (bufs t).take 40 ∧ RequestIs fs (bufs t) q := by
  obtain ⟨L, _, _, _, _, _, l3, _, h2, _⟩ := h.hist (.nil _ _)
  rw [l3] at hc
  obtain ⟨e, e1, e2⟩ := mem_obsOf.mp hc
  obtain ⟨rfl, e3⟩ := obs_called.mp e2
  obtain ⟨q1, rest, o, hq1, hv, _⟩ := (h2 t).trace (h.accepted t) (mem_eventsOf.mpr e1)
  obtain rfl := hv.calls_own e (List.mem_append_left _ (mem_eventsOf.mpr e1)) x q e3
  refine ⟨?_, hq1⟩
  have ha := (C02_accepted_iff (bufs t)).mp ⟨_, h.accepted t⟩
  rw [← enc_fuse_in_header]
  exact Wire.enc_dec _ (by rw [List.length_take]; show _ = 40; omega)

/-- The methods thread `t` has called. -/
def callsOf (t : Nat) (obs : List (Nat × Obs ν φ η)) : List ((ν ⊕ φ ⊕ η) × AnyRequest) :=
  obs.filterMap fun o =>
    match o with
    | (u, .called x _ q) => if u = t then some (x, q) else none
    | _ => none

theorem callsOf_append (t : Nat) (a b : List (Nat × Obs ν φ η)) :
    callsOf t (a ++ b) = callsOf t a ++ callsOf t b := List.filterMap_append

theorem callsOf_event (minor : Nat) (hdr : FuseInHeader) (t u : Nat) (e : VfsEv ν φ η ε) :
    callsOf t ((e.obs minor hdr).map fun o => (u, o)) = if u = t then e.calls.toList else [] := by
  cases e with
  | sent a r =>
    by_cases hs : 16 + (a.payload minor).length < 2 ^ 32 <;> simp [VfsEv.obs, hs, callsOf, calls]
  | lookup v q r =>
    cases r with
    | error e => by_cases hu : u = t <;> simp [VfsEv.obs, lookupObs, callsOf, calls, hu]
    | ok res =>
      cases hn : res.node with
      | none => by_cases hu : u = t <;> simp [VfsEv.obs, lookupObs, callsOf, calls, hn, hu]
      | some p => by_cases hu : u = t <;> simp [VfsEv.obs, lookupObs, callsOf, calls, hn, hu]
  | open_ v q r => cases r <;> by_cases hu : u = t <;> simp [VfsEv.obs, openObs, callsOf, calls, hu]
  | opendir v q r => cases r <;> by_cases hu : u = t <;> simp [VfsEv.obs, openObs, callsOf, calls, hu]
  | _ => by_cases hu : u = t <;> simp [VfsEv.obs, releaseObs, callsOf, calls, hu]

theorem callsOf_obsOf (minor : Nat) (hdr : Nat → FuseInHeader) (t : Nat) (L : List (Nat × VfsEv ν φ η ε)) :
    callsOf t (obsOf minor hdr L) = (eventsOf t L).filterMap calls := by
  induction L with
  | nil => rfl
  | cons x L ih =>
    obtain ⟨u, e⟩ := x
    show callsOf t ((e.obs minor (hdr u)).map _ ++ obsOf minor hdr L) = _
    rw [callsOf_append, callsOf_event, ih]
    by_cases hu : u = t
    · subst hu
      rw [eventsOf_cons_self, if_pos rfl, List.filterMap_cons]
      cases e.calls <;> rfl
    · rw [eventsOf_cons_ne hu, if_neg hu]
      rfl

/-- **C56**: at most one method is called for a request. -/
theorem C56_once (h : Serving fs root w0 bufs tr pool s) (t : Nat) : (callsOf t (observed tr)).length ≤ 1 := by
  obtain ⟨L, _, _, _, _, _, l3, _, h2, _⟩ := h.hist (.nil _ _)
  rw [l3, callsOf_obsOf]
  cases hl : eventsOf t L with
  | nil => exact Nat.zero_le _
  | cons e es =>
    obtain ⟨q1, rest, o, hq1, hv, _⟩ := (h2 t).trace (h.accepted t) (e := e) (by rw [hl]; simp)
    have := hv.calls_once
    rw [hl, List.filterMap_append, List.length_append] at this
    omega

/-- **C56**: if the request needs an object of some kind, its method is called on what the object taken from the
map gave when asked for this kind; otherwise it is called on the object taken from the map.  (Which objects these
are is the subject of `C42_object` and `C45_same_partial`.) -/
theorem C56_object (h : Serving fs root w0 bufs tr pool s) {t x hd q} (hc : (t, .called x hd q) ∈ observed tr) :
    (q.kind = none ∧ Uses (observed tr) t x) ∨
    ∃ k y, q.kind = some k ∧ (t, .asked k y (some x)) ∈ observed tr ∧ Uses (observed tr) t y := by
  obtain ⟨L, _, _, _, _, _, l3, _, h2, _⟩ := h.hist (.nil _ _)
  rw [l3] at hc ⊢
  obtain ⟨e, e1, e2⟩ := mem_obsOf.mp hc
  obtain ⟨rfl, e3⟩ := obs_called.mp e2
  obtain ⟨q1, rest, o, hq1, hv, _⟩ := (h2 t).trace (h.accepted t) (mem_eventsOf.mpr e1)
  obtain rfl := hv.calls_own e (List.mem_append_left _ (mem_eventsOf.mpr e1)) x q e3
  obtain ⟨past, hp, hg⟩ := guarded_mem hv.calls_object (mem_eventsOf.mpr e1)
  rcases hg x q e3 with ⟨h3, h4⟩ | ⟨k, y, h3, e', h4, h5, h6⟩
  · exact .inl ⟨h3, usesObj_obs e1 h4⟩
  · have he' := mem_eventsOf.mp (hp e' h4)
    exact .inr ⟨k, y, h3, mem_obsOf.mpr ⟨e', he', obs_asked.mpr h5⟩, usesObj_obs he' h6⟩

/-- **C56**: an object is asked for a kind only if the request needs this kind, and if it is not of the kind then
no method is called. -/
theorem C56_asked (h : Serving fs root w0 bufs tr pool s) {t k y r} (hc : (t, .asked k y r) ∈ observed tr) :
    (∃ q, RequestIs fs (bufs t) q ∧ q.kind = some k) ∧ Uses (observed tr) t y ∧
    (r = none → callsOf t (observed tr) = []) := by
  obtain ⟨L, _, _, _, _, _, l3, _, h2, _⟩ := h.hist (.nil _ _)
  rw [l3] at hc ⊢
  obtain ⟨e, e1, e2⟩ := mem_obsOf.mp hc
  have e3 := obs_asked.mp e2
  obtain ⟨q1, rest, o, hq1, hv, _⟩ := (h2 t).trace (h.accepted t) (mem_eventsOf.mpr e1)
  have hm := List.mem_append_left rest (mem_eventsOf.mpr e1)
  obtain ⟨h4, h5⟩ := hv.asks_own e hm k y r e3
  refine ⟨⟨q1, hq1, h4⟩, usesObj_obs e1 h5, ?_⟩
  rintro rfl
  rw [callsOf_obsOf, List.filterMap_eq_nil_iff]
  intro e' he'
  exact hv.asks_none e hm k y e3 e' (List.mem_append_left _ he')

end

-- LOOKUP of `a` in the root: the root is asked whether it is a directory, then `lookup` is called with the
-- message's header (unique ID 10) and name.  READLINK of the root: it is no symlink, so nothing is called.
example : let msgs := [demoLookup, demoMsg 5 12 1 []]
    let run := demoSched msgs [0, 1, 0, 1, 0, 1, 0, 0]
    (∀ m ∈ msgs, 40 ≤ m.length ∧ u64At m 8 ≠ 0 ∧ u32At m 0 ≤ m.length) ∧
    (observed run.1).filter (fun x => match x.2 with
      | .asked .. | .called .. => true
      | _ => false) =
    [(0, .asked .directory (.inl 100) (some (.inl 100))), (1, .asked .symlink (.inl 100) none),
     (0, .called (.inl 100) { len := 42, opcode := 1, unique := 10, nodeid := 1 } (.lookup ⟨NodeId.root, ⟨[97]⟩⟩))] := by
  decide +kernel

-- OPEN, then READ and RELEASE through the handle 1.
example : let run := demoSched [demoOpen 1, demoRead 1, demoRelease 1] [0, 0, 0, 0, 0, 1, 1, 1, 1, 2, 2]
    (List.range 3).map (fun t => (callsOf t (observed run.1)).map fun c => (c.1, c.2.kind)) =
      [[(.inl 100, some .file)], [(.inr (.inl 7), some .read)], [(.inr (.inl 7), none)]] := by
  decide +kernel

end Fuse
