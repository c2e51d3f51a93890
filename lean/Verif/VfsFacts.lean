import Verif.VfsHist

/-!
# Facts about the traces of a single request
-/

namespace Fuse

variable {ν φ η σ ε : Type}

/-- The request is about the open directory (`d`) or file (`¬ d`) `fh`. -/
def OnHandle (d : Bool) (fh : UInt64) (q : AnyRequest) : Prop := if d then OnDir fh q else OnFile fh q

namespace VfsEv

/-- The event is a look into the handle map. -/
def sees : VfsEv ν φ η ε → Option (Bool × UInt64 × Option (φ ⊕ η))
  | .gotFile fh r => some (false, fh, r.map .inl)
  | .gotDir fh r => some (true, fh, r.map .inr)
  | .releaseFailed fh h _ _ => some (false, fh, some (.inl h))
  | .released fh h _ => some (false, fh, some (.inl h))
  | .releasedirFailed fh h _ _ => some (true, fh, some (.inr h))
  | .releasedDir fh h _ => some (true, fh, some (.inr h))
  | _ => none

/-- The event removes a handle. -/
def closes : VfsEv ν φ η ε → Option (Bool × UInt64)
  | .released fh _ _ => some (false, fh)
  | .releasedDir fh _ _ => some (true, fh)
  | _ => none

/-- The event creates a handle. -/
def allocs : VfsEv ν φ η ε → Option (UInt64 × (φ ⊕ η))
  | .openedFile fh h => some (fh, .inl h)
  | .openedDir fh h => some (fh, .inr h)
  | _ => none

/-- The event is a call of a method of an open file or directory taken from the handle map. -/
def uses : VfsEv ν φ η ε → Option (φ ⊕ η)
  | .asRead h _ | .asWrite h _ | .releaseFailed _ h _ _ | .released _ h _ => some (.inl h)
  | .asReaddir h _ | .asReaddirplus h _ | .releasedirFailed _ h _ _ | .releasedDir _ h _ => some (.inr h)
  | _ => none

/-- The event is a successful call of `open` or `opendir`. -/
def opens : VfsEv ν φ η ε → Option ((φ ⊕ η) × UInt32)
  | .open_ _ _ (.ok res) => some (.inl res.handle, res.openFlags)
  | .opendir _ _ (.ok res) => some (.inr res.handle, res.openFlags)
  | _ => none

/-- The event is a look into the node map. -/
def looks : VfsEv ν φ η ε → Option (NodeId × Option ν)
  | .gotNode id r => some (id, r)
  | _ => none

/-- The event is a call of a method of a node taken from the node map. -/
def usesNode : VfsEv ν φ η ε → Option ν
  | .asDirectory v _ | .asFile v _ | .asSymlink v _ => some v
  | .getattr v _ _ | .getxattr v _ _ | .listxattr v _ _ | .statfs v _ _ => some v
  | _ => none

/-- The event is a call of `lookup` that found a node. -/
def finds : VfsEv ν φ η ε → Option (ν × UInt64)
  | .lookup _ _ (.ok res) => res.node.map fun x => (x.1, x.2.raw.ino)
  | _ => none

/-- The event adds a lookup to the node map. -/
def adds : VfsEv ν φ η ε → Option (NodeId × ν)
  | .added id v => some (id, v)
  | _ => none

/-- The event is a reply. -/
def sends : VfsEv ν φ η ε → Option (FuseAnswer × Except (SendError ε) Unit)
  | .sent a r => some (a, r)
  | _ => none

/-- The items the event forgets. -/
def forgets : VfsEv ν φ η ε → List ForgetItem
  | .forgot items => items
  | _ => []

end VfsEv

open VfsEv

/-- `G past e` holds for every event `e` of the list, where `past` are the events before it, last first. -/
def Guarded {α : Type} (G : List α → α → Prop) : List α → List α → Prop
  | _, [] => True
  | past, e :: es => G past e ∧ Guarded G (e :: past) es

theorem guarded_split {α : Type} {G : List α → α → Prop} {past A B : List α} {e : α}
    (h : Guarded G past (A ++ e :: B)) : G (A.reverse ++ past) e := by
  induction A generalizing past with
  | nil => exact h.1
  | cons x A ih =>
    have := ih h.2
    simpa using this

/-- The requests that open something. -/
def AnyRequest.Opens : AnyRequest → Prop
  | .open_ _ | .opendir _ => True
  | _ => False

/-- The requests that release something. -/
def AnyRequest.Releases : AnyRequest → Prop
  | .release _ | .releasedir _ => True
  | _ => False

theorem onHandle_unique {d d' : Bool} {fh fh' : UInt64} {q : AnyRequest} (h : OnHandle d fh q)
    (h' : OnHandle d' fh' q) : d = d' ∧ fh = fh' := by
  cases d <;> cases d' <;> cases q <;> simp_all [OnHandle, OnFile, OnDir]

theorem onNode_unique {i i' : NodeId} {q : AnyRequest} (h : OnNode i q) (h' : OnNode i' q) : i = i' := by
  cases q <;> simp_all [OnNode]

theorem node_not_handle {i : NodeId} {d : Bool} {fh : UInt64} {q : AnyRequest} (h : OnNode i q) :
    ¬ OnHandle d fh q := by
  cases d <;> cases q <;> simp_all [OnHandle, OnFile, OnDir, OnNode]

theorem err_error (e : FuseError) : (FuseAnswer.err e).error ≠ 0 := e.property

section
variable {fs : Filesystem ν φ η σ ε} {q : AnyRequest} {evs : List (VfsEv ν φ η ε)} {out : Outcome ε Unit}

/-- At most one reply. -/
theorem VfsTrace.sends_once (h : VfsTrace fs q evs out) :
    (evs.filterMap sends).length ≤ 1 := by
  cases h <;> first | exact Nat.le_refl 1 | exact Nat.zero_le 1

/-- A successful reply to OPEN or OPENDIR announces a handle created before. -/
theorem VfsTrace.opens_reply (h : VfsTrace fs q evs out) (hq : q.Opens) :
    Guarded (fun past e => ∀ a r, e.sends = some (a, r) → a.error = 0 →
      ∃ fh flags, a = openReply fh flags ∧ ∃ x, ∃ y ∈ past, y.allocs = some (fh, x)) [] evs := by
  cases h <;> simp_all [Guarded, sends, allocs, AnyRequest.Opens, err_error]
  all_goals exact fun _ => ⟨_, rfl⟩

/-- Handles are created only for what `open` and `opendir` return. -/
theorem VfsTrace.allocs_opened (h : VfsTrace fs q evs out) :
    ∀ e ∈ evs, ∀ e' ∈ evs, ∀ x fl fh y, e.opens = some (x, fl) → e'.allocs = some (fh, y) → x = y := by
  cases h <;> simp [opens, allocs]
  all_goals (intros; simp_all)

/-- Methods are called on what the handle map contained. -/
theorem VfsTrace.uses_seen (h : VfsTrace fs q evs out) :
    Guarded (fun past e => ∀ x, e.uses = some x → ∃ d fh, ∃ y ∈ e :: past, y.sees = some (d, fh, some x)) [] evs := by
  cases h <;> simp [Guarded, uses, sees]

/-- The handle map is looked into for the request's handle only. -/
theorem VfsTrace.sees_own (h : VfsTrace fs q evs out) :
    ∀ e ∈ evs, ∀ d fh r, e.sees = some (d, fh, r) → OnHandle d fh q := by
  cases h <;> simp_all [sees, OnHandle]

/-- A request through a handle is answered after its object was called, or with "invalid argument" after the
handle was not found. -/
theorem VfsTrace.handle_reply (h : VfsTrace fs q evs out) {d fh} (hq : OnHandle d fh q) :
    Guarded (fun past e => ∀ a r, e.sends = some (a, r) →
      ((∃ y ∈ past, y.sees = some (d, fh, none)) ∧ a = .err fs.os.invalidArgument) ∨
      ∃ x, (∃ y ∈ past, y.sees = some (d, fh, some x)) ∧ ∃ y ∈ past, y.uses = some x) [] evs := by
  cases h
  all_goals first
    | exact absurd hq (node_not_handle ‹OnNode _ _›)
    | (obtain ⟨rfl, rfl⟩ := onHandle_unique (d := false) ‹OnFile _ _› hq; simp_all [Guarded, sends, sees, uses])
    | (obtain ⟨rfl, rfl⟩ := onHandle_unique (d := true) ‹OnDir _ _› hq; simp_all [Guarded, sends, sees, uses])
    | (cases d <;> exact hq.elim)

/-- No method is called if the handle was not found. -/
theorem VfsTrace.unseen_unused (h : VfsTrace fs q evs out) :
    ∀ e ∈ evs, ∀ d fh, e.sees = some (d, fh, none) → ∀ e' ∈ evs, e'.uses = none := by
  cases h <;> simp [sees, uses]

/-- The handle is looked up at most once. -/
theorem VfsTrace.sees_once (h : VfsTrace fs q evs out) :
    (evs.filterMap sees).length ≤ 1 := by
  cases h <;> first | exact Nat.le_refl 1 | exact Nat.zero_le 1

/-- A successful reply to RELEASE or RELEASEDIR is sent after the handle was removed. -/
theorem VfsTrace.releases_reply (h : VfsTrace fs q evs out) (hq : q.Releases) :
    Guarded (fun past e => ∀ a r, e.sends = some (a, r) → a.error = 0 →
      ∃ d fh, ∃ y ∈ past, y.closes = some (d, fh)) [] evs := by
  cases h <;> simp_all [Guarded, sends, closes, AnyRequest.Releases, err_error]

/-- A removed handle is the request's. -/
theorem VfsTrace.closes_own (h : VfsTrace fs q evs out) :
    ∀ e ∈ evs, ∀ d fh, e.closes = some (d, fh) → OnHandle d fh q := by
  cases h <;> simp_all [closes, OnHandle]

/-- The node map is looked into for the request's node only. -/
theorem VfsTrace.looks_own (h : VfsTrace fs q evs out) :
    ∀ e ∈ evs, ∀ i r, e.looks = some (i, r) → OnNode i q := by
  cases h <;> simp_all [looks, -Subtype.forall]

/-- A request about a node is answered after the node was called, or with "invalid argument" after it was
not found. -/
theorem VfsTrace.node_reply (h : VfsTrace fs q evs out) {i} (hq : OnNode i q) :
    Guarded (fun past e => ∀ a r, e.sends = some (a, r) →
      ((∃ y ∈ past, y.looks = some (i, none)) ∧ a = .err fs.os.invalidArgument) ∨
      ∃ x, (∃ y ∈ past, y.looks = some (i, some x)) ∧ ∃ y ∈ past, y.usesNode = some x) [] evs := by
  revert hq
  cases h
  all_goals first
    | (have hx := ‹OnNode _ _›
       intro hq
       obtain rfl := onNode_unique hx hq
       clear hx
       simp_all [Guarded, sends, looks, usesNode])
    | exact fun hq => absurd ‹OnFile _ _› (node_not_handle (d := false) hq)
    | exact fun hq => absurd ‹OnDir _ _› (node_not_handle (d := true) hq)
    | exact fun hq => hq.elim

/-- Methods are called on the node the map contained. -/
theorem VfsTrace.usesNode_seen (h : VfsTrace fs q evs out) :
    Guarded (fun past e => ∀ x, e.usesNode = some x → ∃ i, ∃ y ∈ past, y.looks = some (i, some x)) [] evs := by
  cases h <;> simp [Guarded, usesNode, looks, -Subtype.forall]

/-- No method is called if the node was not found. -/
theorem VfsTrace.unseen_unused_node (h : VfsTrace fs q evs out) :
    ∀ e ∈ evs, ∀ i, e.looks = some (i, none) → ∀ e' ∈ evs, e'.usesNode = none := by
  cases h <;> simp [looks, usesNode, -Subtype.forall]

/-- The node is looked up at most once. -/
theorem VfsTrace.looks_once (h : VfsTrace fs q evs out) :
    (evs.filterMap looks).length ≤ 1 := by
  cases h <;> first | exact Nat.le_refl 1 | exact Nat.zero_le 1

/-- Nodes are added only after `lookup` found them. -/
theorem VfsTrace.adds_found (h : VfsTrace fs q evs out) :
    Guarded (fun past e => ∀ i v, e.adds = some (i, v) → ∃ y ∈ past, y.finds = some (v, i.val)) [] evs := by
  cases h <;> simp_all [Guarded, adds, finds, -Subtype.forall]

/-- A successful LOOKUP that found a node has added it. -/
theorem VfsTrace.found_added (h : VfsTrace fs q evs (.ok ())) :
    ∀ e ∈ evs, ∀ v ino, e.finds = some (v, ino) → ∃ i : NodeId, i.val = ino ∧ ∃ y ∈ evs, y.adds = some (i, v) := by
  generalize ho : (Outcome.ok () : Outcome ε Unit) = o at h
  cases h <;> simp_all [adds, finds]
  rename_i nid _ _ ha
  exact ⟨ha ▸ nid.property, Subtype.ext ha⟩

/-- At most one addition. -/
theorem VfsTrace.adds_once (h : VfsTrace fs q evs out) : (evs.filterMap adds).length ≤ 1 := by
  cases h <;> first | exact Nat.le_refl 1 | exact Nat.zero_le 1

/-- Lists of forget items come from FORGET requests. -/
theorem VfsTrace.forgets_own (h : VfsTrace fs q evs out) :
    ∀ e ∈ evs, e.forgets ≠ [] → ∃ f, q = .forget f ∧ evs = [.forgot f.items] := by
  cases h <;> simp [forgets]

end

/-! ## Handles over a history -/

theorem filterMap_unique {α β : Type} {f : α → Option β} {l : List α} (h : (l.filterMap f).length ≤ 1)
    {a b : α} {x y : β} (ha : a ∈ l) (hb : b ∈ l) (hx : f a = some x) (hy : f b = some y) : x = y := by
  have h1 : x ∈ l.filterMap f := List.mem_filterMap.mpr ⟨a, ha, hx⟩
  have h2 : y ∈ l.filterMap f := List.mem_filterMap.mpr ⟨b, hb, hy⟩
  match hl : l.filterMap f, h, h1, h2 with
  | [z], _, h1, h2 => rw [List.mem_singleton.mp h1, List.mem_singleton.mp h2]

/-- The handle map as one map. -/
def Vfs.slot (s : Vfs ν φ η σ) (d : Bool) (fh : UInt64) : Option (φ ⊕ η) :=
  if d then (s.handles.openDirs fh).map .inr else (s.handles.openFiles fh).map .inl

theorem slot_eq {s s' : Vfs ν φ η σ} (h : s'.handles = s.handles) (d fh) : s'.slot d fh = s.slot d fh := by
  unfold Vfs.slot
  rw [h]

section
variable {fs : Filesystem ν φ η σ ε} {hdr : FuseInHeader} {s s' : Vfs ν φ η σ} {e : VfsEv ν φ η ε}

theorem Called.handles {α : Type} {f : σ → α × σ} {a : α} (h : Called f a s s') : s'.handles = s.handles := by
  rw [h.2]

theorem Called.nodes {α : Type} {f : σ → α × σ} {a : α} (h : Called f a s s') : s'.nodes = s.nodes := by
  rw [h.2]

/-- Only creating and removing handles changes the handle map. -/
theorem effect_handles (h : e.Effect fs hdr s s') (ha : e.allocs = none) (hc : e.closes = none) :
    s'.handles = s.handles := by
  cases e <;> first
    | (cases ha; done)
    | (cases hc; done)
    | exact Called.handles h
    | exact Called.handles h.2
    | (rw [h.2])
    | (rw [show s' = _ from h])
    | (obtain ⟨x, h1, _⟩ := h; rw [h1])

theorem effect_sees (h : e.Effect fs hdr s s') {d fh r} (hs : e.sees = some (d, fh, r)) :
    s.slot d fh = r := by
  cases e <;> first
    | (cases hs; done)
    | (cases hs; exact congrArg (Option.map _) h.1)

theorem effect_allocs (h : e.Effect fs hdr s s') {fh x} (ha : e.allocs = some (fh, x)) :
    fh = s.handles.nextHandleId ∧ s'.handles.nextHandleId.toNat = fh.toNat + 1 ∧
    ∀ d i, s'.slot d i = if i = fh ∧ x.isRight = d then some x else s.slot d i := by
  cases e <;> try (cases ha; done)
  · cases ha
    obtain ⟨h1, h2, h3⟩ := h
    refine ⟨h1, by rw [h3]; exact uint64_succ h2, fun d i => ?_⟩
    rw [h3]
    cases d
    · by_cases hi : i = fh <;> simp [Vfs.slot, hi]
    · simp [Vfs.slot]
  · cases ha
    obtain ⟨h1, h2, h3⟩ := h
    refine ⟨h1, by rw [h3]; exact uint64_succ h2, fun d i => ?_⟩
    rw [h3]
    cases d
    · simp [Vfs.slot]
    · by_cases hi : i = fh <;> simp [Vfs.slot, hi]

theorem effect_closes (h : e.Effect fs hdr s s') {d fh} (hc : e.closes = some (d, fh)) :
    s'.handles.nextHandleId = s.handles.nextHandleId ∧
    ∀ d' i, s'.slot d' i = if i = fh ∧ d' = d then none else s.slot d' i := by
  cases e <;> try (cases hc; done)
  · cases hc
    obtain ⟨_, _, h3⟩ := h
    refine ⟨by rw [h3], fun d i => ?_⟩
    rw [h3]
    cases d
    · by_cases hi : i = fh <;> simp [Vfs.slot, hi]
    · simp [Vfs.slot]
  · cases hc
    obtain ⟨_, _, h3⟩ := h
    refine ⟨by rw [h3], fun d i => ?_⟩
    rw [h3]
    cases d
    · simp [Vfs.slot]
    · by_cases hi : i = fh <;> simp [Vfs.slot, hi]

theorem allocs_not_closes {fh x} (h : e.allocs = some (fh, x)) : e.closes = none := by
  cases e <;> first | rfl | (cases h; done)

/-- The three possible effects of an event on the handle map. -/
theorem effect_cases (h : e.Effect fs hdr s s') :
    (e.allocs = none ∧ e.closes = none ∧ s'.handles = s.handles) ∨
    (∃ fh x, e.allocs = some (fh, x) ∧ e.closes = none) ∨ ∃ d fh, e.closes = some (d, fh) ∧ e.allocs = none := by
  cases ha : e.allocs with
  | some p => exact Or.inr (Or.inl ⟨p.1, p.2, rfl, allocs_not_closes ha⟩)
  | none =>
    cases hc : e.closes with
    | some p => exact Or.inr (Or.inr ⟨p.1, p.2, rfl, rfl⟩)
    | none => exact Or.inl ⟨rfl, rfl, effect_handles h ha hc⟩

end

section
variable {fs : Filesystem ν φ η σ ε} {hdr : Nat → FuseInHeader} {s s' : Vfs ν φ η σ}
  {L : List (Nat × VfsEv ν φ η ε)}

theorem effect_next {h0 : FuseInHeader} {e : VfsEv ν φ η ε} (h : e.Effect fs h0 s s') :
    s.handles.nextHandleId.toNat ≤ s'.handles.nextHandleId.toNat := by
  rcases effect_cases h with ⟨_, _, h1⟩ | ⟨fh, x, h1, _⟩ | ⟨d, fh, h1, _⟩
  · rw [h1]; exact Nat.le_refl _
  · obtain ⟨h2, h3, _⟩ := effect_allocs h h1
    rw [h3, h2]; omega
  · rw [(effect_closes h h1).1]; exact Nat.le_refl _

theorem Hist.next_mono (h : Hist fs hdr s L s') :
    s.handles.nextHandleId.toNat ≤ s'.handles.nextHandleId.toNat := by
  induction h with
  | nil => exact Nat.le_refl _
  | cons he _ ih => exact Nat.le_trans (effect_next he) ih

/-- Handles are allocated from a counter. -/
theorem Hist.alloc_range (h : Hist fs hdr s L s') {t e fh x} (hm : (t, e) ∈ L) (ha : e.allocs = some (fh, x)) :
    s.handles.nextHandleId.toNat ≤ fh.toNat ∧ fh.toNat < s'.handles.nextHandleId.toNat := by
  induction h with
  | nil => cases hm
  | cons he hh ih =>
    rcases List.mem_cons.mp hm with h1 | h1
    · cases h1
      obtain ⟨h2, h3, _⟩ := effect_allocs he ha
      have := hh.next_mono
      rw [← h2]
      omega
    · have := effect_next he
      have := ih h1
      omega

/-- A handle is allocated only once. -/
theorem Hist.alloc_inj (h : Hist fs hdr s L s') {t e u e' fh x y} (hm : (t, e) ∈ L) (hm' : (u, e') ∈ L)
    (ha : e.allocs = some (fh, x)) (ha' : e'.allocs = some (fh, y)) : t = u ∧ x = y := by
  induction h with
  | nil => cases hm
  | cons he hh ih =>
    rcases List.mem_cons.mp hm with h1 | h1 <;> rcases List.mem_cons.mp hm' with h2 | h2
    · cases h1
      cases h2
      rw [ha] at ha'
      cases ha'
      exact ⟨rfl, rfl⟩
    · cases h1
      have := (effect_allocs he ha).2.1
      have := (hh.alloc_range h2 ha').1
      omega
    · cases h2
      have := (effect_allocs he ha').2.1
      have := (hh.alloc_range h1 ha).1
      omega
    · exact ih h1 h2

/-- What is in the handle map was put there by an allocation. -/
theorem Hist.slot_origin (h : Hist fs hdr s L s') {d fh x} (hs : s'.slot d fh = some x) :
    s.slot d fh = some x ∨ ∃ t e, (t, e) ∈ L ∧ e.allocs = some (fh, x) ∧ x.isRight = d := by
  induction h with
  | nil => exact Or.inl hs
  | @cons s s1 s' t e L he hh ih =>
    rcases ih hs with h1 | ⟨u, e', h1, h2, h3⟩
    · rcases effect_cases he with ⟨_, _, h4⟩ | ⟨fh', y, h4, _⟩ | ⟨d', fh', h4, _⟩
      · rw [slot_eq h4] at h1
        exact Or.inl h1
      · rw [(effect_allocs he h4).2.2] at h1
        split at h1
        · rename_i hc
          cases h1
          exact Or.inr ⟨t, e, List.mem_cons_self, by rw [h4, hc.1], hc.2⟩
        · exact Or.inl h1
      · rw [(effect_closes he h4).2] at h1
        split at h1
        · cases h1
        · exact Or.inl h1
    · exact Or.inr ⟨u, e', List.mem_cons_of_mem _ h1, h2, h3⟩

/-- A handle that is gone does not come back. -/
theorem Hist.slot_gone (h : Hist fs hdr s L s') {d fh} (hs : s.slot d fh = none)
    (hn : fh.toNat < s.handles.nextHandleId.toNat) : s'.slot d fh = none := by
  induction h with
  | nil => exact hs
  | @cons s s1 s' t e L he hh ih =>
    refine ih ?_ (Nat.lt_of_lt_of_le hn (effect_next he))
    rcases effect_cases he with ⟨_, _, h4⟩ | ⟨fh', y, h4, _⟩ | ⟨d', fh', h4, _⟩
    · rw [slot_eq h4]
      exact hs
    · obtain ⟨h5, _, h6⟩ := effect_allocs he h4
      rw [h6, if_neg]
      · exact hs
      · rintro ⟨rfl, _⟩
        rw [h5] at hn
        omega
    · rw [(effect_closes he h4).2]
      split
      · rfl
      · exact hs

/-- A handle stays until it is removed. -/
theorem Hist.slot_kept (h : Hist fs hdr s L s') {d fh x} (hs : s.slot d fh = some x)
    (hn : fh.toNat < s.handles.nextHandleId.toNat)
    (hc : ∀ t e, (t, e) ∈ L → e.closes ≠ some (d, fh)) : s'.slot d fh = some x := by
  induction h with
  | nil => exact hs
  | @cons s s1 s' t e L he hh ih =>
    refine ih ?_ (Nat.lt_of_lt_of_le hn (effect_next he)) (fun t e hm => hc t e (List.mem_cons_of_mem _ hm))
    rcases effect_cases he with ⟨_, _, h4⟩ | ⟨fh', y, h4, _⟩ | ⟨d', fh', h4, _⟩
    · rw [slot_eq h4]
      exact hs
    · obtain ⟨h5, _, h6⟩ := effect_allocs he h4
      rw [h6, if_neg]
      · exact hs
      · rintro ⟨rfl, _⟩
        rw [h5] at hn
        omega
    · rw [(effect_closes he h4).2, if_neg]
      · exact hs
      · rintro ⟨rfl, rfl⟩
        exact hc t e List.mem_cons_self h4

theorem Hist.split_at (h : Hist fs hdr s L s') {t e} (hm : (t, e) ∈ L) :
    ∃ A B s1 s2, L = A ++ (t, e) :: B ∧ Hist fs hdr s A s1 ∧ e.Effect fs (hdr t) s1 s2 ∧ Hist fs hdr s2 B s' := by
  obtain ⟨A, B, hL⟩ := List.append_of_mem hm
  rw [hL] at h
  obtain ⟨s1, h1, h2⟩ := h.split
  cases h2 with
  | cons he h2 => exact ⟨A, B, s1, _, hL, h1, he, h2⟩

end

end Fuse
