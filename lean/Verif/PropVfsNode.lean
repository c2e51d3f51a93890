import Verif.VfsCount
import Verif.PropVfs

/-!
# C44 and C45: which nodes can be reached
-/

namespace Fuse

open Spec VfsEv

variable {ν φ η σ ε : Type}

section
variable {S α : Type}

/-- A finished thread makes no more steps. -/
theorem Runs.finished {pool : Nat → Prog S α} {s tr pool1 s1}
    (h : Runs pool s tr pool1 s1) {t o} (ht : pool t = .done o) : t ∉ tr.map (·.1) := by
  induction h with
  | nil => nofun
  | @cons pool s u f k tr pool' s' hu _ ih =>
    have hne : t ≠ u := by
      rintro rfl
      rw [hu] at ht
      cases ht
    simp only [List.map_cons, List.mem_cons, not_or]
    exact ⟨hne, ih (by simp only [setThread, if_neg hne]; exact ht)⟩

end

section
variable {fs : Filesystem ν φ η σ ε} {root : ν} {w0 : σ} {bufs : Nat → Bytes}
  {tr tr2 tr3 : List (Nat × Vfs ν φ η (σ × List (Obs ν φ η)) × Vfs ν φ η (σ × List (Obs ν φ η)))}
  {pool pool2 pool3 : Nat → Prog (Vfs ν φ η (σ × List (Obs ν φ η))) (Option (Outcome ε Unit))}
  {s s2 s3 : Vfs ν φ η (σ × List (Obs ν φ η))} {i : NodeId}

theorem Serving.cont (h : Serving fs root w0 bufs tr pool s) (h2 : Runs pool s tr2 pool2 s2) :
    Serving fs root w0 bufs (tr ++ tr2) pool2 s2 := ⟨h.accepted, h.runs.append h2⟩

/-- An execution in three parts, as a history. -/
theorem Serving.hist3 (h : Serving fs root w0 bufs tr pool s) (h2 : Runs pool s tr2 pool2 s2)
    (h3 : Runs pool2 s2 tr3 pool3 s3) :
    ∃ L L2 L3, Hist fs.recorded (fun t => hdrOf (bufs t)) (Vfs.new root (w0, [])) L s ∧
      Hist fs.recorded (fun t => hdrOf (bufs t)) s L2 s2 ∧
      Hist fs.recorded (fun t => hdrOf (bufs t)) s2 L3 s3 ∧
      L.map (·.1) = tr.map (·.1) ∧ L2.map (·.1) = tr2.map (·.1) ∧ L3.map (·.1) = tr3.map (·.1) ∧
      observed tr = obsOf fs.layout.versionMinor.toNat (fun t => hdrOf (bufs t)) L ∧
      observed tr2 = obsOf fs.layout.versionMinor.toNat (fun t => hdrOf (bufs t)) L2 ∧
      observed tr3 = obsOf fs.layout.versionMinor.toNat (fun t => hdrOf (bufs t)) L3 ∧
      (∀ t, Follows fs.recorded ⟨bufs t⟩ (hdrOf (bufs t)) (pool t) (eventsOf t L)) ∧
      (∀ t, Follows fs.recorded ⟨bufs t⟩ (hdrOf (bufs t)) (pool2 t) (eventsOf t (L ++ L2))) ∧
      ∀ t, Follows fs.recorded ⟨bufs t⟩ (hdrOf (bufs t)) (pool3 t) (eventsOf t (L ++ L2 ++ L3)) := by
  have hs : ∀ t, Sat fs.recorded (hdrOf (bufs t)) (fs.recorded.dispatch ⟨bufs t⟩)
      (DispatchTrace fs.recorded ⟨bufs t⟩ (hdrOf (bufs t))) := by
    intro t
    obtain ⟨h1, ⟨id, h3⟩, _⟩ := hdrOf_ok (h.accepted t)
    exact dispatch_sat fs.recorded h1 h3
  obtain ⟨L, l1, l2, l3, l4⟩ := h.runs.hist hs
  obtain ⟨M, m1, m2, m3, m4⟩ := h2.hist l4
  obtain ⟨K, k1, k2, k3, k4⟩ := h3.hist m4
  refine ⟨L, M, K, l1, m1, k1, l2, m2, k2, l3, m3, k3, fun t => Sat.follows s (l4 t), fun t => ?_, fun t => ?_⟩
  · rw [eventsOf_append]
    refine Sat.follows s ((m4 t).mono fun evs o h => ?_)
    rwa [List.append_assoc]
  · rw [eventsOf_append, eventsOf_append]
    refine Sat.follows s ((k4 t).mono fun evs o h => ?_)
    rwa [List.append_assoc, List.append_assoc]

/-- The events of a thread that forgets. -/
theorem forget_events {L : List (Nat × VfsEv ν φ η ε)} {t : Nat} {p} (ha : Request.new (bufs t) = .ok ⟨bufs t⟩)
    (hf : Follows fs.recorded ⟨bufs t⟩ (hdrOf (bufs t)) p (eventsOf t L)) {e} (he : (t, e) ∈ L)
    (h0 : e.forgetsFor i ≠ 0) :
    ∃ f, RequestIs fs (bufs t) (.forget f) ∧ eventsOf t L = [.forgot f.items] ∧ e = .forgot f.items := by
  obtain ⟨q, rest, o, hq, hv, _⟩ := hf.trace ha (mem_eventsOf.mpr he)
  obtain ⟨f, rfl, h1⟩ := hv.forgets_own e (List.mem_append_left _ (mem_eventsOf.mpr he)) (by
    intro h1
    unfold VfsEv.forgetsFor at h0
    rw [h1] at h0
    exact h0 rfl)
  refine ⟨f, hq, ?_, ?_⟩
  · cases hl : eventsOf t L with
    | nil =>
      have := mem_eventsOf.mpr he
      rw [hl] at this
      cases this
    | cons x xs =>
      rw [hl] at h1
      rw [List.cons_append] at h1
      obtain ⟨h2, h3⟩ := List.cons.inj h1
      rw [h2, (List.append_eq_nil_iff.mp h3).1]
  · have : e ∈ eventsOf t L ++ rest := List.mem_append_left _ (mem_eventsOf.mpr he)
    rw [h1] at this
    exact List.mem_singleton.mp this

/-- A bound on what has been forgotten. -/
theorem forgets_le {L : List (Nat × VfsEv ν φ η ε)} {p : Nat → _} (ha : ∀ t, Request.new (bufs t) = .ok ⟨bufs t⟩)
    (hf : ∀ t, Follows fs.recorded ⟨bufs t⟩ (hdrOf (bufs t)) (p t) (eventsOf t L)) {T : List Nat} {w : Nat → Nat}
    (hT : ∀ t f, t ∈ L.map (·.1) → RequestIs fs (bufs t) (.forget f) → itemsFor i f.items ≠ 0 →
      t ∈ T ∧ itemsFor i f.items ≤ w t) : total (VfsEv.forgetsFor i) L ≤ (T.map w).sum := by
  refine total_le (fun t e he h0 => ?_) (fun t ht => ?_)
  · obtain ⟨f, h1, _, rfl⟩ := forget_events (ha t) (hf t) he h0
    exact (hT t f (List.mem_map.mpr ⟨_, he, rfl⟩) h1 h0).1
  · by_cases hz : ((eventsOf t L).map (VfsEv.forgetsFor i)).sum = 0
    · rw [hz]; exact Nat.zero_le _
    · have : ∃ e ∈ eventsOf t L, e.forgetsFor i ≠ 0 := by
        refine Classical.byContradiction fun hn => hz ?_
        refine sum_map_zero fun e he => Classical.byContradiction fun h0 => hn ⟨e, he, h0⟩
      obtain ⟨e, he, h0⟩ := this
      obtain ⟨f, h1, h2, rfl⟩ := forget_events (ha t) (hf t) (mem_eventsOf.mp he) h0
      rw [h2]
      exact (hT t f (List.mem_map.mpr ⟨_, mem_eventsOf.mp he, rfl⟩) h1 h0).2

/-- A node is added by a thread that found it. -/
theorem adds_observed {L : List (Nat × VfsEv ν φ η ε)} {t : Nat} {p} (ha : Request.new (bufs t) = .ok ⟨bufs t⟩)
    (hf : Follows fs.recorded ⟨bufs t⟩ (hdrOf (bufs t)) p (eventsOf t L)) {e v} (he : (t, e) ∈ L)
    (h : e.adds = some (i, v)) :
    (t, .found v i.val) ∈ obsOf fs.layout.versionMinor.toNat (fun t => hdrOf (bufs t)) L := by
  obtain ⟨q, rest, o, hq, hv, _⟩ := hf.trace ha (mem_eventsOf.mpr he)
  obtain ⟨past, hp, hg⟩ := guarded_mem hv.adds_found (mem_eventsOf.mpr he)
  obtain ⟨y, hy, h1⟩ := hg i v h
  exact mem_obsOf.mpr ⟨y, mem_eventsOf.mp (hp y hy), obs_found.mpr h1⟩

/-- A thread that found a node and finished well has added it. -/
theorem found_adds {L : List (Nat × VfsEv ν φ η ε)} {t : Nat} (ha : Request.new (bufs t) = .ok ⟨bufs t⟩)
    (hf : Follows fs.recorded ⟨bufs t⟩ (hdrOf (bufs t)) (.done (some (.ok ()))) (eventsOf t L)) {v}
    (h : (t, .found v i.val) ∈ obsOf fs.layout.versionMinor.toNat (fun t => hdrOf (bufs t)) L) :
    ∃ e ∈ eventsOf t L, e.adds = some (i, v) := by
  obtain ⟨e, h1, h2⟩ := mem_obsOf.mp h
  obtain ⟨q, rest, o, hq, hv, hr⟩ := hf.trace ha (mem_eventsOf.mpr h1)
  obtain ⟨rfl, ho⟩ := hr _ rfl
  cases ho
  rw [List.append_nil] at hv
  obtain ⟨j, hj, y, hy, h3⟩ := hv.found_added e (mem_eventsOf.mpr h1) v i.val (obs_found.mp h2)
  obtain rfl : j = i := Subtype.ext hj
  exact ⟨y, hy, h3⟩

/-- The events behind the reply of a thread that starts late. -/
theorem node_answer {L M : List (Nat × VfsEv ν φ η ε)} {u : Nat} {p} (ha : Request.new (bufs u) = .ok ⟨bufs u⟩)
    (hf : Follows fs.recorded ⟨bufs u⟩ (hdrOf (bufs u)) p (eventsOf u (L ++ M))) (hu : u ∉ L.map (·.1))
    {q} (hq : RequestIs fs (bufs u) q) (hi : OnNode i q) {m b}
    (hm : (u, .sent m b) ∈ obsOf fs.layout.versionMinor.toNat (fun t => hdrOf (bufs t)) M) :
    (m = frame (hdrOf (bufs u)).unique fs.os.invalidArgument.val [] ∧ ∃ e, (u, e) ∈ M ∧ e.looks = some (i, none)) ∨
    ∃ x, (u, .node x) ∈ obsOf fs.layout.versionMinor.toNat (fun t => hdrOf (bufs t)) M ∧
      ∃ e, (u, e) ∈ M ∧ e.looks = some (i, some x) := by
  obtain ⟨e', f1, f2⟩ := mem_obsOf.mp hm
  obtain ⟨a', r', f4, _, f6, _⟩ := obs_sent f2
  have hin : ∀ {e1}, e1 ∈ eventsOf u (L ++ M) → (u, e1) ∈ M := by
    intro e1 he1
    rcases List.mem_append.mp (mem_eventsOf.mp he1) with h3 | h3
    · exact absurd (List.mem_map.mpr ⟨(u, e1), h3, rfl⟩) hu
    · exact h3
  have f3 : e' ∈ eventsOf u (L ++ M) := mem_eventsOf.mpr (List.mem_append_right _ f1)
  obtain ⟨q2, rest2, o2, hq2, hv2, _⟩ := hf.trace ha f3
  obtain rfl := requestIs_unique hq hq2
  obtain ⟨past2, hp2, hg2⟩ := guarded_mem (hv2.node_reply hi) f3
  rcases hg2 a' r' f4 with ⟨⟨y, hy, hl⟩, rfl⟩ | ⟨x, ⟨y, hy, hl⟩, y2, hy2, hn⟩
  · exact Or.inl ⟨f6, y, hin (hp2 y hy), hl⟩
  · exact Or.inr ⟨x, mem_obsOf.mpr ⟨y2, hin (hp2 y2 hy2), obs_node.mpr hn⟩, y, hin (hp2 y hy), hl⟩

/-- The node a thread has called, if any, was in the node map when it looked. -/
theorem node_seen {L : List (Nat × VfsEv ν φ η ε)} {u : Nat} {p} (ha : Request.new (bufs u) = .ok ⟨bufs u⟩)
    (hf : Follows fs.recorded ⟨bufs u⟩ (hdrOf (bufs u)) p (eventsOf u L)) {q} (hq : RequestIs fs (bufs u) q)
    (hi : OnNode i q) {x} (hx : (u, .node x) ∈ obsOf fs.layout.versionMinor.toNat (fun t => hdrOf (bufs t)) L) :
    ∃ e, (u, e) ∈ L ∧ e.looks = some (i, some x) := by
  obtain ⟨e', f1, f2⟩ := mem_obsOf.mp hx
  obtain ⟨q2, rest2, o2, hq2, hv2, _⟩ := hf.trace ha (mem_eventsOf.mpr f1)
  obtain rfl := requestIs_unique hq hq2
  obtain ⟨past, hp, hg⟩ := guarded_mem hv2.usesNode_seen (mem_eventsOf.mpr f1)
  obtain ⟨j, y, hy, hl⟩ := hg x (obs_node.mp f2)
  obtain rfl := onNode_unique hi (hv2.looks_own y (List.mem_append_left _ (hp y hy)) j _ hl)
  exact ⟨y, mem_eventsOf.mp (hp y hy), hl⟩

theorem new_root {w : σ} : (Vfs.new root w : Vfs ν φ η σ).nodes NodeId.root = some ⟨root, 0⟩ := by
  simp [Vfs.new, NodeMap.new, NodeMap.insert]

theorem new_other {w : σ} (hi : i ≠ NodeId.root) : (Vfs.new root w : Vfs ν φ η σ).nodes i = none := by
  simp [Vfs.new, NodeMap.new, NodeMap.insert, hi]

/-- The entry of a new filesystem's node map. -/
theorem new_entry {w : σ} {x} (h : (Vfs.new root w : Vfs ν φ η σ).nodes i = some x) :
    i = NodeId.root ∧ x = ⟨root, 0⟩ := by
  by_cases hi : i = NodeId.root
  · refine ⟨hi, ?_⟩
    rw [hi] at h
    rw [new_root] at h
    cases h
    rfl
  · rw [new_other hi] at h
    cases h

theorem new_count {w : σ} : (Vfs.new root w : Vfs ν φ η σ).count i = 0 := by
  unfold Vfs.count
  cases h : (Vfs.new root w : Vfs ν φ η σ).nodes i with
  | none => rfl
  | some x => rw [(new_entry h).2]; rfl

/-! ## C44 -/

/-- **C44**, identity: a request about the node ID `i` only ever calls a node that some `lookup` method
returned with that number, or the root. -/
theorem C44_only_found (h : Serving fs root w0 bufs tr pool s) {u q x} (hq : RequestIs fs (bufs u) q)
    (hi : OnNode i q) (hx : (u, .node x) ∈ observed tr) :
    (i = NodeId.root ∧ x = root) ∨ ∃ t, (t, .found x i.val) ∈ observed tr := by
  obtain ⟨L, _, hL, _, _, _, h1, _, h2, _⟩ := h.hist (.nil _ _)
  rw [h1] at hx
  obtain ⟨e, he, hl⟩ := node_seen (h.accepted u) (h2 u) hq hi hx
  obtain ⟨A, B, s1, s2, rfl, hA, hE, _⟩ := hL.split_at he
  have hn := effect_looks hE hl
  cases hy : s1.nodes i with
  | none => rw [hy] at hn; cases hn
  | some y =>
    rw [hy] at hn
    cases hn
    rcases hA.entry_origin hy with ⟨z, hz, hzn⟩ | ⟨t, e', he', had⟩
    · obtain ⟨h3, h4⟩ := new_entry hz
      left
      refine ⟨h3, ?_⟩
      show y.node = root
      rw [← hzn, h4]
    · right
      refine ⟨t, ?_⟩
      rw [h1]
      exact adds_observed (h.accepted t) (h2 t) (List.mem_append_left _ he') had

/-- **C44**, reachability.  The full claim: a node with more lookup replies than forgotten lookups is
reachable.  Proved: if more LOOKUPs of the node are *finished* than items of FORGET requests name it, then a
request about it that starts later is answered by a node found under that ID (or the root).
Missing: LOOKUPs whose reply has been sent but which are not finished, see `C45_violated`.
`T` lists the threads with FORGET requests about `i` that have made a step; `w` bounds their items. -/
theorem C44_reachable_partial (h : Serving fs root w0 bufs tr pool s) (h2 : Runs pool s tr2 pool2 s2)
    {looked : List Nat} (hn : looked.Nodup)
    (hl : ∀ t ∈ looked, pool t = .done (some (.ok ())) ∧ ∃ v, (t, .found v i.val) ∈ observed tr)
    {T : List Nat} {w : Nat → Nat}
    (hT : ∀ t f, t ∈ (tr ++ tr2).map (·.1) → RequestIs fs (bufs t) (.forget f) → itemsFor i f.items ≠ 0 →
      t ∈ T ∧ itemsFor i f.items ≤ w t)
    (hlt : (T.map w).sum < looked.length)
    {u q} (hu : u ∉ tr.map (·.1)) (hq : RequestIs fs (bufs u) q) (hi : OnNode i q)
    {m b} (hm : (u, .sent m b) ∈ observed tr2) :
    ∃ x, (u, .node x) ∈ observed tr2 ∧
      ((i = NodeId.root ∧ x = root) ∨ ∃ t, (t, .found x i.val) ∈ observed (tr ++ tr2)) := by
  obtain ⟨L, M, hL, hM, l1, l2, l3, l4, l5, l6⟩ := h.hist h2
  have hm0 := hm
  rw [l4] at hm
  rcases node_answer (h.accepted u) (l6 u) (by rw [l1]; exact hu) hq hi hm with ⟨_, e, he, hlk⟩ | ⟨x, hx, _⟩
  · exfalso
    obtain ⟨A, B, s4, s5, rfl, hA, hE, _⟩ := hM.split_at he
    have hnone := effect_looks hE hlk
    have hc : s4.count i = 0 := by
      unfold Vfs.count
      cases hy : s4.nodes i with
      | none => rfl
      | some y => rw [hy] at hnone; cases hnone
    have hlow := (hL.append hA).count_lower i
    rw [new_count, hc, total_append] at hlow
    have hadd : (looked.map fun _ => 1).sum ≤ total (VfsEv.addsFor i) L := by
      refine le_total hn fun t ht => ?_
      obtain ⟨h3, v, h4⟩ := hl t ht
      have h5 := l5 t
      rw [h3] at h5
      rw [l3] at h4
      obtain ⟨e', he', ha'⟩ := found_adds (h.accepted t) h5 h4
      refine Nat.le_trans ?_ (sum_ge_of_mem he')
      unfold VfsEv.addsFor
      rw [ha']
      simp
    have hs1 : (looked.map fun _ => 1).sum = looked.length := sum_ones _
    have hfor : total (VfsEv.forgetsFor i) (L ++ (A ++ (u, e) :: B)) ≤ (T.map w).sum := by
      refine forgets_le (p := pool2) h.accepted l6 fun t f ht => hT t f ?_
      rw [List.map_append, ← l1, ← l2, ← List.map_append]
      exact ht
    rw [← List.append_assoc, total_append] at hfor
    omega
  · rw [l4]
    refine ⟨x, hx, ?_⟩
    refine C44_only_found (h.cont h2) hq hi ?_
    rw [observed_append, l4]
    exact List.mem_append_right _ hx

/-- **C44**, reachability, counting the lookups the client gives back: every FORGET item gives back at least
one. -/
theorem C44_counted_partial (h : Serving fs root w0 bufs tr pool s) (h2 : Runs pool s tr2 pool2 s2)
    {looked : List Nat} (hn : looked.Nodup)
    (hl : ∀ t ∈ looked, pool t = .done (some (.ok ())) ∧ ∃ v, (t, .found v i.val) ∈ observed tr)
    {T : List Nat} {w : Nat → Nat}
    (hc : ∀ t f, RequestIs fs (bufs t) (.forget f) → ∀ x ∈ f.items, x.lookupCount ≠ 0)
    (hT : ∀ t f, t ∈ (tr ++ tr2).map (·.1) → RequestIs fs (bufs t) (.forget f) → lookupsFor i f.items ≠ 0 →
      t ∈ T ∧ lookupsFor i f.items ≤ w t)
    (hlt : (T.map w).sum < looked.length)
    {u q} (hu : u ∉ tr.map (·.1)) (hq : RequestIs fs (bufs u) q) (hi : OnNode i q)
    {m b} (hm : (u, .sent m b) ∈ observed tr2) :
    ∃ x, (u, .node x) ∈ observed tr2 ∧
      ((i = NodeId.root ∧ x = root) ∨ ∃ t, (t, .found x i.val) ∈ observed (tr ++ tr2)) := by
  refine C44_reachable_partial h h2 hn hl (T := T) (w := w) (fun t f ht hf h0 => ?_) hlt hu hq hi hm
  have hle := itemsFor_le (i := i) (hc t f hf)
  obtain ⟨h3, h4⟩ := hT t f ht hf (by omega)
  exact ⟨h3, by omega⟩

/-- **C44**, the root: as long as no FORGET names it, the root answers requests about it.
Missing: see `C44_violated_root`. -/
theorem C44_root_partial (h : Serving fs root w0 bufs tr pool s)
    (hT : ∀ t f, t ∈ tr.map (·.1) → RequestIs fs (bufs t) (.forget f) → itemsFor NodeId.root f.items = 0)
    {u q} (hq : RequestIs fs (bufs u) q) (hi : OnNode NodeId.root q)
    {m b} (hm : (u, .sent m b) ∈ observed tr) : (u, .node root) ∈ observed tr := by
  obtain ⟨L, M, hL, hM, l1, l2, l3, l4, l5, l6⟩ := (Serving.mk h.accepted (.nil _ _) :
    Serving fs root w0 bufs [] _ _).hist h.runs
  obtain rfl : L = [] := List.map_eq_nil_iff.mp l1
  rw [l4] at hm ⊢
  have key : ∀ e r, (u, e) ∈ M → e.looks = some (NodeId.root, r) → r = some root := by
    intro e r he hlk
    obtain ⟨A, B, s4, s5, rfl, hA, hE, _⟩ := hM.split_at he
    have h0 := effect_looks hE hlk
    obtain ⟨y, hy, hyn⟩ := hA.entry_kept (i := NodeId.root) (z := ⟨root, 0⟩) new_root fun t e' he' => by
      refine Classical.byContradiction fun h1 => ?_
      have hmem : (t, e') ∈ A ++ (u, e) :: B := List.mem_append_left _ he'
      obtain ⟨f, h2, _, rfl⟩ := forget_events (h.accepted t) (l6 t) (List.mem_append_right [] hmem) h1
      exact h1 (hT t f (by rw [← l2]; exact List.mem_map.mpr ⟨_, hmem, rfl⟩) h2)
    rw [hy] at h0
    rw [← h0]
    exact congrArg some hyn
  rcases node_answer (L := []) (h.accepted u) (l6 u) (by simp) hq hi hm with ⟨_, e, he, hlk⟩ | ⟨x, hx, e, he, hlk⟩
  · cases key e _ he hlk
  · cases key e _ he hlk
    exact hx

/-- **C44**, dropping.  The full claim: once all lookups are forgotten the node is dropped.  Proved: if the
LOOKUPs of a node other than the root (`founds`) were finished before the first FORGET about it started, none
comes after, and the finished FORGETs (`T`) have at least as many *items* naming it as there were lookups, then
requests that start later are refused and call no node.
Missing: an item may give back more than one lookup, see `C44_violated_dropped`. -/
theorem C44_dropped_partial (h : Serving fs root w0 bufs tr pool s) (h2 : Runs pool s tr2 pool2 s2)
    (h3 : Runs pool2 s2 tr3 pool3 s3) (hr : i ≠ NodeId.root)
    {founds : List Nat}
    (hf : ∀ t v, (t, .found v i.val) ∈ observed (tr ++ tr2 ++ tr3) → t ∈ founds ∧ ∃ o, pool t = .done o)
    {T : List Nat} (hn : T.Nodup) {w : Nat → Nat}
    (hT : ∀ t ∈ T, (∃ o, pool2 t = .done o) ∧
      ∃ f, RequestIs fs (bufs t) (.forget f) ∧ w t ≤ itemsFor i f.items ∧ (w t ≠ 0 → t ∈ tr2.map (·.1)))
    (hb : ∀ t f, t ∈ tr.map (·.1) → RequestIs fs (bufs t) (.forget f) → itemsFor i f.items = 0)
    (hge : founds.length ≤ (T.map w).sum)
    {u q} (hu : u ∉ (tr ++ tr2).map (·.1)) (hq : RequestIs fs (bufs u) q) (hi : OnNode i q) :
    (∀ x, (u, .node x) ∉ observed tr3) ∧
    ∀ m b, (u, .sent m b) ∈ observed tr3 →
      m = frame (hdrOf (bufs u)).unique fs.os.invalidArgument.val [] := by
  obtain ⟨L, M, K, hL, hM, hK, l1, l2, l3, o1, o2, o3, f1, f2, f3⟩ := h.hist3 h2 h3
  -- nodes are added only in the first part
  have hadd : ∀ t e v, (t, e) ∈ L ++ M ++ K → e.adds = some (i, v) →
      t ∈ founds ∧ t ∉ (M ++ K).map (·.1) := by
    intro t e v he ha
    have h4 := adds_observed (h.accepted t) (f3 t) he ha
    rw [obsOf_append, obsOf_append, ← o1, ← o2, ← o3, ← observed_append, ← observed_append] at h4
    obtain ⟨h5, o, h6⟩ := hf t v h4
    refine ⟨h5, ?_⟩
    rw [List.map_append, l2, l3, ← List.map_append]
    exact (h2.append h3).finished h6
  have hzero : ∀ t e, (t, e) ∈ M ++ K → e.addsFor i = 0 := by
    intro t e he
    unfold VfsEv.addsFor
    split
    · rename_i p hp
      split
      · rename_i hpi
        obtain ⟨j, v⟩ := p
        cases hpi
        exact absurd (List.mem_map.mpr ⟨_, he, rfl⟩)
          (hadd t e v (by rw [List.append_assoc]; exact List.mem_append_right _ he) hp).2
      · rfl
    · rfl
  have hM0 : total (VfsEv.addsFor i) M = 0 := total_zero fun t e he => hzero t e (List.mem_append_left _ he)
  have hK0 : total (VfsEv.addsFor i) K = 0 := total_zero fun t e he => hzero t e (List.mem_append_right _ he)
  -- counts
  have hc1 : s.count i ≤ founds.length := by
    have h4 := hL.count_upper i
    rw [new_count] at h4
    have h5 : total (VfsEv.addsFor i) L ≤ (founds.map fun _ => 1).sum := by
      refine total_le (fun t e he h0 => ?_) (fun t _ => ?_)
      · unfold VfsEv.addsFor at h0
        split at h0
        · rename_i p hp
          split at h0
          · rename_i hpi
            obtain ⟨j, v⟩ := p
            cases hpi
            exact (hadd t e v (by rw [List.append_assoc]; exact List.mem_append_left _ he) hp).1
          · exact absurd rfl h0
        · exact absurd rfl h0
      · by_cases hemp : eventsOf t L = []
        · rw [hemp]; exact Nat.zero_le _
        · obtain ⟨e, he⟩ := List.exists_mem_of_ne_nil _ hemp
          obtain ⟨q', rest, o, _, hv, _⟩ := (f1 t).trace (h.accepted t) he
          have h6 := hv.adds_once
          rw [List.filterMap_append, List.length_append] at h6
          have h7 : ∀ l : List (VfsEv ν φ η ε), (l.map (VfsEv.addsFor i)).sum ≤ (l.filterMap adds).length := by
            intro l
            induction l with
            | nil => exact Nat.le_refl _
            | cons e l ih =>
              rw [List.map_cons, List.sum_cons, List.filterMap_cons]
              unfold VfsEv.addsFor at ih ⊢
              cases ha : e.adds with
              | none => simpa using ih
              | some p =>
                simp only [List.length_cons]
                split <;> omega
          have := h7 (eventsOf t L)
          omega
    have h6 : (founds.map fun _ => 1).sum = founds.length := sum_ones _
    omega
  have hfor : (T.map w).sum ≤ total (VfsEv.forgetsFor i) M := by
    refine le_total hn fun t ht => ?_
    obtain ⟨⟨o, h4⟩, f, h5, h6, h7⟩ := hT t ht
    by_cases hw : w t = 0
    · omega
    have h8 := h7 hw
    have h9 : t ∉ L.map (·.1) := by
      intro h9
      rw [l1] at h9
      have := hb t f h9 h5
      omega
    have hemp : eventsOf t L = [] := by
      rw [List.eq_nil_iff_forall_not_mem]
      intro e he
      exact h9 (List.mem_map.mpr ⟨_, mem_eventsOf.mp he, rfl⟩)
    have hfol := f2 t
    rw [eventsOf_append, hemp, List.nil_append] at hfol
    rw [← l2] at h8
    obtain ⟨⟨t', e⟩, he, heq⟩ := List.mem_map.mp h8
    obtain rfl : t' = t := heq
    obtain ⟨q', rest, o', hq', hv, hr'⟩ := hfol.trace (h.accepted t') (mem_eventsOf.mpr he)
    obtain rfl := requestIs_unique h5 hq'
    obtain ⟨hrest, _⟩ := hr' o h4
    rw [hrest, List.append_nil] at hv
    generalize eventsOf t' M = evs at hv
    cases hv with
    | forget => exact Nat.le_trans h6 (Nat.le_add_right _ _)
    | noNode _ hx => exact hx.elim
    | noFile _ hx => exact hx.elim
    | noDir _ hx => exact hx.elim
  have hc2 := hM.count_forgets hM0
  -- the entry is gone
  have hgone : ∀ A B, K = A ++ B → ∀ s4, Hist fs.recorded (fun t => hdrOf (bufs t)) s2 A s4 →
      s4.nodes i = none := by
    intro A B hAB s4 hA
    have hA0 : total (VfsEv.addsFor i) A = 0 := by
      rw [hAB, total_append] at hK0
      omega
    have hc3 := hA.count_forgets hA0
    have hpos := ((hL.append hM).append hA).positive (i := i) (by
      intro x hx
      exact absurd (new_entry hx).1 hr)
    cases hy : s4.nodes i with
    | none => rfl
    | some y =>
      have h4 := hpos y hy
      have h5 : s4.count i = 0 := by omega
      unfold Vfs.count at h5
      rw [hy] at h5
      exact absurd (UInt64.toNat_inj.mp (show y.lookupCount.toNat = (0 : UInt64).toNat from h5)) h4
  have key : ∀ e x, (u, e) ∈ K → e.looks ≠ some (i, some x) := by
    intro e x he hlk
    obtain ⟨A, B, s4, s5, rfl, hA, hE, _⟩ := hK.split_at he
    have h4 := effect_looks hE hlk
    rw [hgone A _ rfl s4 hA] at h4
    cases h4
  have huL : u ∉ (L ++ M).map (·.1) := by
    rw [List.map_append, l1, l2, ← List.map_append]
    exact hu
  have hin : ∀ {e1}, (u, e1) ∈ L ++ M ++ K → (u, e1) ∈ K := by
    intro e1 he1
    rcases List.mem_append.mp he1 with h3 | h3
    · exact absurd (List.mem_map.mpr ⟨(u, e1), h3, rfl⟩) huL
    · exact h3
  refine ⟨fun x hx => ?_, fun m b hm => ?_⟩
  · rw [o3] at hx
    obtain ⟨e, he, hlk⟩ := node_seen (h.accepted u) (f3 u) hq hi (by
      rw [obsOf_append]; exact List.mem_append_right _ hx)
    exact key e x (hin he) hlk
  · rw [o3] at hm
    rcases node_answer (h.accepted u) (f3 u) huL hq hi hm with ⟨h4, _⟩ | ⟨x, _, e, he, hlk⟩
    · exact h4
    · exact absurd hlk (key e x he)

/-! ## C45 -/

/-- **C45**.  The full claim: from the moment the client receives the reply to LOOKUP, requests about the node
are answered by it.  Proved: that holds from the moment LOOKUP is finished, as long as no FORGET names the
node.  Missing: the time between the reply and the end of LOOKUP, see `C45_violated`, and nodes announced by
READDIRPLUS, see `C45_violated_readdirplus`. -/
theorem C45_usable_partial (h : Serving fs root w0 bufs tr pool s) (h2 : Runs pool s tr2 pool2 s2) {t v}
    (ht : pool t = .done (some (.ok ()))) (hv : (t, .found v i.val) ∈ observed tr)
    (hT : ∀ t f, t ∈ (tr ++ tr2).map (·.1) → RequestIs fs (bufs t) (.forget f) → itemsFor i f.items = 0)
    {u q} (hu : u ∉ tr.map (·.1)) (hq : RequestIs fs (bufs u) q) (hi : OnNode i q)
    {m b} (hm : (u, .sent m b) ∈ observed tr2) :
    ∃ x, (u, .node x) ∈ observed tr2 ∧
      ((i = NodeId.root ∧ x = root) ∨ ∃ t, (t, .found x i.val) ∈ observed (tr ++ tr2)) := by
  refine C44_reachable_partial h h2 (looked := [t]) (T := []) (w := fun _ => 0) (by simp) ?_ ?_ (by simp) hu hq hi hm
  · intro t' ht'
    rw [List.mem_singleton] at ht'
    subst ht'
    exact ⟨ht, v, hv⟩
  · exact fun t f h1 h2 h3 => absurd (hT t f h1 h2) h3

/-- **C45**, identity: if every LOOKUP that finds the number `i` finds the node `x`, then `x` answers. -/
theorem C45_same_partial (h : Serving fs root w0 bufs tr pool s) (h2 : Runs pool s tr2 pool2 s2) {t x}
    (ht : pool t = .done (some (.ok ()))) (hv : (t, .found x i.val) ∈ observed tr) (hr : i ≠ NodeId.root)
    (hx : ∀ t v, (t, .found v i.val) ∈ observed (tr ++ tr2) → v = x)
    (hT : ∀ t f, t ∈ (tr ++ tr2).map (·.1) → RequestIs fs (bufs t) (.forget f) → itemsFor i f.items = 0)
    {u q} (hu : u ∉ tr.map (·.1)) (hq : RequestIs fs (bufs u) q) (hi : OnNode i q)
    {m b} (hm : (u, .sent m b) ∈ observed tr2) : (u, .node x) ∈ observed tr2 := by
  obtain ⟨y, h3, ⟨h4, _⟩ | ⟨t', h4⟩⟩ := C45_usable_partial h h2 ht hv hT hu hq hi hm
  · exact absurd h4 hr
  · rw [← hx t' y h4]
    exact h3

end

/-! ## Executions in which the claims fail -/

/-- **C44** fails: two LOOKUPs of node 2 and one FORGET giving back both lookups are finished, and node 2
still answers GETATTR. -/
theorem C44_violated_dropped :
    let msgs := [demoLookup, demoLookup, demoForget 2 2, demoGetattr 2]
    (∀ m ∈ msgs, 40 ≤ m.length ∧ u64At m 8 ≠ 0 ∧ u32At m 0 ≤ m.length) ∧
    demoRun msgs [0, 0, 0, 0, 0, 1, 1, 1, 1, 1, 2, 3, 3, 3] =
      [(0, .node 100), (0, .found 200 2), (0, .sent [0, 0, 0, 0, 2, 0, 0, 0, 0, 0, 0, 0] true),
       (1, .node 100), (1, .found 200 2), (1, .sent [0, 0, 0, 0, 2, 0, 0, 0, 0, 0, 0, 0] true),
       (3, .node 200), (3, .sent [0, 0, 0, 0, 1, 0, 0, 0, 0, 0, 0, 0] true)] ∧
    (List.range 4).all (fun t => ((demoSched msgs [0, 0, 0, 0, 0, 1, 1, 1, 1, 1, 2, 3, 3, 3]).2.1 t).isDone) := by
  decide +kernel

/-- **C44** fails: one FORGET naming the root makes it unreachable. -/
theorem C44_violated_root :
    let msgs := [demoForget 1 1, demoGetattr 1]
    (∀ m ∈ msgs, 40 ≤ m.length ∧ u64At m 8 ≠ 0 ∧ u32At m 0 ≤ m.length) ∧
    demoRun msgs [0, 1, 1] = [(1, .sent [234, 255, 255, 255] true)] := by
  decide +kernel

/-- **C45** fails: LOOKUP has announced node 2, and another thread answers GETATTR of node 2 with "invalid
argument". -/
theorem C45_violated :
    let msgs := [demoLookup, demoGetattr 2]
    (∀ m ∈ msgs, 40 ≤ m.length ∧ u64At m 8 ≠ 0 ∧ u32At m 0 ≤ m.length) ∧
    demoRun msgs [0, 0, 0, 0, 1, 1] =
      [(0, .node 100), (0, .found 200 2), (0, .sent [0, 0, 0, 0, 2, 0, 0, 0, 0, 0, 0, 0] true),
       (1, .sent [234, 255, 255, 255] true)] := by
  decide +kernel

/-- **C45** fails for READDIRPLUS, even without concurrency: it announces node 3, which is never added. -/
theorem C45_violated_readdirplus :
    let msgs := [demoOpendir 1, demoReaddirplus 1, demoGetattr 3]
    (∀ m ∈ msgs, 40 ≤ m.length ∧ u64At m 8 ≠ 0 ∧ u32At m 0 ≤ m.length) ∧
    demoRun msgs [0, 0, 0, 0, 0, 1, 1, 1, 1, 2, 2] =
      [(0, .node 100), (0, .opened (.inr 8) 0), (0, .sent [0, 0, 0, 0, 1, 0, 0, 0, 0, 0, 0, 0] true),
       (1, .handle (.inr 8)), (1, .sent [0, 0, 0, 0, 3, 0, 0, 0, 0, 0, 0, 0] true),
       (2, .sent [234, 255, 255, 255] true)] := by
  decide +kernel

-- Two LOOKUPs, one FORGET: node 2 answers; after another FORGET it does not.
example : let msgs := [demoLookup, demoLookup, demoForget 2 1, demoGetattr 2, demoForget 2 1, demoOpen 2]
    (∀ m ∈ msgs, 40 ≤ m.length ∧ u64At m 8 ≠ 0 ∧ u32At m 0 ≤ m.length) ∧
    demoRun msgs [0, 1, 0, 1, 0, 1, 0, 1, 0, 1, 2, 3, 3, 3, 4, 5, 5] =
      [(0, .node 100), (1, .node 100), (0, .found 200 2), (1, .found 200 2),
       (0, .sent [0, 0, 0, 0, 2, 0, 0, 0, 0, 0, 0, 0] true), (1, .sent [0, 0, 0, 0, 2, 0, 0, 0, 0, 0, 0, 0] true),
       (3, .node 200), (3, .sent [0, 0, 0, 0, 1, 0, 0, 0, 0, 0, 0, 0] true),
       (5, .sent [234, 255, 255, 255] true)] := by
  decide +kernel

end Fuse
