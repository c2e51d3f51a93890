import Verif.PropVfsHostile
import Verif.PropVfsLocks

/-!
# C90 with threads

The messages are handled by threads of their own, which take and give back locks and access the maps step by step (see C66).
A client that makes its messages depend upon what it has been sent is covered: the claims are about every execution, and an
execution has certain messages.
-/

namespace Fuse
open Spec VfsEv

section
variable {ν φ η C σ ε : Type}

/-- What a step for the message brings about: nothing, or a question for the kind that the request needs, or the request's method
with the header of the message. -/
inductive VfsImpl.Moves (u : VfsImpl ν φ η C) (layout : FuseLayout) (checks : Bool) (m : Bytes) : C → C → Prop
  | still (c) : Moves u layout checks m c c
  | asks {q k c c'} : Requests layout checks m q → q.kind = some k → u.Asks k c c' → Moves u layout checks m c c'
  | does {q hdr c r c'} : Requests layout checks m q → layout_fuse_in_header hdr = m.take 40 → u.Does hdr q c r c' →
      Moves u layout checks m c c'

variable {u : VfsImpl ν φ η C} {hdr : FuseInHeader}

set_option maxHeartbeats 1000000 in
theorem VfsTrace.moves {fs : Filesystem ν φ η σ ε} {layout : FuseLayout} {checks : Bool} {m : Bytes} {q : AnyRequest}
    {evs : List (VfsEv ν φ η ε)} {out : Outcome ε Unit} (h : VfsTrace fs q evs out) (hq : Requests layout checks m q)
    (hh : layout_fuse_in_header hdr = m.take 40) {c c' : C} {e : VfsEv ν φ η ε} (he : e ∈ evs) (ht : EvTouch u hdr c c' e) :
    u.Moves layout checks m c c' := by
  suffices ∀ e ∈ evs, ∀ c c', EvTouch u hdr c c' e → u.Moves layout checks m c c' from this e he c c' ht
  have h0 : ∀ c c' : C, c' = c → u.Moves layout checks m c c' := by rintro c c' rfl; exact .still _
  cases h <;>
    simp only [List.forall_mem_cons, List.not_mem_nil, false_implies, implies_true, and_true, EvTouch] <;>
    and_intros <;>
    first
      | exact h0
      | exact fun c c' h => .does hq hh h
      | exact fun c c' h => .asks hq rfl h

/-- What the threads have done and will do. -/
structure Underway (fs : Filesystem ν φ η (C × σ) ε) (inv : C → Prop) (N : Option VfsKind → ν → Prop)
    (F : Option VfsKind → φ → Prop) (D : Option VfsKind → η → Prop) (bufs : Nat → Bytes)
    (pool : Nat → Prog (Vfs ν φ η (C × σ)) (Option (Outcome ε Unit))) (s : Vfs ν φ η (C × σ)) : Prop where
  fine : Fine inv N F D s
  sat : ∀ t, ∃ past, (∀ e ∈ past, EvPost N F D e) ∧
    Sat fs (hdrOf (bufs t)) (pool t) fun evs o => DispatchTrace fs ⟨bufs t⟩ (hdrOf (bufs t)) (past ++ evs) o

variable {fs : Filesystem ν φ η (C × σ) ε} {inv : C → Prop} {N : Option VfsKind → ν → Prop} {F : Option VfsKind → φ → Prop}
  {D : Option VfsKind → η → Prop} {bufs : Nat → Bytes}

theorem Underway.runs (hu : fs.impl = u.beside σ) (hsend : ∀ buf w, (fs.sock.send buf w).2.1 = w.1) (hc : u.Confines inv N F D)
    (ha : ∀ t, Acceptable (bufs t)) {pool pool' s s' tr} (hw : Underway fs inv N F D bufs pool s) (h : Runs pool s tr pool' s') :
    Underway fs inv N F D bufs pool' s' ∧ ∀ t r r', (t, r, r') ∈ tr → inv r.world.1 ∧
      u.Moves fs.layout fs.checks (bufs t) r.world.1 r'.world.1 := by
  induction h with
  | nil => exact ⟨hw, nofun⟩
  | @cons pool s t f k tr pool' s' ht _ ih =>
    obtain ⟨past, h1, h2⟩ := hw.sat t
    rw [ht] at h2
    obtain ⟨e, h3, h4⟩ := h2 s
    obtain ⟨rest, o, h5⟩ := h4.complete s
    obtain ⟨g1, g2, g3, g4⟩ := hdrOf_ok (acceptable_new (ha t))
    have hhdr : layout_fuse_in_header (hdrOf (bufs t)) = (bufs t).take 40 := by
      rw [← enc_fuse_in_header]
      have := (ha t).1
      exact Wire.enc_dec _ (by rw [List.length_take]; show _ = 40; omega)
    have key : EvPre N F D e ∧ u.Moves fs.layout fs.checks (bufs t) s.world.1 (f s).world.1 := by
      generalize hl : past ++ e :: rest = l at h5
      cases h5 with
      | handled hty hd hv =>
        subst hl
        refine ⟨guarded_split (hv.objects N F D) ?_, hv.moves ⟨_, g3 ▸ hty, ?_⟩ hhdr (by simp) (ev_touch hu hsend h3)⟩
        · intro e' he'
          rw [List.append_nil, List.mem_reverse] at he'
          exact h1 e' he'
        · unfold decodeMessage
          rw [acceptable_new (ha t)]
          exact hd
      | _ => simp at hl
    obtain ⟨k1, k2⟩ := ev_fine hu hsend hc h3 hw.fine key.1
    obtain ⟨k3, k4⟩ := ih ⟨k1, fun t' => by
      by_cases ht' : t' = t
      · subst ht'
        refine ⟨past ++ [e], fun e' he' => ?_, ?_⟩
        · rcases List.mem_append.mp he' with h | h
          · exact h1 e' h
          · rw [List.mem_singleton] at h
            exact h ▸ k2
        · simp only [setThread, if_pos]
          exact h4.mono fun evs a h => by rw [List.append_assoc]; exact h
      · simp only [setThread, if_neg ht']
        exact hw.sat t'⟩
    refine ⟨k3, fun t' r r' hm => ?_⟩
    rcases List.mem_cons.mp hm with h | h
    · cases h
      exact ⟨hw.fine.world, key.2⟩
    · exact k4 t' r r' h

theorem Alike.mem {a b : List (Nat × Vfs ν φ η σ × Vfs ν φ η σ)} (h : Alike a b) {t s s'} (hm : (t, s, s') ∈ a) :
    s'.world = s.world ∨ ∃ r r', (t, r, r') ∈ b ∧ s.world = r.world ∧ s'.world = r'.world := by
  induction h with
  | nil => exact nomatch hm
  | left h1 _ ih =>
    rcases List.mem_cons.mp hm with h | h
    · cases h; exact .inl h1
    · exact ih h
  | both h1 h2 _ ih =>
    rcases List.mem_cons.mp hm with h | h
    · cases h; exact .inr ⟨_, _, List.mem_cons_self .., h1, h2⟩
    · rcases ih h with h | ⟨r, r', h3, h4⟩
      · exact .inl h
      · exact .inr ⟨r, r', List.mem_cons_of_mem _ h3, h4⟩

theorem LRuns.before {σ α : Type} {c c2 : LConf ν φ η σ α} {tr} (h : LRuns c tr c2) {t s s'} (hm : (t, s, s') ∈ tr) :
    ∃ tr1 c1, LRuns c tr1 c1 ∧ c1.mem = s := by
  induction h with
  | nil => exact nomatch hm
  | cons st _ ih =>
    rcases List.mem_cons.mp hm with h | h
    · cases h; exact ⟨_, _, .nil _, rfl⟩
    · obtain ⟨tr1, c1, h1, h2⟩ := ih h
      exact ⟨_, _, .cons st h1, h2⟩

/-- **C90**, with threads: whatever the messages are and however the threads that handle them take turns, at every moment the
state of the user's code is one that it can rely upon, and every step of a thread does nothing to it but what the thread's
message asks for. -/
theorem C90_threads (hc : u.Confines inv N F D) {root : ν} (hr : N none root) {c0 : C} (hi : inv c0) (sock : Socket σ ε) (w0 : σ)
    {layout : FuseLayout} {os : OsErrors} {checks : Bool} (ha : ∀ t, Acceptable (bufs t)) {tr c}
    (h : LRuns (.start (fun t => Filesystem.Locked.dispatch (u.on sock layout os checks) ⟨bufs t⟩) (Vfs.new root (c0, w0))) tr c) :
    inv c.mem.world.1 ∧ ∀ t s s', (t, s, s') ∈ tr →
      inv s.world.1 ∧ u.Moves layout checks (bufs t) s.world.1 s'.world.1 := by
  have h0 := LConf.Sim.start (fun t => Filesystem.Locked.dispatch (u.on sock layout os checks) ⟨bufs t⟩)
    (Vfs.new (φ := φ) (η := η) root (c0, w0))
  have e : (fun t => (Filesystem.Locked.dispatch (u.on sock layout os checks) ⟨bufs t⟩).erase) =
      fun t => (u.on sock layout os checks).dispatch ⟨bufs t⟩ := funext fun t => Filesystem.Locked.erase_dispatch _ _
  rw [e] at h0
  have h1 : Underway (u.on sock layout os checks) inv N F D bufs
      (fun t => (u.on sock layout os checks).dispatch ⟨bufs t⟩) (Vfs.new root (c0, w0)) :=
    ⟨(new_fine hr hi w0).1, fun t => ⟨[], nofun, by
      obtain ⟨g1, ⟨id, g2⟩, _⟩ := hdrOf_ok (acceptable_new (ha t))
      exact dispatch_sat (u.on sock layout os checks) g1 g2⟩⟩
  have step : ∀ {c tr}, LRuns (.start (fun t => Filesystem.Locked.dispatch (u.on sock layout os checks) ⟨bufs t⟩)
      (Vfs.new root (c0, w0))) tr c → inv c.mem.world.1 ∧ ∀ t s s', (t, s, s') ∈ tr →
      u.Moves layout checks (bufs t) s.world.1 s'.world.1 := by
    intro c tr h
    obtain ⟨tr', pool, s, a1, a2, a3⟩ := h0.runs h
    obtain ⟨b1, b2⟩ := h1.runs rfl (fun _ _ => rfl) hc ha a1
    refine ⟨a3.world ▸ b1.fine.world, fun t r r' hm => ?_⟩
    rcases a2.mem hm with h | ⟨x, x', h2, h3, h4⟩
    · rw [h]; exact .still _
    · rw [h3, h4]; exact (b2 _ _ _ h2).2
  refine ⟨(step h).1, fun t s s' hm => ⟨?_, (step h).2 t s s' hm⟩⟩
  obtain ⟨tr1, c1, h2, h3⟩ := h.before hm
  exact h3 ▸ (step h2).1

/-- **C90**, with threads: at every moment, nothing has been changed but files with a name in the tree. -/
theorem C90_threads_tree (tree : Tree) (alloc : ReaddirRequest → Nat) (content : NodeId → Bytes) (sock : Socket σ ε) (w0 : σ)
    {layout : FuseLayout} {os : OsErrors} {checks : Bool} (ha : ∀ t, Acceptable (bufs t)) {tr c}
    (h : LRuns (.start (fun t => Filesystem.Locked.dispatch ((tree.userCode alloc).on sock layout os checks) ⟨bufs t⟩)
      (Vfs.new NodeId.root (content, w0))) tr c) (i : NodeId)
    (hi : ¬ (tree.Reach i ∧ tree.dirs i = none ∧ tree.links i = none)) : c.mem.world.1 i = content i := by
  refine (C90_threads (tree_confines tree alloc content) (root := NodeId.root) ⟨.root, nofun⟩ (fun _ _ => rfl) sock w0 ha h).1 i
    fun ⟨hr, hf⟩ => hi ⟨hr, ?_⟩
  unfold Tree.notFile at hf
  cases hx : tree.dirs i <;> cases hy : tree.links i <;> rw [hx, hy] at hf <;> first | exact ⟨rfl, rfl⟩ | cases hf

end

/-! ## A concrete case -/

namespace VfsHostileMany

/-- Looking up `/f`, opening it, writing through the open file twice, and through one that was never opened. -/
def bufs : Nat → Bytes
  | 0 => Hostile.raw 1 17 1 [0x66, 0]
  | 1 => Hostile.raw 14 18 9 (le32 0 ++ le32 0)
  | 2 => Hostile.raw 16 19 5 (le64 1 ++ le64 1 ++ le32 2 ++ le32 0 ++ le64 0 ++ le32 0 ++ le32 0 ++ [5, 6])
  | 3 => Hostile.raw 16 20 5 (le64 1 ++ le64 0 ++ le32 2 ++ le32 0 ++ le64 0 ++ le32 0 ++ le32 0 ++ [7, 8])
  | 4 => Hostile.raw 16 21 5 (le64 2 ++ le64 0 ++ le32 2 ++ le32 0 ++ le64 0 ++ le32 0 ++ le32 0 ++ [9, 9])
  | _ => Hostile.raw 9 22 1 []

theorem bufs_ok (t : Nat) : Acceptable (bufs t) := by
  match t with
  | 0 | 1 | 2 | 3 | 4 => decide
  | _ + 5 => exact (by decide : Acceptable (Hostile.raw 9 22 1 []))

/-- All is at its beginning. -/
def start : LConf NodeId NodeId NodeId ((NodeId → Bytes) × Unit) (Option (Outcome Unit Unit)) :=
  .start (fun t => Filesystem.Locked.dispatch ((Stack.tree.userCode fun _ => 0x1000).on demoFs.sock ⟨31, 0⟩ OsErrors.linux true)
    ⟨bufs t⟩) (Vfs.new NodeId.root (Stack.content, ()))

/-- The contents of the root, of `/d` and of `/f`, when the threads have taken turns so. -/
def contents (ts : List Nat) : List Bytes :=
  let c := (start.fires [0, 1, 2, 3, 4] ts).mem.world.1
  [c NodeId.root, c ⟨5, by decide⟩, c ⟨9, by decide⟩]

/-- Both orders of writing, and all at once: nothing is open yet then. -/
example : contents (List.replicate 12 0 ++ List.replicate 12 1 ++ (List.replicate 10 [2, 3, 4]).flatten) = [[], [], [7, 8, 6]] ∧
    contents (List.replicate 12 0 ++ List.replicate 12 1 ++ (List.replicate 10 [4, 3, 2]).flatten) = [[], [], [7, 5, 6]] ∧
    contents (List.replicate 12 [0, 1, 2, 3, 4]).flatten = [[], [], [1, 2]] := by decide +kernel

/-- C90_threads_tree: in any order. -/
example (ts : List Nat) (hts : ∀ t ∈ ts, t ∈ [0, 1, 2, 3, 4]) (i : NodeId) (hi : i.val ≠ 9) :
    (start.fires [0, 1, 2, 3, 4] ts).mem.world.1 i = Stack.content i := by
  obtain ⟨tr, h⟩ := start.fires_runs (live := [0, 1, 2, 3, 4]) (ts := ts) (fun u l hu => hu.elim) hts
  refine C90_threads_tree Stack.tree (fun _ => 0x1000) Stack.content demoFs.sock () bufs_ok h i fun ⟨hr, hd, hl⟩ => ?_
  obtain ⟨v, hv⟩ := i
  rcases VfsHostile.reach hr with h | h | h | h <;> dsimp only at h <;> subst h
  · cases hd
  · cases hd
  · exact hi rfl
  · cases hl

end VfsHostileMany

end Fuse
