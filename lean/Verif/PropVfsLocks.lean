import Verif.VfsLockFacts
import Verif.PropVfs

/-!
# C66: locking in the VFS layer
-/

namespace Fuse

open Spec

variable {ν φ η σ ε α : Type}

/-- As `Serving`, at the level of locks: a filesystem with root `root` has handled the messages `bufs` (thread
`t` handles `bufs t`) for the steps `tr` and has arrived at `c`. -/
structure LServing (fs : Filesystem ν φ η σ ε) (root : ν) (w0 : σ) (bufs : Nat → Bytes)
    (tr : List (Nat × Vfs ν φ η (σ × List (Obs ν φ η)) × Vfs ν φ η (σ × List (Obs ν φ η))))
    (c : LConf ν φ η (σ × List (Obs ν φ η)) (Option (Outcome ε Unit))) : Prop where
  accepted : ∀ t, Request.new (bufs t) = .ok ⟨bufs t⟩
  runs : LRuns (.start (fun t => Filesystem.Locked.dispatch fs.recorded ⟨bufs t⟩) (Vfs.new root (w0, []))) tr c

/-- The same, where user code may also panic; `ts` are the threads in the order of their steps. -/
structure LServingP (fs : Filesystem ν φ η σ ε) (root : ν) (w0 : σ) (bufs : Nat → Bytes) (ts : List Nat)
    (c : LConf ν φ η (σ × List (Obs ν φ η)) (Option (Outcome ε Unit))) : Prop where
  accepted : ∀ t, Request.new (bufs t) = .ok ⟨bufs t⟩
  runs : LRunsP (.start (fun t => Filesystem.Locked.dispatch fs.recorded ⟨bufs t⟩) (Vfs.new root (w0, []))) ts c

/-- The thread is in a method of the user (or in `send`). -/
def Thr.InUser : Thr ν φ η σ α → Prop
  | .out (.world _ _) => True
  | .sec _ (.call _ _) _ => True
  | _ => False

/-- The thread is about to take the lock. -/
def Thr.Waits : Thr ν φ η σ α → Lck → Prop
  | .out (.read l _), l' => l = l'
  | .out (.write l _ _), l' => l = l'
  | _, _ => False

/-! ## Critical sections are atomic -/

section
variable {fs : Filesystem ν φ η σ ε} {root : ν} {w0 : σ} {bufs : Nat → Bytes}
  {tr tr2 : List (Nat × Vfs ν φ η (σ × List (Obs ν φ η)) × Vfs ν φ η (σ × List (Obs ν φ η)))}
  {c c2 : LConf ν φ η (σ × List (Obs ν φ η)) (Option (Outcome ε Unit))}

theorem LConf.Sim.done {c : LConf ν φ η σ α} {pool s} (h : c.Sim pool s) {t : Nat} {o : α}
    (ht : c.threads t = .out (.done o)) : pool t = .done o := by
  have := h.thread t
  rw [ht] at this
  exact this

theorem LConf.Sim.mem {c : LConf ν φ η σ α} {pool s} (h : c.Sim pool s) (hf : ∀ l, c.Free l) : s = c.mem :=
  Vfs.ext' (fun l => h.agree l fun u hu => hf l u (Thr.holds_of_writes hu)) h.world

/-- **C66**: whatever can be observed of the VFS layer when its threads take and give back locks and access the
maps step by step can also be observed when every critical section is one atomic step: the same observations by the
same threads in the same order, the same results, and the same maps whenever no lock is held. -/
theorem C66_atomic (h : LServing fs root w0 bufs tr c) (h2 : LRuns c tr2 c2) :
    ∃ tr' pool s tr2' pool2 s2, Serving fs root w0 bufs tr' pool s ∧ Runs pool s tr2' pool2 s2 ∧
      observed tr' = observed tr ∧ observed tr2' = observed tr2 ∧
      (∀ t ∈ tr'.map (·.1), t ∈ tr.map (·.1)) ∧ (∀ t ∈ tr2'.map (·.1), t ∈ tr2.map (·.1)) ∧
      (∀ t o, c.threads t = .out (.done o) → pool t = .done o) ∧
      (∀ t o, c2.threads t = .out (.done o) → pool2 t = .done o) ∧
      ((∀ l, c.Free l) → s = c.mem) ∧ ((∀ l, c2.Free l) → s2 = c2.mem) := by
  have h0 := LConf.Sim.start (fun t => Filesystem.Locked.dispatch fs.recorded ⟨bufs t⟩)
    (Vfs.new (φ := φ) (η := η) root (w0, []))
  obtain ⟨tr', pool, s, a1, a2, a3⟩ := h0.runs h.runs
  obtain ⟨tr2', pool2, s2, b1, b2, b3⟩ := a3.runs h2
  have e : (fun t => (Filesystem.Locked.dispatch fs.recorded ⟨bufs t⟩).erase) =
      fun t => fs.recorded.dispatch ⟨bufs t⟩ := funext fun t => Filesystem.Locked.erase_dispatch _ _
  rw [e] at a1
  exact ⟨tr', pool, s, tr2', pool2, s2, ⟨h.accepted, a1⟩, b1, a2.observed.symm, b2.observed.symm,
    fun t ht => a2.threads ht, fun t ht => b2.threads ht, fun t o ht => a3.done ht, fun t o ht => b3.done ht,
    a3.mem, b3.mem⟩

/-- C43 at the level of locks: after a successful reply to RELEASE (18) or RELEASEDIR (29), a request through the
same handle that starts later reaches no object, and is answered with "invalid argument" if at all. -/
theorem C66_released (h : LServing fs root w0 bufs tr c) (h2 : LRuns c tr2 c2) {t u m b d q q' fh}
    (ht : u32At (bufs t) 4 = 18 ∨ u32At (bufs t) 4 = 29) (hq : RequestIs fs (bufs t) q) (hd : OnHandle d fh q)
    (hm : (t, .sent m b) ∈ observed tr) (he : u32At m 4 = 0)
    (hu : u ∉ tr.map (·.1)) (hq' : RequestIs fs (bufs u) q') (hd' : OnHandle d fh q') :
    (∀ x, (u, .handle x) ∉ observed tr2) ∧
    ∀ m' b', (u, .sent m' b') ∈ observed tr2 →
      m' = frame (hdrOf (bufs u)).unique fs.os.invalidArgument.val [] := by
  obtain ⟨tr', pool, s, tr2', pool2, s2, a1, a2, a3, a4, a5, a6, _⟩ := C66_atomic h h2
  rw [← a3] at hm
  rw [← a4]
  exact C43_gone a1 a2 ht hq hd hm he (fun hx => hu (a5 u hx)) hq' hd'

end

/-! ## User code and locks -/

section
variable {fs : Filesystem ν φ η σ ε} {root : ν} {w0 : σ} {bufs : Nat → Bytes} {ts : List Nat}
  {c c2 : LConf ν φ η (σ × List (Obs ν φ η)) (Option (Outcome ε Unit))}

theorem LServingP.all (h : LServingP fs root w0 bufs ts c) (t : Nat) :
    (c.threads t).All (u32At (bufs t) 4 = 18 ∨ u32At (bufs t) 4 = 29) := by
  have h1 := h.runs.all (Q := fun t => Filesystem.Locked.IsRelease ⟨bufs t⟩)
    (fun t => Filesystem.Locked.all_dispatch _ _) t
  obtain ⟨hr, _, ho, _⟩ := hdrOf_ok (h.accepted t)
  have h2 : Filesystem.Locked.IsRelease ⟨bufs t⟩ = (u32At (bufs t) 4 = 18 ∨ u32At (bufs t) 4 = 29) := by
    apply propext
    constructor
    · rintro ⟨x, e, h3⟩
      rw [hr] at e
      cases e
      rw [← ho]
      rcases h3 with h3 | h3 <;> rw [h3]
      · exact .inl rfl
      · exact .inr rfl
    · intro h3
      refine ⟨_, hr, ?_⟩
      rw [← ho] at h3
      exact h3.imp (fun h => UInt32.toNat_inj.mp h) (fun h => UInt32.toNat_inj.mp h)
  rwa [h2] at h1

theorem LServingP.holders (h : LServingP fs root w0 bufs ts c) {u : Nat} {l : Lck}
    (hu : (c.threads u).holds l) : u ∈ ts := by
  by_cases hm : u ∈ ts
  · exact hm
  · rw [h.runs.untouched hm] at hu
    exact hu.elim

theorem LServingP.excl (h : LServingP fs root w0 bufs ts c) : c.Excl := h.runs.excl (LConf.start_excl _ _)

/-- **C66**: user code is called with a lock held only for RELEASE (18) and RELEASEDIR (29) requests, and then it
is the lock of the handle map. -/
theorem C66_user_code_partial (h : LServingP fs root w0 bufs ts c) {t l} (hu : (c.threads t).InUser)
    (hl : (c.threads t).holds l) :
    l = .handles ∧ (u32At (bufs t) 4 = 18 ∨ u32At (bufs t) 4 = 29) := by
  have ha := h.all t
  cases ht : c.threads t with
  | out p => rw [ht] at hl; exact hl.elim
  | peek l k => rw [ht] at hu; exact hu.elim
  | held l p => rw [ht] at hu; exact hu.elim
  | tail l q k => rw [ht] at hu; exact hu.elim
  | crashed => rw [ht] at hu; exact hu.elim
  | sec l' q k =>
    rw [ht] at ha hl hu
    have hl' : l' = l := hl
    subst hl'
    cases q with
    | done r => exact hu.elim
    | step f g => exact hu.elim
    | call f g =>
      rcases ha.1 with ha | ha
      · exact ha.elim
      · exact ha

/-- **C66**: as long as no method called for a RELEASE or RELEASEDIR request hangs, hanging user code holds up only
its own request: if the threads of `hung` never return from the methods they are in, every other thread can still
be brought to its end without them. -/
theorem C66_independent_partial (h : LServingP fs root w0 bufs ts c) (hung : Nat → Prop)
    (hu : ∀ u, hung u → (c.threads u).InUser ∧ u32At (bufs u) 4 ≠ 18 ∧ u32At (bufs u) 4 ≠ 29)
    {t : Nat} (ht : ¬ hung t) :
    ∃ tr c', LRuns c tr c' ∧ (∀ x ∈ tr, ¬ hung x.1) ∧ (c'.threads t).over := by
  obtain ⟨tr, c1, h1, h2, h3⟩ := give_back_all ts c fun u l hl => h.holders hl
  have h2' : ∀ x ∈ tr, ¬ hung x.1 := by
    intro x hx hh
    obtain ⟨l, hl⟩ := h2 x hx
    obtain ⟨g1, g2, g3⟩ := hu _ hh
    rcases (C66_user_code_partial h g1 hl).2 with e | e
    · exact g2 e
    · exact g3 e
  cases hc : c1.threads t with
  | out p =>
    obtain ⟨tr', c2, g1, g2, g3⟩ := run_alone t p c1 hc h3
    refine ⟨_, c2, h1.append g1, fun x hx => ?_, g3⟩
    rcases List.mem_append.mp hx with hx | hx
    · exact h2' x hx
    · rw [g2 x hx]
      exact ht
  | crashed => exact ⟨_, c1, h1, h2', by rw [hc]; trivial⟩
  | peek l k => exact absurd (show (c1.threads t).holds l by rw [hc]; exact rfl) (h3 l t)
  | held l k => exact absurd (show (c1.threads t).holds l by rw [hc]; exact rfl) (h3 l t)
  | sec l q k => exact absurd (show (c1.threads t).holds l by rw [hc]; exact rfl) (h3 l t)
  | tail l q k => exact absurd (show (c1.threads t).holds l by rw [hc]; exact rfl) (h3 l t)

/-- **C66**: there is no deadlock: when all user code returns, every thread can be brought to its end. -/
theorem C66_no_deadlock (h : LServingP fs root w0 bufs ts c) (t : Nat) :
    ∃ tr c', LRuns c tr c' ∧ (c'.threads t).over := by
  obtain ⟨tr, c', h1, _, h2⟩ := C66_independent_partial h (fun _ => False) (fun _ h => h.elim) (t := t) id
  exact ⟨tr, c', h1, h2⟩

/-- **C66**: a panic of user code called for anything but RELEASE and RELEASEDIR poisons no lock, changes neither
map, and leaves no lock behind. -/
theorem C66_panic_partial (h : LServingP fs root w0 bufs ts c) {t} (hp : LPanic c t c2)
    (ht : u32At (bufs t) 4 ≠ 18) (ht' : u32At (bufs t) 4 ≠ 29) :
    c2.poisoned = c.poisoned ∧ c2.mem.nodes = c.mem.nodes ∧ c2.mem.handles = c.mem.handles ∧
      ∀ u l, (c2.threads u).holds l ↔ (c.threads u).holds l := by
  cases hp with
  | world w hw =>
    refine ⟨rfl, rfl, rfl, fun u l => ?_⟩
    by_cases hu : u = t
    · subst hu
      rw [LConf.set_same, hw]
      exact Iff.rfl
    · rw [LConf.set_ne _ _ _ hu]
  | @call l γ f g k w hw =>
    have h1 : (c.threads t).InUser := by rw [hw]; trivial
    have h2 : (c.threads t).holds l := by rw [hw]; exact rfl
    rcases (C66_user_code_partial h h1 h2).2 with e | e
    · exact absurd e ht
    · exact absurd e ht'

end

/-! ## What RELEASE does to the others -/

/-- While thread `a` has the lock and makes no step, threads that want it stay where they are. -/
theorem blocked {c c2 : LConf ν φ η σ α} {us : List Nat} (hr : LRunsP c us c2) {a t : Nat} {l : Lck}
    (ha : (c.threads a).writes l) (ht : (c.threads t).Waits l) (hn : a ∉ us) : c2.threads t = c.threads t := by
  induction hr with
  | nil => rfl
  | @cons c u c1 us c2 st _ ih =>
    simp only [List.mem_cons, not_or] at hn
    have h1 : c1.threads a = c.threads a := by
      rcases st with st | st
      · exact st.other hn.1
      · exact st.other hn.1
    have h2 : c1.threads t = c.threads t := by
      by_cases hut : t = u
      · subst hut
        rcases st with st | st
        · cases st with
          | world h => rw [h] at ht; exact ht.elim
          | lockRead h hl hp => rw [h] at ht; cases ht; exact absurd ha (hl a)
          | look h => rw [h] at ht; exact ht.elim
          | unlockRead h => rw [h] at ht; exact ht.elim
          | lockWrite h hl hp => rw [h] at ht; cases ht; exact absurd (Thr.holds_of_writes ha) (hl a)
          | access h => rw [h] at ht; exact ht.elim
          | call h => rw [h] at ht; exact ht.elim
          | accessTail h => rw [h] at ht; exact ht.elim
          | unlock h => rw [h] at ht; exact ht.elim
          | unlockTail h => rw [h] at ht; exact ht.elim
          | panicSec h => rw [h] at ht; exact ht.elim
          | panicTail h => rw [h] at ht; exact ht.elim
          | poisonRead h hl hp => rw [h] at ht; cases ht; exact absurd ha (hl a)
          | poisonWrite h hl hp => rw [h] at ht; cases ht; exact absurd (Thr.holds_of_writes ha) (hl a)
        · cases st with
          | world w h => rw [h] at ht; exact ht.elim
          | call w h => rw [h] at ht; exact ht.elim
      · rcases st with st | st
        · exact st.other hut
        · exact st.other hut
    rw [ih (by rw [h1]; exact ha) (by rw [h2]; exact ht) hn.2, h2]

/-- A poisoned lock stays poisoned. -/
theorem LStep.poisoned {c c' : LConf ν φ η σ α} {t : Nat} {l : Lck} (h : LStep c t c') (hp : c.poisoned l = true) :
    c'.poisoned l = true := by
  cases h <;> first
    | exact hp
    | (show (if l = _ then true else c.poisoned l) = true; rw [hp]; exact ite_self _)

theorem LPanic.poisoned {c c' : LConf ν φ η σ α} {t : Nat} {l : Lck} (h : LPanic c t c')
    (hp : c.poisoned l = true) : c'.poisoned l = true := by
  cases h <;> first
    | exact hp
    | (show (if l = _ then true else c.poisoned l) = true; rw [hp]; exact ite_self _)

/-- A thread that wants a poisoned lock never gets any further. -/
theorem poisoned_stuck {c c2 : LConf ν φ η σ α} {us : List Nat} (hr : LRunsP c us c2) {t : Nat} {l : Lck}
    (hp : c.poisoned l = true) (ht : (c.threads t).Waits l ∨ c.threads t = .crashed) :
    c2.threads t = c.threads t ∨ c2.threads t = .crashed := by
  induction hr with
  | nil => exact .inl rfl
  | @cons c u c1 us c2 st _ ih =>
    have hp1 : c1.poisoned l = true := by
      rcases st with st | st
      · exact st.poisoned hp
      · exact st.poisoned hp
    have h2 : c1.threads t = c.threads t ∨ c1.threads t = .crashed := by
      by_cases hut : t = u
      · subst hut
        rcases st with st | st
        · rcases ht with ht | ht
          · cases st with
            | world h => rw [h] at ht; exact ht.elim
            | lockRead h hl hq => rw [h] at ht; cases ht; rw [hp] at hq; cases hq
            | look h => rw [h] at ht; exact ht.elim
            | unlockRead h => rw [h] at ht; exact ht.elim
            | lockWrite h hl hq => rw [h] at ht; cases ht; rw [hp] at hq; cases hq
            | access h => rw [h] at ht; exact ht.elim
            | call h => rw [h] at ht; exact ht.elim
            | accessTail h => rw [h] at ht; exact ht.elim
            | unlock h => rw [h] at ht; exact ht.elim
            | unlockTail h => rw [h] at ht; exact ht.elim
            | panicSec h => rw [h] at ht; exact ht.elim
            | panicTail h => rw [h] at ht; exact ht.elim
            | poisonRead h hl hq => exact .inr (LConf.set_same _ _ _ _)
            | poisonWrite h hl hq => exact .inr (LConf.set_same _ _ _ _)
          · cases st <;> rename_i h <;> first | (rw [h] at ht; cases ht) | (rw [‹c.threads t = _›] at ht; cases ht)
        · exact .inr st.crashed
      · rcases st with st | st
        · exact .inl (st.other hut)
        · exact .inl (st.other hut)
    rcases h2 with h2 | h2
    · rw [← h2]
      exact ih hp1 (by rw [h2]; exact ht)
    · rcases ih hp1 (.inr h2) with h3 | h3
      · exact .inr (h3.trans h2)
      · exact .inr h3

section
variable {fs : Filesystem ν φ η σ ε} {root : ν} {w0 : σ} {bufs : Nat → Bytes} {ts : List Nat}
  {c c1 c2 : LConf ν φ η (σ × List (Obs ν φ η)) (Option (Outcome ε Unit))}

/-- **C66**: while a method called for RELEASE or RELEASEDIR with the lock held has not returned, every thread that
needs the handle map stays where it is, whatever happens otherwise. -/
theorem C66_blocked {a t : Nat} {l : Lck} {us : List Nat} (hr : LRunsP c us c2)
    (ha : (c.threads a).InUser) (hl : (c.threads a).holds l) (ht : (c.threads t).Waits l) (hn : a ∉ us) :
    c2.threads t = c.threads t := by
  refine blocked hr (l := l) ?_ ht hn
  cases hc : c.threads a with
  | out p => rw [hc] at hl; exact hl.elim
  | peek l k => rw [hc] at ha; exact ha.elim
  | held l p => rw [hc] at ha; exact ha.elim
  | tail l q k => rw [hc] at ha; exact ha.elim
  | crashed => rw [hc] at ha; exact ha.elim
  | sec l' q k => rw [hc] at hl; exact hl

/-- **C66**: after a panic of a method called with the lock held, every thread that needs the handle map panics
itself when it moves. -/
theorem C66_poisoned {a t : Nat} {l : Lck} {us : List Nat} (hp : LPanic c a c1) (hl : (c.threads a).holds l)
    (hr : LRunsP c1 us c2) (ht : (c1.threads t).Waits l) :
    c2.threads t = c1.threads t ∨ c2.threads t = .crashed := by
  refine poisoned_stuck hr (l := l) ?_ (.inl ht)
  cases hp with
  | world w h => rw [h] at hl; exact hl.elim
  | call w h =>
    rw [h] at hl
    cases hl
    show (if l = l then true else _) = true
    rw [if_pos rfl]

end

/-! ## Concrete executions -/

/-- `Thr.holds` as a computation. -/
def Thr.holdsB : Thr ν φ η σ α → Lck → Bool
  | .peek l _, l' => l == l'
  | .held l _, l' => l == l'
  | .sec l _ _, l' => l == l'
  | .tail l _ _, l' => l == l'
  | _, _ => false

theorem Thr.holdsB_iff (x : Thr ν φ η σ α) (l : Lck) : x.holdsB l = true ↔ x.holds l := by
  cases x <;> simp [Thr.holdsB, Thr.holds, Thr.writes]

/-- One step of thread `t` if it can make one; only the threads of `live` hold locks.  A lock is taken only when
nobody has it. -/
def LConf.fire (live : List Nat) (c : LConf ν φ η σ α) (t : Nat) : LConf ν φ η σ α :=
  match c.threads t with
  | .out (.done _) => c
  | .out (.world f k) => c.set t (.out (k c.mem.world)) { c.mem with world := f c.mem.world }
  | .out (.read l k) =>
    if live.all (fun u => !(c.threads u).holdsB l) && !c.poisoned l then c.set t (.peek l k) c.mem else c
  | .out (.write l s k) =>
    if live.all (fun u => !(c.threads u).holdsB l) && !c.poisoned l then c.set t (.sec l s k) c.mem else c
  | .peek l k => c.set t (.held l (k (c.mem.get l))) c.mem
  | .held _ p => c.set t (.out p) c.mem
  | .sec l (.step f g) k => c.set t (.sec l (g (c.mem.get l)) k) (c.mem.put l (f (c.mem.get l)))
  | .sec l (.call f g) k => c.set t (.tail l (g c.mem.world) k) { c.mem with world := f c.mem.world }
  | .sec _ (.done (.ok b)) k => c.set t (.out (k (.ok b))) c.mem
  | .sec l (.done (.error _)) _ => (c.set t .crashed c.mem).poison l
  | .tail l (.step f g) k => c.set t (.tail l (g (c.mem.get l)) k) (c.mem.put l (f (c.mem.get l)))
  | .tail _ (.done (.ok b)) k => c.set t (.out (k (.ok b))) c.mem
  | .tail l (.done (.error _)) _ => (c.set t .crashed c.mem).poison l
  | .crashed => c

/-- Steps of the threads `ts`, in this order; a thread that cannot make a step is skipped. -/
def LConf.fires (live : List Nat) (c : LConf ν φ η σ α) (ts : List Nat) : LConf ν φ η σ α :=
  ts.foldl (LConf.fire live) c

theorem LConf.fire_runs {live : List Nat} {c : LConf ν φ η σ α} (t : Nat)
    (hl : ∀ u l, (c.threads u).holds l → u ∈ live) :
    ∃ tr, LRuns c tr (c.fire live t) := by
  have free : ∀ l, live.all (fun u => !(c.threads u).holdsB l) = true → c.Free l := by
    intro l h u hu
    have h1 := List.all_eq_true.mp h u (hl u l hu)
    rw [(Thr.holdsB_iff _ _).mpr hu] at h1
    cases h1
  cases h : c.threads t with
  | out p =>
    cases p with
    | done a => exact ⟨[], by simp only [fire, h]; exact .nil _⟩
    | world f k => exact ⟨_, by simp only [fire, h]; exact .cons (.world h) (.nil _)⟩
    | read l k =>
      by_cases hb : (live.all (fun u => !(c.threads u).holdsB l) && !c.poisoned l) = true
      · have hb' := (Bool.and_eq_true _ _).mp hb
        refine ⟨_, by
          simp only [fire, h, hb, if_true]
          exact .cons (.lockRead h (fun u hu => free l hb'.1 u (Thr.holds_of_writes hu)) (by simpa using hb'.2)) (.nil _)⟩
      · exact ⟨[], by simp only [fire, h]; rw [if_neg hb]; exact .nil _⟩
    | write l s k =>
      by_cases hb : (live.all (fun u => !(c.threads u).holdsB l) && !c.poisoned l) = true
      · have hb' := (Bool.and_eq_true _ _).mp hb
        refine ⟨_, by
          simp only [fire, h, hb, if_true]
          exact .cons (.lockWrite h (free l hb'.1) (by simpa using hb'.2)) (.nil _)⟩
      · exact ⟨[], by simp only [fire, h]; rw [if_neg hb]; exact .nil _⟩
  | peek l k => exact ⟨_, by simp only [fire, h]; exact .cons (.look h) (.nil _)⟩
  | held l p => exact ⟨_, by simp only [fire, h]; exact .cons (.unlockRead h) (.nil _)⟩
  | sec l q k =>
    cases q with
    | done r =>
      cases r with
      | ok b => exact ⟨_, by simp only [fire, h]; exact .cons (.unlock h) (.nil _)⟩
      | error e => exact ⟨_, by simp only [fire, h]; exact .cons (.panicSec h) (.nil _)⟩
    | step f g => exact ⟨_, by simp only [fire, h]; exact .cons (.access h) (.nil _)⟩
    | call f g => exact ⟨_, by simp only [fire, h]; exact .cons (.call h) (.nil _)⟩
  | tail l q k =>
    cases q with
    | done r =>
      cases r with
      | ok b => exact ⟨_, by simp only [fire, h]; exact .cons (.unlockTail h) (.nil _)⟩
      | error e => exact ⟨_, by simp only [fire, h]; exact .cons (.panicTail h) (.nil _)⟩
    | step f g => exact ⟨_, by simp only [fire, h]; exact .cons (.accessTail h) (.nil _)⟩
  | crashed => exact ⟨[], by simp only [fire, h]; exact .nil _⟩

/-- A step of a thread changes only that thread. -/
theorem LConf.fire_other {live : List Nat} {c : LConf ν φ η σ α} {t u : Nat}
    (hu : u ≠ t) : (c.fire live t).threads u = c.threads u := by
  cases h : c.threads t with
  | out p =>
    cases p <;> simp only [fire, h] <;> first
      | rfl
      | exact set_ne _ _ _ hu
      | (split <;> first | rfl | exact set_ne _ _ _ hu)
  | peek l k => simp only [fire, h]; exact set_ne _ _ _ hu
  | held l p => simp only [fire, h]; exact set_ne _ _ _ hu
  | sec l q k =>
    rcases q with (_ | _) | _ | _ <;> simp only [fire, h] <;> first
      | exact set_ne _ _ _ hu
      | simp only [poison, set, hu, if_false]
  | tail l q k =>
    rcases q with (_ | _) | _ <;> simp only [fire, h] <;> first
      | exact set_ne _ _ _ hu
      | simp only [poison, set, hu, if_false]
  | crashed => simp only [fire, h]

theorem LConf.fires_runs {live ts : List Nat} {c : LConf ν φ η σ α}
    (hl : ∀ u l, (c.threads u).holds l → u ∈ live) (hts : ∀ t ∈ ts, t ∈ live) :
    ∃ tr, LRuns c tr (c.fires live ts) := by
  induction ts generalizing c with
  | nil => exact ⟨_, .nil _⟩
  | cons t ts ih =>
    obtain ⟨tr, h1⟩ := c.fire_runs t hl
    obtain ⟨tr', h2⟩ := ih (c := c.fire live t) (fun u l hu => by
      by_cases hut : u = t
      · rw [hut]
        exact hts t (by simp)
      · rw [fire_other hut] at hu
        exact hl u l hu) (fun x hx => hts x (by simp [hx]))
    exact ⟨_, h1.append h2⟩

/-- The small filesystem at the level of locks, before the first step. -/
def demoStart (msgs : List Bytes) :
    LConf Nat Nat Nat (Unit × List (Obs Nat Nat Nat)) (Option (Outcome Unit Unit)) :=
  .start (fun t => Filesystem.Locked.dispatch demoFs.recorded ⟨demoBufs msgs t⟩) (Vfs.new 100 ((), []))

/-- The small filesystem at the level of locks: steps of threads 0, 1, 2, … in the order `ts`. -/
def demoLocked (msgs : List Bytes) (ts : List Nat) :
    LConf Nat Nat Nat (Unit × List (Obs Nat Nat Nat)) (Option (Outcome Unit Unit)) :=
  (demoStart msgs).fires [0, 1, 2, 3, 4] ts

theorem demoLocked_serving (msgs : List Bytes) (ts : List Nat)
    (h : ∀ m ∈ msgs, 40 ≤ m.length ∧ u64At m 8 ≠ 0 ∧ u32At m 0 ≤ m.length) (hts : ∀ t ∈ ts, t ∈ [0, 1, 2, 3, 4]) :
    ∃ tr, LServing demoFs 100 () (demoBufs msgs) tr (demoLocked msgs ts) := by
  obtain ⟨tr, h1⟩ := (demoStart msgs).fires_runs (live := [0, 1, 2, 3, 4]) (ts := ts) (fun u l hu => hu.elim) hts
  exact ⟨tr, ⟨(demo_serving msgs [] h).accepted, h1⟩⟩

/-- `Thr.InUser` with a lock held, as a computation. -/
def Thr.inUserLocked : Thr ν φ η σ α → Bool
  | .sec _ (.call _ _) _ => true
  | _ => false

/-- The lock the thread is about to take. -/
def Thr.waits? : Thr ν φ η σ α → Option Lck
  | .out (.read l _) => some l
  | .out (.write l _ _) => some l
  | _ => none

theorem Thr.inUserLocked_spec {x : Thr ν φ η σ α} (h : x.inUserLocked = true) : x.InUser := by
  unfold inUserLocked at h
  split at h
  · trivial
  · cases h

theorem Thr.waits?_spec {x : Thr ν φ η σ α} {l : Lck} (h : x.waits? = some l) : x.Waits l := by
  unfold waits? at h
  split at h
  · cases h
    exact rfl
  · cases h
    exact rfl
  · cases h

/-- Two files are opened (threads 0 and 1), and thread 2 releases the first. -/
def demoReleasing : List Nat := List.replicate 20 0 ++ List.replicate 20 1 ++ [2, 2]

/-- The messages: two OPEN requests, RELEASE of the first handle, READ through the second. -/
def demoReleasingMsgs : List Bytes := [demoOpen 1, demoOpen 1, demoRelease 1, demoRead 2]

theorem demoReleasing_ok :
    ((demoLocked demoReleasingMsgs demoReleasing).threads 2).inUserLocked = true ∧
    ((demoLocked demoReleasingMsgs demoReleasing).threads 2).holdsB .handles = true ∧
    ((demoLocked demoReleasingMsgs demoReleasing).threads 3).waits? = some .handles := by
  decide +kernel

/-- **C66** fails for `release` and `releasedir`: while the `release` method of one open file has not returned, a READ
request (15) through another open file is not answered, whatever the other threads do. -/
theorem C66_violated_release :
    ∃ tr c, LServing demoFs 100 () (demoBufs demoReleasingMsgs) tr c ∧
      u32At (demoBufs demoReleasingMsgs 2) 4 = 18 ∧ (c.threads 2).InUser ∧
      u32At (demoBufs demoReleasingMsgs 3) 4 = 15 ∧
      (c.mem.handles.openFiles 1).isSome ∧ (c.mem.handles.openFiles 2).isSome ∧
      ∀ us c2, LRunsP c us c2 → 2 ∉ us → ¬ (c2.threads 3).over := by
  obtain ⟨h1, h2, h3⟩ := demoReleasing_ok
  obtain ⟨tr, h⟩ := demoLocked_serving demoReleasingMsgs demoReleasing (by decide +kernel) (by decide)
  refine ⟨tr, _, h, by decide +kernel, Thr.inUserLocked_spec h1, by decide +kernel, by decide +kernel,
    by decide +kernel, fun us c2 hr hn ho => ?_⟩
  have hw := Thr.waits?_spec h3
  rw [C66_blocked hr (Thr.inUserLocked_spec h1) ((Thr.holdsB_iff _ _).mp h2) hw hn] at ho
  generalize (demoLocked demoReleasingMsgs demoReleasing).threads 3 = x at hw ho
  cases x with
  | out p => cases p <;> first | exact hw.elim | exact ho.elim
  | _ => exact hw.elim

/-- **C66** fails for `release` and `releasedir`: after a panic in the `release` method of one open file, a READ request
(15) through another open file is never answered. -/
theorem C66_violated_poison :
    ∃ tr c c1, LServing demoFs 100 () (demoBufs demoReleasingMsgs) tr c ∧
      u32At (demoBufs demoReleasingMsgs 2) 4 = 18 ∧ LPanic c 2 c1 ∧
      u32At (demoBufs demoReleasingMsgs 3) 4 = 15 ∧ (c1.mem.handles.openFiles 2).isSome ∧
      ∀ us c2, LRunsP c1 us c2 → ∀ o, c2.threads 3 ≠ .out (.done o) := by
  obtain ⟨h1, h2, h3⟩ := demoReleasing_ok
  obtain ⟨tr, h⟩ := demoLocked_serving demoReleasingMsgs demoReleasing (by decide +kernel) (by decide)
  have hh := (Thr.holdsB_iff _ _).mp h2
  have hs : ((demoLocked demoReleasingMsgs demoReleasing).mem.handles.openFiles 2).isSome = true := by
    decide +kernel
  have hw := Thr.waits?_spec h3
  generalize demoLocked demoReleasingMsgs demoReleasing = c at h h1 h2 h3 hh hs hw
  cases hc : c.threads 2 with
  | sec l q k =>
    cases q with
    | call f g =>
      refine ⟨tr, c, _, h, by decide +kernel, LPanic.call c.mem.world hc, by decide +kernel, hs,
        fun us c2 hr o ho => ?_⟩
      have hw1 : (((c.set 2 .crashed { c.mem with world := c.mem.world }).poison l).threads 3).Waits .handles := by
        show Thr.Waits (if 3 = 2 then .crashed else c.threads 3) _
        rw [if_neg (by decide)]
        exact hw
      rcases C66_poisoned (LPanic.call c.mem.world hc) hh hr hw1 with e | e
      · rw [← e, ho] at hw1
        exact hw1.elim
      · rw [e] at ho
        cases ho
    | step f g => rw [hc] at h1; cases h1
    | done r => rw [hc] at h1; cases h1
  | out p => rw [hc] at h1; cases h1
  | peek l k => rw [hc] at h1; cases h1
  | held l k => rw [hc] at h1; cases h1
  | tail l q k => rw [hc] at h1; cases h1
  | crashed => rw [hc] at h1; cases h1

/-- The whole story when `release` returns: with the steps of critical sections interleaved as far as the locks allow,
the observations are those of atomic critical sections. -/
example : (((demoLocked demoReleasingMsgs (demoReleasing ++ [3, 3, 3, 2, 2, 3, 2, 3, 3, 3, 2] ++
      List.replicate 10 3)).mem.world.2.filter fun x => match x with
        | .returned _ | .asked .. | .called .. => false
        | _ => true).map fun x => (abridge (0, x)).2) =
    [.node 100, .opened (.inl 7) 0, .sent [0, 0, 0, 0, 1, 0, 0, 0, 0, 0, 0, 0] true,
     .node 100, .opened (.inl 7) 0, .sent [0, 0, 0, 0, 2, 0, 0, 0, 0, 0, 0, 0] true,
     .handle (.inl 7), .released (.inl 7), .sent [0, 0, 0, 0] true,
     .handle (.inl 7), .sent [0, 0, 0, 0, 104, 105] true] := by decide +kernel

end Fuse
