import Verif.VfsLocks

/-!
# Threads and locks: executions of the VFS layer at the level of locks
-/

namespace Fuse

variable {ν φ η σ ε α β : Type}

/-! ## Executions -/

/-- Where a thread is: outside all locks; holding a lock for reading, before (`peek`) or after (`held`) the
lookup; holding a lock for writing, before (`sec`) or after (`tail`) the call of user code in the critical
section; or gone after a panic. -/
inductive Thr (ν φ η σ α : Type) : Type 1
  | out (p : LProg ν φ η σ α)
  | peek (l : Lck) (k : Mem ν φ η l → LProg ν φ η σ α)
  | held (l : Lck) (p : LProg ν φ η σ α)
  | sec (l : Lck) {γ : Type} (c : Sec (Mem ν φ η l) σ γ) (k : Except Fault γ → LProg ν φ η σ α)
  | tail (l : Lck) {γ : Type} (c : Tail (Mem ν φ η l) γ) (k : Except Fault γ → LProg ν φ η σ α)
  | crashed

/-- The thread has the lock for writing. -/
def Thr.writes : Thr ν φ η σ α → Lck → Prop
  | .sec l _ _, l' => l = l'
  | .tail l _ _, l' => l = l'
  | _, _ => False

/-- The thread has the lock for reading or writing. -/
def Thr.holds : Thr ν φ η σ α → Lck → Prop
  | .peek l _, l' => l = l'
  | .held l _, l' => l = l'
  | t, l' => t.writes l'

/-- The thread has nothing more to do. -/
def Thr.over : Thr ν φ η σ α → Prop
  | .out (.done _) => True
  | .crashed => True
  | _ => False

/-- All threads, what they share, and which locks are poisoned. -/
structure LConf (ν φ η σ α : Type) : Type 1 where
  threads : Nat → Thr ν φ η σ α
  mem : Vfs ν φ η σ
  poisoned : Lck → Bool

namespace LConf

/-- Moving thread `t`. -/
def set (c : LConf ν φ η σ α) (t : Nat) (x : Thr ν φ η σ α) (mem : Vfs ν φ η σ) : LConf ν φ η σ α :=
  { c with threads := fun u => if u = t then x else c.threads u, mem := mem }

/-- The lock becomes poisoned. -/
def poison (c : LConf ν φ η σ α) (l : Lck) : LConf ν φ η σ α :=
  { c with poisoned := fun l' => if l' = l then true else c.poisoned l' }

/-- Nobody has the lock. -/
def Free (c : LConf ν φ η σ α) (l : Lck) : Prop := ∀ u, ¬ (c.threads u).holds l

/-- Nobody has the lock for writing. -/
def Readable (c : LConf ν φ η σ α) (l : Lck) : Prop := ∀ u, ¬ (c.threads u).writes l

/-- Threads that have not yet begun. -/
def start (pool : Nat → LProg ν φ η σ α) (s : Vfs ν φ η σ) : LConf ν φ η σ α :=
  ⟨fun t => .out (pool t), s, fun _ => false⟩

end LConf

/-- One step of thread `t`. -/
inductive LStep (c : LConf ν φ η σ α) (t : Nat) : LConf ν φ η σ α → Prop
  | world {f k} (h : c.threads t = .out (.world f k)) :
      LStep c t (c.set t (.out (k c.mem.world)) { c.mem with world := f c.mem.world })
  | lockRead {l k} (h : c.threads t = .out (.read l k)) (hl : c.Readable l) (hp : c.poisoned l = false) :
      LStep c t (c.set t (.peek l k) c.mem)
  | look {l k} (h : c.threads t = .peek l k) : LStep c t (c.set t (.held l (k (c.mem.get l))) c.mem)
  | unlockRead {l p} (h : c.threads t = .held l p) : LStep c t (c.set t (.out p) c.mem)
  | lockWrite {l : Lck} {γ : Type} {k} {s : Sec (Mem ν φ η l) σ γ} (h : c.threads t = .out (.write l s k)) (hl : c.Free l)
      (hp : c.poisoned l = false) : LStep c t (c.set t (.sec l s k) c.mem)
  | access {l : Lck} {γ : Type} {f : Mem ν φ η l → Mem ν φ η l} {g : Mem ν φ η l → Sec (Mem ν φ η l) σ γ}
      {k : Except Fault γ → LProg ν φ η σ α} (h : c.threads t = .sec l (.step f g) k) :
      LStep c t (c.set t (.sec l (g (c.mem.get l)) k) (c.mem.put l (f (c.mem.get l))))
  | call {l : Lck} {γ : Type} {f : σ → σ} {g : σ → Tail (Mem ν φ η l) γ} {k : Except Fault γ → LProg ν φ η σ α}
      (h : c.threads t = .sec l (.call f g) k) :
      LStep c t (c.set t (.tail l (g c.mem.world) k) { c.mem with world := f c.mem.world })
  | accessTail {l : Lck} {γ : Type} {f : Mem ν φ η l → Mem ν φ η l} {g : Mem ν φ η l → Tail (Mem ν φ η l) γ}
      {k : Except Fault γ → LProg ν φ η σ α} (h : c.threads t = .tail l (.step f g) k) :
      LStep c t (c.set t (.tail l (g (c.mem.get l)) k) (c.mem.put l (f (c.mem.get l))))
  | unlock {l : Lck} {γ : Type} {b : γ} {k : Except Fault γ → LProg ν φ η σ α} (h : c.threads t = .sec l (.done (.ok b)) k) :
      LStep c t (c.set t (.out (k (.ok b))) c.mem)
  | unlockTail {l : Lck} {γ : Type} {b : γ} {k : Except Fault γ → LProg ν φ η σ α} (h : c.threads t = .tail l (.done (.ok b)) k) :
      LStep c t (c.set t (.out (k (.ok b))) c.mem)
  /-- A panic of the code in the critical section (an overflow) poisons the lock. -/
  | panicSec {l : Lck} {γ : Type} {e : Fault} {k : Except Fault γ → LProg ν φ η σ α} (h : c.threads t = .sec l (.done (.error e)) k) :
      LStep c t ((c.set t .crashed c.mem).poison l)
  | panicTail {l : Lck} {γ : Type} {e : Fault} {k : Except Fault γ → LProg ν φ η σ α} (h : c.threads t = .tail l (.done (.error e)) k) :
      LStep c t ((c.set t .crashed c.mem).poison l)
  /-- `unwrap` of a poisoned lock. -/
  | poisonRead {l k} (h : c.threads t = .out (.read l k)) (hl : c.Readable l) (hp : c.poisoned l = true) :
      LStep c t (c.set t .crashed c.mem)
  | poisonWrite {l : Lck} {γ : Type} {k} {s : Sec (Mem ν φ η l) σ γ} (h : c.threads t = .out (.write l s k)) (hl : c.Free l)
      (hp : c.poisoned l = true) : LStep c t (c.set t .crashed c.mem)

/-- A panic of user code called by thread `t`, which may have changed the outside world in any way: outside all
locks, or in a critical section, which poisons the lock. -/
inductive LPanic (c : LConf ν φ η σ α) (t : Nat) : LConf ν φ η σ α → Prop
  | world {f k} (w : σ) (h : c.threads t = .out (.world f k)) :
      LPanic c t (c.set t .crashed { c.mem with world := w })
  | call {l : Lck} {γ : Type} {f : σ → σ} {g : σ → Tail (Mem ν φ η l) γ} {k : Except Fault γ → LProg ν φ η σ α}
      (w : σ) (h : c.threads t = .sec l (.call f g) k) :
      LPanic c t ((c.set t .crashed { c.mem with world := w }).poison l)

/-- An execution: steps of the threads, recorded with the shared memory before and after each. -/
inductive LRuns : LConf ν φ η σ α → List (Nat × Vfs ν φ η σ × Vfs ν φ η σ) → LConf ν φ η σ α → Prop
  | nil (c) : LRuns c [] c
  | cons {c t c1 tr c2} : LStep c t c1 → LRuns c1 tr c2 → LRuns c ((t, c.mem, c1.mem) :: tr) c2

/-- An execution in which user code may panic; only the threads are recorded. -/
inductive LRunsP : LConf ν φ η σ α → List Nat → LConf ν φ η σ α → Prop
  | nil (c) : LRunsP c [] c
  | cons {c t c1 ts c2} : LStep c t c1 ∨ LPanic c t c1 → LRunsP c1 ts c2 → LRunsP c (t :: ts) c2

/-! ## Basic facts -/

@[simp] theorem Vfs.get_put (s : Vfs ν φ η σ) (l : Lck) (m : Mem ν φ η l) : (s.put l m).get l = m := by
  cases l <;> rfl

theorem Vfs.get_put_ne (s : Vfs ν φ η σ) {l l' : Lck} (m : Mem ν φ η l) (h : l' ≠ l) :
    (s.put l m).get l' = s.get l' := by
  cases l <;> cases l' <;> first | rfl | exact absurd rfl h

@[simp] theorem Vfs.world_put (s : Vfs ν φ η σ) (l : Lck) (m : Mem ν φ η l) : (s.put l m).world = s.world := by
  cases l <;> rfl

@[simp] theorem Vfs.put_get (s : Vfs ν φ η σ) (l : Lck) : s.put l (s.get l) = s := by
  cases l <;> rfl

@[simp] theorem Vfs.get_world (s : Vfs ν φ η σ) (l : Lck) (w : σ) :
    ({ s with world := w } : Vfs ν φ η σ).get l = s.get l := by
  cases l <;> rfl

theorem Vfs.ext' {s s' : Vfs ν φ η σ} (h : ∀ l, s.get l = s'.get l) (hw : s.world = s'.world) : s = s' := by
  obtain ⟨n, h', w⟩ := s
  obtain ⟨n', h'', w'⟩ := s'
  have h1 := h .nodes
  have h2 := h .handles
  simp only [Vfs.get] at h1 h2
  simp only at hw
  subst h1 h2 hw
  rfl

@[simp] theorem LConf.set_same (c : LConf ν φ η σ α) (t : Nat) (x mem) : (c.set t x mem).threads t = x := by
  simp [LConf.set]

theorem LConf.set_ne (c : LConf ν φ η σ α) {t u : Nat} (x mem) (h : u ≠ t) :
    (c.set t x mem).threads u = c.threads u := by
  simp [LConf.set, h]

theorem Thr.holds_of_writes {x : Thr ν φ η σ α} {l : Lck} (h : x.writes l) : x.holds l := by
  cases x <;> first | exact h | exact h.elim

theorem LRuns.append {c c1 c2 : LConf ν φ η σ α} {tr tr'} (h : LRuns c tr c1) (h' : LRuns c1 tr' c2) :
    LRuns c (tr ++ tr') c2 := by
  induction h with
  | nil => exact h'
  | cons s _ ih => exact .cons s (ih h')

theorem LRunsP.append {c c1 c2 : LConf ν φ η σ α} {ts us} (h : LRunsP c ts c1) (h' : LRunsP c1 us c2) :
    LRunsP c (ts ++ us) c2 := by
  induction h with
  | nil => exact h'
  | cons s _ ih => exact .cons s (ih h')

theorem LRuns.toP {c c1 : LConf ν φ η σ α} {tr} (h : LRuns c tr c1) : LRunsP c (tr.map (·.1)) c1 := by
  induction h with
  | nil => exact .nil _
  | cons s _ ih => exact .cons (.inl s) ih

/-- Steps and panics of one thread leave the others alone. -/
theorem LStep.other {c c' : LConf ν φ η σ α} {t u : Nat} (h : LStep c t c') (hu : u ≠ t) :
    c'.threads u = c.threads u := by
  cases h <;> simp only [LConf.set, LConf.poison, hu, if_false]

theorem LPanic.other {c c' : LConf ν φ η σ α} {t u : Nat} (h : LPanic c t c') (hu : u ≠ t) :
    c'.threads u = c.threads u := by
  cases h <;> simp only [LConf.set, LConf.poison, hu, if_false]

/-- A thread that takes part in no step stays where it is. -/
theorem LRunsP.untouched {c c' : LConf ν φ η σ α} {ts} (h : LRunsP c ts c') {u : Nat} (hu : u ∉ ts) :
    c'.threads u = c.threads u := by
  induction h with
  | nil => rfl
  | cons s _ ih =>
    simp only [List.mem_cons, not_or] at hu
    rw [ih hu.2]
    rcases s with s | s
    · exact s.other hu.1
    · exact s.other hu.1

/-! ## Mutual exclusion -/

/-- A thread that writes excludes all others. -/
def LConf.Excl (c : LConf ν φ η σ α) : Prop :=
  ∀ l t u, (c.threads t).writes l → (c.threads u).holds l → t = u

/-- Replacing a thread by one that does not hold more than before. -/
theorem LConf.Excl.set {c : LConf ν φ η σ α} (h : c.Excl) {t : Nat} {x mem}
    (hh : ∀ l, x.holds l → (c.threads t).holds l) (hw : ∀ l, x.writes l → (c.threads t).writes l) :
    (c.set t x mem).Excl := by
  intro l a b ha hb
  by_cases h1 : a = t <;> by_cases h2 : b = t
  · rw [h1, h2]
  · subst h1
    rw [set_same] at ha
    rw [set_ne _ _ _ h2] at hb
    exact h l a b (hw l ha) hb
  · subst h2
    rw [set_same] at hb
    rw [set_ne _ _ _ h1] at ha
    exact h l a b ha (hh l hb)
  · rw [set_ne _ _ _ h1] at ha
    rw [set_ne _ _ _ h2] at hb
    exact h l a b ha hb

theorem LConf.Excl.poison {c : LConf ν φ η σ α} (h : c.Excl) (l : Lck) : (c.poison l).Excl := h

theorem LStep.excl {c c' : LConf ν φ η σ α} {t : Nat} (h : LStep c t c') (he : c.Excl) : c'.Excl := by
  cases h with
  | world h => exact he.set (fun l hl => hl.elim) (fun l hl => hl.elim)
  | @lockRead l k h hl hp =>
    intro l' a b ha hb
    by_cases h1 : a = t
    · subst h1
      rw [LConf.set_same] at ha
      exact ha.elim
    · rw [LConf.set_ne _ _ _ h1] at ha
      by_cases h2 : b = t
      · subst h2
        rw [LConf.set_same] at hb
        have hb' : l = l' := hb
        subst hb'
        exact absurd ha (hl a)
      · rw [LConf.set_ne _ _ _ h2] at hb
        exact he l' a b ha hb
  | look h => exact he.set (fun l hl => by rw [h]; exact hl) (fun l hl => hl.elim)
  | unlockRead h => exact he.set (fun l hl => hl.elim) (fun l hl => hl.elim)
  | @lockWrite l γ k s h hl hp =>
    intro l' a b ha hb
    by_cases h1 : a = t <;> by_cases h2 : b = t
    · rw [h1, h2]
    · subst h1
      rw [LConf.set_same] at ha
      have ha' : l = l' := ha
      subst ha'
      rw [LConf.set_ne _ _ _ h2] at hb
      exact absurd hb (hl b)
    · subst h2
      rw [LConf.set_same] at hb
      have hb' : l = l' := hb
      subst hb'
      rw [LConf.set_ne _ _ _ h1] at ha
      exact absurd (Thr.holds_of_writes ha) (hl a)
    · rw [LConf.set_ne _ _ _ h1] at ha
      rw [LConf.set_ne _ _ _ h2] at hb
      exact he l' a b ha hb
  | access h => exact he.set (fun l hl => by rw [h]; exact hl) (fun l hl => by rw [h]; exact hl)
  | call h => exact he.set (fun l hl => by rw [h]; exact hl) (fun l hl => by rw [h]; exact hl)
  | accessTail h => exact he.set (fun l hl => by rw [h]; exact hl) (fun l hl => by rw [h]; exact hl)
  | unlock h => exact he.set (fun l hl => hl.elim) (fun l hl => hl.elim)
  | unlockTail h => exact he.set (fun l hl => hl.elim) (fun l hl => hl.elim)
  | panicSec h => exact (he.set (x := .crashed) (fun l hl => hl.elim) (fun l hl => hl.elim)).poison _
  | panicTail h => exact (he.set (x := .crashed) (fun l hl => hl.elim) (fun l hl => hl.elim)).poison _
  | poisonRead h hl hp => exact he.set (fun l hl => hl.elim) (fun l hl => hl.elim)
  | poisonWrite h hl hp => exact he.set (fun l hl => hl.elim) (fun l hl => hl.elim)

theorem LPanic.excl {c c' : LConf ν φ η σ α} {t : Nat} (h : LPanic c t c') (he : c.Excl) : c'.Excl := by
  cases h with
  | world w h => exact he.set (fun l hl => hl.elim) (fun l hl => hl.elim)
  | call w h => exact (he.set (x := .crashed) (fun l hl => hl.elim) (fun l hl => hl.elim)).poison _

theorem LConf.start_excl (pool : Nat → LProg ν φ η σ α) (s : Vfs ν φ η σ) : (start pool s).Excl :=
  fun _ _ _ h => h.elim

theorem LRunsP.excl {c c' : LConf ν φ η σ α} {ts} (h : LRunsP c ts c') (he : c.Excl) : c'.Excl := by
  induction h with
  | nil => exact he
  | cons s _ ih =>
    rcases s with s | s
    · exact ih (s.excl he)
    · exact ih (s.excl he)

/-! ## Reduction to atomic critical sections -/

/-- What is left to do for the thread when critical sections are atomic, and how the map it works on appears
then.  A critical section takes place when user code is called in it, or at its end. -/
def Thr.Rel (x : Thr ν φ η σ α) (mem s : Vfs ν φ η σ) (p : Prog (Vfs ν φ η σ) α) : Prop :=
  match x with
  | .out q => p = q.erase
  | .peek l k => p = (LProg.read l k).erase
  | .held _ q => p = q.erase
  | .sec l c k => ∃ c0 : Sec (Mem ν φ η l) σ _, p = (LProg.write l c0 k).erase ∧
      ∀ w, c.run (mem.get l) w = c0.run (s.get l) w
  | .tail l c k => p = (k (c.run (mem.get l)).1).erase ∧ s.get l = (c.run (mem.get l)).2
  | .crashed => True

/-- The configuration `c` corresponds to the threads `pool` and the state `s` with atomic critical
sections. -/
structure LConf.Sim (c : LConf ν φ η σ α) (pool : Nat → Prog (Vfs ν φ η σ) α) (s : Vfs ν φ η σ) : Prop where
  excl : c.Excl
  world : s.world = c.mem.world
  agree : ∀ l, c.Readable l → s.get l = c.mem.get l
  thread : ∀ t, (c.threads t).Rel c.mem s (pool t)

/-- A thread's relation only depends on the map it is writing. -/
theorem Thr.Rel.mono {x : Thr ν φ η σ α} {mem s mem' s' : Vfs ν φ η σ} {p} (h : x.Rel mem s p)
    (hm : ∀ l, x.writes l → mem'.get l = mem.get l ∧ s'.get l = s.get l) : x.Rel mem' s' p := by
  cases x with
  | out q => exact h
  | peek l k => exact h
  | held l q => exact h
  | sec l c k =>
    obtain ⟨c0, h1, h2⟩ := h
    obtain ⟨h3, h4⟩ := hm l rfl
    exact ⟨c0, h1, fun w => by rw [h3, h4]; exact h2 w⟩
  | tail l c k =>
    obtain ⟨h1, h2⟩ := h
    obtain ⟨h3, h4⟩ := hm l rfl
    exact ⟨by rw [h3]; exact h1, by rw [h3, h4]; exact h2⟩
  | crashed => trivial

theorem setThread_same {S : Type} (pool : Nat → Prog S α) (t : Nat) (p : Prog S α) : setThread pool t p t = p :=
  if_pos rfl

theorem setThread_ne {S : Type} (pool : Nat → Prog S α) {t u : Nat} (p : Prog S α) (h : u ≠ t) :
    setThread pool t p u = pool u := if_neg h

/-- Two executions in which the same threads do the same to the outside world in the same order; steps that leave
it alone do not count. -/
inductive Alike : List (Nat × Vfs ν φ η σ × Vfs ν φ η σ) → List (Nat × Vfs ν φ η σ × Vfs ν φ η σ) → Prop
  | nil : Alike [] []
  | left {t s s' a b} : s'.world = s.world → Alike a b → Alike ((t, s, s') :: a) b
  | both {t s s' r r' a b} : s.world = r.world → s'.world = r'.world → Alike a b →
      Alike ((t, s, s') :: a) ((t, r, r') :: b)

theorem Alike.append {a b a' b' : List (Nat × Vfs ν φ η σ × Vfs ν φ η σ)} (h : Alike a b) (h' : Alike a' b') :
    Alike (a ++ a') (b ++ b') := by
  induction h with
  | nil => exact h'
  | left h _ ih => exact .left h ih
  | both h1 h2 _ ih => exact .both h1 h2 ih

/-- No other threads. -/
theorem Alike.threads {a b : List (Nat × Vfs ν φ η σ × Vfs ν φ η σ)} (h : Alike a b) {t : Nat}
    (ht : t ∈ b.map (·.1)) : t ∈ a.map (·.1) := by
  induction h with
  | nil => exact ht
  | left _ _ ih => exact List.mem_cons_of_mem _ (ih ht)
  | both _ _ _ ih =>
    simp only [List.map_cons, List.mem_cons] at ht ⊢
    rcases ht with ht | ht
    · exact .inl ht
    · exact .inr (ih ht)

/-- The same is observed. -/
theorem Alike.observed {a b : List (Nat × Vfs ν φ η (σ × List (Obs ν φ η)) × Vfs ν φ η (σ × List (Obs ν φ η)))}
    (h : Alike a b) : observed a = observed b := by
  induction h with
  | nil => rfl
  | @left t s s' a b h _ ih =>
    rw [← ih]
    show (stepObs s s').map _ ++ _ = _
    rw [show stepObs s s' = [] from by rw [stepObs, h, List.drop_length]]
    rfl
  | @both t s s' r r' a b h1 h2 _ ih =>
    show (stepObs s s').map _ ++ _ = (stepObs r r').map _ ++ _
    rw [show stepObs s s' = stepObs r r' from by rw [stepObs, stepObs, h1, h2]]
    exact congrArg _ ih

/-- One step with atomic critical sections. -/
theorem Runs.one {S : Type} {pool : Nat → Prog S α} {s : S} {t : Nat} {f k} (h : pool t = .step f k) :
    Runs pool s [(t, s, f s)] (setThread pool t (k s)) (f s) := .cons h (.nil _ _)

/-- A map that nobody but `t` writes. -/
theorem LConf.Readable.of_set {c : LConf ν φ η σ α} {t : Nat} {x mem} {l : Lck}
    (h : (c.set t x mem).Readable l) (ht : ¬ (c.threads t).writes l) : c.Readable l := by
  intro u hu
  by_cases h1 : u = t
  · subst h1
    exact ht hu
  · have := h u
    rw [LConf.set_ne _ _ _ h1] at this
    exact this hu

/-- Re-establishing the correspondence after a step of thread `t`. -/
theorem LConf.Sim.update {c : LConf ν φ η σ α} {pool s} (hs : c.Sim pool s) {t : Nat} {x : Thr ν φ η σ α}
    {mem' s' : Vfs ν φ η σ} {pool' : Nat → Prog (Vfs ν φ η σ) α} (po : Lck → Bool)
    (he : (c.set t x mem').Excl) (hw : s'.world = mem'.world)
    (hp : ∀ u, u ≠ t → pool' u = pool u)
    (hrel : x.Rel mem' s' (pool' t))
    (hm : ∀ l, ¬ (c.threads t).writes l → mem'.get l = c.mem.get l ∧ s'.get l = s.get l)
    (ha : ∀ l, (c.threads t).writes l → ¬ x.writes l → s'.get l = mem'.get l) :
    LConf.Sim { c.set t x mem' with poisoned := po } pool' s' where
  excl := he
  world := hw
  agree l hl := by
    have hl' : (c.set t x mem').Readable l := hl
    by_cases hx : (c.threads t).writes l
    · apply ha l hx
      have := hl' t
      rwa [LConf.set_same] at this
    · show s'.get l = mem'.get l
      rw [(hm l hx).1, (hm l hx).2]
      exact hs.agree l (hl'.of_set hx)
  thread u := by
    by_cases hu : u = t
    · subst hu
      show Thr.Rel ((c.set u x mem').threads u) mem' s' (pool' u)
      rw [LConf.set_same]
      exact hrel
    · show Thr.Rel ((c.set t x mem').threads u) mem' s' (pool' u)
      rw [LConf.set_ne _ _ _ hu, hp u hu]
      apply (hs.thread u).mono
      intro l hl
      apply hm l
      intro ht
      exact hu (hs.excl l u t hl (Thr.holds_of_writes ht))

/-- Every step corresponds to no step or one step with atomic critical sections. -/
theorem LConf.Sim.step {c c' : LConf ν φ η σ α} {pool s} (hs : c.Sim pool s) {t : Nat} (h : LStep c t c') :
    ∃ tr pool' s', Runs pool s tr pool' s' ∧ Alike [(t, c.mem, c'.mem)] tr ∧ c'.Sim pool' s' := by
  suffices H : (∃ f k, pool t = .step f k ∧ c'.Sim (setThread pool t (k s)) (f s)) ∨
      (c'.mem.world = c.mem.world ∧ c'.Sim pool s) by
    rcases H with ⟨f, k, h1, h2⟩ | ⟨h1, h2⟩
    · exact ⟨_, _, _, Runs.one h1, .both hs.world.symm h2.world.symm .nil, h2⟩
    · exact ⟨_, _, _, .nil _ _, .left h1 .nil, h2⟩
  have hex := h.excl hs.excl
  have hrel := hs.thread t
  cases h with
  | @world f k h =>
    rw [h] at hrel
    refine .inl ⟨_, _, hrel, hs.update c.poisoned hex ?_ (fun u hu => setThread_ne _ _ hu) ?_ ?_ ?_⟩
    · show f s.world = f c.mem.world
      rw [hs.world]
    · show setThread pool t _ t = _
      rw [setThread_same, hs.world]
    · intro l _
      exact ⟨Vfs.get_world _ _ _, Vfs.get_world _ _ _⟩
    · intro l hl
      rw [h] at hl
      exact hl.elim
  | @lockRead l k h hl hp =>
    rw [h] at hrel
    refine .inr ⟨rfl, hs.update c.poisoned hex hs.world (fun u hu => rfl) hrel (fun _ _ => ⟨rfl, rfl⟩) ?_⟩
    intro l hl
    rw [h] at hl
    exact hl.elim
  | @look l k h =>
    rw [h] at hrel
    have hr : c.Readable l := by
      intro u hu
      have := hs.excl l u t hu (by rw [h]; exact rfl)
      subst this
      rw [h] at hu
      exact hu.elim
    refine .inl ⟨_, _, hrel, hs.update c.poisoned hex hs.world (fun u hu => setThread_ne _ _ hu) ?_
      (fun _ _ => ⟨rfl, rfl⟩) ?_⟩
    · show setThread pool t _ t = _
      rw [setThread_same, hs.agree l hr]
    · intro l hl
      rw [h] at hl
      exact hl.elim
  | @unlockRead l p h =>
    rw [h] at hrel
    refine .inr ⟨rfl, hs.update c.poisoned hex hs.world (fun u hu => rfl) hrel (fun _ _ => ⟨rfl, rfl⟩) ?_⟩
    intro l hl
    rw [h] at hl
    exact hl.elim
  | @lockWrite l γ k sc h hl hp =>
    rw [h] at hrel
    refine .inr ⟨rfl, hs.update c.poisoned hex hs.world (fun u hu => rfl) ?_ (fun _ _ => ⟨rfl, rfl⟩) ?_⟩
    · refine ⟨sc, hrel, fun w => ?_⟩
      rw [hs.agree l fun u hu => hl u (Thr.holds_of_writes hu)]
    · intro l hl
      rw [h] at hl
      exact hl.elim
  | @access l γ f g k h =>
    rw [h] at hrel
    obtain ⟨c0, h1, h2⟩ := hrel
    refine .inr ⟨Vfs.world_put _ _ _, hs.update (mem' := c.mem.put l (f (c.mem.get l))) c.poisoned hex ?_ (fun u hu => rfl) ?_ ?_ ?_⟩
    · rw [Vfs.world_put]
      exact hs.world
    · refine ⟨c0, h1, fun w => ?_⟩
      rw [Vfs.get_put]
      exact h2 w
    · intro l' hl'
      rw [h] at hl'
      exact ⟨Vfs.get_put_ne _ _ fun e => hl' e.symm, rfl⟩
    · intro l' hl' hx
      rw [h] at hl'
      exact absurd hl' hx
  | @call l γ f g k h =>
    rw [h] at hrel
    obtain ⟨c0, h1, h2⟩ := hrel
    have h3 := h2 s.world
    refine .inl ⟨_, _, h1, hs.update c.poisoned hex ?_ (fun u hu => setThread_ne _ _ hu) ?_ ?_ ?_⟩
    · show (c0.run (s.get l) s.world).2.2 = f c.mem.world
      rw [← h3, ← hs.world]
      rfl
    · refine ⟨?_, ?_⟩
      · rw [setThread_same, ← h3, Vfs.get_world, ← hs.world]
        rfl
      · rw [Vfs.get_world, Vfs.get_put, Vfs.get_world, ← h3, ← hs.world]
        rfl
    · intro l' hl'
      rw [h] at hl'
      refine ⟨Vfs.get_world _ _ _, ?_⟩
      rw [Vfs.get_world]
      exact Vfs.get_put_ne _ _ fun e => hl' e.symm
    · intro l' hl' hx
      rw [h] at hl'
      exact absurd hl' hx
  | @accessTail l γ f g k h =>
    rw [h] at hrel
    obtain ⟨h1, h2⟩ := hrel
    refine .inr ⟨Vfs.world_put _ _ _, hs.update (mem' := c.mem.put l (f (c.mem.get l))) c.poisoned hex ?_ (fun u hu => rfl) ?_ ?_ ?_⟩
    · rw [Vfs.world_put]
      exact hs.world
    · refine ⟨?_, ?_⟩
      · rw [Vfs.get_put]
        exact h1
      · rw [Vfs.get_put]
        exact h2
    · intro l' hl'
      rw [h] at hl'
      exact ⟨Vfs.get_put_ne _ _ fun e => hl' e.symm, rfl⟩
    · intro l' hl' hx
      rw [h] at hl'
      exact absurd hl' hx
  | @unlock l γ b k h =>
    rw [h] at hrel
    obtain ⟨c0, h1, h2⟩ := hrel
    have h3 := h2 s.world
    refine .inl ⟨_, _, h1, hs.update c.poisoned hex ?_ (fun u hu => setThread_ne _ _ hu) ?_ ?_ ?_⟩
    · show (c0.run (s.get l) s.world).2.2 = _
      rw [← h3]
      exact hs.world
    · show setThread pool t _ t = _
      rw [setThread_same, ← h3]
      rfl
    · intro l' hl'
      rw [h] at hl'
      refine ⟨rfl, ?_⟩
      rw [Vfs.get_world]
      exact Vfs.get_put_ne _ _ fun e => hl' e.symm
    · intro l' hl' hx
      rw [h] at hl'
      have hl'' : l = l' := hl'
      subst hl''
      rw [Vfs.get_world, Vfs.get_put, ← h3]
      rfl
  | @unlockTail l γ b k h =>
    rw [h] at hrel
    obtain ⟨h1, h2⟩ := hrel
    refine .inr ⟨rfl, hs.update c.poisoned hex hs.world (fun u hu => rfl) h1 (fun _ _ => ⟨rfl, rfl⟩) ?_⟩
    intro l' hl' hx
    rw [h] at hl'
    have hl'' : l = l' := hl'
    subst hl''
    exact h2
  | @panicSec l γ e k h =>
    rw [h] at hrel
    obtain ⟨c0, h1, h2⟩ := hrel
    have h3 := h2 s.world
    refine .inl ⟨_, _, h1, hs.update _ hex ?_ (fun u hu => setThread_ne _ _ hu) trivial ?_ ?_⟩
    · show (c0.run (s.get l) s.world).2.2 = _
      rw [← h3]
      exact hs.world
    · intro l' hl'
      rw [h] at hl'
      refine ⟨rfl, ?_⟩
      rw [Vfs.get_world]
      exact Vfs.get_put_ne _ _ fun e => hl' e.symm
    · intro l' hl' hx
      rw [h] at hl'
      have hl'' : l = l' := hl'
      subst hl''
      rw [Vfs.get_world, Vfs.get_put, ← h3]
      rfl
  | @panicTail l γ e k h =>
    rw [h] at hrel
    obtain ⟨h1, h2⟩ := hrel
    refine .inr ⟨rfl, hs.update _ hex hs.world (fun u hu => rfl) trivial (fun _ _ => ⟨rfl, rfl⟩) ?_⟩
    intro l' hl' hx
    rw [h] at hl'
    have hl'' : l = l' := hl'
    subst hl''
    exact h2
  | @poisonRead l k h hl hp =>
    refine .inr ⟨rfl, hs.update c.poisoned hex hs.world (fun u hu => rfl) trivial (fun _ _ => ⟨rfl, rfl⟩) ?_⟩
    intro l hl
    rw [h] at hl
    exact hl.elim
  | @poisonWrite l γ k sc h hl hp =>
    refine .inr ⟨rfl, hs.update c.poisoned hex hs.world (fun u hu => rfl) trivial (fun _ _ => ⟨rfl, rfl⟩) ?_⟩
    intro l hl
    rw [h] at hl
    exact hl.elim

theorem LConf.Sim.runs {c c' : LConf ν φ η σ α} {tr} (h : LRuns c tr c') :
    ∀ {pool s}, c.Sim pool s → ∃ tr' pool' s', Runs pool s tr' pool' s' ∧ Alike tr tr' ∧ c'.Sim pool' s' := by
  induction h with
  | nil => intro pool s hs; exact ⟨_, _, _, .nil _ _, .nil, hs⟩
  | cons st _ ih =>
    intro pool s hs
    obtain ⟨tr, pool1, s1, h1, h2, h3⟩ := hs.step st
    obtain ⟨tr', pool2, s2, h4, h5, h6⟩ := ih h3
    exact ⟨_, _, _, h1.append h4, h2.append h5, h6⟩

theorem LConf.Sim.start (pool : Nat → LProg ν φ η σ α) (s : Vfs ν φ η σ) :
    (LConf.start pool s).Sim (fun t => (pool t).erase) s :=
  ⟨LConf.start_excl _ _, rfl, fun _ _ => rfl, fun _ => rfl⟩

end Fuse
