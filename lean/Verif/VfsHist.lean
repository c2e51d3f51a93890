import Verif.VfsRun

/-!
# Concurrent executions of the VFS layer, and what can be observed of them
-/

namespace Fuse

open Spec

variable {ν φ η σ ε : Type}

/-! ## Threads -/

section
variable {S α : Type}

/-- Replacing the program of thread `t`. -/
def setThread (pool : Nat → Prog S α) (t : Nat) (p : Prog S α) : Nat → Prog S α :=
  fun u => if u = t then p else pool u

/-- `Runs pool s tr pool' s'`: the threads of `pool`, sharing the state `s`, make the steps `tr` (thread,
state before, state after) in some interleaving and arrive at `pool'` and `s'`. -/
inductive Runs : (Nat → Prog S α) → S → List (Nat × S × S) → (Nat → Prog S α) → S → Prop
  | nil (pool s) : Runs pool s [] pool s
  | cons {pool s t f k tr pool' s'} : pool t = .step f k →
      Runs (setThread pool t (k s)) (f s) tr pool' s' → Runs pool s ((t, s, f s) :: tr) pool' s'

/-- Running the threads in the order given by `ts`; threads that are finished make no step. -/
def sched (pool : Nat → Prog S α) (s : S) : List Nat → List (Nat × S × S) × (Nat → Prog S α) × S
  | [] => ([], pool, s)
  | t :: ts =>
    match pool t with
    | .done _ => sched pool s ts
    | .step f k =>
      let r := sched (setThread pool t (k s)) (f s) ts
      ((t, s, f s) :: r.1, r.2)

theorem sched_runs (pool : Nat → Prog S α) (s : S) (ts : List Nat) :
    Runs pool s (sched pool s ts).1 (sched pool s ts).2.1 (sched pool s ts).2.2 := by
  induction ts generalizing pool s with
  | nil => exact .nil _ _
  | cons t ts ih =>
    cases h : pool t with
    | done a =>
      have he : sched pool s (t :: ts) = sched pool s ts := by simp only [sched, h]
      rw [he]
      exact ih _ _
    | step f k =>
      have he : sched pool s (t :: ts) = ((t, s, f s) :: (sched (setThread pool t (k s)) (f s) ts).1,
          (sched (setThread pool t (k s)) (f s) ts).2) := by simp only [sched, h]
      rw [he]
      exact .cons h (ih _ _)

theorem Runs.append {pool : Nat → Prog S α} {s tr pool1 s1 tr2 pool2 s2}
    (h1 : Runs pool s tr pool1 s1) (h2 : Runs pool1 s1 tr2 pool2 s2) : Runs pool s (tr ++ tr2) pool2 s2 := by
  induction h1 with
  | nil => exact h2
  | cons h _ ih => exact .cons h (ih h2)

theorem Runs.untouched {pool : Nat → Prog S α} {s tr pool1 s1}
    (h : Runs pool s tr pool1 s1) {t} (ht : t ∉ tr.map (·.1)) : pool1 t = pool t := by
  induction h with
  | nil => rfl
  | cons h _ ih =>
    simp only [List.map_cons, List.mem_cons, not_or] at ht
    rw [ih ht.2]
    exact if_neg ht.1

end

/-! ## Observations -/

/-- The kinds of objects: `Directory`, `File`, `Symlink`, `ReaddirHandle`, `ReaddirplusHandle`, `ReadHandle`,
`WriteHandle`. -/
inductive VfsKind
  | directory
  | file
  | symlink
  | readdir
  | readdirplus
  | read
  | write
deriving DecidableEq

/-- What can be observed from outside: messages given to the socket (with the socket's verdict), and the
objects on which the VFS layer calls user code.  `node v`: a method of the node `v` taken from the node map
is called; `handle x`: a method of the open file or directory `x` taken from the handle map is called;
`found v ino`: a `lookup` method returns the node `v` with number `ino`; `opened x flags`: an `open` or
`opendir` method returns `x` with these flags; `released x`: the `release` or `releasedir` method of `x`
succeeds; `returned a`: a method returns a result that is to be reported as `a`; `asked k x r`: `x` is asked
whether it can be used as `k`, with the answer `r`; `called x h q`: the method for requests like `q` is called on
`x`, with the header `h` and the request `q`. -/
inductive Obs (ν φ η : Type)
  | sent (m : Bytes) (ok : Bool)
  | node (v : ν)
  | handle (x : φ ⊕ η)
  | found (v : ν) (ino : UInt64)
  | opened (x : φ ⊕ η) (flags : UInt32)
  | released (x : φ ⊕ η)
  | returned (a : FuseAnswer)
  | asked (k : VfsKind) (x : ν ⊕ φ ⊕ η) (r : Option (ν ⊕ φ ⊕ η))
  | called (x : ν ⊕ φ ⊕ η) (h : FuseInHeader) (q : AnyRequest)
deriving DecidableEq

/-- The contents of a message buffer. -/
def SendBuf.message (b : SendBuf) : Bytes :=
  match b.chunks with
  | .ok cs => cs.flatten
  | .error _ => []

/-- Whether a result is a success. -/
def succeeded {α β : Type} : Except α β → Bool
  | .ok _ => true
  | .error _ => false

/-- Calling user code and writing down observations. -/
def noting {α O : Type} (obs : α → List O) (f : σ → α × σ) (w : σ × List O) : α × (σ × List O) :=
  ((f w.1).1, (f w.1).2, w.2 ++ obs (f w.1).1)

/-- How the result of a method is to be reported. -/
def reported {α : Type} (f : α → FuseAnswer) : Except FuseError α → FuseAnswer
  | .ok a => f a
  | .error e => .err e

/-- The result of a `lookup` method, as observed. -/
def lookupObs : Except FuseError (LookupResult ν) → List (Obs ν φ η)
  | .ok res =>
    match res.node with
    | some (v, attr) => [.found v attr.raw.ino, .returned (foundEntry res attr)]
    | none => [.returned (negativeEntry res)]
  | .error e => [.returned (.err e)]

/-- The result of an `open` or `opendir` method, as observed. -/
def openObs {κ : Type} (inj : κ → φ ⊕ η) : Except FuseError (OpenResult κ) → List (Obs ν φ η)
  | .ok res => [.opened (inj res.handle) res.openFlags]
  | .error e => [.returned (.err e)]

/-- The result of a `release` or `releasedir` method, as observed. -/
def releaseObs (x : φ ⊕ η) : Except FuseError Unit → List (Obs ν φ η)
  | .ok () => [.released x, .returned .okEmpty]
  | .error e => [.returned (.err e)]

/-- The results of the other methods, as reported. -/
def attrResult : Except FuseError GetattrResult → FuseAnswer := reported attrReply
/-- See `attrResult`. -/
def dataResult : Except FuseError Bytes → FuseAnswer := reported .okBuf
/-- See `attrResult`. -/
def statfsResult : Except FuseError FuseKstatfs → FuseAnswer := reported fun st => .ok (.statfs { st := st })
/-- See `attrResult`. -/
def linkResult : Except FuseError CStr → FuseAnswer := reported fun c => .okBuf c.bytes
/-- See `attrResult`. -/
def writeResult : Except FuseError UInt32 → FuseAnswer := reported fun n => .ok (.write { size := n })

/-- The same filesystem, in a world that also writes down the observations. -/
def Filesystem.recorded (fs : Filesystem ν φ η σ ε) : Filesystem ν φ η (σ × List (Obs ν φ η)) ε where
  sock :=
    { recv := fun buf w => ((fs.sock.recv buf w.1).1, (fs.sock.recv buf w.1).2, w.2)
      recv_length := fun buf w => fs.sock.recv_length buf w.1
      send := fun buf => noting (fun r => [.sent buf.message (succeeded r)]) (fs.sock.send buf) }
  layout := fs.layout
  os := fs.os
  checks := fs.checks
  impl :=
    { asDirectory := fun v => noting (fun r => [.node v, .asked .directory (.inl v) (r.map .inl)]) (fs.impl.asDirectory v)
      asFile := fun v => noting (fun r => [.node v, .asked .file (.inl v) (r.map .inl)]) (fs.impl.asFile v)
      asSymlink := fun v => noting (fun r => [.node v, .asked .symlink (.inl v) (r.map .inl)]) (fs.impl.asSymlink v)
      getattr := fun v h q => noting (fun r => [.node v, .called (.inl v) h (.getattr q), .returned (attrResult r)])
        (fs.impl.getattr v h q)
      getxattr := fun v h q => noting (fun r => [.node v, .called (.inl v) h (.getxattr q), .returned (dataResult r)])
        (fs.impl.getxattr v h q)
      listxattr := fun v h q => noting (fun r => [.node v, .called (.inl v) h (.listxattr q), .returned (dataResult r)])
        (fs.impl.listxattr v h q)
      statfs := fun v h q => noting (fun r => [.node v, .called (.inl v) h (.statfs q), .returned (statfsResult r)])
        (fs.impl.statfs v h q)
      lookup := fun v h q => noting (fun r => .called (.inl v) h (.lookup q) :: lookupObs r) (fs.impl.lookup v h q)
      opendir := fun v h q => noting (fun r => .called (.inl v) h (.opendir q) :: openObs .inr r) (fs.impl.opendir v h q)
      open_ := fun v h q => noting (fun r => .called (.inl v) h (.open_ q) :: openObs .inl r) (fs.impl.open_ v h q)
      readlink := fun v h q => noting (fun r => [.called (.inl v) h (.readlink q), .returned (linkResult r)])
        (fs.impl.readlink v h q)
      asReaddirHandle := fun x => noting (fun r => [.handle (.inr x), .asked .readdir (.inr (.inr x)) (r.map fun y => .inr (.inr y))])
        (fs.impl.asReaddirHandle x)
      asReaddirplusHandle := fun x => noting (fun r => [.handle (.inr x), .asked .readdirplus (.inr (.inr x)) (r.map fun y => .inr (.inr y))])
        (fs.impl.asReaddirplusHandle x)
      asReadHandle := fun x => noting (fun r => [.handle (.inl x), .asked .read (.inr (.inl x)) (r.map fun y => .inr (.inl y))])
        (fs.impl.asReadHandle x)
      asWriteHandle := fun x => noting (fun r => [.handle (.inl x), .asked .write (.inr (.inl x)) (r.map fun y => .inr (.inl y))])
        (fs.impl.asWriteHandle x)
      releasedir := fun x h q =>
        noting (fun r => .handle (.inr x) :: .called (.inr (.inr x)) h (.releasedir q) :: releaseObs (.inr x) r) (fs.impl.releasedir x h q)
      release := fun x h q =>
        noting (fun r => .handle (.inl x) :: .called (.inr (.inl x)) h (.release q) :: releaseObs (.inl x) r) (fs.impl.release x h q)
      readdir := fun x h q => noting (fun r => [.called (.inr (.inr x)) h (.readdir q), .returned (dataResult r)])
        (fs.impl.readdir x h q)
      readdirplus := fun x h q => noting (fun r => [.called (.inr (.inr x)) h (.readdirplus q), .returned (dataResult r)])
        (fs.impl.readdirplus x h q)
      read := fun x h q => noting (fun r => [.called (.inr (.inl x)) h (.read q), .returned (dataResult r)])
        (fs.impl.read x h q)
      write := fun x h q => noting (fun r => [.called (.inr (.inl x)) h (.write q), .returned (writeResult r)])
        (fs.impl.write x h q) }

/-- The observations made in a step. -/
def stepObs (s s' : Vfs ν φ η (σ × List (Obs ν φ η))) : List (Obs ν φ η) :=
  s'.world.2.drop s.world.2.length

/-- The observations made in an execution, in order, with the thread causing each. -/
def observed (tr : List (Nat × Vfs ν φ η (σ × List (Obs ν φ η)) × Vfs ν φ η (σ × List (Obs ν φ η)))) :
    List (Nat × Obs ν φ η) :=
  tr.flatMap fun x => (stepObs x.2.1 x.2.2).map fun o => (x.1, o)

theorem observed_append (tr1 tr2 : List (Nat × Vfs ν φ η (σ × List (Obs ν φ η)) × Vfs ν φ η (σ × List (Obs ν φ η)))) :
    observed (tr1 ++ tr2) = observed tr1 ++ observed tr2 := List.flatMap_append

/-- The observations an event stands for. -/
def VfsEv.obs (minor : Nat) (hdr : FuseInHeader) : VfsEv ν φ η ε → List (Obs ν φ η)
  | .asDirectory v r => [.node v, .asked .directory (.inl v) (r.map .inl)]
  | .asFile v r => [.node v, .asked .file (.inl v) (r.map .inl)]
  | .asSymlink v r => [.node v, .asked .symlink (.inl v) (r.map .inl)]
  | .getattr v q r => [.node v, .called (.inl v) hdr (.getattr q), .returned (attrResult r)]
  | .getxattr v q r => [.node v, .called (.inl v) hdr (.getxattr q), .returned (dataResult r)]
  | .listxattr v q r => [.node v, .called (.inl v) hdr (.listxattr q), .returned (dataResult r)]
  | .statfs v q r => [.node v, .called (.inl v) hdr (.statfs q), .returned (statfsResult r)]
  | .readlink v q r => [.called (.inl v) hdr (.readlink q), .returned (linkResult r)]
  | .readdir x q r => [.called (.inr (.inr x)) hdr (.readdir q), .returned (dataResult r)]
  | .readdirplus x q r => [.called (.inr (.inr x)) hdr (.readdirplus q), .returned (dataResult r)]
  | .read x q r => [.called (.inr (.inl x)) hdr (.read q), .returned (dataResult r)]
  | .write x q r => [.called (.inr (.inl x)) hdr (.write q), .returned (writeResult r)]
  | .lookup v q r => .called (.inl v) hdr (.lookup q) :: lookupObs r
  | .opendir v q r => .called (.inl v) hdr (.opendir q) :: openObs .inr r
  | .open_ v q r => .called (.inl v) hdr (.open_ q) :: openObs .inl r
  | .asReaddir x r => [.handle (.inr x), .asked .readdir (.inr (.inr x)) (r.map fun y => .inr (.inr y))]
  | .asReaddirplus x r => [.handle (.inr x), .asked .readdirplus (.inr (.inr x)) (r.map fun y => .inr (.inr y))]
  | .asRead x r => [.handle (.inl x), .asked .read (.inr (.inl x)) (r.map fun y => .inr (.inl y))]
  | .asWrite x r => [.handle (.inl x), .asked .write (.inr (.inl x)) (r.map fun y => .inr (.inl y))]
  | .releaseFailed _ x q e => .handle (.inl x) :: .called (.inr (.inl x)) hdr (.release q) :: releaseObs (.inl x) (.error e)
  | .released _ x q => .handle (.inl x) :: .called (.inr (.inl x)) hdr (.release q) :: releaseObs (.inl x) (.ok ())
  | .releasedirFailed _ x q e =>
    .handle (.inr x) :: .called (.inr (.inr x)) hdr (.releasedir q) :: releaseObs (.inr x) (.error e)
  | .releasedDir _ x q => .handle (.inr x) :: .called (.inr (.inr x)) hdr (.releasedir q) :: releaseObs (.inr x) (.ok ())
  | .sent a r =>
    if 16 + (a.payload minor).length < 2 ^ 32 then
      [.sent (frame hdr.unique a.error (a.payload minor)) (succeeded r)]
    else []
  | _ => []

theorem noting_obs {α O : Type} {obs : α → List O} {f : σ → α × σ} {w w' : σ × List O} {a : α}
    (h : noting obs f w = (a, w')) : w'.2 = w.2 ++ obs a := by
  unfold noting at h
  injection h with h1 h2
  rw [← h1, ← h2]

theorem Carries.message {buf : SendBuf} {m : Bytes} (h : Carries buf m) : buf.message = m := by
  obtain ⟨cs, h1, _, h2, _⟩ := h
  unfold SendBuf.message
  rw [h1]
  exact h2

local macro "recorded_call " h:term : tactic =>
  `(tactic| (have h1 := $h; dsimp only [Filesystem.recorded] at h1; have h2 := noting_obs h1; exact h2))

/-- The world writes down exactly the observations of the event. -/
theorem Effect.log {fs : Filesystem ν φ η σ ε} {hdr : FuseInHeader}
    {s s' : Vfs ν φ η (σ × List (Obs ν φ η))} {e : VfsEv ν φ η ε} (h : e.Effect fs.recorded hdr s s') :
    s'.world.2 = s.world.2 ++ e.obs fs.layout.versionMinor.toNat hdr := by
  cases e with
  | gotNode => rw [h.2]; exact (List.append_nil _).symm
  | gotFile => rw [h.2]; exact (List.append_nil _).symm
  | gotDir => rw [h.2]; exact (List.append_nil _).symm
  | asDirectory => recorded_call h.1
  | asFile => recorded_call h.1
  | asSymlink => recorded_call h.1
  | asReaddir => recorded_call h.1
  | asReaddirplus => recorded_call h.1
  | asRead => recorded_call h.1
  | asWrite => recorded_call h.1
  | getattr => recorded_call h.1
  | getxattr => recorded_call h.1
  | listxattr => recorded_call h.1
  | statfs => recorded_call h.1
  | lookup => recorded_call h.1
  | opendir => recorded_call h.1
  | open_ => recorded_call h.1
  | readlink => recorded_call h.1
  | readdir => recorded_call h.1
  | readdirplus => recorded_call h.1
  | read => recorded_call h.1
  | write => recorded_call h.1
  | openedFile => rw [h.2.2]; exact (List.append_nil _).symm
  | openedDir => rw [h.2.2]; exact (List.append_nil _).symm
  | handlesFull => rw [h.2]; exact (List.append_nil _).symm
  | releaseFailed => recorded_call h.2.1
  | released => recorded_call h.2.1
  | releasedirFailed => recorded_call h.2.1
  | releasedDir => recorded_call h.2.1
  | added =>
    obtain ⟨x, h1, _⟩ := h
    rw [h1]; exact (List.append_nil _).symm
  | countFull => rw [h.2]; exact (List.append_nil _).symm
  | forgot => rw [show s' = _ from h]; exact (List.append_nil _).symm
  | sent a r =>
    obtain ⟨⟨h1, h2⟩, _⟩ := h
    by_cases hs : 16 + (a.payload fs.layout.versionMinor.toNat).length < 2 ^ 32
    · obtain ⟨buf, hb, ho⟩ := h1 hs
      dsimp only [Filesystem.recorded] at ho
      have := noting_obs ho.symm
      rw [this, hb.message]
      simp only [VfsEv.obs, if_pos hs]
      rfl
    · have ho := h2 hs
      injection ho with _ ho
      rw [ho]
      simp only [VfsEv.obs, if_neg hs, List.append_nil]

/-! ## Histories -/

/-- A history: the threads' events, in order, leading from one state to another.  `hdr t` is the header of
the request handled by thread `t`. -/
inductive Hist (fs : Filesystem ν φ η σ ε) (hdr : Nat → FuseInHeader) :
    Vfs ν φ η σ → List (Nat × VfsEv ν φ η ε) → Vfs ν φ η σ → Prop
  | nil (s) : Hist fs hdr s [] s
  | cons {s s1 s' t e L} : e.Effect fs (hdr t) s s1 → Hist fs hdr s1 L s' → Hist fs hdr s ((t, e) :: L) s'

/-- The events of one thread. -/
def eventsOf (t : Nat) (L : List (Nat × VfsEv ν φ η ε)) : List (VfsEv ν φ η ε) :=
  (L.filter fun x => x.1 == t).map (·.2)

theorem eventsOf_cons_self (t : Nat) (e : VfsEv ν φ η ε) (L) : eventsOf t ((t, e) :: L) = e :: eventsOf t L := by
  simp [eventsOf]

theorem eventsOf_cons_ne {t u : Nat} (h : u ≠ t) (e : VfsEv ν φ η ε) (L) :
    eventsOf t ((u, e) :: L) = eventsOf t L := by
  simp [eventsOf, h]

theorem eventsOf_append (t : Nat) (L M : List (Nat × VfsEv ν φ η ε)) :
    eventsOf t (L ++ M) = eventsOf t L ++ eventsOf t M := by
  simp [eventsOf]

theorem mem_eventsOf {t : Nat} {e : VfsEv ν φ η ε} {L} : e ∈ eventsOf t L ↔ (t, e) ∈ L := by
  constructor
  · intro h
    obtain ⟨x, h1, h2⟩ := List.mem_map.mp h
    obtain ⟨h3, h4⟩ := List.mem_filter.mp h1
    have : x = (t, e) := Prod.ext (by simpa using h4) h2
    rw [← this]; exact h3
  · intro h
    exact List.mem_map.mpr ⟨(t, e), List.mem_filter.mpr ⟨h, by simp⟩, rfl⟩

theorem Hist.append {fs : Filesystem ν φ η σ ε} {hdr s L s1 M s2} (h1 : Hist fs hdr s L s1)
    (h2 : Hist fs hdr s1 M s2) : Hist fs hdr s (L ++ M) s2 := by
  induction h1 with
  | nil => exact h2
  | cons h _ ih => exact .cons h (ih h2)

theorem Hist.split {fs : Filesystem ν φ η σ ε} {hdr s L M s2} (h : Hist fs hdr s (L ++ M) s2) :
    ∃ s1, Hist fs hdr s L s1 ∧ Hist fs hdr s1 M s2 := by
  induction L generalizing s with
  | nil => exact ⟨s, .nil _, h⟩
  | cons x L ih =>
    cases h with
    | cons he h =>
      obtain ⟨s1, h1, h2⟩ := ih h
      exact ⟨s1, .cons he h1, h2⟩

/-- The observations of a history. -/
def obsOf (minor : Nat) (hdr : Nat → FuseInHeader) (L : List (Nat × VfsEv ν φ η ε)) : List (Nat × Obs ν φ η) :=
  L.flatMap fun x => (x.2.obs minor (hdr x.1)).map fun o => (x.1, o)

/-- Every interleaving of programs is a history whose threads follow their traces. -/
theorem Runs.hist {α : Type} {fs : Filesystem ν φ η σ ε} {hdr : Nat → FuseInHeader}
    {pool : Nat → Prog (Vfs ν φ η (σ × List (Obs ν φ η))) α} {s tr pool' s'} (h : Runs pool s tr pool' s')
    {P : Nat → List (VfsEv ν φ η ε) → α → Prop} (hp : ∀ t, Sat fs.recorded (hdr t) (pool t) (P t)) :
    ∃ L, Hist fs.recorded hdr s L s' ∧ L.map (·.1) = tr.map (·.1) ∧
      observed tr = obsOf fs.layout.versionMinor.toNat hdr L ∧
      ∀ t, Sat fs.recorded (hdr t) (pool' t) fun evs a => P t (eventsOf t L ++ evs) a := by
  induction h generalizing P with
  | nil pool s => exact ⟨[], .nil _, rfl, rfl, hp⟩
  | @cons pool s t f k tr pool' s' ht _ ih =>
    have h1 := hp t
    rw [ht] at h1
    obtain ⟨e, he, hk⟩ := h1 s
    obtain ⟨L, h2, h3, h4, h5⟩ := ih (P := fun u evs a => if u = t then P u (e :: evs) a else P u evs a) (by
      intro u
      by_cases hu : u = t
      · subst hu
        simp only [setThread, if_true]
        exact hk
      · simp only [setThread, if_neg hu]
        exact hp u)
    refine ⟨(t, e) :: L, .cons he h2, by simp [h3], ?_, ?_⟩
    · have hs : stepObs s (f s) = e.obs fs.layout.versionMinor.toNat (hdr t) := by
        unfold stepObs
        rw [Effect.log he, List.drop_left]
      show (stepObs s (f s)).map _ ++ observed tr = (e.obs _ _).map _ ++ obsOf _ _ L
      rw [hs, h4]
    · intro u
      refine (h5 u).mono fun evs a h => ?_
      by_cases hu : u = t
      · subst hu
        rw [eventsOf_cons_self]
        simpa using h
      · rw [eventsOf_cons_ne (Ne.symm hu)]
        simpa [hu] using h

theorem obsOf_append (minor : Nat) (hdr : Nat → FuseInHeader) (L M : List (Nat × VfsEv ν φ η ε)) :
    obsOf minor hdr (L ++ M) = obsOf minor hdr L ++ obsOf minor hdr M := List.flatMap_append

theorem mem_obsOf {minor : Nat} {hdr : Nat → FuseInHeader} {L : List (Nat × VfsEv ν φ η ε)} {t : Nat} {o : Obs ν φ η} :
    (t, o) ∈ obsOf minor hdr L ↔ ∃ e, (t, e) ∈ L ∧ o ∈ e.obs minor (hdr t) := by
  unfold obsOf
  rw [List.mem_flatMap]
  constructor
  · rintro ⟨⟨u, e⟩, h1, h2⟩
    obtain ⟨o', h3, h4⟩ := List.mem_map.mp h2
    cases h4
    exact ⟨e, h1, h3⟩
  · rintro ⟨e, h1, h2⟩
    exact ⟨(t, e), h1, List.mem_map.mpr ⟨o, h2, rfl⟩⟩

/-- Thread `t` follows the traces of its request: it has gone through `evs`, and if it is finished the trace
is complete, otherwise it is not. -/
def Follows (fs : Filesystem ν φ η σ ε) (r : Request) (hdr : FuseInHeader)
    (p : Prog (Vfs ν φ η σ) (Option (Outcome ε Unit))) (evs : List (VfsEv ν φ η ε)) : Prop :=
  ∃ rest out, DispatchTrace fs r hdr (evs ++ rest) out ∧ (∀ o, p = .done o → rest = [] ∧ out = o) ∧
    ∀ f k, p = .step f k → rest ≠ []

theorem Sat.follows {fs : Filesystem ν φ η σ ε} {r : Request} {hdr : FuseInHeader}
    {p : Prog (Vfs ν φ η σ) (Option (Outcome ε Unit))} {evs : List (VfsEv ν φ η ε)} (s : Vfs ν φ η σ)
    (h : Sat fs hdr p fun evs' o => DispatchTrace fs r hdr (evs ++ evs') o) : Follows fs r hdr p evs := by
  cases p with
  | done o => exact ⟨[], o, h, fun o' ho => by cases ho; exact ⟨rfl, rfl⟩, nofun⟩
  | step f k =>
    obtain ⟨e, _, h⟩ := h s
    obtain ⟨rest, out, h⟩ := h.complete s
    exact ⟨e :: rest, out, h, nofun, fun _ _ _ => nofun⟩

end Fuse
