import Verif.VfsLockErase

/-!
# Which critical sections call user code, and how threads get on
-/

namespace Fuse

variable {ν φ η σ ε α β : Type}

/-! ## A property of all critical sections of a program -/

/-- No user code is called in the critical section. -/
def Sec.Quiet {M : Type} : Sec M σ β → Prop
  | .done _ => True
  | .step _ k => ∀ m, (k m).Quiet
  | .call _ _ => False

/-- All critical sections of the program are quiet, unless they concern the handle map and `Q` holds. -/
def LProg.All (Q : Prop) : LProg ν φ η σ α → Prop
  | .done _ => True
  | .world _ k => ∀ w, (k w).All Q
  | .read _ k => ∀ m, (k m).All Q
  | .write l sec k => (sec.Quiet ∨ l = .handles ∧ Q) ∧ ∀ r, (k r).All Q

theorem LProg.All.bind {Q : Prop} {p : LProg ν φ η σ α} {g : α → LProg ν φ η σ β} (hp : p.All Q)
    (hg : ∀ a, (g a).All Q) : (p.bind g).All Q := by
  induction p with
  | done a => exact hg a
  | world f k ih => exact fun w => ih w (hp w)
  | read l k ih => exact fun m => ih m (hp m)
  | write l sec k ih => exact ⟨hp.1, fun r => ih r (hp.2 r)⟩

namespace LM

/-- The same for programs that may end early. -/
def All (Q : Prop) (p : LM ν φ η σ ε α) : Prop := LProg.All Q p

theorem All.bind {Q : Prop} {x : LM ν φ η σ ε α} {f : α → LM ν φ η σ ε β} (hx : x.All Q)
    (h : ∀ a, (f a).All Q) : LM.All Q (x >>= f) :=
  LProg.All.bind hx fun o => match o with
    | .ok a => h a
    | .err _ => trivial
    | .fault _ => trivial

theorem All.ofFault {Q : Prop} (r : Except Fault α) : (LM.ofFault r : LM ν φ η σ ε α).All Q := by
  cases r <;> trivial

theorem All.decoded {Q : Prop} (r : Res α) : (LM.decoded r : LM ν φ η σ ε α).All Q := by
  rcases r with (_ | _) | _ <;> trivial

theorem All.call {Q : Prop} (f : σ → α × σ) : (LM.call f : LM ν φ η σ ε α).All Q := fun _ => trivial

theorem All.reading {Q : Prop} (l : Lck) (f : Mem ν φ η l → α) : (LM.reading l f : LM ν φ η σ ε α).All Q :=
  fun _ => trivial

theorem All.writing {Q : Prop} {l : Lck} {sec : Sec (Mem ν φ η l) σ α} (h : sec.Quiet ∨ l = .handles ∧ Q) :
    (LM.writing l sec : LM ν φ η σ ε α).All Q :=
  ⟨h, fun r => by cases r <;> trivial⟩

end LM

theorem NodeMap.addSec_quiet (id : NodeId) (node : ν) : (NodeMap.addSec id node : Sec _ σ _).Quiet := by
  intro m
  dsimp only
  cases hm : m id with
  | none => exact fun _ => trivial
  | some entry =>
    dsimp only
    by_cases h : entry.lookupCount.toNat + 1 < 2 ^ 64
    · simp only [h, if_true]
      exact fun _ => trivial
    · simp only [h, if_false]
      trivial

theorem NodeMap.forgetSec_quiet (items : List ForgetItem) :
    (NodeMap.forgetSec items : Sec (NodeMap ν) σ _).Quiet := by
  induction items with
  | nil => trivial
  | cons item items ih =>
    intro m
    dsimp only
    cases hm : m item.nodeId with
    | none => exact ih
    | some entry =>
      dsimp only
      by_cases h : NodeMap.satPred entry.lookupCount = 0
      · simp only [h, if_true]
        exact fun _ => ih
      · simp only [h, if_false]
        exact fun _ => ih

theorem HandlesMap.openFileSec_quiet (h : φ) : (HandlesMap.openFileSec h : Sec (HandlesMap φ η) σ _).Quiet := by
  intro m
  by_cases hn : m.nextHandleId.toNat + 1 < 2 ^ 64
  · simp only [hn, if_true]
    exact fun _ _ => trivial
  · simp only [hn, if_false]
    trivial

theorem HandlesMap.openDirSec_quiet (h : η) : (HandlesMap.openDirSec h : Sec (HandlesMap φ η) σ _).Quiet := by
  intro m
  by_cases hn : m.nextHandleId.toNat + 1 < 2 ^ 64
  · simp only [hn, if_true]
    exact fun _ _ => trivial
  · simp only [hn, if_false]
    trivial

namespace Filesystem.Locked

variable (fs : Filesystem ν φ η σ ε) {Q : Prop}

theorem all_reply (id : NonZeroU64) (m) : (reply fs id m).All Q := fun _ => trivial

/-- The beginning of a handler: the parts of the header, and decoding. -/
macro "all_head" : tactic => `(tactic|
  (refine LM.All.bind (LM.All.ofFault _) (fun x => ?_)
   obtain ⟨id, header⟩ := x
   refine LM.All.bind (LM.All.decoded _) (fun request => ?_)))

theorem all_forget (r : Request) : (forget fs r).All Q :=
  LM.All.bind (LM.All.decoded _) fun _ => LM.All.writing (.inl (NodeMap.forgetSec_quiet _))

theorem all_getattr (r : Request) : (getattr fs r).All Q := by
  all_head
  refine LM.All.bind (LM.All.ofFault _) fun nodeId => ?_
  refine LM.All.bind (LM.All.reading _ _) fun x => ?_
  rcases x with e | node
  · exact all_reply _ _ _
  refine LM.All.bind (LM.All.call _) fun x => ?_
  rcases x with e | node <;> exact all_reply _ _ _

theorem all_getxattr (r : Request) : (getxattr fs r).All Q := by
  all_head
  refine LM.All.bind (LM.All.ofFault _) fun nodeId => ?_
  refine LM.All.bind (LM.All.reading _ _) fun x => ?_
  rcases x with e | node
  · exact all_reply _ _ _
  refine LM.All.bind (LM.All.call _) fun x => ?_
  rcases x with e | node <;> exact all_reply _ _ _

theorem all_listxattr (r : Request) : (listxattr fs r).All Q := by
  all_head
  refine LM.All.bind (LM.All.ofFault _) fun nodeId => ?_
  refine LM.All.bind (LM.All.reading _ _) fun x => ?_
  rcases x with e | node
  · exact all_reply _ _ _
  refine LM.All.bind (LM.All.call _) fun x => ?_
  rcases x with e | node <;> exact all_reply _ _ _

theorem all_lookup (r : Request) : (lookup fs r).All Q := by
  all_head
  refine LM.All.bind (LM.All.reading _ _) fun x => ?_
  rcases x with e | node
  · exact all_reply _ _ _
  refine LM.All.bind (LM.All.call _) fun x => ?_
  rcases x with _ | dir
  · exact all_reply _ _ _
  refine LM.All.bind (LM.All.call _) fun x => ?_
  rcases x with e | ⟨node, gen, t1, t2⟩
  · exact all_reply _ _ _
  rcases node with _ | ⟨node, attr⟩
  · exact all_reply _ _ _
  refine LM.All.bind (LM.All.ofFault _) fun nodeId => ?_
  exact LM.All.bind (all_reply _ _ _) fun _ => LM.All.writing (.inl (NodeMap.addSec_quiet _ _))

theorem all_open_ (r : Request) : (open_ fs r).All Q := by
  all_head
  refine LM.All.bind (LM.All.reading _ _) fun x => ?_
  rcases x with e | node
  · exact all_reply _ _ _
  refine LM.All.bind (LM.All.call _) fun x => ?_
  rcases x with _ | dir
  · exact all_reply _ _ _
  refine LM.All.bind (LM.All.call _) fun x => ?_
  rcases x with e | result
  · exact all_reply _ _ _
  exact LM.All.bind (LM.All.writing (.inl (HandlesMap.openFileSec_quiet _))) fun _ => all_reply _ _ _

theorem all_opendir (r : Request) : (opendir fs r).All Q := by
  all_head
  refine LM.All.bind (LM.All.ofFault _) fun nodeId => ?_
  refine LM.All.bind (LM.All.reading _ _) fun x => ?_
  rcases x with e | node
  · exact all_reply _ _ _
  refine LM.All.bind (LM.All.call _) fun x => ?_
  rcases x with _ | dir
  · exact all_reply _ _ _
  refine LM.All.bind (LM.All.call _) fun x => ?_
  rcases x with e | result
  · exact all_reply _ _ _
  exact LM.All.bind (LM.All.writing (.inl (HandlesMap.openDirSec_quiet _))) fun _ => all_reply _ _ _

theorem all_read (r : Request) : (read fs r).All Q := by
  all_head
  refine LM.All.bind (LM.All.ofFault _) fun handle => ?_
  refine LM.All.bind (LM.All.reading _ _) fun x => ?_
  rcases x with e | node
  · exact all_reply _ _ _
  refine LM.All.bind (LM.All.call _) fun x => ?_
  rcases x with _ | dir
  · exact all_reply _ _ _
  refine LM.All.bind (LM.All.call _) fun x => ?_
  rcases x with e | result <;> exact all_reply _ _ _

theorem all_readdir (r : Request) : (readdir fs r).All Q := by
  all_head
  refine LM.All.bind (LM.All.ofFault _) fun nodeId => ?_
  refine LM.All.bind (LM.All.ofFault _) fun handle => ?_
  refine LM.All.bind (LM.All.reading _ _) fun x => ?_
  rcases x with e | node
  · exact all_reply _ _ _
  refine LM.All.bind (LM.All.call _) fun x => ?_
  rcases x with _ | dir
  · exact all_reply _ _ _
  refine LM.All.bind (LM.All.call _) fun x => ?_
  rcases x with e | result <;> exact all_reply _ _ _

theorem all_readdirplus (r : Request) : (readdirplus fs r).All Q := by
  all_head
  refine LM.All.bind (LM.All.ofFault _) fun nodeId => ?_
  refine LM.All.bind (LM.All.ofFault _) fun handle => ?_
  refine LM.All.bind (LM.All.reading _ _) fun x => ?_
  rcases x with e | node
  · exact all_reply _ _ _
  refine LM.All.bind (LM.All.call _) fun x => ?_
  rcases x with _ | dir
  · exact all_reply _ _ _
  refine LM.All.bind (LM.All.call _) fun x => ?_
  rcases x with e | result <;> exact all_reply _ _ _

theorem all_readlink (r : Request) : (readlink fs r).All Q := by
  all_head
  refine LM.All.bind (LM.All.reading _ _) fun x => ?_
  rcases x with e | node
  · exact all_reply _ _ _
  refine LM.All.bind (LM.All.call _) fun x => ?_
  rcases x with _ | dir
  · exact all_reply _ _ _
  refine LM.All.bind (LM.All.call _) fun x => ?_
  rcases x with e | result <;> exact all_reply _ _ _

theorem all_release (hQ : Q) (r : Request) : (release fs r).All Q := by
  all_head
  refine LM.All.bind (LM.All.ofFault _) fun handle => ?_
  refine LM.All.bind (LM.All.writing (.inr ⟨rfl, hQ⟩)) fun x => ?_
  rcases x with e | _ <;> exact all_reply _ _ _

theorem all_releasedir (hQ : Q) (r : Request) : (releasedir fs r).All Q := by
  all_head
  refine LM.All.bind (LM.All.ofFault _) fun nodeId => ?_
  refine LM.All.bind (LM.All.ofFault _) fun handle => ?_
  refine LM.All.bind (LM.All.writing (.inr ⟨rfl, hQ⟩)) fun x => ?_
  rcases x with e | _ <;> exact all_reply _ _ _

theorem all_statfs (r : Request) : (statfs fs r).All Q := by
  all_head
  refine LM.All.bind (LM.All.reading _ _) fun x => ?_
  rcases x with e | node
  · exact all_reply _ _ _
  refine LM.All.bind (LM.All.call _) fun x => ?_
  rcases x with e | result <;> exact all_reply _ _ _

theorem all_write (r : Request) : (write fs r).All Q := by
  all_head
  refine LM.All.bind (LM.All.ofFault _) fun nodeId => ?_
  refine LM.All.bind (LM.All.ofFault _) fun handle => ?_
  refine LM.All.bind (LM.All.reading _ _) fun x => ?_
  rcases x with e | node
  · exact all_reply _ _ _
  refine LM.All.bind (LM.All.call _) fun x => ?_
  rcases x with _ | dir
  · exact all_reply _ _ _
  refine LM.All.bind (LM.All.call _) fun x => ?_
  rcases x with e | result <;> exact all_reply _ _ _

/-- One alternative of `select`. -/
theorem all_alt {c : Prop} [Decidable c] {p q : Option (LM ν φ η σ ε Unit)}
    (h1 : c → ∀ x ∈ p, x.All Q) (h2 : ∀ x ∈ q, x.All Q) : ∀ x ∈ (if c then p else q), x.All Q := by
  by_cases hc : c
  · rw [if_pos hc]
    exact h1 hc
  · rw [if_neg hc]
    exact h2

theorem all_some {p : LM ν φ η σ ε Unit} (h : p.All Q) : ∀ x ∈ some p, x.All Q := by
  intro x hx
  cases hx
  exact h

theorem all_select (op : UInt32) (r : Request) :
    ∀ x ∈ select fs op r, x.All (op = FUSE_RELEASE ∨ op = FUSE_RELEASEDIR) := by
  unfold select
  refine all_alt (fun _ => all_some (all_read fs r)) ?_
  refine all_alt (fun _ => all_some (all_write fs r)) ?_
  refine all_alt (fun _ => all_some (all_forget fs r)) ?_
  refine all_alt (fun _ => all_some (all_forget fs r)) ?_
  refine all_alt (fun _ => all_some (all_getattr fs r)) ?_
  refine all_alt (fun _ => all_some (all_getxattr fs r)) ?_
  refine all_alt (fun _ => all_some (all_listxattr fs r)) ?_
  refine all_alt (fun _ => all_some (all_lookup fs r)) ?_
  refine all_alt (fun _ => all_some (all_open_ fs r)) ?_
  refine all_alt (fun _ => all_some (all_opendir fs r)) ?_
  refine all_alt (fun _ => all_some (all_readdir fs r)) ?_
  refine all_alt (fun _ => all_some (all_readdirplus fs r)) ?_
  refine all_alt (fun _ => all_some (all_readlink fs r)) ?_
  refine all_alt (fun h => all_some (all_release fs (.inl h) r)) ?_
  refine all_alt (fun h => all_some (all_releasedir fs (.inr h) r)) ?_
  refine all_alt (fun _ => all_some (all_statfs fs r)) ?_
  intro x hx
  cases hx

/-- The message is a RELEASE or RELEASEDIR request. -/
def IsRelease (r : Request) : Prop :=
  ∃ h, r.rawHeader = .ok h ∧ (h.opcode = FUSE_RELEASE ∨ h.opcode = FUSE_RELEASEDIR)

theorem all_dispatch (r : Request) : (dispatch fs r).All (IsRelease r) := by
  unfold dispatch
  cases hr : r.rawHeader with
  | error e => trivial
  | ok h =>
    dsimp only
    cases hs : select fs h.opcode r with
    | none => trivial
    | some p =>
      have h1 := all_select fs h.opcode r p hs
      refine LProg.All.bind ?_ fun _ => trivial
      have h2 : ∀ q : LProg ν φ η σ (Outcome ε Unit), q.All (h.opcode = FUSE_RELEASE ∨ h.opcode = FUSE_RELEASEDIR) →
          q.All (IsRelease r) := by
        intro q hq
        induction q with
        | done a => trivial
        | world f k ih => exact fun w => ih w (hq w)
        | read l k ih => exact fun m => ih m (hq m)
        | write l sec k ih =>
          refine ⟨hq.1.imp id fun h3 => ⟨h3.1, h, hr, h3.2⟩, fun x => ih x (hq.2 x)⟩
      exact h2 p h1

end Filesystem.Locked

/-! ## The same for threads -/

/-- What is still to come for the thread. -/
def Thr.All (Q : Prop) : Thr ν φ η σ α → Prop
  | .out p => p.All Q
  | .peek _ k => ∀ m, (k m).All Q
  | .held _ p => p.All Q
  | .sec l c k => (c.Quiet ∨ l = .handles ∧ Q) ∧ ∀ r, (k r).All Q
  | .tail _ _ k => ∀ r, (k r).All Q
  | .crashed => True

theorem LStep.all {c c' : LConf ν φ η σ α} {t : Nat} {Q : Prop} (h : LStep c t c') (hq : (c.threads t).All Q) :
    (c'.threads t).All Q := by
  cases h with
  | world h => rw [LConf.set_same]; rw [h] at hq; exact hq _
  | lockRead h => rw [LConf.set_same]; rw [h] at hq; exact hq
  | look h => rw [LConf.set_same]; rw [h] at hq; exact hq _
  | unlockRead h => rw [LConf.set_same]; rw [h] at hq; exact hq
  | lockWrite h => rw [LConf.set_same]; rw [h] at hq; exact hq
  | access h => rw [LConf.set_same]; rw [h] at hq; exact ⟨hq.1.imp (fun h => h _) id, hq.2⟩
  | call h => rw [LConf.set_same]; rw [h] at hq; exact hq.2
  | accessTail h => rw [LConf.set_same]; rw [h] at hq; exact hq
  | unlock h => rw [LConf.set_same]; rw [h] at hq; exact hq.2 _
  | unlockTail h => rw [LConf.set_same]; rw [h] at hq; exact hq _
  | panicSec h => show Thr.All Q ((c.set t .crashed c.mem).threads t); rw [LConf.set_same]; trivial
  | panicTail h => show Thr.All Q ((c.set t .crashed c.mem).threads t); rw [LConf.set_same]; trivial
  | poisonRead h => rw [LConf.set_same]; trivial
  | poisonWrite h => rw [LConf.set_same]; trivial

theorem LPanic.crashed {c c' : LConf ν φ η σ α} {t : Nat} (h : LPanic c t c') : c'.threads t = .crashed := by
  cases h with
  | world w h => exact LConf.set_same _ _ _ _
  | call w h => exact LConf.set_same c t _ { c.mem with world := w }

theorem LRunsP.all {c c' : LConf ν φ η σ α} {ts} (h : LRunsP c ts c') {Q : Nat → Prop}
    (hq : ∀ t, (c.threads t).All (Q t)) : ∀ t, (c'.threads t).All (Q t) := by
  induction h with
  | nil => exact hq
  | @cons c t c1 ts c2 st _ ih =>
    apply ih
    intro u
    by_cases hu : u = t
    · subst hu
      rcases st with st | st
      · exact st.all (hq u)
      · rw [st.crashed]
        trivial
    · have : c1.threads u = c.threads u := by
        rcases st with st | st
        · exact st.other hu
        · exact st.other hu
      rw [this]
      exact hq u

/-! ## Getting on -/

/-- The thread can run its critical section to the end: then it is outside all locks or gone. -/
theorem finish_tail {l : Lck} {γ : Type} (q : Tail (Mem ν φ η l) γ) (k : Except Fault γ → LProg ν φ η σ α) (t : Nat) :
    ∀ c : LConf ν φ η σ α, c.threads t = .tail l q k →
      ∃ tr c', LRuns c tr c' ∧ (∀ x ∈ tr, x.1 = t) ∧
        ((∃ r, c'.threads t = .out (k r)) ∨ c'.threads t = .crashed) := by
  induction q with
  | done r =>
    intro c h
    cases r with
    | ok b =>
      exact ⟨_, _, .cons (.unlockTail h) (.nil _), by simp, .inl ⟨_, LConf.set_same _ _ _ _⟩⟩
    | error e =>
      exact ⟨_, _, .cons (.panicTail h) (.nil _), by simp, .inr (LConf.set_same c t _ c.mem)⟩
  | step f g ih =>
    intro c h
    obtain ⟨tr, c', h1, h2, h3⟩ := ih _ _ (LConf.set_same c t _ _)
    exact ⟨_, c', .cons (.accessTail h) h1, by simpa using h2, h3⟩

theorem finish_sec {l : Lck} {γ : Type} (q : Sec (Mem ν φ η l) σ γ) (k : Except Fault γ → LProg ν φ η σ α) (t : Nat) :
    ∀ c : LConf ν φ η σ α, c.threads t = .sec l q k →
      ∃ tr c', LRuns c tr c' ∧ (∀ x ∈ tr, x.1 = t) ∧
        ((∃ r, c'.threads t = .out (k r)) ∨ c'.threads t = .crashed) := by
  induction q with
  | done r =>
    intro c h
    cases r with
    | ok b =>
      exact ⟨_, _, .cons (.unlock h) (.nil _), by simp, .inl ⟨_, LConf.set_same _ _ _ _⟩⟩
    | error e =>
      exact ⟨_, _, .cons (.panicSec h) (.nil _), by simp, .inr (LConf.set_same c t _ c.mem)⟩
  | step f g ih =>
    intro c h
    obtain ⟨tr, c', h1, h2, h3⟩ := ih _ _ (LConf.set_same c t _ _)
    exact ⟨_, c', .cons (.access h) h1, by simpa using h2, h3⟩
  | call f g =>
    intro c h
    obtain ⟨tr, c', h1, h2, h3⟩ := finish_tail _ k t _ (LConf.set_same c t _ _)
    exact ⟨_, c', .cons (.call h) h1, by simpa using h2, h3⟩

/-- Any thread can give back the lock it holds. -/
theorem give_back (t : Nat) (c : LConf ν φ η σ α) :
    ∃ tr c', LRuns c tr c' ∧ (∀ x ∈ tr, x.1 = t) ∧ ((tr ≠ []) → ∃ l, (c.threads t).holds l) ∧
      ∀ l, ¬ (c'.threads t).holds l := by
  cases h : c.threads t with
  | out p => exact ⟨_, _, .nil _, by simp, by simp, by rw [h]; exact fun _ h => h⟩
  | crashed => exact ⟨_, _, .nil _, by simp, by simp, by rw [h]; exact fun _ h => h⟩
  | peek l k =>
    refine ⟨_, _, .cons (.look h) (.cons (.unlockRead (LConf.set_same _ _ _ _)) (.nil _)), by simp,
      fun _ => ⟨l, rfl⟩, ?_⟩
    rw [LConf.set_same]
    exact fun _ h => h
  | held l p =>
    refine ⟨_, _, .cons (.unlockRead h) (.nil _), by simp, fun _ => ⟨l, rfl⟩, ?_⟩
    rw [LConf.set_same]
    exact fun _ h => h
  | sec l q k =>
    obtain ⟨tr, c', h1, h2, h3⟩ := finish_sec q k t c h
    refine ⟨tr, c', h1, h2, fun _ => ⟨l, rfl⟩, ?_⟩
    rcases h3 with ⟨r, h3⟩ | h3 <;> rw [h3] <;> exact fun _ h => h
  | tail l q k =>
    obtain ⟨tr, c', h1, h2, h3⟩ := finish_tail q k t c h
    refine ⟨tr, c', h1, h2, fun _ => ⟨l, rfl⟩, ?_⟩
    rcases h3 with ⟨r, h3⟩ | h3 <;> rw [h3] <;> exact fun _ h => h

theorem LRuns.untouched {c c' : LConf ν φ η σ α} {tr} (h : LRuns c tr c') {u : Nat} (hu : ∀ x ∈ tr, x.1 ≠ u) :
    c'.threads u = c.threads u :=
  h.toP.untouched fun hm => by
    obtain ⟨x, h1, h2⟩ := List.mem_map.mp hm
    exact hu x h1 h2

/-- All locks can be given back, by the threads that hold them. -/
theorem give_back_all (L : List Nat) :
    ∀ c : LConf ν φ η σ α, (∀ u l, (c.threads u).holds l → u ∈ L) →
      ∃ tr c', LRuns c tr c' ∧ (∀ x ∈ tr, ∃ l, (c.threads x.1).holds l) ∧ (∀ l, c'.Free l) := by
  induction L with
  | nil => intro c h; exact ⟨_, _, .nil _, by simp, fun l u hu => absurd (h u l hu) (by simp)⟩
  | cons t L ih =>
    intro c h
    obtain ⟨tr, c1, h1, h2, h3, h4⟩ := give_back t c
    have h5 : ∀ u, u ≠ t → c1.threads u = c.threads u := fun u hu =>
      h1.untouched fun x hx e => hu (by rw [← e]; exact h2 x hx)
    obtain ⟨tr', c2, h6, h7, h8⟩ := ih c1 fun u l hu => by
      by_cases hut : u = t
      · subst hut
        exact absurd hu (h4 l)
      · rw [h5 u hut] at hu
        have := h u l hu
        simp only [List.mem_cons, hut, false_or] at this
        exact this
    refine ⟨_, c2, h1.append h6, fun x hx => ?_, h8⟩
    rcases List.mem_append.mp hx with hx | hx
    · rw [h2 x hx]
      exact h3 (by intro e; rw [e] at hx; cases hx)
    · obtain ⟨l, hl⟩ := h7 x hx
      by_cases hxt : x.1 = t
      · rw [hxt] at hl
        exact absurd hl (h4 l)
      · rw [h5 _ hxt] at hl
        exact ⟨l, hl⟩

/-- When all locks are free, a thread outside the locks can run to its end alone. -/
theorem run_alone (t : Nat) (p : LProg ν φ η σ α) :
    ∀ c : LConf ν φ η σ α, c.threads t = .out p → (∀ l, c.Free l) →
      ∃ tr c', LRuns c tr c' ∧ (∀ x ∈ tr, x.1 = t) ∧ (c'.threads t).over := by
  have key : ∀ {c c' : LConf ν φ η σ α} {tr p}, LRuns c tr c' → (∀ x ∈ tr, x.1 = t) → (∀ l, c.Free l) →
      c'.threads t = .out p → ∀ l, c'.Free l := by
    intro c c' tr p h1 h2 h3 h4 l u hu
    by_cases hut : u = t
    · subst hut
      rw [h4] at hu
      exact hu
    · rw [h1.untouched fun x hx e => hut (by rw [← e]; exact h2 x hx)] at hu
      exact h3 l u hu
  induction p with
  | done a => intro c h _; exact ⟨_, _, .nil _, by simp, by rw [h]; trivial⟩
  | world f k ih =>
    intro c h hf
    have h1 : LRuns c _ _ := .cons (.world h) (.nil _)
    obtain ⟨tr, c', h2, h3, h4⟩ := ih _ _ (LConf.set_same _ _ _ _)
      (key h1 (by simp) hf (LConf.set_same _ _ _ _))
    exact ⟨_, c', h1.append h2, by simpa using h3, h4⟩
  | read l k ih =>
    intro c h hf
    have hr : c.Readable l := fun u hu => hf l u (Thr.holds_of_writes hu)
    cases hp : c.poisoned l with
    | true => exact ⟨_, _, .cons (.poisonRead h hr hp) (.nil _), by simp, by rw [LConf.set_same]; trivial⟩
    | false =>
      have h1 : LRuns c _ _ := .cons (.lockRead h hr hp) (.cons (.look (LConf.set_same _ _ _ _))
        (.cons (.unlockRead (LConf.set_same _ _ _ _)) (.nil _)))
      obtain ⟨tr, c', h2, h3, h4⟩ := ih _ _ (LConf.set_same _ _ _ _)
        (key h1 (by simp) hf (LConf.set_same _ _ _ _))
      exact ⟨_, c', h1.append h2, by simpa using h3, h4⟩
  | write l sc k ih =>
    intro c h hf
    cases hp : c.poisoned l with
    | true => exact ⟨_, _, .cons (.poisonWrite h (hf l) hp) (.nil _), by simp, by rw [LConf.set_same]; trivial⟩
    | false =>
      obtain ⟨tr1, c1, g1, g2, g3⟩ := finish_sec sc k t _ (LConf.set_same c t _ c.mem)
      have h1 : LRuns c _ _ := .cons (.lockWrite h (hf l) hp) g1
      have g2' : ∀ x ∈ (t, c.mem, (c.set t (.sec l sc k) c.mem).mem) :: tr1, x.1 = t := by
        simpa using g2
      rcases g3 with ⟨r, g3⟩ | g3
      · obtain ⟨tr, c', h2, h3, h4⟩ := ih r _ g3 (key h1 g2' hf g3)
        refine ⟨_, c', h1.append h2, fun x hx => ?_, h4⟩
        rcases List.mem_append.mp hx with hx | hx
        · exact g2' x hx
        · exact h3 x hx
      · exact ⟨_, c1, h1, g2', by rw [g3]; trivial⟩

end Fuse
