import Verif.PropWhole

/-!
# Several programs at once on a served filesystem: property C77

The programs share a client (as the programs of a machine share its kernel), with one table of descriptors.  A program
decides about its next call when it has the answer to the one before.  The messages of the calls interleave in any way.
-/

namespace Fuse

namespace Spec

/-- A program: it is over, or it makes a call and goes on according to the answer. -/
inductive Program
  | stop
  | call (c : FileCall) (k : FileAns → Program)

/-- The path in a call. -/
def FileCall.path : FileCall → List Bytes
  | .openAt path | .stat path | .openDir path | .readLink path | .getXattr path _ _ | .listXattr path _ | .statFs path => path
  | .read _ _ _ | .write _ _ _ | .close _ | .readDir _ _ | .closeDir _ | .forget _ _ => []

/-- A call about the node at which its path starts. -/
def FileCall.here : FileCall → FileCall
  | .openAt _ => .openAt []
  | .stat _ => .stat []
  | .openDir _ => .openDir []
  | .readLink _ => .readLink []
  | .getXattr _ name size => .getXattr [] name size
  | .listXattr _ size => .listXattr [] size
  | .statFs _ => .statFs []
  | c => c

/-- What a program is doing: nothing any more, or a call, for which it has got to a node and has the rest of a path to
go. -/
inductive Job
  | stop
  | busy (call : FileCall) (node : UInt64) (rest : List Bytes) (k : FileAns → Program)

/-- The beginning of the next call. -/
def Program.job : Program → Job
  | .stop => .stop
  | .call c k => .busy c rootNode c.path k

/-- Whether a program has got to a node. -/
def Job.at_ (node : UInt64) : Job → Bool
  | .stop => false
  | .busy _ node' _ _ => node' == node

/-- The client, what the programs are doing, and the calls that are over, with their answers, in the order in which they
ended. -/
structure Shared where
  client : Client
  jobs : List Job
  past : List (Nat × FileCall × FileAns)

/-- The beginning. -/
def Shared.start (programs : List Program) : Shared := ⟨⟨0, [], [], fun _ => 0⟩, programs.map Program.job, []⟩

/-- A call of program `t` is over. -/
def Shared.answer (x : Shared) (t : Nat) (call : FileCall) (k : FileAns → Program) (a : FileAns) : Shared :=
  { x with jobs := x.jobs.set t (k a).job, past := x.past ++ [(t, call, a)] }

/-- Program `t` gets a turn: at most one message and its reply.  Nodes to which some program has got are not
forgotten. -/
def Shared.turn (cfg : ClientConfig) (x : Shared) (t : Nat) : Talk Shared :=
  match x.jobs[t]? with
  | some (.busy call node (name :: rest) k) => do
    match ← x.client.walk cfg node [name] with
    | (.ok next, c) => return { x with client := c, jobs := x.jobs.set t (.busy call next rest k) }
    | (.error a, c) => return { x with client := c }.answer t call k a
  | some (.busy call node [] k) =>
    if call.forgets.any (fun v => x.jobs.any (Job.at_ v)) then return x.answer t call k .done
    else do
      let (a, c) ← x.client.callFrom cfg node call.here
      return { x with client := c }.answer t call k a
  | _ => return x

/-- Turns of programs in some order. -/
def Shared.turns (cfg : ClientConfig) : Shared → List Nat → Talk Shared
  | x, [] => return x
  | x, t :: ts => do (← x.turn cfg t).turns cfg ts

/-- The calls a program made, with their answers. -/
def Shared.pastOf (x : Shared) (t : Nat) : List (FileCall × FileAns) :=
  (x.past.filter (·.1 = t)).map (·.2)

/-- What a program does, and what is left of it. -/
inductive Program.Leads : Program → List (FileCall × FileAns) → Program → Prop
  | nil (p : Program) : p.Leads [] p
  | cons {c k a l q} (h : (k a).Leads l q) : (Program.call c k).Leads ((c, a) :: l) q

/-- All calls a program may make are as required. -/
def Program.Valid : Program → Prop
  | .stop => True
  | .call c k => c.Valid ∧ ∀ a, (k a).Valid

/-- All calls a program may make fit into the buffer of a server that announces `maxWrite`. -/
def Program.Fits (maxWrite : Nat) : Program → Prop
  | .stop => True
  | .call c k => c.Fits maxWrite ∧ ∀ a, (k a).Fits maxWrite

/-- What programs can expect after turns `ts`, if `content` was there before and `content'` is there now.  Every call has
returned what it would return if the calls were made on the filesystem itself one after the other, in the order in which
they ended, and the contents are as these calls leave them.  Each program has got on with its calls in order, and with
each of its turns: when it has had as many turns as its answered calls and the next one take at most, the next one is
answered too. -/
def Shared.Fair (tree : Tree) (os : OsErrors) (content : NodeId → Bytes) (programs : List Program) (ts : List Nat)
    (x : Shared) (content' : NodeId → Bytes) : Prop :=
  let plain := tree.calls os (x.past.map (·.2.1)) ⟨content, [], []⟩
  x.past.map (·.2.2) = plain.1 ∧ content' = plain.2.content ∧
  ∀ t program, programs[t]? = some program → ∃ rest, program.Leads (x.pastOf t) rest ∧
    ∀ c k, rest = .call c k → ts.count t < ((x.pastOf t).map (·.1.cost)).sum + c.cost

end Spec

open Spec

section
variable {tree : Tree} {layout : FuseLayout} {os : OsErrors} {checks : Bool} {alloc : ReaddirRequest → Nat}
variable {cfg : ClientConfig}

local notation "FS" => tree.served layout os checks alloc

theorem callFrom_here {i : NodeId} {p : Plain} {call : FileCall}
    (h : tree.resolve os.notDirectory.val NodeId.root call.path = .ok i) :
    tree.callFrom os i p call.here = tree.call os p call := by
  unfold Tree.call
  cases call <;> simp only [FileCall.path] at h <;>
    simp only [FileCall.here, Tree.callFrom, Tree.query, h] <;> rfl

theorem call_unresolved {e : Int32} {p : Plain} {call : FileCall}
    (h : tree.resolve os.notDirectory.val NodeId.root call.path = .error e) : tree.call os p call = (.error e, p) := by
  unfold Tree.call
  cases call <;> simp only [FileCall.path] at h <;> first
    | (simp only [Tree.callFrom, Tree.query, h]; done)
    | (cases h; done)

theorem resolve_cons (nd : Int32) (i : NodeId) (name : Bytes) (rest : List Bytes) :
    tree.resolve nd i (name :: rest) = (tree.resolve nd i [name]).bind fun j => tree.resolve nd j rest := by
  rw [Tree.resolve, Tree.resolve]
  cases tree.dirs i with
  | none => rfl
  | some es => cases h : es.lookup name <;> simp only [h] <;> rfl

theorem calls_append (cs : List FileCall) (call : FileCall) (p : Plain) :
    tree.calls os (cs ++ [call]) p =
      ((tree.calls os cs p).1 ++ [(tree.call os (tree.calls os cs p).2 call).1], (tree.call os (tree.calls os cs p).2 call).2) := by
  induction cs generalizing p with
  | nil => rfl
  | cons c cs ih => simp only [List.cons_append, Tree.calls, ih]

theorem Agree.repin {pin pin' : NodeId → Prop} {c : Client} {s : Vfs NodeId NodeId NodeId TreeWorld} {p : Plain}
    (h : Agree pin c s p) (h' : ∀ i, pin' i → ∃ x, s.nodes i = some x) : Agree pin' c s p :=
  ⟨h.content, h.root, h', h.nodes, h.held, h.zero, h.files, h.dirs, h.next⟩

/-- The nodes to which programs have got. -/
def Pinned (jobs : List Job) (i : NodeId) : Prop := ∃ j ∈ jobs, j.at_ i.val = true

/-- What is true of a job: the rest of its path leads from its node where its path leads from the root. -/
def JobOk (tree : Tree) (os : OsErrors) : Job → Prop
  | .stop => True
  | .busy call node rest k => call.Valid ∧ (∀ a, (k a).Valid) ∧
    (∀ name ∈ rest, NameOk name ∧ name.length + 41 < 2 ^ 32) ∧ ∃ i : NodeId, node = i.val ∧
      tree.resolve os.notDirectory.val NodeId.root call.path = tree.resolve os.notDirectory.val i rest

/-- What is always true: client and library agree about a filesystem, which is the one the calls that are over have made. -/
structure ShareInv (tree : Tree) (os : OsErrors) (p0 : Plain) (n : Nat) (x : Shared)
    (s : Vfs NodeId NodeId NodeId TreeWorld) (p : Plain) : Prop where
  agree : Agree (Pinned x.jobs) x.client s p
  jobs : ∀ j ∈ x.jobs, JobOk tree os j
  past : tree.calls os (x.past.map (·.2.1)) p0 = (x.past.map (·.2.2), p)
  sent : x.client.sent ≤ n

theorem path_valid {call : FileCall} (h : call.Valid) : ∀ name ∈ call.path, NameOk name ∧ name.length + 41 < 2 ^ 32 := by
  cases call <;> first
    | exact h
    | exact h.1
    | exact fun _ hn => nomatch hn

theorem here_valid {call : FileCall} (h : call.Valid) : call.here.Valid := by
  cases call <;> first
    | exact h
    | exact ⟨fun _ hn => absurd hn List.not_mem_nil, h.2⟩
    | exact fun _ hn => absurd hn List.not_mem_nil

theorem here_cost (call : FileCall) : call.here.cost = 1 := by cases call <;> rfl

theorem cost_eq (call : FileCall) : call.cost = call.path.length + 1 := by cases call <;> rfl

theorem job_ok {p : Program} (h : p.Valid) : JobOk tree os p.job := by
  cases p with
  | stop => trivial
  | call c k => exact ⟨h.1, h.2, path_valid h.1, NodeId.root, rfl, rfl⟩

theorem job_at {p : Program} {i : NodeId} (h : p.job.at_ i.val = true) : i = NodeId.root := by
  cases p with
  | stop => cases h
  | call c k => exact Subtype.ext (beq_iff_eq.mp h).symm

theorem pinned_set {jobs : List Job} {t : Nat} {j : Job} {i : NodeId} (h : Pinned (jobs.set t j) i) :
    Pinned jobs i ∨ j.at_ i.val = true := by
  obtain ⟨j', h1, h2⟩ := h
  rcases List.mem_or_eq_of_mem_set h1 with h3 | rfl
  · exact .inl ⟨j', h3, h2⟩
  · exact .inr h2

/-- A call is over. -/
theorem ShareInv.answered {p0 p p' : Plain} {n n' : Nat} {x : Shared}
    {s s' : Vfs NodeId NodeId NodeId TreeWorld} (h : ShareInv tree os p0 n x s p) {t : Nat} {call : FileCall}
    {k : FileAns → Program} (hk : ∀ a, (k a).Valid) {c : Client} (ha : Agree (Pinned x.jobs) c s' p') (hn : c.sent ≤ n') {a : FileAns}
    (hc : tree.call os p call = (a, p')) :
    ShareInv tree os p0 n' ({ x with client := c }.answer t call k a) s' p' where
  agree := ha.repin fun i hi => by
    rcases pinned_set hi with h1 | h1
    · exact ha.pins i h1
    · rw [job_at h1]; exact ha.root
  jobs := fun j hj => by
    rcases List.mem_or_eq_of_mem_set hj with h1 | rfl
    · exact h.jobs j h1
    · exact job_ok (hk a)
  past := by
    show tree.calls os ((x.past ++ [(t, call, a)]).map _) p0 = ((x.past ++ [(t, call, a)]).map _, p')
    rw [List.map_append, List.map_append, List.map_singleton, List.map_singleton, calls_append, h.past]
    show (_ ++ [(tree.call os p call).1], (tree.call os p call).2) = _
    rw [hc]
  sent := hn

theorem turn_inv (h9 : 9 ≤ layout.versionMinor) (hnames : tree.Ok) (hal : ∀ q, alloc q % 8 = 0) (hid : ∀ n, cfg.ids n ≠ 0)
    {p0 p : Plain} {n : Nat} {x : Shared} {s : Vfs NodeId NodeId NodeId TreeWorld}
    (h : ShareInv tree os p0 n x s p) (hn : n + 2 < 2 ^ 64) (t : Nat) :
    ∃ x' s' p', (x.turn cfg t).run (FS).ask (some s) = (x', some s') ∧ ShareInv tree os p0 (n + 1) x' s' p' := by
  have hsent := h.sent
  unfold Shared.turn
  split
  · rename_i call node name rest k hj
    have hmem := List.mem_of_getElem? hj
    obtain ⟨h1, h2, h3, i, rfl, h4⟩ := h.jobs _ hmem
    obtain ⟨c', s', a1, a2, a3⟩ := walk_agrees (tree := tree) (os := os) (checks := checks) (alloc := alloc) h9 hid [name]
      (fun m hm => h3 m (by cases List.mem_singleton.1 hm; exact List.mem_cons_self)) i h.agree
      (h.agree.pins i ⟨_, hmem, by simp [Job.at_]⟩) (by simp only [List.length_singleton]; omega)
    rw [resolve_cons] at h4
    simp only [List.length_singleton] at a2
    cases hr : tree.resolve os.notDirectory.val i [name] with
    | error e =>
      rw [hr] at a3 h4
      simp only at a3
      rw [Talk.run_bind, a3]
      exact ⟨_, s', p, rfl, h.answered h2 a1 (by omega) (call_unresolved h4)⟩
    | ok j =>
      rw [hr] at a3 h4
      simp only at a3
      obtain ⟨a3, y, hy⟩ := a3
      rw [Talk.run_bind, a3]
      refine ⟨_, s', p, rfl, a1.repin fun i' hi' => ?_, fun j' hj' => ?_, h.past, by show c'.sent ≤ _; omega⟩
      · rcases pinned_set hi' with h5 | h5
        · exact a1.pins i' h5
        · have : j.val = i'.val := by simpa [Job.at_] using h5
          exact ⟨y, by rw [← Subtype.ext this]; exact hy⟩
      · rcases List.mem_or_eq_of_mem_set hj' with h5 | rfl
        · exact h.jobs j' h5
        · exact ⟨h1, h2, fun m hm => h3 m (List.mem_cons_of_mem _ hm), j, rfl, h4⟩
  · rename_i call node k hj
    have hmem := List.mem_of_getElem? hj
    obtain ⟨h1, h2, h3, i, rfl, h4⟩ := h.jobs _ hmem
    rw [show tree.resolve os.notDirectory.val i [] = .ok i from rfl] at h4
    split
    · rename_i hf
      have hc : tree.call os p call = (.done, p) := by
        cases call <;> first
          | rfl
          | (cases hf; done)
      exact ⟨_, s, p, rfl, h.answered (t := t) h2 h.agree (show x.client.sent ≤ n + 1 by omega) hc⟩
    · rename_i hf
      obtain ⟨c', s', a1, a2, a3⟩ := callFrom_agrees (tree := tree) (os := os) (checks := checks) (alloc := alloc) i
        (h.agree.pins i ⟨_, hmem, by simp [Job.at_]⟩) h9 hnames hal hid call.here (here_valid h1) h.agree
        (by rw [here_cost]; omega) (fun j hj' ⟨job, hp, hp'⟩ => hf (by
          have : call.forgets = some j.val := by cases call <;> first | exact hj' | (cases hj'; done)
          rw [this]
          simpa using ⟨job, hp, hp'⟩))
      rw [here_cost] at a2
      rw [callFrom_here h4] at a1 a3
      rw [Talk.run_bind, a3]
      exact ⟨_, s', _, rfl, h.answered h2 a1 (by omega) rfl⟩
  · exact ⟨x, s, p, rfl, h.agree, h.jobs, h.past, by omega⟩

theorem turns_inv (h9 : 9 ≤ layout.versionMinor) (hnames : tree.Ok) (hal : ∀ q, alloc q % 8 = 0) (hid : ∀ n, cfg.ids n ≠ 0)
    {p0 p : Plain} {n : Nat} {x : Shared} {s : Vfs NodeId NodeId NodeId TreeWorld}
    (h : ShareInv tree os p0 n x s p) (ts : List Nat) (hn : n + ts.length + 1 < 2 ^ 64) :
    ∃ x' s' p', (x.turns cfg ts).run (FS).ask (some s) = (x', some s') ∧ ShareInv tree os p0 (n + ts.length) x' s' p' := by
  induction ts generalizing n x s p with
  | nil => exact ⟨x, s, p, rfl, h⟩
  | cons t ts ih =>
    rw [List.length_cons] at hn
    obtain ⟨x', s', p', e1, h'⟩ := turn_inv (checks := checks) (alloc := alloc) (layout := layout) h9 hnames hal hid h (by omega) t
    obtain ⟨x2, s2, p2, e2, h2⟩ := ih h' (by omega)
    exact ⟨x2, s2, p2, by rw [Shared.turns, Talk.run_bind, e1]; exact e2, by rw [List.length_cons, show n + (ts.length + 1) = n + 1 + ts.length by omega]; exact h2⟩

/-- What a program is doing after `n` turns, if `q` is left of it. -/
def Doing (n : Nat) (past : List (FileCall × FileAns)) (job : Option Job) : Program → Prop
  | .stop => job = some .stop
  | .call c k => ∃ node rest, job = some (.busy c node rest k) ∧
    n + rest.length ≤ (past.map (·.1.cost)).sum + c.path.length

/-- What is always true of one program. -/
structure RunsInv (program : Program) (n : Nat) (x : Shared) (t : Nat) (q : Program) : Prop where
  leads : program.Leads (x.pastOf t) q
  job : Doing n (x.pastOf t) x.jobs[t]? q

theorem Program.Leads.snoc {p : Program} {l : List (FileCall × FileAns)} {c : FileCall} {k : FileAns → Program}
    (h : p.Leads l (.call c k)) (a : FileAns) : p.Leads (l ++ [(c, a)]) (k a) := by
  generalize hq : Program.call c k = q at h
  induction h with
  | nil p => cases hq; exact .cons (.nil _)
  | cons h ih => exact .cons (ih hq)

theorem pastOf_answer (x : Shared) (t u : Nat) (call : FileCall) (k : FileAns → Program) (a : FileAns) :
    (x.answer t call k a).pastOf u = x.pastOf u ++ if t = u then [(call, a)] else [] := by
  show ((x.past ++ [(t, call, a)]).filter _).map _ = _
  rw [List.filter_append, List.map_append]
  by_cases h : t = u <;> simp [h, Shared.pastOf]

/-- Nothing happens to program `u` when another one gets a turn. -/
theorem RunsInv.other {program q : Program} {n : Nat} {x y : Shared} {u : Nat} (h : RunsInv program n x u q)
    (hp : y.pastOf u = x.pastOf u) (hj : y.jobs[u]? = x.jobs[u]?) : RunsInv program n y u q :=
  ⟨by rw [hp]; exact h.leads, by have := h.job; rw [← hj, ← hp] at this; exact this⟩

theorem turn_runs {S : Type} (ask : Bytes → S → List Bytes × S) {program q : Program} {n : Nat} {x : Shared} {t u : Nat} (s : S)
    (h : RunsInv program n x u q) :
    ∃ q', RunsInv program (if t = u then n + 1 else n) ((x.turn cfg t).run ask s).1 u q' := by
  by_cases htu : t = u
  · subst htu
    rw [if_pos rfl]
    have hlen : ∀ j, x.jobs[t]? = some j → t < x.jobs.length := fun j hj => (List.getElem?_eq_some_iff.mp hj).1
    have over : ∀ (c : Client) (call : FileCall) (k : FileAns → Program) (a : FileAns) (node : UInt64) (rest : List Bytes),
        q = .call call k → x.jobs[t]? = some (.busy call node rest k) →
        n + rest.length ≤ ((x.pastOf t).map (·.1.cost)).sum + call.path.length →
        ∃ q', RunsInv program (n + 1) ({ x with client := c }.answer t call k a) t q' := by
      intro c call k a node rest hq hj hn
      refine ⟨k a, ?_, ?_⟩
      · rw [pastOf_answer, if_pos rfl]
        exact Program.Leads.snoc (hq ▸ h.leads) a
      · have hset : ({ x with client := c }.answer t call k a).jobs[t]? = some (k a).job := by
          show (x.jobs.set t _)[t]? = _
          rw [List.getElem?_set_self (hlen _ hj)]
        rw [hset, pastOf_answer, if_pos rfl]
        cases k a with
        | stop => rfl
        | call c' k' =>
          refine ⟨_, _, rfl, ?_⟩
          rw [List.map_append, List.sum_append]
          show n + 1 + _ ≤ ((x.pastOf t).map _).sum + (call.cost + 0) + _
          rw [cost_eq]
          omega
    unfold Shared.turn
    have hjob := h.job
    split
    · rename_i call node name rest k hj
      cases q with
      | stop => rw [hj] at hjob; cases hjob
      | call c' k' =>
        obtain ⟨node', rest', hj', hn⟩ := hjob
        rw [hj] at hj'
        cases hj'
        rw [Talk.run_bind]
        split
        · rename_i next c _
          refine ⟨.call call k, h.leads, next, rest, ?_, ?_⟩
          · show (x.jobs.set t _)[t]? = _
            rw [List.getElem?_set_self (hlen _ hj)]
          · rw [List.length_cons] at hn
            show n + 1 + rest.length ≤ ((x.pastOf t).map _).sum + _
            omega
        · exact over _ call k _ node _ rfl hj hn
    · rename_i call node k hj
      cases q with
      | stop => rw [hj] at hjob; cases hjob
      | call c' k' =>
        obtain ⟨node', rest', hj', hn⟩ := hjob
        rw [hj] at hj'
        cases hj'
        split
        · exact over x.client call k _ node _ rfl hj hn
        · rw [Talk.run_bind]
          exact over _ call k _ node _ rfl hj hn
    · rename_i h1 h2
      cases q with
      | stop => exact ⟨.stop, h.leads, hjob⟩
      | call c k =>
        obtain ⟨node, rest, hj, hn⟩ := hjob
        cases rest with
        | nil => exact absurd hj (h2 _ _ _)
        | cons name rest => exact absurd hj (h1 _ _ _ _ _)
  · rw [if_neg htu]
    have hset : ∀ j : Job, (x.jobs.set t j)[u]? = x.jobs[u]? := fun j => List.getElem?_set_ne htu
    refine ⟨q, ?_⟩
    unfold Shared.turn
    split
    · rw [Talk.run_bind]
      split
      · exact h.other rfl (hset _)
      · exact h.other (by
          show Shared.pastOf (Shared.answer _ _ _ _ _) u = _
          rw [pastOf_answer, if_neg htu, List.append_nil]; rfl) (hset _)
    · split
      · exact h.other (by
          show Shared.pastOf (Shared.answer _ _ _ _ _) u = _
          rw [pastOf_answer, if_neg htu, List.append_nil]) (hset _)
      · rw [Talk.run_bind]
        exact h.other (by
          show Shared.pastOf (Shared.answer _ _ _ _ _) u = _
          rw [pastOf_answer, if_neg htu, List.append_nil]; rfl) (hset _)
    · exact h

theorem turns_run {S : Type} (ask : Bytes → S → List Bytes × S) {program q : Program} {n : Nat} {x : Shared} {u : Nat} (s : S)
    (h : RunsInv program n x u q) (ts : List Nat) :
    ∃ q', RunsInv program (n + ts.count u) ((x.turns cfg ts).run ask s).1 u q' := by
  induction ts generalizing n x q s with
  | nil => exact ⟨q, h⟩
  | cons t ts ih =>
    obtain ⟨q1, h1⟩ := turn_runs (cfg := cfg) ask (t := t) s h
    obtain ⟨q2, h2⟩ := ih ((x.turn cfg t).run ask s).2 h1
    refine ⟨q2, ?_⟩
    rw [Shared.turns, Talk.run_bind]
    rw [List.count_cons]
    by_cases htu : t = u
    · rw [if_pos htu] at h2
      rw [if_pos (by simpa using htu), show n + (ts.count u + 1) = n + 1 + ts.count u by omega]
      exact h2
    · rw [if_neg htu] at h2
      rw [if_neg (by simpa using htu), Nat.add_zero]
      exact h2

theorem start_runs {programs : List Program} {t : Nat} {program : Program}
    (h : programs[t]? = some program) : RunsInv program 0 (Shared.start programs) t program := by
  refine ⟨.nil _, ?_⟩
  have hj : (Shared.start programs).jobs[t]? = some program.job := by
    show (programs.map Program.job)[t]? = _
    rw [List.getElem?_map, h]; rfl
  rw [hj]
  cases program with
  | stop => rfl
  | call c k => exact ⟨_, _, rfl, by show 0 + _ ≤ 0 + _; omega⟩

/-- The beginning is as it should be. -/
theorem share_start {content : NodeId → Bytes} {programs : List Program} (hv : ∀ p ∈ programs, p.Valid) (heard : List Bytes) :
    ShareInv tree os ⟨content, [], []⟩ 0 (Shared.start programs) (Vfs.new NodeId.root (content, heard)) ⟨content, [], []⟩ := by
  refine ⟨(agree_new content heard).repin ?_, ?_, rfl, Nat.le_refl 0⟩
  · rintro i ⟨j, hj, hi⟩
    obtain ⟨p, hp, rfl⟩ := List.mem_map.mp hj
    rw [job_at hi]
    exact (agree_new content heard).root
  · intro j hj
    obtain ⟨p, hp, rfl⟩ := List.mem_map.mp hj
    exact job_ok (hv p hp)

theorem share_fair (h9 : 9 ≤ layout.versionMinor) (hnames : tree.Ok) (hal : ∀ q, alloc q % 8 = 0) (hid : ∀ n, cfg.ids n ≠ 0)
    (content : NodeId → Bytes) {programs : List Program} (hv : ∀ p ∈ programs, p.Valid) (heard : List Bytes)
    (ts : List Nat) (hs : ts.length + 1 < 2 ^ 64) :
    ∃ x s, ((Shared.start programs).turns cfg ts).run (FS).ask (some (Vfs.new NodeId.root (content, heard))) = (x, some s) ∧
      x.Fair tree os content programs ts s.world.1 := by
  obtain ⟨x, s', p', e, h1⟩ := turns_inv (cfg := cfg) (layout := layout) (checks := checks) (alloc := alloc) h9 hnames hal
    hid (share_start hv heard) ts (by omega)
  refine ⟨x, s', e, by rw [h1.past], by rw [h1.past]; exact h1.agree.content, fun t program hprog => ?_⟩
  obtain ⟨q, h2⟩ := turns_run (cfg := cfg) (FS).ask (some (Vfs.new NodeId.root (content, heard))) (start_runs hprog) ts
  rw [e] at h2
  have h2 : RunsInv program (0 + ts.count t) x t q := h2
  refine ⟨q, h2.leads, ?_⟩
  rintro c k rfl
  obtain ⟨node, rest, _, h3⟩ := h2.job
  rw [cost_eq]
  omega

end

/-- C77: several programs use a served filesystem at the same time, with their messages interleaved in any way.  Every
call returns what it would return if the calls were made on the filesystem itself one after the other, in the order in
which they end, and the contents are left as these calls leave them.  No program waits for another. -/
theorem C77 (tree : Tree) (layout : FuseLayout) (os : OsErrors) (checks : Bool) (alloc : ReaddirRequest → Nat)
    (hal : ∀ q, alloc q % 8 = 0) (cfg : ClientConfig) (h9 : 9 ≤ layout.versionMinor) (hnames : tree.Ok)
    (hid : ∀ n, cfg.ids n ≠ 0) (content : NodeId → Bytes) (programs : List Program) (hv : ∀ p ∈ programs, p.Valid)
    (ts : List Nat) (hs : ts.length + 1 < 2 ^ 64) :
    ∃ x s, ((Shared.start programs).turns cfg ts).run (tree.served layout os checks alloc).ask
      (some (Vfs.new NodeId.root (content, []))) = (x, some s) ∧ x.Fair tree os content programs ts s.world.1 :=
  share_fair h9 hnames hal hid content hv [] ts hs

/-! ## Through a whole mount -/

section
variable {cfg : ClientConfig} {n : Nat}

/-- A job whose messages fit. -/
def JobFits (maxWrite : Nat) : Job → Prop
  | .stop => True
  | .busy call _ rest k => (call.Valid ∧ call.Fits maxWrite) ∧ (∀ a, (k a).Valid ∧ (k a).Fits maxWrite) ∧
    ∀ name ∈ rest, name.length ≤ 8151

theorem job_fits {maxWrite : Nat} {p : Program} (hv : p.Valid) (hf : p.Fits maxWrite) : JobFits maxWrite p.job := by
  cases p with
  | stop => trivial
  | call c k =>
    refine ⟨⟨hv.1, hf.1⟩, fun a => ⟨hv.2 a, hf.2 a⟩, ?_⟩
    have := hf.1
    cases c <;> first
      | exact this
      | exact this.1
      | exact fun _ hn => absurd hn List.not_mem_nil

theorem here_fits {maxWrite : Nat} {c : FileCall} (h : c.Fits maxWrite) : c.here.Fits maxWrite := by
  cases c <;> first
    | exact h
    | exact ⟨fun _ hn => absurd hn List.not_mem_nil, h.2⟩
    | exact fun _ hn => absurd hn List.not_mem_nil

/-- What is true of all that may come of a conversation. -/
def Spec.Talk.Ends {α : Type} (P : α → Prop) : Talk α → Prop
  | .done a => P a
  | .say _ k => ∀ out, (k out).Ends P

theorem Spec.Talk.Ends.bind {α β : Type} {P : α → Prop} {Q : β → Prop} {t : Talk α} {f : α → Talk β} (h : t.Ends P)
    (hf : ∀ a, P a → (f a).Ends Q) : (t >>= f : Talk β).Ends Q := by
  induction t with
  | done a => exact hf a h
  | say m k ih => exact fun out => ih out (h out)

theorem Spec.Talk.ends_true {α : Type} (t : Talk α) : t.Ends fun _ => True := by
  induction t with
  | done a => trivial
  | say m k ih => exact fun out => ih out

theorem Spec.Talk.All.then {α β : Type} {R : Bytes → Prop} {P : α → Prop} {t : Talk α} {f : α → Talk β} (h : t.All R)
    (he : t.Ends P) (hf : ∀ a, P a → (f a).All R) : (t >>= f : Talk β).All R := by
  induction t with
  | done a => exact hf a he
  | say m k ih => exact ⟨h.1, fun out => ih out (h.2 out) (he out)⟩

theorem turn_ends {maxWrite : Nat} {x : Shared} (h : ∀ j ∈ x.jobs, JobFits maxWrite j) (t : Nat) :
    (x.turn cfg t).Ends fun y => ∀ j ∈ y.jobs, JobFits maxWrite j := by
  have set : ∀ (jobs : List Job) (j : Job), (∀ j ∈ jobs, JobFits maxWrite j) → JobFits maxWrite j →
      ∀ j' ∈ jobs.set t j, JobFits maxWrite j' := by
    intro jobs j h1 h2 j' hj'
    rcases List.mem_or_eq_of_mem_set hj' with h3 | rfl
    · exact h1 _ h3
    · exact h2
  unfold Shared.turn
  split
  · rename_i call node name rest k hj
    obtain ⟨h1, h2, h3⟩ := h _ (List.mem_of_getElem? hj)
    refine (Talk.ends_true _).bind fun r _ => ?_
    split
    · exact set _ _ h ⟨h1, h2, fun m hm => h3 m (List.mem_cons_of_mem _ hm)⟩
    · exact set _ _ h (job_fits (h2 _).1 (h2 _).2)
  · rename_i call node k hj
    obtain ⟨h1, h2, h3⟩ := h _ (List.mem_of_getElem? hj)
    split
    · exact set _ _ h (job_fits (h2 _).1 (h2 _).2)
    · exact (Talk.ends_true _).bind fun r _ => set _ _ h (job_fits (h2 _).1 (h2 _).2)
  · exact h

theorem turn_all (hid : ∀ i, cfg.ids i ≠ 0) {maxWrite : Nat} (hn : max (maxWrite + 4096) 8192 ≤ n) {x : Shared}
    (h : ∀ j ∈ x.jobs, JobFits maxWrite j) (t : Nat) : (x.turn cfg t).All (Receivable n) := by
  unfold Shared.turn
  split
  · rename_i call node name rest k hj
    obtain ⟨h1, h2, h3⟩ := h _ (List.mem_of_getElem? hj)
    refine (walk_all hid (by omega) [name] (fun m hm => h3 m (by cases List.mem_singleton.1 hm; exact List.mem_cons_self))
      x.client node).bind fun r => ?_
    split <;> exact trivial
  · rename_i call node k hj
    obtain ⟨h1, h2, h3⟩ := h _ (List.mem_of_getElem? hj)
    split
    · exact trivial
    · exact (callFrom_all hid hn call.here (here_valid h1.1) (here_fits h1.2) x.client node).bind fun r => trivial
  · exact trivial

theorem turns_all (hid : ∀ i, cfg.ids i ≠ 0) {maxWrite : Nat} (hn : max (maxWrite + 4096) 8192 ≤ n) (ts : List Nat) {x : Shared}
    (h : ∀ j ∈ x.jobs, JobFits maxWrite j) : (x.turns cfg ts).All (Receivable n) := by
  induction ts generalizing x with
  | nil => exact trivial
  | cons t ts ih => exact (turn_all hid hn h t).then (turn_ends h t) fun y hy => ih hy

end

/-- C77: the same through a whole mount.  A server made with the builder and any options accepts the first offer of major
version 7 it is made, after any number of others, and serves the programs until they leave, for every buffer of at least
the length the connection asks for. -/
theorem C77_mount (tree : Tree) (os : OsErrors) (checks : Bool) (alloc : ReaddirRequest → Nat) (hal : ∀ q, alloc q % 8 = 0)
    (hnames : tree.Ok) (content : NodeId → Bytes) (server : FuseServer) (cfg : ClientConfig)
    (hid : ∀ n, cfg.ids n ≠ 0) (newer : List Bytes) (init : Bytes)
    (hnewer : ∀ m ∈ newer, m.length ≤ 8192 ∧ IsFuseInit m ∧ u32At m 40 ≠ 7)
    (hinit : init.length ≤ 8192 ∧ IsFuseInit init ∧ u32At init 40 = 7 ∧ 9 ≤ u32At init 44) (programs : List Program)
    (hv : ∀ p ∈ programs, p.Valid) (hf : ∀ p ∈ programs, p.Fits server.initReply.maxWrite.toNat)
    (ts : List Nat) (hs : ts.length + 1 < 2 ^ 64) :
    ∃ conn w, server.Connects (MountWorld.socket _)
        (content, [], fun _ => Client.handshake init (fun _ => (Shared.start programs).turns cfg ts) newer) (.ok conn, w) ∧
      ∀ buf : Bytes, conn.recvBufLen ≤ buf.length →
        ∃ content' heard k x, ∃ s : Vfs NodeId NodeId NodeId (MountWorld (Option Shared)),
          LoopReturns (tree.mounted _ conn os checks alloc).serveStep (buf, Vfs.new NodeId.root w) (.ok (), s) ∧
          s.world = (content', heard, k) ∧ k heard = .done (some x) ∧ x.Fair tree os content programs ts content' :=
  mount_serves tree os checks alloc content server newer init hnewer hinit _
    (fun n hn => turns_all hid hn ts fun j hj => by
      obtain ⟨p, hp, rfl⟩ := List.mem_map.mp hj
      exact job_fits (hv p hp) (hf p hp))
    (fun x content' => x.Fair tree os content programs ts content')
    (fun layout p h9 => share_fair h9 hnames hal hid content hv [p] ts hs)

/-! ## A concrete case -/

namespace Stack

/-- Writes to `/f`, and closes it. -/
def writer : Program :=
  .call (.openAt [[0x66]]) fun a =>
    match a with
    | .fd n => .call (.write n 0 [7]) fun _ => .call (.close n) fun _ => .stop
    | _ => .stop

/-- Reads from `/d/g`, the same file, until there is something new. -/
def reader : Program :=
  .call (.openAt [[0x64], [0x67]]) fun a =>
    match a with
    | .fd n => .call (.read n 0 1) fun b =>
      if b = .data [1] then .call (.read n 0 9) fun _ => .stop else .stop
    | _ => .stop

/-- Wants `/d` to be forgotten. -/
def forgetter : Program := .call (.forget 5 1) fun _ => .call (.forget 5 1) fun _ => .stop

theorem programs_valid : ∀ p ∈ [writer, reader, forgetter], p.Valid := by
  intro p hp
  simp only [List.mem_cons, List.not_mem_nil, or_false] at hp
  rcases hp with rfl | rfl | rfl
  · refine ⟨by simp [FileCall.Valid, NameOk], fun a => ?_⟩
    cases a <;> first
      | exact trivial
      | exact ⟨by simp [FileCall.Valid], fun _ => ⟨trivial, fun _ => trivial⟩⟩
  · refine ⟨by simp [FileCall.Valid, NameOk], fun a => ?_⟩
    cases a <;> first
      | exact trivial
      | (refine ⟨by simp [FileCall.Valid], fun b => ?_⟩
         dsimp only
         split
         · exact ⟨by simp [FileCall.Valid], fun _ => trivial⟩
         · exact trivial)
  · exact ⟨by simp [FileCall.Valid], fun _ => ⟨by simp [FileCall.Valid], fun _ => trivial⟩⟩

/-- The reader has got to `/d` when the forgetter gets its first turn, and has opened the file when it gets the second;
the reader reads before and after the write. -/
def order : List Nat := [1, 0, 2, 1, 1, 0, 2, 1, 0, 1, 0, 1]

/-- Everything after these turns. -/
def together : Shared :=
  (((Shared.start [writer, reader, forgetter]).turns ⟨fun _ => 7, 0, 0, 0⟩ order).run
    (tree.served ⟨31, 0⟩ OsErrors.linux false fun _ => 8).ask (some (Vfs.new NodeId.root (content, [])))).1

/-- `C77` for these programs: as if one call had been made after the other. -/
example : together.past.map (·.2.2) =
      (tree.calls OsErrors.linux (together.past.map (·.2.1)) ⟨content, [], []⟩).1 ∧
    ∃ rest, reader.Leads (together.pastOf 1) rest := by
  obtain ⟨x, s, e, h1, _, h3⟩ := C77 tree ⟨31, 0⟩ OsErrors.linux false (fun _ => 8) (fun _ => rfl) ⟨fun _ => 7, 0, 0, 0⟩
    (by decide) tree_ok (fun _ => show (7 : UInt64) ≠ 0 by decide) content _ programs_valid order (by decide)
  have hx : together = x := congrArg Prod.fst e
  obtain ⟨rest, hr, _⟩ := h3 1 reader rfl
  exact ⟨hx ▸ h1, rest, hx ▸ hr⟩

/-- The same by running the model. -/
example : together.past.map (fun e => (e.1, e.2.2)) =
    [(2, .done), (1, .fd 0), (0, .fd 1), (2, .done), (1, .data [1]), (0, .written 1), (1, .data [7, 2]), (0, .done)] := by
  decide +kernel

/-- `C77_mount` for them: a server with a limit on writes, a client that offers 8.0 and 7.34. -/
example : ∃ conn w, (({} : FuseServer).maxWrite 65536).Connects (MountWorld.socket _)
      (content, [], fun _ => Client.handshake (initMessage 4 7 34 [65536, 0])
        (fun _ => (Shared.start [writer, reader, forgetter]).turns ⟨fun _ => 7, 0, 0, 0⟩ order) [initMessage 2 8 0 [65536, 0]]) (.ok conn, w) ∧
    ∀ buf : Bytes, conn.recvBufLen ≤ buf.length → ∃ content' heard k x, ∃ s : Vfs NodeId NodeId NodeId (MountWorld (Option Shared)),
      LoopReturns (tree.mounted _ conn OsErrors.linux true fun _ => 0x1000).serveStep (buf, Vfs.new NodeId.root w) (.ok (), s) ∧
      s.world = (content', heard, k) ∧ k heard = .done (some x) ∧
      x.Fair tree OsErrors.linux content [writer, reader, forgetter] order content' :=
  C77_mount tree OsErrors.linux true (fun _ => 0x1000) (fun _ => rfl) tree_ok content _ ⟨fun _ => 7, 0, 0, 0⟩
    (fun _ => show (7 : UInt64) ≠ 0 by decide) _ _ (by decide) (by decide) _ programs_valid (by
      intro p hp
      simp only [List.mem_cons, List.not_mem_nil, or_false] at hp
      rcases hp with rfl | rfl | rfl
      · refine ⟨by simp [FileCall.Fits], fun a => ?_⟩
        cases a <;> first
          | exact trivial
          | exact ⟨by simp [FileCall.Fits]; omega, fun _ => ⟨trivial, fun _ => trivial⟩⟩
      · refine ⟨by simp [FileCall.Fits], fun a => ?_⟩
        cases a <;> first
          | exact trivial
          | (refine ⟨trivial, fun b => ?_⟩
             dsimp only
             split
             · exact ⟨trivial, fun _ => trivial⟩
             · exact trivial)
      · exact ⟨trivial, fun _ => ⟨trivial, fun _ => trivial⟩⟩) order (by decide)

end Stack

end Fuse
