import Verif.PropVfsLocks

/-!
# C66: destructors in the VFS layer

`NodeMap::forget` removes an entry from the map with the map's lock held.  The removed `NodeLookup` is a temporary
of the statement `nodes.remove(&node_id);`, so its `Arc<dyn Node>` is dropped before the lock is given back; if it is
the last one, the destructor of the user's node runs there.  The handlers of `Verif.VfsLocks` leave destructors
out.  Here FORGET requests, which name a single node, have them.
-/

namespace Fuse

open Spec

variable {ν φ η σ ε α : Type}

namespace Filesystem.Locked

/-- `NodeMap::forget` with one item, fuse-vfs/fuse-vfs.rs:961-978.  `drop` is dropping the `Arc<dyn Node>` of the
removed entry (line 972), with the destructor of the node if no one else has it.
Not modelled: destructors of several nodes in one BATCH_FORGET request, and of handles in `close_file` and
`close_dir` (after the user's `release` method has run with the same lock held). -/
def forgetOneSec (drop : ν → σ → σ) (item : ForgetItem) : Sec (NodeMap ν) σ Unit :=
  .step (fun m => m) fun m =>
    match m item.nodeId with
    | some entry =>
      if NodeMap.satPred entry.lookupCount = 0 then
        .step (fun m => m.remove item.nodeId) fun _ => .call (drop entry.node) fun _ => .done (.ok ())
      else
        .step (fun m => m.insert item.nodeId { entry with lookupCount := NodeMap.satPred entry.lookupCount })
          fun _ => .done (.ok ())
    | none => .done (.ok ())

/-- `Filesystem::forget` for FORGET requests, fuse-vfs/fuse-vfs.rs:515-522. -/
def forgetOne (fs : Filesystem ν φ η σ ε) (drop : ν → σ → σ) (r : Request) : LM ν φ η σ ε Unit := do
  let request ← LM.decoded (r.decode (decodeForget fs.checks))
  match request.items with
  | [item] => LM.writing .nodes (forgetOneSec drop item)
  | items => nodesForget items

/-- `Filesystem::dispatch`, fuse-vfs/fuse-vfs.rs:484-513, with the destructors of forgotten nodes. -/
def dispatchDropping (fs : Filesystem ν φ η σ ε) (drop : ν → σ → σ) (r : Request) :
    LProg ν φ η σ (Option (Outcome ε Unit)) :=
  match r.rawHeader with
  | .error f => .done (some (.fault f))
  | .ok h =>
    if h.opcode = FUSE_FORGET then LProg.bind (forgetOne fs drop r) fun out => .done (some out)
    else dispatch fs r

/-- But for the destructor, the critical section does what it does in `Verif.VfsLocks`: the destructor runs exactly
when the entry is removed. -/
theorem forgetOneSec_run (drop : ν → σ → σ) (item : ForgetItem) (m : NodeMap ν) (w : σ) :
    (forgetOneSec drop item).run m w =
      (((NodeMap.forgetSec [item]).run m w).1, ((NodeMap.forgetSec [item]).run m w).2.1,
       match m item.nodeId, ((NodeMap.forgetSec (σ := σ) [item]).run m w).2.1 item.nodeId with
       | some entry, none => drop entry.node w
       | _, _ => w) := by
  simp only [forgetOneSec, NodeMap.forgetSec, Sec.run]
  cases hm : m item.nodeId with
  | none => simp [Sec.run]
  | some entry =>
    by_cases h : NodeMap.satPred entry.lookupCount = 0
    · simp [h, Sec.run, Tail.run, NodeMap.remove]
    · simp [h, Sec.run, NodeMap.insert]

end Filesystem.Locked

open Filesystem.Locked

/-- **C66** fails for destructors: a thread that has taken the lock of the node map for a FORGET request about a node
with at most one lookup left gets into the node's destructor with the lock held, and with the node already removed. -/
theorem C66_drop_locked {c : LConf ν φ η σ α} {t : Nat} {drop : ν → σ → σ} {item : ForgetItem}
    {k : Except Fault Unit → LProg ν φ η σ α} {entry : NodeLookup ν}
    (ht : c.threads t = .sec .nodes (forgetOneSec drop item) k)
    (he : c.mem.nodes item.nodeId = some entry) (hc : entry.lookupCount.toNat ≤ 1) :
    ∃ tr c2, LRuns c tr c2 ∧ (∀ x ∈ tr, x.1 = t) ∧
      c2.threads t = .sec .nodes (.call (drop entry.node) fun _ => .done (.ok ())) k ∧
      (c2.threads t).InUser ∧ (c2.threads t).holds .nodes ∧ c2.mem.nodes item.nodeId = none := by
  have h0 : NodeMap.satPred entry.lookupCount = 0 := by
    unfold NodeMap.satPred
    apply UInt64.toNat.inj
    split
    · rfl
    · rename_i hne
      have : entry.lookupCount.toNat ≠ 0 := fun h => hne (UInt64.toNat.inj h)
      rw [UInt64.toNat_sub_of_le _ _ (by rw [UInt64.le_iff_toNat_le]; simp; omega)]
      simp
      omega
  obtain ⟨c1, s1, ht1, hm1⟩ : ∃ c1, LStep c t c1 ∧
      c1.threads t = .sec .nodes
        (.step (fun m => m.remove item.nodeId) fun _ => .call (drop entry.node) fun _ => .done (.ok ())) k ∧
      c1.mem = c.mem := by
    refine ⟨_, LStep.access ht, ?_, c.mem.put_get .nodes⟩
    have e1 : (c.mem.get .nodes) item.nodeId = some entry := he
    simp only [LConf.set_same, e1, h0, if_true]
  refine ⟨_, _, .cons s1 (.cons (LStep.access ht1) (.nil _)), by simp, by simp, ?_, ?_, ?_⟩
  · simp [Thr.InUser]
  · simp [Thr.holds, Thr.writes]
  · show NodeMap.remove _ item.nodeId item.nodeId = none
    simp [NodeMap.remove]

/-! ## A concrete execution -/

/-- The small filesystem with destructors, before the first step. -/
def demoDropStart (msgs : List Bytes) :
    LConf Nat Nat Nat (Unit × List (Obs Nat Nat Nat)) (Option (Outcome Unit Unit)) :=
  .start (fun t => dispatchDropping demoFs.recorded (fun _ w => w) ⟨demoBufs msgs t⟩) (Vfs.new 100 ((), []))

/-- Steps of threads 0, 1, 2, … in the order `ts`. -/
def demoDropping (msgs : List Bytes) (ts : List Nat) :
    LConf Nat Nat Nat (Unit × List (Obs Nat Nat Nat)) (Option (Outcome Unit Unit)) :=
  (demoDropStart msgs).fires [0, 1, 2, 3, 4] ts

/-- LOOKUP of a node, FORGET of it, GETATTR of the root. -/
def demoDropMsgs : List Bytes := [demoLookup, demoForget 2 1, demoGetattr 1]

/-- The lookup is over, and the FORGET request has removed the node. -/
def demoDropTo : List Nat := List.replicate 20 0 ++ [1, 1, 1]

theorem demoDrop_ok :
    ∃ tr c, LRuns (demoDropStart demoDropMsgs) tr c ∧ (c.threads 1).inUserLocked = true ∧
      (c.threads 1).holdsB .nodes = true ∧ (c.threads 2).waits? = some .nodes ∧
      (c.mem.nodes NodeId.root).isSome = true := by
  obtain ⟨tr, h⟩ := (demoDropStart demoDropMsgs).fires_runs (live := [0, 1, 2, 3, 4]) (ts := demoDropTo)
    (fun u l hu => hu.elim) (by decide)
  exact ⟨tr, _, h, by decide +kernel, by decide +kernel, by decide +kernel, by decide +kernel⟩

theorem Thr.Waits.not_done {x : Thr ν φ η σ α} {l : Lck} (h : x.Waits l) : ¬ x.over := by
  intro ho
  cases x with
  | out p => cases p <;> first | exact h.elim | exact ho.elim
  | _ => exact h.elim

/-- **C66** fails for destructors: while the destructor of a forgotten node has not returned, a GETATTR request (3)
about the root is not answered, whatever the other threads do. -/
theorem C66_violated_drop :
    ∃ tr c, LRuns (demoDropStart demoDropMsgs) tr c ∧
      u32At (demoBufs demoDropMsgs 1) 4 = 2 ∧ (c.threads 1).InUser ∧
      u32At (demoBufs demoDropMsgs 2) 4 = 3 ∧ u64At (demoBufs demoDropMsgs 2) 16 = 1 ∧
      (c.mem.nodes NodeId.root).isSome ∧
      ∀ us c2, LRunsP c us c2 → 1 ∉ us → ¬ (c2.threads 2).over := by
  obtain ⟨tr, c, h, h1, h2, h3, hs⟩ := demoDrop_ok
  refine ⟨tr, c, h, by decide +kernel, Thr.inUserLocked_spec h1, by decide +kernel, by decide +kernel, hs, fun us c2 hr hn => ?_⟩
  have hw := Thr.waits?_spec h3
  rw [C66_blocked hr (Thr.inUserLocked_spec h1) ((Thr.holdsB_iff _ _).mp h2) hw hn]
  exact hw.not_done

/-- **C66** fails for destructors: after a panic in the destructor of a forgotten node, a GETATTR request (3) about the
root is never answered. -/
theorem C66_violated_drop_panic :
    ∃ tr c c1, LRuns (demoDropStart demoDropMsgs) tr c ∧
      u32At (demoBufs demoDropMsgs 1) 4 = 2 ∧ LPanic c 1 c1 ∧
      u32At (demoBufs demoDropMsgs 2) 4 = 3 ∧ u64At (demoBufs demoDropMsgs 2) 16 = 1 ∧
      (c1.mem.nodes NodeId.root).isSome ∧
      ∀ us c2, LRunsP c1 us c2 → ∀ o, c2.threads 2 ≠ .out (.done o) := by
  obtain ⟨tr, c, h, h1, h2, h3, hs⟩ := demoDrop_ok
  have hh := (Thr.holdsB_iff _ _).mp h2
  have hw := Thr.waits?_spec h3
  cases hc : c.threads 1 with
  | sec l q k =>
    cases q with
    | call f g =>
      refine ⟨tr, c, _, h, by decide +kernel, LPanic.call c.mem.world hc, by decide +kernel, by decide +kernel, hs,
        fun us c2 hr o ho => ?_⟩
      have hw1 : (((c.set 1 .crashed { c.mem with world := c.mem.world }).poison l).threads 2).Waits .nodes := by
        show Thr.Waits (if 2 = 1 then .crashed else c.threads 2) _
        rw [if_neg (by decide)]
        exact hw
      rcases C66_poisoned (LPanic.call c.mem.world hc) hh hr hw1 with e | e
      · rw [← e, ho] at hw1
        exact hw1.elim
      · rw [e] at ho
        cases ho
    | step f g => rw [hc] at h1; cases h1
    | done r => rw [hc] at h1; cases h1
  | out p => rw [hc] at h1; cases h1
  | peek l k => rw [hc] at h1; cases h1
  | held l k => rw [hc] at h1; cases h1
  | tail l q k => rw [hc] at h1; cases h1
  | crashed => rw [hc] at h1; cases h1

/-- When the destructor returns, all requests are answered: the FORGET request has no reply, and the root's attributes
are sent. -/
example : ((demoDropping demoDropMsgs (demoDropTo ++ [2, 1, 1] ++ List.replicate 10 2)).mem.world.2.filterMap fun x =>
      match x with
        | .sent _ ok => some ok
        | _ => none) = [true, true] ∧
    ((demoDropping demoDropMsgs (demoDropTo ++ [2, 1, 1] ++ List.replicate 10 2)).mem.nodes ⟨2, by decide⟩).isNone ∧
    (demoDropping demoDropMsgs (demoDropTo ++ [2, 1, 1] ++ List.replicate 10 2)).poisoned .nodes = false := by
  decide +kernel

end Fuse
