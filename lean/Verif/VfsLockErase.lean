import Verif.VfsLockRun

/-!
# The handlers at the level of locks are the handlers with atomic critical sections
-/

namespace Fuse

variable {ν φ η σ ε α β : Type}

namespace LM

theorem erase_bind {x : LM ν φ η σ ε α} {y : VfsM ν φ η σ ε α} {f : α → LM ν φ η σ ε β}
    {g : α → VfsM ν φ η σ ε β} (hx : x.erase = y) (h : ∀ a, (f a).erase = g a) :
    LM.erase (x >>= f) = y >>= g := by
  show (LProg.bind x (andThen f)).erase = Prog.bind y (VfsM.andThen g)
  refine (LProg.erase_bind (x : LProg ν φ η σ (Outcome ε α)) (andThen f)).trans ?_
  rw [← hx]
  show Prog.bind (LProg.erase x) _ = Prog.bind (LProg.erase x) _
  congr 1
  funext o
  cases o with
  | ok a => exact h a
  | err e => rfl
  | fault e => rfl

theorem erase_ofFault (r : Except Fault α) :
    (ofFault r : LM ν φ η σ ε α).erase = VfsM.ofFault r := by
  cases r <;> rfl

theorem erase_decoded (r : Res α) : (decoded r : LM ν φ η σ ε α).erase = VfsM.decoded r := by
  rcases r with (_ | _) | _ <;> rfl

theorem erase_call (f : σ → α × σ) : (call f : LM ν φ η σ ε α).erase = VfsM.call f := rfl

end LM

theorem prog_step_congr {S : Type} {f f' : S → S} {k k' : S → Prog S α} (hf : ∀ s, f s = f' s)
    (hk : ∀ s, k s = k' s) : Prog.step f k = Prog.step f' k' := by
  have h1 : f = f' := funext hf
  have h2 : k = k' := funext hk
  rw [h1, h2]

/-! ## The critical sections -/

theorem NodeMap.addSec_run (id : NodeId) (node : ν) (m : NodeMap ν) (w : σ) :
    (NodeMap.addSec id node).run m w = ((m.add id node).1, (m.add id node).2, w) := by
  unfold NodeMap.addSec NodeMap.add
  simp only [Sec.run]
  cases m id with
  | none => rfl
  | some entry =>
    dsimp only
    by_cases h : entry.lookupCount.toNat + 1 < 2 ^ 64
    · rw [if_pos h, if_pos h]
      rfl
    · rw [if_neg h, if_neg h]
      rfl

theorem NodeMap.forgetSec_run (items : List ForgetItem) (m : NodeMap ν) (w : σ) :
    (NodeMap.forgetSec items).run m w = (.ok (), m.forget items, w) := by
  induction items generalizing m with
  | nil => rfl
  | cons item items ih =>
    simp only [NodeMap.forgetSec, Sec.run, NodeMap.forget, List.foldl_cons]
    unfold NodeMap.forgetOne
    cases m item.nodeId with
    | none => exact ih m
    | some entry =>
      dsimp only
      by_cases h : NodeMap.satPred entry.lookupCount = 0
      · rw [if_pos h, if_pos h]
        exact ih _
      · rw [if_neg h, if_neg h]
        exact ih _

theorem HandlesMap.openFileSec_run (h : φ) (m : HandlesMap φ η) (w : σ) :
    (HandlesMap.openFileSec h).run m w = ((m.openFile h).1, (m.openFile h).2, w) := by
  unfold HandlesMap.openFileSec HandlesMap.openFile
  simp only [Sec.run]
  by_cases hn : m.nextHandleId.toNat + 1 < 2 ^ 64
  · rw [if_pos hn, if_pos hn]
    rfl
  · rw [if_neg hn, if_neg hn]
    rfl

theorem HandlesMap.openDirSec_run (h : η) (m : HandlesMap φ η) (w : σ) :
    (HandlesMap.openDirSec h).run m w = ((m.openDir h).1, (m.openDir h).2, w) := by
  unfold HandlesMap.openDirSec HandlesMap.openDir
  simp only [Sec.run]
  by_cases hn : m.nextHandleId.toNat + 1 < 2 ^ 64
  · rw [if_pos hn, if_pos hn]
    rfl
  · rw [if_neg hn, if_neg hn]
    rfl

namespace Filesystem.Locked

variable (fs : Filesystem ν φ η σ ε)

theorem erase_reply (id : NonZeroU64) (m) : (reply fs id m).erase = fs.reply id m := rfl

theorem erase_nodesGet (id : NodeId) : (nodesGet fs id).erase = fs.nodesGet id := rfl

theorem erase_getFile (i : NodeId) (h : UInt64) : (getFile fs i h).erase = fs.getFile i h := rfl

theorem erase_getDir (i : NodeId) (h : UInt64) : (getDir fs i h).erase = fs.getDir i h := rfl

/-- A critical section as one atomic step. -/
theorem erase_writing {γ : Type} {l : Lck} {sec : Sec (Mem ν φ η l) σ γ}
    {F : Vfs ν φ η σ → Outcome ε γ × Vfs ν φ η σ} {o : Vfs ν φ η σ → Except Fault γ × Mem ν φ η l × σ}
    (ho : ∀ s, sec.run (s.get l) s.world = o s)
    (h1 : ∀ s, (F s).1 = match (o s).1 with | .ok a => .ok a | .error f => .fault f)
    (h2 : ∀ s, (F s).2 = { s.put l (o s).2.1 with world := (o s).2.2 }) :
    (LM.writing l sec : LM ν φ η σ ε γ).erase = (Prog.act F : VfsM ν φ η σ ε γ) := by
  apply prog_step_congr
  · intro s
    rw [h2, ← ho]
  · intro s
    rw [h1, ← ho]
    generalize (sec.run (s.get l) s.world).1 = r
    cases r <;> rfl

theorem erase_nodesAdd (id : NodeId) (node : ν) :
    (nodesAdd id node : LM ν φ η σ ε Unit).erase = Filesystem.nodesAdd id node := by
  refine erase_writing (fun s => NodeMap.addSec_run id node s.nodes s.world) (fun s => ?_) (fun s => ?_)
  · rcases s.nodes.add id node with ⟨_ | _, m⟩ <;> rfl
  · rfl

theorem erase_nodesForget (items : List ForgetItem) :
    (nodesForget items : LM ν φ η σ ε Unit).erase = Filesystem.nodesForget items :=
  erase_writing (fun s => NodeMap.forgetSec_run items s.nodes s.world) (fun _ => rfl) (fun _ => rfl)

theorem erase_openFile (h : φ) :
    (LM.writing .handles (HandlesMap.openFileSec h) : LM ν φ η σ ε UInt64).erase =
      VfsM.locked (·.openFile h) := by
  refine erase_writing (fun s => HandlesMap.openFileSec_run h s.handles s.world) (fun s => ?_) (fun s => ?_)
  · dsimp only
    rcases s.handles.openFile h with ⟨_ | _, m⟩ <;> rfl
  · rfl

theorem erase_openDir (h : η) :
    (LM.writing .handles (HandlesMap.openDirSec h) : LM ν φ η σ ε UInt64).erase =
      VfsM.locked (·.openDir h) := by
  refine erase_writing (fun s => HandlesMap.openDirSec_run h s.handles s.world) (fun s => ?_) (fun s => ?_)
  · dsimp only
    rcases s.handles.openDir h with ⟨_ | _, m⟩ <;> rfl
  · rfl

/-- What the critical section of RELEASE does when it is not interrupted. -/
theorem releaseSec_run (header : FuseInHeader) (request : ReleaseRequest) (i : NodeId) (h : UInt64)
    (s : Vfs ν φ η σ) :
    (releaseSec fs header request i h).run s.handles s.world =
      match s.handles.getFile fs.os i h with
      | .error e => (.ok (.error e), s.handles, s.world)
      | .ok x =>
        match fs.impl.release x header request s.world with
        | (.error e, w) => (.ok (.error e), s.handles, w)
        | (.ok (), w) => (.ok (.ok ()), s.handles.closeFile i h, w) := by
  unfold releaseSec
  simp only [Sec.run]
  cases s.handles.getFile fs.os i h with
  | error e => rfl
  | ok x =>
    dsimp only [Sec.run]
    rcases fs.impl.release x header request s.world with ⟨_ | _, w⟩ <;> rfl

theorem releasedirSec_run (header : FuseInHeader) (request : ReleasedirRequest) (i : NodeId) (h : UInt64)
    (s : Vfs ν φ η σ) :
    (releasedirSec fs header request i h).run s.handles s.world =
      match s.handles.getDir fs.os i h with
      | .error e => (.ok (.error e), s.handles, s.world)
      | .ok x =>
        match fs.impl.releasedir x header request s.world with
        | (.error e, w) => (.ok (.error e), s.handles, w)
        | (.ok (), w) => (.ok (.ok ()), s.handles.closeDir i h, w) := by
  unfold releasedirSec
  simp only [Sec.run]
  cases s.handles.getDir fs.os i h with
  | error e => rfl
  | ok x =>
    dsimp only [Sec.run]
    rcases fs.impl.releasedir x header request s.world with ⟨_ | _, w⟩ <;> rfl

theorem erase_releaseSec (header : FuseInHeader) (request : ReleaseRequest) (i : NodeId) (h : UInt64) :
    (LM.writing .handles (releaseSec fs header request i h) : LM ν φ η σ ε _).erase =
      fs.releaseLocked header request i h := by
  refine erase_writing (fun s => releaseSec_run fs header request i h s) (fun s => ?_) (fun s => ?_)
  · cases HandlesMap.getFile fs.os s.handles i h with
    | error e => rfl
    | ok x =>
      dsimp only
      rcases fs.impl.release x header request s.world with ⟨_ | _, w⟩ <;> rfl
  · try dsimp only
    cases HandlesMap.getFile fs.os s.handles i h with
    | error e => rfl
    | ok x =>
      dsimp only
      rcases fs.impl.release x header request s.world with ⟨_ | _, w⟩ <;> rfl

theorem erase_releasedirSec (header : FuseInHeader) (request : ReleasedirRequest) (i : NodeId) (h : UInt64) :
    (LM.writing .handles (releasedirSec fs header request i h) : LM ν φ η σ ε _).erase =
      fs.releasedirLocked header request i h := by
  refine erase_writing (fun s => releasedirSec_run fs header request i h s) (fun s => ?_) (fun s => ?_)
  · cases HandlesMap.getDir fs.os s.handles i h with
    | error e => rfl
    | ok x =>
      dsimp only
      rcases fs.impl.releasedir x header request s.world with ⟨_ | _, w⟩ <;> rfl
  · try dsimp only
    cases HandlesMap.getDir fs.os s.handles i h with
    | error e => rfl
    | ok x =>
      dsimp only
      rcases fs.impl.releasedir x header request s.world with ⟨_ | _, w⟩ <;> rfl

/-! ## The handlers -/

/-- The beginning of a handler: the parts of the header, and decoding. -/
macro "erase_head" : tactic => `(tactic|
  (refine LM.erase_bind (LM.erase_ofFault _) (fun x => ?_)
   obtain ⟨id, header⟩ := x
   refine LM.erase_bind (LM.erase_decoded _) (fun request => ?_)))

theorem erase_forget (r : Request) : (forget fs r).erase = fs.forget r :=
  LM.erase_bind (LM.erase_decoded _) fun _ => erase_nodesForget _

theorem erase_getattr (r : Request) : (getattr fs r).erase = fs.getattr r := by
  erase_head
  refine LM.erase_bind (LM.erase_ofFault _) fun nodeId => ?_
  refine LM.erase_bind (erase_nodesGet _ _) fun x => ?_
  rcases x with e | node
  · rfl
  refine LM.erase_bind (LM.erase_call _) fun x => ?_
  rcases x with e | node <;> rfl

theorem erase_getxattr (r : Request) : (getxattr fs r).erase = fs.getxattr r := by
  erase_head
  refine LM.erase_bind (LM.erase_ofFault _) fun nodeId => ?_
  refine LM.erase_bind (erase_nodesGet _ _) fun x => ?_
  rcases x with e | node
  · rfl
  refine LM.erase_bind (LM.erase_call _) fun x => ?_
  rcases x with e | node <;> rfl

theorem erase_listxattr (r : Request) : (listxattr fs r).erase = fs.listxattr r := by
  erase_head
  refine LM.erase_bind (LM.erase_ofFault _) fun nodeId => ?_
  refine LM.erase_bind (erase_nodesGet _ _) fun x => ?_
  rcases x with e | node
  · rfl
  refine LM.erase_bind (LM.erase_call _) fun x => ?_
  rcases x with e | node <;> rfl

theorem erase_lookup (r : Request) : (lookup fs r).erase = fs.lookup r := by
  erase_head
  refine LM.erase_bind (erase_nodesGet _ _) fun x => ?_
  rcases x with e | node
  · rfl
  refine LM.erase_bind (LM.erase_call _) fun x => ?_
  rcases x with _ | dir
  · rfl
  refine LM.erase_bind (LM.erase_call _) fun x => ?_
  rcases x with e | ⟨node, gen, t1, t2⟩
  · rfl
  rcases node with _ | ⟨node, attr⟩
  · rfl
  refine LM.erase_bind (LM.erase_ofFault _) fun nodeId => ?_
  exact LM.erase_bind (erase_reply _ _ _) fun _ => erase_nodesAdd _ _

theorem erase_open_ (r : Request) : (open_ fs r).erase = fs.open_ r := by
  erase_head
  refine LM.erase_bind (erase_nodesGet _ _) fun x => ?_
  rcases x with e | node
  · rfl
  refine LM.erase_bind (LM.erase_call _) fun x => ?_
  rcases x with _ | dir
  · rfl
  refine LM.erase_bind (LM.erase_call _) fun x => ?_
  rcases x with e | result
  · rfl
  exact LM.erase_bind (erase_openFile _) fun _ => erase_reply _ _ _

theorem erase_opendir (r : Request) : (opendir fs r).erase = fs.opendir r := by
  erase_head
  refine LM.erase_bind (LM.erase_ofFault _) fun nodeId => ?_
  refine LM.erase_bind (erase_nodesGet _ _) fun x => ?_
  rcases x with e | node
  · rfl
  refine LM.erase_bind (LM.erase_call _) fun x => ?_
  rcases x with _ | dir
  · rfl
  refine LM.erase_bind (LM.erase_call _) fun x => ?_
  rcases x with e | result
  · rfl
  exact LM.erase_bind (erase_openDir _) fun _ => erase_reply _ _ _

theorem erase_read (r : Request) : (read fs r).erase = fs.read r := by
  erase_head
  refine LM.erase_bind (LM.erase_ofFault _) fun handle => ?_
  refine LM.erase_bind (erase_getFile _ _ _) fun x => ?_
  rcases x with e | node
  · rfl
  refine LM.erase_bind (LM.erase_call _) fun x => ?_
  rcases x with _ | dir
  · rfl
  refine LM.erase_bind (LM.erase_call _) fun x => ?_
  rcases x with e | result <;> rfl

theorem erase_readdir (r : Request) : (readdir fs r).erase = fs.readdir r := by
  erase_head
  refine LM.erase_bind (LM.erase_ofFault _) fun nodeId => ?_
  refine LM.erase_bind (LM.erase_ofFault _) fun handle => ?_
  refine LM.erase_bind (erase_getDir _ _ _) fun x => ?_
  rcases x with e | node
  · rfl
  refine LM.erase_bind (LM.erase_call _) fun x => ?_
  rcases x with _ | dir
  · rfl
  refine LM.erase_bind (LM.erase_call _) fun x => ?_
  rcases x with e | result <;> rfl

theorem erase_readdirplus (r : Request) : (readdirplus fs r).erase = fs.readdirplus r := by
  erase_head
  refine LM.erase_bind (LM.erase_ofFault _) fun nodeId => ?_
  refine LM.erase_bind (LM.erase_ofFault _) fun handle => ?_
  refine LM.erase_bind (erase_getDir _ _ _) fun x => ?_
  rcases x with e | node
  · rfl
  refine LM.erase_bind (LM.erase_call _) fun x => ?_
  rcases x with _ | dir
  · rfl
  refine LM.erase_bind (LM.erase_call _) fun x => ?_
  rcases x with e | result <;> rfl

theorem erase_readlink (r : Request) : (readlink fs r).erase = fs.readlink r := by
  erase_head
  refine LM.erase_bind (erase_nodesGet _ _) fun x => ?_
  rcases x with e | node
  · rfl
  refine LM.erase_bind (LM.erase_call _) fun x => ?_
  rcases x with _ | dir
  · rfl
  refine LM.erase_bind (LM.erase_call _) fun x => ?_
  rcases x with e | result <;> rfl

theorem erase_release (r : Request) : (release fs r).erase = fs.release r := by
  erase_head
  refine LM.erase_bind (LM.erase_ofFault _) fun handle => ?_
  refine LM.erase_bind (erase_releaseSec _ _ _ _ _) fun x => ?_
  rcases x with e | _ <;> rfl

theorem erase_releasedir (r : Request) : (releasedir fs r).erase = fs.releasedir r := by
  erase_head
  refine LM.erase_bind (LM.erase_ofFault _) fun nodeId => ?_
  refine LM.erase_bind (LM.erase_ofFault _) fun handle => ?_
  refine LM.erase_bind (erase_releasedirSec _ _ _ _ _) fun x => ?_
  rcases x with e | _ <;> rfl

theorem erase_statfs (r : Request) : (statfs fs r).erase = fs.statfs r := by
  erase_head
  refine LM.erase_bind (erase_nodesGet _ _) fun x => ?_
  rcases x with e | node
  · rfl
  refine LM.erase_bind (LM.erase_call _) fun x => ?_
  rcases x with e | result <;> rfl

theorem erase_write (r : Request) : (write fs r).erase = fs.write r := by
  erase_head
  refine LM.erase_bind (LM.erase_ofFault _) fun nodeId => ?_
  refine LM.erase_bind (LM.erase_ofFault _) fun handle => ?_
  refine LM.erase_bind (erase_getFile _ _ _) fun x => ?_
  rcases x with e | node
  · rfl
  refine LM.erase_bind (LM.erase_call _) fun x => ?_
  rcases x with _ | dir
  · rfl
  refine LM.erase_bind (LM.erase_call _) fun x => ?_
  rcases x with e | result <;> rfl

theorem erase_select (op : UInt32) (r : Request) :
    (select fs op r).map LM.erase = fs.select op r := by
  unfold select Filesystem.select
  simp only [apply_ite (Option.map LM.erase), Option.map_some, Option.map_none, erase_read, erase_write,
    erase_forget, erase_getattr, erase_getxattr, erase_listxattr, erase_lookup, erase_open_, erase_opendir,
    erase_readdir, erase_readdirplus, erase_readlink, erase_release, erase_releasedir, erase_statfs]

theorem erase_dispatch (r : Request) : (dispatch fs r).erase = fs.dispatch r := by
  unfold dispatch Filesystem.dispatch
  cases r.rawHeader with
  | error e => rfl
  | ok h =>
    dsimp only
    rw [← erase_select]
    cases select fs h.opcode r with
    | none => rfl
    | some p => exact LProg.erase_bind p _

end Filesystem.Locked

end Fuse
