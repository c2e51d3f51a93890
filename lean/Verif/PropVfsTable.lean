import Verif.PropVfsNode
import Verif.PropVfsLocks

/-!
# C69: the node and handle tables under concurrency

The tables of the VFS layer behave as if every request used them at one moment, in an order that is the order
of the threads' steps: there is a sequence of operations on plain tables (`Tables`, `TableOp`) that the tables
allow, and the operations of every thread are those its request and its observations call for (`TableScript`).
-/

namespace Fuse

open Spec VfsEv

variable {ν φ η σ ε : Type}

/-! ## Tables without concurrency -/

/-- What the client can reach: nodes with their number of lookups, open files, open directories, and the next
handle. -/
structure Tables (ν φ η : Type) where
  nodes : NodeId → Option (ν × Nat)
  files : UInt64 → Option φ
  dirs : UInt64 → Option η
  next : Nat

/-- An operation on the tables, with its result. -/
inductive TableOp (ν φ η : Type)
  | node (i : NodeId) (r : Option ν)
  | file (fh : UInt64) (r : Option φ)
  | dir (fh : UInt64) (r : Option η)
  | register (i : NodeId) (v : ν)
  | forget (ids : List NodeId)
  | openFile (fh : UInt64) (x : φ)
  | openDir (fh : UInt64) (x : η)
  | closeFile (fh : UInt64) (x : φ)
  | closeDir (fh : UInt64) (x : η)
deriving DecidableEq

/-- A new filesystem: the root, which nobody has looked up, and no handles. -/
def Tables.new (root : ν) : Tables ν φ η where
  nodes := fun i => if i = NodeId.root then some (root, 0) else none
  files := fun _ => none
  dirs := fun _ => none
  next := 1

/-- One more lookup of `i`; the node already known by that ID stays. -/
def Tables.register (T : Tables ν φ η) (i : NodeId) (v : ν) : Tables ν φ η :=
  { T with nodes := fun j =>
      if j = i then
        match T.nodes i with
        | some (w, n) => some (w, n + 1)
        | none => some (v, 1)
      else T.nodes j }

/-- One lookup of `i` less; the node is dropped with the last one. -/
def Tables.forgetOne (T : Tables ν φ η) (i : NodeId) : Tables ν φ η :=
  { T with nodes := fun j =>
      if j = i then
        match T.nodes i with
        | some (w, n + 2) => some (w, n + 1)
        | _ => none
      else T.nodes j }

/-- `T.Allows op T'`: the operation `op` on the tables `T` has its result, and leads to the tables `T'`. -/
def Tables.Allows (T : Tables ν φ η) : TableOp ν φ η → Tables ν φ η → Prop
  | .node i r, T' => (T.nodes i).map (·.1) = r ∧ T' = T
  | .file fh r, T' => T.files fh = r ∧ T' = T
  | .dir fh r, T' => T.dirs fh = r ∧ T' = T
  | .register i v, T' => T' = T.register i v
  | .forget ids, T' => T' = ids.foldl Tables.forgetOne T
  | .openFile fh x, T' =>
    fh.toNat = T.next ∧ T' = { T with files := fun g => if g = fh then some x else T.files g, next := T.next + 1 }
  | .openDir fh x, T' =>
    fh.toNat = T.next ∧ T' = { T with dirs := fun g => if g = fh then some x else T.dirs g, next := T.next + 1 }
  | .closeFile fh x, T' =>
    T.files fh = some x ∧ T' = { T with files := fun g => if g = fh then none else T.files g }
  | .closeDir fh x, T' =>
    T.dirs fh = some x ∧ T' = { T with dirs := fun g => if g = fh then none else T.dirs g }

/-- A sequence of operations. -/
inductive Tables.AllowsAll : Tables ν φ η → List (TableOp ν φ η) → Tables ν φ η → Prop
  | nil (T) : AllowsAll T [] T
  | cons {T op T1 ops T'} : T.Allows op T1 → AllowsAll T1 ops T' → AllowsAll T (op :: ops) T'

/-! ## What a thread does with the tables -/

/-- The operations of a thread handling the request `q`, whose observations are `O`; `inval` is the reply
"invalid argument", `opened fh fl` the reply announcing the handle `fh`, and `fin` what the thread has returned,
if it is finished. -/
inductive TableScript (inval : Bytes) (announce : UInt64 → UInt32 → Bytes) (q : AnyRequest) (O : List (Obs ν φ η))
    (fin : Option (Option (Outcome ε Unit))) : List (TableOp ν φ η) → Prop
  /-- A request about an unknown node only gets the reply "invalid argument". -/
  | noNode {i} : OnNode i q → (∀ o ∈ O, ∃ b, o = .sent inval b) → TableScript inval announce q O fin [.node i none]
  /-- A request about the node `v`.  Nothing it found is registered, and nothing it opened is announced. -/
  | node {i v} : OnNode i q → (∀ x, .node x ∈ O → x = v) →
      ((∃ w ino, .found w ino ∈ O) → fin ≠ some (some (.ok ()))) →
      ((∃ x fl, .opened x fl ∈ O) → ∀ m b, .sent m b ∉ O) → (∀ x, .handle x ∉ O) →
      TableScript inval announce q O fin [.node i (some v)]
  /-- A LOOKUP whose answer was sent registers the node found. -/
  | found {i v j w m l} : q = .lookup l → OnNode i q → (∀ x, .node x ∈ O → x = v) →
      .found w j.val ∈ O → .sent m true ∈ O → (∀ x, .handle x ∉ O) →
      TableScript inval announce q O fin [.node i (some v), .register j w]
  /-- An OPEN, which registers the file before it announces it. -/
  | openFile {i v fh x fl l} : q = .open_ l → OnNode i q → (∀ x, .node x ∈ O → x = v) →
      .opened (.inl x) fl ∈ O → (∀ m b, .sent m b ∈ O → m = announce fh fl) → (∀ x, .handle x ∉ O) →
      TableScript inval announce q O fin [.node i (some v), .openFile fh x]
  /-- An OPENDIR. -/
  | openDir {i v fh x fl l} : q = .opendir l → OnNode i q → (∀ x, .node x ∈ O → x = v) →
      .opened (.inr x) fl ∈ O → (∀ m b, .sent m b ∈ O → m = announce fh fl) → (∀ x, .handle x ∉ O) →
      TableScript inval announce q O fin [.node i (some v), .openDir fh x]
  /-- A request about an unknown file. -/
  | noFile {fh} : OnFile fh q → (∀ o ∈ O, ∃ b, o = .sent inval b) → TableScript inval announce q O fin [.file fh none]
  /-- A request about an unknown directory. -/
  | noDir {fh} : OnDir fh q → (∀ o ∈ O, ∃ b, o = .sent inval b) → TableScript inval announce q O fin [.dir fh none]
  /-- A request about the open file `x` that does not release it. -/
  | file {fh x} : OnFile fh q → (∀ y, .handle y ∈ O → y = .inl x) → (∀ y, .released y ∉ O) → (∀ v, .node v ∉ O) →
      TableScript inval announce q O fin [.file fh (some x)]
  /-- A request about the open directory `x` that does not release it. -/
  | dir {fh x} : OnDir fh q → (∀ y, .handle y ∈ O → y = .inr x) → (∀ y, .released y ∉ O) → (∀ v, .node v ∉ O) →
      TableScript inval announce q O fin [.dir fh (some x)]
  /-- A RELEASE. -/
  | closeFile {fh x} : OnFile fh q → (∀ y, .handle y ∈ O → y = .inl x) → .released (.inl x) ∈ O → (∀ v, .node v ∉ O) →
      TableScript inval announce q O fin [.closeFile fh x]
  /-- A RELEASEDIR. -/
  | closeDir {fh x} : OnDir fh q → (∀ y, .handle y ∈ O → y = .inr x) → .released (.inr x) ∈ O → (∀ v, .node v ∉ O) →
      TableScript inval announce q O fin [.closeDir fh x]
  /-- A FORGET: no observation, all its items at once. -/
  | forget {f} : q = .forget f → O = [] → TableScript inval announce q O fin [.forget (f.items.map (·.nodeId))]

/-- What a thread has returned. -/
def Prog.result {S α : Type} : Prog S α → Option α
  | .done a => some a
  | .step _ _ => none

/-- The part of a journal that belongs to one thread. -/
def ofThread {α : Type} (t : Nat) (J : List (Nat × α)) : List α := (J.filter fun x => x.1 == t).map (·.2)

/-! ## Proof -/

/-- The tables of a state. -/
def Vfs.tables (s : Vfs ν φ η σ) : Tables ν φ η where
  nodes := fun i => (s.nodes i).map fun x => (x.node, x.lookupCount.toNat)
  files := s.handles.openFiles
  dirs := s.handles.openDirs
  next := s.handles.nextHandleId.toNat

/-- The operation of an event. -/
def VfsEv.op : VfsEv ν φ η ε → Option (TableOp ν φ η)
  | .gotNode i r => some (.node i r)
  | .gotFile fh r => some (.file fh r)
  | .gotDir fh r => some (.dir fh r)
  | .openedFile fh x => some (.openFile fh x)
  | .openedDir fh x => some (.openDir fh x)
  | .releaseFailed fh x _ _ => some (.file fh (some x))
  | .released fh x _ => some (.closeFile fh x)
  | .releasedirFailed fh x _ _ => some (.dir fh (some x))
  | .releasedDir fh x _ => some (.closeDir fh x)
  | .added i v => some (.register i v)
  | .forgot items => some (.forget (items.map (·.nodeId)))
  | _ => none

theorem tables_new (root : ν) (w : σ) : (Vfs.new root w : Vfs ν φ η σ).tables = Tables.new root := by
  unfold Vfs.tables Tables.new
  congr 1
  funext i
  by_cases hi : i = NodeId.root
  · rw [hi, new_root, if_pos rfl]; rfl
  · rw [new_other hi, if_neg hi]; rfl

/-- Forgetting one item. -/
theorem tables_forgetOne (s : Vfs ν φ η σ) (x : ForgetItem) :
    ({ s with nodes := s.nodes.forgetOne x } : Vfs ν φ η σ).tables = s.tables.forgetOne x.nodeId := by
  unfold Tables.forgetOne Vfs.tables
  congr 1
  funext j
  by_cases hj : j = x.nodeId
  · subst hj
    rw [if_pos rfl]
    show ((s.nodes.forgetOne x) x.nodeId).map _ = _
    unfold NodeMap.forgetOne
    cases hm : s.nodes x.nodeId with
    | none => simp only [hm]; rfl
    | some y =>
      have hp := satPred_toNat y.lookupCount
      dsimp only
      by_cases h0 : NodeMap.satPred y.lookupCount = 0
      · rw [if_pos h0]
        rw [h0] at hp
        have h1 : y.lookupCount.toNat - 1 = 0 := hp.symm
        simp only [hm, NodeMap.remove, if_true, Option.map]
        match y.lookupCount.toNat, h1 with
        | 0, _ => rfl
        | 1, _ => rfl
      · rw [if_neg h0]
        have h1 : (NodeMap.satPred y.lookupCount).toNat ≠ 0 := fun h => h0 (UInt64.toNat_inj.mp h)
        simp only [hm, NodeMap.insert, if_true, Option.map]
        rw [hp] at h1 ⊢
        match y.lookupCount.toNat, h1 with
        | n + 2, _ => rfl
  · rw [if_neg hj]
    show ((s.nodes.forgetOne x) j).map _ = _
    rw [forgetOne_ne (Ne.symm hj)]

theorem tables_forget (s : Vfs ν φ η σ) (items : List ForgetItem) :
    ({ s with nodes := s.nodes.forget items } : Vfs ν φ η σ).tables =
      (items.map (·.nodeId)).foldl Tables.forgetOne s.tables := by
  unfold NodeMap.forget
  induction items generalizing s with
  | nil => rfl
  | cons x xs ih =>
    rw [List.foldl_cons, List.map_cons, List.foldl_cons, ← tables_forgetOne]
    exact ih { s with nodes := s.nodes.forgetOne x }

theorem Called.tables {α : Type} {f : σ → α × σ} {a : α} {s s' : Vfs ν φ η σ} (h : Called f a s s') :
    s'.tables = s.tables := by
  rw [h.2]; rfl

/-- Every step does what its operation, if any, does to the tables. -/
theorem effect_op {fs : Filesystem ν φ η σ ε} {hdr : FuseInHeader} {s s' : Vfs ν φ η σ} {e : VfsEv ν φ η ε}
    (h : e.Effect fs hdr s s') :
    match e.op with
    | some op => s.tables.Allows op s'.tables
    | none => s'.tables = s.tables := by
  cases e with
  | gotNode i r =>
    refine ⟨?_, by rw [h.2]⟩
    show ((s.nodes i).map _).map _ = r
    rw [← h.1, Option.map_map]
    rfl
  | gotFile => exact ⟨h.1, by rw [h.2]⟩
  | gotDir => exact ⟨h.1, by rw [h.2]⟩
  | openedFile fh x =>
    obtain ⟨h1, h2, h3⟩ := h
    subst h3
    refine ⟨by rw [h1]; rfl, ?_⟩
    show Tables.mk _ _ _ (fh + 1).toNat = _
    have : (fh + 1).toNat = s.handles.nextHandleId.toNat + 1 := by
      rw [UInt64.toNat_add, ← h1]; exact Nat.mod_eq_of_lt h2
    rw [this]
    rfl
  | openedDir fh x =>
    obtain ⟨h1, h2, h3⟩ := h
    subst h3
    refine ⟨by rw [h1]; rfl, ?_⟩
    show Tables.mk _ _ _ (fh + 1).toNat = _
    have : (fh + 1).toNat = s.handles.nextHandleId.toNat + 1 := by
      rw [UInt64.toNat_add, ← h1]; exact Nat.mod_eq_of_lt h2
    rw [this]
    rfl
  | releaseFailed => exact ⟨h.1, h.2.tables⟩
  | released => exact ⟨h.1, by rw [h.2.2]; rfl⟩
  | releasedirFailed => exact ⟨h.1, h.2.tables⟩
  | releasedDir => exact ⟨h.1, by rw [h.2.2]; rfl⟩
  | added i v =>
    obtain ⟨x, hs, hx⟩ := h
    subst hs
    show _ = s.tables.register i v
    unfold Tables.register Vfs.tables
    congr 1
    funext j
    by_cases hj : j = i
    · subst hj
      simp only [if_true]
      cases hn : s.nodes j with
      | none => rw [hn] at hx; subst hx; rfl
      | some y =>
        rw [hn] at hx
        show some (x.node, x.lookupCount.toNat) = some (y.node, y.lookupCount.toNat + 1)
        rw [hx.1, hx.2]
    · simp only [if_neg hj]
  | forgot items =>
    rw [show s' = _ from h]
    exact tables_forget s items
  | handlesFull => show s'.tables = _; rw [h.2]
  | countFull => show s'.tables = _; rw [h.2]
  | sent => show s'.tables = _; rw [h.2]; rfl
  | _ => exact Called.tables h

theorem Hist.ops {fs : Filesystem ν φ η σ ε} {hdr : Nat → FuseInHeader} {s s' : Vfs ν φ η σ}
    {L : List (Nat × VfsEv ν φ η ε)} (h : Hist fs hdr s L s') :
    s.tables.AllowsAll (L.filterMap fun x => x.2.op) s'.tables := by
  induction h with
  | nil => exact .nil _
  | @cons s s1 s' t e L he _ ih =>
    have h1 := effect_op he
    cases ho : e.op with
    | none =>
      rw [ho] at h1
      rw [List.filterMap_cons_none (f := fun x : Nat × VfsEv ν φ η ε => x.2.op) (a := (t, e)) ho, ← show s1.tables = s.tables from h1]
      exact ih
    | some op =>
      rw [ho] at h1
      rw [List.filterMap_cons_some (f := fun x : Nat × VfsEv ν φ η ε => x.2.op) (a := (t, e)) ho]
      exact .cons h1 ih

theorem prefix_eq {α : Type} {evs rest l : List α} (h : evs ++ rest = l) :
    ∃ n, n ≤ l.length ∧ evs = l.take n ∧ rest = l.drop n := by
  subst h
  exact ⟨evs.length, by rw [List.length_append]; omega, (List.take_left' rfl).symm, (List.drop_left' rfl).symm⟩

theorem found_short (minor : Nat) (res : LookupResult ν) (attr : NodeAttr) :
    16 + ((foundEntry res attr).payload minor).length < 4294967296 := by
  show 16 + (entryBytes minor _).length < _
  rw [entryBytes_length]
  unfold entryOutSize
  split <;> decide

theorem mem_if {α : Type} {c : Prop} [Decidable c] {a x : α} : (a ∈ if c then [x] else []) ↔ c ∧ a = x := by
  by_cases h : c <;> simp [h]

theorem payload_err (minor : Nat) (e : FuseError) : (FuseAnswer.err e).payload minor = [] := rfl
theorem error_err (e : FuseError) : (FuseAnswer.err e).error = e.val := rfl
theorem error_open (fh : UInt64) (fl : UInt32) : (openReply fh fl).error = 0 := rfl
theorem error_found (res : LookupResult ν) (attr : NodeAttr) : (foundEntry res attr).error = 0 := rfl

local macro "script_simp" : tactic =>
  `(tactic| simp [VfsEv.obs, payload_err, error_err, error_open, error_found, lookupObs, openObs, releaseObs, mem_if,
    afterSend, succeeded, found_short, *])

local macro "script_end" : tactic => `(tactic| first
  | (refine TableScript.noNode ‹_› ?_; script_simp; done)
  | (refine TableScript.noFile ‹_› ?_; script_simp; done)
  | (refine TableScript.noDir ‹_› ?_; script_simp; done)
  | (refine TableScript.node ‹_› ?_ ?_ ?_ ?_ <;> script_simp; done)
  | (refine TableScript.file ‹_› ?_ ?_ ?_ <;> script_simp; done)
  | (refine TableScript.dir ‹_› ?_ ?_ ?_ <;> script_simp; done)
  | (refine TableScript.closeFile ‹_› ?_ ?_ ?_ <;> script_simp; done)
  | (refine TableScript.closeDir ‹_› ?_ ?_ ?_ <;> script_simp; done)
  | (refine TableScript.openFile rfl ‹_› ?_ ?_ ?_ ?_ <;> script_simp; done)
  | (refine TableScript.openDir rfl ‹_› ?_ ?_ ?_ ?_ <;> script_simp; done)
  | (refine TableScript.forget rfl ?_ <;> script_simp; done))

/-- The operations and observations of a thread that has done something. -/
theorem VfsTrace.script {fs : Filesystem ν φ η σ ε} {q : AnyRequest} {evs rest : List (VfsEv ν φ η ε)}
    {o : Outcome ε Unit} {minor : Nat} {hdr : FuseInHeader} {fin : Option (Option (Outcome ε Unit))}
    (h : VfsTrace fs q (evs ++ rest) o) (hne : evs ≠ []) (hf : fin = some (some (.ok ())) → rest = [] ∧ o = .ok ()) :
    TableScript (frame hdr.unique fs.os.invalidArgument.val [])
      (fun fh fl => frame hdr.unique 0 ((openReply fh fl).payload minor)) q
      (evs.flatMap (VfsEv.obs minor hdr)) fin (evs.filterMap VfsEv.op) := by
  generalize hl : evs ++ rest = l at h
  obtain ⟨n, hn, rfl, rfl⟩ := prefix_eq hl
  clear hl
  cases h
  all_goals
    rcases n with _ | _ | _ | _ | _ | _ | n <;> try first
      | exact absurd rfl hne
      | (simp only [List.length_cons, List.length_nil] at hn; omega)
      | (simp only [List.take, List.drop] at hf ⊢; clear hn hne; script_end)
      | (have hf' : fin ≠ some (some (.ok ())) := fun h => by simpa using hf h
         clear hf
         simp only [List.take] at *; clear hn hne
         refine TableScript.node ‹_› ?_ ?_ ?_ ?_ <;> script_simp
         done)
  case lookupFound.succ.succ.succ.succ.succ.zero v d res w attr nid hq hr hi =>
    exact TableScript.found (m := frame hdr.unique 0 ((foundEntry res attr).payload minor)) rfl hq
      (by script_simp) (by script_simp) (by script_simp) (by script_simp)
  case open_Ok.succ.succ.succ.succ.zero v d res fh r hq =>
    exact TableScript.openFile (fl := res.openFlags) rfl hq (by script_simp) (by script_simp) (by script_simp) (by script_simp)
  case open_Ok.succ.succ.succ.succ.succ.zero v d res fh r hq =>
    exact TableScript.openFile (fl := res.openFlags) rfl hq (by script_simp) (by script_simp)
      (by simp [VfsEv.obs, openObs, error_open]; exact fun m => ⟨fun _ h _ => h, fun _ h _ => h⟩)
      (by script_simp)
  case opendirOk.succ.succ.succ.succ.zero v d res fh r hq =>
    exact TableScript.openDir (fl := res.openFlags) rfl hq (by script_simp) (by script_simp) (by script_simp) (by script_simp)
  case opendirOk.succ.succ.succ.succ.succ.zero v d res fh r hq =>
    exact TableScript.openDir (fl := res.openFlags) rfl hq (by script_simp) (by script_simp)
      (by simp [VfsEv.obs, openObs, error_open]; exact fun m => ⟨fun _ h _ => h, fun _ h _ => h⟩)
      (by script_simp)

theorem ofThread_events (t : Nat) (L : List (Nat × VfsEv ν φ η ε)) :
    (ofThread t (L.map fun x => (x.1, x.2.op))).filterMap id = (eventsOf t L).filterMap VfsEv.op := by
  unfold ofThread eventsOf
  rw [List.filter_map, List.map_map, List.filterMap_map, List.filterMap_map]
  rfl

theorem ofThread_obs (t minor : Nat) (hdr : Nat → FuseInHeader) (L : List (Nat × VfsEv ν φ η ε)) :
    ofThread t (obsOf minor hdr L) = (eventsOf t L).flatMap (VfsEv.obs minor (hdr t)) := by
  unfold ofThread obsOf
  induction L with
  | nil => rfl
  | cons x L ih =>
    obtain ⟨u, e⟩ := x
    rw [List.flatMap_cons, List.filter_append, List.map_append, ih]
    by_cases hu : u = t
    · subst hu
      rw [eventsOf_cons_self, List.flatMap_cons]
      congr 1
      rw [List.filter_map, List.map_map]
      have : (e.obs minor (hdr u)).filter ((fun x : Nat × Obs ν φ η => x.1 == u) ∘ fun o => (u, o)) = e.obs minor (hdr u) := by
        rw [List.filter_eq_self]
        intro a _
        simp
      rw [this]
      exact List.map_id _
    · rw [eventsOf_cons_ne hu]
      have : (((e.obs minor (hdr u)).map fun o => (u, o)).filter fun x : Nat × Obs ν φ η => x.1 == t) = [] := by
        rw [List.filter_eq_nil_iff]
        intro a ha
        obtain ⟨o, _, rfl⟩ := List.mem_map.mp ha
        simpa using hu
      rw [this]
      rfl

/-- The journal of an execution. -/
theorem Serving.journal {fs : Filesystem ν φ η σ ε} {root : ν} {w0 : σ} {bufs : Nat → Bytes} {tr pool s}
    (h : Serving fs root w0 bufs tr pool s) :
    ∃ J : List (Nat × Option (TableOp ν φ η)),
      J.map (·.1) = tr.map (·.1) ∧ (Tables.new root).AllowsAll (J.filterMap (·.2)) s.tables ∧
      ∀ t, ((ofThread t J).filterMap id = [] ∧ ofThread t (observed tr) = [] ∧
          (pool t).result ≠ some (some (.ok ()))) ∨
        ∃ q, RequestIs fs (bufs t) q ∧
          TableScript (frame (hdrOf (bufs t)).unique fs.os.invalidArgument.val [])
            (fun fh fl => frame (hdrOf (bufs t)).unique 0 (layout_fuse_open_out { fh := fh, open_flags := fl }))
            q (ofThread t (observed tr)) (pool t).result ((ofThread t J).filterMap id) := by
  obtain ⟨L, _, l1, _, l2, _, l3, _, l4, _⟩ := h.hist (.nil _ _)
  refine ⟨L.map fun x => (x.1, x.2.op), ?_, ?_, fun t => ?_⟩
  · rw [List.map_map, ← l2]; rfl
  · have := l1.ops
    rw [tables_new] at this
    rw [List.filterMap_map]
    exact this
  · rw [ofThread_events, l3, ofThread_obs]
    cases he : eventsOf t L with
    | nil =>
      refine Or.inl ⟨rfl, rfl, fun hr => ?_⟩
      have h4 := l4 t
      rw [he] at h4
      cases hp : pool t with
      | step f k => rw [hp] at hr; cases hr
      | done o =>
        rw [hp] at hr
        cases hr
        obtain ⟨rest, out, h5, h6, _⟩ := h4
        obtain ⟨rfl, rfl⟩ := h6 _ hp
        generalize hl : ([] ++ [] : List (VfsEv ν φ η ε)) = l at h5
        cases h5 with
        | handled ht hd hv => subst hl; cases hv
    | cons e evs =>
      obtain ⟨q, rest, o, hq, hv, hr⟩ := (l4 t).trace (h.accepted t) (e := e) (by rw [he]; exact List.mem_cons_self)
      rw [he] at hv
      refine Or.inr ⟨q, hq, VfsTrace.script (fs := fs.recorded) (minor := fs.layout.versionMinor.toNat) hv (by simp) fun hf => ?_⟩
      cases hp : pool t with
      | step f k => rw [hp] at hf; cases hf
      | done o' =>
        rw [hp] at hf
        cases hf
        obtain ⟨h1, h2⟩ := hr _ hp
        cases h2
        exact ⟨h1, rfl⟩

/-- **C69**: the tables are linearizable.  In every execution there is a journal `J` with one entry per step, in
the order of the steps, each an operation on the tables or nothing; the operations are allowed by plain tables
that start with the root alone; and every thread either has not touched the tables, shows nothing and has not
succeeded, or its operations are those its request and its observations call for. -/
theorem C69_linearizable {fs : Filesystem ν φ η σ ε} {root : ν} {w0 : σ} {bufs : Nat → Bytes} {tr pool s}
    (h : Serving fs root w0 bufs tr pool s) :
    ∃ (J : List (Nat × Option (TableOp ν φ η))) (T : Tables ν φ η),
      J.map (·.1) = tr.map (·.1) ∧ (Tables.new root).AllowsAll (J.filterMap (·.2)) T ∧
      ∀ t, ((ofThread t J).filterMap id = [] ∧ ofThread t (observed tr) = [] ∧
          (pool t).result ≠ some (some (.ok ()))) ∨
        ∃ q, RequestIs fs (bufs t) q ∧
          TableScript (frame (hdrOf (bufs t)).unique fs.os.invalidArgument.val [])
            (fun fh fl => frame (hdrOf (bufs t)).unique 0 (layout_fuse_open_out { fh := fh, open_flags := fl }))
            q (ofThread t (observed tr)) (pool t).result ((ofThread t J).filterMap id) := by
  have ⟨J, h1⟩ := h.journal
  exact ⟨J, _, h1⟩

/-- C69 at the level of locks, where a critical section takes several steps: the journal has at most one entry
per step of a thread, and the threads' observations and results are those of the plain tables. -/
theorem C69_linearizable_locks {fs : Filesystem ν φ η σ ε} {root : ν} {w0 : σ} {bufs : Nat → Bytes} {tr c}
    (h : LServing fs root w0 bufs tr c) :
    ∃ (J : List (Nat × Option (TableOp ν φ η))) (T : Tables ν φ η),
      (∀ t ∈ J.map (·.1), t ∈ tr.map (·.1)) ∧ (Tables.new root).AllowsAll (J.filterMap (·.2)) T ∧
      ((∀ l, c.Free l) → T = c.mem.tables) ∧
      ∀ t, ((ofThread t J).filterMap id = [] ∧ ofThread t (observed tr) = [] ∧
          c.threads t ≠ .out (.done (some (.ok ())))) ∨
        ∃ q fin, RequestIs fs (bufs t) q ∧ (∀ o, c.threads t = .out (.done o) → fin = some o) ∧
          TableScript (frame (hdrOf (bufs t)).unique fs.os.invalidArgument.val [])
            (fun fh fl => frame (hdrOf (bufs t)).unique 0 (layout_fuse_open_out { fh := fh, open_flags := fl }))
            q (ofThread t (observed tr)) fin ((ofThread t J).filterMap id) := by
  obtain ⟨tr', pool, s, tr2', pool2, s2, a1, a2, a3, a4, a5, a6, a7, a8, a9, _⟩ := C66_atomic h (.nil _)
  obtain ⟨J, b1, b2, b3⟩ := a1.journal
  refine ⟨J, s.tables, fun t ht => a5 t (b1 ▸ ht), b2, fun hf => by rw [a9 hf], fun t => ?_⟩
  rw [← a3]
  rcases b3 t with ⟨c1, c2, c3⟩ | ⟨q, c1, c2⟩
  · refine Or.inl ⟨c1, c2, fun hd => c3 ?_⟩
    rw [a7 t _ hd]
    rfl
  · refine Or.inr ⟨q, _, c1, fun o ho => ?_, c2⟩
    rw [a7 t _ ho]
    rfl

/-- Node 2. -/
private def two : NodeId := ⟨2, by decide⟩

-- A node looked up twice survives one FORGET and not the second.
example : ∃ T, (Tables.new 100 : Tables Nat Nat Nat).AllowsAll
    [.node NodeId.root (some 100), .register two 200, .register two 201, .node two (some 200), .forget [two],
     .node two (some 200), .forget [two], .node two none] T :=
  ⟨_, .cons ⟨rfl, rfl⟩ (.cons rfl (.cons rfl (.cons ⟨rfl, rfl⟩ (.cons rfl (.cons ⟨rfl, rfl⟩ (.cons rfl
    (.cons ⟨rfl, rfl⟩ (.nil _))))))))⟩

-- Nothing else is allowed: not the second node, not a node given back, not a handle out of order.
example : ¬ ∃ T, (Tables.new 100 : Tables Nat Nat Nat).AllowsAll
    [.register two 200, .register two 201, .node two (some 201)] T :=
  fun ⟨_, .cons h1 (.cons h2 (.cons ⟨h, _⟩ _))⟩ => by
    rw [h2, h1] at h
    exact absurd h (by decide)
example : ¬ ∃ T, (Tables.new 100 : Tables Nat Nat Nat).AllowsAll
    [.register two 200, .forget [two], .node two (some 200)] T :=
  fun ⟨_, .cons h1 (.cons h2 (.cons ⟨h, _⟩ _))⟩ => by
    rw [h2, h1] at h
    exact absurd h (by decide)
example : ¬ ∃ T, (Tables.new 100 : Tables Nat Nat Nat).AllowsAll [.openFile 1 7, .openDir 1 8] T :=
  fun ⟨_, .cons ⟨_, h1⟩ (.cons ⟨h, _⟩ _)⟩ => by
    rw [h1] at h
    exact absurd h (by decide)

-- A GETATTR of node 2 between the answer to a LOOKUP and the end of its handler, and one after it.
example : let msgs := [demoLookup, demoGetattr 2, demoGetattr 2]
    (∀ m ∈ msgs, 40 ≤ m.length ∧ u64At m 8 ≠ 0 ∧ u32At m 0 ≤ m.length) ∧
    demoRun msgs [0, 0, 0, 0, 1, 1, 0, 2, 2, 2] =
      [(0, .node 100), (0, .found 200 2), (0, .sent [0, 0, 0, 0, 2, 0, 0, 0, 0, 0, 0, 0] true),
       (1, .sent [234, 255, 255, 255] true),
       (2, .node 200), (2, .sent [0, 0, 0, 0, 1, 0, 0, 0, 0, 0, 0, 0] true)] := by
  decide +kernel

end Fuse
