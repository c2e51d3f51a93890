import Verif.VfsTrace

/-!
# The VFS handlers follow their traces
-/

namespace Fuse

variable {ν φ η σ ε : Type}

/-- The complete traces of the handler of the request type `t`. -/
def HandlerTrace (fs : Filesystem ν φ η σ ε) (r : Request) (t : ReqType) (evs : List (VfsEv ν φ η ε))
    (out : Outcome ε Unit) : Prop :=
  (∃ e, r.decode (decodeAny t) = .error (.req e) ∧ evs = [] ∧ out = .err (.request e)) ∨
  (((∃ f, r.decode (decodeAny t) = .error (.fault f)) ∨
      ∃ a, r.decode (decodeAny t) = .ok a ∧ ¬ a.AccessorsReturn) ∧ evs = [] ∧ ∃ f, out = .fault f) ∨
  ∃ q, r.decode (decodeAny t) = .ok q ∧ VfsTrace fs q evs out

section
variable {fs : Filesystem ν φ η σ ε} {hdr : FuseInHeader} {α β : Type}

theorem decode_map (r : Request) (d : DecM α) (g : α → β) :
    r.decode (g <$> d) = match r.decode d with
      | .ok a => .ok (g a)
      | .error e => .error e := by
  unfold Request.decode
  cases r.rawHeader with
  | error f => rfl
  | ok h =>
    show (match (g <$> d) _ with | .ok (a, _) => _ | .error e => _) = _
    have hm : ∀ st, (g <$> d) st = match d st with
        | .ok (a, s) => .ok (g a, s)
        | .error e => .error e := by
      intro st
      show (d.bind fun a => pure (g a)) st = _
      unfold StateT.bind
      show Except.bind (d st) _ = _
      cases d st <;> rfl
    simp only
    rw [hm]
    cases d _ <;> rfl

theorem ofFault_ok_bind (a : α) (k : α → VfsM ν φ η σ ε β) : (VfsM.ofFault (.ok a) >>= k) = k a := rfl

theorem sat_decoded {t : ReqType} {r : Request} {d : DecM α} {c : α → AnyRequest}
    {k : α → VfsM ν φ η σ ε Unit} (ht : decodeAny t = c <$> d)
    (h : ∀ a, r.decode (decodeAny t) = .ok (c a) → r.decode d = .ok a → Sat fs hdr (k a) (HandlerTrace fs r t)) :
    Sat fs hdr (VfsM.decoded (r.decode d) >>= k : VfsM ν φ η σ ε Unit) (HandlerTrace fs r t) := by
  have hm := decode_map r d c
  rw [← ht] at hm
  cases hd : r.decode d with
  | error e =>
    rw [hd] at hm
    cases e with
    | req e => exact Or.inl ⟨e, hm, rfl, rfl⟩
    | fault f => exact Or.inr (Or.inl ⟨Or.inl ⟨f, hm⟩, rfl, f, rfl⟩)
  | ok a =>
    rw [hd] at hm
    exact h a hm hd

/-- An accessor. -/
theorem sat_ofFault {t : ReqType} {r : Request} {q : AnyRequest} {x : Except Fault α}
    {k : α → VfsM ν φ η σ ε Unit} (hq : r.decode (decodeAny t) = .ok q) (hx : q.AccessorsReturn → Returns x)
    (h : ∀ a, x = .ok a → Sat fs hdr (k a) (HandlerTrace fs r t)) :
    Sat fs hdr (VfsM.ofFault x >>= k : VfsM ν φ η σ ε Unit) (HandlerTrace fs r t) := by
  cases x with
  | ok a => exact h a rfl
  | error f =>
    refine Or.inr (Or.inl ⟨Or.inr ⟨q, hq, fun ha => ?_⟩, rfl, f, rfl⟩)
    obtain ⟨a, h⟩ := hx ha
    cases h

theorem sat_handled {t : ReqType} {r : Request} {q : AnyRequest} {p : VfsM ν φ η σ ε Unit}
    (hq : r.decode (decodeAny t) = .ok q) (h : Sat fs hdr p (VfsTrace fs q)) :
    Sat fs hdr p (HandlerTrace fs r t) :=
  h.mono fun _ _ h => Or.inr (Or.inr ⟨q, hq, h⟩)

theorem sat_call {f : σ → α × σ} {k : α → VfsM ν φ η σ ε Unit} {P : List (VfsEv ν φ η ε) → Outcome ε Unit → Prop}
    (ev : α → VfsEv ν φ η ε) (hev : ∀ a s s', Called f a s s' → (ev a).Effect fs hdr s s')
    (h : ∀ a, Sat fs hdr (k a) fun evs o => P (ev a :: evs) o) :
    Sat fs hdr (VfsM.call f >>= k : VfsM ν φ η σ ε Unit) P := by
  intro s
  exact ⟨ev (f s.world).1, hev _ _ _ ⟨rfl, rfl⟩, h _⟩

theorem sat_nodesGet {id : NodeId} {k : Except FuseError ν → VfsM ν φ η σ ε Unit}
    {P : List (VfsEv ν φ η ε) → Outcome ε Unit → Prop}
    (h0 : Sat fs hdr (k (.error fs.os.invalidArgument)) fun evs o => P (.gotNode id none :: evs) o)
    (h1 : ∀ v, Sat fs hdr (k (.ok v)) fun evs o => P (.gotNode id (some v) :: evs) o) :
    Sat fs hdr (fs.nodesGet id >>= k : VfsM ν φ η σ ε Unit) P := by
  intro s
  cases hs : s.nodes id with
  | none =>
    refine ⟨.gotNode id none, ⟨by rw [hs]; rfl, rfl⟩, ?_⟩
    show Sat fs hdr (k (s.nodes.get fs.os id)) _
    unfold NodeMap.get
    rw [hs]
    exact h0
  | some y =>
    refine ⟨.gotNode id (some y.node), ⟨by rw [hs]; rfl, rfl⟩, ?_⟩
    show Sat fs hdr (k (s.nodes.get fs.os id)) _
    unfold NodeMap.get
    rw [hs]
    exact h1 _

theorem sat_getFile {id : NodeId} {fh : UInt64} {k : Except FuseError φ → VfsM ν φ η σ ε Unit}
    {P : List (VfsEv ν φ η ε) → Outcome ε Unit → Prop}
    (h0 : Sat fs hdr (k (.error fs.os.invalidArgument)) fun evs o => P (.gotFile fh none :: evs) o)
    (h1 : ∀ v, Sat fs hdr (k (.ok v)) fun evs o => P (.gotFile fh (some v) :: evs) o) :
    Sat fs hdr (fs.getFile id fh >>= k : VfsM ν φ η σ ε Unit) P := by
  intro s
  cases hs : s.handles.openFiles fh with
  | none =>
    refine ⟨.gotFile fh none, ⟨hs, rfl⟩, ?_⟩
    show Sat fs hdr (k (s.handles.getFile fs.os id fh)) _
    unfold HandlesMap.getFile
    rw [hs]
    exact h0
  | some y =>
    refine ⟨.gotFile fh (some y), ⟨hs, rfl⟩, ?_⟩
    show Sat fs hdr (k (s.handles.getFile fs.os id fh)) _
    unfold HandlesMap.getFile
    rw [hs]
    exact h1 _

theorem sat_getDir {id : NodeId} {fh : UInt64} {k : Except FuseError η → VfsM ν φ η σ ε Unit}
    {P : List (VfsEv ν φ η ε) → Outcome ε Unit → Prop}
    (h0 : Sat fs hdr (k (.error fs.os.invalidArgument)) fun evs o => P (.gotDir fh none :: evs) o)
    (h1 : ∀ v, Sat fs hdr (k (.ok v)) fun evs o => P (.gotDir fh (some v) :: evs) o) :
    Sat fs hdr (fs.getDir id fh >>= k : VfsM ν φ η σ ε Unit) P := by
  intro s
  cases hs : s.handles.openDirs fh with
  | none =>
    refine ⟨.gotDir fh none, ⟨hs, rfl⟩, ?_⟩
    show Sat fs hdr (k (s.handles.getDir fs.os id fh)) _
    unfold HandlesMap.getDir
    rw [hs]
    exact h0
  | some y =>
    refine ⟨.gotDir fh (some y), ⟨hs, rfl⟩, ?_⟩
    show Sat fs hdr (k (s.handles.getDir fs.os id fh)) _
    unfold HandlesMap.getDir
    rw [hs]
    exact h1 _

theorem sat_openFile {x : φ} {k : UInt64 → VfsM ν φ η σ ε Unit}
    {P : List (VfsEv ν φ η ε) → Outcome ε Unit → Prop}
    (h0 : P [.handlesFull] (.fault .panic))
    (h1 : ∀ fh, Sat fs hdr (k fh) fun evs o => P (.openedFile fh x :: evs) o) :
    Sat fs hdr (VfsM.locked (·.openFile x) >>= k : VfsM ν φ η σ ε Unit) P := by
  intro s
  by_cases hs : s.handles.nextHandleId.toNat + 1 < 2 ^ 64
  · have he : s.handles.openFile x = (.ok s.handles.nextHandleId, ⟨s.handles.nextHandleId + 1, s.handles.openDirs,
        fun i => if i = s.handles.nextHandleId then some x else s.handles.openFiles i⟩) := by
      unfold HandlesMap.openFile
      simp only [if_pos hs]
    refine ⟨.openedFile s.handles.nextHandleId x, ⟨rfl, hs, ?_⟩, ?_⟩
    · dsimp only
      rw [he]
    · dsimp only
      rw [he]
      exact h1 _
  · have he : s.handles.openFile x = (.error .panic, s.handles) := by
      unfold HandlesMap.openFile
      simp only [if_neg hs]
    refine ⟨.handlesFull, ⟨by have := s.handles.nextHandleId.toNat_lt; omega, ?_⟩, ?_⟩
    · dsimp only
      rw [he]
    · dsimp only
      rw [he]
      exact h0

theorem sat_openDir {x : η} {k : UInt64 → VfsM ν φ η σ ε Unit}
    {P : List (VfsEv ν φ η ε) → Outcome ε Unit → Prop}
    (h0 : P [.handlesFull] (.fault .panic))
    (h1 : ∀ fh, Sat fs hdr (k fh) fun evs o => P (.openedDir fh x :: evs) o) :
    Sat fs hdr (VfsM.locked (·.openDir x) >>= k : VfsM ν φ η σ ε Unit) P := by
  intro s
  by_cases hs : s.handles.nextHandleId.toNat + 1 < 2 ^ 64
  · have he : s.handles.openDir x = (.ok s.handles.nextHandleId, ⟨s.handles.nextHandleId + 1,
        fun i => if i = s.handles.nextHandleId then some x else s.handles.openDirs i, s.handles.openFiles⟩) := by
      unfold HandlesMap.openDir
      simp only [if_pos hs]
    refine ⟨.openedDir s.handles.nextHandleId x, ⟨rfl, hs, ?_⟩, ?_⟩
    · dsimp only
      rw [he]
    · dsimp only
      rw [he]
      exact h1 _
  · have he : s.handles.openDir x = (.error .panic, s.handles) := by
      unfold HandlesMap.openDir
      simp only [if_neg hs]
    refine ⟨.handlesFull, ⟨by have := s.handles.nextHandleId.toNat_lt; omega, ?_⟩, ?_⟩
    · dsimp only
      rw [he]
    · dsimp only
      rw [he]
      exact h0

theorem sat_reply {id : NonZeroU64} (hid : id.val = hdr.unique)
    {m : FuseReplySender σ ε → σ → Except (SendError ε) Unit × σ} (a : FuseAnswer)
    (hm : ∀ x, m x = a.run x) {P : List (VfsEv ν φ η ε) → Outcome ε Unit → Prop}
    (h : ∀ r, P [.sent a r] (afterSend r)) : Sat fs hdr (fs.reply id m) P := by
  intro s
  have ho := fuse_answer_once fs.sock fs.layout id a s.world
  rw [← hm, hid] at ho
  cases hr : m (FuseReplySender.new fs.sock fs.layout id) s.world with
  | mk r w =>
    rw [hr] at ho
    refine ⟨.sent a r, ⟨?_, ?_⟩, ?_⟩
    · dsimp only
      rw [hr]
      exact ho
    · dsimp only
    · dsimp only
      rw [hr]
      have := h r
      cases r <;> exact this

theorem sat_reply_then {id : NonZeroU64} (hid : id.val = hdr.unique)
    {m : FuseReplySender σ ε → σ → Except (SendError ε) Unit × σ} (a : FuseAnswer)
    (hm : ∀ x, m x = a.run x) {k : Unit → VfsM ν φ η σ ε Unit}
    {P : List (VfsEv ν φ η ε) → Outcome ε Unit → Prop}
    (h0 : ∀ e, P [.sent a (.error e)] (.err (.send e)))
    (h1 : Sat fs hdr (k ()) fun evs o => P (.sent a (.ok ()) :: evs) o) :
    Sat fs hdr (fs.reply id m >>= k : VfsM ν φ η σ ε Unit) P := by
  refine Sat.bind (P := P) (sat_reply hid a hm ?_)
  intro r
  cases r with
  | error e => exact h0 e
  | ok u => exact h1

theorem uint64_succ {n : UInt64} (h : n.toNat + 1 < 2 ^ 64) : (n + 1).toNat = n.toNat + 1 := by
  rw [UInt64.toNat_add]
  exact Nat.mod_eq_of_lt h

theorem sat_nodesAdd {id : NodeId} {v : ν} {P : List (VfsEv ν φ η ε) → Outcome ε Unit → Prop}
    (h0 : P [.countFull id] (.fault .panic)) (h1 : P [.added id v] (.ok ())) :
    Sat fs hdr (Filesystem.nodesAdd id v : VfsM ν φ η σ ε Unit) P := by
  intro s
  cases hs : s.nodes id with
  | none =>
    have he : s.nodes.add id v = (.ok (), s.nodes.insert id ⟨v, 1⟩) := by
      unfold NodeMap.add
      simp only [hs]
    refine ⟨.added id v, ⟨⟨v, 1⟩, ?_, ?_⟩, ?_⟩
    · dsimp only
      rw [he]
      rfl
    · rw [hs]
    · dsimp only
      rw [he]
      exact h1
  | some y =>
    by_cases hc : y.lookupCount.toNat + 1 < 2 ^ 64
    · have he : s.nodes.add id v =
          (.ok (), s.nodes.insert id { y with lookupCount := y.lookupCount + 1 }) := by
        unfold NodeMap.add
        simp only [hs, if_pos hc]
      refine ⟨.added id v, ⟨{ y with lookupCount := y.lookupCount + 1 }, ?_, ?_⟩, ?_⟩
      · dsimp only
        rw [he]
        rfl
      · rw [hs]
        exact ⟨rfl, uint64_succ hc⟩
      · dsimp only
        rw [he]
        exact h1
    · have he : s.nodes.add id v = (.error .panic, s.nodes) := by
        unfold NodeMap.add
        simp only [hs, if_neg hc]
      refine ⟨.countFull id, ⟨⟨y, hs, by have := y.lookupCount.toNat_lt; omega⟩, ?_⟩, ?_⟩
      · dsimp only
        rw [he]
      · dsimp only
        rw [he]
        exact h0

end

section
variable (fs : Filesystem ν φ η σ ε) {hdr : FuseInHeader} {id : NonZeroU64} {r : Request}

theorem idAndHeader_ok (hh : r.rawHeader = .ok hdr) (hi : hdr.requestId = .ok id) :
    Filesystem.idAndHeader r = .ok (id, hdr) := by
  unfold Filesystem.idAndHeader
  rw [hh]
  show (do let id ← hdr.requestId; return (id, hdr)) = _
  rw [hi]
  rfl

theorem requestId_val (hi : hdr.requestId = .ok id) : id.val = hdr.unique := by
  unfold FuseInHeader.requestId NonZeroU64.newUnchecked at hi
  split at hi
  · cases hi; rfl
  · cases hi

theorem getattr_sat (hh : r.rawHeader = .ok hdr) (hi : hdr.requestId = .ok id) :
    Sat fs hdr (fs.getattr r) (HandlerTrace fs r (.getattr fs.layout)) := by
  unfold Filesystem.getattr
  rw [idAndHeader_ok hh hi, ofFault_ok_bind]
  refine sat_decoded (c := .getattr) rfl fun q hq _ => ?_
  refine sat_ofFault hq And.left fun a0 ha0 => ?_
  refine sat_handled hq ?_
  refine sat_nodesGet ?_ fun v => ?_
  · exact sat_reply (requestId_val hi) (.err _) (fun _ => rfl) fun _ => .noNode _ ha0
  · refine sat_call (.getattr v q) (fun _ _ _ h => h) fun x => ?_
    cases x with
    | error e => exact sat_reply (requestId_val hi) (.err _) (fun _ => rfl) fun _ => .getattrErr _ _ _ ha0
    | ok res =>
      exact sat_reply (requestId_val hi) (attrReply res) (fun _ => by unfold attrReply; simp only [vfsSplitDuration_eq]; rfl) fun _ => .getattrOk _ _ _ ha0

theorem getxattr_sat (hh : r.rawHeader = .ok hdr) (hi : hdr.requestId = .ok id) :
    Sat fs hdr (fs.getxattr r) (HandlerTrace fs r (.getxattr)) := by
  unfold Filesystem.getxattr
  rw [idAndHeader_ok hh hi, ofFault_ok_bind]
  refine sat_decoded (c := .getxattr) rfl fun q hq _ => ?_
  refine sat_ofFault hq (fun h => h) fun a0 ha0 => ?_
  refine sat_handled hq ?_
  refine sat_nodesGet ?_ fun v => ?_
  · exact sat_reply (requestId_val hi) (.err _) (fun _ => rfl) fun _ => .noNode _ ha0
  · refine sat_call (.getxattr v q) (fun _ _ _ h => h) fun x => ?_
    cases x with
    | error e => exact sat_reply (requestId_val hi) (.err _) (fun _ => rfl) fun _ => .getxattrErr _ _ _ ha0
    | ok res =>
      exact sat_reply (requestId_val hi) (.okBuf res) (fun _ => rfl) fun _ => .getxattrOk _ _ _ ha0

theorem listxattr_sat (hh : r.rawHeader = .ok hdr) (hi : hdr.requestId = .ok id) :
    Sat fs hdr (fs.listxattr r) (HandlerTrace fs r (.listxattr)) := by
  unfold Filesystem.listxattr
  rw [idAndHeader_ok hh hi, ofFault_ok_bind]
  refine sat_decoded (c := .listxattr) rfl fun q hq _ => ?_
  refine sat_ofFault hq (fun h => h) fun a0 ha0 => ?_
  refine sat_handled hq ?_
  refine sat_nodesGet ?_ fun v => ?_
  · exact sat_reply (requestId_val hi) (.err _) (fun _ => rfl) fun _ => .noNode _ ha0
  · refine sat_call (.listxattr v q) (fun _ _ _ h => h) fun x => ?_
    cases x with
    | error e => exact sat_reply (requestId_val hi) (.err _) (fun _ => rfl) fun _ => .listxattrErr _ _ _ ha0
    | ok res =>
      exact sat_reply (requestId_val hi) (.okBuf res) (fun _ => rfl) fun _ => .listxattrOk _ _ _ ha0

theorem statfs_sat (hh : r.rawHeader = .ok hdr) (hi : hdr.requestId = .ok id) :
    Sat fs hdr (fs.statfs r) (HandlerTrace fs r (.statfs)) := by
  unfold Filesystem.statfs
  rw [idAndHeader_ok hh hi, ofFault_ok_bind]
  refine sat_decoded (c := .statfs) rfl fun q hq _ => ?_
  refine sat_handled hq ?_
  refine sat_nodesGet ?_ fun v => ?_
  · exact sat_reply (requestId_val hi) (.err _) (fun _ => rfl) fun _ => .noNode _ rfl
  · refine sat_call (.statfs v q) (fun _ _ _ h => h) fun x => ?_
    cases x with
    | error e => exact sat_reply (requestId_val hi) (.err _) (fun _ => rfl) fun _ => .statfsErr _ _ _ rfl
    | ok res =>
      exact sat_reply (requestId_val hi) (.ok (.statfs { st := res })) (fun _ => rfl) fun _ => .statfsOk _ _ _ rfl

theorem readlink_sat (hh : r.rawHeader = .ok hdr) (hi : hdr.requestId = .ok id) :
    Sat fs hdr (fs.readlink r) (HandlerTrace fs r (.readlink)) := by
  unfold Filesystem.readlink
  rw [idAndHeader_ok hh hi, ofFault_ok_bind]
  refine sat_decoded (c := .readlink) rfl fun q hq _ => ?_
  refine sat_handled hq ?_
  refine sat_nodesGet ?_ fun v => ?_
  · exact sat_reply (requestId_val hi) (.err _) (fun _ => rfl) fun _ => .noNode _ rfl
  · refine sat_call (.asSymlink v) (fun _ _ _ h => h) fun d => ?_
    cases d with
    | none => exact sat_reply (requestId_val hi) (.err _) (fun _ => rfl) fun _ => .readlinkNot _ _ rfl
    | some d =>
      refine sat_call (.readlink d q) (fun _ _ _ h => h) fun x => ?_
      cases x with
      | error e => exact sat_reply (requestId_val hi) (.err _) (fun _ => rfl) fun _ => .readlinkErr _ _ _ _ rfl
      | ok res =>
        exact sat_reply (requestId_val hi) (.okBuf res.bytes) (fun _ => rfl) fun _ => .readlinkOk _ _ _ _ rfl

theorem open__sat (hh : r.rawHeader = .ok hdr) (hi : hdr.requestId = .ok id) :
    Sat fs hdr (fs.open_ r) (HandlerTrace fs r (.open_ false)) := by
  unfold Filesystem.open_
  rw [idAndHeader_ok hh hi, ofFault_ok_bind]
  refine sat_decoded (c := .open_) rfl fun q hq _ => ?_
  refine sat_handled hq ?_
  refine sat_nodesGet ?_ fun v => ?_
  · exact sat_reply (requestId_val hi) (.err _) (fun _ => rfl) fun _ => .noNode _ rfl
  · refine sat_call (.asFile v) (fun _ _ _ h => h) fun d => ?_
    cases d with
    | none => exact sat_reply (requestId_val hi) (.err _) (fun _ => rfl) fun _ => .open_Not _ _ rfl
    | some d =>
      refine sat_call (.open_ d q) (fun _ _ _ h => h) fun x => ?_
      cases x with
      | error e => exact sat_reply (requestId_val hi) (.err _) (fun _ => rfl) fun _ => .open_Err _ _ _ _ rfl
      | ok res =>
        refine sat_openFile (.open_Full _ _ _ rfl) fun fh => ?_
        exact sat_reply (requestId_val hi) (openReply fh res.openFlags) (fun _ => rfl) fun _ => .open_Ok _ _ _ _ _ rfl

theorem opendir_sat (hh : r.rawHeader = .ok hdr) (hi : hdr.requestId = .ok id) :
    Sat fs hdr (fs.opendir r) (HandlerTrace fs r (.opendir)) := by
  unfold Filesystem.opendir
  rw [idAndHeader_ok hh hi, ofFault_ok_bind]
  refine sat_decoded (c := .opendir) rfl fun q hq _ => ?_
  refine sat_ofFault hq (fun h => h) fun a0 ha0 => ?_
  refine sat_handled hq ?_
  refine sat_nodesGet ?_ fun v => ?_
  · exact sat_reply (requestId_val hi) (.err _) (fun _ => rfl) fun _ => .noNode _ ha0
  · refine sat_call (.asDirectory v) (fun _ _ _ h => h) fun d => ?_
    cases d with
    | none => exact sat_reply (requestId_val hi) (.err _) (fun _ => rfl) fun _ => .opendirNot _ _ ha0
    | some d =>
      refine sat_call (.opendir d q) (fun _ _ _ h => h) fun x => ?_
      cases x with
      | error e => exact sat_reply (requestId_val hi) (.err _) (fun _ => rfl) fun _ => .opendirErr _ _ _ _ ha0
      | ok res =>
        refine sat_openDir (.opendirFull _ _ _ ha0) fun fh => ?_
        exact sat_reply (requestId_val hi) (openReply fh res.openFlags) (fun _ => rfl) fun _ => .opendirOk _ _ _ _ _ ha0

theorem read_sat (hh : r.rawHeader = .ok hdr) (hi : hdr.requestId = .ok id) :
    Sat fs hdr (fs.read r) (HandlerTrace fs r (.read fs.layout.minor false)) := by
  unfold Filesystem.read
  rw [idAndHeader_ok hh hi, ofFault_ok_bind]
  refine sat_decoded (c := .read) rfl fun q hq _ => ?_
  refine sat_ofFault hq (fun h => h.2.2.1) fun a0 ha0 => ?_
  refine sat_handled hq ?_
  refine sat_getFile ?_ fun v => ?_
  · exact sat_reply (requestId_val hi) (.err _) (fun _ => rfl) fun _ => .noFile _ ha0
  · refine sat_call (.asRead v) (fun _ _ _ h => h) fun d => ?_
    cases d with
    | none => exact sat_reply (requestId_val hi) (.err _) (fun _ => rfl) fun _ => .readNot _ _ ha0
    | some d =>
      refine sat_call (.read d q) (fun _ _ _ h => h) fun x => ?_
      cases x with
      | error e => exact sat_reply (requestId_val hi) (.err _) (fun _ => rfl) fun _ => .readErr _ _ _ _ ha0
      | ok res =>
        exact sat_reply (requestId_val hi) (.okBuf res) (fun _ => rfl) fun _ => .readOk _ _ _ _ ha0

theorem write_sat (hh : r.rawHeader = .ok hdr) (hi : hdr.requestId = .ok id) :
    Sat fs hdr (fs.write r) (HandlerTrace fs r (.write fs.layout.minor false)) := by
  unfold Filesystem.write
  rw [idAndHeader_ok hh hi, ofFault_ok_bind]
  refine sat_decoded (c := .write) rfl fun q hq _ => ?_
  refine sat_ofFault hq (fun h => h.1) fun a0 ha0 => ?_
  refine sat_ofFault hq (fun h => h.2.2.1) fun a1 ha1 => ?_
  refine sat_handled hq ?_
  refine sat_getFile ?_ fun v => ?_
  · exact sat_reply (requestId_val hi) (.err _) (fun _ => rfl) fun _ => .noFile _ ha1
  · refine sat_call (.asWrite v) (fun _ _ _ h => h) fun d => ?_
    cases d with
    | none => exact sat_reply (requestId_val hi) (.err _) (fun _ => rfl) fun _ => .writeNot _ _ ha1
    | some d =>
      refine sat_call (.write d q) (fun _ _ _ h => h) fun x => ?_
      cases x with
      | error e => exact sat_reply (requestId_val hi) (.err _) (fun _ => rfl) fun _ => .writeErr _ _ _ _ ha1
      | ok res =>
        exact sat_reply (requestId_val hi) (.ok (.write { size := res })) (fun _ => rfl) fun _ => .writeOk _ _ _ _ ha1

theorem readdir_sat (hh : r.rawHeader = .ok hdr) (hi : hdr.requestId = .ok id) :
    Sat fs hdr (fs.readdir r) (HandlerTrace fs r (.readdir fs.layout)) := by
  unfold Filesystem.readdir
  rw [idAndHeader_ok hh hi, ofFault_ok_bind]
  refine sat_decoded (c := .readdir) rfl fun q hq _ => ?_
  refine sat_ofFault hq (fun h => h.1) fun a0 ha0 => ?_
  refine sat_ofFault hq (fun h => h.2.2.2.1) fun a1 ha1 => ?_
  refine sat_handled hq ?_
  refine sat_getDir ?_ fun v => ?_
  · exact sat_reply (requestId_val hi) (.err _) (fun _ => rfl) fun _ => .noDir _ ha1
  · refine sat_call (.asReaddir v) (fun _ _ _ h => h) fun d => ?_
    cases d with
    | none => exact sat_reply (requestId_val hi) (.err _) (fun _ => rfl) fun _ => .readdirNot _ _ ha1
    | some d =>
      refine sat_call (.readdir d q) (fun _ _ _ h => h) fun x => ?_
      cases x with
      | error e => exact sat_reply (requestId_val hi) (.err _) (fun _ => rfl) fun _ => .readdirErr _ _ _ _ ha1
      | ok res =>
        exact sat_reply (requestId_val hi) (.okBuf res) (fun _ => rfl) fun _ => .readdirOk _ _ _ _ ha1

theorem readdirplus_sat (hh : r.rawHeader = .ok hdr) (hi : hdr.requestId = .ok id) :
    Sat fs hdr (fs.readdirplus r) (HandlerTrace fs r (.readdirplus fs.layout)) := by
  unfold Filesystem.readdirplus
  rw [idAndHeader_ok hh hi, ofFault_ok_bind]
  refine sat_decoded (c := .readdirplus) rfl fun q hq _ => ?_
  refine sat_ofFault hq (fun h => h.1) fun a0 ha0 => ?_
  refine sat_ofFault hq (fun h => h.2.2.2.1) fun a1 ha1 => ?_
  refine sat_handled hq ?_
  refine sat_getDir ?_ fun v => ?_
  · exact sat_reply (requestId_val hi) (.err _) (fun _ => rfl) fun _ => .noDir _ ha1
  · refine sat_call (.asReaddirplus v) (fun _ _ _ h => h) fun d => ?_
    cases d with
    | none => exact sat_reply (requestId_val hi) (.err _) (fun _ => rfl) fun _ => .readdirplusNot _ _ ha1
    | some d =>
      refine sat_call (.readdirplus d q) (fun _ _ _ h => h) fun x => ?_
      cases x with
      | error e => exact sat_reply (requestId_val hi) (.err _) (fun _ => rfl) fun _ => .readdirplusErr _ _ _ _ ha1
      | ok res =>
        exact sat_reply (requestId_val hi) (.okBuf res) (fun _ => rfl) fun _ => .readdirplusOk _ _ _ _ ha1

theorem lookup_sat (hh : r.rawHeader = .ok hdr) (hi : hdr.requestId = .ok id) :
    Sat fs hdr (fs.lookup r) (HandlerTrace fs r (.lookup)) := by
  unfold Filesystem.lookup
  rw [idAndHeader_ok hh hi, ofFault_ok_bind]
  refine sat_decoded (c := .lookup) rfl fun q hq _ => ?_
  refine sat_handled hq ?_
  refine sat_nodesGet ?_ fun v => ?_
  · exact sat_reply (requestId_val hi) (.err _) (fun _ => rfl) fun _ => .noNode _ rfl
  · refine sat_call (.asDirectory v) (fun _ _ _ h => h) fun d => ?_
    cases d with
    | none => exact sat_reply (requestId_val hi) (.err _) (fun _ => rfl) fun _ => .lookupNot _ _ rfl
    | some d =>
      refine sat_call (.lookup d q) (fun _ _ _ h => h) fun x => ?_
      cases x with
      | error e => exact sat_reply (requestId_val hi) (.err _) (fun _ => rfl) fun _ => .lookupErr _ _ _ _ rfl
      | ok res =>
        obtain ⟨nd, gen, ev, av⟩ := res
        cases nd with
        | none => exact sat_reply (requestId_val hi) (negativeEntry ⟨none, gen, ev, av⟩) (fun _ => by unfold negativeEntry Filesystem.lookupEntry; simp only [vfsSplitDuration_eq]; rfl) fun _ => .lookupNone _ _ _ _ rfl rfl
        | some wa =>
          obtain ⟨w, attr⟩ := wa
          dsimp only
          by_cases h0 : attr.raw.ino = 0
          · have hn : attr.nodeId = .error .invalid := by
              simp [NodeAttr.nodeId, NodeId.newUnchecked, NonZeroU64.newUnchecked, h0]
            rw [hn]
            exact VfsTrace.lookupBad _ _ _ w attr rfl rfl h0
          · have hn : attr.nodeId = .ok ⟨attr.raw.ino, h0⟩ := newUnchecked_ok h0
            rw [hn, ofFault_ok_bind]
            refine sat_reply_then (requestId_val hi) (foundEntry ⟨some (w, attr), gen, ev, av⟩ attr) (fun _ => by unfold foundEntry Filesystem.lookupEntry; simp only [vfsSplitDuration_eq]; rfl) (fun e => ?_) (sat_nodesAdd ?_ ?_)
            · exact .lookupUnsent _ _ _ _ _ _ rfl rfl h0
            · exact .lookupFull _ _ _ _ _ _ rfl rfl rfl
            · exact .lookupFound _ _ _ _ _ _ rfl rfl rfl

theorem release_sat (hh : r.rawHeader = .ok hdr) (hi : hdr.requestId = .ok id) :
    Sat fs hdr (fs.release r) (HandlerTrace fs r (.release fs.layout.minor false)) := by
  unfold Filesystem.release
  rw [idAndHeader_ok hh hi, ofFault_ok_bind]
  refine sat_decoded (c := .release) rfl fun q hq _ => ?_
  refine sat_ofFault hq (fun h => h.1) fun a0 ha0 => ?_
  refine sat_handled hq ?_
  intro s
  cases hs : s.handles.openFiles a0 with
  | none =>
    have hg : s.handles.getFile fs.os q.nodeId a0 = .error fs.os.invalidArgument := by
      unfold HandlesMap.getFile
      rw [hs]
    refine ⟨.gotFile a0 none, ⟨hs, ?_⟩, ?_⟩
    · dsimp only
      rw [hg]
    · dsimp only
      rw [hg]
      exact sat_reply (requestId_val hi) (.err _) (fun _ => rfl) fun _ => .noFile _ ha0
  | some y =>
    have hg : s.handles.getFile fs.os q.nodeId a0 = .ok y := by
      unfold HandlesMap.getFile
      rw [hs]
    cases hr : fs.impl.release y hdr q s.world with
    | mk x w =>
      cases x with
      | error e =>
        refine ⟨.releaseFailed a0 y q e, ⟨hs, ?_, ?_⟩, ?_⟩
        · dsimp only
          rw [hg]
          dsimp only
          rw [hr]
        · dsimp only
          rw [hg]
          dsimp only
          rw [hr]
        · dsimp only
          rw [hg]
          dsimp only
          rw [hr]
          exact sat_reply (requestId_val hi) (.err _) (fun _ => rfl) fun _ => .releaseErr _ _ _ ha0
      | ok u =>
        refine ⟨.released a0 y q, ⟨hs, ?_, ?_⟩, ?_⟩
        · dsimp only
          rw [hg]
          dsimp only
          rw [hr]
        · dsimp only
          rw [hg]
          dsimp only
          rw [hr]
          rfl
        · dsimp only
          rw [hg]
          dsimp only
          rw [hr]
          exact sat_reply (requestId_val hi) .okEmpty (fun _ => rfl) fun _ => .releaseOk _ _ ha0

theorem releasedir_sat (hh : r.rawHeader = .ok hdr) (hi : hdr.requestId = .ok id) :
    Sat fs hdr (fs.releasedir r) (HandlerTrace fs r (.releasedir fs.layout)) := by
  unfold Filesystem.releasedir
  rw [idAndHeader_ok hh hi, ofFault_ok_bind]
  refine sat_decoded (c := .releasedir) rfl fun q hq _ => ?_
  refine sat_ofFault hq (fun h => h.1) fun a0 ha0 => ?_
  refine sat_ofFault hq (fun h => h.2.1) fun a1 ha1 => ?_
  refine sat_handled hq ?_
  intro s
  cases hs : s.handles.openDirs a1 with
  | none =>
    have hg : s.handles.getDir fs.os a0 a1 = .error fs.os.invalidArgument := by
      unfold HandlesMap.getDir
      rw [hs]
    refine ⟨.gotDir a1 none, ⟨hs, ?_⟩, ?_⟩
    · dsimp only
      rw [hg]
    · dsimp only
      rw [hg]
      exact sat_reply (requestId_val hi) (.err _) (fun _ => rfl) fun _ => .noDir _ ha1
  | some y =>
    have hg : s.handles.getDir fs.os a0 a1 = .ok y := by
      unfold HandlesMap.getDir
      rw [hs]
    cases hr : fs.impl.releasedir y hdr q s.world with
    | mk x w =>
      cases x with
      | error e =>
        refine ⟨.releasedirFailed a1 y q e, ⟨hs, ?_, ?_⟩, ?_⟩
        · dsimp only
          rw [hg]
          dsimp only
          rw [hr]
        · dsimp only
          rw [hg]
          dsimp only
          rw [hr]
        · dsimp only
          rw [hg]
          dsimp only
          rw [hr]
          exact sat_reply (requestId_val hi) (.err _) (fun _ => rfl) fun _ => .releasedirErr _ _ _ ha1
      | ok u =>
        refine ⟨.releasedDir a1 y q, ⟨hs, ?_, ?_⟩, ?_⟩
        · dsimp only
          rw [hg]
          dsimp only
          rw [hr]
        · dsimp only
          rw [hg]
          dsimp only
          rw [hr]
          rfl
        · dsimp only
          rw [hg]
          dsimp only
          rw [hr]
          exact sat_reply (requestId_val hi) .okEmpty (fun _ => rfl) fun _ => .releasedirOk _ _ ha1

theorem forget_sat : Sat fs hdr (fs.forget r) (HandlerTrace fs r (.forget fs.checks)) := by
  unfold Filesystem.forget
  refine sat_decoded (c := .forget) rfl fun q hq _ => sat_handled hq ?_
  intro s
  exact ⟨.forgot q.items, rfl, .forget q⟩

end

/-- The handlers follow the traces, whatever other threads do in between. -/
theorem dispatch_sat (fs : Filesystem ν φ η σ ε) {r : Request} {hdr : FuseInHeader} {id : NonZeroU64}
    (hh : r.rawHeader = .ok hdr) (hi : hdr.requestId = .ok id) :
    Sat fs hdr (fs.dispatch r) (DispatchTrace fs r hdr) := by
  have key : ∀ {t : ReqType} {p : VfsM ν φ η σ ε Unit} {n : Nat}, hdr.opcode.toNat = n →
      vfsRequestType fs.layout fs.checks n = some t →
      Sat fs hdr p (HandlerTrace fs r t) →
      Sat fs hdr (Prog.bind p fun out => .done (some out)) (DispatchTrace fs r hdr) := by
    intro t p n hn ht h
    rw [← hn] at ht
    refine Sat.bind (h.mono fun evs out hx => ?_)
    show DispatchTrace fs r hdr (evs ++ []) (some out)
    rw [List.append_nil]
    rcases hx with ⟨e, h1, rfl, rfl⟩ | ⟨h1, rfl, f, rfl⟩ | ⟨q, h1, h2⟩
    · exact .malformed ht h1
    · exact .broken ht h1
    · exact .handled ht h1 h2
  unfold Filesystem.dispatch
  rw [hh]
  dsimp only
  generalize hs : fs.select hdr.opcode r = sel
  unfold Filesystem.select at hs
  by_cases h15 : hdr.opcode = FUSE_READ
  · rw [if_pos h15] at hs
    subst hs
    exact key (n := 15) (by rw [h15]; rfl) rfl (read_sat fs hh hi)
  rw [if_neg h15] at hs
  by_cases h16 : hdr.opcode = FUSE_WRITE
  · rw [if_pos h16] at hs
    subst hs
    exact key (n := 16) (by rw [h16]; rfl) rfl (write_sat fs hh hi)
  rw [if_neg h16] at hs
  by_cases h42 : hdr.opcode = FUSE_BATCH_FORGET
  · rw [if_pos h42] at hs
    subst hs
    exact key (n := 42) (by rw [h42]; rfl) rfl (forget_sat fs)
  rw [if_neg h42] at hs
  by_cases h2 : hdr.opcode = FUSE_FORGET
  · rw [if_pos h2] at hs
    subst hs
    exact key (n := 2) (by rw [h2]; rfl) rfl (forget_sat fs)
  rw [if_neg h2] at hs
  by_cases h3 : hdr.opcode = FUSE_GETATTR
  · rw [if_pos h3] at hs
    subst hs
    exact key (n := 3) (by rw [h3]; rfl) rfl (getattr_sat fs hh hi)
  rw [if_neg h3] at hs
  by_cases h22 : hdr.opcode = FUSE_GETXATTR
  · rw [if_pos h22] at hs
    subst hs
    exact key (n := 22) (by rw [h22]; rfl) rfl (getxattr_sat fs hh hi)
  rw [if_neg h22] at hs
  by_cases h23 : hdr.opcode = FUSE_LISTXATTR
  · rw [if_pos h23] at hs
    subst hs
    exact key (n := 23) (by rw [h23]; rfl) rfl (listxattr_sat fs hh hi)
  rw [if_neg h23] at hs
  by_cases h1 : hdr.opcode = FUSE_LOOKUP
  · rw [if_pos h1] at hs
    subst hs
    exact key (n := 1) (by rw [h1]; rfl) rfl (lookup_sat fs hh hi)
  rw [if_neg h1] at hs
  by_cases h14 : hdr.opcode = FUSE_OPEN
  · rw [if_pos h14] at hs
    subst hs
    exact key (n := 14) (by rw [h14]; rfl) rfl (open__sat fs hh hi)
  rw [if_neg h14] at hs
  by_cases h27 : hdr.opcode = FUSE_OPENDIR
  · rw [if_pos h27] at hs
    subst hs
    exact key (n := 27) (by rw [h27]; rfl) rfl (opendir_sat fs hh hi)
  rw [if_neg h27] at hs
  by_cases h28 : hdr.opcode = FUSE_READDIR
  · rw [if_pos h28] at hs
    subst hs
    exact key (n := 28) (by rw [h28]; rfl) rfl (readdir_sat fs hh hi)
  rw [if_neg h28] at hs
  by_cases h44 : hdr.opcode = FUSE_READDIRPLUS
  · rw [if_pos h44] at hs
    subst hs
    exact key (n := 44) (by rw [h44]; rfl) rfl (readdirplus_sat fs hh hi)
  rw [if_neg h44] at hs
  by_cases h5 : hdr.opcode = FUSE_READLINK
  · rw [if_pos h5] at hs
    subst hs
    exact key (n := 5) (by rw [h5]; rfl) rfl (readlink_sat fs hh hi)
  rw [if_neg h5] at hs
  by_cases h18 : hdr.opcode = FUSE_RELEASE
  · rw [if_pos h18] at hs
    subst hs
    exact key (n := 18) (by rw [h18]; rfl) rfl (release_sat fs hh hi)
  rw [if_neg h18] at hs
  by_cases h29 : hdr.opcode = FUSE_RELEASEDIR
  · rw [if_pos h29] at hs
    subst hs
    exact key (n := 29) (by rw [h29]; rfl) rfl (releasedir_sat fs hh hi)
  rw [if_neg h29] at hs
  by_cases h17 : hdr.opcode = FUSE_STATFS
  · rw [if_pos h17] at hs
    subst hs
    exact key (n := 17) (by rw [h17]; rfl) rfl (statfs_sat fs hh hi)
  rw [if_neg h17] at hs
  subst hs
  refine .unsupported ?_
  unfold vfsRequestType
  split
  · rename_i h; exact absurd (UInt32.toNat_inj.mp h) h1
  · rename_i h; exact absurd (UInt32.toNat_inj.mp h) h2
  · rename_i h; exact absurd (UInt32.toNat_inj.mp h) h3
  · rename_i h; exact absurd (UInt32.toNat_inj.mp h) h5
  · rename_i h; exact absurd (UInt32.toNat_inj.mp h) h14
  · rename_i h; exact absurd (UInt32.toNat_inj.mp h) h15
  · rename_i h; exact absurd (UInt32.toNat_inj.mp h) h16
  · rename_i h; exact absurd (UInt32.toNat_inj.mp h) h17
  · rename_i h; exact absurd (UInt32.toNat_inj.mp h) h18
  · rename_i h; exact absurd (UInt32.toNat_inj.mp h) h22
  · rename_i h; exact absurd (UInt32.toNat_inj.mp h) h23
  · rename_i h; exact absurd (UInt32.toNat_inj.mp h) h27
  · rename_i h; exact absurd (UInt32.toNat_inj.mp h) h28
  · rename_i h; exact absurd (UInt32.toNat_inj.mp h) h29
  · rename_i h; exact absurd (UInt32.toNat_inj.mp h) h42
  · rename_i h; exact absurd (UInt32.toNat_inj.mp h) h44
  · rfl

/-- A complete execution of `dispatch` under arbitrary interference is explained by a trace. -/
theorem dispatch_exec (fs : Filesystem ν φ η σ ε) {r : Request} {hdr : FuseInHeader} {id : NonZeroU64}
    (hh : r.rawHeader = .ok hdr) (hi : hdr.requestId = .ok id) {tr out}
    (h : (fs.dispatch r).Exec tr out) :
    ∃ evs, Explains fs hdr evs tr ∧ DispatchTrace fs r hdr evs out :=
  (dispatch_sat fs hh hi).exec h

/-- A partial execution is explained by a prefix of a trace. -/
theorem dispatch_partial (fs : Filesystem ν φ η σ ε) (s0 : Vfs ν φ η σ) {r : Request} {hdr : FuseInHeader}
    {id : NonZeroU64} (hh : r.rawHeader = .ok hdr) (hi : hdr.requestId = .ok id) {tr q}
    (h : (fs.dispatch r).Partial tr q) :
    ∃ evs rest out, Explains fs hdr evs tr ∧ DispatchTrace fs r hdr (evs ++ rest) out := by
  obtain ⟨evs, h1, h2⟩ := (dispatch_sat fs hh hi).partial h
  obtain ⟨rest, out, h3⟩ := h2.complete s0
  exact ⟨evs, rest, out, h1, h3⟩

end Fuse
