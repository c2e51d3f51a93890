import Verif.Hello
import Verif.ScriptPool
import Verif.PropDecode
import Verif.PropDirent
import Verif.PropMountCall

/-!
# C57: the example program serves its file

What the program is to answer is written down in terms of the requests a client sends (`ClientReq`) and of the
bytes of the replies (`frame`), independently of the handlers.
-/

namespace Fuse
open Spec

variable {σ ε : Type}

namespace Spec

/-- `hello.txt`. -/
def helloTxt : Bytes := ['h', 'e', 'l', 'l', 'o', '.', 't', 'x', 't'].map fun c => UInt8.ofNat c.toNat

/-- What is in the file. -/
def helloContent : Bytes :=
  ['H', 'e', 'l', 'l', 'o', ',', ' ', 'w', 'o', 'r', 'l', 'd', '!', '\n'].map fun c => UInt8.ofNat c.toNat

/-- The attributes of the file: a regular file of 14 bytes, mode 644, owned by the process's user. -/
def helloFileAttr (uid gid : UInt32) : FuseAttr :=
  { ino := 100, size := 14, mode := 0o100644, nlink := 1, uid := uid, gid := gid }

/-- The attributes of the root directory. -/
def helloRootAttr (uid gid : UInt32) : FuseAttr :=
  { ino := 1, mode := 0o040755, nlink := 2, uid := uid, gid := gid }

/-- A directory listing with the one entry: inode, offset, name length, type, name, padding. -/
def helloListing : Bytes := le64 100 ++ le64 1 ++ le32 9 ++ le32 8 ++ helloTxt ++ List.replicate 7 0

/-- A reply that opens a file or directory with the given handle. -/
def openedAs (fh : UInt64) : Bytes := le64 fh ++ le32 0 ++ le32 0

/-- The listing, from `offset` on. -/
def helloList (fh offset : UInt64) : Int32 × Bytes :=
  if fh ≠ 1002 then (-22, []) else if offset ≠ 0 then (0, []) else (0, helloListing)

/-- The error number and payload that the program is to answer to a request on node `nodeid` in a session of
protocol 7.`minor`; `none` for requests that have no answer.  A READ is answered with the whole file. -/
def helloAnswer (uid gid : UInt32) (minor : Nat) (nodeid : UInt64) : ClientReq → Option (Int32 × Bytes)
  | .forget _ | .batchForget _ _ | .interrupt _ => none
  | .lookup name =>
    if nodeid = 1 ∧ name = helloTxt then
      some (0, entryBytes minor { nodeid := 100, attr := helloFileAttr uid gid })
    else some (-2, [])
  | .getattrOld | .getattr _ =>
    if nodeid = 1 then some (0, attrOutBytes minor { attr := helloRootAttr uid gid })
    else if nodeid = 100 then some (0, attrOutBytes minor { attr := helloFileAttr uid gid })
    else some (-2, [])
  | .open_ _ => if nodeid = 100 then some (0, openedAs 1001) else some (-2, [])
  | .readOld b => some (if b.fh = 1001 then (0, helloContent) else (-22, []))
  | .read b => some (if b.fh = 1001 then (0, helloContent) else (-22, []))
  | .opendir _ => if nodeid = 1 then some (0, openedAs 1002) else some (-2, [])
  | .readdirOld b => some (helloList b.fh b.offset)
  | .readdir b => some (helloList b.fh b.offset)
  | .releasedirOld b => some (if b.fh = 1002 then (0, []) else (-22, []))
  | .releasedir b => some (if b.fh = 1002 then (0, []) else (-22, []))
  | _ => some (-38, [])

/-- The request is in the layout of protocol 7.`minor` (for the requests that the program decodes). -/
def HelloSent (minor : UInt16) : ClientReq → Prop
  | .getattrOld | .readOld _ | .readdirOld _ => minor < 9
  | .getattr _ | .read _ | .readdir _ => 9 ≤ minor
  | .releasedirOld _ => minor < 8
  | .releasedir _ => 8 ≤ minor
  | _ => True

/-- A listing that is asked for has room for the one entry, and the memory allocated for it is aligned. -/
def HelloRoom (alloc : Nat → Nat) : ClientReq → Prop
  | .readdirOld b => b.fh = 1002 → b.offset = 0 → 40 ≤ b.size.toNat ∧ alloc b.size.toNat % 8 = 0
  | .readdir b => b.fh = 1002 → b.offset = 0 → 40 ≤ b.size.toNat ∧ alloc b.size.toNat % 8 = 0
  | _ => True

/-- The types of the requests that the program decodes, by opcode. -/
def helloType (layout : FuseLayout) : Nat → Option ReqType
  | 1 => some .lookup
  | 3 => some (.getattr layout)
  | 14 => some (.open_ false)
  | 15 => some (.read layout.versionMinor.toUInt32 false)
  | 27 => some .opendir
  | 28 => some (.readdir layout)
  | 29 => some (.releasedir layout)
  | _ => none

/-- The messages to be sent for a message received. -/
inductive HelloReplies (uid gid : UInt32) (minor : UInt16) (alloc : Nat → Nat) : Bytes → List Bytes → Prop
  /-- A request of the protocol, possibly followed by other bytes. -/
  | request (a : ClientReq) (unique nodeid : UInt64) (cuid cgid pid padding : UInt32) (tail : Bytes)
      (hw : a.WellFormed nodeid false) (hs : HelloSent minor a) (hr : HelloRoom alloc a) (hu : unique ≠ 0)
      (hl : 40 + a.body.length < 2 ^ 32) :
      HelloReplies uid gid minor alloc (a.message unique nodeid cuid cgid pid padding ++ tail)
        (match helloAnswer uid gid minor.toNat nodeid a with
          | some (e, p) => [frame unique e p]
          | none => [])
  /-- Any other operation, known or unknown, whatever follows the header. -/
  | other (m : Bytes) (ha : Acceptable m) (ho : u32At m 4 ∉ [1, 2, 3, 14, 15, 27, 28, 29, 36, 42]) :
      HelloReplies uid gid minor alloc m [frame (idOf m) (-38) []]

end Spec

/-! ## Handlers -/

namespace Hello

variable (fs : Hello σ ε)

/-- The handler sends one message, once, and panics if and only if sending fails. -/
def Answers (h : HelloM σ Unit) (id : UInt64) (e : Int32) (p : Bytes) : Prop :=
  ∀ s, ∃ buf, Carries buf (frame id e p) ∧
    h.run s = match fs.sock.send buf s with
      | (.ok (), s) => (.ok (), s)
      | (.error _, s) => (.error .panic, s)

theorem reply_answers (id : NonZeroU64) (a : FuseAnswer)
    (h : 16 + (a.payload fs.layout.versionMinor.toNat).length < 2 ^ 32) :
    fs.Answers (fs.reply id (fun r => a.run r)) id.val a.error (a.payload fs.layout.versionMinor.toNat) := by
  intro s
  obtain ⟨buf, h1, h2⟩ := C17_fuse fs.sock fs.layout id a s h
  refine ⟨buf, h1, ?_⟩
  show (match a.run (FuseReplySender.new fs.sock fs.layout id) s with
    | (.ok (), s) => (Except.ok (), s) | (.error _, s) => (Except.error Fault.panic, s)) = _
  rw [h2]
  rcases fs.sock.send buf s with ⟨_ | _, _⟩ <;> rfl

theorem checked_bind {α β : Type} {x : Except Fault α} {a : α} (h : x = .ok a) (f : α → HelloM σ β) :
    (checked x >>= f) = f a := by
  subst h; rfl

theorem decoded_bind {α β : Type} {x : Res α} {a : α} (h : x = .ok a) (f : α → HelloM σ β) :
    (decoded x >>= f) = f a := by
  subst h; rfl

theorem requestId_bind {m : Bytes} (h : Acceptable m) {β : Type} (f : NonZeroU64 → HelloM σ β) :
    ∃ id : NonZeroU64, id.val = idOf m ∧ (requestId ⟨m⟩ >>= f) = f id := by
  have hf := (hdr_fields h.1).2.2.1
  have hid : (dec (m.take 40) : FuseInHeader).unique = idOf m := by
    apply UInt64.toNat_inj.mp
    rw [hf, idOf, UInt64.toNat_ofNat']
    exact (Nat.mod_eq_of_lt (by rw [← hf]; exact (dec (m.take 40) : FuseInHeader).unique.toNat_lt)).symm
  have hne : (dec (m.take 40) : FuseInHeader).unique ≠ 0 := by
    intro h0
    rw [h0] at hf
    exact h.2.1 hf.symm
  refine ⟨⟨_, hne⟩, hid, ?_⟩
  unfold requestId
  refine checked_bind ?_ f
  simp only [Request.rawHeader, size_fuse_in_header, if_pos h.1, bind, Except.bind, FuseInHeader.requestId,
    NonZeroU64.newUnchecked, dif_pos hne]

end Hello

theorem decode_mapped {α β : Type} {r : Request} {m : DecM α} {f : α → β} {y : β}
    (h : r.decode (f <$> m) = .ok y) : ∃ x, r.decode m = .ok x ∧ y = f x := by
  unfold Request.decode at h ⊢
  cases hh : r.rawHeader with
  | error e => rw [hh] at h; cases h
  | ok hd =>
    rw [hh] at h
    dsimp only at h ⊢
    cases hm : m { mem := r.mem, headerLen := hd.len.toNat, consumed := Wire.size FuseInHeader } with
    | error e =>
      have : (f <$> m) { mem := r.mem, headerLen := hd.len.toNat, consumed := Wire.size FuseInHeader } =
        .error e := by
        show Functor.map f m _ = _
        simp only [Functor.map, StateT.map, bind, Except.bind, hm]
      rw [this] at h; cases h
    | ok p =>
      have : (f <$> m) { mem := r.mem, headerLen := hd.len.toNat, consumed := Wire.size FuseInHeader } =
        .ok (f p.1, p.2) := by
        simp only [Functor.map, StateT.map, bind, Except.bind, hm, pure, Except.pure]
      rw [this] at h
      cases h
      exact ⟨p.1, rfl, rfl⟩

theorem decode_unmapped {α β : Type} {r : Request} {m : DecM α} {f : α → β} {e : Failure}
    (h : r.decode (f <$> m) = .error e) : r.decode m = .error e := by
  unfold Request.decode at h ⊢
  cases hh : r.rawHeader with
  | error e => rw [hh] at h; cases h; rfl
  | ok hd =>
    rw [hh] at h
    dsimp only at h ⊢
    simp only [Functor.map, StateT.map, bind, Except.bind] at h
    cases hm : m { mem := r.mem, headerLen := hd.len.toNat, consumed := Wire.size FuseInHeader } with
    | error e' => rw [hm] at h; cases h; rfl
    | ok p => rw [hm] at h; cases h

/-- Decoding a message with the decoder of its type. -/
theorem decode_request {α : Type} {t : ReqType} {f : α → AnyRequest} {dm : DecM α} {m : Bytes} {r : AnyRequest}
    (ha : Acceptable m) (hd : decodeAny t = f <$> dm) (h : decodeMessage t m = .ok r) :
    ∃ x, Request.decode ⟨m⟩ dm = .ok x ∧ r = f x := by
  unfold decodeMessage at h
  rw [acceptable_new ha] at h
  dsimp only at h
  rw [hd] at h
  exact decode_mapped h

theorem message_acceptable {a : ClientReq} {unique nodeid : UInt64} {uid gid pid padding : UInt32}
    {tail : Bytes} (hu : unique ≠ 0) (hl : 40 + a.body.length < 2 ^ 32) :
    Acceptable (a.message unique nodeid uid gid pid padding ++ tail) := by
  have hlen := message_length (a := a) (unique := unique) (nodeid := nodeid) (uid := uid) (gid := gid)
    (pid := pid) (padding := padding)
  refine ⟨by rw [List.length_append]; omega, u64At_message hu, ?_⟩
  rw [u32At_message hl, List.length_append]; omega

theorem message_opcode {a : ClientReq} {unique nodeid : UInt64} {uid gid pid padding : UInt32}
    {tail : Bytes} : u32At (a.message unique nodeid uid gid pid padding ++ tail) 4 = a.opcode := by
  have hlen := message_length (a := a) (unique := unique) (nodeid := nodeid) (uid := uid) (gid := gid)
    (pid := pid) (padding := padding)
  rw [← (hdr_fields (buf := a.message unique nodeid uid gid pid padding ++ tail)
    (by rw [List.length_append]; omega)).2.1]
  show (hd _).opcode.toNat = _
  rw [hd_message]
  exact UInt32.toNat_ofNat_of_lt (opcode_lt a)

theorem message_id {a : ClientReq} {unique nodeid : UInt64} {uid gid pid padding : UInt32}
    {tail : Bytes} : idOf (a.message unique nodeid uid gid pid padding ++ tail) = unique := by
  have hlen := message_length (a := a) (unique := unique) (nodeid := nodeid) (uid := uid) (gid := gid)
    (pid := pid) (padding := padding)
  have h := (hdr_fields (buf := a.message unique nodeid uid gid pid padding ++ tail)
    (by rw [List.length_append]; omega)).2.2.1
  unfold idOf
  rw [← h]
  show UInt64.ofNat (hd _).unique.toNat = _
  rw [hd_message]
  exact UInt64.ofNat_toNat

namespace Hello

variable (fs : Hello σ ε)

/-- The dispatch of a message sends one message, once, and fails if and only if sending does. -/
def Replies (m : Bytes) (id : UInt64) (e : Int32) (p : Bytes) : Prop :=
  ∀ s, ∃ buf, Carries buf (frame id e p) ∧
    fs.dispatch ⟨m⟩ s = match fs.sock.send buf s with
      | (.ok (), s) => .ok s
      | (.error _, _) => .error .panic

theorem dispatch_run {m : Bytes} (ha : Acceptable m) {h : HelloM σ Unit}
    (hh : ∀ s, fuseHandle fs.handlers m s = run h s) (s : σ) :
    fs.dispatch ⟨m⟩ s = match h.run s with
      | (.ok (), s) => .ok s
      | (.error f, _) => .error f := by
  unfold dispatch
  rw [C25_fuse fs.handlers m ⟨m⟩ (acceptable_new ha), hh]
  unfold run
  show (match (Except.ok (match ExceptT.run h s with | (.ok (), w) => _ | (.error f, w) => _) :
    Except Fault (Option Fault × σ)) with | .error f => _ | .ok (some f, _) => _ | .ok (none, s) => _) = _
  rcases ExceptT.run h s with ⟨_ | _, _⟩ <;> rfl

theorem answers_replies {m : Bytes} (ha : Acceptable m) {h : HelloM σ Unit} {id : UInt64} {e : Int32}
    {p : Bytes} (hh : ∀ s, fuseHandle fs.handlers m s = run h s) (hans : fs.Answers h id e p) :
    fs.Replies m id e p := by
  intro s
  obtain ⟨buf, h1, h2⟩ := hans s
  refine ⟨buf, h1, ?_⟩
  rw [fs.dispatch_run ha hh, h2]
  rcases fs.sock.send buf s with ⟨_ | _, _⟩ <;> rfl

theorem unimplemented_answers {m : Bytes} (ha : Acceptable m) :
    fs.Answers (fs.unimplemented ⟨m⟩) (idOf m) (-38) [] := by
  unfold unimplemented
  obtain ⟨id, h1, h2⟩ := requestId_bind ha (fun id => fs.reply id (·.err helloUnimplemented))
  rw [h2, ← h1]
  exact fs.reply_answers id (.err helloUnimplemented) (by show 16 + 0 < 2 ^ 32; decide)

theorem err_answers (id : NonZeroU64) (e : FuseError) :
    fs.Answers (fs.reply id (·.err e)) id.val e.val [] :=
  fs.reply_answers id (.err e) (by show 16 + 0 < 2 ^ 32; decide)

theorem empty_answers (id : NonZeroU64) : fs.Answers (fs.reply id (·.okEmpty)) id.val 0 [] :=
  fs.reply_answers id .okEmpty (by show 16 + 0 < 2 ^ 32; decide)

theorem buf_answers (id : NonZeroU64) (b : Bytes) (h : 16 + b.length < 2 ^ 32) :
    fs.Answers (fs.reply id (·.okBuf b)) id.val 0 b := fs.reply_answers id (.okBuf b) h

theorem ok_answers (id : NonZeroU64) (r : FuseReply) (p : Bytes)
    (hp : r.payload fs.layout.versionMinor.toNat = p) (h : 16 + p.length < 2 ^ 32) :
    fs.Answers (fs.reply id (·.ok r)) id.val 0 p := by
  subst hp
  exact fs.reply_answers id (.ok r) h

theorem helloName_eq : helloName = .ok ⟨helloTxt⟩ := by decide +kernel

theorem hello_content : HELLO_WORLD = helloContent := by decide +kernel

theorem isRoot_iff (n : NodeId) : n.isRoot = true ↔ n.val = 1 := by
  unfold NodeId.isRoot; rw [beq_iff_eq]

theorem helloNode_iff (n : NodeId) : n = helloNodeId ↔ n.val = 100 :=
  ⟨fun h => by rw [h]; rfl, fun h => Subtype.ext h⟩

theorem setAttr_eq (n : NodeId) (h : n.val = 100) :
    (fs.setAttr (NodeAttr.new n)).raw = helloFileAttr fs.uid fs.gid := by
  cases (helloNode_iff n).mpr h
  have h1 : UInt64.ofNat HELLO_WORLD.length = 14 := by rw [hello_content]; decide
  have h2 : (FileType.regular.asMode.bitor 0o644).bits = 0o100644 := by decide
  simp only [setAttr, NodeAttr.setUserId, NodeAttr.setGroupId, NodeAttr.setMode, NodeAttr.setSize,
    NodeAttr.setLinkCount, NodeAttr.new, h1, h2, helloFileAttr]
  rfl

theorem attr_len (minor : Nat) (x : FuseAttr) : (attrBytes minor x).length ≤ 88 := by
  unfold attrBytes layout_fuse_attr_v7p1 layout_fuse_attr
  split <;> simp

variable {m : Bytes} {nodeid : UInt64}

/-- The message `m` is decoded, by the decoder of type `t`, as the request `a` on node `nodeid`. -/
def Understood (t : ReqType) (a : ClientReq) (nodeid : UInt64) (m : Bytes) : Prop :=
  Acceptable m ∧ u32At m 4 = a.opcode ∧ ∃ r, decodeMessage t m = .ok r ∧ a.Matches nodeid t.isCuse r

/-- Handlers start by taking the request's ID and decoding it. -/
theorem answers_intro {α : Type} {a : ClientReq} {t : ReqType} {c : α → AnyRequest} {dm : DecM α}
    {f : NonZeroU64 → α → HelloM σ Unit} {e : Int32} {p : Bytes} (hd : decodeAny t = c <$> dm)
    (hr : Understood t a nodeid m)
    (h : ∀ (id : NonZeroU64) x, a.Matches nodeid t.isCuse (c x) → fs.Answers (f id x) id.val e p) :
    fs.Answers (do
      let id ← requestId ⟨m⟩
      let request ← decoded (Request.decode ⟨m⟩ dm)
      f id request) (idOf m) e p := by
  obtain ⟨hacc, _, r, h1, hm⟩ := hr
  obtain ⟨x, hx, rfl⟩ := decode_request hacc hd h1
  obtain ⟨i, hi, heq⟩ := requestId_bind hacc (σ := σ) (fun id => (do
      let request ← decoded (Request.decode ⟨m⟩ dm)
      f id request))
  rw [heq, decoded_bind hx, ← hi]
  exact h i x hm

theorem lookup_answers (name : Bytes) (hu : Understood (.lookup) (.lookup name) nodeid m) {e : Int32} {p : Bytes}
    (h : helloAnswer fs.uid fs.gid fs.layout.versionMinor.toNat nodeid (.lookup name) = some (e, p)) :
    fs.Answers (fs.lookup ⟨m⟩) (idOf m) e p := by
  refine fs.answers_intro (c := .lookup) rfl hu ?_
  intro id x ⟨hm1, hm2⟩
  simp only [helloAnswer] at h
  by_cases h1 : nodeid = 1
  · rw [if_neg (by rw [(isRoot_iff _).mpr (hm1.trans h1)]; decide), checked_bind helloName_eq]
    by_cases h2 : name = helloTxt
    · rw [if_pos ⟨h1, h2⟩] at h
      cases h
      have hn : x.name = ⟨helloTxt⟩ := by
        rw [← h2, ← hm2]
      rw [if_neg (by rw [hn]; exact fun h => h rfl)]
      refine fs.ok_answers id _ _ ?_ ?_
      · simp only [FuseReply.payload, Entry.new]
        rw [fs.setAttr_eq helloNodeId rfl]; rfl
      · have := attr_len fs.layout.versionMinor.toNat (helloFileAttr fs.uid fs.gid)
        simp [entryBytes]; omega
    · rw [if_neg (fun h => h2 h.2)] at h
      cases h
      rw [if_pos (by intro h; rw [h] at hm2; exact h2 hm2.symm)]
      exact fs.err_answers id _
  · rw [if_neg (fun h => h1 h.1)] at h
    cases h
    have hr : x.parentId.isRoot = false := by
      rw [Bool.eq_false_iff]; intro h; exact h1 (hm1.symm.trans ((isRoot_iff _).mp h))
    rw [if_pos (by rw [hr]; rfl)]
    exact fs.err_answers id _

theorem getattr_tail (id : NonZeroU64) (x : GetattrRequest) (hm : IdIs x.nodeId nodeid) {e : Int32} {p : Bytes}
    (h : helloAnswer fs.uid fs.gid fs.layout.versionMinor.toNat nodeid .getattrOld = some (e, p)) :
    fs.Answers (do
      let nodeId ← checked x.nodeId
      let attr := NodeAttr.new nodeId
      if nodeId.isRoot then
        let attr := (((attr.setUserId fs.uid).setGroupId fs.gid).setMode
          (FileType.directory.asMode.bitor 0o755)).setLinkCount 2
        fs.reply id (·.ok (.attr { attr := attr.raw }))
      else if nodeId = helloNodeId then
        fs.reply id (·.ok (.attr { attr := (fs.setAttr attr).raw }))
      else fs.reply id (·.err helloNotFound)) id.val e p := by
  obtain ⟨n, hn, hv⟩ := hm
  rw [checked_bind hn]
  simp only [helloAnswer] at h
  have hsize : ∀ a, 16 + (attrOutBytes fs.layout.versionMinor.toNat { attr := a }).length < 2 ^ 32 := by
    intro a
    have := attr_len fs.layout.versionMinor.toNat a
    simp [attrOutBytes]; omega
  by_cases h1 : nodeid = 1
  · rw [if_pos h1] at h
    cases h
    have hr := (isRoot_iff n).mpr (hv.trans h1)
    simp only [hr, ↓reduceIte]
    refine fs.ok_answers id _ _ ?_ (hsize _)
    have h2 : (FileType.directory.asMode.bitor 0o755).bits = 0o040755 := by decide
    have h3 : n.val = 1 := hv.trans h1
    simp only [FuseReply.payload, NodeAttr.setUserId, NodeAttr.setGroupId, NodeAttr.setMode,
      NodeAttr.setLinkCount, NodeAttr.new, h2, h3, helloRootAttr]
  · rw [if_neg h1] at h
    have hr : n.isRoot = false := by
      rw [Bool.eq_false_iff]; intro h; exact h1 (hv.symm.trans ((isRoot_iff _).mp h))
    simp only [hr, Bool.false_eq_true, ↓reduceIte]
    by_cases h2 : nodeid = 100
    · rw [if_pos h2] at h
      cases h
      rw [if_pos ((helloNode_iff n).mpr (hv.trans h2))]
      refine fs.ok_answers id _ _ ?_ (hsize _)
      simp only [FuseReply.payload]
      rw [fs.setAttr_eq n (hv.trans h2)]
    · rw [if_neg h2] at h
      cases h
      rw [if_neg (fun h => h2 (hv.symm.trans ((helloNode_iff n).mp h)))]
      exact fs.err_answers id _

theorem getattrOld_answers  (hu : Understood (.getattr fs.layout) (.getattrOld) nodeid m) {e : Int32} {p : Bytes}
    (h : helloAnswer fs.uid fs.gid fs.layout.versionMinor.toNat nodeid (ClientReq.getattrOld) = some (e, p)) :
    fs.Answers (fs.getattr ⟨m⟩) (idOf m) e p := by
  refine fs.answers_intro (c := .getattr) rfl hu ?_
  intro id x hm
  exact fs.getattr_tail id x hm.1 h

theorem getattr_answers (b : FuseGetattrIn) (hu : Understood (.getattr fs.layout) (.getattr b) nodeid m) {e : Int32} {p : Bytes}
    (h : helloAnswer fs.uid fs.gid fs.layout.versionMinor.toNat nodeid (ClientReq.getattr b) = some (e, p)) :
    fs.Answers (fs.getattr ⟨m⟩) (idOf m) e p := by
  refine fs.answers_intro (c := .getattr) rfl hu ?_
  intro id x hm
  exact fs.getattr_tail id x hm.1 h

theorem open_answers (b : FuseOpenIn) (hw : (ClientReq.open_ b).WellFormed nodeid false)
    (hu : Understood (.open_ false) (.open_ b) nodeid m) {e : Int32} {p : Bytes}
    (h : helloAnswer fs.uid fs.gid fs.layout.versionMinor.toNat nodeid (ClientReq.open_ b) = some (e, p)) :
    fs.Answers (fs.open_ ⟨m⟩) (idOf m) e p := by
  refine fs.answers_intro (c := .open_) rfl hu ?_
  intro id x hm
  have hne : nodeid ≠ 0 := by
    rcases hw with hw | hw
    · cases hw
    · exact hw
  have hv : x.nodeId.val = nodeid := by
    have := hm.1
    unfold IdOrRoot at this
    rwa [if_neg hne] at this
  simp only [helloAnswer] at h
  by_cases h1 : nodeid = 100
  · rw [if_pos h1] at h
    cases h
    rw [if_neg (fun h => h ((helloNode_iff _).mpr (hv.trans h1)))]
    exact fs.ok_answers id _ _ rfl (by decide)
  · rw [if_neg h1] at h
    cases h
    rw [if_pos (fun h => h1 (hv.symm.trans ((helloNode_iff _).mp h)))]
    exact fs.err_answers id _

theorem opendir_answers (b : FuseOpenIn) (hu : Understood (.opendir) (.opendir b) nodeid m) {e : Int32} {p : Bytes}
    (h : helloAnswer fs.uid fs.gid fs.layout.versionMinor.toNat nodeid (ClientReq.opendir b) = some (e, p)) :
    fs.Answers (fs.opendir ⟨m⟩) (idOf m) e p := by
  refine fs.answers_intro (c := .opendir) rfl hu ?_
  intro id x hm
  obtain ⟨n, hn, hv⟩ := hm.1
  rw [checked_bind hn]
  simp only [helloAnswer] at h
  by_cases h1 : nodeid = 1
  · rw [if_pos h1] at h
    cases h
    rw [if_neg (by rw [(isRoot_iff _).mpr (hv.trans h1)]; decide)]
    exact fs.ok_answers id _ _ rfl (by decide)
  · rw [if_neg h1] at h
    cases h
    have hr : n.isRoot = false := by
      rw [Bool.eq_false_iff]; intro h; exact h1 (hv.symm.trans ((isRoot_iff _).mp h))
    rw [if_pos (by rw [hr]; rfl)]
    exact fs.err_answers id _

theorem readOld_answers (b : FuseReadInV7p1) (hu : Understood (.read fs.layout.versionMinor.toUInt32 false) (.readOld b) nodeid m) {e : Int32} {p : Bytes}
    (h : helloAnswer fs.uid fs.gid fs.layout.versionMinor.toNat nodeid (ClientReq.readOld b) = some (e, p)) :
    fs.Answers (fs.read ⟨m⟩) (idOf m) e p := by
  refine fs.answers_intro (c := .read) rfl hu ?_
  intro id x hm
  rw [checked_bind hm.2.2.2.1]
  simp only [helloAnswer] at h
  by_cases h1 : b.fh = 1001
  · rw [if_pos h1] at h
    cases h
    rw [if_neg (fun h => h h1), hello_content]
    exact fs.buf_answers id _ (by decide)
  · rw [if_neg h1] at h
    cases h
    rw [if_pos h1]
    exact fs.err_answers id _

theorem read_answers (b : FuseReadIn) (hu : Understood (.read fs.layout.versionMinor.toUInt32 false) (.read b) nodeid m) {e : Int32} {p : Bytes}
    (h : helloAnswer fs.uid fs.gid fs.layout.versionMinor.toNat nodeid (ClientReq.read b) = some (e, p)) :
    fs.Answers (fs.read ⟨m⟩) (idOf m) e p := by
  refine fs.answers_intro (c := .read) rfl hu ?_
  intro id x hm
  rw [checked_bind hm.2.2.2.1]
  simp only [helloAnswer] at h
  by_cases h1 : b.fh = 1001
  · rw [if_pos h1] at h
    cases h
    rw [if_neg (fun h => h h1), hello_content]
    exact fs.buf_answers id _ (by decide)
  · rw [if_neg h1] at h
    cases h
    rw [if_pos h1]
    exact fs.err_answers id _

theorem releasedirOld_answers (b : FuseReleaseInV7p1) (hu : Understood (.releasedir fs.layout) (.releasedirOld b) nodeid m) {e : Int32} {p : Bytes}
    (h : helloAnswer fs.uid fs.gid fs.layout.versionMinor.toNat nodeid (ClientReq.releasedirOld b) = some (e, p)) :
    fs.Answers (fs.releasedir ⟨m⟩) (idOf m) e p := by
  refine fs.answers_intro (c := .releasedir) rfl hu ?_
  intro id x hm
  rw [checked_bind hm.2.1]
  simp only [helloAnswer] at h
  by_cases h1 : b.fh = 1002
  · rw [if_pos h1] at h
    cases h
    rw [if_neg (fun h => h h1)]
    exact fs.empty_answers id
  · rw [if_neg h1] at h
    cases h
    rw [if_pos h1]
    exact fs.err_answers id _

theorem releasedir_answers (b : FuseReleaseIn) (hu : Understood (.releasedir fs.layout) (.releasedir b) nodeid m) {e : Int32} {p : Bytes}
    (h : helloAnswer fs.uid fs.gid fs.layout.versionMinor.toNat nodeid (ClientReq.releasedir b) = some (e, p)) :
    fs.Answers (fs.releasedir ⟨m⟩) (idOf m) e p := by
  refine fs.answers_intro (c := .releasedir) rfl hu ?_
  intro id x hm
  rw [checked_bind hm.2.1]
  simp only [helloAnswer] at h
  by_cases h1 : b.fh = 1002
  · rw [if_pos h1] at h
    cases h
    rw [if_neg (fun h => h h1)]
    exact fs.empty_answers id
  · rw [if_neg h1] at h
    cases h
    rw [if_pos h1]
    exact fs.err_answers id _

/-- The one entry. -/
def helloEntry : ReaddirEntry :=
  (ReaddirEntry.new helloNodeId ⟨helloTxt⟩ ⟨1, by decide⟩).setFileType .regular

theorem helloEntry_record : helloEntry.record = helloListing := by decide +kernel

theorem writer_listing (addr n : Nat) (h40 : 40 ≤ n) (ha : addr % 8 = 0) :
    ∃ w, (DirWriter.new addr (List.replicate n 0)).tryPush helloEntry = .ok (true, w) ∧
      w.intoEntries = .ok helloListing := by
  have hsz : direntSize FuseDirent helloEntry.name = 40 := by decide +kernel
  have hlen : 40 ≤ (DirWriter.new addr (List.replicate n 0)).buf.length := by
    unfold DirWriter.new
    dsimp only
    split
    · rw [List.length_take, List.length_replicate]; omega
    · rw [List.length_replicate]; exact h40
  have hpos : (DirWriter.new addr (List.replicate n 0)).position = 0 := rfl
  refine ⟨_, tryPush_fits _ helloEntry ?_ (by rw [hsz, hpos]; omega), ?_⟩
  · rw [hpos]; show (addr + 0) % 8 = 0; omega
  · unfold DirWriter.intoEntries
    simp only [hpos, hsz, List.take_zero, List.nil_append, Nat.zero_add]
    have hrec : helloEntry.record.length = 40 := by rw [helloEntry.record_length, hsz]
    rw [if_pos (by rw [List.length_append, hrec]; omega), List.take_left' hrec, helloEntry_record]

theorem readdir_tail (id : NonZeroU64) (x : ReaddirRequest) (size : UInt32) (fh offset : UInt64)
    (h1 : x.size = .ok size) (h2 : x.handle = .ok fh)
    (h3 : ∃ o : Option NonZeroU64, x.offset = .ok o ∧
      o.map Subtype.val = if offset = 0 then none else some offset)
    (hroom : fh = 1002 → offset = 0 → 40 ≤ size.toNat ∧ fs.alloc size.toNat % 8 = 0) {e : Int32} {p : Bytes}
    (h : some (helloList fh offset) = some (e, p)) :
    fs.Answers (do
      let handle ← checked x.handle
      if handle ≠ 1002 then fs.reply id (·.err helloInvalidArgument)
      else
        let offset ← checked x.offset
        if offset.isSome then fs.reply id (·.okEmpty)
        else
          let size ← checked x.size
          let entries := DirWriter.new (fs.alloc size.toNat) (List.replicate size.toNat 0)
          let name ← checked helloName
          let entry := (ReaddirEntry.new helloNodeId name ⟨1, by decide⟩).setFileType .regular
          let (pushed, entries) ← checked (entries.tryPush entry)
          if !pushed then throw .panic
          else
            let buf ← checked entries.intoEntries
            fs.reply id (·.ok (.readdirEntries buf))) id.val e p := by
  unfold helloList at h
  rw [checked_bind h2]
  by_cases hf : fh = 1002
  · rw [if_neg (fun h => h hf)] at h
    rw [if_neg (fun h => h hf)]
    obtain ⟨o, ho1, ho2⟩ := h3
    rw [checked_bind ho1]
    by_cases hz : offset = 0
    · rw [if_neg (fun h => h hz)] at h
      rw [if_pos hz] at ho2
      have ho : o = none := by cases o with | none => rfl | some _ => cases ho2
      rw [ho, if_neg (by decide), checked_bind h1]
      obtain ⟨g1, g2⟩ := hroom hf hz
      obtain ⟨w, hw1, hw2⟩ := writer_listing (fs.alloc size.toNat) size.toNat g1 g2
      cases h
      simp only [checked_bind helloName_eq]
      unfold helloEntry at hw1
      rw [checked_bind hw1]
      simp only [Bool.not_true, Bool.false_eq_true, ↓reduceIte]
      rw [checked_bind hw2]
      exact fs.ok_answers id _ _ rfl (by decide)
    · rw [if_pos hz] at h
      cases h
      rw [if_neg hz] at ho2
      have ho : o.isSome = true := by cases o with | none => cases ho2 | some _ => rfl
      rw [if_pos ho]
      exact fs.empty_answers id
  · rw [if_pos hf] at h
    cases h
    rw [if_pos hf]
    exact fs.err_answers id _

theorem readdirOld_answers (b : FuseReadInV7p1) (hroom : HelloRoom fs.alloc (ClientReq.readdirOld b))
    (hu : Understood (.readdir fs.layout) (.readdirOld b) nodeid m) {e : Int32} {p : Bytes}
    (h : helloAnswer fs.uid fs.gid fs.layout.versionMinor.toNat nodeid (ClientReq.readdirOld b) = some (e, p)) :
    fs.Answers (fs.readdir ⟨m⟩) (idOf m) e p := by
  refine fs.answers_intro (c := .readdir) rfl hu ?_
  intro id x hm
  exact fs.readdir_tail id x b.size b.fh b.offset hm.2.1 hm.2.2.1 hm.2.2.2.2 hroom h

theorem readdir_answers (b : FuseReadIn) (hroom : HelloRoom fs.alloc (ClientReq.readdir b))
    (hu : Understood (.readdir fs.layout) (.readdir b) nodeid m) {e : Int32} {p : Bytes}
    (h : helloAnswer fs.uid fs.gid fs.layout.versionMinor.toNat nodeid (ClientReq.readdir b) = some (e, p)) :
    fs.Answers (fs.readdir ⟨m⟩) (idOf m) e p := by
  refine fs.answers_intro (c := .readdir) rfl hu ?_
  intro id x hm
  exact fs.readdir_tail id x b.size b.fh b.offset hm.2.1 hm.2.2.1 hm.2.2.2.2 hroom h

/-- A listing that there is no room for, or no aligned memory. -/
theorem readdir_faults {a : ClientReq} {size : UInt32} (hu : Understood (.readdir fs.layout) a nodeid m)
    (ho : a.opcode = 28)
    (hx : ∀ x, a.Matches nodeid false (.readdir x) → x.size = .ok size ∧ x.handle = .ok 1002 ∧ x.offset = .ok none)
    (hroom : ¬ (40 ≤ size.toNat ∧ fs.alloc size.toNat % 8 = 0)) (s : σ) :
    fs.dispatch ⟨m⟩ s = .error (if size.toNat < 40 then .panic else .misaligned) := by
  obtain ⟨hacc, hop, r, h1, hm⟩ := hu
  obtain ⟨x, hdec, rfl⟩ := decode_request (f := .readdir) (dm := decodeReaddir fs.layout) hacc rfl h1
  obtain ⟨hx1, hx2, hx3⟩ := hx x hm
  rw [fs.dispatch_run (h := fs.readdir ⟨m⟩) hacc (fun s => by unfold fuseHandle; rw [hop, ho]; rfl)]
  have : fs.readdir ⟨m⟩ = throw (if size.toNat < 40 then .panic else .misaligned) := by
    unfold readdir
    obtain ⟨i, hi, heq⟩ := requestId_bind hacc (σ := σ) (fun id => (do
      let request ← decoded (Request.decode ⟨m⟩ (decodeReaddir fs.layout))
      let handle ← checked request.handle
      if handle ≠ 1002 then fs.reply id (·.err helloInvalidArgument)
      else
        let offset ← checked request.offset
        if offset.isSome then fs.reply id (·.okEmpty)
        else
          let size ← checked request.size
          let entries := DirWriter.new (fs.alloc size.toNat) (List.replicate size.toNat 0)
          let name ← checked helloName
          let entry := (ReaddirEntry.new helloNodeId name ⟨1, by decide⟩).setFileType .regular
          let (pushed, entries) ← checked (entries.tryPush entry)
          if !pushed then throw .panic
          else
            let buf ← checked entries.intoEntries
            fs.reply id (·.ok (.readdirEntries buf))))
    rw [heq, decoded_bind hdec, checked_bind hx2, if_neg (fun h => h rfl), checked_bind hx3, if_neg (by decide),
      checked_bind hx1]
    simp only [checked_bind helloName_eq]
    have hlen := new_buf_length (fs.alloc size.toNat) (List.replicate size.toNat 0)
    rw [List.length_replicate] at hlen
    have hsz : direntSize FuseDirent helloEntry.name = 40 := by decide +kernel
    by_cases h40 : size.toNat < 40
    · have hfull := tryPush_full (DirWriter.new (fs.alloc size.toNat) (List.replicate size.toNat 0))
        helloEntry (Nat.zero_le _) (by rw [hsz]; show _ < 0 + 40; omega)
      unfold helloEntry at hfull
      rw [checked_bind hfull, if_pos h40]
      rfl
    · have hmis := tryPush_misaligned (DirWriter.new (fs.alloc size.toNat) (List.replicate size.toNat 0))
        helloEntry (show (fs.alloc size.toNat + 0) % 8 ≠ 0 by omega) (by rw [hsz]; show 0 + 40 ≤ _; omega)
      unfold helloEntry at hmis
      rw [hmis, if_neg h40]
      rfl
  rw [this]
  rfl

/-- A message that is not decoded. -/
theorem undecoded_faults {t : ReqType} {e : RequestError} (ht : helloType fs.layout (u32At m 4) = some t)
    (hacc : Acceptable m) (hd : decodeMessage t m = .error (.req e)) (s : σ) : fs.dispatch ⟨m⟩ s = .error .panic := by
  have key {α : Type} {c : α → AnyRequest} {dm : DecM α} {f : NonZeroU64 → α → HelloM σ Unit} {h : HelloM σ Unit}
      (hh : ∀ s, fuseHandle fs.handlers m s = run h s) (hc : decodeAny t = c <$> dm)
      (hf : h = do
        let id ← requestId ⟨m⟩
        let request ← decoded (Request.decode ⟨m⟩ dm)
        f id request) : fs.dispatch ⟨m⟩ s = .error .panic := by
    rw [fs.dispatch_run hacc hh, hf]
    have hx : Request.decode ⟨m⟩ dm = .error (.req e) := by
      unfold decodeMessage at hd
      rw [acceptable_new hacc] at hd
      dsimp only at hd
      rw [hc] at hd
      exact decode_unmapped hd
    obtain ⟨i, hi, heq⟩ := requestId_bind hacc (σ := σ) (fun id => (do
      let request ← decoded (Request.decode ⟨m⟩ dm)
      f id request))
    rw [heq, hx]
    rfl
  unfold helloType at ht
  split at ht <;> first | (cases ht; done) | skip
  all_goals
    rename_i ho
    cases ht
    exact key (fun s => by unfold fuseHandle; rw [ho]; rfl) rfl rfl

/-- What `C57_answer_partial` says of a message and the messages to be sent for it. -/
def Does (m : Bytes) (out : List Bytes) : Prop :=
  (out = [] ∧ ∀ s, fs.dispatch ⟨m⟩ s = .ok s) ∨
  ∃ id e p, out = [frame id e p] ∧ fs.Replies m id e p

theorem handle_other {m : Bytes} (ho : u32At m 4 ∉ [1, 2, 3, 14, 15, 27, 28, 29, 36, 42])
    (s : Option Fault × σ) : fuseHandle fs.handlers m s = run (fs.unimplemented ⟨m⟩) s := by
  unfold fuseHandle
  generalize hm : fuseMethodAt (u32At m 4) = x
  unfold fuseMethodAt at hm
  split at hm <;> subst hm <;> first
    | rfl
    | (rename_i h; exfalso; apply ho; rw [h]; decide)

theorem silent_does (ha : Acceptable m) (ho : u32At m 4 ∈ [2, 36, 42]) (s : σ) : fs.dispatch ⟨m⟩ s = .ok s := by
  unfold dispatch
  rw [C25_fuse fs.handlers _ ⟨_⟩ (acceptable_new ha)]
  unfold fuseHandle
  simp only [List.mem_cons, List.not_mem_nil, or_false] at ho
  rcases ho with h | h | h <;> rw [h] <;> rfl

theorem other_does (ha : Acceptable m) (ho : u32At m 4 ∉ [1, 2, 3, 14, 15, 27, 28, 29, 36, 42]) :
    fs.Replies m (idOf m) (-38) [] :=
  fs.answers_replies ha (fs.handle_other ho) (fs.unimplemented_answers ha)

theorem understood_does {a : ClientReq} {t : ReqType} (ht : helloType fs.layout a.opcode = some t)
    (hu : Understood t a nodeid m) (hw : a.WellFormed nodeid false) (hr : HelloRoom fs.alloc a) :
    ∃ e p, helloAnswer fs.uid fs.gid fs.layout.versionMinor.toNat nodeid a = some (e, p) ∧
      fs.Replies m (idOf m) e p := by
  have hop := hu.2.1
  have dec : ∀ h : HelloM σ Unit, (∀ s, fuseHandle fs.handlers m s = run h s) →
      (∀ {e p}, helloAnswer fs.uid fs.gid fs.layout.versionMinor.toNat nodeid a = some (e, p) →
        fs.Answers h (idOf m) e p) →
      (helloAnswer fs.uid fs.gid fs.layout.versionMinor.toNat nodeid a ≠ none) →
      ∃ e p, helloAnswer fs.uid fs.gid fs.layout.versionMinor.toNat nodeid a = some (e, p) ∧
        fs.Replies m (idOf m) e p := by
    intro h h1 h2 h3
    cases hans : helloAnswer fs.uid fs.gid fs.layout.versionMinor.toNat nodeid a with
    | none => exact absurd hans h3
    | some ep => exact ⟨ep.1, ep.2, rfl, fs.answers_replies hu.1 h1 (h2 hans)⟩
  cases a with
  | lookup name =>
    cases ht
    exact dec _ (fun s => by unfold fuseHandle; rw [hop]; rfl) (fs.lookup_answers name hu)
      (by simp only [helloAnswer]; split <;> nofun)
  | getattrOld =>
    cases ht
    exact dec _ (fun s => by unfold fuseHandle; rw [hop]; rfl) (fs.getattrOld_answers hu)
      (by simp only [helloAnswer]; split; nofun; split <;> nofun)
  | getattr b =>
    cases ht
    exact dec _ (fun s => by unfold fuseHandle; rw [hop]; rfl) (fs.getattr_answers b hu)
      (by simp only [helloAnswer]; split; nofun; split <;> nofun)
  | open_ b =>
    cases ht
    exact dec _ (fun s => by unfold fuseHandle; rw [hop]; rfl) (fs.open_answers b hw hu)
      (by simp only [helloAnswer]; split <;> nofun)
  | opendir b =>
    cases ht
    exact dec _ (fun s => by unfold fuseHandle; rw [hop]; rfl) (fs.opendir_answers b hu)
      (by simp only [helloAnswer]; split <;> nofun)
  | readOld b =>
    cases ht
    exact dec _ (fun s => by unfold fuseHandle; rw [hop]; rfl) (fs.readOld_answers b hu) nofun
  | read b =>
    cases ht
    exact dec _ (fun s => by unfold fuseHandle; rw [hop]; rfl) (fs.read_answers b hu) nofun
  | readdirOld b =>
    cases ht
    exact dec _ (fun s => by unfold fuseHandle; rw [hop]; rfl) (fs.readdirOld_answers b hr hu) nofun
  | readdir b =>
    cases ht
    exact dec _ (fun s => by unfold fuseHandle; rw [hop]; rfl) (fs.readdir_answers b hr hu) nofun
  | releasedirOld b =>
    cases ht
    exact dec _ (fun s => by unfold fuseHandle; rw [hop]; rfl) (fs.releasedirOld_answers b hu) nofun
  | releasedir b =>
    cases ht
    exact dec _ (fun s => by unfold fuseHandle; rw [hop]; rfl) (fs.releasedir_answers b hu) nofun
  | _ => cases ht

theorem request_does (a : ClientReq) (unique nodeid : UInt64) (cuid cgid pid padding : UInt32) (tail : Bytes)
    (hw : a.WellFormed nodeid false) (hs : HelloSent fs.layout.versionMinor a) (hr : HelloRoom fs.alloc a)
    (hu : unique ≠ 0) (hl : 40 + a.body.length < 2 ^ 32) :
    fs.Does (a.message unique nodeid cuid cgid pid padding ++ tail)
      (match helloAnswer fs.uid fs.gid fs.layout.versionMinor.toNat nodeid a with
        | some (e, p) => [frame unique e p]
        | none => []) := by
  have hacc := message_acceptable (a := a) (nodeid := nodeid) (uid := cuid) (gid := cgid)
    (pid := pid) (padding := padding) (tail := tail) hu hl
  have hop := message_opcode (a := a) (unique := unique) (nodeid := nodeid) (uid := cuid) (gid := cgid)
    (pid := pid) (padding := padding) (tail := tail)
  have hid := message_id (a := a) (unique := unique) (nodeid := nodeid) (uid := cuid) (gid := cgid)
    (pid := pid) (padding := padding) (tail := tail)
  have un : a.opcode ∉ [1, 2, 3, 14, 15, 27, 28, 29, 36, 42] →
      fs.Does (a.message unique nodeid cuid cgid pid padding ++ tail) [frame unique (-38) []] := by
    intro h
    have := fs.other_does hacc (by rw [hop]; exact h)
    rw [hid] at this
    exact .inr ⟨unique, -38, [], rfl, this⟩
  have dec (t : ReqType) (h1 : helloType fs.layout a.opcode = some t) (h2 : a.HasType t) (h3 : t.isCuse = false)
      (h4 : a.ShiftFree) (h5 : ¬ a.IsOldWrite) :
      fs.Does (a.message unique nodeid cuid cgid pid padding ++ tail)
        (match helloAnswer fs.uid fs.gid fs.layout.versionMinor.toNat nodeid a with
        | some (e, p) => [frame unique e p]
        | none => []) := by
    obtain ⟨e, p, h6, h7⟩ := fs.understood_does (m := a.message unique nodeid cuid cgid pid padding ++ tail) h1
      ⟨hacc, hop, decode_message h2 (by rw [h3]; exact hw) h4 hu hl (fun h => absurd h h5)⟩ hw hr
    rw [hid] at h7
    rw [h6]
    exact .inr ⟨_, e, p, rfl, h7⟩
  cases a with
  | forget | batchForget | interrupt =>
    exact .inl ⟨rfl, fs.silent_does hacc (by rw [hop]; simp only [ClientReq.opcode]; decide)⟩
  | lookup name | open_ b | opendir b => exact dec _ rfl trivial rfl trivial id
  | getattrOld | getattr b | readdirOld b | readdir b | releasedirOld b | releasedir b => exact dec _ rfl hs rfl trivial id
  | readOld b =>
    exact dec _ rfl (by have := UInt16.lt_iff_toNat_lt.mp hs; exact UInt32.lt_iff_toNat_lt.mpr this) rfl trivial id
  | read b =>
    exact dec _ rfl (by have := UInt16.le_iff_toNat_le.mp hs; exact UInt32.le_iff_toNat_le.mpr this) rfl trivial id
  | _ => exact un (by simp only [ClientReq.opcode]; decide)

end Hello

/-- **C57**, one message: the program sends the one message that is to be sent, with one `send`, and only panics
if sending fails; for requests that have no answer it sends nothing. -/
theorem C57_answer_partial (fs : Hello σ ε) {m : Bytes} {out : List Bytes}
    (h : HelloReplies fs.uid fs.gid fs.layout.versionMinor fs.alloc m out) :
    Acceptable m ∧
    ((out = [] ∧ ∀ s, fs.dispatch ⟨m⟩ s = .ok s) ∨
    ∃ msg, out = [msg] ∧ ∀ s, ∃ buf, Carries buf msg ∧
      fs.dispatch ⟨m⟩ s = match fs.sock.send buf s with
        | (.ok (), s) => .ok s
        | (.error _, _) => .error .panic) := by
  have key : Acceptable m ∧ fs.Does m out := by
    cases h with
    | request a unique nodeid cuid cgid pid padding tail hw hs hr hu hl =>
      exact ⟨message_acceptable hu hl,
        fs.request_does a unique nodeid cuid cgid pid padding tail hw hs hr hu hl⟩
    | other _ ha ho =>
      exact ⟨ha, .inr ⟨_, _, _, rfl, fs.answers_replies ha (fs.handle_other ho) (fs.unimplemented_answers ha)⟩⟩
  refine ⟨key.1, ?_⟩
  rcases key.2 with h | ⟨id, e, p, h1, h2⟩
  · exact .inl h
  · exact .inr ⟨_, h1, h2⟩

/-- **C57**, a whole session: the program connects to a client, serves requests with any number of threads, and
ends when the client closes the connection.  Under every schedule the threads end without a panic or an error
report, and what they have sent is the reply to the handshake and, in some order, the answers to all requests. -/
theorem C57_session_partial (e0 : ε) (uid gid : UInt32) (alloc : Nat → Nat) (bad : List Bytes) (good : Bytes)
    (hbad : ∀ m ∈ bad, m.length ≤ 8192 ∧ IsFuseInit m ∧ u32At m 40 ≠ 7)
    (hgood : good.length ≤ 8192 ∧ IsFuseInit good ∧ u32At good 40 = 7)
    (msgs : List Bytes) (answer : Bytes → List Bytes)
    (hmsgs : ∀ m ∈ msgs, m.length ≤ 8192 ∧
      HelloReplies uid gid (UInt16.ofNat (min (u32At good 44) 36)) alloc m (answer m)) :
    ∃ (conn : FuseConnection) (p : Bytes) (sent : List Bytes),
      FuseServer.Connects {} (scripted (.connectionClosed e0))
        ⟨bad.map .ok ++ .ok good :: msgs.map .ok, []⟩ (.ok conn, ⟨msgs.map .ok, sent⟩) ∧
      sent = bad.map (fun m => frame (idOf m) 0 (le32 7 ++ le32 36 ++ List.replicate 56 0)) ++
        [frame (idOf good) 0 p] ∧
      u32At p 0 = 7 ∧ u32At p 4 = min (u32At good 44) 36 ∧
      ∀ (bufs : List Bytes) (_ : bufs ≠ []) (_ : ∀ b ∈ bufs, b.length = max conn.recvBufLen 8192)
        (es : List (Event ε)) (q : Pool (Script ε) ε),
        let srv := Hello.service ⟨scripted (.connectionClosed e0), conn.layout, uid, gid, alloc⟩
        Pool.Run srv (Pool.start ⟨msgs.map .ok, sent⟩ bufs) es q →
        es.length ≤ 2 * msgs.length + bufs.length ∧
        (q.Stuck srv → q.Returned ∧ q.channel = [] ∧ q.world.incoming = [] ∧
          q.world.outgoing.Perm (sent ++ msgs.flatMap answer)) := by
  obtain ⟨conn, p, h1, h2, h3, h4, -⟩ := C20_fuse_script (.connectionClosed e0)
    (fun r p => (FuseServer.initFn {} r p ()).1) bad good hbad hgood (msgs.map .ok)
  refine ⟨conn, p, _, h1, rfl, h2, h3, ?_⟩
  intro bufs hn hb es q srv hrun
  have hminor : conn.layout.versionMinor = UInt16.ofNat (min (u32At good 44) 36) := by
    rw [← h4]; exact UInt16.ofNat_toNat.symm
  rw [← hminor] at hmsgs
  refine script_pool (srv := srv) (e0 := e0) (msgs := msgs) (reply := answer) rfl _ 8192 bufs hn
    (fun b hb' => by rw [hb b hb']; omega) ?_ ?_ es q hrun
  · intro m hm
    exact ⟨(C57_answer_partial ⟨scripted (.connectionClosed e0), conn.layout, uid, gid, alloc⟩ (hmsgs m hm).2).1,
      (hmsgs m hm).1⟩
  · intro m hm s
    rcases (C57_answer_partial ⟨scripted (.connectionClosed e0), conn.layout, uid, gid, alloc⟩ (hmsgs m hm).2).2 with
      ⟨ha, hd⟩ | ⟨msg, ha, hd⟩
    · rw [ha, List.append_nil]; exact hd s
    · obtain ⟨buf, hc, hd⟩ := hd s
      rw [ha]
      show Hello.dispatch _ _ _ = _
      rw [hd, scripted_send _ hc]

theorem Spec.HelloReplies.whole {uid gid : UInt32} {minor : UInt16} {alloc : Nat → Nat} (a : ClientReq)
    (unique nodeid : UInt64) {out : List Bytes} (hw : a.WellFormed nodeid false)
    (hs : HelloSent minor a) (hr : HelloRoom alloc a) (hu : unique ≠ 0) (hl : 40 + a.body.length < 2 ^ 32)
    (ho : out = match helloAnswer uid gid minor.toNat nodeid a with
      | some (e, p) => [frame unique e p]
      | none => []) :
    HelloReplies uid gid minor alloc (a.message unique nodeid 0 0 0 0) out := by
  have := HelloReplies.request (uid := uid) (gid := gid) a unique nodeid 0 0 0 0 [] hw hs hr hu hl
  rw [List.append_nil] at this
  rwa [ho]

/-- A client that looks up `hello.txt`, opens and reads it, asks for something else, and forgets the node. -/
def helloClient : List Bytes :=
  [(ClientReq.lookup helloTxt).message 4 1 0 0 0 0,
   (ClientReq.open_ { flags := 0x8000 }).message 6 100 0 0 0 0,
   (ClientReq.read { fh := 1001, size := 4096 }).message 8 100 0 0 0 0,
   (ClientReq.statfs).message 10 1 0 0 0 0,
   (ClientReq.forget { nlookup := 1 }).message 12 100 0 0 0 0]

/-- C57 on this client, with two threads: they end after at most 12 steps, and have sent five messages. -/
example (alloc : Nat → Nat) : ∃ (conn : FuseConnection) (p : Bytes),
    ∀ (es : List (Event Unit)) (q : Pool (Script Unit) Unit) (b1 b2 : Bytes),
      b1.length = max conn.recvBufLen 8192 → b2.length = max conn.recvBufLen 8192 →
      let srv := Hello.service ⟨scripted (.connectionClosed ()), conn.layout, 1000, 1000, alloc⟩
      Pool.Run srv (Pool.start ⟨helloClient.map .ok, [frame 2 0 p]⟩ [b1, b2]) es q →
      es.length ≤ 12 ∧ (q.Stuck srv → q.Returned ∧ q.world.outgoing.Perm
        [frame 2 0 p, frame 4 0 (entryBytes 34 { nodeid := 100, attr := helloFileAttr 1000 1000 }),
          frame 6 0 (openedAs 1001), frame 8 0 helloContent, frame 10 (-38) []]) := by
  obtain ⟨conn, p, sent, -, hsent, -, -, h⟩ := C57_session_partial () 1000 1000 alloc [] (initMessage 2 7 34 [65536, 0])
    nofun (by decide) helloClient
    (fun m => match u32At m 4 with
      | 1 => [frame 4 0 (entryBytes 34 { nodeid := 100, attr := helloFileAttr 1000 1000 })]
      | 14 => [frame 6 0 (openedAs 1001)]
      | 15 => [frame 8 0 helloContent]
      | 17 => [frame 10 (-38) []]
      | _ => []) (by
      have hmin : UInt16.ofNat (min (u32At (initMessage 2 7 34 [65536, 0]) 44) 36) = 34 := by decide
      rw [hmin]
      unfold helloClient
      intro m hm
      simp only [List.mem_cons, List.not_mem_nil, or_false] at hm
      rcases hm with rfl | rfl | rfl | rfl | rfl
      · exact ⟨by decide, .whole (.lookup helloTxt) 4 1 ⟨by decide, by decide, by decide, by decide⟩ trivial trivial (by decide) (by decide)
          (by decide +kernel)⟩
      · exact ⟨by decide, .whole (.open_ { flags := 0x8000 }) 6 100 (.inr (by decide)) trivial trivial (by decide) (by decide)
          (by decide +kernel)⟩
      · exact ⟨by decide, .whole (.read { fh := 1001, size := 4096 }) 8 100 (.inr (by decide))
          (show (9 : UInt16) ≤ 34 by decide) trivial (by decide) (by decide)
          (by decide +kernel)⟩
      · exact ⟨by decide, .whole .statfs 10 1 (show (1 : UInt64) ≠ 0 by decide) trivial trivial (by decide) (by decide)
          (by decide +kernel)⟩
      · exact ⟨by decide, .whole (.forget { nlookup := 1 }) 12 100 trivial trivial trivial (by decide) (by decide)
          (by decide +kernel)⟩)
  refine ⟨conn, p, ?_⟩
  intro es q b1 b2 h1 h2 srv hrun
  have hsent : sent = [frame 2 0 p] := hsent
  rw [hsent] at h
  obtain ⟨h3, h4⟩ := h [b1, b2] nofun (by
    intro b hb
    simp only [List.mem_cons, List.not_mem_nil, or_false] at hb
    rcases hb with rfl | rfl <;> assumption) es q hrun
  exact ⟨h3, fun hst => ⟨(h4 hst).1, (h4 hst).2.2.2⟩⟩

/-- What the program asks `fuse_libc::os::linux::mount` for. -/
def helloConfig (uid gid : UInt32) : MountConfig where
  opts :=
    { mountSource := ⟨helloCStr⟩
      subtype := some ⟨helloCStr⟩
      userId := some uid
      groupId := some gid }

/-- **C57**, mounting: for every target without a NUL byte and every behaviour of the system calls, the program
opens `/dev/fuse` and mounts it at the target, with the process's user and group, source and subtype
`helloworld` and type `fuse`, and nothing else is changed; or a system call failed, nothing is mounted, what was
opened is closed again, and the program panics. -/
theorem C57_mount {δ : Type} (sys : Sys δ) (uid gid : UInt32) (target : Bytes) (h0 : 0 ∉ target) (d : δ)
    (errno : Int32) :
    ∃ (d' : δ) (log : Log) (errno' : Int32),
    (∃ (s : DeviceSocket) (queries : List SysEvent) (text : Bytes) (root : UInt32),
      helloMount (record sys) uid gid target ⟨(d, ⟨[], []⟩), errno⟩ = .ok (s, ⟨(d', log), errno'⟩) ∧
      (∀ e ∈ queries, e.isQuery) ∧
      log.events = queries ++ [.opened DEV_FUSE 0x80002 s.fd,
        .mounted helloCStr ⟨target, h0⟩ cstrFuse 0x6 (text ++ [0])] ∧
      Kernel.parse false text = some
        { fd := some s.fd.toUInt32, groupId := some gid, userId := some uid, rootmode := some root
          subtype := some helloCStr.bytes, allowOther := false, blksize := none, maxRead := none
          defaultPermissions := false } ∧
      ∃ mode, .stat ⟨target, h0⟩ mode ∈ queries ∧ root = mode.toUInt32) ∨
    (helloMount (record sys) uid gid target ⟨(d, ⟨[], []⟩), errno⟩ = .error .panic ∧
      ∃ (e : Libc.LibcError) (no : Errno),
      Libc.mount (record sys) ⟨target, h0⟩ (helloConfig uid gid) ⟨(d, ⟨[], []⟩), errno⟩ =
        .ok (.error e, ⟨(d', log), errno'⟩) ∧
      NotMounted (helloConfig uid gid) log no) := by
  have hs : MountSource.new helloCStr = some ⟨helloCStr⟩ := by
    unfold MountSource.new; rw [if_neg (by decide +kernel)]
  have ht : FuseSubtype.new helloCStr = some ⟨helloCStr⟩ := by
    unfold FuseSubtype.new; rw [if_neg (by decide +kernel), if_neg (by decide +kernel)]
  let c := helloConfig uid gid
  rcases C53_libc sys ⟨target, h0⟩ c d errno (by intro t h; cases h; exact ht) with
    ⟨s, d', log, errno', h1, ⟨queries, text, root, u, g, h2, h3, -, -, h4, h5, h6, h7⟩, -⟩ |
    ⟨no, d', log, errno', h1, h2⟩
  · refine ⟨d', log, errno', .inl ⟨s, queries, text, root, ?_, h2, h3, ?_, ?_⟩⟩
    · unfold helloMount
      rw [dif_neg h0, hs, ht]
      show (Libc.mount _ _ c _ >>= _) = _
      rw [h1]; rfl
    · rcases h6 with h6 | h6
      · rcases h7 with h7 | h7
        · cases h6; cases h7; exact h4
        · cases h7.1
      · cases h6.1
    · rcases h5 with h5 | h5
      · cases h5
      · exact h5.2
  · refine ⟨d', log, errno', .inr ⟨?_, _, no, h1, h2⟩⟩
    unfold helloMount
    rw [dif_neg h0, hs, ht]
    show (Libc.mount _ _ c _ >>= _) = _
    rw [h1]; rfl

/-! ## Where the program departs from what a filesystem is to do -/

/-- A READ request is to be answered with at most `size` bytes of the file from `offset` on; the program answers
with the whole file, which is wrong whenever that is something else. -/
theorem C57_violated_read (fs : Hello σ ε) (hm : 9 ≤ fs.layout.versionMinor) (b : FuseReadIn) (hb : b.fh = 1001)
    (unique nodeid : UInt64) (hu : unique ≠ 0) (hn : nodeid ≠ 0)
    (hne : (helloContent.drop b.offset.toNat).take b.size.toNat ≠ helloContent) :
    ∃ p, p ≠ (helloContent.drop b.offset.toNat).take b.size.toNat ∧
      ∀ s, ∃ buf, Carries buf (frame unique 0 p) ∧
        fs.dispatch ⟨(ClientReq.read b).message unique nodeid 0 0 0 0⟩ s = match fs.sock.send buf s with
          | (.ok (), s) => .ok s
          | (.error _, _) => .error .panic := by
  have h := C57_answer_partial fs (.request (.read b) unique nodeid 0 0 0 0 [] (.inr hn) hm trivial hu
    (by show 40 + (ClientReq.read b).body.length < _; simp [ClientReq.body, layout_fuse_read_in]))
  rw [List.append_nil] at h
  refine ⟨helloContent, hne.symm, fun s => ?_⟩
  rcases h.2 with h | ⟨msg, h1, h2⟩
  · have := h.1
    simp only [helloAnswer, if_pos hb] at this
    cases this
  · simp only [helloAnswer, if_pos hb] at h1
    cases h1
    exact h2 s

/-- Reading 4 bytes at offset 7 is such a request. -/
example : (helloContent.drop 7).take 4 ≠ helloContent := by decide

/-- A READDIR request whose size has no room for the entry is to be answered with an empty listing or an error;
the program panics, whatever the socket does. -/
theorem C57_violated_readdir (fs : Hello σ ε) (hm : 9 ≤ fs.layout.versionMinor) (b : FuseReadIn) (hb : b.fh = 1002)
    (ho : b.offset = 0) (hsz : b.size.toNat < 40) (unique nodeid : UInt64) (hu : unique ≠ 0) (hn : nodeid ≠ 0)
    (s : σ) :
    fs.dispatch ⟨(ClientReq.readdir b).message unique nodeid 0 0 0 0⟩ s = .error .panic := by
  have hl : 40 + (ClientReq.readdir b).body.length < 2 ^ 32 := by simp [ClientReq.body, layout_fuse_read_in]
  have hacc := message_acceptable (a := .readdir b) (nodeid := nodeid) (uid := 0) (gid := 0) (pid := 0)
    (padding := 0) (tail := []) hu hl
  have hop := message_opcode (a := .readdir b) (unique := unique) (nodeid := nodeid) (uid := 0) (gid := 0)
    (pid := 0) (padding := 0) (tail := [])
  have hdec := decode_message (a := .readdir b) (t := .readdir fs.layout) (unique := unique) (nodeid := nodeid)
    (uid := 0) (gid := 0) (pid := 0) (padding := 0) (tail := []) hm hn trivial hu hl nofun
  rw [List.append_nil] at hacc hop hdec
  refine (fs.readdir_faults (a := .readdir b) (size := b.size) ⟨hacc, hop, hdec⟩ rfl ?_ ?_ s).trans
    (by rw [if_pos hsz])
  · intro x hx
    obtain ⟨o, h1, h2⟩ := hx.2.2.2.2
    rw [if_pos ho] at h2
    refine ⟨hx.2.1, by rw [hx.2.2.1, hb], ?_⟩
    rw [h1]
    cases o with
    | none => rfl
    | some _ => cases h2
  · omega

/-- Mounting at `/mnt` with system calls that succeed, and with a mount that is refused. -/
example : (match helloMount (record (mountSys (.ok ()))) 5 6 (ascii ['/', 'm', 'n', 't']) ⟨(0, ⟨[], []⟩), 0⟩ with
    | .ok (s, ⟨(_, ⟨[.stat _ _, .opened _ _ 3, .mounted src _ _ 6 data], []⟩), _⟩) =>
      (s.fd, src.bytes, data.take 17) == (3, "helloworld".toUTF8.toList,
        ascii ['f', 'd', '=', '3', ',', 'g', 'r', 'o', 'u', 'p', '_', 'i', 'd', '=', '6', ',', 'r'])
    | _ => false) = true := by
  decide +kernel

example : (match helloMount (record (mountSys (.error EINVAL))) 5 6 (ascii ['/', 'm', 'n', 't'])
      ⟨(0, ⟨[], []⟩), 0⟩ with
    | .error .panic => true
    | _ => false) = true := by
  decide +kernel

/-- A READDIR request of 32 bytes panics. -/
example (fs : Hello σ ε) (hm : 9 ≤ fs.layout.versionMinor) (s : σ) :
    fs.dispatch ⟨(ClientReq.readdir { fh := 1002, size := 32 }).message 4 1 0 0 0 0⟩ s = .error .panic :=
  C57_violated_readdir fs hm _ rfl rfl (by decide) 4 1 (by decide) (by decide) s

end Fuse
