import Verif.PropVfsCall
import Verif.PropVfsReply
import Verif.Records

/-!
# Methods left to their defaults: property C74
-/

namespace Fuse

open Spec VfsEv

variable {ν φ η σ ε : Type}

/-! ## Model -/

namespace VfsDefault

/-- `Node::getxattr`, fuse-vfs/fuse-vfs.rs:104-110. -/
def getxattr (os : OsErrorName → FuseError) : Except FuseError Bytes := .error (os .xattrNotFound)

/-- `Node::listxattr`, fuse-vfs/fuse-vfs.rs:112-118, with `ListxattrResult::names` (lines 178-181). -/
def listxattr : Except FuseError Bytes := .ok []

/-- `Node::statfs`, fuse-vfs/fuse-vfs.rs:120-126; `StatfsAttributes::new` is fuse/operations/statfs.rs:68-72. -/
def statfs : Except FuseError FuseKstatfs := .ok {}

/-- `DirectoryHandle::releasedir` and `FileHandle::release`, fuse-vfs/fuse-vfs.rs:274-280 and 376-382. -/
def release : Except FuseError Unit := .ok ()

/-- `Node::as_directory`, `as_file`, `as_symlink`, `DirectoryHandle::as_readdir_handle`, `as_readdirplus_handle`,
`FileHandle::as_read_handle`, `as_write_handle`, fuse-vfs/fuse-vfs.rs:86-96, 265-271 and 367-373. -/
def asKind {α : Type} : Option α := none

end VfsDefault

/-- The object `x` leaves the method for requests like `q` to its default: the method that handles the request, or the
method by which an object says whether it is of the kind the request needs. -/
def VfsImpl.LeavesOut (os : OsErrorName → FuseError) (impl : VfsImpl ν φ η σ) : ν ⊕ φ ⊕ η → AnyRequest → Prop
  | .inl v, .getxattr _ => ∀ h r w, (impl.getxattr v h r w).1 = VfsDefault.getxattr os
  | .inl v, .listxattr _ => ∀ h r w, (impl.listxattr v h r w).1 = VfsDefault.listxattr
  | .inl v, .statfs _ => ∀ h r w, (impl.statfs v h r w).1 = VfsDefault.statfs
  | .inl v, .lookup _ => ∀ w, (impl.asDirectory v w).1 = VfsDefault.asKind
  | .inl v, .opendir _ => ∀ w, (impl.asDirectory v w).1 = VfsDefault.asKind
  | .inl v, .open_ _ => ∀ w, (impl.asFile v w).1 = VfsDefault.asKind
  | .inl v, .readlink _ => ∀ w, (impl.asSymlink v w).1 = VfsDefault.asKind
  | .inr (.inl x), .read _ => ∀ w, (impl.asReadHandle x w).1 = VfsDefault.asKind
  | .inr (.inl x), .write _ => ∀ w, (impl.asWriteHandle x w).1 = VfsDefault.asKind
  | .inr (.inl x), .release _ => ∀ h r w, (impl.release x h r w).1 = VfsDefault.release
  | .inr (.inr x), .readdir _ => ∀ w, (impl.asReaddirHandle x w).1 = VfsDefault.asKind
  | .inr (.inr x), .readdirplus _ => ∀ w, (impl.asReaddirplusHandle x w).1 = VfsDefault.asKind
  | .inr (.inr x), .releasedir _ => ∀ h r w, (impl.releasedir x h r w).1 = VfsDefault.release
  | _, _ => False

/-! ## Specification -/

namespace Spec

/-- The payload says that there are no extended attributes, to a client that gave this size in LISTXATTR: with size 0
it wants to know how much room it needs, and expects a `fuse_getxattr_out`; otherwise it expects the names. -/
def NoAttributes (size : UInt32) (payload : Bytes) : Prop :=
  if size = 0 then payload.length = 8 ∧ u32At payload 0 = 0 else payload = []

instance (size payload) : Decidable (NoAttributes size payload) := by unfold NoAttributes; infer_instance

/-- The error and the payload that are to be sent for a request about an object that leaves out the method: no
extended attributes, unknown sizes of the filesystem, success for releasing, and for all else an error. -/
def DefaultAnswer (os : OsErrorName → FuseError) (minor : Nat) (error : Int32) (payload : Bytes) : AnyRequest → Prop
  | .getxattr _ => error = (os .xattrNotFound).val ∧ payload = []
  | .listxattr q => error = 0 ∧ NoAttributes q.body.size payload
  | .statfs _ => error = 0 ∧ payload = List.replicate (if minor < 4 then 48 else 80) 0
  | .lookup _ | .opendir _ => error = (os .notDirectory).val ∧ payload = []
  | .open_ _ | .readlink _ | .read _ | .write _ | .readdir _ | .readdirplus _ =>
    error = (os .notSupported).val ∧ payload = []
  | .release _ | .releasedir _ => error = 0 ∧ payload = []
  | _ => False

/-- LISTXATTR with size 0. -/
def AsksNamesSize : AnyRequest → Prop
  | .listxattr q => q.body.size = 0
  | _ => False

end Spec

/-! ## Proofs -/

/-- What is sent for a request about an object that leaves out the method. -/
def defaultSent (os : OsErrorName → FuseError) : AnyRequest → FuseAnswer
  | .getxattr _ => .err (os .xattrNotFound)
  | .listxattr _ => .okBuf []
  | .statfs _ => .ok (.statfs { st := {} })
  | .lookup _ | .opendir _ => .err (os .notDirectory)
  | .release _ | .releasedir _ => .okEmpty
  | _ => .err (os .notSupported)

theorem called_fst {α : Type} {f : σ → α × σ} {a : α} {s s' : Vfs ν φ η σ} (h : Called f a s s') {b : α}
    (hd : ∀ w, (f w).1 = b) : a = b := by
  rw [← hd s.world, h.1]

set_option maxHeartbeats 2000000 in
theorem VfsTrace.default {os : OsErrorName → FuseError} {fs : Filesystem ν φ η σ ε} (hos : fs.os = .of os) {q evs out}
    (h : VfsTrace fs q evs out) {e e' a r x hdr s s'} (he : e ∈ evs) (hu : e.UsesObj x) (heff : e.Effect fs hdr s s')
    (hs : e' ∈ evs) (ha : e'.sends = some (a, r)) (hl : fs.impl.LeavesOut os x q) : a = defaultSent os q := by
  cases h <;> simp only [List.mem_cons, List.not_mem_nil, or_false] at he hs <;>
    (repeat' (rcases he with rfl | he)) <;> (repeat' (rcases hs with rfl | hs)) <;>
    first
    | (cases ha; done)
    | (cases ha
       rcases x with v | x | x <;> first
        | (cases hu; done)
        | (exact hl.elim)
        | (cases hu
           first
            | (cases called_fst heff fun w => hl _ _ w; done)
            | (cases called_fst heff fun w => hl w; done)
            | (cases called_fst heff.2 fun w => hl _ _ w; done)
            | (cases called_fst heff fun w => hl _ _ w; first | rfl | (rw [hos]; rfl))
            | (rw [hos]; rfl)
            | rfl))

theorem VfsImpl.LeavesOut.recorded {os : OsErrorName → FuseError} {fs : Filesystem ν φ η σ ε} {x : ν ⊕ φ ⊕ η}
    {q : AnyRequest} (h : fs.impl.LeavesOut os x q) : fs.recorded.impl.LeavesOut os x q := by
  rcases x with v | x | x <;> cases q <;> first
    | exact h.elim
    | exact fun hd r w => h hd r w.1
    | exact fun w => h w.1

section
variable {fs : Filesystem ν φ η σ ε} {root : ν} {w0 : σ} {bufs : Nat → Bytes}
  {tr : List (Nat × Vfs ν φ η (σ × List (Obs ν φ η)) × Vfs ν φ η (σ × List (Obs ν φ η)))}
  {pool : Nat → Prog (Vfs ν φ η (σ × List (Obs ν φ η))) (Option (Outcome ε Unit))}
  {s : Vfs ν φ η (σ × List (Obs ν φ η))} {os : OsErrorName → FuseError}

theorem Serving.default (h : Serving fs root w0 bufs tr pool s) (hos : fs.os = .of os) {t m b x q}
    (hm : (t, .sent m b) ∈ observed tr) (hx : Uses (observed tr) t x) (hq : RequestIs fs (bufs t) q)
    (hl : fs.impl.LeavesOut os x q) :
    m = frame (hdrOf (bufs t)).unique (defaultSent os q).error
      ((defaultSent os q).payload fs.layout.versionMinor.toNat) := by
  obtain ⟨L, _, hL, _, _, _, l3, _, h2, _⟩ := h.hist (.nil _ _)
  rw [l3] at hm hx
  obtain ⟨e', e1, e2⟩ := mem_obsOf.mp hm
  obtain ⟨a, r, e3, _, e5, _⟩ := obs_sent e2
  obtain ⟨q1, rest, o, hq1, hv, _⟩ := (h2 t).trace (h.accepted t) (mem_eventsOf.mpr e1)
  obtain rfl := requestIs_unique hq hq1
  have hu : ∃ e, (t, e) ∈ L ∧ e.UsesObj x := by
    cases x with
    | inl v =>
      obtain ⟨e, y1, y2⟩ := mem_obsOf.mp hx
      exact ⟨e, y1, obs_node.mp y2⟩
    | inr y =>
      obtain ⟨e, y1, y2⟩ := mem_obsOf.mp hx
      exact ⟨e, y1, obs_handle.mp y2⟩
  obtain ⟨e, y1, y2⟩ := hu
  obtain ⟨_, _, s1, s2, _, _, he, _⟩ := hL.split_at y1
  rw [e5, VfsTrace.default (os := os) (fs := fs.recorded) hos hv (List.mem_append_left _ (mem_eventsOf.mpr y1)) y2 he
    (List.mem_append_left _ (mem_eventsOf.mpr e1)) e3 hl.recorded]

/-- **C74**, as far as it holds: in every execution, whatever is sent for a request about an object that leaves out
the method is what is to be sent, except for LISTXATTR with size 0; see `C74_violated`. -/
theorem C74_partial (h : Serving fs root w0 bufs tr pool s) (hos : fs.os = .of os) {t m b x q}
    (hm : (t, .sent m b) ∈ observed tr) (hx : Uses (observed tr) t x) (hq : RequestIs fs (bufs t) q)
    (hl : fs.impl.LeavesOut os x q) (hn : ¬ AsksNamesSize q) :
    ∃ error payload, m = frame (hdrOf (bufs t)).unique error payload ∧
      DefaultAnswer os fs.layout.versionMinor.toNat error payload q := by
  refine ⟨_, _, h.default hos hm hx hq hl, ?_⟩
  rcases x with v | x | x <;> cases q <;> first
    | exact hl.elim
    | exact ⟨rfl, rfl⟩
    | exact ⟨rfl, (show NoAttributes _ [] by rw [NoAttributes, if_neg (show ¬ _ = _ from hn)])⟩
    | (refine ⟨rfl, ?_⟩
       show statfsBytes _ {} = _
       unfold statfsBytes
       split <;> rfl)

/-- **C74** fails: whenever a client asks for the size of the list of names of a node that leaves out `listxattr`,
the message that is sent is not the answer that there are no names; it is one the client cannot read. -/
theorem C74_violated_always (h : Serving fs root w0 bufs tr pool s) (hos : fs.os = .of os) {t m b x q}
    (hm : (t, .sent m b) ∈ observed tr) (hx : Uses (observed tr) t x) (hq : RequestIs fs (bufs t) q)
    (hl : fs.impl.LeavesOut os x q) (hn : AsksNamesSize q) :
    m = frame (hdrOf (bufs t)).unique 0 [] ∧
      ∀ error payload, m = frame (hdrOf (bufs t)).unique error payload →
        ¬ DefaultAnswer os fs.layout.versionMinor.toNat error payload q := by
  have h1 := h.default hos hm hx hq hl
  cases q with
  | listxattr q =>
    have h2 : m = frame (hdrOf (bufs t)).unique 0 [] := h1
    refine ⟨h2, fun error payload he hd => ?_⟩
    have hz : q.body.size = 0 := hn
    have h3 := hd.2
    rw [NoAttributes, if_pos hz] at h3
    have h4 := congrArg List.length (h2.symm.trans he)
    simp only [frame, List.length_append, List.length_nil, h3.1] at h4
    simp at h4
  | _ => exact hn.elim

end

/-- LISTXATTR of the root, for a list of at most `size` bytes. -/
def demoListxattr (size : UInt32) : Bytes := demoMsg 23 90 1 (le32 size ++ le32 0)

/-- Nodes of the small filesystem have no extended attributes, and leave out the method. -/
example (x : Nat) (q) : demoFs.impl.LeavesOut OsErrorName.linux (.inl x) (.listxattr q) := fun _ _ _ => rfl

/-- **C74** fails: such an execution.  The answer to LISTXATTR with size 0 consists of a header only; the client expects
24 bytes. -/
theorem C74_violated : ∃ (tr : _) (pool : _) (s : _) (m : Bytes) (q : AnyRequest),
    Serving demoFs 100 () (demoBufs [demoListxattr 0]) tr pool s ∧ demoFs.os = .of OsErrorName.linux ∧
    RequestIs demoFs (demoListxattr 0) q ∧ AsksNamesSize q ∧
    demoFs.impl.LeavesOut OsErrorName.linux (.inl 100) q ∧
    (0, .node 100) ∈ observed tr ∧ (0, .sent m true) ∈ observed tr ∧
    m = frame 90 0 [] ∧
    ∀ error payload, m = frame 90 error payload →
      ¬ DefaultAnswer OsErrorName.linux demoFs.layout.versionMinor.toNat error payload q := by
  have hs := demo_serving [demoListxattr 0] [0, 0, 0] (by decide +kernel)
  have hq : RequestIs demoFs (demoListxattr 0)
      (.listxattr ⟨{ len := 48, opcode := 23, unique := 90, nodeid := 1 }, {}⟩) :=
    ⟨.listxattr, rfl, by decide +kernel⟩
  have h1 : (0, Obs.node 100) ∈ observed (demoSched [demoListxattr 0] [0, 0, 0]).1 := by decide +kernel
  have h2 : (0, Obs.sent (frame 90 0 []) true) ∈ observed (demoSched [demoListxattr 0] [0, 0, 0]).1 := by decide +kernel
  have hl : demoFs.impl.LeavesOut OsErrorName.linux (.inl 100)
      (.listxattr ⟨{ len := 48, opcode := 23, unique := 90, nodeid := 1 }, {}⟩) := fun _ _ _ => rfl
  refine ⟨_, _, _, _, _, hs, rfl, hq, rfl, hl, h1, h2, rfl, ?_⟩
  have := (C74_violated_always hs (t := 0) (x := .inl 100) rfl h2 h1 hq hl rfl).2
  exact this

/-- With a size the answer, no names, is as it should be; GETXATTR of this filesystem is not left out. -/
example : (observed (demoSched [demoListxattr 64] [0, 0, 0]).1).getLast? =
    some (0, .sent (frame 90 0 []) true) ∧ NoAttributes 64 [] := by
  decide +kernel

/-- What the methods `ListxattrResult::size` and `GetxattrResult::size` are for: this would have been right. -/
example : NoAttributes 0 (xattrSizeResult 0) := by decide +kernel

/-- Of this reply, the first four bytes count. -/
example : NoAttributes 0 [0, 0, 0, 0, 1, 2, 3, 4] ∧ ¬ NoAttributes 0 [1, 0, 0, 0, 0, 0, 0, 0] ∧ ¬ NoAttributes 0 [0, 0, 0, 1, 0, 0, 0, 0] ∧
    ¬ NoAttributes 0 [] ∧ ¬ NoAttributes 1 [0, 0, 0, 0, 0, 0, 0, 0] := by decide +kernel

end Fuse
