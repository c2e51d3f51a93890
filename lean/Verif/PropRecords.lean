import Verif.Records
import Verif.PropNotify

/-!
# C58: records report and transmit what was set
-/

namespace Fuse
open Wire Spec

variable {σ ε : Type}

/-- The last value that the calls `cs` set, as selected by `f`, or `d` if none does. -/
def Spec.lastSet {α β : Type} (f : α → Option β) (cs : List α) (d : β) : β := (cs.filterMap f).getLast?.getD d

theorem lastSet_nil {α β : Type} (f : α → Option β) (d : β) : lastSet f [] d = d := rfl

theorem lastSet_cons {α β : Type} (f : α → Option β) (c : α) (cs : List α) (d : β) :
    lastSet f (c :: cs) d = lastSet f cs ((f c).getD d) := by
  unfold lastSet
  cases h : f c with
  | none => rw [List.filterMap_cons_none h]; rfl
  | some x =>
    rw [List.filterMap_cons_some h, List.getLast?_cons]
    rfl

/-- A field whose value after each call is what the call sets, or unchanged, is the last value set. -/
theorem foldl_lastSet {α β γ : Type} (step : γ → α → γ) (get : γ → β) (f : α → Option β)
    (h : ∀ s c, get (step s c) = (f c).getD (get s)) (cs : List α) (s : γ) :
    get (cs.foldl step s) = lastSet f cs (get s) := by
  induction cs generalizing s with
  | nil => rfl
  | cons c cs ih => rw [List.foldl_cons, ih, h, lastSet_cons]

/-- A field that each call changes by `g` is what `g` makes of the calls in order. -/
theorem foldl_get {α β γ : Type} (step : γ → α → γ) (get : γ → β) (g : β → α → β)
    (h : ∀ s c, get (step s c) = g (get s) c) (cs : List α) (s : γ) :
    get (cs.foldl step s) = cs.foldl g (get s) := by
  induction cs generalizing s with
  | nil => rfl
  | cons c cs ih => rw [List.foldl_cons, List.foldl_cons, ih, h]

/-- A STATFS reply built by any sequence of setter calls: each field is the value last set, zero if it was never
set; the getters say so and so does the reply, at the offsets of the protocol (the fragment size since 7.4). -/
theorem C58_statfs (cs : List StatfsCall) (m : Nat) :
    let a := cs.foldl StatfsAttributes.call .new
    let p := (FuseReply.statfs { st := a.raw }).payload m
    (a.blockCount = lastSet (fun | .blockCount x => some x | _ => none) cs 0 ∧ u64At p 0 = a.blockCount.toNat) ∧
    (a.blocksFree = lastSet (fun | .blocksFree x => some x | _ => none) cs 0 ∧ u64At p 8 = a.blocksFree.toNat) ∧
    (a.blocksAvailable = lastSet (fun | .blocksAvailable x => some x | _ => none) cs 0 ∧
      u64At p 16 = a.blocksAvailable.toNat) ∧
    (a.inodeCount = lastSet (fun | .inodeCount x => some x | _ => none) cs 0 ∧ u64At p 24 = a.inodeCount.toNat) ∧
    (a.inodesFree = lastSet (fun | .inodesFree x => some x | _ => none) cs 0 ∧ u64At p 32 = a.inodesFree.toNat) ∧
    (a.blockSize = lastSet (fun | .blockSize x => some x | _ => none) cs 0 ∧ u32At p 40 = a.blockSize.toNat) ∧
    (a.maxFilenameLength = lastSet (fun | .maxFilenameLength x => some x | _ => none) cs 0 ∧
      u32At p 44 = a.maxFilenameLength.toNat) ∧
    (a.fragmentSize = lastSet (fun | .fragmentSize x => some x | _ => none) cs 0 ∧
      (4 ≤ m → u32At p 48 = a.fragmentSize.toNat)) := by
  intro a p
  obtain ⟨_, h1, h2, h3, h4, h5, h6, h7, h8⟩ := C19_statfs m { st := a.raw }
  exact ⟨⟨foldl_lastSet _ StatfsAttributes.blockCount _ (by intro s c; cases c <;> rfl) cs .new, h1⟩,
    ⟨foldl_lastSet _ StatfsAttributes.blocksFree _ (by intro s c; cases c <;> rfl) cs .new, h2⟩,
    ⟨foldl_lastSet _ StatfsAttributes.blocksAvailable _ (by intro s c; cases c <;> rfl) cs .new, h3⟩,
    ⟨foldl_lastSet _ StatfsAttributes.inodeCount _ (by intro s c; cases c <;> rfl) cs .new, h4⟩,
    ⟨foldl_lastSet _ StatfsAttributes.inodesFree _ (by intro s c; cases c <;> rfl) cs .new, h5⟩,
    ⟨foldl_lastSet _ StatfsAttributes.blockSize _ (by intro s c; cases c <;> rfl) cs .new, h6⟩,
    ⟨foldl_lastSet _ StatfsAttributes.maxFilenameLength _ (by intro s c; cases c <;> rfl) cs .new, h7⟩,
    ⟨foldl_lastSet _ StatfsAttributes.fragmentSize _ (by intro s c; cases c <;> rfl) cs .new,
      fun h => h8 (by omega)⟩⟩

/-- A CREATE reply built by any sequence of calls: the handle is the last one set, the flags and the entry are what
the updates made of them in order, and nothing else changes; the reply carries handle and flags after the entry. -/
theorem C58_create (e : Entry) (cs : List CreateCall) (m : Nat) :
    let r := cs.foldl CreateResponse.call (.new e)
    let p := (FuseReply.create r).payload m
    (r.handle = lastSet (fun | .handle x => some x | _ => none) cs 0 ∧ u64At p (entryOutSize m) = r.handle.toNat) ∧
    (r.flags = cs.foldl (fun b c => match c with | .flags x => x | .update f => f b | _ => b) 0 ∧
      u32At p (entryOutSize m + 8) = r.flags.toNat) ∧
    r.entry = cs.foldl (fun e c => match c with | .entry f => f e | _ => e) e := by
  intro r p
  obtain ⟨_, _, _, _, _, _, _, _, h1, h2⟩ := C19_create m r
  exact ⟨⟨foldl_lastSet _ CreateResponse.handle _ (by intro s c; cases c <;> rfl) cs (.new e), h1⟩,
    ⟨foldl_get _ CreateResponse.flags _ (by intro s c; cases c <;> rfl) cs (.new e), h2⟩,
    foldl_get _ CreateResponse.entry _ (by intro s c; cases c <;> rfl) cs (.new e)⟩

/-- A response header, made for a reply or for a notification, after any sequence of setter calls: the request ID
is as constructed, length and error are the last ones set (16 and none if never set), `response_len` is never
undefined behaviour, and the 16 bytes sent are these three values. -/
theorem C58_header (id : Option NonZeroU64) (cs : List HeaderCall) :
    let h := cs.foldl ResponseHeader.call (match id with | some i => .new i | none => .newNotification)
    h.requestId = id ∧
    h.responseLen = .ok (lastSet (fun | .len n => some n | _ => none) cs ⟨16, by decide⟩) ∧
    h.error = lastSet (fun | .error e => some (some e) | _ => none) cs none ∧
    enc h.raw =
      le32 (lastSet (fun | .len n => some n | _ => none) cs ⟨16, by decide⟩ : { n : UInt32 // n ≠ 0 }).val ++
      leI32 (match lastSet (fun | .error e => some (some e) | _ => none) cs (none : Option { n : Int32 // n ≠ 0 }) with
        | some e => e.val
        | none => 0) ++
      le64 (match id with | some i => i.val | none => 0) := by
  have key : ∀ (h0 : ResponseHeader) (n : { n : UInt32 // n ≠ 0 }) (e : Option { n : Int32 // n ≠ 0 }) (u : UInt64),
      h0.raw = { len := n.val, error := match e with | some e => e.val | none => 0, unique := u } →
      (cs.foldl ResponseHeader.call h0).raw =
        { len := (lastSet (fun | .len n => some n | _ => none) cs n).val
          error := match lastSet (fun | .error e => some (some e) | _ => none) cs e with
            | some e => e.val
            | none => 0
          unique := u } := by
    induction cs with
    | nil => intro h0 n e u h; exact h
    | cons c cs ih =>
      intro h0 n e u h
      rw [List.foldl_cons, lastSet_cons, lastSet_cons]
      cases c with
      | len x => exact ih _ x e u (by simp [ResponseHeader.call, ResponseHeader.setResponseLen, h])
      | error x => exact ih _ n (some x) u (by simp [ResponseHeader.call, ResponseHeader.setError, h])
  intro h
  have hraw : h.raw = _ := key _ ⟨16, by decide⟩ none (match id with | some i => i.val | none => 0)
    (by cases id <;> rfl)
  refine ⟨?_, ?_, ?_, ?_⟩
  · unfold ResponseHeader.requestId
    rw [hraw]
    cases id with
    | none => rfl
    | some i =>
      show NonZeroU64.new i.val = _
      unfold NonZeroU64.new
      rw [dif_pos i.2]
  · unfold ResponseHeader.responseLen
    rw [hraw]
    exact dif_pos (lastSet (fun | .len n => some n | _ => none) cs (⟨16, by decide⟩ : { n : UInt32 // n ≠ 0 })).2
  · unfold ResponseHeader.error
    rw [hraw]
    cases lastSet (fun | .error e => some (some e) | _ => none) cs (none : Option { n : Int32 // n ≠ 0 }) with
    | none => rfl
    | some e => exact dif_pos e.2
  · rw [hraw, enc_fuse_out_header]
    rfl

/-- The notifications report what they were made with, without undefined behaviour. -/
theorem C58_notifications (p n : NodeId) (name : NodeName) (handle : UInt64) (cs : List InodeCall) :
    ((NotifyDelete.new p n name).parentId = .ok p ∧ (NotifyDelete.new p n name).nodeId = .ok n ∧
      (NotifyDelete.new p n name).name = name) ∧
    ((InvalidateEntry.new p name).parentId = .ok p ∧ (InvalidateEntry.new p name).name = name) ∧
    (NotifyPoll.new handle).pollHandle = handle ∧
    (let i := cs.foldl InvalidateInode.call (.new n)
     i.nodeId = .ok n ∧
     i.offset.toInt = lastSet (fun
       | .offset (some x) => some ((min x.toNat (2 ^ 63 - 1) : Nat) : Int)
       | .offset none => some (-1)
       | _ => none) cs 0 ∧
     i.size.toInt = lastSet (fun
       | .size (some x) => some ((min x.val.toNat (2 ^ 63 - 1) : Nat) : Int)
       | .size none => some 0
       | _ => none) cs 0) := by
  have hid : ∀ k : NodeId, NonZeroU64.newUnchecked k.val = .ok k := fun k => by
    unfold NonZeroU64.newUnchecked; rw [dif_pos k.2]
  refine ⟨⟨hid p, hid n, rfl⟩, ⟨hid p, rfl⟩, rfl, ?_, ?_, ?_⟩
  · have : ∀ (i : InvalidateInode), i.raw.ino = n.val → (cs.foldl InvalidateInode.call i).raw.ino = n.val := by
      induction cs with
      | nil => exact fun i h => h
      | cons c cs ih => exact fun i h => ih _ (by cases c <;> exact h)
    unfold InvalidateInode.nodeId
    rw [this _ rfl]
    exact hid n
  · refine foldl_lastSet _ (fun i : InvalidateInode => i.offset.toInt) _ ?_ cs (.new n)
    intro i c
    cases c with
    | offset x => cases x with
      | none => rfl
      | some x => exact clampI64_toInt x
    | size x => rfl
  · refine foldl_lastSet _ (fun i : InvalidateInode => i.size.toInt) _ ?_ cs (.new n)
    intro i c
    cases c with
    | offset x => rfl
    | size x => cases x with
      | none => rfl
      | some x => exact clampI64_toInt x.val

/-- The size result of the VFS layer's xattr methods is the protocol's answer to a query with size 0. -/
theorem C58_xattr_size (size : UInt32) :
    xattrSizeResult size = (FuseReply.getxattr { size := size }).payload 0 := by
  unfold xattrSizeResult
  rw [enc_fuse_getxattr_out]
  rfl

example : ([.blockCount 7, .blockSize 512, .blockCount 9].foldl StatfsAttributes.call .new).raw =
    { blocks := 9, bsize := 512 } := by decide

example : ([.len ⟨40, by decide⟩, .error ⟨-2, by decide⟩, .len ⟨16, by decide⟩].foldl ResponseHeader.call
    (.new ⟨5, by decide⟩)).raw = { len := 16, error := -2, unique := 5 } := by decide

end Fuse
