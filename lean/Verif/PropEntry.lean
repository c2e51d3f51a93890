import Verif.PropRecords
import Verif.PropDirent
import Verif.Vfs

/-!
# C71: an entry names one node

A reply to LOOKUP, CREATE and the like, and each record of a READDIRPLUS listing, names a node more than once: by the
node ID of the entry, by the inode number among its attributes, and in a listing by the inode number of the directory
record.  The library has one node ID for all of them, the one `Entry::new` took from the attributes.

`Entry::attributes_mut` (fuse/entry.rs:83-88) gives a mutable reference to a `NodeAttr`, which is `Copy`.  A server
can therefore do two things with it: call setters, none of which changes the node ID, or assign other attributes,
those of another node for instance.  The entry then keeps the old node ID and the new inode number.
-/

namespace Fuse

open Spec

/-- Something a server does with an `Entry` it has: calling a mutator, fuse/entry.rs:70-118, or assigning through
`attributes_mut`, fuse/entry.rs:83-88. -/
inductive EntryUse
  | call (op : EntryOp)
  | assign (a : NodeAttr)

/-- The entry afterwards, fuse/entry.rs:70-118. -/
def Entry.use (e : Entry) : EntryUse → Entry
  | .call op => op.run e
  | .assign a => ⟨{ e.raw with attr := a.raw }⟩

/-- The node IDs a client finds in a reply carrying an entry: the entry's and the attributes'. -/
def Spec.entryIds (p : Bytes) : List Nat := [u64At p 0, u64At p 40]

theorem attrOp_ino (a : NodeAttr) (op : AttrOp) : (op.run a).raw.ino = a.raw.ino := by cases op <;> rfl

theorem entryOp_ids (e : Entry) (op : EntryOp) :
    (op.run e).raw.nodeid = e.raw.nodeid ∧ (op.run e).raw.attr.ino = e.raw.attr.ino := by
  cases op with
  | attributes op => exact ⟨rfl, attrOp_ino _ op⟩
  | _ => exact ⟨rfl, rfl⟩

/-- The node ID of the attributes assigned last, or the first one. -/
def Spec.lastAssigned (first : UInt64) : List EntryUse → UInt64
  | [] => first
  | .call _ :: us => Spec.lastAssigned first us
  | .assign a :: us => Spec.lastAssigned a.raw.ino us

theorem uses_ids (us : List EntryUse) (e : Entry) :
    (us.foldl Entry.use e).raw.nodeid = e.raw.nodeid ∧
      (us.foldl Entry.use e).raw.attr.ino = Spec.lastAssigned e.raw.attr.ino us := by
  induction us generalizing e with
  | nil => exact ⟨rfl, rfl⟩
  | cons u us ih =>
    rw [List.foldl_cons]
    obtain ⟨h1, h2⟩ := ih (e.use u)
    cases u with
    | call op =>
      have h := entryOp_ids e op
      refine ⟨h1.trans h.1, ?_⟩
      rw [h2]
      show Spec.lastAssigned (op.run e).raw.attr.ino us = _
      rw [h.2]
      rfl
    | assign a => exact ⟨h1, h2⟩

theorem lastAssigned_same {n : UInt64} (us : List EntryUse) (h : ∀ a, .assign a ∈ us → a.raw.ino = n) :
    Spec.lastAssigned n us = n := by
  induction us with
  | nil => rfl
  | cons u us ih =>
    have := ih (fun a ha => h a (List.mem_cons_of_mem _ ha))
    cases u with
    | call op => exact this
    | assign a =>
      show Spec.lastAssigned a.raw.ino us = n
      rw [h a List.mem_cons_self]
      exact this

/-- What each of the three replies says of an entry. -/
theorem ids_sent (e : Entry) (m : Nat) :
    Spec.entryIds ((FuseReply.entry e).payload m) = [e.raw.nodeid.toNat, e.raw.attr.ino.toNat] := by
  obtain ⟨_, _, h1, _, _, _, _, _, h2⟩ := C19_entry m e
  have h3 : u64At ((FuseReply.entry e).payload m) 40 = e.raw.attr.ino.toNat := congrArg ClientAttr.ino h2
  unfold Spec.entryIds
  rw [h1, h3]

theorem ids_created (r : CreateResponse) (m : Nat) :
    Spec.entryIds ((FuseReply.create r).payload m) = [r.entry.raw.nodeid.toNat, r.entry.raw.attr.ino.toNat] := by
  obtain ⟨_, h1, _, _, _, _, _, h2, _⟩ := C19_create m r
  have h3 : u64At ((FuseReply.create r).payload m) 40 = r.entry.raw.attr.ino.toNat := congrArg ClientAttr.ino h2
  unfold Spec.entryIds
  rw [h1, h3]

/-- The node IDs a client finds in one record of a READDIRPLUS listing: those of the entry, and the inode number. -/
def Spec.SeenEntry.ids (s : SeenEntry) : List Nat := [u64At s.entry 0, u64At s.entry 40, s.ino]

theorem ids_listed (c : PlusChild) (type : Nat) :
    (c.seen type).ids = [c.entry.raw.nodeid.toNat, c.entry.raw.attr.ino.toNat, c.entry.raw.attr.ino.toNat] := by
  have h1 : u64At (layout_fuse_entry_out c.entry.raw) 0 = c.entry.raw.nodeid.toNat := by
    unfold layout_fuse_entry_out; read_at
  have h2 : u64At (layout_fuse_entry_out c.entry.raw) 40 = c.entry.raw.attr.ino.toNat := by
    unfold layout_fuse_entry_out layout_fuse_attr; read_at
  unfold SeenEntry.ids PlusChild.seen
  dsimp only
  rw [h1, h2]

/-- An entry made for the node with ID `id`, and then used in any way except that attributes of another node are
never assigned. -/
def Entry.IsFor (e : Entry) (id : NodeId) : Prop :=
  ∃ (a : NodeAttr) (us : List EntryUse), a.nodeId = .ok id ∧ (∀ b, .assign b ∈ us → b.nodeId = .ok id) ∧
    e = us.foldl Entry.use (.new a)

theorem nodeId_ino {a : NodeAttr} {id : NodeId} : a.nodeId = .ok id ↔ a.raw.ino = id.val := by
  unfold NodeAttr.nodeId NodeId.newUnchecked NonZeroU64.newUnchecked
  split
  · rename_i h
    constructor
    · intro h; cases h; rfl
    · intro h; congr 1; exact Subtype.ext h
  · rename_i h
    constructor
    · intro h; cases h
    · intro h'; exact absurd (h' ▸ id.property) h

theorem Entry.IsFor.ids {e : Entry} {id : NodeId} (h : e.IsFor id) :
    e.raw.nodeid = id.val ∧ e.raw.attr.ino = id.val := by
  obtain ⟨a, us, ha, hb, rfl⟩ := h
  obtain ⟨h1, h2⟩ := uses_ids us (.new a)
  have ha : a.raw.ino = id.val := nodeId_ino.1 ha
  refine ⟨h1.trans ha, h2.trans ?_⟩
  show Spec.lastAssigned a.raw.ino us = _
  rw [ha]
  exact lastAssigned_same us fun b h => nodeId_ino.1 (hb b h)

/-- **C71**: however an entry is used, as long as it is never given the attributes of another node: the entry
reports the node it was made for, and this is the node named everywhere in the reply to LOOKUP and the other requests
answered with an entry, in the reply to CREATE, and in each record of a READDIRPLUS listing.  Missing from the full
statement: entries given the attributes of another node, see `C71_violated`. -/
theorem C71_partial (id : NodeId) (e : Entry) (h : e.IsFor id) (m : Nat) :
    e.attributes.nodeId = .ok id ∧
      (∀ n ∈ Spec.entryIds ((FuseReply.entry e).payload m), n = id.val.toNat) ∧
      (∀ (r : CreateResponse), r.entry = e →
        ∀ n ∈ Spec.entryIds ((FuseReply.create r).payload m), n = id.val.toNat) ∧
      ∀ (c : PlusChild), c.entry = e → ∀ type, ∀ n ∈ (c.seen type).ids, n = id.val.toNat := by
  obtain ⟨h1, h2⟩ := h.ids
  refine ⟨nodeId_ino.2 h2, ?_, ?_, ?_⟩
  · rw [ids_sent, h1, h2]; simp
  · rintro r rfl
    rw [ids_created, h1, h2]; simp
  · rintro c rfl type
    rw [ids_listed, h1, h2]; simp

/-- **C71**, whole listings: a client reading a READDIRPLUS listing of such entries finds, in each record, one node:
that of the accepted entry in the same place. -/
theorem C71_listing_partial (addr : Nat) (buf : Bytes) (cs : List (PlusChild × NodeId)) (ha : addr % 8 = 0)
    (h : ∀ c ∈ cs, c.1.entry.IsFor c.2) :
    ∃ oks w bytes seen, (DirWriter.new addr buf).pushAll (cs.map fun c => c.1.record) = .ok (oks, w) ∧
      w.intoEntries = .ok bytes ∧ ClientReads 128 bytes seen ∧
      seen.map SeenEntry.ids = (accepted cs oks).map fun c => List.replicate 3 c.2.val.toNat := by
  obtain ⟨oks, w, bytes, h1, h2, _, _, h4⟩ := C27_readdirplus_partial addr buf (cs.map Prod.fst) ha
  rw [List.map_map] at h1
  refine ⟨oks, w, bytes, _, h1, h2, h4, ?_⟩
  rw [accepted_map, List.map_map, List.map_map]
  apply List.map_congr_left
  intro c hc
  have hm : c ∈ cs := accepted_mem hc
  obtain ⟨h5, h6⟩ := (h c hm).ids
  show SeenEntry.ids _ = _
  dsimp only [Function.comp]
  rw [ids_listed, h5, h6]
  rfl

/-- The lookup of the VFS layer: the entry sent names the node that is added to the table, in both places. -/
theorem C71_vfs_lookup {ν : Type} (node : ν) (attr : NodeAttr) (id : NodeId) (hid : attr.nodeId = .ok id)
    (res : LookupResult ν) (hr : res.node = some (node, attr)) (m : Nat) :
    Spec.entryIds ((FuseReply.entryOut (Filesystem.lookupEntry res)).payload m) = [id.val.toNat, id.val.toNat] := by
  have h1 : (Filesystem.lookupEntry res).nodeid = id.val ∧ (Filesystem.lookupEntry res).attr.ino = id.val := by
    unfold Filesystem.lookupEntry
    rw [hr]
    exact ⟨nodeId_ino.1 hid, nodeId_ino.1 hid⟩
  have := ids_sent ⟨Filesystem.lookupEntry res⟩ m
  rw [h1.1, h1.2] at this
  exact this

/-- **C71** is violated: assigning the attributes of any other node to an entry gives an entry that reports the other
node, while the client is told to use the first node with the attributes of the other; in a READDIRPLUS listing the
directory record names the other node as well. -/
theorem C71_violated (a b : NodeAttr) (id id' : NodeId) (ha : a.nodeId = .ok id) (hb : b.nodeId = .ok id')
    (hne : id ≠ id') (m : Nat) :
    let e := (Entry.new a).use (.assign b)
    e.attributes.nodeId = .ok id' ∧
      Spec.entryIds ((FuseReply.entry e).payload m) = [id.val.toNat, id'.val.toNat] ∧
      (∀ (c : PlusChild), c.entry = e → ∀ type,
        (c.seen type).ids = [id.val.toNat, id'.val.toNat, id'.val.toNat]) ∧
      id.val.toNat ≠ id'.val.toNat := by
  intro e
  have h1 : e.raw.nodeid = id.val := nodeId_ino.1 ha
  have h2 : e.raw.attr.ino = id'.val := nodeId_ino.1 hb
  refine ⟨hb, ?_, ?_, ?_⟩
  · rw [ids_sent, h1, h2]
  · rintro c hc type
    rw [ids_listed, hc, h1, h2]
  · intro h
    exact hne (Subtype.ext (UInt64.toNat_inj.1 h))

/-- Exactly when an entry names one node: when the attributes assigned last are of the node it was made for. -/
theorem C71_iff (a : NodeAttr) (us : List EntryUse) (m : Nat) :
    (∃ n, ∀ x ∈ Spec.entryIds ((FuseReply.entry (us.foldl Entry.use (.new a))).payload m), x = n) ↔
      Spec.lastAssigned a.raw.ino us = a.raw.ino := by
  obtain ⟨h1, h2⟩ := uses_ids us (.new a)
  rw [ids_sent, h1, h2]
  show (∃ n, ∀ x ∈ [a.raw.ino.toNat, (Spec.lastAssigned a.raw.ino us).toNat], x = n) ↔ _
  constructor
  · rintro ⟨n, hn⟩
    exact UInt64.toNat_inj.1 ((hn _ (by simp)).trans (hn _ (by simp)).symm)
  · intro h
    rw [h]
    exact ⟨a.raw.ino.toNat, by simp⟩

/-! ## Examples -/

/-- An entry for node 7 with attributes and timeouts set, then given a copy of its own attributes. -/
example : Entry.IsFor ((((Entry.new (NodeAttr.new ⟨7, by decide⟩)).use (.call (.attributes (.size 9)))).use
    (.call (.generation 3))).use (.assign ((NodeAttr.new ⟨7, by decide⟩).setLinkCount 2))) ⟨7, by decide⟩ :=
  ⟨NodeAttr.new ⟨7, by decide⟩, [.call (.attributes (.size 9)), .call (.generation 3),
    .assign ((NodeAttr.new ⟨7, by decide⟩).setLinkCount 2)], rfl, by
      intro b hb
      simp only [List.mem_cons, reduceCtorEq, EntryUse.assign.injEq, List.not_mem_nil, or_false, false_or] at hb
      subst hb
      rfl, rfl⟩

/-- What is sent for it begins with node 7 and generation 3, and has node 7 at offset 40. -/
example : (List.take 48 ((FuseReply.entry ((((Entry.new (NodeAttr.new ⟨7, by decide⟩)).use
    (.call (.attributes (.size 9)))).use (.call (.generation 3))).use
      (.assign ((NodeAttr.new ⟨7, by decide⟩).setLinkCount 2)))).payload 31)) =
    [7, 0, 0, 0, 0, 0, 0, 0, 3] ++ List.replicate 31 0 ++ [7, 0, 0, 0, 0, 0, 0, 0] := by
  decide +kernel

/-- An entry made for node 7 and given the attributes of node 8. -/
example : Spec.entryIds ((FuseReply.entry ((Entry.new (NodeAttr.new ⟨7, by decide⟩)).use
    (.assign (NodeAttr.new ⟨8, by decide⟩)))).payload 31) = [7, 8] := by
  decide +kernel

end Fuse
