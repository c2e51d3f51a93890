import Verif.PropDirent
import Verif.VfsTrace

/-!
# C47: paging through a static directory
-/

namespace Fuse

open Spec Wire

/-! ## A client paging through a directory -/

/-- A client reading a directory page by page: page number `i`, read at offset `off`.  `read i off` is what the
server returns.  The listing ends with the first page without entries; otherwise the next page is read at the
offset given in the last entry of this page. -/
inductive Paging (skip : Nat) (read : Nat → UInt64 → Except Fault Bytes) : Nat → UInt64 → List SeenEntry → Prop
  | eof {i off bytes} : read i off = .ok bytes → ClientReads skip bytes [] → Paging skip read i off []
  | more {i off bytes es e next rest} : read i off = .ok bytes → ClientReads skip bytes (es ++ [e]) →
      next.toNat = e.off → Paging skip read (i + 1) next rest → Paging skip read i off (es ++ e :: rest)

/-- The type code (`DT_*`) a mode stands for: its type bits, or 0 if they are none of the seven types. -/
def dtOfMode (mode : UInt32) : Nat :=
  let t := mode.toNat / 2 ^ 12 % 16
  if t ∈ [1, 2, 4, 6, 8, 10, 12] then t else 0

/-- What READDIR should say about the entry with number `n` (counted from 1). -/
def StaticDirectoryEntry.seen (e : StaticDirectoryEntry) (n : Nat) : SeenEntry :=
  ⟨[], e.nodeAttr.raw.ino.toNat, n, dtOfMode e.nodeAttr.raw.mode, e.name.bytes⟩

/-- The lookup result READDIRPLUS should give for an entry. -/
def StaticDirectoryEntry.entryOut (e : StaticDirectoryEntry) : FuseEntryOut :=
  { nodeid := e.nodeAttr.raw.ino
    generation := e.generation
    attr := e.nodeAttr.raw
    entry_valid := (cappedTime e.entryCacheTimeout).1
    entry_valid_nsec := (cappedTime e.entryCacheTimeout).2
    attr_valid := (cappedTime e.attrCacheTimeout).1
    attr_valid_nsec := (cappedTime e.attrCacheTimeout).2 }

/-- What READDIRPLUS says about the entry with number `n`.  The type is not a type code, see `C29_violated`. -/
def StaticDirectoryEntry.seenPlus (e : StaticDirectoryEntry) (n : Nat) : SeenEntry :=
  ⟨layout_fuse_entry_out e.entryOut, e.nodeAttr.raw.ino.toNat, n, (e.nodeAttr.raw.mode &&& 0xF000).toNat, e.name.bytes⟩

/-- A whole listing, numbered from `n`. -/
def listing (seen : StaticDirectoryEntry → Nat → SeenEntry) : Nat → List StaticDirectoryEntry → List SeenEntry
  | _, [] => []
  | n, e :: es => seen e n :: listing seen (n + 1) es

/-- What the types of the library guarantee about an entry. -/
def StaticDirectoryEntry.WellTyped (e : StaticDirectoryEntry) : Prop :=
  NodeName.Valid e.name.bytes ∧ e.nodeAttr.raw.ino ≠ 0

theorem listing_append (seen : StaticDirectoryEntry → Nat → SeenEntry) (n : Nat) (as bs : List StaticDirectoryEntry) :
    listing seen n (as ++ bs) = listing seen n as ++ listing seen (n + as.length) bs := by
  induction as generalizing n with
  | nil => rfl
  | cons a as ih =>
    show seen a n :: listing seen (n + 1) (as ++ bs) = seen a n :: listing seen (n + 1) as ++ _
    rw [ih, List.length_cons, List.cons_append, Nat.add_assoc, Nat.add_comm 1]

/-! ## Pages -/

theorem saturatingAdd_one {o : NonZeroU64} (h : o.val.toNat + 1 < 2 ^ 64) :
    (o.saturatingAdd 1).val.toNat = o.val.toNat + 1 := by
  unfold NonZeroU64.saturatingAdd
  rw [dif_pos (show o.val.toNat + (1 : UInt64).toNat < 2 ^ 64 from h)]
  show (o.val + 1).toNat = _
  rw [UInt64.toNat_add]
  exact Nat.mod_eq_of_lt h

section
variable {T : Type} [Dirent T]

/-- The records of a page, numbered from `o`. -/
def numbered (rec : StaticDirectoryEntry → NonZeroU64 → DirRecord T) :
    NonZeroU64 → List StaticDirectoryEntry → List (DirRecord T)
  | _, [] => []
  | o, e :: es => rec e o :: numbered rec (o.saturatingAdd 1) es

variable {record : StaticDirectoryEntry → NonZeroU64 → Except Fault (DirRecord T)}
  {rec : StaticDirectoryEntry → NonZeroU64 → DirRecord T}

/-- The loop pushes a prefix of the entries, as long as possible. -/
theorem pushLoop_spec (h8 : Wire.size T % 8 = 0) (hal : Wire.align T = 8)
    (hname : ∀ e o, (rec e o).name = e.name) (es : List StaticDirectoryEntry)
    (hrec : ∀ e ∈ es, ∀ o, record e o = .ok (rec e o)) (w : DirWriter) (o : NonZeroU64)
    (ha : (w.addr + w.position) % 8 = 0) (hw : w.position ≤ w.buf.length) :
    ∃ n w', n ≤ es.length ∧ StaticDirectory.pushLoop record w o es = .ok w' ∧ w'.buf.length = w.buf.length ∧
      w'.position ≤ w'.buf.length ∧
      w'.buf.take w'.position = w.buf.take w.position ++ records (numbered rec o (es.take n)) ∧
      (∀ e ∈ es.take n, direntSize T e.name ≤ w.buf.length) ∧
      ∀ e, es[n]? = some e → w.buf.length < w'.position + direntSize T e.name := by
  induction es generalizing w o with
  | nil =>
    exact ⟨0, w, Nat.le_refl _, rfl, rfl, hw, by simp [numbered, records], by simp, by simp⟩
  | cons e es ih =>
    have hr := hrec e (by simp) o
    by_cases hp : w.position + direntSize T e.name ≤ w.buf.length
    · have hp' : w.position + direntSize T (rec e o).name ≤ w.buf.length := by rw [hname]; exact hp
      have h1 := tryPush_fits w (rec e o) (by rw [hal]; exact ha) hp'
      have hsz := direntSize_aligned (T := T) e.name h8
      have hrl := (rec e o).record_length
      rw [hname] at h1 hrl
      generalize hw1 : ({ w with
        buf := w.buf.take w.position ++ (rec e o).record ++ w.buf.drop (w.position + direntSize T e.name)
        position := w.position + direntSize T e.name } : DirWriter) = w1 at h1
      have a1 : w1.addr = w.addr := by rw [← hw1]
      have p1 : w1.position = w.position + direntSize T e.name := by rw [← hw1]
      have l1 : w1.buf.length = w.buf.length := by
        rw [← hw1]; simp only [List.length_append, List.length_take, List.length_drop, hrl]; omega
      have b1 : w1.buf.take w1.position = w.buf.take w.position ++ (rec e o).record := by
        rw [← hw1]
        apply List.take_left'
        simp only [List.length_append, List.length_take, hrl]; omega
      obtain ⟨n, w', e1, e2, e3, e4, e5, e6, e7⟩ := ih (fun x hx => hrec x (by simp [hx])) w1 (o.saturatingAdd 1)
        (by rw [a1, p1]; omega) (by omega)
      refine ⟨n + 1, w', by simpa using e1, ?_, by rw [e3, l1], e4, ?_, ?_, ?_⟩
      · simp only [StaticDirectory.pushLoop, hr, h1, bind, Except.bind, if_true]
        exact e2
      · rw [e5, b1]
        simp [numbered, records]
      · intro x hx
        rcases List.mem_cons.mp hx with rfl | hx
        · omega
        · rw [← l1]; exact e6 x hx
      · intro x hx
        rw [← l1]
        exact e7 x (by simpa using hx)
    · have h1 := tryPush_full w (rec e o) hw (by rw [hname]; omega)
      refine ⟨0, w, Nat.zero_le _, ?_, rfl, hw, by simp [numbered, records], by simp, ?_⟩
      · simp only [StaticDirectory.pushLoop, hr, h1, bind, Except.bind, Bool.false_eq_true, if_false]
      · intro x hx
        cases (by simpa using hx : e = x)
        omega

theorem numbered_mem {o : NonZeroU64} {es : List StaticDirectoryEntry} {x} (h : x ∈ numbered rec o es) :
    ∃ e ∈ es, ∃ o', x = rec e o' := by
  induction es generalizing o with
  | nil => cases h
  | cons e es ih =>
    rcases List.mem_cons.mp h with rfl | h
    · exact ⟨e, by simp, o, rfl⟩
    · obtain ⟨e', h1, o', h2⟩ := ih h
      exact ⟨e', by simp [h1], o', h2⟩

theorem numbered_seen {seen : DirRecord T → SeenEntry} {spec : StaticDirectoryEntry → Nat → SeenEntry}
    (es : List StaticDirectoryEntry) (o : NonZeroU64) (hs : ∀ e ∈ es, ∀ o, seen (rec e o) = spec e o.val.toNat)
    (hlt : o.val.toNat + es.length < 2 ^ 64) :
    (numbered rec o es).map seen = listing spec o.val.toNat es := by
  induction es generalizing o with
  | nil => rfl
  | cons e es ih =>
    rw [List.length_cons] at hlt
    have h1 := saturatingAdd_one (o := o) (by omega)
    have := ih (o.saturatingAdd 1) (fun x hx => hs x (by simp [hx])) (by omega)
    show seen (rec e o) :: _ = spec e _ :: _
    rw [hs e (by simp), this, h1]

theorem page_eq (entries : List StaticDirectoryEntry) (addr : Nat) (off : UInt64) (size : UInt32) :
    StaticDirectory.page record entries addr (NonZeroU64.new off) size =
      if off.toNat ≥ entries.length then .ok []
      else (StaticDirectory.pushLoop record (DirWriter.new addr (List.replicate (min size.toNat 65535) 0))
        (NonZeroU64.saturatingAdd ⟨1, by decide⟩ off) (entries.drop off.toNat)).bind
          fun w => .ok (w.buf.take w.position) := by
  by_cases h : off = 0
  · subst h; rfl
  · have : NonZeroU64.new off = some ⟨off, h⟩ := by unfold NonZeroU64.new; rw [dif_pos h]
    rw [this]; rfl

theorem records_numbered_length (hname : ∀ e o, (rec e o).name = e.name) (o : NonZeroU64)
    (es : List StaticDirectoryEntry) :
    (records (numbered rec o es)).length = (es.map fun e => direntSize T e.name).sum := by
  induction es generalizing o with
  | nil => rfl
  | cons e es ih =>
    have hr : records (numbered rec o (e :: es)) = (rec e o).record ++ records (numbered rec (o.saturatingAdd 1) es) := by
      simp [records, numbered]
    rw [hr, List.length_append, ih, DirRecord.record_length, hname, List.map_cons, List.sum_cons]

/-- A page: some of the entries, as many as fit. -/
theorem page_spec {skip : Nat} {spec : StaticDirectoryEntry → Nat → SeenEntry}
    (h8 : Wire.size T % 8 = 0) (hal : Wire.align T = 8)
    (hname : ∀ e o, (rec e o).name = e.name) (entries : List StaticDirectoryEntry)
    (hrec : ∀ e ∈ entries, ∀ o, record e o = .ok (rec e o))
    (hreads : ∀ o (es : List StaticDirectoryEntry), (∀ e ∈ es, e ∈ entries ∧ direntSize T e.name ≤ 65535) →
      o.val.toNat + es.length < 2 ^ 64 →
      ClientReads skip (records (numbered rec o es)) (listing spec o.val.toNat es))
    (hlen : entries.length < 2 ^ 63) (addr : Nat) (ha : addr % 8 = 0) (off : UInt64) (size : UInt32) :
    ∃ n bytes, off.toNat + n ≤ max off.toNat entries.length ∧
      StaticDirectory.page record entries addr (NonZeroU64.new off) size = .ok bytes ∧
      ClientReads skip bytes (listing spec (off.toNat + 1) ((entries.drop off.toNat).take n)) ∧
      bytes.length ≤ min size.toNat 65535 ∧
      bytes.length = (((entries.drop off.toNat).take n).map fun e => direntSize T e.name).sum ∧ (n = 0 → bytes = []) ∧
      ∀ e, (entries.drop off.toNat)[n]? = some e → min size.toNat 65535 < bytes.length + direntSize T e.name := by
  rw [page_eq]
  by_cases hge : off.toNat ≥ entries.length
  · refine ⟨0, [], by omega, by simp only [if_pos hge], ?_, Nat.zero_le _, rfl, fun _ => rfl, ?_⟩
    · rw [List.take_zero]
      have := hreads ⟨1, by decide⟩ [] (by simp) (by decide)
      exact this
    · intro e he
      rw [List.drop_eq_nil_of_le hge] at he
      cases he
  · simp only [if_neg hge]
    generalize hsz : min size.toNat 65535 = sz
    have hw : (DirWriter.new addr (List.replicate sz 0)).buf.length = sz := by
      rw [new_buf_length, List.length_replicate]
      omega
    have ho : (NonZeroU64.saturatingAdd ⟨1, by decide⟩ off).val.toNat = off.toNat + 1 := by
      unfold NonZeroU64.saturatingAdd
      have h1 : (1 : UInt64).toNat = 1 := rfl
      rw [dif_pos (by show (1 : UInt64).toNat + _ < _; omega)]
      show (1 + off).toNat = _
      rw [UInt64.toNat_add, h1, Nat.mod_eq_of_lt (by omega)]
      omega
    generalize NonZeroU64.saturatingAdd ⟨1, by decide⟩ off = o at ho
    obtain ⟨n, w, e1, e2, e3, e4, e5, e6, e7⟩ := pushLoop_spec h8 hal hname (entries.drop off.toNat)
      (fun e he => hrec e (List.mem_of_mem_drop he)) (DirWriter.new addr (List.replicate sz 0)) o
      (show (addr + 0) % 8 = 0 by omega) (Nat.zero_le _)
    rw [List.length_drop] at e1
    rw [hw] at e3 e6 e7
    have e5' : w.buf.take w.position = records (numbered rec o ((entries.drop off.toNat).take n)) := by
      rw [e5]; show List.take 0 _ ++ _ = _; simp
    have hl : (w.buf.take w.position).length = w.position := by
      rw [List.length_take]; omega
    refine ⟨n, w.buf.take w.position, by omega, ?_, ?_, by omega,
      by rw [e5', records_numbered_length hname], ?_, ?_⟩
    · simp only [e2, Except.bind]
    · rw [e5', ← ho]
      apply hreads
      · intro e he
        have := e6 e he
        exact ⟨List.mem_of_mem_drop (List.mem_of_mem_take he), by omega⟩
      · rw [ho, List.length_take, List.length_drop]
        omega
    · rintro rfl
      rw [e5', List.take_zero]
      rfl
    · intro e he
      rw [hl]
      exact e7 e he

end

/-! ## Paging -/

/-- What a client sees is determined by what it reads. -/
theorem Paging.unique {skip read i off es es'} (h : Paging skip read i off es) (h' : Paging skip read i off es') :
    es = es' := by
  induction h generalizing es' with
  | eof h1 h2 =>
    cases h' with
    | eof h3 h4 => rfl
    | more h3 h4 _ _ =>
      cases h1.symm.trans h3
      exact absurd (h2.unique h4) (by simp)
  | more h1 h2 h3 _ ih =>
    cases h' with
    | eof h4 h5 =>
      cases h1.symm.trans h4
      exact absurd (h2.unique h5) (by simp)
    | more h4 h5 h6 h7 =>
      cases h1.symm.trans h4
      obtain ⟨rfl, hs⟩ := List.append_inj' (h2.unique h5) rfl
      cases hs
      cases UInt64.toNat_inj.mp (h3.trans h6.symm)
      rw [ih h7]

section
variable {skip : Nat} {spec : StaticDirectoryEntry → Nat → SeenEntry} {entries : List StaticDirectoryEntry}
  {read : Nat → UInt64 → Except Fault Bytes} {fits : Nat → StaticDirectoryEntry → Prop}

theorem listing_split (off n : Nat) :
    ∀ m, listing spec (off + 1) ((entries.drop off).take (n + m)) =
      listing spec (off + 1) ((entries.drop off).take n) ++
      listing spec (off + n + 1) ((entries.drop (off + n)).take m) := by
  intro m
  by_cases h : off + n ≤ entries.length
  · rw [List.take_add, listing_append, List.length_take, List.length_drop, List.drop_drop,
      Nat.min_eq_left (by omega)]
    congr 2
    omega
  · rw [List.drop_eq_nil_of_le (by omega : entries.length ≤ off + n), List.take_nil,
      List.take_of_length_le (by rw [List.length_drop]; omega),
      List.take_of_length_le (by rw [List.length_drop]; omega)]
    simp [listing]

theorem listing_last (hoff : ∀ e n, (spec e n).off = n) (k : Nat) (l : List StaticDirectoryEntry) (hl : l ≠ []) :
    ∃ es e, listing spec k l = es ++ [e] ∧ e.off + 1 = k + l.length := by
  obtain ⟨a, l', rfl⟩ : ∃ a l', l = l' ++ [a] :=
    ⟨_, _, (List.dropLast_concat_getLast hl).symm⟩
  refine ⟨listing spec k l', spec a (k + l'.length), ?_, ?_⟩
  · rw [listing_append]; rfl
  · rw [hoff, List.length_append, List.length_singleton]; omega

/-- Pages: some of the entries, none only if the first one does not fit. -/
abbrev Pages (skip : Nat) (spec : StaticDirectoryEntry → Nat → SeenEntry) (entries : List StaticDirectoryEntry)
    (read : Nat → UInt64 → Except Fault Bytes) (fits : Nat → StaticDirectoryEntry → Prop) : Prop :=
  ∀ i (off : UInt64), ∃ n bytes, off.toNat + n ≤ max off.toNat entries.length ∧ read i off = .ok bytes ∧
    ClientReads skip bytes (listing spec (off.toNat + 1) ((entries.drop off.toNat).take n)) ∧
    ∀ e, entries[off.toNat]? = some e → n = 0 → ¬ fits i e

/-- What a client sees are the first entries, and if it does not see all of them then the next one does not fit. -/
theorem paging_prefix (hoff : ∀ e n, (spec e n).off = n) (hread : Pages skip spec entries read fits)
    {i : Nat} {off : UInt64} {seen : List SeenEntry} (h : Paging skip read i off seen)
    (ho : off.toNat ≤ entries.length) :
    ∃ n, seen = listing spec (off.toNat + 1) ((entries.drop off.toNat).take n) ∧
      ∀ e, entries[off.toNat + n]? = some e → ∃ j, i ≤ j ∧ ¬ fits j e := by
  induction h with
  | @eof i off bytes h1 h2 =>
    obtain ⟨n, b, p1, p2, p3, p4⟩ := hread i off
    cases h1.symm.trans p2
    refine ⟨0, rfl, fun e he => ⟨i, Nat.le_refl _, p4 e he ?_⟩⟩
    apply Decidable.byContradiction
    intro hn
    have hlt : off.toNat < entries.length := (List.getElem?_eq_some_iff.mp he).1
    obtain ⟨es, e, h3, _⟩ := listing_last hoff (off.toNat + 1) ((entries.drop off.toNat).take n) (by
      intro h0
      have := congrArg List.length h0
      rw [List.length_take, List.length_drop, List.length_nil] at this
      omega)
    have := h2.unique p3
    rw [h3] at this
    exact absurd this (by simp)
  | @more i off bytes es e next rest h1 h2 h3 _ ih =>
    obtain ⟨n, b, p1, p2, p3, p4⟩ := hread i off
    cases h1.symm.trans p2
    have hu := h2.unique p3
    have hne : (entries.drop off.toNat).take n ≠ [] := by
      intro h0
      rw [h0] at hu
      exact absurd hu (by simp [listing])
    obtain ⟨es', e', h4, h5⟩ := listing_last hoff (off.toNat + 1) _ hne
    rw [h4] at hu
    obtain ⟨rfl, hs⟩ := List.append_inj' hu rfl
    cases hs
    rw [List.length_take, List.length_drop] at h5
    have hnext : next.toNat = off.toNat + n := by omega
    obtain ⟨m, h6, h7⟩ := ih (by omega)
    rw [hnext] at h6 h7
    refine ⟨n + m, ?_, ?_⟩
    · rw [h6, listing_split, h4, List.append_assoc]
      rfl
    · intro x hx
      obtain ⟨j, h8, h9⟩ := h7 x (by rw [Nat.add_assoc]; exact hx)
      exact ⟨j, by omega, h9⟩

/-- A client comes to an end. -/
theorem paging_ends (hlen : entries.length < 2 ^ 63) (hoff : ∀ e n, (spec e n).off = n)
    (hread : Pages skip spec entries read fits) (i : Nat) (off : UInt64) : ∃ seen, Paging skip read i off seen := by
  generalize hk : entries.length - off.toNat = k
  induction k using Nat.strongRecOn generalizing i off with
  | _ k ih =>
    obtain ⟨n, b, p1, p2, p3, p4⟩ := hread i off
    by_cases hne : (entries.drop off.toNat).take n = []
    · rw [hne] at p3
      exact ⟨_, Paging.eof p2 p3⟩
    · obtain ⟨es, e, h4, h5⟩ := listing_last hoff (off.toNat + 1) _ hne
      have hpos := List.length_pos_iff.mpr hne
      rw [List.length_take, List.length_drop] at h5 hpos
      have hnext : (UInt64.ofNat (off.toNat + n)).toNat = off.toNat + n := by
        rw [UInt64.toNat_ofNat']
        omega
      obtain ⟨rest, hrec⟩ := ih (entries.length - (off.toNat + n)) (by omega) (i + 1)
        (UInt64.ofNat (off.toNat + n)) (by omega)
      rw [h4] at p3
      exact ⟨_, Paging.more p2 p3 (by omega) hrec⟩

/-- If every entry fits, the client sees everything. -/
theorem paging_iff (hlen : entries.length < 2 ^ 63) (hoff : ∀ e n, (spec e n).off = n)
    (hread : Pages skip spec entries read fits) (hfits : ∀ i, ∀ e ∈ entries, fits i e) (seen : List SeenEntry) :
    Paging skip read 0 0 seen ↔ seen = listing spec 1 entries := by
  have all : ∀ {seen}, Paging skip read 0 0 seen → seen = listing spec 1 entries := by
    intro seen h
    obtain ⟨n, h1, h2⟩ := paging_prefix hoff hread h (Nat.zero_le _)
    have h0 : (0 : UInt64).toNat = 0 := rfl
    rw [h0] at h1 h2
    rw [h1, List.drop_zero, List.take_of_length_le]
    apply Decidable.byContradiction
    intro hlt
    obtain ⟨j, _, h3⟩ := h2 entries[n] (by rw [Nat.zero_add]; exact List.getElem?_eq_getElem (by omega))
    exact h3 (hfits j _ (List.getElem_mem _))
  constructor
  · exact all
  · rintro rfl
    obtain ⟨seen, h⟩ := paging_ends hlen hoff hread 0 0
    rw [← all h]
    exact h

end

/-! ## The records of the two operations -/

/-- A READDIR record. -/
def staticRecord (e : StaticDirectoryEntry) (o : NonZeroU64) : ReaddirEntry :=
  ⟨{ ino := e.nodeAttr.raw.ino, off := o.val, namelen := UInt32.ofNat e.name.bytes.length
     type_ := ((FileType.fromMode e.nodeAttr.mode).map FileType.asBits).getD 0 }, e.name⟩

theorem readdirRecord_eq {e : StaticDirectoryEntry} (h : e.nodeAttr.raw.ino ≠ 0) (o : NonZeroU64) :
    StaticDirectory.readdirRecord e o = .ok (staticRecord e o) := by
  have : e.nodeAttr.nodeId = .ok ⟨e.nodeAttr.raw.ino, h⟩ := by
    show NonZeroU64.newUnchecked _ = _
    unfold NonZeroU64.newUnchecked
    rw [dif_pos h]
  unfold StaticDirectory.readdirRecord
  simp only [this, bind, Except.bind]
  unfold staticRecord
  cases FileType.fromMode e.nodeAttr.mode <;> rfl

theorem fromMode_bits (e : StaticDirectoryEntry) :
    (((FileType.fromMode e.nodeAttr.mode).map FileType.asBits).getD 0).toNat = dtOfMode e.nodeAttr.raw.mode := by
  have h1 : (e.nodeAttr.mode.typeBits >>> 12).toNat = e.nodeAttr.raw.mode.toNat / 2 ^ 12 % 16 := by
    rw [UInt32.toNat_shiftRight, typeBits_toNat]
    show (_ * 4096) >>> 12 = _
    rw [Nat.shiftRight_eq_div_pow, Nat.mul_div_cancel _ (by decide)]
    rfl
  unfold dtOfMode FileType.fromMode
  rw [← h1]
  generalize e.nodeAttr.mode.typeBits >>> 12 = t
  unfold FileType.fromBits
  have inj : ∀ a : UInt32, t = a ↔ t.toNat = a.toNat := fun a => UInt32.toNat_inj.symm
  simp only [inj]
  split
  · rename_i h; simp only [h]; decide
  split
  · rename_i h; simp only [h]; decide
  split
  · rename_i h; simp only [h]; decide
  split
  · rename_i h; simp only [h]; decide
  split
  · rename_i h; simp only [h]; decide
  split
  · rename_i h; simp only [h]; decide
  split
  · rename_i h; simp only [h]; decide
  · rename_i h1 h2 h3 h4 h5 h6 h7
    have : t.toNat ∉ [1, 2, 4, 6, 8, 10, 12] := by
      simp only [List.mem_cons, List.not_mem_nil, or_false, not_or]
      exact ⟨h1, h2, h3, h4, h5, h6, h7⟩
    simp only [this, if_false]
    rfl

/-- A READDIRPLUS record. -/
def staticPlusRecord (e : StaticDirectoryEntry) (o : NonZeroU64) : ReaddirplusEntry :=
  ⟨{ dirent := { ino := e.nodeAttr.raw.ino, off := o.val, type_ := e.nodeAttr.raw.mode &&& 0xF000
                 namelen := UInt32.ofNat e.name.bytes.length }
     entry_out := e.entryOut }, e.name⟩

theorem readdirplusRecord_eq {e : StaticDirectoryEntry} (h : e.WellTyped) (o : NonZeroU64) :
    StaticDirectory.readdirplusRecord e o = .ok (staticPlusRecord e o) := by
  have := PlusChild.new_eq ⟨e.name, h.1, o, (((Entry.new e.nodeAttr).setGeneration e.generation).setCacheTimeout
    e.entryCacheTimeout).setAttributeCacheTimeout e.attrCacheTimeout, h.2⟩
  refine this.trans ?_
  unfold staticPlusRecord StaticDirectoryEntry.entryOut
  rw [← vfsSplitDuration_eq, ← vfsSplitDuration_eq, C32_vfs, C32_vfs]
  rfl

theorem static_reads {entries : List StaticDirectoryEntry} (hw : ∀ e ∈ entries, e.WellTyped) (o : NonZeroU64)
    (es : List StaticDirectoryEntry) (hes : ∀ e ∈ es, e ∈ entries ∧ direntSize FuseDirent e.name ≤ 65535)
    (hlt : o.val.toNat + es.length < 2 ^ 64) :
    ClientReads 0 (records (numbered staticRecord o es)) (listing StaticDirectoryEntry.seen o.val.toNat es) := by
  have hd : ∀ (e : ReaddirEntry) (rest : Bytes),
      u32At (enc e.dirent ++ rest) 16 = e.dirent.namelen.toNat ∧
      u64At (enc e.dirent ++ rest) 0 = e.dirent.ino.toNat ∧
      u64At (enc e.dirent ++ rest) 8 = e.dirent.off.toNat ∧
      u32At (enc e.dirent ++ rest) 20 = e.dirent.type_.toNat := by
    intro e rest
    rw [enc_fuse_dirent]
    unfold layout_fuse_dirent
    refine ⟨?_, ?_, ?_, ?_⟩ <;> read_at
  have hseen := numbered_seen (rec := staticRecord)
    (seen := fun e : ReaddirEntry => (⟨[], e.dirent.ino.toNat, e.dirent.off.toNat, e.dirent.type_.toNat, e.name.bytes⟩ : SeenEntry))
    (spec := StaticDirectoryEntry.seen) es o
    (by
      intro e he o
      simp only [staticRecord, StaticDirectoryEntry.seen, fromMode_bits]) hlt
  rw [← hseen]
  apply client_records 0 rfl rfl
  · intro x hx
    obtain ⟨e, he, o', rfl⟩ := numbered_mem hx
    exact (hw e (hes e he).1).1.1
  · intro x hx rest
    obtain ⟨e, he, o', rfl⟩ := numbered_mem hx
    rw [show 0 + 16 = 16 from rfl, (hd (staticRecord e o') rest).1]
    exact namelen_toNat (hes e he).2 (Nat.le_refl _)
  · intro x hx rest
    obtain ⟨h1, h2, h3, h4⟩ := hd x rest
    simp only [Nat.zero_add, h2, h3, h4, List.take_zero]

theorem static_reads_plus {entries : List StaticDirectoryEntry} (hw : ∀ e ∈ entries, e.WellTyped) (o : NonZeroU64)
    (es : List StaticDirectoryEntry) (hes : ∀ e ∈ es, e ∈ entries ∧ direntSize FuseDirentplus e.name ≤ 65535)
    (hlt : o.val.toNat + es.length < 2 ^ 64) :
    ClientReads 128 (records (numbered staticPlusRecord o es))
      (listing StaticDirectoryEntry.seenPlus o.val.toNat es) := by
  have hd : ∀ (e : ReaddirplusEntry) (rest : Bytes),
      u32At (enc e.dirent ++ rest) (128 + 16) = e.dirent.dirent.namelen.toNat ∧
      u64At (enc e.dirent ++ rest) 128 = e.dirent.dirent.ino.toNat ∧
      u64At (enc e.dirent ++ rest) (128 + 8) = e.dirent.dirent.off.toNat ∧
      u32At (enc e.dirent ++ rest) (128 + 20) = e.dirent.dirent.type_.toNat ∧
      (enc e.dirent).take 128 = layout_fuse_entry_out e.dirent.entry_out := by
    intro e rest
    have hl : (layout_fuse_entry_out e.dirent.entry_out).length = 128 := C01_fuse_entry_out.2.1 _
    rw [enc_fuse_direntplus]
    unfold layout_fuse_direntplus
    have h32 := fun i => u32At_append (layout_fuse_entry_out e.dirent.entry_out)
      (layout_fuse_dirent e.dirent.dirent ++ rest) i
    have h64 := fun i => u64At_append (layout_fuse_entry_out e.dirent.entry_out)
      (layout_fuse_dirent e.dirent.dirent ++ rest) i
    rw [hl] at h32 h64
    rw [List.append_assoc]
    rw [Nat.add_comm 128 16, Nat.add_comm 128 8, Nat.add_comm 128 20, h32, h32, h64,
      show 128 = 0 + 128 from rfl, h64]
    unfold layout_fuse_dirent
    refine ⟨?_, ?_, ?_, ?_, ?_⟩
    iterate 4 read_at
    exact List.take_left' hl
  have hseen := numbered_seen (rec := staticPlusRecord)
    (seen := fun e : ReaddirplusEntry => (⟨layout_fuse_entry_out e.dirent.entry_out, e.dirent.dirent.ino.toNat,
      e.dirent.dirent.off.toNat, e.dirent.dirent.type_.toNat, e.name.bytes⟩ : SeenEntry))
    (spec := StaticDirectoryEntry.seenPlus) es o
    (by
      intro e he o
      simp only [staticPlusRecord, StaticDirectoryEntry.seenPlus]) hlt
  rw [← hseen]
  apply client_records 128 rfl rfl
  · intro x hx
    obtain ⟨e, he, o', rfl⟩ := numbered_mem hx
    exact (hw e (hes e he).1).1.1
  · intro x hx rest
    obtain ⟨e, he, o', rfl⟩ := numbered_mem hx
    rw [(hd (staticPlusRecord e o') rest).1]
    exact namelen_toNat (hes e he).2 (Nat.le_refl _)
  · intro x hx rest
    obtain ⟨h1, h2, h3, h4, h5⟩ := hd x rest
    simp only [h2, h3, h4, h5]

/-! ## C47 -/

/-- C47, single pages: a READDIR request for `size` bytes at offset `k` is answered with the entries number
`k + 1` to `k + n`, in one record each and at most `size` bytes, where `n` is as large as possible: the record of the next entry
would exceed `size` or 65535 bytes.  Missing is the case of a buffer allocated at an address that is not a
multiple of eight, see `C47_violated_misaligned`. -/
theorem C47_page_partial (entries : List StaticDirectoryEntry) (hw : ∀ e ∈ entries, e.WellTyped)
    (hlen : entries.length < 2 ^ 63) (addr : Nat) (ha : addr % 8 = 0) (k : UInt64) (size : UInt32)
    (req : ReaddirRequest) (hk : req.offset = .ok (NonZeroU64.new k)) (hs : req.size = .ok size) :
    ∃ n bytes, k.toNat + n ≤ max k.toNat entries.length ∧ StaticDirectory.readdir entries addr req = .ok bytes ∧
      ClientReads 0 bytes (listing StaticDirectoryEntry.seen (k.toNat + 1) ((entries.drop k.toNat).take n)) ∧
      bytes.length ≤ min size.toNat 65535 ∧
      bytes.length = (((entries.drop k.toNat).take n).map fun e => align8 (24 + e.name.bytes.length)).sum ∧
      (n = 0 → bytes = []) ∧
      ∀ e, (entries.drop k.toNat)[n]? = some e →
        min size.toNat 65535 < bytes.length + align8 (24 + e.name.bytes.length) := by
  have := page_spec (T := FuseDirent) (rec := staticRecord) (by decide) rfl (fun _ _ => rfl) entries
    (fun e he o => readdirRecord_eq (hw e he).2 o) (static_reads hw) hlen addr ha k size
  simp only [StaticDirectory.readdir, hk, hs, bind, Except.bind]
  simp only [direntSize_eq (T := FuseDirent) _ rfl] at this
  exact this

/-- C47 for the pages of READDIRPLUS. -/
theorem C47_page_plus_partial (entries : List StaticDirectoryEntry) (hw : ∀ e ∈ entries, e.WellTyped)
    (hlen : entries.length < 2 ^ 63) (addr : Nat) (ha : addr % 8 = 0) (k : UInt64) (size : UInt32)
    (req : ReaddirplusRequest) (hk : req.offset = .ok (NonZeroU64.new k)) (hs : req.size = .ok size) :
    ∃ n bytes, k.toNat + n ≤ max k.toNat entries.length ∧ StaticDirectory.readdirplus entries addr req = .ok bytes ∧
      ClientReads 128 bytes (listing StaticDirectoryEntry.seenPlus (k.toNat + 1) ((entries.drop k.toNat).take n)) ∧
      bytes.length ≤ min size.toNat 65535 ∧
      bytes.length = (((entries.drop k.toNat).take n).map fun e => align8 (152 + e.name.bytes.length)).sum ∧
      (n = 0 → bytes = []) ∧
      ∀ e, (entries.drop k.toNat)[n]? = some e →
        min size.toNat 65535 < bytes.length + align8 (152 + e.name.bytes.length) := by
  have := page_spec (T := FuseDirentplus) (rec := staticPlusRecord) (by decide) rfl (fun _ _ => rfl) entries
    (fun e he o => readdirplusRecord_eq (hw e he) o) (static_reads_plus hw) hlen addr ha k size
  simp only [StaticDirectory.readdirplus, hk, hs, bind, Except.bind]
  simp only [direntSize_eq (T := FuseDirentplus) _ rfl] at this
  exact this

/-- The requests of a client: page number `i` is read with `sizes i` bytes. -/
def ReaddirClient (sizes : Nat → UInt32) (reqs : Nat → UInt64 → ReaddirRequest) : Prop :=
  ∀ i off, (reqs i off).offset = .ok (NonZeroU64.new off) ∧ (reqs i off).size = .ok (sizes i)

def ReaddirplusClient (sizes : Nat → UInt32) (reqs : Nat → UInt64 → ReaddirplusRequest) : Prop :=
  ∀ i off, (reqs i off).offset = .ok (NonZeroU64.new off) ∧ (reqs i off).size = .ok (sizes i)

theorem readdir_pages (entries : List StaticDirectoryEntry) (hw : ∀ e ∈ entries, e.WellTyped)
    (hlen : entries.length < 2 ^ 63) (addr : Nat → Nat) (ha : ∀ i, addr i % 8 = 0) (sizes : Nat → UInt32)
    (reqs : Nat → UInt64 → ReaddirRequest) (hr : ReaddirClient sizes reqs) :
    Pages 0 StaticDirectoryEntry.seen entries
      (fun i off => StaticDirectory.readdir entries (addr i) (reqs i off))
      fun i e => align8 (24 + e.name.bytes.length) ≤ min (sizes i).toNat 65535 := by
  intro i off
  obtain ⟨n, bytes, h1, h2, h3, h4, _, h5, h6⟩ := C47_page_partial entries hw hlen (addr i) (ha i) off (sizes i)
    (reqs i off) (hr i off).1 (hr i off).2
  refine ⟨n, bytes, h1, h2, h3, ?_⟩
  rintro e he rfl
  have h7 := h6 e (by rw [List.getElem?_drop]; exact he)
  rw [h5 rfl, List.length_nil] at h7
  omega

theorem readdirplus_pages (entries : List StaticDirectoryEntry) (hw : ∀ e ∈ entries, e.WellTyped)
    (hlen : entries.length < 2 ^ 63) (addr : Nat → Nat) (ha : ∀ i, addr i % 8 = 0) (sizes : Nat → UInt32)
    (reqs : Nat → UInt64 → ReaddirplusRequest) (hr : ReaddirplusClient sizes reqs) :
    Pages 128 StaticDirectoryEntry.seenPlus entries
      (fun i off => StaticDirectory.readdirplus entries (addr i) (reqs i off))
      fun i e => align8 (152 + e.name.bytes.length) ≤ min (sizes i).toNat 65535 := by
  intro i off
  obtain ⟨n, bytes, h1, h2, h3, h4, _, h5, h6⟩ := C47_page_plus_partial entries hw hlen (addr i) (ha i) off (sizes i)
    (reqs i off) (hr i off).1 (hr i off).2
  refine ⟨n, bytes, h1, h2, h3, ?_⟩
  rintro e he rfl
  have h7 := h6 e (by rw [List.getElem?_drop]; exact he)
  rw [h5 rfl, List.length_nil] at h7
  omega

/-- C47 for READDIR: a client reading a static directory from offset 0 on, with any buffer sizes that can hold
every entry, sees each entry exactly once, in order, numbered from 1, and then the end.  The full statement has
no hypothesis about the addresses of the buffers, see `C47_violated_misaligned`. -/
theorem C47_readdir_partial (entries : List StaticDirectoryEntry) (hw : ∀ e ∈ entries, e.WellTyped)
    (hlen : entries.length < 2 ^ 63) (addr : Nat → Nat) (ha : ∀ i, addr i % 8 = 0) (sizes : Nat → UInt32)
    (hfit : ∀ i, ∀ e ∈ entries, align8 (24 + e.name.bytes.length) ≤ min (sizes i).toNat 65535)
    (reqs : Nat → UInt64 → ReaddirRequest) (hr : ReaddirClient sizes reqs) (seen : List SeenEntry) :
    Paging 0 (fun i off => StaticDirectory.readdir entries (addr i) (reqs i off)) 0 0 seen ↔
      seen = listing StaticDirectoryEntry.seen 1 entries :=
  paging_iff hlen (fun _ _ => rfl) (readdir_pages entries hw hlen addr ha sizes reqs hr) hfit seen

/-- C47 for READDIRPLUS. -/
theorem C47_readdirplus_partial (entries : List StaticDirectoryEntry) (hw : ∀ e ∈ entries, e.WellTyped)
    (hlen : entries.length < 2 ^ 63) (addr : Nat → Nat) (ha : ∀ i, addr i % 8 = 0) (sizes : Nat → UInt32)
    (hfit : ∀ i, ∀ e ∈ entries, align8 (152 + e.name.bytes.length) ≤ min (sizes i).toNat 65535)
    (reqs : Nat → UInt64 → ReaddirplusRequest) (hr : ReaddirplusClient sizes reqs) (seen : List SeenEntry) :
    Paging 128 (fun i off => StaticDirectory.readdirplus entries (addr i) (reqs i off)) 0 0 seen ↔
      seen = listing StaticDirectoryEntry.seenPlus 1 entries :=
  paging_iff hlen (fun _ _ => rfl) (readdirplus_pages entries hw hlen addr ha sizes reqs hr) hfit seen

/-- C47 for buffers of any size: there is exactly one thing a client can see, namely the first `n` entries for
some `n`; and if that is not everything, then the next entry's record did not fit into one of the buffers. -/
theorem C47_prefix_partial (entries : List StaticDirectoryEntry) (hw : ∀ e ∈ entries, e.WellTyped)
    (hlen : entries.length < 2 ^ 63) (addr : Nat → Nat) (ha : ∀ i, addr i % 8 = 0) (sizes : Nat → UInt32)
    (reqs : Nat → UInt64 → ReaddirRequest) (hr : ReaddirClient sizes reqs) :
    ∃ n, (∀ seen, Paging 0 (fun i off => StaticDirectory.readdir entries (addr i) (reqs i off)) 0 0 seen ↔
        seen = listing StaticDirectoryEntry.seen 1 (entries.take n)) ∧
      ∀ e, entries[n]? = some e → ∃ j, min (sizes j).toNat 65535 < align8 (24 + e.name.bytes.length) := by
  have hp := readdir_pages entries hw hlen addr ha sizes reqs hr
  obtain ⟨seen, h⟩ := paging_ends hlen (fun _ _ => rfl) hp 0 0
  obtain ⟨n, h1, h2⟩ := paging_prefix (fun _ _ => rfl) hp h (Nat.zero_le _)
  refine ⟨n, ?_, ?_⟩
  · intro seen'
    constructor
    · intro h'
      rw [h'.unique h, h1]
      rfl
    · rintro rfl
      have h3 : seen = listing StaticDirectoryEntry.seen 1 (entries.take n) := h1
      rw [← h3]
      exact h
  · intro e he
    obtain ⟨j, _, h3⟩ := h2 e (by
      show entries[0 + n]? = some e
      rw [Nat.zero_add]
      exact he)
    exact ⟨j, by omega⟩

theorem C47_prefix_plus_partial (entries : List StaticDirectoryEntry) (hw : ∀ e ∈ entries, e.WellTyped)
    (hlen : entries.length < 2 ^ 63) (addr : Nat → Nat) (ha : ∀ i, addr i % 8 = 0) (sizes : Nat → UInt32)
    (reqs : Nat → UInt64 → ReaddirplusRequest) (hr : ReaddirplusClient sizes reqs) :
    ∃ n, (∀ seen, Paging 128 (fun i off => StaticDirectory.readdirplus entries (addr i) (reqs i off)) 0 0 seen ↔
        seen = listing StaticDirectoryEntry.seenPlus 1 (entries.take n)) ∧
      ∀ e, entries[n]? = some e → ∃ j, min (sizes j).toNat 65535 < align8 (152 + e.name.bytes.length) := by
  have hp := readdirplus_pages entries hw hlen addr ha sizes reqs hr
  obtain ⟨seen, h⟩ := paging_ends hlen (fun _ _ => rfl) hp 0 0
  obtain ⟨n, h1, h2⟩ := paging_prefix (fun _ _ => rfl) hp h (Nat.zero_le _)
  refine ⟨n, ?_, ?_⟩
  · intro seen'
    constructor
    · intro h'
      rw [h'.unique h, h1]
      rfl
    · rintro rfl
      have h3 : seen = listing StaticDirectoryEntry.seenPlus 1 (entries.take n) := h1
      rw [← h3]
      exact h
  · intro e he
    obtain ⟨j, _, h3⟩ := h2 e (by
      show entries[0 + n]? = some e
      rw [Nat.zero_add]
      exact he)
    exact ⟨j, by omega⟩

/-- C47 does not hold if the allocator returns a buffer that does not start at a multiple of eight, as it may for
a `Vec<u8>`: reading the first page of any directory whose first entry fits is undefined behaviour. -/
theorem C47_violated_misaligned (e : StaticDirectoryEntry) (es : List StaticDirectoryEntry) (hw : e.WellTyped)
    (addr : Nat) (ha : addr % 8 ≠ 0) (size : UInt32)
    (hfit : align8 (24 + e.name.bytes.length) ≤ min size.toNat 65535)
    (req : ReaddirRequest) (hk : req.offset = .ok (NonZeroU64.new 0)) (hs : req.size = .ok size) :
    StaticDirectory.readdir (e :: es) addr req = .error .misaligned := by
  simp only [StaticDirectory.readdir, hk, hs, bind, Except.bind]
  rw [page_eq, if_neg (by simp)]
  have h1 := readdirRecord_eq hw.2 (NonZeroU64.saturatingAdd ⟨1, by decide⟩ 0)
  have h2 := C28_violated addr (List.replicate (min size.toNat 65535) 0)
    (staticRecord e (NonZeroU64.saturatingAdd ⟨1, by decide⟩ 0)) ha
    (by rw [List.length_replicate]; exact Nat.le_trans hfit (by omega))
  show Except.bind (StaticDirectory.pushLoop _ _ _ (e :: es)) _ = _
  simp only [StaticDirectory.pushLoop, h1, h2, bind, Except.bind]

/-! ## Concrete cases -/

/-- A READDIR request for `size` bytes at offset `off`. -/
def exampleReaddir (off : UInt64) (size : UInt32) : ReaddirRequest :=
  ⟨{ nodeid := 1, opcode := 28 }, ⟨31, enc ({ fh := 7, offset := off, size := size } : FuseReadIn)⟩⟩

theorem exampleReaddir_client (sizes : Nat → UInt32) : ReaddirClient sizes fun i off => exampleReaddir off (sizes i) := by
  intro i off
  constructor
  · simp only [exampleReaddir, ReaddirRequest.offset, get_read_old]; rfl
  · simp only [exampleReaddir, ReaddirRequest.size, get_read_old]; rfl

/-- A directory with a regular file `a`, a directory `bb` and a socket `README.txt`. -/
def exampleEntries : List StaticDirectoryEntry :=
  [⟨⟨[0x61]⟩, ⟨{ ino := 5, mode := 0o100644 }⟩, 0, ⟨1, 0, by decide⟩, ⟨0, 5, by decide⟩⟩,
   ⟨⟨[0x62, 0x62]⟩, ⟨{ ino := 6, mode := 0o040755 }⟩, 1, ⟨1, 0, by decide⟩, ⟨0, 5, by decide⟩⟩,
   ⟨⟨[0x52, 0x45, 0x41, 0x44, 0x4D, 0x45, 0x2E, 0x74, 0x78, 0x74]⟩, ⟨{ ino := 7, mode := 0o140600 }⟩, 0,
    ⟨1, 0, by decide⟩, ⟨0, 5, by decide⟩⟩]

/-- Buffers of 40, 41, 42, … bytes: the first two pages have one entry each, later ones more.  The client sees
the three entries, with types 8, 4 and 12. -/
example (seen : List SeenEntry) :
    Paging 0 (fun i off => StaticDirectory.readdir exampleEntries 4096 (exampleReaddir off (40 + UInt32.ofNat (i % 1000)))) 0 0
      seen ↔
    seen = [⟨[], 5, 1, 8, [0x61]⟩, ⟨[], 6, 2, 4, [0x62, 0x62]⟩,
      ⟨[], 7, 3, 12, [0x52, 0x45, 0x41, 0x44, 0x4D, 0x45, 0x2E, 0x74, 0x78, 0x74]⟩] := by
  have := C47_readdir_partial exampleEntries
    (show ∀ e ∈ exampleEntries, NodeName.Valid e.name.bytes ∧ e.nodeAttr.raw.ino ≠ 0 by decide) (by decide)
    (fun _ => 4096) (fun _ => rfl)
    (fun i => 40 + UInt32.ofNat (i % 1000))
    (by
      intro i e he
      have h1 : align8 (24 + e.name.bytes.length) ≤ 40 := by revert e; decide
      have h2 : (40 + UInt32.ofNat (i % 1000)).toNat = 40 + i % 1000 := by
        rw [UInt32.toNat_add, UInt32.toNat_ofNat']
        show (40 + _) % _ = _
        omega
      rw [h2]
      omega)
    _ (exampleReaddir_client _) seen
  exact this

/-- A 72-byte buffer holds the first two entries and not the third; the page at offset 2 has the third, the page
at offset 3 nothing. -/
example : (StaticDirectory.readdir exampleEntries 0 (exampleReaddir 0 72)).map List.length = .ok 64 ∧
    (StaticDirectory.readdir exampleEntries 0 (exampleReaddir 2 72)).map List.length = .ok 40 ∧
    StaticDirectory.readdir exampleEntries 0 (exampleReaddir 3 72) = .ok [] := by decide +kernel

/-- A buffer of 36 bytes is too small for the third entry: the listing ends after two entries as if it were
complete. -/
example : (StaticDirectory.readdir exampleEntries 0 (exampleReaddir 1 36)).map List.length = .ok 32 ∧
    StaticDirectory.readdir exampleEntries 0 (exampleReaddir 2 36) = .ok [] := by decide +kernel

/-- At an address that is not a multiple of eight. -/
example : StaticDirectory.readdir exampleEntries 4097 (exampleReaddir 0 72) = .error .misaligned := by decide +kernel

end Fuse
