import Verif.Dirent
import Verif.Layout
import Verif.ReadAt
import Verif.SessionLemmas
import Verif.PropTypes

/-!
# C27, C28, C29: directory listings

The client's view of a listing is written down independently of the code: records of a fixed part,
a name, and padding to a multiple of eight bytes, with the fields of `fuse_dirent` at their byte
offsets (`include/uapi/linux/fuse.h`, `FUSE_DIRENT_SIZE`, `FUSE_DIRENTPLUS_SIZE`).
-/

namespace Fuse
open Spec Wire

/-! ## The client's view -/

namespace Spec

/-- `FUSE_REC_ALIGN` of the protocol header: round up to a multiple of eight. -/
def align8 (n : Nat) : Nat := (n + 7) / 8 * 8

/-- What a client finds in one record: the entry attributes (READDIRPLUS only), the inode number, the
offset of the next entry, the type and the name. -/
structure SeenEntry where
  entry : Bytes
  ino : Nat
  off : Nat
  type : Nat
  name : Bytes
deriving DecidableEq, Repr

/-- Parsing a listing: `skip` bytes of entry attributes, then `ino`, `off`, `namelen` and `type` at
offsets 0, 8, 16 and 20, then the name, padded so that the record's size is a multiple of eight.  A
name must not be empty.  Parsing stops where no complete fixed part is left. -/
inductive ClientReads (skip : Nat) : Bytes → List SeenEntry → Prop
  | done {bs} (h : bs.length < skip + 24) : ClientReads skip bs []
  | entry {bs es} (h : skip + 24 ≤ bs.length) (hne : u32At bs (skip + 16) ≠ 0)
      (hfit : align8 (skip + 24 + u32At bs (skip + 16)) ≤ bs.length)
      (hrest : ClientReads skip (bs.drop (align8 (skip + 24 + u32At bs (skip + 16)))) es) :
      ClientReads skip bs
        (⟨bs.take skip, u64At bs skip, u64At bs (skip + 8), u32At bs (skip + 20),
          (bs.drop (skip + 24)).take (u32At bs (skip + 16))⟩ :: es)

/-- A listing has at most one reading. -/
theorem ClientReads.unique {skip bs es es'} (h : ClientReads skip bs es)
    (h' : ClientReads skip bs es') : es = es' := by
  induction h generalizing es' with
  | done h => cases h' with
    | done => rfl
    | entry h2 => omega
  | entry h hne hfit hrest ih => cases h' with
    | done h2 => omega
    | entry h2 hne2 hfit2 hrest2 => rw [ih hrest2]

/-- The elements whose flag is set. -/
def accepted {α : Type} : List α → List Bool → List α
  | a :: as, true :: bs => a :: accepted as bs
  | _ :: as, false :: bs => accepted as bs
  | _, _ => []

/-- The `DT_*` codes of `<dirent.h>`. -/
def dtCode : FileType → Nat
  | .namedPipe => 1
  | .characterDevice => 2
  | .directory => 4
  | .blockDevice => 6
  | .regular => 8
  | .symlink => 10
  | .socket => 12

end Spec

/-! ## Lemmas about single records -/

section
variable {T : Type} [Dirent T]

/-- The bytes of a record. -/
def DirRecord.record (e : DirRecord T) : Bytes :=
  enc e.dirent ++ e.name.bytes ++ List.replicate (direntPadding e.name.bytes.length) 0

theorem DirRecord.record_length (e : DirRecord T) : e.record.length = direntSize T e.name := by
  simp [DirRecord.record, direntSize, Wire.enc_length, Nat.add_assoc]

theorem direntPadding_eq (k n : Nat) (h : k % 8 = 0) : k + n + direntPadding n = align8 (k + n) := by
  unfold direntPadding align8; omega

theorem direntSize_eq (name : NodeName) (h : Wire.size T % 8 = 0) :
    direntSize T name = align8 (Wire.size T + name.bytes.length) :=
  direntPadding_eq _ _ h

theorem direntSize_aligned (name : NodeName) (h : Wire.size T % 8 = 0) :
    direntSize T name % 8 = 0 := by
  rw [direntSize_eq name h]; unfold align8; omega

theorem store_mid (a b c bs : Bytes) (h : bs.length = b.length) :
    store (a ++ b ++ c) a.length bs = .ok (a ++ bs ++ c) := by
  unfold store
  rw [if_pos (by simp; omega)]
  have h1 : (a ++ b ++ c).take a.length = a := by simp [List.append_assoc]
  have h2 : (a ++ b ++ c).drop (a.length + bs.length) = c := by
    rw [h, ← List.length_append]; simp
  rw [h1, h2]

/-- Writing a record into a slice of exactly its size replaces the slice by the record. -/
theorem direntWrite_eq (d : T) (name : NodeName) (addr : Nat) (buf : Bytes)
    (ha : addr % Wire.align T = 0) (hl : buf.length = direntSize T name) :
    direntWrite d name addr buf = .ok (DirRecord.record ⟨d, name⟩) := by
  unfold direntWrite
  rw [if_neg (by simp [ha])]
  have hl' : buf.length = Wire.size T + name.bytes.length + direntPadding name.bytes.length := hl
  obtain ⟨b1, b2, b3, rfl, l1, l2, l3⟩ : ∃ b1 b2 b3, buf = b1 ++ b2 ++ b3 ∧ b1.length = Wire.size T ∧
      b2.length = name.bytes.length ∧ b3.length = direntPadding name.bytes.length := by
    refine ⟨buf.take (Wire.size T), (buf.drop (Wire.size T)).take name.bytes.length,
      (buf.drop (Wire.size T)).drop name.bytes.length, ?_, ?_, ?_, ?_⟩
    · rw [List.append_assoc, List.take_append_drop, List.take_append_drop]
    all_goals simp only [List.length_take, List.length_drop, hl']; omega
  have s1 : store (b1 ++ b2 ++ b3) 0 (enc d) = .ok (enc d ++ b2 ++ b3) := by
    have := store_mid [] b1 (b2 ++ b3) (enc d) (by rw [Wire.enc_length, l1])
    simpa [List.append_assoc] using this
  have s2 : store (enc d ++ b2 ++ b3) (Wire.size T) name.bytes = .ok (enc d ++ name.bytes ++ b3) := by
    have := store_mid (enc d) b2 b3 name.bytes l2.symm
    rwa [Wire.enc_length] at this
  simp only [bind, Except.bind, s1, s2]
  by_cases hp : direntPadding name.bytes.length > 0
  · rw [if_pos hp]
    have := store_mid (enc d ++ name.bytes) b3 [] (List.replicate (direntPadding name.bytes.length) 0)
      (by simp [l3])
    rw [List.length_append, Wire.enc_length] at this
    simpa [DirRecord.record] using this
  · rw [if_neg hp]
    have h0 : direntPadding name.bytes.length = 0 := by omega
    have : b3 = [] := List.length_eq_zero_iff.mp (by omega)
    simp [DirRecord.record, h0, this, pure, Except.pure]

/-- Reading back a record at the start of a listing. -/
theorem direntNext_record (e : DirRecord T) (rest : Bytes) (hv : NodeName.Valid e.name.bytes)
    (hn : (Dirent.namelen e.dirent).toNat = e.name.bytes.length) :
    direntNext T (e.record ++ rest) = .ok (some (e, rest)) := by
  have hlen := e.record_length
  have hne : e.name.bytes.length ≠ 0 := fun h => hv.1 (List.length_eq_zero_iff.mp h)
  have hsz : direntSize T e.name = Wire.size T + e.name.bytes.length + direntPadding e.name.bytes.length := rfl
  have t1 : (e.record ++ rest).take (Wire.size T) = enc e.dirent := by
    unfold DirRecord.record
    rw [List.append_assoc, List.append_assoc, List.take_append_of_le_length (by rw [Wire.enc_length]; omega),
      List.take_of_length_le (by rw [Wire.enc_length]; omega)]
  have t2 : ((e.record ++ rest).drop (Wire.size T)).take e.name.bytes.length = e.name.bytes := by
    unfold DirRecord.record
    rw [List.append_assoc, List.append_assoc, List.drop_left' (Wire.enc_length _)]
    simp
  have hread : direntRead T (e.record ++ rest) = .ok (e.dirent, e.name) := by
    unfold direntRead
    rw [if_neg (by rw [List.length_append]; omega)]
    simp only [t1, Wire.dec_enc, hn]
    rw [if_neg (by rw [List.length_append]; omega), t2]
    simp only [NodeName.fromBytesUnchecked, if_pos hv, bind, Except.bind, pure, Except.pure]
  unfold direntNext
  have he : (e.record ++ rest).isEmpty = false := by
    rw [List.isEmpty_eq_false_iff]
    intro h; have := congrArg List.length h; simp only [List.length_append, List.length_nil] at this; omega
  rw [he]
  simp only [hread, bind, Except.bind, Bool.false_eq_true, ↓reduceIte]
  rw [if_neg (by rw [List.length_append]; omega)]
  show Except.ok (some (_, (e.record ++ rest).drop (direntSize T e.name))) = _
  rw [← hlen, List.drop_left]

/-! ## Push histories -/

/-- Pushing an entry that fits. -/
theorem tryPush_fits (w : DirWriter) (e : DirRecord T) (ha : (w.addr + w.position) % Wire.align T = 0)
    (hp : w.position + direntSize T e.name ≤ w.buf.length) :
    w.tryPush e = .ok (true, { w with
      buf := w.buf.take w.position ++ e.record ++ w.buf.drop (w.position + direntSize T e.name)
      position := w.position + direntSize T e.name }) := by
  unfold DirWriter.tryPush DirWriter.capacity
  rw [if_neg (by omega)]
  simp only []
  rw [if_neg (by omega), direntWrite_eq _ _ _ _ ha (by simp; omega)]
  rfl

/-- Pushing an entry that does not fit. -/
theorem tryPush_full (w : DirWriter) (e : DirRecord T) (hw : w.position ≤ w.buf.length)
    (hp : w.buf.length < w.position + direntSize T e.name) :
    w.tryPush e = .ok (false, w) := by
  unfold DirWriter.tryPush DirWriter.capacity
  rw [if_neg (by omega)]
  simp only []
  rw [if_pos (by omega)]

/-- A push that succeeds was of an entry that fits, at an aligned address. -/
theorem tryPush_true {w w' : DirWriter} {e : DirRecord T} (h : w.tryPush e = .ok (true, w')) :
    (w.addr + w.position) % Wire.align T = 0 ∧ w.position + direntSize T e.name ≤ w.buf.length := by
  by_cases hw : w.buf.length < w.position
  · unfold DirWriter.tryPush DirWriter.capacity at h
    rw [if_pos hw] at h; cases h
  · by_cases hp : w.position + direntSize T e.name ≤ w.buf.length
    · refine ⟨Decidable.byContradiction fun ha => ?_, hp⟩
      unfold DirWriter.tryPush DirWriter.capacity at h
      rw [if_neg (by omega)] at h
      simp only [] at h
      rw [if_neg (by omega)] at h
      unfold direntWrite at h
      rw [if_pos ha] at h
      cases h
    · rw [tryPush_full w e (by omega) (by omega)] at h
      cases h

/-- Pushing an entry that fits, to a misaligned address. -/
theorem tryPush_misaligned (w : DirWriter) (e : DirRecord T) (ha : (w.addr + w.position) % Wire.align T ≠ 0)
    (hp : w.position + direntSize T e.name ≤ w.buf.length) : w.tryPush e = .error .misaligned := by
  unfold DirWriter.tryPush DirWriter.capacity
  rw [if_neg (by omega)]
  simp only []
  rw [if_neg (by omega)]
  unfold direntWrite
  rw [if_pos ha]
  rfl

/-- The records of a list of entries. -/
def records (es : List (DirRecord T)) : Bytes := (es.map DirRecord.record).flatten

theorem pushAll_spec (w : DirWriter) (es : List (DirRecord T)) (h8 : Wire.size T % 8 = 0)
    (hal : Wire.align T = 8) (ha : (w.addr + w.position) % 8 = 0) (hw : w.position ≤ w.buf.length) :
    ∃ oks w', w.pushAll es = .ok (oks, w') ∧ w'.addr = w.addr ∧ w'.buf.length = w.buf.length ∧
      w'.position ≤ w'.buf.length ∧ (w'.addr + w'.position) % 8 = 0 ∧
      w'.buf.take w'.position = w.buf.take w.position ++ records (accepted es oks) ∧
      (∀ e ∈ accepted es oks, direntSize T e.name ≤ w.buf.length) := by
  induction es generalizing w with
  | nil => exact ⟨[], w, rfl, rfl, rfl, hw, ha, by simp [records, accepted], by simp [accepted]⟩
  | cons e es ih =>
    by_cases hp : w.position + direntSize T e.name ≤ w.buf.length
    · have h1 := tryPush_fits w e (by rw [hal]; exact ha) hp
      have hsz := direntSize_aligned (T := T) e.name h8
      have hrl := e.record_length
      generalize hw1 : ({ w with
        buf := w.buf.take w.position ++ e.record ++ w.buf.drop (w.position + direntSize T e.name)
        position := w.position + direntSize T e.name } : DirWriter) = w1 at h1
      have a1 : w1.addr = w.addr := by rw [← hw1]
      have p1 : w1.position = w.position + direntSize T e.name := by rw [← hw1]
      have l1 : w1.buf.length = w.buf.length := by
        rw [← hw1]; simp only [List.length_append, List.length_take, List.length_drop, hrl]; omega
      have b1 : w1.buf.take w1.position = w.buf.take w.position ++ e.record := by
        rw [← hw1]
        apply List.take_left'
        simp only [List.length_append, List.length_take, hrl]; omega
      obtain ⟨oks, w', e1, e2, e3, e4, e5, e6, e7⟩ := ih w1 (by rw [a1, p1]; omega) (by omega)
      refine ⟨true :: oks, w', ?_, by rw [e2, a1], by rw [e3, l1], e4, e5, ?_, ?_⟩
      · simp only [DirWriter.pushAll, h1, e1, bind, Except.bind, pure, Except.pure]
      · rw [e6, b1]; simp [accepted, records]
      · intro x hx
        rcases List.mem_cons.mp hx with rfl | hx
        · omega
        · rw [← l1]; exact e7 x hx
    · have h1 := tryPush_full w e hw (by omega)
      obtain ⟨oks, w', e1, e2, e3, e4, e5, e6, e7⟩ := ih w ha hw
      refine ⟨false :: oks, w', ?_, e2, e3, e4, e5, e6, e7⟩
      simp only [DirWriter.pushAll, h1, e1, bind, Except.bind, pure, Except.pure]

theorem pushAll_length {w w' : DirWriter} (es : List (DirRecord T)) (oks : List Bool)
    (h : w.pushAll es = .ok (oks, w')) : oks.length = es.length := by
  induction es generalizing w oks with
  | nil => cases h; rfl
  | cons e es ih =>
    simp only [DirWriter.pushAll, bind, Except.bind] at h
    cases h1 : w.tryPush e with
    | error f => simp [h1] at h
    | ok r =>
      obtain ⟨b, w1⟩ := r
      simp only [h1] at h
      cases h2 : w1.pushAll es with
      | error f => simp [h2] at h
      | ok r =>
        obtain ⟨bs, w2⟩ := r
        simp only [h2, pure, Except.pure, Except.ok.injEq, Prod.mk.injEq] at h
        obtain ⟨rfl, rfl⟩ := h
        simp [ih _ h2]

theorem new_buf_length (addr : Nat) (buf : Bytes) :
    (DirWriter.new addr buf).buf.length = min buf.length 65535 := by
  unfold DirWriter.new
  by_cases h : buf.length > 65535
  · simp only [if_pos h, List.length_take]; omega
  · simp only [if_neg h]; omega

/-- Iterating over a list of records yields the entries. -/
theorem collects_records (es acc : List (DirRecord T))
    (hv : ∀ e ∈ es, NodeName.Valid e.name.bytes)
    (hn : ∀ e ∈ es, (Dirent.namelen e.dirent).toNat = e.name.bytes.length) :
    LoopReturns (direntCollectStep T) (records es, acc) (.ok (acc ++ es)) := by
  induction es generalizing acc with
  | nil => apply LoopReturns.of_step; simp [direntCollectStep, records, direntNext]
  | cons e es ih =>
    have h1 : direntCollectStep T (records (e :: es), acc) = .inr (records es, acc ++ [e]) := by
      unfold direntCollectStep
      rw [show records (e :: es) = e.record ++ records es from by simp [records]]
      rw [direntNext_record e _ (hv e (by simp)) (hn e (by simp))]
    apply LoopReturns.of_next h1
    have := ih (acc ++ [e]) (fun x hx => hv x (by simp [hx])) (fun x hx => hn x (by simp [hx]))
    rwa [List.append_assoc] at this

/-- A client parsing a list of records finds the entries, provided the fixed parts have the fields
where the protocol says. -/
theorem client_records (skip : Nat) (hs : Wire.size T = skip + 24) (h8 : skip % 8 = 0)
    (seen : DirRecord T → SeenEntry) (es : List (DirRecord T))
    (hne : ∀ e ∈ es, e.name.bytes ≠ [])
    (hn : ∀ e ∈ es, ∀ rest, u32At (enc e.dirent ++ rest) (skip + 16) = e.name.bytes.length)
    (hseen : ∀ e ∈ es, ∀ rest, seen e = ⟨(enc e.dirent).take skip, u64At (enc e.dirent ++ rest) skip,
      u64At (enc e.dirent ++ rest) (skip + 8), u32At (enc e.dirent ++ rest) (skip + 20), e.name.bytes⟩) :
    ClientReads skip (records es) (es.map seen) := by
  induction es with
  | nil => exact .done (by simp [records])
  | cons e es ih =>
    have ih := ih (fun x hx => hne x (by simp [hx])) (fun x hx => hn x (by simp [hx]))
      (fun x hx => hseen x (by simp [hx]))
    have hr : records (e :: es) = e.record ++ records es := by simp [records]
    have hel := Wire.enc_length e.dirent
    generalize hrest : e.name.bytes ++ List.replicate (direntPadding e.name.bytes.length) 0 ++ records es = rest
    have hr' : records (e :: es) = enc e.dirent ++ rest := by
      rw [hr, ← hrest]; simp [DirRecord.record, List.append_assoc]
    have hlen := e.record_length
    have hnl := hn e (by simp) rest
    have hsz := direntSize_eq (T := T) e.name (by omega)
    have hne' : e.name.bytes.length ≠ 0 := fun h => hne e (by simp) (List.length_eq_zero_iff.mp h)
    have hge : direntSize T e.name ≥ skip + 24 := by unfold direntSize; omega
    have hs' : Wire.size T + e.name.bytes.length = skip + 24 + e.name.bytes.length := by omega
    rw [hs'] at hsz
    rw [List.map_cons, hseen e (by simp) rest]
    have key := ClientReads.entry (skip := skip) (bs := records (e :: es)) (es := es.map seen)
      (by rw [hr, List.length_append]; omega) (by rw [hr', hnl]; exact hne')
      (by rw [hr', hnl, ← hsz, ← hr', hr, List.length_append]; omega)
      (by rw [hr', hnl, ← hsz, ← hr', hr, ← hlen, List.drop_left]; exact ih)
    rw [hr', hnl] at key
    have k1 : (enc e.dirent ++ rest).take skip = (enc e.dirent).take skip :=
      List.take_append_of_le_length (by omega)
    have k2 : ((enc e.dirent ++ rest).drop (skip + 24)).take e.name.bytes.length = e.name.bytes := by
      rw [List.drop_left' (by omega), ← hrest, List.append_assoc]; simp
    rw [k1, k2] at key
    rw [hr']
    exact key

end

theorem accepted_map {α β : Type} (f : α → β) (as : List α) (oks : List Bool) :
    accepted (as.map f) oks = (accepted as oks).map f := by
  induction as generalizing oks with
  | nil => cases oks <;> rfl
  | cons a as ih =>
    cases oks with
    | nil => rfl
    | cons b oks => cases b <;> simp [accepted, ih]

theorem accepted_mem {α : Type} {a : α} {as : List α} {oks : List Bool} (h : a ∈ accepted as oks) :
    a ∈ as := by
  induction as generalizing oks with
  | nil => cases oks <;> simp [accepted] at h
  | cons b as ih =>
    cases oks with
    | nil => simp [accepted] at h
    | cons o oks =>
      cases o
      · exact List.mem_cons_of_mem _ (ih h)
      · rcases List.mem_cons.mp h with rfl | h
        · simp
        · exact List.mem_cons_of_mem _ (ih h)

/-! ## What callers push -/

/-- A child a file system lists with READDIR. -/
structure Child where
  nodeId : NodeId
  name : NodeName
  valid : NodeName.Valid name.bytes
  offset : NonZeroU64
  type : Option FileType

/-- The entry made from it with `ReaddirEntry::new` and `set_file_type`. -/
def Child.toEntry (c : Child) : ReaddirEntry :=
  match c.type with
  | none => ReaddirEntry.new c.nodeId c.name c.offset
  | some t => (ReaddirEntry.new c.nodeId c.name c.offset).setFileType t

/-- What the client should see: type 0 (`DT_UNKNOWN`) if the file system gave none. -/
def Child.seen (c : Child) : SeenEntry :=
  ⟨[], c.nodeId.val.toNat, c.offset.val.toNat, (c.type.map dtCode).getD 0, c.name.bytes⟩

theorem Child.toEntry_name (c : Child) : c.toEntry.name = c.name := by
  unfold Child.toEntry; cases c.type <;> rfl

theorem Child.toEntry_dirent (c : Child) : c.toEntry.dirent =
    { ino := c.nodeId.val, off := c.offset.val, namelen := UInt32.ofNat c.name.bytes.length,
      type_ := (c.type.map FileType.asBits).getD 0 } := by
  unfold Child.toEntry; cases c.type <;> rfl

/-- A child a file system lists with READDIRPLUS.  The attributes carry the node's ID, which is never
zero. -/
structure PlusChild where
  name : NodeName
  valid : NodeName.Valid name.bytes
  offset : NonZeroU64
  entry : Entry
  ino : entry.raw.attr.ino ≠ 0

/-- The record `ReaddirplusEntry::new` makes from it. -/
def PlusChild.record (c : PlusChild) : ReaddirplusEntry :=
  ⟨{ dirent := { ino := c.entry.raw.attr.ino, off := c.offset.val, type_ := c.entry.attributes.mode.typeBits,
                 namelen := UInt32.ofNat c.name.bytes.length }
     entry_out := c.entry.raw }, c.name⟩

/-- `ReaddirplusEntry::new` succeeds on it. -/
theorem PlusChild.new_eq (c : PlusChild) : ReaddirplusEntry.new c.name c.offset c.entry = .ok c.record := by
  have : c.entry.attributes.nodeId = .ok ⟨c.entry.raw.attr.ino, c.ino⟩ := by
    show NonZeroU64.newUnchecked c.entry.raw.attr.ino = _
    unfold NonZeroU64.newUnchecked
    rw [dif_pos c.ino]
  simp only [ReaddirplusEntry.new, this, bind, Except.bind, pure, Except.pure]
  rfl

/-- What the client sees, apart from the type: the entry's attributes as in a LOOKUP reply, the node
ID, the offset and the name. -/
def PlusChild.seen (c : PlusChild) (type : Nat) : SeenEntry :=
  ⟨layout_fuse_entry_out c.entry.raw, c.entry.raw.attr.ino.toNat, c.offset.val.toNat, type, c.name.bytes⟩

theorem asBits_toNat (t : FileType) : t.asBits.toNat = dtCode t := by cases t <;> decide

theorem namelen_toNat {T : Type} [Dirent T] {name : NodeName} {n : Nat}
    (h : direntSize T name ≤ n) (hn : n ≤ 65535) :
    (UInt32.ofNat name.bytes.length).toNat = name.bytes.length := by
  unfold direntSize at h
  rw [UInt32.toNat_ofNat']; omega

/-! ## C27 -/

/-- C27 for READDIR: whatever children are pushed to a listing in an 8-byte-aligned buffer, some of
the pushes succeed, and the bytes of the listing are read back as exactly the accepted children, in
order, both by the library's iterator and by a client.  What is missing from the full statement is
the case of a buffer that is not aligned, see `C28_violated`. -/
theorem C27_readdir_partial (addr : Nat) (buf : Bytes) (cs : List Child) (ha : addr % 8 = 0) :
    ∃ oks w bytes, (DirWriter.new addr buf).pushAll (cs.map Child.toEntry) = .ok (oks, w) ∧
      w.intoEntries = .ok bytes ∧ oks.length = cs.length ∧
      DirentCollects FuseDirent bytes (.ok ((accepted cs oks).map Child.toEntry)) ∧
      ClientReads 0 bytes ((accepted cs oks).map Child.seen) := by
  have hnb := new_buf_length addr buf
  obtain ⟨oks, w, e1, e2, e3, e4, e5, e6, e7⟩ :=
    pushAll_spec (DirWriter.new addr buf) (cs.map Child.toEntry) (by decide) rfl
      (show (addr + 0) % 8 = 0 by omega) (Nat.zero_le _)
  have hoks : oks.length = cs.length := by
    have := pushAll_length _ _ e1
    rwa [List.length_map] at this
  have e6' : w.buf.take w.position = records (accepted (cs.map Child.toEntry) oks) := by
    rw [e6]; show List.take 0 _ ++ _ = _; simp
  rw [accepted_map] at e6' e7
  have hlen : ∀ c ∈ accepted cs oks,
      (UInt32.ofNat c.name.bytes.length).toNat = c.name.bytes.length := by
    intro c hc
    have := e7 c.toEntry (List.mem_map_of_mem hc)
    rw [Child.toEntry_name] at this
    exact namelen_toNat this (by omega)
  refine ⟨oks, w, records ((accepted cs oks).map Child.toEntry), e1, ?_, hoks, ?_, ?_⟩
  · unfold DirWriter.intoEntries; rw [if_pos e4, e6']
  · have := collects_records ((accepted cs oks).map Child.toEntry) []
      (by
        intro e he
        obtain ⟨c, hc, rfl⟩ := List.mem_map.mp he
        rw [Child.toEntry_name]; exact c.valid)
      (by
        intro e he
        obtain ⟨c, hc, rfl⟩ := List.mem_map.mp he
        rw [Child.toEntry_name, Child.toEntry_dirent]; exact hlen c hc)
    rwa [List.nil_append] at this
  · have hd : ∀ (e : ReaddirEntry) (rest : Bytes),
        u32At (enc e.dirent ++ rest) 16 = e.dirent.namelen.toNat ∧
        u64At (enc e.dirent ++ rest) 0 = e.dirent.ino.toNat ∧
        u64At (enc e.dirent ++ rest) 8 = e.dirent.off.toNat ∧
        u32At (enc e.dirent ++ rest) 20 = e.dirent.type_.toNat := by
      intro e rest
      rw [enc_fuse_dirent]
      unfold layout_fuse_dirent
      refine ⟨?_, ?_, ?_, ?_⟩ <;> read_at
    have := client_records 0 rfl rfl
      (fun e : ReaddirEntry => (⟨[], e.dirent.ino.toNat, e.dirent.off.toNat, e.dirent.type_.toNat, e.name.bytes⟩ : SeenEntry))
      ((accepted cs oks).map Child.toEntry)
      (by
        intro e he
        obtain ⟨c, hc, rfl⟩ := List.mem_map.mp he
        rw [Child.toEntry_name]; exact c.valid.1)
      (by
        intro e he rest
        obtain ⟨c, hc, rfl⟩ := List.mem_map.mp he
        rw [Child.toEntry_name]
        rw [show 0 + 16 = 16 from rfl, (hd c.toEntry rest).1, Child.toEntry_dirent]; exact hlen c hc)
      (by
        intro e he rest
        obtain ⟨h1, h2, h3, h4⟩ := hd e rest
        simp only [Nat.zero_add, h2, h3, h4, List.take_zero])
    rw [List.map_map] at this
    refine cast (congrArg _ (List.map_congr_left ?_)) this
    intro c hc
    simp only [Function.comp, Child.toEntry_dirent, Child.toEntry_name, Child.seen]
    congr 1
    cases c.type with
    | none => rfl
    | some t => exact asBits_toNat t

/-- C27: an entry reports what it was made from. -/
theorem C27_accessors (c : Child) :
    c.toEntry.nodeId = .ok c.nodeId ∧ c.toEntry.offset = .ok c.offset ∧ c.toEntry.name = c.name ∧
      c.toEntry.fileType = c.type := by
  refine ⟨?_, ?_, c.toEntry_name, ?_⟩
  · simp only [ReaddirEntry.nodeId, NodeId.newUnchecked, NonZeroU64.newUnchecked, Child.toEntry_dirent]
    rw [dif_pos c.nodeId.2]
  · simp only [ReaddirEntry.offset, NonZeroU64.newUnchecked, Child.toEntry_dirent]
    rw [dif_pos c.offset.2]
  · simp only [ReaddirEntry.fileType, Child.toEntry_dirent]
    cases c.type with
    | none => rfl
    | some t => exact (fromBits_iff _ _).mpr rfl

/-- C27 for READDIRPLUS, likewise.  The client sees the entry's attributes, node ID, offset and name;
the type it sees is described by `C29_violated`. -/
theorem C27_readdirplus_partial (addr : Nat) (buf : Bytes) (cs : List PlusChild) (ha : addr % 8 = 0) :
    ∃ oks w bytes, (DirWriter.new addr buf).pushAll (cs.map PlusChild.record) = .ok (oks, w) ∧
      w.intoEntries = .ok bytes ∧ oks.length = cs.length ∧
      DirentCollects FuseDirentplus bytes (.ok ((accepted cs oks).map PlusChild.record)) ∧
      ClientReads 128 bytes ((accepted cs oks).map fun c =>
        c.seen (c.entry.raw.attr.mode &&& 0xF000).toNat) := by
  have hnb := new_buf_length addr buf
  obtain ⟨oks, w, e1, e2, e3, e4, e5, e6, e7⟩ :=
    pushAll_spec (DirWriter.new addr buf) (cs.map PlusChild.record) (by decide) rfl
      (show (addr + 0) % 8 = 0 by omega) (Nat.zero_le _)
  have hoks : oks.length = cs.length := by
    have := pushAll_length _ _ e1
    rwa [List.length_map] at this
  have e6' : w.buf.take w.position = records (accepted (cs.map PlusChild.record) oks) := by
    rw [e6]; show List.take 0 _ ++ _ = _; simp
  rw [accepted_map] at e6' e7
  have hlen : ∀ c ∈ accepted cs oks,
      (UInt32.ofNat c.name.bytes.length).toNat = c.name.bytes.length := by
    intro c hc
    have := e7 c.record (List.mem_map_of_mem hc)
    exact namelen_toNat this (by omega)
  refine ⟨oks, w, records ((accepted cs oks).map PlusChild.record), e1, ?_, hoks, ?_, ?_⟩
  · unfold DirWriter.intoEntries; rw [if_pos e4, e6']
  · have := collects_records ((accepted cs oks).map PlusChild.record) []
      (by
        intro e he
        obtain ⟨c, hc, rfl⟩ := List.mem_map.mp he
        exact c.valid)
      (by
        intro e he
        obtain ⟨c, hc, rfl⟩ := List.mem_map.mp he
        exact hlen c hc)
    rwa [List.nil_append] at this
  · have hd : ∀ (e : ReaddirplusEntry) (rest : Bytes),
        u32At (enc e.dirent ++ rest) (128 + 16) = e.dirent.dirent.namelen.toNat ∧
        u64At (enc e.dirent ++ rest) 128 = e.dirent.dirent.ino.toNat ∧
        u64At (enc e.dirent ++ rest) (128 + 8) = e.dirent.dirent.off.toNat ∧
        u32At (enc e.dirent ++ rest) (128 + 20) = e.dirent.dirent.type_.toNat ∧
        (enc e.dirent).take 128 = layout_fuse_entry_out e.dirent.entry_out := by
      intro e rest
      have hl : (layout_fuse_entry_out e.dirent.entry_out).length = 128 := C01_fuse_entry_out.2.1 _
      rw [enc_fuse_direntplus]
      unfold layout_fuse_direntplus
      have h32 := fun i => u32At_append (layout_fuse_entry_out e.dirent.entry_out)
        (layout_fuse_dirent e.dirent.dirent ++ rest) i
      have h64 := fun i => u64At_append (layout_fuse_entry_out e.dirent.entry_out)
        (layout_fuse_dirent e.dirent.dirent ++ rest) i
      rw [hl] at h32 h64
      rw [List.append_assoc]
      rw [Nat.add_comm 128 16, Nat.add_comm 128 8, Nat.add_comm 128 20, h32, h32, h64,
        show 128 = 0 + 128 from rfl, h64]
      unfold layout_fuse_dirent
      refine ⟨?_, ?_, ?_, ?_, ?_⟩
      iterate 4 read_at
      exact List.take_left' hl
    have := client_records 128 rfl rfl
      (fun e : ReaddirplusEntry => (⟨layout_fuse_entry_out e.dirent.entry_out, e.dirent.dirent.ino.toNat,
        e.dirent.dirent.off.toNat, e.dirent.dirent.type_.toNat, e.name.bytes⟩ : SeenEntry))
      ((accepted cs oks).map PlusChild.record)
      (by
        intro e he
        obtain ⟨c, hc, rfl⟩ := List.mem_map.mp he
        exact c.valid.1)
      (by
        intro e he rest
        obtain ⟨c, hc, rfl⟩ := List.mem_map.mp he
        rw [(hd c.record rest).1]; exact hlen c hc)
      (by
        intro e he rest
        obtain ⟨h1, h2, h3, h4, h5⟩ := hd e rest
        simp only [h2, h3, h4, h5])
    rw [List.map_map] at this
    exact this

/-- C27: a READDIRPLUS entry reports what it was made from. -/
theorem C27_plus_accessors (c : PlusChild) :
    c.record.name = c.name ∧ c.record.offset = .ok c.offset ∧ c.record.entry = c.entry := by
  refine ⟨rfl, ?_, rfl⟩
  show NonZeroU64.newUnchecked c.offset.val = _
  unfold NonZeroU64.newUnchecked
  rw [dif_pos c.offset.2]

/-! ## C28 -/

/-- What C28 requires of a push in the state `w`, for records with a fixed part of `fixed` bytes. -/
def PushOk (fixed : Nat) (w : DirWriter) (name : NodeName) (r : Except Fault (Bool × DirWriter)) : Prop :=
  let size := align8 (fixed + name.bytes.length)
  if w.position + size ≤ w.capacity then
    ∃ fixedPart, fixedPart.length = fixed ∧
      r = .ok (true, { w with
        buf := w.buf.take w.position ++
          (fixedPart ++ name.bytes ++ List.replicate (size - fixed - name.bytes.length) 0) ++
          w.buf.drop (w.position + size)
        position := w.position + size })
  else r = .ok (false, w)

theorem pushOk_of {T : Type} [Dirent T] (w : DirWriter) (e : DirRecord T)
    (h8 : Wire.size T % 8 = 0) (hal : Wire.align T = 8) (ha : (w.addr + w.position) % 8 = 0)
    (hw : w.position ≤ w.buf.length) : PushOk (Wire.size T) w e.name (w.tryPush e) := by
  unfold PushOk
  have hsz := direntSize_eq (T := T) e.name h8
  simp only []
  rw [← hsz]
  by_cases hp : w.position + direntSize T e.name ≤ w.buf.length
  · rw [if_pos (show w.position + direntSize T e.name ≤ w.capacity from hp)]
    refine ⟨enc e.dirent, Wire.enc_length _, ?_⟩
    rw [tryPush_fits w e (by rw [hal]; exact ha) hp]
    have : direntSize T e.name - Wire.size T - e.name.bytes.length = direntPadding e.name.bytes.length := by
      unfold direntSize; omega
    rw [this]
    rfl
  · rw [if_neg (show ¬ w.position + direntSize T e.name ≤ w.capacity from hp)]
    exact tryPush_full w e hw (by omega)

/-- C28 for READDIR: after any history of pushes into an 8-byte-aligned buffer, the position is a
multiple of eight within the capacity, the capacity is the buffer's size cut off at 65535, and the
next push appends a zero-padded record if that fits, and otherwise fails and changes nothing.  The
full statement has no alignment hypothesis, see `C28_violated`. -/
theorem C28_readdir_partial (addr : Nat) (buf : Bytes) (es : List ReaddirEntry) (ha : addr % 8 = 0) :
    ∃ oks w, (DirWriter.new addr buf).pushAll es = .ok (oks, w) ∧
      w.capacity = min buf.length 65535 ∧ w.position ≤ w.capacity ∧ w.position % 8 = 0 ∧
      ∀ e : ReaddirEntry, PushOk 24 w e.name (w.tryPush e) := by
  obtain ⟨oks, w, e1, e2, e3, e4, e5, e6, e7⟩ :=
    pushAll_spec (DirWriter.new addr buf) es (by decide) rfl
      (show (addr + 0) % 8 = 0 by omega) (Nat.zero_le _)
  have e2' : w.addr = addr := e2
  exact ⟨oks, w, e1, by rw [DirWriter.capacity, e3, new_buf_length], e4, by omega,
    fun e => pushOk_of w e (by decide) rfl e5 e4⟩

/-- C28 for READDIRPLUS. -/
theorem C28_readdirplus_partial (addr : Nat) (buf : Bytes) (es : List ReaddirplusEntry) (ha : addr % 8 = 0) :
    ∃ oks w, (DirWriter.new addr buf).pushAll es = .ok (oks, w) ∧
      w.capacity = min buf.length 65535 ∧ w.position ≤ w.capacity ∧ w.position % 8 = 0 ∧
      ∀ e : ReaddirplusEntry, PushOk 152 w e.name (w.tryPush e) := by
  obtain ⟨oks, w, e1, e2, e3, e4, e5, e6, e7⟩ :=
    pushAll_spec (DirWriter.new addr buf) es (by decide) rfl
      (show (addr + 0) % 8 = 0 by omega) (Nat.zero_le _)
  have e2' : w.addr = addr := e2
  exact ⟨oks, w, e1, by rw [DirWriter.capacity, e3, new_buf_length], e4, by omega,
    fun e => pushOk_of w e (by decide) rfl e5 e4⟩

/-- C28 does not hold for other buffers: the safe constructor takes any byte slice, and if that does
not start at a multiple of eight, the first push that fits stores a record through a misaligned
pointer. -/
theorem C28_violated (addr : Nat) (buf : Bytes) (e : ReaddirEntry) (ha : addr % 8 ≠ 0)
    (hfit : align8 (24 + e.name.bytes.length) ≤ min buf.length 65535) :
    (DirWriter.new addr buf).tryPush e = .error .misaligned := by
  have hsz : direntSize FuseDirent e.name = align8 (24 + e.name.bytes.length) := direntSize_eq e.name rfl
  have hl := new_buf_length addr buf
  exact tryPush_misaligned _ e (show (addr + 0) % 8 ≠ 0 by omega)
    (show 0 + direntSize FuseDirent e.name ≤ _ by omega)

theorem pushAll_unaligned {T : Type} [Dirent T] (w : DirWriter) (es : List (DirRecord T))
    (hal : Wire.align T = 8) (ha : (w.addr + w.position) % 8 ≠ 0) (hw : w.position ≤ w.buf.length) :
    w.pushAll es =
      if ∃ e ∈ es, w.position + direntSize T e.name ≤ w.buf.length then .error .misaligned
      else .ok (es.map fun _ => false, w) := by
  induction es with
  | nil => rw [if_neg (by simp)]; rfl
  | cons e es ih =>
    unfold DirWriter.pushAll
    by_cases hp : w.position + direntSize T e.name ≤ w.buf.length
    · rw [tryPush_misaligned w e (by rw [hal]; exact ha) hp, if_pos ⟨e, List.mem_cons_self, hp⟩]
      rfl
    · rw [tryPush_full w e hw (by omega)]
      simp only [bind, Except.bind]
      rw [ih]
      by_cases h : ∃ e ∈ es, w.position + direntSize T e.name ≤ w.buf.length
      · obtain ⟨e', h1, h2⟩ := h
        rw [if_pos ⟨e', h1, h2⟩, if_pos ⟨e', List.mem_cons_of_mem _ h1, h2⟩]
      · rw [if_neg h, if_neg]
        · rfl
        · rintro ⟨e', h1, h2⟩
          rcases List.mem_cons.mp h1 with rfl | h1
          · exact hp h2
          · exact h ⟨e', h1, h2⟩

/-- C28 for READDIR and buffers that do not start at a multiple of eight: as long as only entries are pushed that do
not fit, every push fails and changes nothing; if any entry of the history fits, the history ends in a store through
a misaligned pointer. -/
theorem C28_violated_readdir (addr : Nat) (buf : Bytes) (es : List ReaddirEntry) (ha : addr % 8 ≠ 0) :
    (DirWriter.new addr buf).pushAll es =
      if ∃ e ∈ es, align8 (24 + e.name.bytes.length) ≤ min buf.length 65535 then .error .misaligned
      else .ok (es.map fun _ => false, DirWriter.new addr buf) := by
  rw [pushAll_unaligned (DirWriter.new addr buf) es rfl (show (addr + 0) % 8 ≠ 0 by omega) (Nat.zero_le _),
    new_buf_length]
  have : ∀ e : ReaddirEntry, direntSize FuseDirent e.name = align8 (24 + e.name.bytes.length) :=
    fun e => direntSize_eq e.name rfl
  simp only [show (DirWriter.new addr buf).position = 0 from rfl, Nat.zero_add, this]

/-- C28 for READDIRPLUS and buffers that do not start at a multiple of eight. -/
theorem C28_violated_readdirplus (addr : Nat) (buf : Bytes) (es : List ReaddirplusEntry) (ha : addr % 8 ≠ 0) :
    (DirWriter.new addr buf).pushAll es =
      if ∃ e ∈ es, align8 (152 + e.name.bytes.length) ≤ min buf.length 65535 then .error .misaligned
      else .ok (es.map fun _ => false, DirWriter.new addr buf) := by
  rw [pushAll_unaligned (DirWriter.new addr buf) es rfl (show (addr + 0) % 8 ≠ 0 by omega) (Nat.zero_le _),
    new_buf_length]
  have : ∀ e : ReaddirplusEntry, direntSize FuseDirentplus e.name = align8 (152 + e.name.bytes.length) :=
    fun e => direntSize_eq e.name rfl
  simp only [show (DirWriter.new addr buf).position = 0 from rfl, Nat.zero_add, this]

/-! ## C29 -/

/-- The field of the last record pushed. -/
theorem pushed_u32 {T : Type} [Dirent T] {w w' : DirWriter} {e : DirRecord T} (i : Nat)
    (h : w.tryPush e = .ok (true, w')) :
    ∃ rest, u32At w'.buf (w.position + i) = u32At (enc e.dirent ++ rest) i := by
  obtain ⟨ha, hp⟩ := tryPush_true h
  rw [tryPush_fits w e ha hp] at h
  simp only [Except.ok.injEq, Prod.mk.injEq, true_and] at h
  subst h
  refine ⟨e.name.bytes ++ List.replicate (direntPadding e.name.bytes.length) 0 ++
    w.buf.drop (w.position + direntSize T e.name), ?_⟩
  show u32At (w.buf.take w.position ++ e.record ++ w.buf.drop (w.position + direntSize T e.name)) _ = _
  have hl : (w.buf.take w.position).length = w.position := by
    rw [List.length_take]; omega
  have := u32At_append (w.buf.take w.position)
    (e.record ++ w.buf.drop (w.position + direntSize T e.name)) i
  rw [hl, ← List.append_assoc, Nat.add_comm i] at this
  rw [this]
  simp [DirRecord.record, List.append_assoc]

/-- C29 for READDIR: a listing entry whose type was set from a file mode carries, at the place of the
`type` field, the type bits of the mode shifted down, which is the `DT_*` code; a mode without a
known type is reported as 0. -/
theorem C29_readdir (w w' : DirWriter) (c : Child) (m : FileMode) (hm : c.type = FileType.fromMode m)
    (h : w.tryPush c.toEntry = .ok (true, w')) :
    (∀ t, FileType.fromMode m = some t →
      u32At w'.buf (w.position + 20) = dtCode t ∧ dtCode t = m.bits.toNat / 4096 % 16) ∧
    (FileType.fromMode m = none → u32At w'.buf (w.position + 20) = 0) := by
  obtain ⟨rest, hr⟩ := pushed_u32 20 h
  have : u32At (enc c.toEntry.dirent ++ rest) 20 = c.toEntry.dirent.type_.toNat := by
    rw [enc_fuse_dirent]; unfold layout_fuse_dirent; read_at
  rw [hr, this, Child.toEntry_dirent, hm]
  refine ⟨fun t ht => ?_, fun ht => ?_⟩
  · rw [ht]
    exact ⟨asBits_toNat t, by rw [(C34_recognised_iff m t).mp ht, asBits_toNat]⟩
  · rw [ht]; rfl

/-- C29 does not hold for READDIRPLUS: the reported type is the mode's type bits left in place,
which is the `DT_*` code for no mode that has a type. -/
theorem C29_violated (w w' : DirWriter) (c : PlusChild)
    (h : w.tryPush c.record = .ok (true, w')) :
    let mode := c.entry.raw.attr.mode.toNat
    u32At w'.buf (w.position + 148) = 4096 * (mode / 4096 % 16) ∧
      (u32At w'.buf (w.position + 148) = mode / 4096 % 16 ↔ mode / 4096 % 16 = 0) := by
  obtain ⟨rest, hr⟩ := pushed_u32 148 h
  have : u32At (enc c.record.dirent ++ rest) 148 = c.record.dirent.dirent.type_.toNat := by
    rw [enc_fuse_direntplus]
    unfold layout_fuse_direntplus
    have hl : (layout_fuse_entry_out c.record.dirent.entry_out).length = 128 := C01_fuse_entry_out.2.1 _
    have h32 := u32At_append (layout_fuse_entry_out c.record.dirent.entry_out)
        (layout_fuse_dirent c.record.dirent.dirent ++ rest) 20
    rw [hl, ← List.append_assoc] at h32
    rw [show 148 = 20 + 128 from rfl, h32]
    unfold layout_fuse_dirent; read_at
  have ht : c.record.dirent.dirent.type_.toNat = 4096 * (c.entry.raw.attr.mode.toNat / 4096 % 16) := by
    show c.entry.attributes.mode.typeBits.toNat = _
    rw [typeBits_toNat, Nat.mul_comm]
    rfl
  simp only []
  rw [hr, this, ht]
  exact ⟨rfl, by omega⟩

/-- C29 for READDIRPLUS, what remains: the reported type determines the mode's type, and is right for
modes without one.  Missing is the shift down by twelve bits. -/
theorem C29_readdirplus_partial (w w' : DirWriter) (c : PlusChild)
    (h : w.tryPush c.record = .ok (true, w')) :
    u32At w'.buf (w.position + 148) / 4096 = c.entry.raw.attr.mode.toNat / 4096 % 16 := by
  have := (C29_violated w w' c h).1
  omega

/-! ## Concrete cases -/

/-- Two children, `a` (a directory) and `bcdefghij` (of unknown type). -/
def exampleChildren : List Child :=
  [⟨⟨5, by decide⟩, ⟨[0x61]⟩, by decide, ⟨1, by decide⟩, some .directory⟩,
   ⟨⟨6, by decide⟩, ⟨[0x62, 0x63, 0x64, 0x65, 0x66, 0x67, 0x68, 0x69, 0x6A]⟩, by decide, ⟨2, by decide⟩, none⟩]

/-- In 72 bytes both fit exactly; in 71 only the first. -/
example : ((DirWriter.new 0x1000 (List.replicate 72 0xFF)).pushAll (exampleChildren.map Child.toEntry)).map
      (fun r => (r.1, r.2.position)) = .ok ([true, true], 72) ∧
    ((DirWriter.new 0x1000 (List.replicate 71 0xFF)).pushAll (exampleChildren.map Child.toEntry)).map
      (fun r => (r.1, r.2.position)) = .ok ([true, false], 32) := by decide

/-- The first record, byte by byte. -/
example : ((DirWriter.new 0x1000 (List.replicate 40 0xFF)).pushAll (exampleChildren.map Child.toEntry)).map
      (fun r => r.2.buf) = .ok
    ([5, 0, 0, 0, 0, 0, 0, 0, 1, 0, 0, 0, 0, 0, 0, 0, 1, 0, 0, 0, 4, 0, 0, 0, 0x61, 0, 0, 0, 0, 0, 0, 0] ++
      List.replicate 8 0xFF) := by decide

/-- The same on a stack buffer at an odd address: undefined behaviour. -/
example : (DirWriter.new 0x1001 (List.replicate 72 0xFF)).tryPush (exampleChildren.map Child.toEntry)[0] =
    .error .misaligned := C28_violated _ _ _ (by decide) (by decide)

/-- The same in turns: the second child does not fit into 32 bytes, the first does. -/
example : (DirWriter.new 0x1001 (List.replicate 32 0xFF)).pushAll (exampleChildren.reverse.map Child.toEntry) =
      .error .misaligned ∧
    (DirWriter.new 0x1001 (List.replicate 32 0xFF)).pushAll ((exampleChildren.drop 1).map Child.toEntry) =
      .ok ([false], .new 0x1001 (List.replicate 32 0xFF)) :=
  ⟨(C28_violated_readdir _ _ _ (by decide)).trans (if_pos ⟨_, List.mem_cons_of_mem _ (List.mem_cons_self ..), by decide⟩),
    (C28_violated_readdir _ _ _ (by decide)).trans (if_neg (by decide))⟩

/-- A regular file `x`, mode 0644: READDIRPLUS reports the type 0x8000 rather than 8. -/
def examplePlusChild : PlusChild :=
  ⟨⟨[0x78]⟩, by decide, ⟨1, by decide⟩, ⟨{ nodeid := 9, attr := { ino := 9, mode := 0o100644 } }⟩, by decide⟩

set_option maxRecDepth 4000 in
example : ((DirWriter.new 0 (List.replicate 160 0)).tryPush examplePlusChild.record).map
    (fun r => (r.1, u32At r.2.buf 148)) = .ok (true, 0x8000) := by decide

/-! ## Reading listings back -/

/-- **C27**, the iterators on arbitrary bytes: `next` returns the entry `e` and goes on at `rest` exactly if the
bytes are the fixed part of `e`, its name, padding of the right length and `rest`, the name is a valid one, and
its length is the one announced.  So nothing outside of the listing is ever taken for an entry. -/
theorem C27_reads_exact {T : Type} [Dirent T] (buf : Bytes) (e : DirRecord T) (rest : Bytes) :
    direntNext T buf = .ok (some (e, rest)) ↔
      NodeName.Valid e.name.bytes ∧ (Dirent.namelen e.dirent).toNat = e.name.bytes.length ∧
      ∃ pad, pad.length = (8 - e.name.bytes.length % 8) % 8 ∧
        buf = enc e.dirent ++ e.name.bytes ++ pad ++ rest := by
  constructor
  · intro h
    unfold direntNext direntRead at h
    split at h
    · cases h
    · by_cases h1 : buf.length < Wire.size T
      · rw [if_pos h1] at h; cases h
      · rw [if_neg h1] at h
        dsimp only at h
        by_cases h2 : buf.length < Wire.size T + (Dirent.namelen (dec (buf.take (Wire.size T)) : T)).toNat
        · rw [if_pos h2] at h; cases h
        · rw [if_neg h2] at h
          unfold NodeName.fromBytesUnchecked at h
          by_cases hv : NodeName.Valid ((buf.drop (Wire.size T)).take
              (Dirent.namelen (dec (buf.take (Wire.size T)) : T)).toNat)
          · rw [if_pos hv] at h
            simp only [bind, Except.bind, pure, Except.pure] at h
            generalize hn : (Dirent.namelen (dec (buf.take (Wire.size T)) : T)).toNat = n at *
            by_cases h3 : direntSize T ⟨(buf.drop (Wire.size T)).take n⟩ > buf.length
            · rw [if_pos h3] at h; cases h
            · rw [if_neg h3] at h
              cases h
              have hl : ((buf.drop (Wire.size T)).take n).length = n := by
                rw [List.length_take, List.length_drop]; omega
              unfold direntSize at h3 ⊢
              dsimp only at h3 ⊢
              rw [hl] at h3 ⊢
              refine ⟨hv, hn, ((buf.drop (Wire.size T)).drop n).take (direntPadding n), ?_, ?_⟩
              · rw [List.length_take, List.length_drop, List.length_drop]
                unfold direntPadding at *
                omega
              · rw [Wire.enc_dec _ (by rw [List.length_take]; omega), List.append_assoc, List.append_assoc,
                  ← List.drop_drop, ← List.drop_drop, List.take_append_drop, List.take_append_drop,
                  List.take_append_drop]
          · rw [if_neg hv] at h; cases h
  · rintro ⟨hv, hn, pad, hp, rfl⟩
    have hne : e.name.bytes.length ≠ 0 := fun h => hv.1 (List.length_eq_zero_iff.mp h)
    have t1 : (enc e.dirent ++ e.name.bytes ++ pad ++ rest).take (Wire.size T) = enc e.dirent := by
      rw [List.append_assoc, List.append_assoc, List.take_left' (Wire.enc_length _)]
    have t2 : ((enc e.dirent ++ e.name.bytes ++ pad ++ rest).drop (Wire.size T)).take e.name.bytes.length =
        e.name.bytes := by
      rw [List.append_assoc, List.append_assoc, List.drop_left' (Wire.enc_length _), List.take_left' rfl]
    have hl : (enc e.dirent ++ e.name.bytes ++ pad ++ rest).length = direntSize T e.name + rest.length := by
      simp only [List.length_append, Wire.enc_length, hp]
      rfl
    have hs : Wire.size T + e.name.bytes.length ≤ direntSize T e.name := Nat.le_add_right _ _
    have hread : direntRead T (enc e.dirent ++ e.name.bytes ++ pad ++ rest) = .ok (e.dirent, e.name) := by
      unfold direntRead
      rw [if_neg (by omega)]
      simp only [t1, Wire.dec_enc, hn]
      rw [if_neg (by omega), t2]
      simp only [NodeName.fromBytesUnchecked, if_pos hv, bind, Except.bind, pure, Except.pure]
    unfold direntNext
    have he : (enc e.dirent ++ e.name.bytes ++ pad ++ rest).isEmpty = false := by
      rw [List.isEmpty_eq_false_iff]
      intro h; have := congrArg List.length h; rw [hl, List.length_nil] at this; omega
    rw [he]
    simp only [hread, bind, Except.bind, Bool.false_eq_true, ↓reduceIte]
    rw [if_neg (by omega)]
    show Except.ok (some (_, List.drop (direntSize T e.name) _)) = _
    rw [List.drop_left' (by simp only [List.length_append, Wire.enc_length, hp]; rfl)]

-- A name longer than what is left of the listing is not read.
example : direntNext FuseDirent (enc ({ ino := 5, off := 1, namelen := 9 } : FuseDirent) ++ [97, 98, 0, 0, 0, 0, 0, 0]) =
    .error .oob := by decide +kernel

end Fuse
