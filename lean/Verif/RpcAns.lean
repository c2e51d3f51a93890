import Verif.Rpc
import Verif.PropWhole

/-!
# Answers

An answer of a filesystem, made into a reply with the response types of the library, is what the client reads from the
reply.
-/

namespace Fuse

open Spec

/-! ## Which answers an operation can have -/

namespace Spec

/-- A length of time that is not shortened on the way. -/
def TimeoutOk (d : Duration) : Prop := d.secs ≤ 0x7FFFFFFFFFFFFFFF

/-- Likewise for what has been found. -/
def Found.Ok (f : Found) : Prop := TimeoutOk f.timeout ∧ TimeoutOk f.attrTimeout

/-- What can be answered to a request: an error, or an answer of the expected kind that is not larger than the client
asked for. -/
def Kind.Allows : Kind → Ans → Prop
  | .silent, a => a = .silent
  | _, .error _ => True
  | .empty, .done => True
  | .data max, .data b => b.length ≤ max ∧ 16 + b.length < 2 ^ 32
  | .items max, .items l =>
    (∀ i ∈ l, NameOk i.name) ∧ (l.map fun i => align8 (24 + i.name.length)).sum ≤ min max 65535
  | .plusItems max, .plusItems l =>
    (∀ i ∈ l, NameOk i.name ∧ i.found.Ok) ∧ (l.map fun i => align8 (152 + i.name.length)).sum ≤ min max 65535
  | .names max, .names l => (∀ n ∈ l, 0 ∉ n) ∧ (l.map fun n => n.length + 1).sum ≤ min max 65536
  | .entry, .entry f => f.Ok
  | .entry, .absent timeout => TimeoutOk timeout
  | .attr, .attr _ timeout => TimeoutOk timeout
  | .created, .created f _ _ => f.Ok
  | .opened, .opened .. => True
  | .written, .written _ => True
  | .space, .space _ => True
  | .size, .size _ => True
  | .lock, .lock .. => True
  | .position, .position _ => True
  | .polled, .polled _ => True
  | .block, .block _ => True
  | .ioctl max, .ioctl _ output => output.length ≤ max ∧ 32 + output.length < 2 ^ 32
  | _, _ => False

end Spec

/-! ## Attributes -/

theorem attr_flags (i : Info) : i.attr.raw.flags =
    (((NodeAttr.new ⟨1, by decide⟩).setFlagSubmount i.submount).setFlagDax i.dax).raw.flags := rfl

theorem read_submount (i : Info) : i.attr.raw.flags.toNat.testBit 0 = i.submount := by
  rw [attr_flags]
  cases i.submount <;> cases i.dax <;> decide

theorem read_dax (i : Info) : i.attr.raw.flags.toNat.testBit 1 = i.dax := by
  rw [attr_flags]
  cases i.submount <;> cases i.dax <;> decide

theorem read_time (t : UnixTime) : readTime t.asTimespec.1.toNat t.asTimespec.2.toNat = t := by
  obtain ⟨s, n⟩ := t
  simp [readTime, UnixTime.asTimespec]

theorem read_info (i : Info) (p : Bytes) (o m : Nat) (hm : 9 ≤ m) (h : clientAttr m p o = serverAttr m i.attr.raw) :
    readInfo p o = some i := by
  unfold clientAttr serverAttr at h
  rw [if_neg (by omega), if_neg (by omega)] at h
  obtain ⟨h1, h2, h3, h4, h5, h6, h7, h8, h9, h10, h11, h12, h13, h14, h15⟩ := ClientAttr.mk.inj h
  obtain ⟨h15, h16⟩ := Prod.mk.inj (Option.some.inj h15)
  have hn : UInt64.ofNat (u64At p o) = i.node.val := by
    rw [h1, UInt64.ofNat_toNat]
    rfl
  unfold readInfo
  rw [dif_pos (by rw [hn]; exact i.node.2)]
  rw [h2, h3, h4, h5, h6, h7, h8, h9, h10, h11, h12, h13, h14, h15, h16, read_submount, read_dax]
  have t1 := read_time i.atime
  have t2 := read_time i.mtime
  have t3 := read_time i.ctime
  have e1 : readTime i.attr.raw.atime.toNat i.attr.raw.atimensec.toNat = i.atime := t1
  have e2 : readTime i.attr.raw.mtime.toNat i.attr.raw.mtimensec.toNat = i.mtime := t2
  have e3 : readTime i.attr.raw.ctime.toNat i.attr.raw.ctimensec.toNat = i.ctime := t3
  rw [e1, e2, e3]
  simp only [UInt64.ofNat_toNat, UInt32.ofNat_toNat, hn]
  rfl

theorem read_duration {d : Duration} (h : TimeoutOk d) :
    durationOf (splitDuration d).1.toNat (splitDuration d).2.toNat = some d := by
  have h : d.secs ≤ I64_MAX := h
  unfold splitDuration durationOf
  rw [if_pos h]
  simp only [UInt64.ofNat_toNat, UInt32.ofNat_toNat]
  rw [dif_pos d.lt]

theorem read_found {f : Found} (h : f.Ok) (m : Nat) (hm : 9 ≤ m) (post : Bytes) :
    readFound (entryBytes m f.entry.raw ++ post) 0 = some f := by
  obtain ⟨h1, h2, h3, h4, h5, h6, h7⟩ := client_entry m f.entry.raw post
  have hi := read_info f.info (entryBytes m f.entry.raw ++ post) 40 m hm h7
  have d1 := read_duration h.1
  have d2 := read_duration h.2
  have d1 : durationOf f.entry.raw.entry_valid.toNat f.entry.raw.entry_valid_nsec.toNat = some f.timeout := d1
  have d2 : durationOf f.entry.raw.attr_valid.toNat f.entry.raw.attr_valid_nsec.toNat = some f.attrTimeout := d2
  have hn : f.info.node.val.toNat = f.entry.raw.nodeid.toNat := rfl
  have hg : UInt64.ofNat f.entry.raw.generation.toNat = f.generation := UInt64.ofNat_toNat
  simp only [readFound, Nat.zero_add, hi, h3, h5, h4, h6, h1, h2, d1, d2, bind, Option.bind, if_pos hn, hg]

/-! ## Listings -/

theorem read_listing {skip : Nat} {bs : Bytes} {l : List SeenEntry} (h : ClientReads skip bs l) (fuel : Nat)
    (hf : bs.length ≤ fuel) : readRecords skip fuel bs = some l := by
  induction h generalizing fuel with
  | done h =>
    cases fuel <;> (unfold readRecords; rw [if_pos h])
  | @entry bs es h hne hfit _ ih =>
    cases fuel with
    | zero => omega
    | succ fuel =>
      have h8 : skip + 24 + u32At bs (skip + 16) ≤ align8 (skip + 24 + u32At bs (skip + 16)) := by unfold align8; omega
      have := ih fuel (by rw [List.length_drop]; omega)
      unfold readRecords
      rw [if_neg (by omega), if_neg (by omega), this]
      rfl

theorem records_length {T : Type} [Dirent T] (es : List (DirRecord T)) :
    (records es).length = (es.map fun e => direntSize T e.name).sum := by
  induction es with
  | nil => rfl
  | cons e es ih =>
    have : records (e :: es) = e.record ++ records es := by simp [records]
    rw [this, List.length_append, e.record_length, ih, List.map_cons, List.sum_cons]

theorem accepted_true {α : Type} (l : List α) : accepted l (l.map fun _ => true) = l := by
  induction l with
  | nil => rfl
  | cons a l ih =>
    show a :: accepted l _ = _
    rw [ih]

/-- Pushing what fits. -/
theorem pushAll_fits {T : Type} [Dirent T] (w : DirWriter) (es : List (DirRecord T)) (h8 : Wire.size T % 8 = 0)
    (hal : Wire.align T = 8) (ha : (w.addr + w.position) % 8 = 0)
    (hw : w.position + (es.map fun e => direntSize T e.name).sum ≤ w.buf.length) :
    ∃ w', w.pushAll es = .ok (es.map fun _ => true, w') ∧ w'.buf.length = w.buf.length := by
  induction es generalizing w with
  | nil => exact ⟨w, rfl, rfl⟩
  | cons e es ih =>
    rw [List.map_cons, List.sum_cons] at hw
    have h1 := tryPush_fits w e (by rw [hal]; exact ha) (by omega)
    have hsz := direntSize_aligned (T := T) e.name h8
    have hrl := e.record_length
    generalize hw1 : ({ w with
      buf := w.buf.take w.position ++ e.record ++ w.buf.drop (w.position + direntSize T e.name)
      position := w.position + direntSize T e.name } : DirWriter) = w1 at h1
    have a1 : w1.addr = w.addr := by rw [← hw1]
    have p1 : w1.position = w.position + direntSize T e.name := by rw [← hw1]
    have l1 : w1.buf.length = w.buf.length := by
      rw [← hw1]; simp only [List.length_append, List.length_take, List.length_drop, hrl]; omega
    obtain ⟨w', e1, e2⟩ := ih w1 (by rw [a1, p1]; omega) (by omega)
    refine ⟨w', ?_, e2.trans l1⟩
    simp only [DirWriter.pushAll, h1, e1, bind, Except.bind, pure, Except.pure, List.map_cons]

/-- A listing of what fits is as long as the room at most. -/
theorem listing_fits {T : Type} [Dirent T] {addr room : Nat} (es : List (DirRecord T)) (h8 : Wire.size T % 8 = 0)
    (hal : Wire.align T = 8) (ha : addr % 8 = 0)
    (hw : (es.map fun e => direntSize T e.name).sum ≤ min room 65535) {oks : List Bool} {w : DirWriter} {bytes : Bytes}
    (h1 : (DirWriter.new addr (List.replicate room 0)).pushAll es = .ok (oks, w)) (h2 : w.intoEntries = .ok bytes) :
    oks = es.map (fun _ => true) ∧ writeRecords addr room es = .ok bytes ∧ bytes.length ≤ min room 65535 := by
  have hb := new_buf_length addr (List.replicate room 0)
  rw [List.length_replicate] at hb
  obtain ⟨w', e1, e2⟩ := pushAll_fits (DirWriter.new addr (List.replicate room 0)) es h8 hal
    (show (addr + 0) % 8 = 0 by omega) (by
      show 0 + _ ≤ _
      rw [hb]
      omega)
  rw [h1] at e1
  cases e1
  refine ⟨rfl, ?_, ?_⟩
  · unfold writeRecords
    rw [h1]
    exact h2
  · unfold DirWriter.intoEntries at h2
    split at h2
    · cases h2
      rw [List.length_take]
      omega
    · cases h2

/-- The child that is an item of a listing. -/
def Spec.Item.child (i : Item) (h : NameOk i.name) : Child := ⟨i.node, ⟨i.name⟩, h, i.offset, i.type⟩

theorem item_record (i : Item) (h : NameOk i.name) : i.record = .ok (i.child h).toEntry := by
  have : NodeName.fromBytesUnchecked i.name = .ok ⟨i.name⟩ := if_pos h
  unfold Item.record
  rw [this]
  unfold Child.toEntry Spec.Item.child
  show Except.ok _ = _
  cases i.type <;> rfl

/-- Likewise with READDIRPLUS. -/
def Spec.PlusItem.child (i : PlusItem) (h : NameOk i.name) : PlusChild :=
  ⟨⟨i.name⟩, h, i.offset, i.found.entry, i.found.info.node.2⟩

theorem plus_record (i : PlusItem) (h : NameOk i.name) : i.record = .ok (i.child h).record := by
  have : NodeName.fromBytesUnchecked i.name = .ok ⟨i.name⟩ := if_pos h
  unfold PlusItem.record
  rw [this]
  exact (i.child h).new_eq

/-- All elements, with what is known about each of them. -/
def withProofs {α β : Type} (P : α → Prop) (f : (a : α) → P a → β) : (l : List α) → (∀ a ∈ l, P a) → List β
  | [], _ => []
  | a :: l, h => f a (h a (List.mem_cons_self ..)) :: withProofs P f l fun b hb => h b (List.mem_cons_of_mem _ hb)

theorem mapM_withProofs {α β γ : Type} {P : α → Prop} (g : α → Except Fault γ) (f : (a : α) → P a → β) (k : β → γ)
    (h : ∀ a ha, g a = .ok (k (f a ha))) (l : List α) (hl : ∀ a ∈ l, P a) :
    l.mapM g = .ok ((withProofs P f l hl).map k) := by
  induction l with
  | nil => rfl
  | cons a l ih =>
    rw [List.mapM_cons, h a (hl a (List.mem_cons_self ..)), ih fun b hb => hl b (List.mem_cons_of_mem _ hb)]
    rfl

theorem mapM_back {α β γ : Type} {P : α → Prop} (g : γ → Option α) (f : (a : α) → P a → β) (k : β → γ)
    (h : ∀ a ha, g (k (f a ha)) = some a) (l : List α) (hl : ∀ a ∈ l, P a) :
    ((withProofs P f l hl).map k).mapM g = some l := by
  induction l with
  | nil => rfl
  | cons a l ih =>
    show List.mapM g (k (f a _) :: (withProofs P f l _).map k) = _
    rw [List.mapM_cons, h a (hl a (List.mem_cons_self ..)), ih fun b hb => hl b (List.mem_cons_of_mem _ hb)]
    rfl

theorem map_withProofs {α β γ : Type} {P : α → Prop} (f : (a : α) → P a → β) (k : β → γ) (g : α → γ)
    (h : ∀ a ha, k (f a ha) = g a) (l : List α) (hl : ∀ a ∈ l, P a) :
    (withProofs P f l hl).map k = l.map g := by
  induction l with
  | nil => rfl
  | cons a l ih =>
    show k (f a _) :: (withProofs P f l _).map k = _
    rw [h, ih]
    rfl

theorem read_type (t : Option FileType) : readType ((t.map dtCode).getD 0) = t := by
  rcases t with _ | t
  · rfl
  · cases t <;> rfl

theorem read_item (i : Item) (h : NameOk i.name) : readItem (i.child h).seen = some i := by
  have e1 : UInt64.ofNat (i.child h).seen.ino = i.node.val := UInt64.ofNat_toNat
  have e2 : UInt64.ofNat (i.child h).seen.off = i.offset.val := UInt64.ofNat_toNat
  have e3 : readType (i.child h).seen.type = i.type := read_type i.type
  unfold readItem
  rw [dif_pos (by rw [e1, e2]; exact ⟨i.node.2, i.offset.2⟩)]
  simp only [e1, e2, e3]
  rfl

theorem read_plus (i : PlusItem) (h : NameOk i.name ∧ i.found.Ok) (type : Nat) :
    readPlusItem ((i.child h.1).seen type) = some i := by
  have e2 : UInt64.ofNat ((i.child h.1).seen type).off = i.offset.val := UInt64.ofNat_toNat
  have hf : readFound ((i.child h.1).seen type).entry 0 = some i.found := by
    have := read_found h.2 12 (by decide) []
    rw [List.append_nil] at this
    exact this
  unfold readPlusItem
  rw [dif_pos (by rw [e2]; exact i.offset.2), hf]
  simp only [e2]
  exact if_pos rfl

theorem items_reply {l : List Item} {addr room : Nat} (ha : addr % 8 = 0) (hn : ∀ i ∈ l, NameOk i.name)
    (hs : (l.map fun i => align8 (24 + i.name.length)).sum ≤ min room 65535) :
    ∃ es bytes, l.mapM Item.record = .ok es ∧ writeRecords addr room es = .ok bytes ∧
      bytes.length ≤ min room 65535 ∧
      ∃ seen, readRecords 0 bytes.length bytes = some seen ∧ seen.mapM readItem = some l := by
  have h1 := mapM_withProofs (P := fun i => NameOk i.name) Item.record Item.child Child.toEntry item_record l hn
  have h3 := mapM_back (P := fun i => NameOk i.name) readItem Item.child Child.seen read_item l hn
  have h4 := map_withProofs (P := fun i => NameOk i.name) Item.child (fun c => direntSize FuseDirent c.toEntry.name)
    (fun i => align8 (24 + i.name.length))
    (fun i h => by rw [Child.toEntry_name]; exact direntSize_eq _ (by decide)) l hn
  generalize withProofs _ _ l hn = cs at h1 h3 h4
  obtain ⟨oks, w, bytes, f1, f2, -, -, f5⟩ := C27_readdir_partial addr (List.replicate room 0) cs ha
  obtain ⟨g1, g2, g3⟩ := listing_fits (cs.map Child.toEntry) (by decide) rfl ha (by
    rw [List.map_map]
    show (cs.map fun c => direntSize FuseDirent c.toEntry.name).sum ≤ _
    rw [h4]
    exact hs) f1 f2
  have g1 : oks = cs.map fun _ => true := g1.trans (List.map_map ..)
  rw [g1, accepted_true] at f5
  exact ⟨_, _, h1, g2, g3, _, read_listing f5 _ (Nat.le_refl _), h3⟩

theorem plus_items_reply {l : List PlusItem} {addr room : Nat} (ha : addr % 8 = 0)
    (hn : ∀ i ∈ l, NameOk i.name ∧ i.found.Ok)
    (hs : (l.map fun i => align8 (152 + i.name.length)).sum ≤ min room 65535) :
    ∃ es bytes, l.mapM PlusItem.record = .ok es ∧ writeRecords addr room es = .ok bytes ∧
      bytes.length ≤ min room 65535 ∧
      ∃ seen, readRecords 128 bytes.length bytes = some seen ∧ seen.mapM readPlusItem = some l := by
  have h1 := mapM_withProofs (P := fun i : PlusItem => NameOk i.name ∧ i.found.Ok) PlusItem.record
    (fun i h => i.child h.1) PlusChild.record (fun i h => plus_record i h.1) l hn
  have h3 := mapM_back (P := fun i : PlusItem => NameOk i.name ∧ i.found.Ok) readPlusItem (fun i h => i.child h.1)
    (fun c => c.seen (c.entry.raw.attr.mode &&& 0xF000).toNat) (fun i h => read_plus i h _) l hn
  have h4 := map_withProofs (P := fun i : PlusItem => NameOk i.name ∧ i.found.Ok) (fun i h => i.child h.1)
    (fun c => direntSize FuseDirentplus c.record.name) (fun i => align8 (152 + i.name.length))
    (fun i h => direntSize_eq _ (by decide)) l hn
  generalize withProofs _ _ l hn = cs at h1 h3 h4
  obtain ⟨oks, w, bytes, f1, f2, -, -, f5⟩ := C27_readdirplus_partial addr (List.replicate room 0) cs ha
  obtain ⟨g1, g2, g3⟩ := listing_fits (cs.map PlusChild.record) (by decide) rfl ha (by
    rw [List.map_map]
    show (cs.map fun c => direntSize FuseDirentplus c.record.name).sum ≤ _
    rw [h4]
    exact hs) f1 f2
  have g1 : oks = cs.map fun _ => true := g1.trans (List.map_map ..)
  rw [g1, accepted_true] at f5
  exact ⟨_, _, h1, g2, g3, _, read_listing f5 _ (Nat.le_refl _), h3⟩

/-! ## Names of extended attributes -/

theorem names_fit (w : NamesWriter) (ns : List CName)
    (hw : w.position + (ns.map fun n => n.bytes.length + 1).sum ≤ w.buf.length) :
    ∃ w', w.pushAll ns = .ok (ns.map fun _ => true, w') ∧ w'.buf.length = w.buf.length := by
  induction ns generalizing w with
  | nil => exact ⟨w, rfl, rfl⟩
  | cons n ns ih =>
    rw [List.map_cons, List.sum_cons] at hw
    have h1 := names_push_fits w n (by omega)
    generalize hw1 : (⟨w.buf.take w.position ++ (n.bytes ++ [0]) ++ w.buf.drop (w.position + (n.bytes.length + 1)),
      w.position + (n.bytes.length + 1)⟩ : NamesWriter) = w1 at h1
    have p1 : w1.position = w.position + (n.bytes.length + 1) := by rw [← hw1]
    have l1 : w1.buf.length = w.buf.length := by
      rw [← hw1]; simp only [List.length_append, List.length_take, List.length_drop, List.length_cons, List.length_nil]; omega
    obtain ⟨w', e1, e2⟩ := ih w1 (by omega)
    refine ⟨w', ?_, e2.trans l1⟩
    simp only [NamesWriter.pushAll, h1, e1, bind, Except.bind, pure, Except.pure, List.map_cons]

theorem read_strings {bs : Bytes} {l : List Bytes} (h : SplitsInto bs l) : readStrings bs = some l := by
  induction h with
  | done => rfl
  | @name n rest ns h _ ih =>
    induction n with
    | nil =>
      show readStrings (0 :: rest) = _
      unfold readStrings
      rw [ih]
      rfl
    | cons b n ihn =>
      have := ihn fun hm => h (List.mem_cons_of_mem _ hm)
      show readStrings (b :: (n ++ 0 :: rest)) = _
      unfold readStrings
      rw [this]
      have hb : b ≠ 0 := fun e => h (e ▸ List.mem_cons_self ..)
      simp only [if_neg hb]

theorem names_reply {l : List Bytes} {os : Os} {room : Nat} (hn : ∀ n ∈ l, 0 ∉ n)
    (hs : (l.map fun n => n.length + 1).sum ≤ min room 65536) :
    ∃ ns oks w bytes, cnames l = .ok ns ∧ (NamesWriter.new os (List.replicate room 0)).pushAll ns = .ok (oks, w) ∧
      w.intoNames = .ok bytes ∧ bytes.length ≤ min room 65536 ∧ readStrings bytes = some l := by
  have h1 : cnames l = .ok ((withProofs (fun n => 0 ∉ n) CName.mk l hn).map id) :=
    mapM_withProofs (P := fun n : Bytes => 0 ∉ n) _ CName.mk id (fun n h => dif_pos h) l hn
  have h2 := map_withProofs (P := fun n : Bytes => 0 ∉ n) CName.mk CName.bytes id (fun _ _ => rfl) l hn
  have h3 := map_withProofs (P := fun n : Bytes => 0 ∉ n) CName.mk (fun n => n.bytes.length + 1) (fun n => n.length + 1)
    (fun _ _ => rfl) l hn
  generalize withProofs _ _ l hn = ns at h1 h2 h3
  rw [List.map_id] at h1 h2
  obtain ⟨hl, hp⟩ := names_new_length os (List.replicate room 0)
  rw [List.length_replicate] at hl
  obtain ⟨oks, w, bytes, f1, f2, -, f4, -, f6⟩ := C30_round_trip os (List.replicate room 0) ns
  obtain ⟨w', e1, e2⟩ := names_fit (NamesWriter.new os (List.replicate room 0)) ns (by
    rw [hp, h3, hl]
    cases os <;> simp only [Os.xattrListMax, Option.getD] <;> omega)
  rw [e1] at f1
  cases f1
  rw [accepted_true] at f4 f6
  rw [h2] at f6
  refine ⟨_, _, _, _, h1, e1, f2, ?_, read_strings f6⟩
  have : ∀ ns : List CName, (nameList ns).length = (ns.map fun n => n.bytes.length + 1).sum := by
    intro ns
    induction ns with
    | nil => rfl
    | cons n ns ih => simp [nameList, ih]; omega
  rw [f4, this, h3]
  exact hs

/-! ## Replies -/

/-- What is made of an answer is read as that answer. -/
theorem reply_read {os : Os} {addr m : Nat} (ha : addr % 8 = 0) (hm : 9 ≤ m) {op : Op} {a : Ans} (h : op.kind.Allows a)
    (hs : a ≠ .silent) (he : ∀ e, a ≠ .error e) :
    ∃ r, a.reply os addr op.room = .ok (some r) ∧ r.error = 0 ∧ 16 + (r.payload m).length < 2 ^ 32 ∧
      op.kind.read (r.payload m) = some a := by
  have room : ∀ max, (op.kind = .items max ∨ op.kind = .plusItems max ∨ op.kind = .names max) → op.room = max := by
    intro max h
    cases op <;> simp only [Op.kind] at h <;>
      first
      | (rcases h with h | h | h <;> first | cases h; rfl | cases h)
      | (split at h <;> rcases h with h | h | h <;> first | cases h; rfl | cases h)
  generalize op.kind = k at h room
  cases k with
  | silent => exact absurd h hs
  | empty => cases a <;> first | exact h.elim | exact absurd rfl (he _) | exact ⟨_, rfl, rfl, show 16 + 0 < 2 ^ 32 by decide, rfl⟩
  | data max =>
    cases a <;> first | exact h.elim | exact absurd rfl (he _) | skip
    exact ⟨_, rfl, rfl, h.2, if_pos h.1⟩
  | items max =>
    cases a <;> first | exact h.elim | exact absurd rfl (he _) | skip
    rename_i l
    rw [room max (.inl rfl)]
    obtain ⟨es, bytes, e1, e2, e3, seen, e4, e5⟩ := items_reply ha h.1 h.2
    refine ⟨.ok (.readdirEntries bytes), ?_, rfl, ?_, ?_⟩
    · simp only [Ans.reply, e1, e2, bind, Except.bind, pure, Except.pure]
    · show 16 + bytes.length < _; omega
    · show Kind.read (.items max) bytes = _
      simp only [Kind.read, e4, e5, bind, Option.bind, if_neg (show ¬ max < bytes.length by omega), pure]
  | plusItems max =>
    cases a <;> first | exact h.elim | exact absurd rfl (he _) | skip
    rename_i l
    rw [room max (.inr (.inl rfl))]
    obtain ⟨es, bytes, e1, e2, e3, seen, e4, e5⟩ := plus_items_reply ha h.1 h.2
    refine ⟨.ok (.readdirEntries bytes), ?_, rfl, ?_, ?_⟩
    · simp only [Ans.reply, e1, e2, bind, Except.bind, pure, Except.pure]
    · show 16 + bytes.length < _; omega
    · show Kind.read (.plusItems max) bytes = _
      simp only [Kind.read, e4, e5, bind, Option.bind, if_neg (show ¬ max < bytes.length by omega), pure]
  | names max =>
    cases a <;> first | exact h.elim | exact absurd rfl (he _) | skip
    rename_i l
    rw [room max (.inr (.inr rfl))]
    obtain ⟨ns, oks, w, bytes, e1, e2, e3, e4, e5⟩ := names_reply (os := os) h.1 h.2
    refine ⟨.ok (.listxattrNames bytes), ?_, rfl, ?_, ?_⟩
    · simp only [Ans.reply, e1, e2, e3, bind, Except.bind, pure, Except.pure]
    · show 16 + bytes.length < _; omega
    · show Kind.read (.names max) bytes = _
      simp only [Kind.read, e5, if_neg (show ¬ max < bytes.length by omega), Option.map_some]
  | entry =>
    have len (x) : (entryBytes m x).length = 128 := by
      rw [entryBytes_length]; unfold entryOutSize; rw [if_neg (by omega)]
    cases a <;> first | exact h.elim | exact absurd rfl (he _) | skip
    · rename_i f
      refine ⟨_, rfl, rfl, ?_, ?_⟩
      · show 16 + (entryBytes m _).length < _
        rw [len]; decide
      · show Kind.read .entry (entryBytes m f.entry.raw) = _
        have h0 : u64At (entryBytes m f.entry.raw) 0 ≠ 0 := by
          have := (client_entry m f.entry.raw []).1
          rw [List.append_nil] at this
          rw [this]
          exact fun e => f.info.node.2 (UInt64.toNat_inj.mp e)
        have hf := read_found h m hm []
        rw [List.append_nil] at hf
        simp only [Kind.read, len, hf, if_neg h0, ne_eq, not_true_eq_false, if_false, Option.map_some]
    · rename_i d
      refine ⟨_, rfl, rfl, ?_, ?_⟩
      · show 16 + (entryBytes m _).length < _
        rw [len]; decide
      · show Kind.read .entry (entryBytes m { entry_valid := (splitDuration d).1, entry_valid_nsec := (splitDuration d).2 }) = _
        obtain ⟨h1, -, h3, -, h5, -, -⟩ :=
          client_entry m { entry_valid := (splitDuration d).1, entry_valid_nsec := (splitDuration d).2 } []
        rw [List.append_nil] at h1 h3 h5
        have h1 : u64At (entryBytes m { entry_valid := (splitDuration d).1, entry_valid_nsec := (splitDuration d).2 }) 0 = 0 := h1
        simp only [Kind.read, len, h1, h3, h5, read_duration h, ne_eq, not_true_eq_false, if_false, if_true, Option.map_some]
  | attr =>
    cases a <;> first | exact h.elim | exact absurd rfl (he _) | skip
    rename_i i d
    obtain ⟨h1, h2, h3, h4⟩ := C19_attr m ⟨(splitDuration d).1, (splitDuration d).2, 0, i.attr.raw⟩
    have h1 : ((FuseReply.attr ⟨(splitDuration d).1, (splitDuration d).2, 0, i.attr.raw⟩).payload m).length = 104 := by
      rw [h1]; unfold attrOutSize; rw [if_neg (by omega)]
    refine ⟨_, rfl, rfl, ?_, ?_⟩
    · show 16 + ((FuseReply.attr ⟨(splitDuration d).1, (splitDuration d).2, 0, i.attr.raw⟩).payload m).length < _
      rw [h1]; decide
    · show Kind.read .attr ((FuseReply.attr ⟨(splitDuration d).1, (splitDuration d).2, 0, i.attr.raw⟩).payload m) = _
      simp only [Kind.read, h1, read_info i _ 16 m hm h4, h2, h3, read_duration h, ne_eq, not_true_eq_false, if_false, bind,
        Option.bind, pure]
  | created =>
    cases a <;> first | exact h.elim | exact absurd rfl (he _) | skip
    rename_i f fh flags
    obtain ⟨h1, -, -, -, -, -, -, -, h2, h3⟩ := C19_create m ⟨f.entry, { fh := fh, open_flags := flags }⟩
    have hz : entryOutSize m = 128 := by unfold entryOutSize; rw [if_neg (by omega)]
    rw [hz] at h1 h2 h3
    refine ⟨_, rfl, rfl, ?_, ?_⟩
    · show 16 + ((FuseReply.create ⟨f.entry, { fh := fh, open_flags := flags }⟩).payload m).length < _
      rw [h1]; decide
    · show Kind.read .created ((FuseReply.create ⟨f.entry, { fh := fh, open_flags := flags }⟩).payload m) = _
      have hf := read_found h m hm (le64 fh ++ le32 flags ++ le32 0)
      have hf : readFound ((FuseReply.create ⟨f.entry, { fh := fh, open_flags := flags }⟩).payload m) 0 = some f := hf
      simp only [Kind.read, h1, h2, h3, hf, ne_eq, not_true_eq_false, if_false, Option.map_some, UInt64.ofNat_toNat,
        UInt32.ofNat_toNat]
  | space =>
    cases a <;> first | exact h.elim | exact absurd rfl (he _) | skip
    rename_i a
    obtain ⟨h1, h2, h3, h4, h5, h6, h7, h8, h9⟩ := C19_statfs m
      { st := { blocks := a.blocks, bfree := a.bfree, bavail := a.bavail, files := a.files,
                ffree := a.ffree, bsize := a.bsize, namelen := a.namelen, frsize := a.frsize } }
    have h9 := h9 (by omega)
    rw [show statfsOutSize m = 80 by unfold statfsOutSize; rw [if_neg (by omega)]] at h1
    refine ⟨_, rfl, rfl, ?_, ?_⟩
    · show 16 + ((FuseReply.statfs _).payload m).length < _
      rw [h1]; decide
    · show Kind.read .space ((FuseReply.statfs _).payload m) = _
      simp only [Kind.read, h1, h2, h3, h4, h5, h6, h7, h8, h9, ne_eq, not_true_eq_false, if_false, UInt64.ofNat_toNat,
        UInt32.ofNat_toNat]
  | opened =>
    cases a <;> first | exact h.elim | exact absurd rfl (he _) | skip
    rename_i fh flags
    refine ⟨_, rfl, rfl, by simp [FuseAnswer.payload, FuseReply.payload], ?_⟩
    have h1 : u64At (le64 fh ++ le32 flags ++ le32 0) 0 = fh.toNat := by read_at
    have h2 : u32At (le64 fh ++ le32 flags ++ le32 0) 8 = flags.toNat := by read_at
    have hl : (le64 fh ++ le32 flags ++ le32 0).length = 16 := by simp
    show Kind.read .opened (le64 fh ++ le32 flags ++ le32 0) = _
    simp only [Kind.read, h1, h2, hl, ne_eq, not_true_eq_false, if_false, UInt64.ofNat_toNat, UInt32.ofNat_toNat]
  | written =>
    cases a <;> first | exact h.elim | exact absurd rfl (he _) | skip
    rename_i n
    refine ⟨_, rfl, rfl, by simp [FuseAnswer.payload, FuseReply.payload], ?_⟩
    have h1 : u32At (le32 n ++ le32 0) 0 = n.toNat := by read_at
    have hl : (le32 n ++ le32 0).length = 8 := by simp
    show Kind.read .written (le32 n ++ le32 0) = _
    simp only [Kind.read, h1, hl, ne_eq, not_true_eq_false, if_false, UInt32.ofNat_toNat]
  | size =>
    cases a <;> first | exact h.elim | exact absurd rfl (he _) | skip
    rename_i n
    refine ⟨_, rfl, rfl, by simp [FuseAnswer.payload, FuseReply.payload], ?_⟩
    have h1 : u32At (le32 n ++ le32 0) 0 = n.toNat := by read_at
    have hl : (le32 n ++ le32 0).length = 8 := by simp
    show Kind.read .size (le32 n ++ le32 0) = _
    simp only [Kind.read, h1, hl, ne_eq, not_true_eq_false, if_false, UInt32.ofNat_toNat]
  | lock =>
    cases a <;> first | exact h.elim | exact absurd rfl (he _) | skip
    rename_i type start end_ pid
    refine ⟨_, rfl, rfl, by simp [FuseAnswer.payload, FuseReply.payload, layout_fuse_file_lock], ?_⟩
    have h1 : u64At (le64 start ++ le64 end_ ++ le32 type ++ le32 pid) 0 = start.toNat := by read_at
    have h2 : u64At (le64 start ++ le64 end_ ++ le32 type ++ le32 pid) 8 = end_.toNat := by read_at
    have h3 : u32At (le64 start ++ le64 end_ ++ le32 type ++ le32 pid) 16 = type.toNat := by read_at
    have h4 : u32At (le64 start ++ le64 end_ ++ le32 type ++ le32 pid) 20 = pid.toNat := by read_at
    have hl : (le64 start ++ le64 end_ ++ le32 type ++ le32 pid).length = 24 := by simp
    show Kind.read .lock (le64 start ++ le64 end_ ++ le32 type ++ le32 pid) = _
    simp only [Kind.read, h1, h2, h3, h4, hl, ne_eq, not_true_eq_false, if_false, UInt64.ofNat_toNat, UInt32.ofNat_toNat]
  | position =>
    cases a <;> first | exact h.elim | exact absurd rfl (he _) | skip
    rename_i n
    refine ⟨_, rfl, rfl, by simp [FuseAnswer.payload, FuseReply.payload], ?_⟩
    have h1 : u64At (le64 n) 0 = n.toNat := by read_at
    have hl : (le64 n).length = 8 := by simp
    show Kind.read .position (le64 n) = _
    simp only [Kind.read, h1, hl, ne_eq, not_true_eq_false, if_false, UInt64.ofNat_toNat]
  | polled =>
    cases a <;> first | exact h.elim | exact absurd rfl (he _) | skip
    rename_i n
    refine ⟨_, rfl, rfl, by simp [FuseAnswer.payload, FuseReply.payload], ?_⟩
    have h1 : u32At (le32 n ++ le32 0) 0 = n.toNat := by read_at
    have hl : (le32 n ++ le32 0).length = 8 := by simp
    show Kind.read .polled (le32 n ++ le32 0) = _
    simp only [Kind.read, h1, hl, ne_eq, not_true_eq_false, if_false, UInt32.ofNat_toNat]
  | block =>
    cases a <;> first | exact h.elim | exact absurd rfl (he _) | skip
    rename_i n
    refine ⟨_, rfl, rfl, by simp [FuseAnswer.payload, FuseReply.payload], ?_⟩
    have h1 : u64At (le64 n) 0 = n.toNat := by read_at
    have hl : (le64 n).length = 8 := by simp
    show Kind.read .block (le64 n) = _
    simp only [Kind.read, h1, hl, ne_eq, not_true_eq_false, if_false, UInt64.ofNat_toNat]
  | ioctl max =>
    cases a <;> first | exact h.elim | exact absurd rfl (he _) | skip
    rename_i n out
    have h : out.length ≤ max ∧ 32 + out.length < 2 ^ 32 := h
    have hl : (le32 n.toUInt32 ++ le32 0 ++ le32 0 ++ le32 0 ++ out).length = 16 + out.length := by
      simp only [List.length_append, le32_length]
    refine ⟨_, rfl, rfl, ?_, ?_⟩
    · show 16 + (le32 n.toUInt32 ++ le32 0 ++ le32 0 ++ le32 0 ++ out).length < _
      rw [hl]; omega
    have h1 : u32At (le32 n.toUInt32 ++ le32 0 ++ le32 0 ++ le32 0 ++ out) 0 = n.toUInt32.toNat := by read_at
    have h2 : u32At (le32 n.toUInt32 ++ le32 0 ++ le32 0 ++ le32 0 ++ out) 4 = 0 := by
      have : u32At (le32 n.toUInt32 ++ le32 0 ++ le32 0 ++ le32 0 ++ out) 4 = (0 : UInt32).toNat := by read_at
      exact this
    show Kind.read (.ioctl max) (le32 n.toUInt32 ++ le32 0 ++ le32 0 ++ le32 0 ++ out) = _
    have h3 : (le32 n.toUInt32 ++ le32 0 ++ le32 0 ++ le32 0 ++ out).drop 16 = out :=
      List.drop_left' (by simp only [List.length_append, le32_length])
    generalize le32 n.toUInt32 ++ le32 0 ++ le32 0 ++ le32 0 ++ out = p at hl h1 h2 h3
    show (if p.length < 16 ∨ 16 + max < p.length ∨ u32At p 4 ≠ 0 then none
      else some (Ans.ioctl (UInt32.ofNat (u32At p 0)).toInt32 (p.drop 16))) = _
    rw [if_neg (by omega), h1, h3]
    simp

end Fuse
