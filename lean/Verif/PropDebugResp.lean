import Verif.PropDuration
import Verif.PropDebugSame
import Verif.PropDebugPretty
import Verif.PropEntry
import Verif.PropXattr

/-!
# C72: values in the `Debug` text of responses
-/

namespace Fuse

/-! ## Texts of structures and lists, whatever follows -/

/-- A structure or a list. -/
def Dbg.Closed : Dbg → Prop
  | .record _ _ | .list _ => True
  | _ => False

/-- A structure or list, and where it ends, can be read off a text that starts with it. -/
theorem closed_unique {d d' : Dbg} {r r' : Bytes} (h : d.WFU) (h' : d'.WFU) (hc : d.Closed) (hc' : d'.Closed)
    (he : d.text ++ r = d'.text ++ r') : d = d' ∧ r = r' := by
  have hw : ∀ {n : String} {ds ds' : List Dbg} {r r' : Bytes}, (Dbg.record n ds).WFU →
      (Dbg.record n ds).text ++ r = (Dbg.list ds').text ++ r' → False := by
    intro n ds ds' r r' h he
    obtain ⟨h1, h2⟩ := isIdent_word h.1
    cases hn : text n with
    | nil => exact h1 hn
    | cons c t =>
      rw [hn, List.all_cons, Bool.and_eq_true] at h2
      simp only [Dbg.text, hn, List.cons_append] at he
      have := (List.cons.inj (he.trans (rfl : _ = (0x5B : UInt8) :: _))).1
      rw [this] at h2
      exact absurd h2.1 (by decide)
  cases d with
  | record n ds =>
    cases d' with
    | record n' ds' =>
      obtain ⟨rfl, rfl, rfl⟩ := record_unique h h' he
      exact ⟨rfl, rfl⟩
    | list ds' => exact (hw h he).elim
    | _ => exact hc'.elim
  | list ds =>
    cases d' with
    | record n' ds' => exact (hw h' he.symm).elim
    | list ds' =>
      have he : 0x5B :: (Dbg.textItems ds ++ [0x5D] ++ r) = 0x5B :: (Dbg.textItems ds' ++ [0x5D] ++ r') := he
      rw [List.cons.injEq, List.append_assoc, List.append_assoc] at he
      obtain ⟨rfl, h5⟩ := items_unique ds ds' _ _ h h' closes_bracket closes_bracket he.2
      exact ⟨rfl, (List.cons.inj h5).2⟩
    | _ => exact hc'.elim
  | _ => exact hc.elim

/-- The same for the indented text. -/
theorem pretty_closed_unique {n : Nat} {d d' : Dbg} {r r' : Bytes} (h : d.WFU) (h' : d'.WFU) (ht : d.Tidy) (ht' : d'.Tidy)
    (hc : d.Closed) (hc' : d'.Closed) (he : d.pretty n ++ r = d'.pretty n ++ r') : d = d' ∧ r = r' := by
  have hl : ∀ ds, ∃ t, (Dbg.list ds).pretty n = 0x5B :: t := by
    intro ds
    simp only [Dbg.pretty]
    split
    · exact ⟨_, rfl⟩
    · exact ⟨_, rfl⟩
  have hw : ∀ {m : String} {ds ds' : List Dbg} {r r' : Bytes}, (Dbg.record m ds).WFU →
      (Dbg.record m ds).pretty n ++ r = (Dbg.list ds').pretty n ++ r' → False := by
    intro m ds ds' r r' h he
    obtain ⟨h1, h2⟩ := isIdent_word h.1
    obtain ⟨t', ht'⟩ := hl ds'
    cases hn : text m with
    | nil => exact h1 hn
    | cons c t =>
      rw [hn, List.all_cons, Bool.and_eq_true] at h2
      rw [ht'] at he
      simp only [Dbg.pretty, hn, List.cons_append] at he
      rw [(List.cons.inj he).1] at h2
      exact absurd h2.1 (by decide)
  cases d with
  | record m ds =>
    cases d' with
    | record m' ds' =>
      obtain ⟨rfl, rfl, rfl⟩ := pretty_record_unique h h' ht ht' he
      exact ⟨rfl, rfl⟩
    | list ds' => exact (hw h he).elim
    | _ => exact hc'.elim
  | list ds =>
    cases d' with
    | record m' ds' => exact (hw h' he.symm).elim
    | list ds' =>
      cases ds with
      | nil =>
        cases ds' with
        | nil => exact ⟨rfl, (List.cons.inj (List.cons.inj he).2).2⟩
        | cons x xs => exact absurd (List.cons.inj (List.cons.inj he).2).1 (by decide)
      | cons y ys =>
        cases ds' with
        | nil => exact absurd (List.cons.inj (List.cons.inj he).2).1 (by decide)
        | cons x xs =>
          have he : 0x5B :: 0x0A :: (Dbg.prettyItems (n + 4) (y :: ys) ++ indent n ++ [0x5D] ++ r) =
              0x5B :: 0x0A :: (Dbg.prettyItems (n + 4) (x :: xs) ++ indent n ++ [0x5D] ++ r') := he
          simp only [List.cons.injEq, true_and, List.append_assoc, List.singleton_append] at he
          obtain ⟨h4, h5⟩ := entries_unique 0x5D (by decide) n _ _ _ _ h h' ht ht' he
          exact ⟨by rw [h4], h5⟩
    | _ => exact hc'.elim
  | _ => exact hc.elim

/-! ## Values -/

namespace Dbg

theorem i64_inj {a b : Int64} : i64 a = i64 b ↔ a = b :=
  ⟨fun h => showInt64_inj (Dbg.atom.inj h), fun h => by rw [h]⟩

theorem i32_inj {a b : Int32} : i32 a = i32 b ↔ a = b := by
  refine ⟨fun h => ?_, fun h => by rw [h]⟩
  have := congrArg Int64.toInt (i64_inj.1 h)
  rw [Int32.toInt_toInt64, Int32.toInt_toInt64] at this
  exact Int32.toInt_inj.1 this

theorem u16_inj {a b : UInt16} : u16 a = u16 b ↔ a = b := nat_inj.trans UInt16.toNat_inj
theorem errno_inj {a b : { n : Int32 // n ≠ 0 }} : errno a = errno b ↔ a = b := i32_inj.trans Subtype.ext_iff.symm
theorem duration_inj {a b : Duration} : duration a = duration b ↔ a = b :=
  ⟨fun h => Fuse.duration_inj (Dbg.atom.inj h), fun h => by rw [h]⟩

theorem fileType_inj {a b : FileType} : fileType a = fileType b ↔ a = b := by
  refine ⟨fun h => ?_, fun h => by rw [h]⟩
  have h := Dbg.atom.inj h
  revert h
  cases a <;> cases b <;> decide

theorem ioctlSlice_inj {a b : IoctlSlice} : ioctlSlice a = ioctlSlice b ↔ a = b := by
  refine ⟨fun h => ?_, fun h => by rw [h]⟩
  obtain ⟨h1, h2⟩ := fields2 h
  cases a; cases b
  rw [IoctlSlice.mk.injEq]
  exact ⟨hex64_inj.1 h1, u64_inj.1 h2⟩

theorem ioctlRetry_inj {a b : IoctlRetry} : ioctlRetry a = ioctlRetry b ↔ a = b := by
  refine ⟨fun h => ?_, fun h => by rw [h]⟩
  obtain ⟨h1, h2⟩ := fields2 h
  cases a; cases b
  rw [IoctlRetry.mk.injEq]
  exact ⟨(map_inj ioctlSlice_inj).1 (Dbg.list.inj h1), (map_inj ioctlSlice_inj).1 (Dbg.list.inj h2)⟩

theorem wf_i64 (n : Int64) : (i64 n).WF := by
  show isWord (showInt64 n) = true
  unfold showInt64
  split
  · exact isWord_append (a := [45]) (by decide) (showNat_all (by decide) (by decide) _)
  · exact isWord_showNat _

theorem wf_fileType (t : FileType) : (fileType t).WF := by
  show isWord _ = true
  cases t <;> decide

end Dbg

theorem fracDigits_word (k f : Nat) (h : f < 10 ^ k) : (fracDigits k f).all isWordU = true :=
  wide_of_word (List.all_eq_true.2 fun c hc => digit_word (isDigit_iff.1 ((fracDigits_read k 0 f h).1 c hc)))

theorem fmtDecimal_wide (int frac k : Nat) (unit : Bytes) (h : frac < 10 ^ k) (hu : unit.all isWordU = true) :
    isWide (fmtDecimal int frac k unit) = true := by
  have h1 := isWord_showNat int
  simp only [isWord, isWide, Bool.and_eq_true, Bool.not_eq_true', List.isEmpty_eq_false_iff] at h1 ⊢
  refine ⟨by unfold fmtDecimal; simp [h1.1], ?_⟩
  unfold fmtDecimal
  rw [List.all_append, List.all_append, wide_of_word h1.2, hu, Bool.true_and, Bool.and_true]
  split
  · rfl
  · rw [List.all_cons, fracDigits_word k frac h]; decide

theorem Dbg.wfu_duration (d : Duration) : (Dbg.duration d).WFU := by
  have hlt : d.nanos.toNat < 1000000000 := UInt32.lt_iff_toNat_lt.1 d.lt
  show isWide d.debug = true
  unfold Duration.debug
  dsimp only
  split
  · exact fmtDecimal_wide _ _ _ _ (by omega) (by decide)
  · split
    · exact fmtDecimal_wide _ _ _ _ (by omega) (by decide)
    · split
      · exact fmtDecimal_wide _ _ _ _ (by omega) (by decide)
      · exact fmtDecimal_wide _ _ _ _ (by omega) (by decide)

/-- The text is that of one value, in both forms. -/
def Dbg.Fine (d : Dbg) : Prop := d.WFU ∧ d.Tidy

/-- The same for the fields of a structure. -/
def Dbg.FieldsFine : List Dbg → Prop
  | [] => True
  | .field l d :: ds => isIdent l = true ∧ d.Fine ∧ Dbg.FieldsFine ds
  | _ :: _ => False

namespace Dbg

theorem fieldsFine : ∀ {ds : List Dbg}, FieldsFine ds → AllWFU ds ∧ FieldsTidy ds
  | [], _ => ⟨trivial, trivial⟩
  | .field _ _ :: _, h => ⟨⟨⟨h.1, h.2.1.1⟩, (fieldsFine h.2.2).1⟩, ⟨h.2.1.2, (fieldsFine h.2.2).2⟩⟩

theorem fine_record {n : String} {ds : List Dbg} (h : isIdent n = true) (hs : isSetName n = false)
    (hf : FieldsFine ds) : (Dbg.record n ds).Fine :=
  ⟨⟨h, (fieldsFine hf).1⟩, ⟨hs, (fieldsFine hf).2⟩⟩

theorem fine_list {ds : List Dbg} (h : ∀ d ∈ ds, d.Fine) : (Dbg.list ds).Fine := by
  show AllWFU ds ∧ AllTidy ds
  induction ds with
  | nil => exact ⟨trivial, trivial⟩
  | cons d ds ih =>
    have h1 := h d List.mem_cons_self
    have h2 := ih fun x hx => h x (List.mem_cons_of_mem _ hx)
    exact ⟨⟨h1.1, h2.1⟩, ⟨h1.2, h2.2⟩⟩

theorem fine_option {α} {f : α → Dbg} (h : ∀ a, (f a).Fine) (o : Option α) : (option f o).Fine := by
  cases o with
  | none => exact ⟨(by decide : isWide _ = true), trivial⟩
  | some a => exact ⟨⟨by decide, (h a).1, trivial⟩, ⟨(h a).2, trivial⟩⟩

theorem fine_u32 (n : UInt32) : (u32 n).Fine := ⟨(wf_u32 n).wide, trivial⟩
theorem fine_u64 (n : UInt64) : (u64 n).Fine := ⟨(wf_u64 n).wide, trivial⟩
theorem fine_u16 (n : UInt16) : (u16 n).Fine := ⟨(wf_nat _).wide, trivial⟩
theorem fine_id (n : NonZeroU64) : (id n).Fine := ⟨(wf_id n).wide, trivial⟩
theorem fine_pid (n : { n : UInt32 // n ≠ 0 }) : (pid n).Fine := ⟨(wf_pid n).wide, trivial⟩
theorem fine_i64 (n : Int64) : (i64 n).Fine := ⟨(wf_i64 n).wide, trivial⟩
theorem fine_i32 (n : Int32) : (i32 n).Fine := fine_i64 _
theorem fine_errno (n : { n : Int32 // n ≠ 0 }) : (errno n).Fine := fine_i32 _
theorem fine_hex64 (n : UInt64) : (hex64 n).Fine := ⟨(wf_hex64 n).wide, trivial⟩
theorem fine_mode (m : FileMode) : (mode m).Fine := ⟨(wf_mode m).wide, trivial⟩
theorem fine_time (t : UnixTime) : (time t).Fine := ⟨(wf_time t).wide, tidy_time t⟩
theorem fine_duration (d : Duration) : (duration d).Fine := ⟨wfu_duration d, trivial⟩
theorem fine_name (n : NodeName) : (name n).Fine := ⟨trivial, trivial⟩
theorem fine_cstr (n : CStr) : (cstr n).Fine := ⟨trivial, trivial⟩
theorem fine_deviceName (n : CuseDeviceName) : (deviceName n).Fine := ⟨trivial, trivial⟩
theorem fine_fileType (t : FileType) : (fileType t).Fine := ⟨(wf_fileType t).wide, trivial⟩
theorem fine_flags32 (t : FlagType) (n : UInt32) : (flags32 t n).Fine := ⟨(wf_flags32 t n).wide, tidy_flags32 t n⟩
theorem fine_flags64 (t : FlagType) (n : UInt64) : (flags64 t n).Fine := ⟨(wf_flags64 t n).wide, tidy_flags64 t n⟩
theorem fine_byteList (v : Bytes) : (byteList v).Fine := ⟨(wf_byteList v).wide, tidy_byteList v⟩
theorem fine_version (v : Version) : (version v).Fine := ⟨(wf_version v).wide, tidy_version v⟩

/-- Closes `Fine` of a structure once its fields are known to be. -/
macro "fine_fields" : tactic => `(tactic| (
  apply fine_record (by decide) (by decide +kernel)
  simp only [FieldsFine, fine_u32, fine_u64, fine_u16, fine_id, fine_pid, fine_i64, fine_i32, fine_hex64, fine_mode,
    fine_time, fine_duration, fine_name, fine_cstr, fine_deviceName, fine_flags32, fine_flags64, fine_byteList,
    fine_version, fine_option fine_id, fine_option fine_errno, fine_option fine_fileType, and_true, true_and, *]
  decide +kernel))

theorem fine_deviceNumber (n : CuseDeviceNumber) : (deviceNumber n).Fine := by unfold deviceNumber; fine_fields
theorem fine_ioctlSlice (s : IoctlSlice) : (ioctlSlice s).Fine := by unfold ioctlSlice; fine_fields

theorem fine_map {α} {f : α → Dbg} (h : ∀ a, (f a).Fine) (l : List α) : (Dbg.list (l.map f)).Fine :=
  fine_list fun d hd => by obtain ⟨a, -, rfl⟩ := List.mem_map.1 hd; exact h a

theorem fine_ioctlRetry (r : IoctlRetry) : (ioctlRetry r).Fine := by
  have := fine_map fine_ioctlSlice r.input
  have := fine_map fine_ioctlSlice r.output
  unfold ioctlRetry
  fine_fields

end Dbg

/-! ## Values made through the library's interface -/

/-- Times are only made with valid nanoseconds, fuse/unix_time.rs:43-57. -/
def AttrOp.Valid : AttrOp → Prop
  | .atime t | .mtime t | .ctime t => t.nanos ≤ MAX_NANOS
  | _ => True

/-- Attributes a server can make, fuse/node_attr.rs:33-40 and 83-274. -/
inductive NodeAttr.Built : NodeAttr → Prop
  | new (id : NodeId) : Built (.new id)
  | call {a : NodeAttr} (op : AttrOp) (h : Built a) (hv : op.Valid) : Built (op.run a)

/-- The same for mutators of entries. -/
def EntryOp.Valid : EntryOp → Prop
  | .attributes op => op.Valid
  | _ => True

/-- Entries a server can make, fuse/entry.rs:37-45 and 70-118, as long as it never gives one the attributes of
another node. -/
inductive Entry.Built : Entry → Prop
  | new {a : NodeAttr} (h : a.Built) : Built (.new a)
  | call {e : Entry} (op : EntryOp) (h : Built e) (hv : op.Valid) : Built (op.run e)
  | assign {e : Entry} {a : NodeAttr} (h : Built e) (ha : a.Built) (hi : a.nodeId = e.attributes.nodeId) :
      Built (e.use (.assign a))

/-- Responses to CREATE a server can make, fuse/operations/create.rs:123-171. -/
inductive CreateResponse.Built : CreateResponse → Prop
  | new {e : Entry} (h : e.Built) : Built (.new e)
  | handle {r : CreateResponse} (x : UInt64) (h : Built r) : Built (r.setHandle x)
  | flags {r : CreateResponse} (x : UInt32) (h : Built r) : Built (r.setFlags x)
  | entry {r : CreateResponse} (e : Entry) (h : Built r) (he : e.Built) : Built (r.call (.entry fun _ => e))

/-- Responses to INIT a server can make, fuse/operations/fuse_init.rs:131-211. -/
inductive FuseInitResponse.Built : FuseInitResponse → Prop
  | new : Built {}
  | version {r : FuseInitResponse} (x : Version) (h : Built r) : Built (r.setVersion x)
  | flags {r : FuseInitResponse} (x : UInt64) (h : Built r) : Built (r.setFlags x)
  | maxReadahead {r : FuseInitResponse} (x : UInt32) (h : Built r) : Built (r.setMaxReadahead x)
  | maxBackground {r : FuseInitResponse} (x : UInt16) (h : Built r) : Built (r.setMaxBackground x)
  | congestionThreshold {r : FuseInitResponse} (x : UInt16) (h : Built r) : Built (r.setCongestionThreshold x)
  | maxWrite {r : FuseInitResponse} (x : UInt32) (h : Built r) : Built (r.setMaxWrite x)
  | timeGranularity {r : FuseInitResponse} (x : UInt32) (h : Built r) : Built (r.setTimeGranularity x)

/-- Responses to CUSE_INIT a server can make, fuse/operations/cuse_init.rs:81-153. -/
inductive CuseInitResponse.Built : CuseInitResponse → Prop
  | new (n : CuseDeviceName) : Built (.new n)
  | nameless : Built .newNameless
  | version {r : CuseInitResponse} (x : Version) (h : Built r) : Built (r.setVersion x)
  | flags {r : CuseInitResponse} (x : UInt32) (h : Built r) : Built (r.setFlags x)
  | maxRead {r : CuseInitResponse} (x : UInt32) (h : Built r) : Built (r.setMaxRead x)
  | maxWrite {r : CuseInitResponse} (x : UInt32) (h : Built r) : Built (r.setMaxWrite x)
  | deviceNumber {r : CuseInitResponse} (x : CuseDeviceNumber) (h : Built r) : Built (r.setDeviceNumber x)

/-- Responses to IOCTL a server can make, fuse/operations/ioctl.rs:296-331, and whether `set_result` was called. -/
inductive IoctlResponse.Built : IoctlResponse → Bool → Prop
  | new (output : Bytes) : Built (.new output) false
  | retry (r : IoctlRetry) : Built (.newRetry r) false
  | result {x : IoctlResponse} {b : Bool} (v : Int32) (h : Built x b) : Built (x.setResult v) true

/-! ### Attributes and entries -/

theorem zero_nanos : (0 : UInt32) ≤ MAX_NANOS := by decide
theorem zero_secs : (0 : UInt64) ≤ I64_MAX := by decide

/-- What the accessors rely on. -/
structure NodeAttr.Sound (a : NodeAttr) : Prop where
  ino : a.raw.ino ≠ 0
  atime : a.raw.atimensec ≤ MAX_NANOS
  mtime : a.raw.mtimensec ≤ MAX_NANOS
  ctime : a.raw.ctimensec ≤ MAX_NANOS

theorem NodeAttr.Sound.run {a : NodeAttr} {op : AttrOp} (h : a.Sound) (hv : op.Valid) : (op.run a).Sound := by
  obtain ⟨h1, h2, h3, h4⟩ := h
  cases op <;> first | exact ⟨h1, h2, h3, h4⟩ | exact ⟨h1, hv, h3, h4⟩ | exact ⟨h1, h2, hv, h4⟩ | exact ⟨h1, h2, h3, hv⟩

theorem NodeAttr.Built.sound {a : NodeAttr} (h : a.Built) : a.Sound := by
  induction h with
  | new id => exact ⟨id.property, zero_nanos, zero_nanos, zero_nanos⟩
  | call op _ hv ih => exact ih.run hv

theorem NodeAttr.Sound.debug_ok {a : NodeAttr} (h : a.Sound) : ∃ d, a.debug = .ok d := by
  obtain ⟨h1, h2, h3, h4⟩ := h
  have e1 : a.nodeId = .ok ⟨a.raw.ino, h1⟩ := nodeId_ino.2 rfl
  unfold NodeAttr.debug NodeAttr.atime NodeAttr.mtime NodeAttr.ctime UnixTime.fromTimespecUnchecked
  rw [e1, if_pos h2, if_pos h3, if_pos h4]
  exact ⟨_, rfl⟩

theorem timespec_inj {s s' : UInt64} {n n' : UInt32} {t : UnixTime}
    (h : UnixTime.fromTimespecUnchecked s n = .ok t) (h' : UnixTime.fromTimespecUnchecked s' n' = .ok t) :
    s = s' ∧ n = n' := by
  unfold UnixTime.fromTimespecUnchecked at h h'
  split at h
  · split at h'
    · rw [← Except.ok.inj h', Except.ok.injEq, UnixTime.mk.injEq] at h
      refine ⟨?_, h.2⟩
      have := congrArg Int64.toUInt64 h.1
      simpa using this
    · cases h'
  · cases h

theorem NodeAttr.debug_inj {a b : NodeAttr} {d : Dbg} (h : a.debug = .ok d) (h' : b.debug = .ok d) : a = b := by
  unfold NodeAttr.debug at h h'
  obtain ⟨i, h1, h⟩ := bind_ok_elim h
  obtain ⟨t1, h2, h⟩ := bind_ok_elim h
  obtain ⟨t2, h3, h⟩ := bind_ok_elim h
  obtain ⟨t3, h4, h⟩ := bind_ok_elim h
  obtain ⟨i', h1', h'⟩ := bind_ok_elim h'
  obtain ⟨t1', h2', h'⟩ := bind_ok_elim h'
  obtain ⟨t2', h3', h'⟩ := bind_ok_elim h'
  obtain ⟨t3', h4', h'⟩ := bind_ok_elim h'
  have he := (pure_ok_elim h).trans (pure_ok_elim h').symm
  simp only [Dbg.record.injEq, List.cons.injEq, Dbg.field.injEq, true_and, and_true, Dbg.id_inj, Dbg.mode_inj, Dbg.u64_inj,
    Dbg.time_inj, Dbg.u32_inj, Dbg.flags32_inj (t := .attribute) rfl] at he
  obtain ⟨rfl, m, s, rfl, rfl, rfl, l, u, g, r, bc, bs, fl⟩ := he
  have i1 := (nodeId_ino.1 h1).trans (nodeId_ino.1 h1').symm
  have i2 := timespec_inj h2 h2'
  have i3 := timespec_inj h3 h3'
  have i4 := timespec_inj h4 h4'
  have m := (FileMode.mk.inj m)
  clear h h' h1 h1' h2 h2' h3 h3' h4 h4'
  obtain ⟨⟨⟩⟩ := a
  obtain ⟨⟨⟩⟩ := b
  simp only [NodeAttr.mk.injEq, FuseAttr.mk.injEq]
  exact ⟨i1, s, bc, i2.1, i3.1, i4.1, i2.2, i3.2, i4.2, m, l, u, g, r, bs, fl⟩

theorem NodeAttr.debug_fine {a : NodeAttr} {d : Dbg} (h : a.debug = .ok d) : d.Fine := by
  unfold NodeAttr.debug at h
  obtain ⟨i, h1, h⟩ := bind_ok_elim h
  obtain ⟨t1, h2, h⟩ := bind_ok_elim h
  obtain ⟨t2, h3, h⟩ := bind_ok_elim h
  obtain ⟨t3, h4, h⟩ := bind_ok_elim h
  rw [← pure_ok_elim h]
  open Dbg in fine_fields

/-- What the text of an entry relies on. -/
structure Entry.Sound (e : Entry) : Prop where
  attr : e.attributes.Sound
  ino : e.raw.nodeid = e.raw.attr.ino
  entrySecs : e.raw.entry_valid ≤ I64_MAX
  entryNanos : e.raw.entry_valid_nsec ≤ MAX_NANOS
  attrSecs : e.raw.attr_valid ≤ I64_MAX
  attrNanos : e.raw.attr_valid_nsec ≤ MAX_NANOS

theorem splitDuration_le (d : Duration) : (splitDuration d).1 ≤ I64_MAX ∧ (splitDuration d).2 ≤ MAX_NANOS := by
  unfold splitDuration
  split
  · refine ⟨by assumption, ?_⟩
    have := UInt32.lt_iff_toNat_lt.1 d.lt
    rw [UInt32.le_iff_toNat_le]
    show d.nanos.toNat ≤ 999999999
    have : (1000000000 : UInt32).toNat = 1000000000 := rfl
    omega
  · exact ⟨by decide, by decide⟩

theorem Entry.Built.sound {e : Entry} (h : e.Built) : e.Sound := by
  induction h with
  | new ha => exact ⟨ha.sound, rfl, zero_secs, zero_nanos, zero_secs, zero_nanos⟩
  | call op _ hv ih =>
    obtain ⟨h1, h2, h3, h4, h5, h6⟩ := ih
    cases op with
    | generation g => exact ⟨h1, h2, h3, h4, h5, h6⟩
    | attributes op => exact ⟨h1.run hv, h2.trans (entryOp_ids _ (.attributes op)).2.symm, h3, h4, h5, h6⟩
    | cacheTimeout d => exact ⟨h1, h2, (splitDuration_le d).1, (splitDuration_le d).2, h5, h6⟩
    | attributeCacheTimeout d => exact ⟨h1, h2, h3, h4, (splitDuration_le d).1, (splitDuration_le d).2⟩
  | @assign e a _ ha hi ih =>
    obtain ⟨h1, h2, h3, h4, h5, h6⟩ := ih
    have : e.attributes.nodeId = .ok ⟨e.raw.attr.ino, h1.ino⟩ := nodeId_ino.2 rfl
    exact ⟨ha.sound, h2.trans (nodeId_ino.1 (hi.trans this)).symm, h3, h4, h5, h6⟩

theorem newDuration_inj {s s' : UInt64} {n n' : UInt32} (h : newDuration s n = newDuration s' n') (h1 : s ≤ I64_MAX)
    (h2 : n ≤ MAX_NANOS) (h3 : s' ≤ I64_MAX) (h4 : n' ≤ MAX_NANOS) : s = s' ∧ n = n' := by
  have e1 : (if s ≤ I64_MAX then s else I64_MAX) = if s' ≤ I64_MAX then s' else I64_MAX := congrArg Duration.secs h
  have e2 : (if n ≤ MAX_NANOS then n else MAX_NANOS) = if n' ≤ MAX_NANOS then n' else MAX_NANOS :=
    congrArg Duration.nanos h
  rw [if_pos h1, if_pos h3] at e1
  rw [if_pos h2, if_pos h4] at e2
  exact ⟨e1, e2⟩

theorem Entry.Sound.debug_ok {e : Entry} (h : e.Sound) : ∃ d, e.debug = .ok d := by
  obtain ⟨d, hd⟩ := h.attr.debug_ok
  unfold Entry.debug
  rw [hd]
  exact ⟨_, rfl⟩

theorem Entry.debug_fine {e : Entry} {d : Dbg} (h : e.debug = .ok d) : d.Fine := by
  unfold Entry.debug at h
  obtain ⟨da, h1, h⟩ := bind_ok_elim h
  have := NodeAttr.debug_fine h1
  rw [← pure_ok_elim h]
  open Dbg in fine_fields

theorem Entry.debug_inj {e e' : Entry} {d : Dbg} (hs : e.Sound) (hs' : e'.Sound) (h : e.debug = .ok d)
    (h' : e'.debug = .ok d) : e = e' := by
  unfold Entry.debug at h h'
  obtain ⟨da, h1, h⟩ := bind_ok_elim h
  obtain ⟨da', h1', h'⟩ := bind_ok_elim h'
  obtain ⟨g, rfl, c, t⟩ := fields4 ((pure_ok_elim h).trans (pure_ok_elim h').symm)
  have ha := congrArg NodeAttr.raw (NodeAttr.debug_inj h1 h1')
  have g := Dbg.u64_inj.1 g
  have c := newDuration_inj (Dbg.duration_inj.1 c) hs.entrySecs hs.entryNanos hs'.entrySecs hs'.entryNanos
  have t := newDuration_inj (Dbg.duration_inj.1 t) hs.attrSecs hs.attrNanos hs'.attrSecs hs'.attrNanos
  have hi : e.raw.nodeid = e'.raw.nodeid := hs.ino.trans ((congrArg FuseAttr.ino ha).trans hs'.ino.symm)
  clear h h' h1 h1' hs hs'
  obtain ⟨⟨⟩⟩ := e
  obtain ⟨⟨⟩⟩ := e'
  simp only [Entry.mk.injEq, FuseEntryOut.mk.injEq]
  exact ⟨hi, g, c.1, t.1, c.2, t.2, ha⟩

end Fuse
