import Verif.Xattr
import Verif.PropDirent

/-!
# C30: extended attribute name lists
-/

namespace Fuse
open Spec

/-- The wire form of a list of names: each followed by a NUL (`listxattr(2)`). -/
def Spec.nameList : List CName → Bytes
  | [] => []
  | n :: ns => n.bytes ++ [0] ++ nameList ns

/-- A client splitting a list at the NULs. -/
inductive Spec.SplitsInto : Bytes → List Bytes → Prop
  | done : SplitsInto [] []
  | name {n rest ns} (h : 0 ∉ n) (hr : SplitsInto rest ns) : SplitsInto (n ++ 0 :: rest) (n :: ns)

/-- Splitting has one result. -/
theorem Spec.SplitsInto.unique {bs ns ns'} (h : SplitsInto bs ns) (h' : SplitsInto bs ns') : ns = ns' := by
  induction h generalizing ns' with
  | done =>
    generalize hb : ([] : Bytes) = b at h'
    cases h' with
    | done => rfl
    | name h hr => simp at hb
  | @name n rest ns h hr ih =>
    generalize hb : n ++ 0 :: rest = b at h'
    cases h' with
    | done => simp at hb
    | @name m rest' ns' h' hr' =>
      have hnm : n = m ∧ rest = rest' := by
        clear ih hr hr'
        induction n generalizing m with
        | nil =>
          cases m with
          | nil => simpa using hb
          | cons x m =>
            simp only [List.nil_append, List.cons_append, List.cons.injEq] at hb
            exact absurd hb.1 (fun e => h' (by simp [← e]))
        | cons x n ihn =>
          cases m with
          | nil =>
            simp only [List.nil_append, List.cons_append, List.cons.injEq] at hb
            exact absurd hb.1 (fun e => h (by simp [e]))
          | cons y m =>
            simp only [List.cons_append, List.cons.injEq] at hb
            have := ihn (fun e => h (by simp [e])) (fun e => h' (by simp [e])) hb.2
            exact ⟨by rw [hb.1, this.1], this.2⟩
      obtain ⟨rfl, rfl⟩ := hnm
      rw [ih hr']

theorem nameList_append (a b : List CName) : nameList (a ++ b) = nameList a ++ nameList b := by
  induction a with
  | nil => rfl
  | cons n a ih => simp [nameList, ih]

theorem splits_nameList (ns : List CName) : SplitsInto (nameList ns) (ns.map CName.bytes) := by
  induction ns with
  | nil => exact .done
  | cons n ns ih =>
    have := SplitsInto.name n.noNul ih
    simpa [nameList] using this

theorem names_push_fits (w : NamesWriter) (n : CName) (h : w.position + (n.bytes.length + 1) ≤ w.buf.length) :
    w.tryPush n = .ok (true,
      ⟨w.buf.take w.position ++ (n.bytes ++ [0]) ++ w.buf.drop (w.position + (n.bytes.length + 1)),
        w.position + (n.bytes.length + 1)⟩) := by
  unfold NamesWriter.tryPush
  have hl : n.toBytesWithNul.length = n.bytes.length + 1 := by simp [CName.toBytesWithNul]
  simp only [hl]
  rw [if_neg (by omega), if_neg (by omega)]
  rfl

theorem names_push_full (w : NamesWriter) (n : CName) (hw : w.position ≤ w.buf.length)
    (h : w.buf.length < w.position + (n.bytes.length + 1)) : w.tryPush n = .ok (false, w) := by
  unfold NamesWriter.tryPush
  have hl : n.toBytesWithNul.length = n.bytes.length + 1 := by simp [CName.toBytesWithNul]
  simp only [hl]
  rw [if_neg (by omega), if_pos (by omega)]

theorem names_pushAll (w : NamesWriter) (ns : List CName) (hw : w.position ≤ w.buf.length) :
    ∃ oks w', w.pushAll ns = .ok (oks, w') ∧ oks.length = ns.length ∧ w'.buf.length = w.buf.length ∧
      w'.position ≤ w'.buf.length ∧
      w'.buf.take w'.position = w.buf.take w.position ++ nameList (accepted ns oks) ∧
      w'.buf.drop w'.position = w.buf.drop w'.position := by
  induction ns generalizing w with
  | nil => exact ⟨[], w, rfl, rfl, rfl, hw, by simp [accepted, nameList], rfl⟩
  | cons n ns ih =>
    by_cases hp : w.position + (n.bytes.length + 1) ≤ w.buf.length
    · have h1 := names_push_fits w n hp
      generalize hw1 : (⟨w.buf.take w.position ++ (n.bytes ++ [0]) ++ w.buf.drop (w.position + (n.bytes.length + 1)),
        w.position + (n.bytes.length + 1)⟩ : NamesWriter) = w1 at h1
      have p1 : w1.position = w.position + (n.bytes.length + 1) := by rw [← hw1]
      have l1 : w1.buf.length = w.buf.length := by
        rw [← hw1]; simp only [List.length_append, List.length_take, List.length_drop, List.length_cons, List.length_nil]; omega
      have lp : (w.buf.take w.position ++ (n.bytes ++ [0])).length = w.position + (n.bytes.length + 1) := by
        simp only [List.length_append, List.length_take, List.length_cons, List.length_nil]; omega
      have b1 : w1.buf.take w1.position = w.buf.take w.position ++ (n.bytes ++ [0]) := by
        rw [← hw1]; exact List.take_left' lp
      have d1 : w1.buf.drop w1.position = w.buf.drop w1.position := by
        rw [← hw1]; exact List.drop_left' lp
      obtain ⟨oks, w', e1, e2, e3, e4, e5, e6⟩ := ih w1 (by omega)
      refine ⟨true :: oks, w', ?_, by simp [e2], by omega, e4, ?_, ?_⟩
      · simp only [NamesWriter.pushAll, h1, e1, bind, Except.bind, pure, Except.pure]
      · rw [e5, b1]; simp [accepted, nameList]
      · have hge : w1.position ≤ w'.position := by
          have := congrArg List.length e5
          simp only [List.length_append, List.length_take] at this
          omega
        have hd := congrArg (List.drop (w'.position - w1.position)) d1
        rw [List.drop_drop, List.drop_drop, show w1.position + (w'.position - w1.position) = w'.position by omega] at hd
        rw [e6, hd]
    · have h1 := names_push_full w n hw (by omega)
      obtain ⟨oks, w', e1, e2, e3, e4, e5, e6⟩ := ih w hw
      refine ⟨false :: oks, w', ?_, by simp [e2], e3, e4, by simpa [accepted] using e5, e6⟩
      simp only [NamesWriter.pushAll, h1, e1, bind, Except.bind, pure, Except.pure]

theorem firstNul_name (n : CName) (rest : Bytes) :
    firstNul (n.bytes ++ 0 :: rest) = some n.bytes.length := by
  unfold firstNul
  rw [List.findIdx?_append]
  have : n.bytes.findIdx? (· = 0) = none := by
    rw [List.findIdx?_eq_none_iff]
    intro x hx
    have : x ≠ 0 := fun e => n.noNul (e ▸ hx)
    simpa using this
  simp [this, List.findIdx?_cons]

theorem xattrNext_name (n : CName) (rest : Bytes) :
    xattrNext (n.bytes ++ [0] ++ rest) = .ok (some (⟨n.bytes⟩, rest)) := by
  have e : n.bytes ++ [0] ++ rest = n.bytes ++ 0 :: rest := by simp
  unfold xattrNext
  rw [e, firstNul_name]
  have he : (n.bytes ++ 0 :: rest).isEmpty = false := by simp
  rw [he]
  have t : (n.bytes ++ 0 :: rest).take (n.bytes.length + 1) = n.bytes ++ [0] := by
    rw [← e]; exact List.take_left' (by simp)
  have d : (n.bytes ++ 0 :: rest).drop (n.bytes.length + 1) = rest := by
    rw [← e]; exact List.drop_left' (by simp)
  have hc : CStr.fromBytesWithNulUnchecked (n.bytes ++ [0]) = .ok ⟨n.bytes⟩ := by
    unfold CStr.fromBytesWithNulUnchecked
    rw [if_pos (by refine ⟨by simp, by simp, ?_⟩; rw [List.dropLast_concat]; exact n.noNul),
      List.dropLast_concat]
  simp only [t, d, hc, Bool.false_eq_true, ↓reduceIte, bind, Except.bind, pure, Except.pure]

theorem xattr_collects (ns : List CName) (acc : List CStr) :
    LoopReturns xattrCollectStep (nameList ns, acc) (.ok (acc ++ ns.map fun n => ⟨n.bytes⟩)) := by
  induction ns generalizing acc with
  | nil => apply LoopReturns.of_step; simp [xattrCollectStep, nameList, xattrNext]
  | cons n ns ih =>
    apply LoopReturns.of_next (a' := (nameList ns, acc ++ [⟨n.bytes⟩]))
    · unfold xattrCollectStep; rw [nameList, xattrNext_name]
    · have := ih (acc ++ [⟨n.bytes⟩])
      rwa [List.append_assoc] at this

theorem names_new_length (os : Os) (buf : Bytes) :
    (NamesWriter.new os buf).buf.length = min buf.length (os.xattrListMax.getD buf.length) ∧
      (NamesWriter.new os buf).position = 0 := by
  cases os
  · show (if buf.length > 65536 then buf.take 65536 else buf).length = min buf.length 65536 ∧ _
    refine ⟨?_, rfl⟩
    by_cases h : buf.length > 65536
    · rw [if_pos h, List.length_take]; omega
    · rw [if_neg h]; omega
  · exact ⟨by simp [NamesWriter.new, Os.xattrListMax], rfl⟩
  · exact ⟨by simp [NamesWriter.new, Os.xattrListMax], rfl⟩

/-- **C30**: whatever names are pushed to a list in whatever buffer, the bytes of the list are the
accepted names, each followed by a NUL; the library's iterator returns the accepted names in order,
and a client splitting at NULs finds them. -/
theorem C30_round_trip (os : Os) (buf : Bytes) (ns : List CName) :
    ∃ oks w bytes, (NamesWriter.new os buf).pushAll ns = .ok (oks, w) ∧ w.intoNames = .ok bytes ∧
      oks.length = ns.length ∧ bytes = nameList (accepted ns oks) ∧
      XattrCollects bytes (.ok ((accepted ns oks).map fun n => ⟨n.bytes⟩)) ∧
      SplitsInto bytes ((accepted ns oks).map CName.bytes) := by
  obtain ⟨hl, hp⟩ := names_new_length os buf
  obtain ⟨oks, w, e1, e2, e3, e4, e5, -⟩ := names_pushAll (NamesWriter.new os buf) ns (by omega)
  rw [hp, List.take_zero, List.nil_append] at e5
  refine ⟨oks, w, _, e1, ?_, e2, rfl, ?_, splits_nameList _⟩
  · unfold NamesWriter.intoNames; rw [if_pos e4, e5]
  · have := xattr_collects (accepted ns oks) []
    rwa [List.nil_append] at this

/-- **C30**, bounds: after any history of pushes the capacity is the size of the buffer, cut off at
the platform's limit (65536 on Linux), and the position is within it.  The next push is accepted if
and only if the name and its NUL fit; then it changes exactly the bytes of the name, and otherwise
nothing. -/
theorem C30_bounds (os : Os) (buf : Bytes) (ns : List CName) :
    ∃ oks w, (NamesWriter.new os buf).pushAll ns = .ok (oks, w) ∧
      w.capacity = min buf.length (os.xattrListMax.getD buf.length) ∧ w.position ≤ w.capacity ∧
      ∀ n : CName,
        (w.position + n.bytes.length + 1 ≤ w.capacity →
          w.tryPush n = .ok (true, ⟨w.buf.take w.position ++ (n.bytes ++ [0]) ++
            w.buf.drop (w.position + n.bytes.length + 1), w.position + n.bytes.length + 1⟩)) ∧
        (¬ w.position + n.bytes.length + 1 ≤ w.capacity → w.tryPush n = .ok (false, w)) := by
  obtain ⟨hl, hp⟩ := names_new_length os buf
  obtain ⟨oks, w, e1, e2, e3, e4, e5, -⟩ := names_pushAll (NamesWriter.new os buf) ns (by omega)
  refine ⟨oks, w, e1, by rw [NamesWriter.capacity, e3, hl], e4, fun n => ⟨fun h => ?_, fun h => ?_⟩⟩
  · exact names_push_fits w n h
  · exact names_push_full w n e4 (by unfold NamesWriter.capacity at h; omega)

/-- **C30**, outside of the list: the bytes of the buffer after the list are not touched. -/
theorem C30_rest (os : Os) (buf : Bytes) (ns : List CName) (oks : List Bool) (w : NamesWriter)
    (h : (NamesWriter.new os buf).pushAll ns = .ok (oks, w)) :
    w.buf.drop w.position = (NamesWriter.new os buf).buf.drop w.position := by
  obtain ⟨hl, hp⟩ := names_new_length os buf
  obtain ⟨oks', w', e1, -, -, -, -, e6⟩ := names_pushAll (NamesWriter.new os buf) ns (by omega)
  rw [h] at e1
  cases e1
  exact e6

/-! ## Concrete cases -/

/-- `user.a` and `user.bc`. -/
def exampleNames : List CName :=
  [⟨[0x75, 0x73, 0x65, 0x72, 0x2E, 0x61], by decide⟩, ⟨[0x75, 0x73, 0x65, 0x72, 0x2E, 0x62, 0x63], by decide⟩]

/-- A buffer of 14 bytes has no room for the second name. -/
example : (NamesWriter.new .linux (List.replicate 14 0xFF)).pushAll exampleNames =
    .ok ([true, false], ⟨[0x75, 0x73, 0x65, 0x72, 0x2E, 0x61, 0] ++ List.replicate 7 0xFF, 7⟩) := by decide

example : ((NamesWriter.new .linux (List.replicate 15 0xFF)).pushAll exampleNames).map (·.1) =
    .ok [true, true] := by decide

/-- The limit applies on Linux only. -/
example : (NamesWriter.new .linux (List.replicate 70000 0)).capacity = 65536 ∧
    (NamesWriter.new .freebsd (List.replicate 70000 0)).capacity = 70000 := by
  constructor
  · have := (names_new_length .linux (List.replicate 70000 0)).1
    rw [List.length_replicate] at this; exact this
  · have := (names_new_length .freebsd (List.replicate 70000 0)).1
    rw [List.length_replicate] at this; exact this

end Fuse
