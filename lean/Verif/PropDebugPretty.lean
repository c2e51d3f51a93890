import Verif.PropDebugLabel
import Verif.DebugPretty

/-!
# C70 for the indented form `{:#?}`
-/

namespace Fuse
open Spec

/-! ## Reading the indented text of a tree -/

/-- The name of a set of flags. -/
def isSetName (s : String) : Bool := (text "sgalF").isPrefixOf (text s).reverse

mutual

/-- Fields occur in structures only, and structures are not named like sets of flags. -/
def Dbg.Tidy : Dbg → Prop
  | .atom _ => True
  | .quoted _ => True
  | .field _ _ => False
  | .record name ds => isSetName name = false ∧ Dbg.FieldsTidy ds
  | .tuple _ ds => Dbg.AllTidy ds
  | .list ds => Dbg.AllTidy ds
  | .set name ds => isSetName name = true ∧ Dbg.AllTidy ds

/-- The same for entries. -/
def Dbg.AllTidy : List Dbg → Prop
  | [] => True
  | d :: ds => d.Tidy ∧ Dbg.AllTidy ds

/-- The same for the fields of a structure. -/
def Dbg.FieldsTidy : List Dbg → Prop
  | [] => True
  | .field _ d :: ds => d.Tidy ∧ Dbg.FieldsTidy ds
  | _ :: _ => False

end

/-- What follows the first word in the indented form. -/
def Dbg.prettyAfter (n : Nat) : Dbg → Bytes
  | .atom _ => []
  | .quoted v => debugBytes v
  | .field _ d => 0x3A :: 0x20 :: d.pretty n
  | .record name ds => 0x20 :: 0x7B :: 0x0A :: (Dbg.prettyFields name (n + 4) ds ++ indent n ++ [0x7D])
  | .tuple name ds =>
    0x28 :: (if oneLineTuples.contains name then Dbg.textItems ds ++ [0x29]
      else 0x0A :: (Dbg.prettyItems (n + 4) ds ++ indent n ++ [0x29]))
  | .list ds => 0x5B :: (if ds.isEmpty then [0x5D] else 0x0A :: (Dbg.prettyItems (n + 4) ds ++ indent n ++ [0x5D]))
  | .set _ ds =>
    0x20 :: 0x7B :: (if ds.isEmpty then [0x7D] else 0x0A :: (Dbg.prettyItems (n + 4) ds ++ indent n ++ [0x7D]))

theorem Dbg.pretty_eq (n : Nat) (d : Dbg) : d.pretty n = d.headWord ++ d.prettyAfter n := by
  cases d with
  | tuple name ds =>
    simp only [Dbg.pretty, headWord, prettyAfter]
    split <;> simp [Dbg.text, Fuse.text, ascii]
  | list ds =>
    simp only [Dbg.pretty, headWord, prettyAfter]
    split <;> simp [Fuse.text, ascii]
  | set name ds =>
    simp only [Dbg.pretty, headWord, prettyAfter]
    split <;> simp [Fuse.text, ascii]
  | _ => simp [Dbg.pretty, headWord, prettyAfter, Fuse.text, ascii]

/-- Which constructor a tree has, as far as the byte after the first word tells. -/
def Dbg.prettyShape : Dbg → Nat
  | .atom _ => 0
  | .field .. => 1
  | .tuple .. => 2
  | .record .. | .set .. => 3
  | .quoted _ => 5
  | .list _ => 6

/-- The constructor, judged by what follows the first word. -/
def prettyShapeOf : Bytes → Nat
  | 0x3A :: _ => 1
  | 0x28 :: _ => 2
  | 0x20 :: _ => 3
  | 0x22 :: _ => 5
  | 0x5B :: _ => 6
  | _ => 0

theorem noWord_cons {c : UInt8} {t : Bytes} (h : isWordU c = false) : NoWord (c :: t) := by
  intro x hx
  rw [List.head?_cons, Option.some.injEq] at hx
  rw [← hx, h]

theorem prettyShapeOf_after (n : Nat) (d : Dbg) (r : Bytes) :
    NoWord (d.prettyAfter n ++ 0x2C :: r) ∧ prettyShapeOf (d.prettyAfter n ++ 0x2C :: r) = d.prettyShape := by
  cases d <;> exact ⟨noWord_cons (by decide), rfl⟩

theorem pretty_shape {n : Nat} {d d' : Dbg} {r r' : Bytes} (h : d.WFU) (h' : d'.WFU)
    (he : d.pretty n ++ 0x2C :: r = d'.pretty n ++ 0x2C :: r') :
    d.prettyShape = d'.prettyShape ∧ d.headWord = d'.headWord ∧
      d.prettyAfter n ++ 0x2C :: r = d'.prettyAfter n ++ 0x2C :: r' := by
  rw [d.pretty_eq, d'.pretty_eq, List.append_assoc, List.append_assoc] at he
  obtain ⟨h1, h2⟩ := word_split _ _ _ _ h.word h'.word (prettyShapeOf_after n d r).1 (prettyShapeOf_after n d' r').1 he
  refine ⟨?_, h1, h2⟩
  rw [← (prettyShapeOf_after n d r).2, ← (prettyShapeOf_after n d' r').2, h2]

theorem indent_add (n : Nat) (t : Bytes) : indent (n + 4) ++ t = indent n ++ 0x20 :: 0x20 :: 0x20 :: 0x20 :: t := by
  have : indent (n + 4) = indent n ++ [0x20, 0x20, 0x20, 0x20] := by
    rw [indent, ← List.replicate_append_replicate]; rfl
  rw [this, List.append_assoc]; rfl

theorem indent_ne {n : Nat} {c : UInt8} (hc : c ≠ 0x20) {t t' : Bytes} :
    indent n ++ c :: t ≠ indent (n + 4) ++ t' := by
  rw [indent_add]
  intro h
  rw [List.append_cancel_left_eq] at h
  exact hc (List.cons.inj h).1

theorem stops_comma {r : Bytes} : Stops (0x2C :: r) := Or.inl rfl

theorem text_comma (r : Bytes) : text ",\n" ++ r = 0x2C :: 0x0A :: r := rfl
theorem text_colon (r : Bytes) : text ": " ++ r = 0x3A :: 0x20 :: r := rfl

mutual

/-- A tree, and where its text ends, can be read off an indented text. -/
theorem pretty_unique (n : Nat) : ∀ (d d' : Dbg) (r r' : Bytes), d.WFU → d'.WFU → d.Tidy → d'.Tidy →
    d.pretty n ++ 0x2C :: r = d'.pretty n ++ 0x2C :: r' → d = d' ∧ r = r'
  | .atom s, d', r, r', h, h', _, _, he => by
    obtain ⟨h1, h2, h3⟩ := pretty_shape h h' he
    cases d' with
    | atom s' => exact ⟨by rw [show s = s' from h2], (List.cons.inj h3).2⟩
    | _ => cases h1
  | .quoted v, d', r, r', h, h', _, _, he => by
    obtain ⟨h1, h2, h3⟩ := pretty_shape h h' he
    cases d' with
    | quoted v' =>
      obtain ⟨h4, h5⟩ := quoted_unique h3
      exact ⟨by rw [h4], (List.cons.inj h5).2⟩
    | _ => cases h1
  | .field _ _, _, _, _, _, _, ht, _, _ => ht.elim
  | .record m ds, d', r, r', h, h', ht, ht', he => by
    obtain ⟨h1, h2, h3⟩ := pretty_shape h h' he
    cases d' with
    | record m' ds' =>
      have hm := text_inj h.1 h'.1 h2
      subst hm
      simp only [Dbg.prettyAfter, List.cons_append, List.cons.injEq, true_and, List.append_assoc, List.nil_append] at h3
      obtain ⟨h4, h5⟩ := fields_unique m n ds ds' _ _ h.2 h'.2 ht.2 ht'.2 h3
      exact ⟨by rw [h4], (List.cons.inj h5).2⟩
    | set m' ds' =>
      have hm := text_inj h.1 h'.1 h2
      have h4 := ht.1
      rw [hm, ht'.1] at h4
      cases h4
    | _ => cases h1
  | .tuple m ds, d', r, r', h, h', ht, ht', he => by
    obtain ⟨h1, h2, h3⟩ := pretty_shape h h' he
    cases d' with
    | tuple m' ds' =>
      have hm := text_inj h.1 h'.1 h2
      subst hm
      simp only [Dbg.prettyAfter, List.cons_append, List.cons.injEq, true_and] at h3
      by_cases hc : oneLineTuples.contains m = true
      · rw [if_pos hc, if_pos hc, List.append_assoc, List.append_assoc] at h3
        obtain ⟨h4, h5⟩ := items_unique ds ds' _ _ h.2 h'.2 closes_paren closes_paren h3
        exact ⟨by rw [h4], (List.cons.inj (List.cons.inj h5).2).2⟩
      · rw [if_neg hc, if_neg hc] at h3
        simp only [List.cons_append, List.cons.injEq, true_and, List.append_assoc, List.nil_append] at h3
        obtain ⟨h4, h5⟩ := entries_unique 0x29 (by decide) n ds ds' _ _ h.2 h'.2 ht ht' h3
        exact ⟨by rw [h4], (List.cons.inj h5).2⟩
    | _ => cases h1
  | .list ds, d', r, r', h, h', ht, ht', he => by
    obtain ⟨h1, h2, h3⟩ := pretty_shape h h' he
    cases d' with
    | list ds' =>
      simp only [Dbg.prettyAfter, List.cons_append, List.cons.injEq, true_and] at h3
      cases ds with
      | nil =>
        cases ds' with
        | nil => exact ⟨rfl, (List.cons.inj (List.cons.inj h3).2).2⟩
        | cons e es => exact absurd (List.cons.inj h3).1 (by decide)
      | cons e es =>
        cases ds' with
        | nil => exact absurd (List.cons.inj h3).1 (by decide)
        | cons e' es' =>
          simp only [List.isEmpty_cons, Bool.false_eq_true, if_false, List.cons_append, List.cons.injEq, true_and,
            List.append_assoc, List.nil_append] at h3
          obtain ⟨h4, h5⟩ := entries_unique 0x5D (by decide) n (e :: es) (e' :: es') _ _ h h' ht ht' h3
          exact ⟨by rw [h4], (List.cons.inj h5).2⟩
    | _ => cases h1
  | .set m ds, d', r, r', h, h', ht, ht', he => by
    obtain ⟨h1, h2, h3⟩ := pretty_shape h h' he
    cases d' with
    | set m' ds' =>
      have hm := text_inj h.1 h'.1 h2
      subst hm
      simp only [Dbg.prettyAfter, List.cons_append, List.cons.injEq, true_and] at h3
      cases ds with
      | nil =>
        cases ds' with
        | nil => exact ⟨rfl, (List.cons.inj (List.cons.inj h3).2).2⟩
        | cons e es => exact absurd (List.cons.inj h3).1 (by decide)
      | cons e es =>
        cases ds' with
        | nil => exact absurd (List.cons.inj h3).1 (by decide)
        | cons e' es' =>
          simp only [List.isEmpty_cons, Bool.false_eq_true, if_false, List.cons_append, List.cons.injEq, true_and,
            List.append_assoc, List.nil_append] at h3
          obtain ⟨h4, h5⟩ := entries_unique 0x7D (by decide) n (e :: es) (e' :: es') _ _ h.2 h'.2 ht.2 ht'.2 h3
          exact ⟨by rw [h4], (List.cons.inj h5).2⟩
    | record m' ds' =>
      have hm := text_inj h.1 h'.1 h2
      have h4 := ht.1
      rw [hm, ht'.1] at h4
      cases h4
    | _ => cases h1

/-- The same for entries, up to what closes them. -/
theorem entries_unique (c : UInt8) (hc : c ≠ 0x20) (n : Nat) : ∀ (ds ds' : List Dbg) (r r' : Bytes), Dbg.AllWFU ds →
    Dbg.AllWFU ds' → Dbg.AllTidy ds → Dbg.AllTidy ds' →
    Dbg.prettyItems (n + 4) ds ++ (indent n ++ c :: r) = Dbg.prettyItems (n + 4) ds' ++ (indent n ++ c :: r') →
    ds = ds' ∧ r = r'
  | [], [], r, r', _, _, _, _, he => by
    simp only [Dbg.prettyItems, List.nil_append, List.append_cancel_left_eq, List.cons.injEq, true_and] at he
    exact ⟨rfl, he⟩
  | [], d' :: ds', r, r', _, _, _, _, he => by
    simp only [Dbg.prettyItems, List.nil_append, List.append_assoc] at he
    exact absurd he (indent_ne hc)
  | d :: ds, [], r, r', _, _, _, _, he => by
    simp only [Dbg.prettyItems, List.nil_append, List.append_assoc] at he
    exact absurd he.symm (indent_ne hc)
  | d :: ds, d' :: ds', r, r', h, h', ht, ht', he => by
    simp only [Dbg.prettyItems, List.append_assoc, List.append_cancel_left_eq, text_comma] at he
    obtain ⟨h1, h2⟩ := pretty_unique (n + 4) d d' _ _ h.1 h'.1 ht.1 ht'.1 he
    obtain ⟨h3, h4⟩ := entries_unique c hc n ds ds' r r' h.2 h'.2 ht.2 ht'.2 (List.cons.inj h2).2
    exact ⟨by rw [h1, h3], h4⟩

/-- The same for the fields of a structure. -/
theorem fields_unique (m : String) (n : Nat) : ∀ (ds ds' : List Dbg) (r r' : Bytes), Dbg.AllWFU ds →
    Dbg.AllWFU ds' → Dbg.FieldsTidy ds → Dbg.FieldsTidy ds' →
    Dbg.prettyFields m (n + 4) ds ++ (indent n ++ 0x7D :: r) =
      Dbg.prettyFields m (n + 4) ds' ++ (indent n ++ 0x7D :: r') → ds = ds' ∧ r = r'
  | [], [], r, r', _, _, _, _, he => by
    simp only [Dbg.prettyFields, List.nil_append, List.append_cancel_left_eq, List.cons.injEq, true_and] at he
    exact ⟨rfl, he⟩
  | [], .field _ _ :: ds', r, r', _, _, _, _, he => by
    simp only [Dbg.prettyFields, List.nil_append, List.append_assoc] at he
    exact absurd he (indent_ne (by decide))
  | .field _ _ :: ds, [], r, r', _, _, _, _, he => by
    simp only [Dbg.prettyFields, List.nil_append, List.append_assoc] at he
    exact absurd he.symm (indent_ne (by decide))
  | .field l d :: ds, .field l' d' :: ds', r, r', h, h', ht, ht', he => by
    simp only [Dbg.prettyFields, List.append_assoc, List.append_cancel_left_eq, text_comma, text_colon,
      List.cons_append] at he
    obtain ⟨h1, h2⟩ := word_split _ _ _ _ (isIdent_wide h.1.1) (isIdent_wide h'.1.1) (noWord_cons (by decide))
      (noWord_cons (by decide)) he
    have hl := text_inj h.1.1 h'.1.1 h1
    subst hl
    have h2 := (List.cons.inj (List.cons.inj h2).2).2
    have h3 : d = d' ∧ Dbg.prettyFields m (n + 4) ds ++ (indent n ++ 0x7D :: r) =
        Dbg.prettyFields m (n + 4) ds' ++ (indent n ++ 0x7D :: r') := by
      by_cases hc : oneLineFields.contains (m, l) = true
      · rw [if_pos hc, if_pos hc] at h2
        obtain ⟨h4, h5⟩ := text_unique d d' _ _ h.1.2 h'.1.2 stops_comma stops_comma h2
        exact ⟨h4, (List.cons.inj (List.cons.inj h5).2).2⟩
      · rw [if_neg hc, if_neg hc] at h2
        obtain ⟨h4, h5⟩ := pretty_unique (n + 4) d d' _ _ h.1.2 h'.1.2 ht.1 ht'.1 h2
        exact ⟨h4, (List.cons.inj h5).2⟩
    obtain ⟨h4, h5⟩ := fields_unique m n ds ds' r r' h.2 h'.2 ht.2 ht'.2 h3.2
    exact ⟨by rw [h3.1, h4], h5⟩

end

/-- A structure and where it ends can be read off an indented text that starts with it, whatever follows. -/
theorem pretty_record_unique {n : Nat} {m m' : String} {ds ds' : List Dbg} {r r' : Bytes} (h : (Dbg.record m ds).WFU)
    (h' : (Dbg.record m' ds').WFU) (ht : (Dbg.record m ds).Tidy) (ht' : (Dbg.record m' ds').Tidy)
    (he : (Dbg.record m ds).pretty n ++ r = (Dbg.record m' ds').pretty n ++ r') : m = m' ∧ ds = ds' ∧ r = r' := by
  rw [Dbg.pretty_eq, Dbg.pretty_eq, List.append_assoc, List.append_assoc] at he
  obtain ⟨h1, h2⟩ := word_split _ _ _ _ h.word h'.word (noWord_cons (by decide)) (noWord_cons (by decide)) he
  have hm := text_inj h.1 h'.1 h1
  subst hm
  have h2 : 0x20 :: 0x7B :: 0x0A :: (Dbg.prettyFields m (n + 4) ds ++ indent n ++ [0x7D] ++ r) =
      0x20 :: 0x7B :: 0x0A :: (Dbg.prettyFields m (n + 4) ds' ++ indent n ++ [0x7D] ++ r') := h2
  simp only [List.cons.injEq, true_and, List.append_assoc, List.cons_append, List.nil_append] at h2
  obtain ⟨h4, h5⟩ := fields_unique m n ds ds' _ _ h.2 h'.2 ht.2 ht'.2 h2
  exact ⟨rfl, h4, h5⟩

/-! ## Printable characters and line feeds only -/

theorem indent_printable {n : Nat} {c : UInt8} (h : c ∈ indent n) : Printable c := by
  rw [List.eq_of_mem_replicate h]
  exact ⟨by decide, by decide⟩

mutual

theorem pretty_printable (n : Nat) : ∀ (d : Dbg), d.WF → ∀ c ∈ d.pretty n, Printable c ∨ c = 0x0A
  | .atom s, h, c, hc => Or.inl (text_printable (.atom s) h c hc)
  | .quoted v, h, c, hc => Or.inl (text_printable (.quoted v) h c hc)
  | .field m d, h, c, hc => by
    simp only [Dbg.pretty, List.mem_append] at hc
    rcases hc with (hc | hc) | hc
    · exact Or.inl (printable_ident h.1 c hc)
    · revert c; unfold Printable; decide
    · exact pretty_printable n d h.2 c hc
  | .record m ds, h, c, hc => by
    simp only [Dbg.pretty, List.mem_append] at hc
    rcases hc with (((hc | hc) | hc) | hc) | hc
    · exact Or.inl (printable_ident h.1 c hc)
    · revert c; unfold Printable; decide
    · exact fields_printable m (n + 4) ds h.2 c hc
    · exact Or.inl (indent_printable hc)
    · revert c; unfold Printable; decide
  | .tuple m ds, h, c, hc => by
    simp only [Dbg.pretty] at hc
    split at hc
    · exact Or.inl (text_printable (.tuple m ds) h c hc)
    · simp only [List.mem_append] at hc
      rcases hc with (((hc | hc) | hc) | hc) | hc
      · exact Or.inl (printable_ident h.1 c hc)
      · revert c; unfold Printable; decide
      · exact entries_printable (n + 4) ds h.2 c hc
      · exact Or.inl (indent_printable hc)
      · revert c; unfold Printable; decide
  | .list ds, h, c, hc => by
    simp only [Dbg.pretty] at hc
    split at hc
    · revert c; unfold Printable; decide
    · simp only [List.mem_append] at hc
      rcases hc with ((hc | hc) | hc) | hc
      · revert c; unfold Printable; decide
      · exact entries_printable (n + 4) ds h c hc
      · exact Or.inl (indent_printable hc)
      · revert c; unfold Printable; decide
  | .set m ds, h, c, hc => by
    simp only [Dbg.pretty] at hc
    split at hc
    · rcases List.mem_append.mp hc with hc | hc
      · exact Or.inl (printable_ident h.1 c hc)
      · have hp : ∀ c ∈ text " {}", Printable c ∨ c = 0x0A := by unfold Printable; decide
        exact hp c hc
    · simp only [List.mem_append] at hc
      rcases hc with (((hc | hc) | hc) | hc) | hc
      · exact Or.inl (printable_ident h.1 c hc)
      · revert c; unfold Printable; decide
      · exact entries_printable (n + 4) ds h.2 c hc
      · exact Or.inl (indent_printable hc)
      · revert c; unfold Printable; decide

theorem entries_printable (n : Nat) : ∀ (ds : List Dbg), Dbg.AllWF ds →
    ∀ c ∈ Dbg.prettyItems n ds, Printable c ∨ c = 0x0A
  | [], _, c, hc => by cases hc
  | d :: ds, h, c, hc => by
    simp only [Dbg.prettyItems, List.mem_append] at hc
    rcases hc with ((hc | hc) | hc) | hc
    · exact Or.inl (indent_printable hc)
    · exact pretty_printable n d h.1 c hc
    · revert c; unfold Printable; decide
    · exact entries_printable n ds h.2 c hc

theorem fields_printable (m : String) (n : Nat) : ∀ (ds : List Dbg), Dbg.AllWF ds →
    ∀ c ∈ Dbg.prettyFields m n ds, Printable c ∨ c = 0x0A
  | [], _, c, hc => by cases hc
  | .field l d :: ds, h, c, hc => by
    simp only [Dbg.prettyFields, List.mem_append] at hc
    rcases hc with ((((hc | hc) | hc) | hc) | hc) | hc
    · exact Or.inl (indent_printable hc)
    · exact Or.inl (printable_ident h.1.1 c hc)
    · revert c; unfold Printable; decide
    · split at hc
      · exact Or.inl (text_printable d h.1.2 c hc)
      · exact pretty_printable n d h.1.2 c hc
    · revert c; unfold Printable; decide
    · exact fields_printable m n ds h.2 c hc
  | .atom s :: ds, h, c, hc => by
    simp only [Dbg.prettyFields, List.mem_append] at hc
    rcases hc with ((hc | hc) | hc) | hc
    · exact Or.inl (indent_printable hc)
    · exact pretty_printable n _ h.1 c hc
    · revert c; unfold Printable; decide
    · exact fields_printable m n ds h.2 c hc
  | .quoted s :: ds, h, c, hc => by
    simp only [Dbg.prettyFields, List.mem_append] at hc
    rcases hc with ((hc | hc) | hc) | hc
    · exact Or.inl (indent_printable hc)
    · exact pretty_printable n _ h.1 c hc
    · revert c; unfold Printable; decide
    · exact fields_printable m n ds h.2 c hc
  | .record s l :: ds, h, c, hc => by
    simp only [Dbg.prettyFields, List.mem_append] at hc
    rcases hc with ((hc | hc) | hc) | hc
    · exact Or.inl (indent_printable hc)
    · exact pretty_printable n _ h.1 c hc
    · revert c; unfold Printable; decide
    · exact fields_printable m n ds h.2 c hc
  | .tuple s l :: ds, h, c, hc => by
    simp only [Dbg.prettyFields, List.mem_append] at hc
    rcases hc with ((hc | hc) | hc) | hc
    · exact Or.inl (indent_printable hc)
    · exact pretty_printable n _ h.1 c hc
    · revert c; unfold Printable; decide
    · exact fields_printable m n ds h.2 c hc
  | .list l :: ds, h, c, hc => by
    simp only [Dbg.prettyFields, List.mem_append] at hc
    rcases hc with ((hc | hc) | hc) | hc
    · exact Or.inl (indent_printable hc)
    · exact pretty_printable n _ h.1 c hc
    · revert c; unfold Printable; decide
    · exact fields_printable m n ds h.2 c hc
  | .set s l :: ds, h, c, hc => by
    simp only [Dbg.prettyFields, List.mem_append] at hc
    rcases hc with ((hc | hc) | hc) | hc
    · exact Or.inl (indent_printable hc)
    · exact pretty_printable n _ h.1 c hc
    · revert c; unfold Printable; decide
    · exact fields_printable m n ds h.2 c hc

end

/-! ## The trees of requests -/

namespace Dbg

theorem tidy_option {α} {f : α → Dbg} (h : ∀ a, (f a).Tidy) (o : Option α) : (option f o).Tidy := by
  cases o with
  | none => trivial
  | some a => exact ⟨h a, trivial⟩

theorem tidy_map {α} {f : α → Dbg} (h : ∀ a, (f a).Tidy) (l : List α) : AllTidy (l.map f) := by
  induction l with
  | nil => trivial
  | cons a l ih => exact ⟨h a, ih⟩

theorem tidy_nat (n : Nat) : (nat n).Tidy := trivial
theorem tidy_u32 (n : UInt32) : (u32 n).Tidy := trivial
theorem tidy_u64 (n : UInt64) : (u64 n).Tidy := trivial
theorem tidy_id (n : NonZeroU64) : (id n).Tidy := trivial
theorem tidy_pid (n : { n : UInt32 // n ≠ 0 }) : (pid n).Tidy := trivial
theorem tidy_bool (b : Bool) : (bool b).Tidy := by cases b <;> trivial
theorem tidy_hex32 (n : UInt32) : (hex32 n).Tidy := trivial
theorem tidy_hex64 (n : UInt64) : (hex64 n).Tidy := trivial
theorem tidy_octal (n : UInt32) : (octal n).Tidy := trivial
theorem tidy_mode (m : FileMode) : (mode m).Tidy := trivial
theorem tidy_name (n : NodeName) : (name n).Tidy := trivial
theorem tidy_cstr (n : CStr) : (cstr n).Tidy := trivial
theorem tidy_time (t : UnixTime) : (time t).Tidy := ⟨trivial, trivial⟩
theorem tidy_size (o : Option { k : Nat // k ≠ 0 }) : (option (fun n => nat n.val) o).Tidy :=
  tidy_option (fun n => tidy_nat n.val) o
theorem tidy_flags (t : FlagType) (s : Flags t.width) : (flags t s).Tidy :=
  ⟨by cases t <;> decide +kernel, tidy_map (f := fun m => .atom (t.debugFlag m)) (fun _ => trivial) _⟩
theorem tidy_flags32 (t : FlagType) (n : UInt32) : (flags32 t n).Tidy := tidy_flags t _
theorem tidy_flags64 (t : FlagType) (n : UInt64) : (flags64 t n).Tidy := tidy_flags t _
theorem tidy_byteList (v : Bytes) : (byteList v).Tidy := tidy_map (f := fun b : UInt8 => nat b.toNat) (fun _ => trivial) v

theorem tidy_whence (n : UInt32) : (whence n).Tidy := by
  unfold whence
  split
  · trivial
  · split <;> trivial

theorem tidy_lockMode (p : Platform) (m : UInt32) : (lockMode p m).Tidy := by
  unfold lockMode
  split
  · trivial
  · split
    · trivial
    · split
      · trivial
      · exact ⟨trivial, trivial⟩

theorem tidy_lockRange (r : LockRange) : (lockRange r).Tidy :=
  ⟨by decide +kernel, trivial, tidy_option tidy_id _, trivial⟩
theorem tidy_lock (p : Platform) (l : Lock) : (lock p l).Tidy :=
  ⟨by decide +kernel, tidy_lockMode p _, tidy_lockRange _, tidy_option tidy_pid _, trivial⟩
theorem tidy_version (v : Version) : (version v).Tidy := ⟨by decide +kernel, trivial, trivial, trivial⟩
theorem tidy_item (i : ForgetItem) : (item i).Tidy := ⟨by decide +kernel, trivial, trivial, trivial⟩
theorem tidy_items (l : List ForgetItem) : (items l).Tidy := tidy_map tidy_item l

theorem tidy_opcode (n : UInt32) : (opcode n).Tidy := by
  unfold opcode
  split
  · trivial
  · exact ⟨trivial, trivial⟩

end Dbg

theorem debug_tidy {p : Platform} {a : AnyRequest} {d : Dbg} (h : a.debug p = .ok d) : d.Tidy := by
  cases a <;> (
    open_debug h
    subst h
    simp only [Dbg.Tidy, Dbg.FieldsTidy, Dbg.tidy_u32, Dbg.tidy_u64, Dbg.tidy_id, Dbg.tidy_name, Dbg.tidy_cstr,
      Dbg.tidy_hex32, Dbg.tidy_hex64, Dbg.tidy_octal, Dbg.tidy_mode, Dbg.tidy_bool, Dbg.tidy_flags32, Dbg.tidy_flags64,
      Dbg.tidy_items, Dbg.tidy_lockMode, Dbg.tidy_lockRange, Dbg.tidy_lock, Dbg.tidy_version, Dbg.tidy_byteList,
      Dbg.tidy_whence, Dbg.tidy_size, Dbg.tidy_option Dbg.tidy_u32, Dbg.tidy_option Dbg.tidy_u64,
      Dbg.tidy_option Dbg.tidy_hex64, Dbg.tidy_option Dbg.tidy_id, Dbg.tidy_option Dbg.tidy_time,
      Dbg.tidy_option Dbg.tidy_mode, and_true]
    decide +kernel)

/-- **C70**, indented form: it consists of printable ASCII characters and line feeds, and two requests with the same
text, however deep it is indented, are of the same type and give the same values. -/
theorem C70_pretty {p : Platform} {a a' : AnyRequest} {d d' : Dbg} {n : Nat} {rest rest' : Bytes}
    (h : a.debug p = .ok d) (h' : a'.debug p = .ok d') :
    (∀ c ∈ d.pretty n, (0x20 ≤ c ∧ c ≤ 0x7E) ∨ c = 0x0A) ∧
      (d.pretty n ++ rest = d'.pretty n ++ rest' → SameValues a a' ∧ rest = rest') := by
  have hw := debug_wf h
  have hw' := debug_wf h'
  have ht := debug_tidy h
  have ht' := debug_tidy h'
  refine ⟨pretty_printable n d hw, fun he => ?_⟩
  obtain ⟨ds, hr⟩ := debug_record h
  obtain ⟨ds', hr'⟩ := debug_record h'
  subst hr hr'
  obtain ⟨h1, h2, h3⟩ := pretty_record_unique hw.wide hw'.wide ht ht' he
  rw [← h1, ← h2] at h'
  exact ⟨debug_same h h', h3⟩

/-- **C70**, indented form of an undecoded request: it tells the header and the body. -/
theorem C70_message_pretty {buf buf' : Bytes} {r r' : Request} {cuse cuse' : Bool} {d d' : Dbg} {n : Nat}
    {rest rest' : Bytes} (hn : Request.new buf = .ok r) (hn' : Request.new buf' = .ok r') (h : r.debug cuse = .ok d)
    (h' : r'.debug cuse' = .ok d') (he : d.pretty n ++ rest = d'.pretty n ++ rest') :
    (∀ c ∈ d.pretty n, (0x20 ≤ c ∧ c ≤ 0x7E) ∨ c = 0x0A) ∧ cuse = cuse' ∧ u32At buf 0 = u32At buf' 0 ∧
      buf.take 36 = buf'.take 36 ∧
      (buf.take (u32At buf 0)).drop 40 = (buf'.take (u32At buf' 0)).drop 40 ∧ rest = rest' := by
  have open_ : ∀ {r : Request} {cuse : Bool} {d : Dbg}, r.debug cuse = .ok d → ∃ m ds, d = .record m ds ∧ d.WF ∧ d.Tidy := by
    intro r cuse d h
    simp only [Request.debug] at h
    obtain ⟨x, _, h⟩ := bind_ok_elim h
    obtain ⟨hd, h1, h⟩ := bind_ok_elim h
    obtain ⟨b, _, h⟩ := bind_ok_elim h
    have h := pure_ok_elim h
    have hw := header_debug_record h1
    have ht : hd.Tidy := by
      simp only [FuseInHeader.debug] at h1
      obtain ⟨_, _, h1⟩ := bind_ok_elim h1
      obtain ⟨_, _, h1⟩ := bind_ok_elim h1
      rw [← pure_ok_elim h1]
      exact ⟨by decide +kernel, trivial, trivial, Dbg.tidy_opcode _, Dbg.tidy_option Dbg.tidy_id _, trivial, trivial,
        Dbg.tidy_option Dbg.tidy_pid _, trivial⟩
    refine ⟨_, _, h.symm, ?_⟩
    rw [← h]
    constructor
    · cases cuse <;> (simp only [Dbg.WF, Dbg.AllWF, Dbg.wf_byteList, hw, and_true]; decide +kernel)
    · cases cuse <;> (simp only [Dbg.Tidy, Dbg.FieldsTidy, Dbg.tidy_byteList, ht, and_true]; decide +kernel)
  obtain ⟨m, ds, e, w, t⟩ := open_ h
  obtain ⟨m', ds', e', w', t'⟩ := open_ h'
  refine ⟨pretty_printable n d w, ?_⟩
  subst e e'
  obtain ⟨k1, k2, k3⟩ := pretty_record_unique w.wide w'.wide t t' he
  subst k1 k2 k3
  exact (C70_message hn hn' h h' (rest := rest) rfl).2

/-! ## Cases -/

example : ∃ a d, decodeMessage .lookup exampleLookup = .ok a ∧ a.debug .freebsd = .ok d ∧
    d.pretty 0 = text "LookupRequest {\n    parent_id: 1,\n    name: \"abc\",\n}" := by
  refine ⟨_, _, rfl, rfl, by decide +kernel⟩

example : ∃ r d, Request.new exampleLookup = .ok r ∧ r.debug false = .ok d ∧
    d.pretty 0 = text ("FuseRequest {\n    header: RequestHeader {\n        request_id: 7,\n" ++
      "        request_len: 44,\n        opcode: FUSE_LOOKUP,\n        node_id: Some(1),\n" ++
      "        user_id: 1000,\n        group_id: 100,\n        process_id: Some(42),\n    },\n" ++
      "    body: [\n        97,\n        98,\n        99,\n        0,\n    ],\n}") :=
  ⟨⟨exampleLookup⟩, _, rfl, rfl, by decide +kernel⟩

end Fuse
