import Verif.DebugReq
import Verif.PropDebug
import Verif.PropPlatform
import Verif.PropSharp

/-!
# C70: the `Debug` text of a request tells what the request is
-/

namespace Fuse
open Spec

/-! ## Reading the text of a tree -/

/-- The bytes that occur in numbers and names. -/
def isWordByte (b : UInt8) : Bool :=
  (48 ≤ b && b ≤ 57) || (65 ≤ b && b ≤ 90) || (97 ≤ b && b ≤ 122) || b == 0x5F || b == 0x2E || b == 0x2D

/-- A number or a name. -/
def isWord (s : Bytes) : Bool := !s.isEmpty && s.all isWordByte

/-- An identifier: a word written in ASCII characters. -/
def isIdent (s : String) : Bool := isWord (text s) && s.toList.all fun c => c.toNat < 128

mutual

/-- All numbers and names of a tree are words. -/
def Dbg.WF : Dbg → Prop
  | .atom s => isWord s = true
  | .quoted _ => True
  | .field name d => isIdent name = true ∧ d.WF
  | .record name ds => isIdent name = true ∧ Dbg.AllWF ds
  | .tuple name ds => isIdent name = true ∧ Dbg.AllWF ds
  | .list ds => Dbg.AllWF ds
  | .set name ds => isIdent name = true ∧ Dbg.AllWF ds

/-- The same for a list of trees. -/
def Dbg.AllWF : List Dbg → Prop
  | [] => True
  | d :: ds => d.WF ∧ Dbg.AllWF ds

end

/-- These bytes and those of the micro sign, which occurs in the text of a `Duration`. -/
def isWordU (b : UInt8) : Bool := isWordByte b || b == 0xC2 || b == 0xB5

/-- A number or a name, with micro signs. -/
def isWide (s : Bytes) : Bool := !s.isEmpty && s.all isWordU

mutual

/-- All numbers and names of a tree are words, up to micro signs. -/
def Dbg.WFU : Dbg → Prop
  | .atom s => isWide s = true
  | .quoted _ => True
  | .field name d => isIdent name = true ∧ d.WFU
  | .record name ds => isIdent name = true ∧ Dbg.AllWFU ds
  | .tuple name ds => isIdent name = true ∧ Dbg.AllWFU ds
  | .list ds => Dbg.AllWFU ds
  | .set name ds => isIdent name = true ∧ Dbg.AllWFU ds

/-- The same for a list of trees. -/
def Dbg.AllWFU : List Dbg → Prop
  | [] => True
  | d :: ds => d.WFU ∧ Dbg.AllWFU ds

end

/-- What closes a sequence of fields or entries. -/
def Closes : Bytes → Prop
  | [] => False
  | c :: r => c = 0x29 ∨ c = 0x5D ∨ c = 0x7D ∨ c = 0x20 ∧ r.head? = some 0x7D

/-- What may follow a value. -/
def Stops : Bytes → Prop
  | [] => True
  | c :: r => c = 0x2C ∨ Closes (c :: r)

theorem Closes.stops {r : Bytes} (h : Closes r) : Stops r := by
  cases r with
  | nil => exact h.elim
  | cons c r => exact Or.inr h

/-- A text that does not go on with a word. -/
def NoWord (t : Bytes) : Prop := ∀ c, t.head? = some c → isWordU c = false

theorem Stops.noWord {r : Bytes} (h : Stops r) : NoWord r := by
  intro c hc
  cases r with
  | nil => cases hc
  | cons a r =>
    rw [List.head?_cons, Option.some.injEq] at hc
    subst hc
    rcases h with rfl | rfl | rfl | rfl | ⟨rfl, -⟩ <;> decide

theorem word_split : ∀ (w w' t t' : Bytes), w.all isWordU = true → w'.all isWordU = true → NoWord t → NoWord t' →
    w ++ t = w' ++ t' → w = w' ∧ t = t'
  | [], [], _, _, _, _, _, _, h => ⟨rfl, h⟩
  | [], c :: w', t, t', _, hw', ht, _, h => by
    rw [List.nil_append] at h
    have := ht c (by rw [h]; rfl)
    rw [List.all_cons, this] at hw'
    cases hw'
  | c :: w, [], t, t', hw, _, _, ht', h => by
    rw [List.nil_append] at h
    have := ht' c (by rw [← h]; rfl)
    rw [List.all_cons, this] at hw
    cases hw
  | c :: w, c' :: w', t, t', hw, hw', ht, ht', h => by
    simp only [List.cons_append, List.cons.injEq] at h
    rw [List.all_cons, Bool.and_eq_true] at hw hw'
    obtain ⟨h1, h2⟩ := word_split w w' t t' hw.2 hw'.2 ht ht' h.2
    exact ⟨by rw [h.1, h1], h2⟩

theorem text_inj {s s' : String} (h : isIdent s = true) (h' : isIdent s' = true) (he : text s = text s') : s = s' := by
  simp only [isIdent, Bool.and_eq_true] at h h'
  have key : ∀ l l' : List Char, l.all (fun c => decide (c.toNat < 128)) = true →
      l'.all (fun c => decide (c.toNat < 128)) = true → ascii l = ascii l' → l = l' := by
    intro l
    induction l with
    | nil => intro l' _ _ h; cases l' with
      | nil => rfl
      | cons c l' => cases h
    | cons c l ih =>
      intro l' hl hl' h
      cases l' with
      | nil => cases h
      | cons c' l' =>
        simp only [ascii, List.map_cons, List.cons.injEq] at h
        simp only [List.all_cons, Bool.and_eq_true, decide_eq_true_eq] at hl hl'
        rw [ih l' hl.2 hl'.2 h.2]
        have := congrArg UInt8.toNat h.1
        simp only [UInt8.toNat_ofNat'] at this
        have : c.toNat = c'.toNat := by omega
        rw [Char.toNat_inj.mp this]
  exact String.toList_inj.mp (key _ _ h.2 h'.2 he)

/-- Which constructor a tree has. -/
def Dbg.shape : Dbg → Nat
  | .atom _ => 0
  | .field .. => 1
  | .tuple .. => 2
  | .record .. => 3
  | .set .. => 4
  | .quoted _ => 5
  | .list _ => 6

/-- The word at the start of a tree's text. -/
def Dbg.headWord : Dbg → Bytes
  | .atom s => s
  | .field n _ | .tuple n _ | .record n _ | .set n _ => Fuse.text n
  | .quoted _ | .list _ => []

/-- What follows this word. -/
def Dbg.afterWord : Dbg → Bytes
  | .atom _ => []
  | .field _ d => 0x3A :: 0x20 :: d.text
  | .tuple _ ds => 0x28 :: (Dbg.textItems ds ++ [0x29])
  | .record _ ds => 0x20 :: 0x7B :: 0x20 :: (Dbg.textItems ds ++ [0x20, 0x7D])
  | .set _ ds => 0x20 :: 0x7B :: (Dbg.textItems ds ++ [0x7D])
  | .quoted v => debugBytes v
  | .list ds => 0x5B :: (Dbg.textItems ds ++ [0x5D])

theorem Dbg.text_eq (d : Dbg) : d.text = d.headWord ++ d.afterWord := by
  cases d <;> simp [Dbg.text, headWord, afterWord, Fuse.text, ascii]

/-- The constructor, judged by what follows the first word. -/
def shapeOf : Bytes → Nat
  | 0x3A :: _ => 1
  | 0x28 :: _ => 2
  | 0x20 :: 0x7B :: 0x20 :: _ => 3
  | 0x20 :: 0x7B :: _ => 4
  | 0x22 :: _ => 5
  | 0x5B :: _ => 6
  | _ => 0

theorem isIdent_word {s : String} (h : isIdent s = true) : text s ≠ [] ∧ (text s).all isWordByte = true := by
  simp only [isIdent, isWord, Bool.and_eq_true] at h
  refine ⟨fun h0 => ?_, h.1.2⟩
  rw [h0] at h
  simp at h

theorem wide_of_word {s : Bytes} (h : s.all isWordByte = true) : s.all isWordU = true :=
  List.all_eq_true.mpr fun c hc => by rw [isWordU, List.all_eq_true.mp h c hc]; rfl

theorem isIdent_wide {s : String} (h : isIdent s = true) : (text s).all isWordU = true :=
  wide_of_word (isIdent_word h).2

mutual

theorem Dbg.WF.wide : ∀ {d : Dbg}, d.WF → d.WFU
  | .atom s, h => by
    simp only [Dbg.WF, isWord, Bool.and_eq_true] at h
    simp only [Dbg.WFU, isWide, Bool.and_eq_true]
    exact ⟨h.1, wide_of_word h.2⟩
  | .quoted _, _ => trivial
  | .field _ d, h => ⟨h.1, Dbg.WF.wide (d := d) h.2⟩
  | .record _ ds, h => ⟨h.1, Dbg.AllWF.wide (ds := ds) h.2⟩
  | .tuple _ ds, h => ⟨h.1, Dbg.AllWF.wide (ds := ds) h.2⟩
  | .list ds, h => Dbg.AllWF.wide (ds := ds) h
  | .set _ ds, h => ⟨h.1, Dbg.AllWF.wide (ds := ds) h.2⟩

theorem Dbg.AllWF.wide : ∀ {ds : List Dbg}, Dbg.AllWF ds → Dbg.AllWFU ds
  | [], _ => trivial
  | d :: ds, h => ⟨Dbg.WF.wide (d := d) h.1, Dbg.AllWF.wide (ds := ds) h.2⟩

end

theorem Dbg.WFU.word {d : Dbg} (h : d.WFU) : d.headWord.all isWordU = true := by
  cases d with
  | atom s => simp only [Dbg.WFU, isWide, Bool.and_eq_true] at h; exact h.2
  | quoted v => rfl
  | list ds => rfl
  | field n d => exact (isIdent_wide h.1)
  | record n ds => exact (isIdent_wide h.1)
  | tuple n ds => exact (isIdent_wide h.1)
  | set n ds => exact (isIdent_wide h.1)

/-- How the text of a value can start. -/
def Starts (c : UInt8) : Prop := isWordU c = true ∨ c = 0x22 ∨ c = 0x5B

theorem Dbg.WFU.starts {d : Dbg} (h : d.WFU) : ∃ c t, d.text = c :: t ∧ Starts c := by
  have hw : ∀ w t : Bytes, w ≠ [] → w.all isWordU = true → ∃ c t', w ++ t = c :: t' ∧ Starts c := by
    intro w t h0 hw
    cases w with
    | nil => exact absurd rfl h0
    | cons c w =>
      rw [List.all_cons, Bool.and_eq_true] at hw
      exact ⟨c, w ++ t, rfl, Or.inl hw.1⟩
  rw [d.text_eq]
  cases d with
  | atom s =>
    refine hw _ _ ?_ h.word
    rintro (rfl : s = [])
    simp [Dbg.WFU, isWide] at h
  | quoted v => exact ⟨0x22, _, rfl, Or.inr (Or.inl rfl)⟩
  | list ds => exact ⟨0x5B, _, rfl, Or.inr (Or.inr rfl)⟩
  | field n d => exact hw _ _ (isIdent_word h.1).1 h.word
  | record n ds => exact hw _ _ (isIdent_word h.1).1 h.word
  | tuple n ds => exact hw _ _ (isIdent_word h.1).1 h.word
  | set n ds => exact hw _ _ (isIdent_word h.1).1 h.word

theorem Starts.not_closes {c : UInt8} {r : Bytes} (h : Starts c) : ¬ Closes (c :: r) ∧ c ≠ 0x20 ∧ c ≠ 0x2C := by
  refine ⟨?_, ?_, ?_⟩
  · rintro (rfl | rfl | rfl | ⟨rfl, -⟩) <;> rcases h with h | h | h <;> revert h <;> decide
  · rintro rfl; rcases h with h | h | h <;> revert h <;> decide
  · rintro rfl; rcases h with h | h | h <;> revert h <;> decide

theorem shapeOf_after {d : Dbg} (h : d.WFU) {r : Bytes} (hr : Stops r) :
    NoWord (d.afterWord ++ r) ∧ shapeOf (d.afterWord ++ r) = d.shape := by
  have one : ∀ (c : UInt8) (t : Bytes), isWordU c = false → NoWord (c :: t) := by
    intro c t h x hx
    rw [List.head?_cons, Option.some.injEq] at hx
    rw [← hx, h]
  cases d with
  | atom s =>
    refine ⟨hr.noWord, ?_⟩
    show shapeOf r = 0
    cases r with
    | nil => rfl
    | cons c r =>
      rcases hr with rfl | rfl | rfl | rfl | ⟨rfl, h⟩
      iterate 4 rfl
      cases r with
      | nil => rfl
      | cons c r =>
        rw [List.head?_cons, Option.some.injEq] at h
        subst h
        rfl
  | quoted v => exact ⟨one _ _ (by decide), rfl⟩
  | list ds => exact ⟨one _ _ (by decide), rfl⟩
  | field n d => exact ⟨one _ _ (by decide), rfl⟩
  | record n ds => exact ⟨one _ _ (by decide), rfl⟩
  | tuple n ds => exact ⟨one _ _ (by decide), rfl⟩
  | set n ds =>
    refine ⟨one _ _ (by decide), ?_⟩
    cases ds with
    | nil => rfl
    | cons d ds =>
      obtain ⟨c, t, hd, hc⟩ := h.2.1.starts
      have hc := hc.not_closes (r := []) |>.2.1
      simp only [Dbg.afterWord, Dbg.textItems, hd, List.cons_append]
      unfold shapeOf
      split <;> first | rfl | simp_all

/-- The constructor and the first word can be read off a text. -/
theorem shape_unique {d d' : Dbg} {r r' : Bytes} (h : d.WFU) (h' : d'.WFU) (hr : Stops r) (hr' : Stops r')
    (he : d.text ++ r = d'.text ++ r') :
    d.shape = d'.shape ∧ d.headWord = d'.headWord ∧ d.afterWord ++ r = d'.afterWord ++ r' := by
  rw [d.text_eq, d'.text_eq, List.append_assoc, List.append_assoc] at he
  obtain ⟨h1, h2⟩ := word_split _ _ _ _ h.word h'.word (shapeOf_after h hr).1 (shapeOf_after h' hr').1 he
  refine ⟨?_, h1, h2⟩
  rw [← (shapeOf_after h hr).2, ← (shapeOf_after h' hr').2, h2]

theorem quoted_unique {v v' r r' : Bytes} (he : debugBytes v ++ r = debugBytes v' ++ r') : v = v' ∧ r = r' := by
  obtain ⟨x, h1, h2⟩ := C59_bytes v r
  obtain ⟨x', h1', h2'⟩ := C59_bytes v' r'
  rw [h1, h1', List.cons.injEq] at he
  rw [he.2, h2', Option.some.injEq, Prod.mk.injEq] at h2
  exact ⟨h2.1.symm, h2.2.symm⟩

theorem closes_paren {r : Bytes} : Closes (0x29 :: r) := Or.inl rfl
theorem closes_bracket {r : Bytes} : Closes (0x5D :: r) := Or.inr (Or.inl rfl)
theorem closes_brace {r : Bytes} : Closes (0x7D :: r) := Or.inr (Or.inr (Or.inl rfl))
theorem closes_space {r : Bytes} : Closes (0x20 :: 0x7D :: r) := Or.inr (Or.inr (Or.inr ⟨rfl, rfl⟩))

theorem not_closes_comma {r : Bytes} : ¬ Closes (text ", " ++ r) := by
  rintro (h | h | h | ⟨h, -⟩) <;> revert h <;> decide

theorem stops_rest (ds : List Dbg) {r : Bytes} (h : Closes r) : Stops (Dbg.textRest ds ++ r) := by
  cases ds with
  | nil => simpa [Dbg.textRest] using h.stops
  | cons d ds => exact Or.inl rfl

mutual

/-- A tree, and where its text ends, can be read off a text that starts with it. -/
theorem text_unique : ∀ (d d' : Dbg) (r r' : Bytes), d.WFU → d'.WFU → Stops r → Stops r' →
    d.text ++ r = d'.text ++ r' → d = d' ∧ r = r'
  | .atom s, d', r, r', h, h', hr, hr', he => by
    obtain ⟨h1, h2, h3⟩ := shape_unique h h' hr hr' he
    cases d' with
    | atom s' => exact ⟨by rw [show s = s' from h2], h3⟩
    | _ => cases h1
  | .quoted v, d', r, r', h, h', hr, hr', he => by
    obtain ⟨h1, h2, h3⟩ := shape_unique h h' hr hr' he
    cases d' with
    | quoted v' =>
      obtain ⟨h4, h5⟩ := quoted_unique h3
      exact ⟨by rw [h4], h5⟩
    | _ => cases h1
  | .field n d, d', r, r', h, h', hr, hr', he => by
    obtain ⟨h1, h2, h3⟩ := shape_unique h h' hr hr' he
    cases d' with
    | field n' d' =>
      simp only [Dbg.afterWord, List.cons_append, List.cons.injEq, true_and] at h3
      obtain ⟨h4, h5⟩ := text_unique d d' r r' h.2 h'.2 hr hr' h3
      exact ⟨by rw [h4, text_inj h.1 h'.1 h2], h5⟩
    | _ => cases h1
  | .record n ds, d', r, r', h, h', hr, hr', he => by
    obtain ⟨h1, h2, h3⟩ := shape_unique h h' hr hr' he
    cases d' with
    | record n' ds' =>
      simp only [Dbg.afterWord, List.cons_append, List.cons.injEq, true_and, List.append_assoc, List.nil_append] at h3
      obtain ⟨h4, h5⟩ := items_unique ds ds' _ _ h.2 h'.2 closes_space closes_space h3
      simp only [List.cons.injEq, true_and] at h5
      exact ⟨by rw [h4, text_inj h.1 h'.1 h2], h5⟩
    | _ => cases h1
  | .tuple n ds, d', r, r', h, h', hr, hr', he => by
    obtain ⟨h1, h2, h3⟩ := shape_unique h h' hr hr' he
    cases d' with
    | tuple n' ds' =>
      simp only [Dbg.afterWord, List.cons_append, List.cons.injEq, true_and, List.append_assoc, List.nil_append] at h3
      obtain ⟨h4, h5⟩ := items_unique ds ds' _ _ h.2 h'.2 closes_paren closes_paren h3
      simp only [List.cons.injEq, true_and] at h5
      exact ⟨by rw [h4, text_inj h.1 h'.1 h2], h5⟩
    | _ => cases h1
  | .list ds, d', r, r', h, h', hr, hr', he => by
    obtain ⟨h1, h2, h3⟩ := shape_unique h h' hr hr' he
    cases d' with
    | list ds' =>
      simp only [Dbg.afterWord, List.cons_append, List.cons.injEq, true_and, List.append_assoc, List.nil_append] at h3
      obtain ⟨h4, h5⟩ := items_unique ds ds' _ _ h h' closes_bracket closes_bracket h3
      simp only [List.cons.injEq, true_and] at h5
      exact ⟨by rw [h4], h5⟩
    | _ => cases h1
  | .set n ds, d', r, r', h, h', hr, hr', he => by
    obtain ⟨h1, h2, h3⟩ := shape_unique h h' hr hr' he
    cases d' with
    | set n' ds' =>
      simp only [Dbg.afterWord, List.cons_append, List.cons.injEq, true_and, List.append_assoc, List.nil_append] at h3
      obtain ⟨h4, h5⟩ := items_unique ds ds' _ _ h.2 h'.2 closes_brace closes_brace h3
      simp only [List.cons.injEq, true_and] at h5
      exact ⟨by rw [h4, text_inj h.1 h'.1 h2], h5⟩
    | _ => cases h1

/-- The same for the fields or entries up to what closes them. -/
theorem items_unique : ∀ (ds ds' : List Dbg) (r r' : Bytes), Dbg.AllWFU ds → Dbg.AllWFU ds' → Closes r → Closes r' →
    Dbg.textItems ds ++ r = Dbg.textItems ds' ++ r' → ds = ds' ∧ r = r'
  | [], [], _, _, _, _, _, _, he => ⟨rfl, he⟩
  | [], d' :: ds', r, r', _, h', hr, _, he => by
    obtain ⟨c, t, hc, hs⟩ := h'.1.starts
    simp only [Dbg.textItems, hc, List.nil_append, List.cons_append] at he
    rw [he] at hr
    exact absurd hr hs.not_closes.1
  | d :: ds, [], r, r', h, _, _, hr', he => by
    obtain ⟨c, t, hc, hs⟩ := h.1.starts
    simp only [Dbg.textItems, hc, List.nil_append, List.cons_append] at he
    rw [← he] at hr'
    exact absurd hr' hs.not_closes.1
  | d :: ds, d' :: ds', r, r', h, h', hr, hr', he => by
    simp only [Dbg.textItems, List.append_assoc] at he
    obtain ⟨h1, h2⟩ := text_unique d d' _ _ h.1 h'.1 (stops_rest ds hr) (stops_rest ds' hr') he
    obtain ⟨h3, h4⟩ := rest_unique ds ds' r r' h.2 h'.2 hr hr' h2
    exact ⟨by rw [h1, h3], h4⟩

/-- The same after the first field or entry. -/
theorem rest_unique : ∀ (ds ds' : List Dbg) (r r' : Bytes), Dbg.AllWFU ds → Dbg.AllWFU ds' → Closes r → Closes r' →
    Dbg.textRest ds ++ r = Dbg.textRest ds' ++ r' → ds = ds' ∧ r = r'
  | [], [], _, _, _, _, _, _, he => ⟨rfl, he⟩
  | [], d' :: ds', r, r', _, _, hr, _, he => by
    simp only [Dbg.textRest, List.nil_append, List.append_assoc] at he
    rw [he] at hr
    exact absurd hr not_closes_comma
  | d :: ds, [], r, r', _, _, _, hr', he => by
    simp only [Dbg.textRest, List.nil_append, List.append_assoc] at he
    rw [← he] at hr'
    exact absurd hr' not_closes_comma
  | d :: ds, d' :: ds', r, r', h, h', hr, hr', he => by
    simp only [Dbg.textRest, List.append_assoc, List.append_cancel_left_eq] at he
    obtain ⟨h1, h2⟩ := text_unique d d' _ _ h.1 h'.1 (stops_rest ds hr) (stops_rest ds' hr') he
    obtain ⟨h3, h4⟩ := rest_unique ds ds' r r' h.2 h'.2 hr hr' h2
    exact ⟨by rw [h1, h3], h4⟩

end

/-- The text of a record ends where it ends, whatever follows. -/
theorem record_unique {n n' : String} {ds ds' : List Dbg} {r r' : Bytes} (h : (Dbg.record n ds).WFU)
    (h' : (Dbg.record n' ds').WFU) (he : (Dbg.record n ds).text ++ r = (Dbg.record n' ds').text ++ r') :
    n = n' ∧ ds = ds' ∧ r = r' := by
  have one : ∀ (t : Bytes), NoWord (0x20 :: t) := by
    intro t x hx
    rw [List.head?_cons, Option.some.injEq] at hx
    rw [← hx]; decide
  rw [Dbg.text_eq, Dbg.text_eq, List.append_assoc, List.append_assoc] at he
  have ha : NoWord ((Dbg.record n ds).afterWord ++ r) := one _
  have ha' : NoWord ((Dbg.record n' ds').afterWord ++ r') := one _
  obtain ⟨h1, h2⟩ := word_split _ _ _ _ h.word h'.word ha ha' he
  simp only [Dbg.afterWord, List.cons_append, List.cons.injEq, true_and, List.append_assoc, List.nil_append] at h2
  obtain ⟨h4, h5⟩ := items_unique ds ds' _ _ h.2 h'.2 closes_space closes_space h2
  simp only [List.cons.injEq, true_and] at h5
  exact ⟨text_inj h.1 h'.1 h1, h4, h5⟩

/-! ## The text is printable -/

/-- A byte that is a printable ASCII character. -/
def Printable (c : UInt8) : Prop := 0x20 ≤ c ∧ c ≤ 0x7E

theorem printable_of_word {c : UInt8} (h : isWordByte c = true) : Printable c := by
  have : ∀ c : UInt8, isWordByte c = true → 0x20 ≤ c ∧ c ≤ 0x7E := all_bytes (by decide +kernel)
  exact this c h

theorem printable_ident {s : String} (h : isIdent s = true) : ∀ c ∈ text s, Printable c :=
  fun c hc => printable_of_word (List.all_eq_true.mp (isIdent_word h).2 c hc)

mutual

theorem text_printable : ∀ (d : Dbg), d.WF → ∀ c ∈ d.text, Printable c
  | .atom s, h, c, hc => by
    simp only [Dbg.WF, isWord, Bool.and_eq_true] at h
    exact printable_of_word (List.all_eq_true.mp h.2 c hc)
  | .quoted v, _, c, hc => C59_printable v c hc
  | .field n d, h, c, hc => by
    simp only [Dbg.text, List.mem_append] at hc
    rcases hc with (hc | hc) | hc
    · exact printable_ident h.1 c hc
    · revert c; unfold Printable; decide
    · exact text_printable d h.2 c hc
  | .record n ds, h, c, hc => by
    simp only [Dbg.text, List.mem_append] at hc
    rcases hc with ((hc | hc) | hc) | hc
    · exact printable_ident h.1 c hc
    · revert c; unfold Printable; decide
    · exact items_printable ds h.2 c hc
    · revert c; unfold Printable; decide
  | .tuple n ds, h, c, hc => by
    simp only [Dbg.text, List.mem_append] at hc
    rcases hc with ((hc | hc) | hc) | hc
    · exact printable_ident h.1 c hc
    · revert c; unfold Printable; decide
    · exact items_printable ds h.2 c hc
    · revert c; unfold Printable; decide
  | .list ds, h, c, hc => by
    simp only [Dbg.text, List.mem_append] at hc
    rcases hc with (hc | hc) | hc
    · revert c; unfold Printable; decide
    · exact items_printable ds h c hc
    · revert c; unfold Printable; decide
  | .set n ds, h, c, hc => by
    simp only [Dbg.text, List.mem_append] at hc
    rcases hc with ((hc | hc) | hc) | hc
    · exact printable_ident h.1 c hc
    · revert c; unfold Printable; decide
    · exact items_printable ds h.2 c hc
    · revert c; unfold Printable; decide

theorem items_printable : ∀ (ds : List Dbg), Dbg.AllWF ds → ∀ c ∈ Dbg.textItems ds, Printable c
  | [], _, c, hc => by cases hc
  | d :: ds, h, c, hc => by
    rcases List.mem_append.mp hc with hc | hc
    · exact text_printable d h.1 c hc
    · exact rest_printable ds h.2 c hc

theorem rest_printable : ∀ (ds : List Dbg), Dbg.AllWF ds → ∀ c ∈ Dbg.textRest ds, Printable c
  | [], _, c, hc => by cases hc
  | d :: ds, h, c, hc => by
    simp only [Dbg.textRest, List.mem_append] at hc
    rcases hc with (hc | hc) | hc
    · revert c; unfold Printable; decide
    · exact text_printable d h.1 c hc
    · exact rest_printable ds h.2 c hc

end

/-! ## Values are words, and different values are different words -/

theorem isWord_append {a b : Bytes} (ha : isWord a = true) (hb : b.all isWordByte = true) : isWord (a ++ b) = true := by
  simp only [isWord, Bool.and_eq_true, Bool.not_eq_true', List.isEmpty_eq_false_iff, List.all_append] at ha ⊢
  exact ⟨by simp [ha.1], ha.2, hb⟩

theorem digit_word {c : UInt8} (h : 0x30 ≤ c.toNat ∧ c.toNat ≤ 0x39) : isWordByte c = true := by
  have : ∀ c : UInt8, 0x30 ≤ c.toNat ∧ c.toNat ≤ 0x39 → isWordByte c = true := all_bytes (by decide +kernel)
  exact this c h

theorem showNat_all {base : Nat} (h2 : 2 ≤ base) (h10 : base ≤ 10) (n : Nat) : (showNat base n).all isWordByte = true :=
  List.all_eq_true.mpr fun c hc => digit_word (mem_showNat h2 h10 n c hc)

theorem isWord_showNat (n : Nat) : isWord (showNat 10 n) = true := by
  have h0 : showNat 10 n ≠ [] := by
    unfold showNat
    split <;> simp
  simp only [isWord, Bool.and_eq_true, Bool.not_eq_true', List.isEmpty_eq_false_iff]
  exact ⟨h0, showNat_all (by decide) (by decide) n⟩

theorem hexDigits_all (k n : Nat) : (hexDigits k n).all isWordByte = true := by
  induction k generalizing n with
  | zero => rfl
  | succ k ih =>
    have : ∀ d, d < 16 → isWordByte (upperHex d) = true := by decide
    rw [hexDigits, List.all_append, ih, Bool.true_and, List.all_cons, this _ (Nat.mod_lt _ (by decide))]
    rfl

namespace Dbg

theorem wf_nat (n : Nat) : (nat n).WF := isWord_showNat n
theorem wf_u32 (n : UInt32) : (u32 n).WF := wf_nat _
theorem wf_u64 (n : UInt64) : (u64 n).WF := wf_nat _
theorem wf_id (n : NonZeroU64) : (id n).WF := wf_nat _
theorem wf_pid (n : { n : UInt32 // n ≠ 0 }) : (pid n).WF := wf_nat _
theorem wf_bool (b : Bool) : (bool b).WF := by cases b <;> (show isWord _ = true; decide)
theorem wf_hex32 (n : UInt32) : (hex32 n).WF := isWord_append (by decide) (hexDigits_all _ _)
theorem wf_hex64 (n : UInt64) : (hex64 n).WF := isWord_append (by decide) (hexDigits_all _ _)
theorem wf_octal (n : UInt32) : (octal n).WF := isWord_append (by decide) (showNat_all (by decide) (by decide) _)
theorem wf_mode (m : FileMode) : (mode m).WF := wf_octal _
theorem wf_name (n : NodeName) : (name n).WF := trivial
theorem wf_cstr (n : CStr) : (cstr n).WF := trivial

theorem wf_time (t : UnixTime) : (time t).WF := by
  refine ⟨by decide, ?_, trivial⟩
  have hp : (zeroPad 9 (showNat 10 t.nanos.toNat)).all isWordByte = true := by
    rw [zeroPad, List.all_append, showNat_all (by decide) (by decide), Bool.and_true]
    exact List.all_eq_true.mpr fun c hc => by rw [List.eq_of_mem_replicate hc]; decide
  have hs : isWord (showInt64 t.seconds) = true := by
    unfold showInt64
    split
    · exact isWord_append (a := [45]) (by decide) (showNat_all (by decide) (by decide) _)
    · exact isWord_showNat _
  exact isWord_append (isWord_append hs (by decide)) hp

theorem wf_option {α} {f : α → Dbg} (h : ∀ a, (f a).WF) (o : Option α) : (option f o).WF := by
  cases o with
  | none => show isWord _ = true; decide
  | some a => exact ⟨by decide, h a, trivial⟩

theorem wf_map {α} {f : α → Dbg} (l : List α) (h : ∀ a ∈ l, (f a).WF) : AllWF (l.map f) := by
  induction l with
  | nil => trivial
  | cons a l ih => exact ⟨h a (by simp), ih fun x hx => h x (by simp [hx])⟩

theorem wf_flags (t : FlagType) (s : Flags t.width) : (flags t s).WF := by
  refine ⟨by cases t <;> decide +kernel, wf_map _ fun m hm => ?_⟩
  rw [C35_debug, List.mem_map] at hm
  obtain ⟨i, hi, rfl⟩ := hm
  have hi : i < t.width := List.mem_range.mp (List.mem_filter.mp hi).1
  show isWord (t.debugFlag _) = true
  unfold FlagType.debugFlag
  rw [flagName_spec t i hi]
  have hn : ∀ p ∈ flagBits t, isWord (Fuse.text p.2) = true := by cases t <;> decide +kernel
  cases h : (flagBits t).find? (·.1 == i) with
  | some p => exact hn p (List.mem_of_find?_eq_some h)
  | none => exact isWord_append (by decide) (hexDigits_all _ _)

theorem wf_flags32 (t : FlagType) (n : UInt32) : (flags32 t n).WF := wf_flags t _
theorem wf_flags64 (t : FlagType) (n : UInt64) : (flags64 t n).WF := wf_flags t _
theorem wf_size (o : Option { k : Nat // k ≠ 0 }) : (option (fun n => nat n.val) o).WF := wf_option (fun _ => wf_nat _) o
theorem wf_byteList (v : Bytes) : (byteList v).WF := wf_map v fun _ _ => wf_nat _

theorem wf_whence (n : UInt32) : (whence n).WF := by
  unfold whence
  split
  · show isWord _ = true; decide
  · split
    · show isWord _ = true; decide
    · exact wf_u32 n

theorem wf_lockMode (p : Platform) (m : UInt32) : (lockMode p m).WF := by
  unfold lockMode
  split
  · show isWord _ = true; decide
  · split
    · show isWord _ = true; decide
    · split
      · show isWord _ = true; decide
      · exact ⟨by decide, wf_u32 m, trivial⟩

theorem wf_lockRange (r : LockRange) : (lockRange r).WF :=
  ⟨by decide, ⟨by decide, wf_u64 _⟩, ⟨by decide, wf_option wf_id _⟩, trivial⟩

theorem wf_lock (p : Platform) (l : Lock) : (lock p l).WF :=
  ⟨by decide, ⟨by decide, wf_lockMode p _⟩, ⟨by decide, wf_lockRange _⟩, ⟨by decide, wf_option wf_pid _⟩, trivial⟩

theorem wf_version (v : Version) : (version v).WF :=
  ⟨by decide, ⟨by decide, wf_u32 _⟩, ⟨by decide, wf_u32 _⟩, trivial⟩

theorem wf_item (i : ForgetItem) : (item i).WF :=
  ⟨by decide, ⟨by decide, wf_id _⟩, ⟨by decide, wf_u64 _⟩, trivial⟩

theorem wf_items (l : List ForgetItem) : (items l).WF := wf_map l fun _ _ => wf_item _

theorem wf_opcode (n : UInt32) : (opcode n).WF := by
  unfold opcode
  have hn : ∀ p ∈ opcodeNames, isWord (Fuse.text p.2) = true := by decide +kernel
  cases h : opcodeNames.find? fun p => p.1 == n.toNat with
  | some p => exact hn p (List.mem_of_find?_eq_some h)
  | none => exact ⟨by decide, wf_u32 n, trivial⟩

theorem nat_inj {a b : Nat} : nat a = nat b ↔ a = b := by
  refine ⟨fun h => ?_, fun h => by rw [h]⟩
  have h := Dbg.atom.inj h
  have := digits_showNat (base := 10) (by decide) (by decide) a
  rw [h, digits_showNat (base := 10) (by decide) (by decide) b] at this
  exact (Option.some.inj this).symm

theorem u32_inj {a b : UInt32} : u32 a = u32 b ↔ a = b := nat_inj.trans UInt32.toNat_inj
theorem u64_inj {a b : UInt64} : u64 a = u64 b ↔ a = b := nat_inj.trans UInt64.toNat_inj
theorem id_inj {a b : NonZeroU64} : id a = id b ↔ a = b := u64_inj.trans Subtype.ext_iff.symm
theorem pid_inj {a b : { n : UInt32 // n ≠ 0 }} : pid a = pid b ↔ a = b := u32_inj.trans Subtype.ext_iff.symm

theorem bool_inj {a b : Bool} : bool a = bool b ↔ a = b := by
  refine ⟨fun h => ?_, fun h => by rw [h]⟩
  have h := Dbg.atom.inj h
  revert h
  cases a <;> cases b <;> decide

theorem hex32_inj {a b : UInt32} : hex32 a = hex32 b ↔ a = b := by
  refine ⟨fun h => ?_, fun h => by rw [h]⟩
  have h := List.append_cancel_left (Dbg.atom.inj h)
  have h1 := readHex_hexDigits 8 a.toNat 0 (by have := a.toNat_lt; omega)
  rw [h, readHex_hexDigits 8 b.toNat 0 (by have := b.toNat_lt; omega)] at h1
  exact UInt32.toNat_inj.mp (by have := Option.some.inj h1; omega)

theorem hex64_inj {a b : UInt64} : hex64 a = hex64 b ↔ a = b := by
  refine ⟨fun h => ?_, fun h => by rw [h]⟩
  have h := List.append_cancel_left (Dbg.atom.inj h)
  have h1 := readHex_hexDigits 16 a.toNat 0 (by have := a.toNat_lt; omega)
  rw [h, readHex_hexDigits 16 b.toNat 0 (by have := b.toNat_lt; omega)] at h1
  exact UInt64.toNat_inj.mp (by have := Option.some.inj h1; omega)

theorem octal_inj {a b : UInt32} : octal a = octal b ↔ a = b := by
  refine ⟨fun h => ?_, fun h => by rw [h]⟩
  have h := List.append_cancel_left (Dbg.atom.inj h)
  have := digits_showNat (base := 8) (by decide) (by decide) a.toNat
  rw [h, digits_showNat (base := 8) (by decide) (by decide) b.toNat] at this
  exact UInt32.toNat_inj.mp (Option.some.inj this).symm

theorem mode_inj {a b : FileMode} : mode a = mode b ↔ a = b := by
  refine ⟨fun h => ?_, fun h => by rw [h]⟩
  have := octal_inj.mp (show octal a.bits = octal b.bits from h)
  cases a; cases b; cases this; rfl

theorem name_inj {a b : NodeName} : name a = name b ↔ a = b := by
  cases a; cases b; simp [name]

theorem cstr_inj {a b : CStr} : cstr a = cstr b ↔ a = b := by
  cases a; cases b; simp [cstr]

theorem quoted_inj {a b : Bytes} : Dbg.quoted a = Dbg.quoted b ↔ a = b := ⟨Dbg.quoted.inj, fun h => by rw [h]⟩

theorem option_inj {α} {f : α → Dbg} (hf : ∀ {a b}, f a = f b ↔ a = b) {a b : Option α} :
    option f a = option f b ↔ a = b := by
  refine ⟨fun h => ?_, fun h => by rw [h]⟩
  cases a <;> cases b
  · rfl
  · cases h
  · cases h
  · rw [hf.mp (List.cons.inj (Dbg.tuple.inj h).2).1]

theorem map_inj {α} {f : α → Dbg} (hf : ∀ {a b}, f a = f b ↔ a = b) {l l' : List α} :
    l.map f = l'.map f ↔ l = l' :=
  List.map_inj_right fun _ _ => hf.mp

theorem text_flags (t : FlagType) (s : Flags t.width) : (flags t s).text = t.debug s := by
  have hr : ∀ l : List Bytes, ∀ e, commaSeparated (e :: l) = e ++ textRest (l.map .atom) := by
    intro l
    induction l with
    | nil => intro e; simp [commaSeparated, textRest]
    | cons x l ih =>
      intro e
      rw [commaSeparated, ih, List.map_cons, textRest]
      · simp [Dbg.text]
      · simp
  have hi : ∀ l : List Bytes, textItems (l.map .atom) = commaSeparated l := by
    intro l
    cases l with
    | nil => rfl
    | cons e l => rw [hr]; rfl
  have := hi (s.debugMasks.map t.debugFlag)
  rw [List.map_map] at this
  simp only [flags, Dbg.text, FlagType.debug]
  rw [show (fun m => Dbg.atom (t.debugFlag m)) = Dbg.atom ∘ t.debugFlag from rfl, this]
  simp [Fuse.text, ascii]

theorem flags_inj {t : FlagType} {s s' : Flags t.width} : flags t s = flags t s' ↔ s = s' := by
  refine ⟨fun h => ?_, fun h => by rw [h]⟩
  have h := congrArg Dbg.text h
  rw [text_flags, text_flags] at h
  exact eq_of_heq (Sigma.mk.inj (C60_injective t t s s' h)).2

theorem flags32_inj {t : FlagType} (ht : t.width = 32) {a b : UInt32} : flags32 t a = flags32 t b ↔ a = b := by
  refine ⟨fun h => ?_, fun h => by rw [h]⟩
  have := congrArg BitVec.toNat (congrArg Flags.bits (flags_inj.mp h))
  simp only [BitVec.toNat_ofNat, ht] at this
  have h1 := a.toNat_lt
  have h2 := b.toNat_lt
  exact UInt32.toNat_inj.mp (by omega)

theorem flags64_inj {t : FlagType} (ht : t.width = 64) {a b : UInt64} : flags64 t a = flags64 t b ↔ a = b := by
  refine ⟨fun h => ?_, fun h => by rw [h]⟩
  have := congrArg BitVec.toNat (congrArg Flags.bits (flags_inj.mp h))
  simp only [BitVec.toNat_ofNat, ht] at this
  have h1 := a.toNat_lt
  have h2 := b.toNat_lt
  exact UInt64.toNat_inj.mp (by omega)

theorem showInt64_inj {a b : Int64} (h : showInt64 a = showInt64 b) : a = b := by
  have hd : ∀ n, (showNat 10 n).head? ≠ some 45 := fun n h45 => (dot_not_mem n).2 (List.mem_of_head? h45)
  have hn : ∀ {a b : Nat}, showNat 10 a = showNat 10 b → a = b := fun h => nat_inj.mp (by rw [nat, h, nat])
  unfold showInt64 at h
  by_cases ha : a < 0 <;> by_cases hb : b < 0
  · rw [if_pos ha, if_pos hb] at h
    have := hn (List.cons.inj h).2
    rw [Int64.lt_iff_toInt_lt] at ha hb
    have h0 : (0 : Int64).toInt = 0 := rfl
    exact Int64.toInt_inj.mp (by omega)
  · rw [if_pos ha, if_neg hb] at h
    exact absurd (by rw [← h]; rfl) (hd b.toInt.natAbs)
  · rw [if_neg ha, if_pos hb] at h
    exact absurd (by rw [h]; rfl) (hd a.toInt.natAbs)
  · rw [if_neg ha, if_neg hb] at h
    have := hn h
    rw [Int64.lt_iff_toInt_lt] at ha hb
    have h0 : (0 : Int64).toInt = 0 := rfl
    exact Int64.toInt_inj.mp (by omega)

theorem showInt64_no_dot (a : Int64) : (46 : UInt8) ∉ showInt64 a := by
  unfold showInt64
  split
  · rw [List.mem_cons, not_or]; exact ⟨by decide, (dot_not_mem _).1⟩
  · exact (dot_not_mem _).1

theorem time_inj {a b : UnixTime} : time a = time b ↔ a = b := by
  refine ⟨fun h => ?_, fun h => by rw [h]⟩
  have h := Dbg.atom.inj (List.cons.inj (Dbg.tuple.inj h).2).1
  have hdot : Fuse.text "." = [46] := rfl
  rw [hdot, List.append_assoc, List.append_assoc, List.singleton_append, List.singleton_append] at h
  obtain ⟨h1, h2⟩ := split_comma (showInt64_no_dot _) (showInt64_no_dot _) h
  have hz : ∀ n : Nat, Kernel.digits 10 0 (zeroPad 9 (showNat 10 n)) = some n := fun n => by
    rw [zeroPad, digits_zeros _ _ _ (by decide)]; exact digits_showNat (by decide) (by decide) _
  have h3 := hz a.nanos.toNat
  rw [h2, hz] at h3
  have h4 := UInt32.toNat_inj.mp (Option.some.inj h3)
  have h5 := showInt64_inj h1
  cases a; cases b; simp_all

theorem whence_inj {a b : UInt32} : whence a = whence b ↔ a = b := by
  refine ⟨fun h => ?_, fun h => by rw [h]⟩
  have hne : ∀ (n : Nat) (c : UInt8) (t : Bytes), isWordByte c = true → ¬ (0x30 ≤ c.toNat ∧ c.toNat ≤ 0x39) →
      showNat 10 n ≠ c :: t := by
    intro n c t _ hc h
    exact hc (mem_showNat (base := 10) (by decide) (by decide) n c (by rw [h]; exact List.mem_cons_self ..))
  have h3 : ∀ n : UInt32, u32 n ≠ .atom (Fuse.text "SEEK_DATA") := fun n h =>
    hne n.toNat 83 _ (by decide) (by decide) (Dbg.atom.inj h)
  have h4 : ∀ n : UInt32, u32 n ≠ .atom (Fuse.text "SEEK_HOLE") := fun n h =>
    hne n.toNat 83 _ (by decide) (by decide) (Dbg.atom.inj h)
  unfold whence at h
  by_cases a3 : a = 3 <;> by_cases b3 : b = 3
  · rw [a3, b3]
  · rw [if_pos a3, if_neg b3] at h
    by_cases b4 : b = 4
    · rw [if_pos b4] at h; exact absurd (Dbg.atom.inj h) (by decide)
    · rw [if_neg b4] at h; exact absurd h.symm (h3 b)
  · rw [if_neg a3, if_pos b3] at h
    by_cases a4 : a = 4
    · rw [if_pos a4] at h; exact absurd (Dbg.atom.inj h) (by decide)
    · rw [if_neg a4] at h; exact absurd h (h3 a)
  · rw [if_neg a3, if_neg b3] at h
    by_cases a4 : a = 4 <;> by_cases b4 : b = 4
    · rw [a4, b4]
    · rw [if_pos a4, if_neg b4] at h; exact absurd h.symm (h4 b)
    · rw [if_neg a4, if_pos b4] at h; exact absurd h (h4 a)
    · rw [if_neg a4, if_neg b4] at h; exact u32_inj.mp h

theorem text_lockMode (p : Platform) (m : UInt32) : (lockMode p m).text = LockMode.debug p m := by
  unfold lockMode LockMode.debug
  split
  · rfl
  · split
    · rfl
    · split
      · rfl
      · simp [Dbg.text, textItems, textRest, u32, nat, Fuse.text, ascii]

theorem lockMode_inj {p : Platform} {a b : UInt32} : lockMode p a = lockMode p b ↔ a = b := by
  refine ⟨fun h => ?_, fun h => by rw [h]⟩
  have h := congrArg Dbg.text h
  rw [text_lockMode, text_lockMode] at h
  exact (C65_mode_debug p a b).1 h

theorem lockRange_inj {a b : LockRange} : lockRange a = lockRange b ↔ a = b := by
  cases a; cases b
  simp only [lockRange, Dbg.record.injEq, List.cons.injEq, Dbg.field.injEq, true_and, and_true, u64_inj,
    option_inj id_inj, LockRange.mk.injEq]

theorem lock_inj {p : Platform} {a b : Lock} : lock p a = lock p b ↔ a = b := by
  cases a; cases b
  simp only [lock, Dbg.record.injEq, List.cons.injEq, Dbg.field.injEq, true_and, and_true, lockMode_inj, lockRange_inj,
    option_inj pid_inj, Lock.mk.injEq]

theorem version_inj {a b : Version} : version a = version b ↔ a = b := by
  cases a; cases b
  simp only [version, Dbg.record.injEq, List.cons.injEq, Dbg.field.injEq, true_and, and_true, u32_inj, Version.mk.injEq]

theorem item_inj {a b : ForgetItem} : item a = item b ↔ a = b := by
  cases a; cases b
  simp only [item, Dbg.record.injEq, List.cons.injEq, Dbg.field.injEq, true_and, and_true, u64_inj, id_inj,
    ForgetItem.mk.injEq]

theorem items_inj {a b : List ForgetItem} : items a = items b ↔ a = b := by
  simp only [items, Dbg.list.injEq, map_inj item_inj]

theorem byteList_inj {a b : Bytes} : byteList a = byteList b ↔ a = b := by
  simp only [byteList, Dbg.list.injEq]
  exact map_inj (nat_inj.trans UInt8.toNat_inj)

theorem size_inj {a b : Option { k : Nat // k ≠ 0 }} :
    option (fun n => nat n.val) a = option (fun n => nat n.val) b ↔ a = b :=
  option_inj (nat_inj.trans Subtype.ext_iff.symm)

theorem opcode_inj {a b : UInt32} : opcode a = opcode b ↔ a = b := by
  refine ⟨fun h => ?_, fun h => by rw [h]⟩
  unfold opcode at h
  cases ha : opcodeNames.find? fun p => p.1 == a.toNat with
  | some p =>
    cases hb : opcodeNames.find? fun p => p.1 == b.toNat with
    | some q =>
      rw [ha, hb] at h
      have h1 : ∀ p ∈ opcodeNames, ∀ q ∈ opcodeNames, Fuse.text p.2 = Fuse.text q.2 → p.1 = q.1 := by decide +kernel
      have h2 := h1 p (List.mem_of_find?_eq_some ha) q (List.mem_of_find?_eq_some hb) (Dbg.atom.inj h)
      have h3 := List.find?_some ha
      have h4 := List.find?_some hb
      simp only [beq_iff_eq] at h3 h4
      exact UInt32.toNat_inj.mp (by omega)
    | none => rw [ha, hb] at h; cases h
  | none =>
    cases hb : opcodeNames.find? fun p => p.1 == b.toNat with
    | some q => rw [ha, hb] at h; cases h
    | none =>
      rw [ha, hb] at h
      exact u32_inj.mp (List.cons.inj (Dbg.tuple.inj h).2).1

end Dbg

/-! ## Requests -/

namespace Spec

/-- Two requests of the same type whose accessors return the same values. -/
def SameValues : AnyRequest → AnyRequest → Prop
  | .access a, .access b => a.nodeId = b.nodeId ∧ a.mask = b.mask
  | .bmap a, .bmap b => a.nodeId = b.nodeId ∧ a.block = b.block ∧ a.blockSize = b.blockSize
  | .copyFileRange a, .copyFileRange b => a.inputNodeId = b.inputNodeId ∧ a.inputHandle = b.inputHandle ∧
      a.inputOffset = b.inputOffset ∧ a.outputNodeId = b.outputNodeId ∧ a.outputHandle = b.outputHandle ∧
      a.outputOffset = b.outputOffset ∧ a.len = b.len ∧ a.flags = b.flags
  | .fallocate a, .fallocate b => a.nodeId = b.nodeId ∧ a.handle = b.handle ∧ a.offset = b.offset ∧
      a.length = b.length ∧ a.fallocateFlags = b.fallocateFlags
  | .forget a, .forget b => a.items = b.items
  | .fsyncdir a, .fsyncdir b => a.nodeId = b.nodeId ∧ a.handle = b.handle ∧ a.flags = b.flags
  | .getlk a, .getlk b => a.nodeId = b.nodeId ∧ a.handle = b.handle ∧ a.owner = b.owner ∧ a.lockMode = b.lockMode ∧
      a.lockRange = b.lockRange
  | .getxattr a, .getxattr b => a.nodeId = b.nodeId ∧ a.size = b.size ∧ a.name = b.name
  | .interrupt a, .interrupt b => a.requestId = b.requestId
  | .link a, .link b => a.nodeId = b.nodeId ∧ a.newParentId = b.newParentId ∧ a.newName = b.newName
  | .listxattr a, .listxattr b => a.nodeId = b.nodeId ∧ a.size = b.size
  | .lookup a, .lookup b => a.parentId = b.parentId ∧ a.name = b.name
  | .lseek a, .lseek b => a.nodeId = b.nodeId ∧ a.handle = b.handle ∧ a.offset = b.offset ∧ a.whence = b.whence
  | .mkdir a, .mkdir b => a.parentId = b.parentId ∧ a.name = b.name ∧ a.mode = b.mode ∧ a.umask = b.umask
  | .opendir a, .opendir b => a.nodeId = b.nodeId ∧ a.flags = b.flags ∧ a.openFlags = b.openFlags
  | .poll a, .poll b => a.nodeId = b.nodeId ∧ a.pollHandle = b.pollHandle ∧ a.pollEvents = b.pollEvents ∧
      a.flags = b.flags
  | .readlink a, .readlink b => a.nodeId = b.nodeId
  | .removexattr a, .removexattr b => a.nodeId = b.nodeId ∧ a.name = b.name
  | .rename a, .rename b => a.oldDirectoryId = b.oldDirectoryId ∧ a.oldName = b.oldName ∧
      a.newDirectoryId = b.newDirectoryId ∧ a.newName = b.newName ∧ a.renameFlags = b.renameFlags
  | .rmdir a, .rmdir b => a.parentId = b.parentId ∧ a.name = b.name
  | .setattr a, .setattr b => a.nodeId = b.nodeId ∧ a.handle = b.handle ∧ a.size = b.size ∧
      a.lockOwner = b.lockOwner ∧ a.atime = b.atime ∧ a.atimeNow = b.atimeNow ∧ a.mtime = b.mtime ∧
      a.mtimeNow = b.mtimeNow ∧ a.ctime = b.ctime ∧ a.mode = b.mode ∧ a.userId = b.userId ∧ a.groupId = b.groupId
  | .setlk a, .setlk b => a.nodeId = b.nodeId ∧ a.handle = b.handle ∧ a.mayBlock = b.mayBlock ∧ a.owner = b.owner ∧
      a.lock = b.lock ∧ a.flags = b.flags
  | .statfs a, .statfs b => a.nodeId = b.nodeId
  | .symlink a, .symlink b => a.parentId = b.parentId ∧ a.name = b.name ∧ a.content = b.content
  | .unlink a, .unlink b => a.parentId = b.parentId ∧ a.name = b.name
  | .fuseInit a, .fuseInit b => a.version = b.version ∧ a.maxReadahead = b.maxReadahead ∧ a.flags = b.flags
  | .cuseInit a, .cuseInit b => a.version = b.version ∧ a.flags = b.flags
  | .create a, .create b => a.nodeId = b.nodeId ∧ a.name = b.name ∧ a.flags = b.flags ∧ a.openFlags = b.openFlags ∧
      a.mode = b.mode ∧ a.umask = b.umask
  | .getattr a, .getattr b => a.nodeId = b.nodeId ∧ a.handle = b.handle
  | .mknod a, .mknod b => a.parentId = b.parentId ∧ a.name = b.name ∧ a.mode = b.mode ∧ a.umask = b.umask ∧
      a.deviceNumber = b.deviceNumber
  | .readdir a, .readdir b => a.nodeId = b.nodeId ∧ a.size = b.size ∧ a.offset = b.offset ∧ a.handle = b.handle ∧
      a.openFlags = b.openFlags
  | .readdirplus a, .readdirplus b => a.nodeId = b.nodeId ∧ a.size = b.size ∧ a.offset = b.offset ∧
      a.handle = b.handle ∧ a.openFlags = b.openFlags
  | .releasedir a, .releasedir b => a.nodeId = b.nodeId ∧ a.handle = b.handle ∧ a.lockOwner = b.lockOwner ∧
      a.openFlags = b.openFlags
  | .setxattr a, .setxattr b => a.nodeId = b.nodeId ∧ a.name = b.name ∧ a.flags = b.flags ∧
      a.setxattrFlags = b.setxattrFlags ∧ a.value = b.value
  | .flush a, .flush b => a.nodeId = b.nodeId ∧ a.handle = b.handle ∧ a.lockOwner = b.lockOwner
  | .fsync a, .fsync b => a.nodeId = b.nodeId ∧ a.handle = b.handle ∧ a.flags = b.flags
  | .ioctl a, .ioctl b => a.nodeId = b.nodeId ∧ a.handle = b.handle ∧ a.command = b.command ∧ a.arg = b.arg ∧
      a.outputLen = b.outputLen ∧ a.flags = b.flags ∧ a.input = b.input
  | .open_ a, .open_ b => a.nodeId = b.nodeId ∧ a.flags = b.flags ∧ a.openFlags = b.openFlags
  | .read a, .read b => a.nodeId = b.nodeId ∧ a.size = b.size ∧ a.offset = b.offset ∧ a.handle = b.handle ∧
      a.lockOwner = b.lockOwner ∧ a.openFlags = b.openFlags
  | .release a, .release b => a.nodeId = b.nodeId ∧ a.handle = b.handle ∧ a.lockOwner = b.lockOwner ∧
      a.openFlags = b.openFlags
  | .write a, .write b => a.nodeId = b.nodeId ∧ a.offset = b.offset ∧ a.handle = b.handle ∧ a.value = b.value ∧
      a.flags = b.flags ∧ a.lockOwner = b.lockOwner ∧ a.openFlags = b.openFlags
  | _, _ => False

end Spec

theorem bind_ok_elim {α β : Type} {x : Except Fault α} {f : α → Except Fault β} {b : β} (h : x >>= f = .ok b) :
    ∃ a, x = .ok a ∧ f a = .ok b := by
  cases x with
  | ok a => exact ⟨a, rfl, h⟩
  | error e => cases h

theorem pure_ok_elim {α : Type} {a b : α} (h : (pure a : Except Fault α) = .ok b) : a = b := Except.ok.inj h

/-- The name at the start of the text. -/
def AnyRequest.typeName : AnyRequest → String
  | .access _ => "AccessRequest"
  | .bmap _ => "BmapRequest"
  | .copyFileRange _ => "CopyFileRangeRequest"
  | .fallocate _ => "FallocateRequest"
  | .forget _ => "ForgetRequest"
  | .fsyncdir _ => "FsyncdirRequest"
  | .getlk _ => "GetlkRequest"
  | .getxattr _ => "GetxattrRequest"
  | .interrupt _ => "InterruptRequest"
  | .link _ => "LinkRequest"
  | .listxattr _ => "ListxattrRequest"
  | .lookup _ => "LookupRequest"
  | .lseek _ => "LseekRequest"
  | .mkdir _ => "MkdirRequest"
  | .opendir _ => "OpendirRequest"
  | .poll _ => "PollRequest"
  | .readlink _ => "ReadlinkRequest"
  | .removexattr _ => "RemovexattrRequest"
  | .rename _ => "RenameRequest"
  | .rmdir _ => "RmdirRequest"
  | .setattr _ => "SetattrRequest"
  | .setlk _ => "SetlkRequest"
  | .statfs _ => "StatfsRequest"
  | .symlink _ => "SymlinkRequest"
  | .unlink _ => "UnlinkRequest"
  | .fuseInit _ => "FuseInitRequest"
  | .cuseInit _ => "CuseInitRequest"
  | .create _ => "CreateRequest"
  | .getattr _ => "GetattrRequest"
  | .mknod _ => "MknodRequest"
  | .readdir _ => "ReaddirRequest"
  | .readdirplus _ => "ReaddirplusRequest"
  | .releasedir _ => "ReleasedirRequest"
  | .setxattr _ => "SetxattrRequest"
  | .flush _ => "FlushRequest"
  | .fsync _ => "FsyncRequest"
  | .ioctl _ => "IoctlRequest"
  | .open_ _ => "OpenRequest"
  | .read _ => "ReadRequest"
  | .release _ => "ReleaseRequest"
  | .write _ => "WriteRequest"

/-- Takes the computations that make up the text of a request apart. -/
macro "open_debug" h:ident : tactic => `(tactic| (
  simp only [AnyRequest.debug,
    AccessRequest.debug, BmapRequest.debug, CopyFileRangeRequest.debug, FallocateRequest.debug,
    ForgetRequest.debug, FsyncdirRequest.debug, GetlkRequest.debug, GetxattrRequest.debug, InterruptRequest.debug,
    LinkRequest.debug, ListxattrRequest.debug, LookupRequest.debug, LseekRequest.debug, MkdirRequest.debug,
    OpendirRequest.debug, PollRequest.debug, ReadlinkRequest.debug, RemovexattrRequest.debug, RenameRequest.debug,
    RmdirRequest.debug, SetattrRequest.debug, SetlkRequest.debug, StatfsRequest.debug, SymlinkRequest.debug,
    UnlinkRequest.debug, FuseInitRequest.debug, CuseInitRequest.debug, CreateRequest.debug, GetattrRequest.debug,
    MknodRequest.debug, ReaddirRequest.debug, ReaddirplusRequest.debug, ReleasedirRequest.debug,
    SetxattrRequest.debug, FlushRequest.debug, FsyncRequest.debug, IoctlRequest.debug, OpenRequest.debug,
    ReadRequest.debug, ReleaseRequest.debug, WriteRequest.debug] at $h:ident
  repeat (obtain ⟨_, _, $h:ident⟩ := bind_ok_elim $h)
  replace $h := pure_ok_elim $h))

theorem debug_record {p : Platform} {a : AnyRequest} {d : Dbg} (h : a.debug p = .ok d) : ∃ ds, d = .record a.typeName ds := by
  cases a <;> (open_debug h; exact ⟨_, h.symm⟩)

theorem debug_wf {p : Platform} {a : AnyRequest} {d : Dbg} (h : a.debug p = .ok d) : d.WF := by
  cases a <;> (
    open_debug h
    subst h
    simp only [Dbg.WF, Dbg.AllWF, Dbg.wf_u32, Dbg.wf_u64, Dbg.wf_id, Dbg.wf_name, Dbg.wf_cstr, Dbg.wf_hex32,
      Dbg.wf_hex64, Dbg.wf_octal, Dbg.wf_mode, Dbg.wf_bool, Dbg.wf_flags32, Dbg.wf_flags64, Dbg.wf_items,
      Dbg.wf_lockMode, Dbg.wf_lockRange, Dbg.wf_lock, Dbg.wf_version, Dbg.wf_byteList, Dbg.wf_whence, Dbg.wf_size,
      Dbg.wf_option Dbg.wf_u32, Dbg.wf_option Dbg.wf_u64, Dbg.wf_option Dbg.wf_hex64, Dbg.wf_option Dbg.wf_id,
      Dbg.wf_option Dbg.wf_time, Dbg.wf_option Dbg.wf_mode, and_true]
    decide +kernel)

/-- The names of all request types, in the order of the constructors. -/
def typeNames : List String :=
  ["AccessRequest", "BmapRequest", "CopyFileRangeRequest", "FallocateRequest", "ForgetRequest", "FsyncdirRequest",
    "GetlkRequest", "GetxattrRequest", "InterruptRequest", "LinkRequest", "ListxattrRequest", "LookupRequest",
    "LseekRequest", "MkdirRequest", "OpendirRequest", "PollRequest", "ReadlinkRequest", "RemovexattrRequest",
    "RenameRequest", "RmdirRequest", "SetattrRequest", "SetlkRequest", "StatfsRequest", "SymlinkRequest",
    "UnlinkRequest", "FuseInitRequest", "CuseInitRequest", "CreateRequest", "GetattrRequest", "MknodRequest",
    "ReaddirRequest", "ReaddirplusRequest", "ReleasedirRequest", "SetxattrRequest", "FlushRequest", "FsyncRequest",
    "IoctlRequest", "OpenRequest", "ReadRequest", "ReleaseRequest", "WriteRequest"]

theorem typeName_get (a : AnyRequest) : typeNames[a.ctorIdx]? = some a.typeName := by
  cases a <;> rfl

theorem ctorIdx_of_typeName {a b : AnyRequest} (h : a.typeName = b.typeName) : a.ctorIdx = b.ctorIdx := by
  have hn : ∀ i, i < 41 → ∀ j, j < 41 → typeNames[i]? = typeNames[j]? → i = j := by decide +kernel
  have hlt : ∀ a : AnyRequest, a.ctorIdx < 41 := fun a => by
    have := typeName_get a
    have h1 := (List.getElem?_eq_some_iff.mp this).1
    exact h1
  exact hn _ (hlt a) _ (hlt b) (by rw [typeName_get, typeName_get, h])

end Fuse
