import Verif.Names
import Verif.PropReply

/-!
# C64: names and strings
-/

namespace Fuse

/-! ## UTF-8 -/

theorem ofNat_toNat {n : Nat} (h : n < 256) : (UInt8.ofNat n).toNat = n := by
  simp only [UInt8.toNat_ofNat']; omega

theorem u8_ext {a b : UInt8} (h : a.toNat = b.toNat) : a = b := UInt8.toNat_inj.1 h

theorem char_range (c : Char) : c.toNat < 0xD800 ∨ (0xDFFF < c.toNat ∧ c.toNat < 0x110000) := c.valid

theorem charOfNat_toNat (c : Char) : Char.ofNat c.toNat = c := Char.ofNat_toNat c

theorem toNat_charOfNat {n : Nat} (h : n < 0xD800 ∨ (0xDFFF < n ∧ n < 0x110000)) : (Char.ofNat n).toNat = n := by
  have : n.isValidChar := h
  simp [Char.ofNat, this, Char.toNat, Char.ofNatAux]

theorem isCont_iff (b : UInt8) : isCont b = true ↔ 0x80 ≤ b.toNat ∧ b.toNat ≤ 0xBF := by
  simp [isCont, UInt8.le_iff_toNat_le]

/-- Decoding the encoding of a scalar value. -/
theorem next_encode (c : Char) (rest : Bytes) : nextUtf8 (encodeUtf8 c ++ rest) = some (c.toNat, rest) := by
  have hr := char_range c
  unfold encodeUtf8
  generalize hn : c.toNat = n at hr ⊢
  dsimp only
  have e : ∀ m : Nat, m < 256 → (UInt8.ofNat m).toNat = m := fun m h => ofNat_toNat h
  have ne : ∀ (m : Nat) (k : UInt8), m < 256 → (UInt8.ofNat m = k ↔ m = k.toNat) := by
    intro m k h
    rw [← UInt8.toNat_inj, e m h]
  split
  · rename_i h
    have h1 : UInt8.ofNat n < 0x80 := by rw [UInt8.lt_iff_toNat_lt, e n (by omega)]; exact h
    simp [nextUtf8, h1, e n (by omega)]
  split
  · rename_i h0 h
    have a0 := e (0xC0 + n / 64) (by omega)
    have a1 := e (0x80 + n % 64) (by omega)
    have c1 := (isCont_iff (UInt8.ofNat (0x80 + n % 64))).2 (by omega)
    have h1 : ¬ UInt8.ofNat (0xC0 + n / 64) < 0x80 := by
      rw [UInt8.lt_iff_toNat_lt, a0]; simp; omega
    have h2 : 0xC2 ≤ UInt8.ofNat (0xC0 + n / 64) ∧ UInt8.ofNat (0xC0 + n / 64) ≤ 0xDF := by
      rw [UInt8.le_iff_toNat_le, UInt8.le_iff_toNat_le, a0]; simp; omega
    simp only [List.cons_append, List.nil_append, nextUtf8, if_neg h1, if_pos h2, c1, if_true, a0, a1]
    simp only [Option.some.injEq, Prod.mk.injEq, and_true]; omega
  split
  · rename_i h0 h00 h
    have a0 := e (0xE0 + n / 4096) (by omega)
    have a1 := e (0x80 + n / 64 % 64) (by omega)
    have a2 := e (0x80 + n % 64) (by omega)
    have c1 := (isCont_iff (UInt8.ofNat (0x80 + n / 64 % 64))).2 (by omega)
    have c2 := (isCont_iff (UInt8.ofNat (0x80 + n % 64))).2 (by omega)
    have h1 : ¬ UInt8.ofNat (0xE0 + n / 4096) < 0x80 := by
      rw [UInt8.lt_iff_toNat_lt, a0]; simp; omega
    have h2 : ¬ (0xC2 ≤ UInt8.ofNat (0xE0 + n / 4096) ∧ UInt8.ofNat (0xE0 + n / 4096) ≤ 0xDF) := by
      rw [UInt8.le_iff_toNat_le, UInt8.le_iff_toNat_le, a0]; simp; omega
    have h3 : 0xE0 ≤ UInt8.ofNat (0xE0 + n / 4096) ∧ UInt8.ofNat (0xE0 + n / 4096) ≤ 0xEF := by
      rw [UInt8.le_iff_toNat_le, UInt8.le_iff_toNat_le, a0]; simp; omega
    have h4 : (UInt8.ofNat (0xE0 + n / 4096) != 0xE0 || 0xA0 ≤ UInt8.ofNat (0x80 + n / 64 % 64)) = true := by
      simp only [Bool.or_eq_true, bne_iff_ne, ne_eq, decide_eq_true_eq, ne _ _ (show 0xE0 + n / 4096 < 256 by omega),
        UInt8.le_iff_toNat_le, a1]
      simp; omega
    have h5 : (UInt8.ofNat (0xE0 + n / 4096) != 0xED || UInt8.ofNat (0x80 + n / 64 % 64) ≤ 0x9F) = true := by
      simp only [Bool.or_eq_true, bne_iff_ne, ne_eq, decide_eq_true_eq, ne _ _ (show 0xE0 + n / 4096 < 256 by omega),
        UInt8.le_iff_toNat_le, a1]
      simp; omega
    simp only [List.cons_append, List.nil_append, nextUtf8, if_neg h1, if_neg h2, if_pos h3, c1, c2, h4, h5,
      Bool.and_true, if_true, a0, a1, a2]
    simp only [Option.some.injEq, Prod.mk.injEq, and_true]; omega
  · rename_i h0 h00 h
    have a0 := e (0xF0 + n / 262144) (by omega)
    have a1 := e (0x80 + n / 4096 % 64) (by omega)
    have a2 := e (0x80 + n / 64 % 64) (by omega)
    have a3 := e (0x80 + n % 64) (by omega)
    have c1 := (isCont_iff (UInt8.ofNat (0x80 + n / 4096 % 64))).2 (by omega)
    have c2 := (isCont_iff (UInt8.ofNat (0x80 + n / 64 % 64))).2 (by omega)
    have c3 := (isCont_iff (UInt8.ofNat (0x80 + n % 64))).2 (by omega)
    have h1 : ¬ UInt8.ofNat (0xF0 + n / 262144) < 0x80 := by
      rw [UInt8.lt_iff_toNat_lt, a0]; simp; omega
    have h2 : ¬ (0xC2 ≤ UInt8.ofNat (0xF0 + n / 262144) ∧ UInt8.ofNat (0xF0 + n / 262144) ≤ 0xDF) := by
      rw [UInt8.le_iff_toNat_le, UInt8.le_iff_toNat_le, a0]; simp; omega
    have h3 : ¬ (0xE0 ≤ UInt8.ofNat (0xF0 + n / 262144) ∧ UInt8.ofNat (0xF0 + n / 262144) ≤ 0xEF) := by
      rw [UInt8.le_iff_toNat_le, UInt8.le_iff_toNat_le, a0]; simp; omega
    have h3' : 0xF0 ≤ UInt8.ofNat (0xF0 + n / 262144) ∧ UInt8.ofNat (0xF0 + n / 262144) ≤ 0xF4 := by
      rw [UInt8.le_iff_toNat_le, UInt8.le_iff_toNat_le, a0]; simp; omega
    have h4 : (UInt8.ofNat (0xF0 + n / 262144) != 0xF0 || 0x90 ≤ UInt8.ofNat (0x80 + n / 4096 % 64)) = true := by
      simp only [Bool.or_eq_true, bne_iff_ne, ne_eq, decide_eq_true_eq, ne _ _ (show 0xF0 + n / 262144 < 256 by omega),
        UInt8.le_iff_toNat_le, a1]
      simp; omega
    have h5 : (UInt8.ofNat (0xF0 + n / 262144) != 0xF4 || UInt8.ofNat (0x80 + n / 4096 % 64) ≤ 0x8F) = true := by
      simp only [Bool.or_eq_true, bne_iff_ne, ne_eq, decide_eq_true_eq, ne _ _ (show 0xF0 + n / 262144 < 256 by omega),
        UInt8.le_iff_toNat_le, a1]
      simp; omega
    simp only [List.cons_append, List.nil_append, nextUtf8, if_neg h1, if_neg h2, if_neg h3, if_pos h3', c1, c2, c3, h4, h5,
      Bool.and_true, if_true, a0, a1, a2, a3]
    simp only [Option.some.injEq, Prod.mk.injEq, and_true]; omega

/-- What a successful decoding step has read. -/
theorem next_some {bs rest : Bytes} {n : Nat} (h : nextUtf8 bs = some (n, rest)) :
    ∃ c : Char, c.toNat = n ∧ bs = encodeUtf8 c ++ rest := by
  have wrap : ∀ pre : Bytes, (n < 0xD800 ∨ (0xDFFF < n ∧ n < 0x110000)) →
      (∀ c : Char, c.toNat = n → encodeUtf8 c = pre) → bs = pre ++ rest →
      ∃ c : Char, c.toNat = n ∧ bs = encodeUtf8 c ++ rest := by
    intro pre hv hp hb
    exact ⟨Char.ofNat n, toNat_charOfNat hv, by rw [hp _ (toNat_charOfNat hv)]; exact hb⟩
  have of : ∀ (m : Nat) (b : UInt8), m = b.toNat → UInt8.ofNat m = b := by
    intro m b hm; subst hm; simp
  cases bs with
  | nil => simp [nextUtf8] at h
  | cons b0 r0 =>
    have l0 := b0.toNat_lt
    simp only [nextUtf8, UInt8.lt_iff_toNat_lt, UInt8.le_iff_toNat_le] at h
    simp only [UInt8.toNat_ofNat, Nat.reduceMod] at h
    split at h
    · rename_i h1
      simp only [Option.some.injEq, Prod.mk.injEq] at h
      obtain ⟨rfl, rfl⟩ := h
      refine wrap [b0] (by omega) (fun c hc => ?_) rfl
      simp only [encodeUtf8, hc, if_pos h1, of b0.toNat b0 rfl]
    split at h
    · rename_i h1 h2
      cases r0 with
      | nil => simp at h
      | cons b1 r1 =>
        dsimp only at h
        split at h
        · rename_i k1
          rw [isCont_iff] at k1
          simp only [Option.some.injEq, Prod.mk.injEq] at h
          obtain ⟨hn, rfl⟩ := h
          refine wrap [b0, b1] (by omega) (fun c hc => ?_) rfl
          simp only [encodeUtf8, hc, if_neg (show ¬ n < 0x80 by omega), if_pos (show n < 0x800 by omega),
            of (0xC0 + n / 64) b0 (by omega), of (0x80 + n % 64) b1 (by omega)]
        · cases h
    split at h
    · rename_i h1 h2 h3
      match r0, h with
      | [], h => simp at h
      | [_], h => simp at h
      | b1 :: b2 :: r1, h =>
        dsimp only at h
        split at h
        · rename_i k
          simp only [Bool.and_eq_true, Bool.or_eq_true, isCont_iff, bne_iff_ne, ne_eq, decide_eq_true_eq,
            ← UInt8.toNat_inj] at k
          simp only [UInt8.toNat_ofNat, Nat.reduceMod] at k
          simp only [Option.some.injEq, Prod.mk.injEq] at h
          obtain ⟨hn, rfl⟩ := h
          refine wrap [b0, b1, b2] (by omega) (fun c hc => ?_) rfl
          simp only [encodeUtf8, hc, if_neg (show ¬ n < 0x80 by omega), if_neg (show ¬ n < 0x800 by omega),
            if_pos (show n < 0x10000 by omega), of (0xE0 + n / 4096) b0 (by omega),
            of (0x80 + n / 64 % 64) b1 (by omega), of (0x80 + n % 64) b2 (by omega)]
        · cases h
    split at h
    · rename_i h1 h2 h3 h4
      match r0, h with
      | [], h => simp at h
      | [_], h => simp at h
      | [_, _], h => simp at h
      | b1 :: b2 :: b3 :: r1, h =>
        dsimp only at h
        split at h
        · rename_i k
          simp only [Bool.and_eq_true, Bool.or_eq_true, isCont_iff, bne_iff_ne, ne_eq, decide_eq_true_eq,
            ← UInt8.toNat_inj] at k
          simp only [UInt8.toNat_ofNat, Nat.reduceMod] at k
          simp only [Option.some.injEq, Prod.mk.injEq] at h
          obtain ⟨hn, rfl⟩ := h
          refine wrap [b0, b1, b2, b3] (by omega) (fun c hc => ?_) rfl
          simp only [encodeUtf8, hc, if_neg (show ¬ n < 0x80 by omega), if_neg (show ¬ n < 0x800 by omega),
            if_neg (show ¬ n < 0x10000 by omega), of (0xF0 + n / 262144) b0 (by omega),
            of (0x80 + n / 4096 % 64) b1 (by omega),
            of (0x80 + n / 64 % 64) b2 (by omega), of (0x80 + n % 64) b3 (by omega)]
        · cases h
    · cases h

theorem encode_length_pos (c : Char) : 0 < (encodeUtf8 c).length := by
  unfold encodeUtf8
  dsimp only
  split
  · simp
  split
  · simp
  split <;> simp

theorem asBytes_cons (c : Char) (s : Str) : Str.asBytes (c :: s) = encodeUtf8 c ++ Str.asBytes s := rfl

theorem fromUtf8With_asBytes (s : Str) : ∀ fuel, (Str.asBytes s).length ≤ fuel → fromUtf8With fuel (Str.asBytes s) = some s := by
  induction s with
  | nil => intro fuel _; cases fuel <;> rfl
  | cons c s ih =>
    intro fuel hf
    have hp := encode_length_pos c
    rw [asBytes_cons] at hf ⊢
    rw [List.length_append] at hf
    cases fuel with
    | zero => omega
    | succ fuel =>
      have hne : encodeUtf8 c ++ Str.asBytes s ≠ [] := by
        intro he
        have := congrArg List.length he
        simp only [List.length_append, List.length_nil] at this
        omega
      generalize hb : encodeUtf8 c ++ Str.asBytes s = bs at hne ⊢
      cases bs with
      | nil => exact absurd rfl hne
      | cons b bs =>
        simp only [fromUtf8With]
        rw [← hb, next_encode]
        dsimp only
        rw [ih fuel (by omega)]
        simp

theorem fromUtf8With_some : ∀ (fuel : Nat) (bs : Bytes) (s : Str), fromUtf8With fuel bs = some s → bs = Str.asBytes s := by
  intro fuel
  induction fuel with
  | zero =>
    intro bs s h
    cases bs with
    | nil => simp [fromUtf8With] at h; subst h; rfl
    | cons b bs => simp [fromUtf8With] at h
  | succ fuel ih =>
    intro bs s h
    cases bs with
    | nil => simp [fromUtf8With] at h; subst h; rfl
    | cons b bs =>
      simp only [fromUtf8With] at h
      split at h
      · cases h
      · rename_i n rest hn
        obtain ⟨c, rfl, hb⟩ := next_some hn
        cases hr : fromUtf8With fuel rest with
        | none => rw [hr] at h; simp at h
        | some s' =>
          rw [hr] at h
          simp at h
          subst h
          rw [hb, ih rest s' hr]
          rfl

/-- `core::str::from_utf8` is the inverse of `str::as_bytes`. -/
theorem fromUtf8_iff (bs : Bytes) (s : Str) : fromUtf8 bs = some s ↔ bs = s.asBytes :=
  ⟨fromUtf8With_some _ _ _, fun h => by subst h; exact fromUtf8With_asBytes s _ (Nat.le_refl _)⟩

theorem asBytes_inj {s t : Str} (h : s.asBytes = t.asBytes) : s = t := by
  have h1 := (fromUtf8_iff s.asBytes s).2 rfl
  rw [h, (fromUtf8_iff t.asBytes t).2 rfl] at h1
  exact (Option.some.inj h1).symm

/-- The bytes of an encoding: the character itself if it is ASCII, bytes from 0x80 on otherwise. -/
theorem encode_ascii {c : Char} (h : c.toNat < 0x80) : encodeUtf8 c = [.ofNat c.toNat] := by
  simp only [encodeUtf8, if_pos h]

theorem encode_high {c : Char} (h : ¬ c.toNat < 0x80) : ∀ b ∈ encodeUtf8 c, 0x80 ≤ b.toNat := by
  have hr := char_range c
  have e : ∀ m : Nat, m < 256 → (UInt8.ofNat m).toNat = m := fun m h => ofNat_toNat h
  intro b hb
  unfold encodeUtf8 at hb
  generalize c.toNat = n at *
  dsimp only at hb
  rw [if_neg h] at hb
  split at hb
  · simp only [List.mem_cons, List.not_mem_nil, or_false] at hb
    rcases hb with rfl | rfl <;> rw [e _ (by omega)] <;> omega
  split at hb
  · simp only [List.mem_cons, List.not_mem_nil, or_false] at hb
    rcases hb with rfl | rfl | rfl <;> rw [e _ (by omega)] <;> omega
  · simp only [List.mem_cons, List.not_mem_nil, or_false] at hb
    rcases hb with rfl | rfl | rfl | rfl <;> rw [e _ (by omega)] <;> omega

theorem char_ext {c d : Char} (h : c.toNat = d.toNat) : c = d := by
  rw [← charOfNat_toNat c, ← charOfNat_toNat d, h]

/-- An ASCII byte occurs in the encoding of a character iff it is that character. -/
theorem mem_encode {c : Char} {b : UInt8} (hb : b.toNat < 0x80) : b ∈ encodeUtf8 c ↔ c.toNat = b.toNat := by
  by_cases h : c.toNat < 0x80
  · rw [encode_ascii h]
    simp only [List.mem_singleton]
    constructor
    · rintro rfl; rw [ofNat_toNat (by omega)]
    · intro he; exact u8_ext (by rw [ofNat_toNat (by omega)]; exact he.symm)
  · constructor
    · intro hm; have := encode_high h b hm; omega
    · intro he; omega

theorem mem_asBytes {s : Str} {b : UInt8} (hb : b.toNat < 0x80) : b ∈ s.asBytes ↔ ∃ c ∈ s, c.toNat = b.toNat := by
  simp only [Str.asBytes, List.mem_flatMap, mem_encode hb]

theorem nul_mem (s : Str) : (0 : UInt8) ∈ s.asBytes ↔ '\x00' ∈ s := by
  rw [mem_asBytes (by decide)]
  constructor
  · rintro ⟨c, hc, h⟩
    rwa [char_ext (d := '\x00') h] at hc
  · intro h; exact ⟨_, h, rfl⟩

theorem slash_mem (s : Str) : (0x2F : UInt8) ∈ s.asBytes ↔ '/' ∈ s := by
  rw [mem_asBytes (by decide)]
  constructor
  · rintro ⟨c, hc, h⟩
    rwa [char_ext (d := '/') h] at hc
  · intro h; exact ⟨_, h, rfl⟩

theorem asBytes_eq_nil (s : Str) : s.asBytes = [] ↔ s = [] := by
  constructor
  · intro h
    cases s with
    | nil => rfl
    | cons c s =>
      have := encode_length_pos c
      rw [asBytes_cons] at h
      have := congrArg List.length h
      simp only [List.length_append, List.length_nil] at this
      omega
  · rintro rfl; rfl

/-! ## C64: names made of strings -/

theorem scan_high : ∀ (bs rest : Bytes), (∀ b ∈ bs, 0x80 ≤ b.toNat) → NodeName.scan (bs ++ rest) = NodeName.scan rest
  | [], _, _ => rfl
  | b :: bs, rest, h => by
    have hb := h b (by simp)
    have h0 : b ≠ 0 := by rintro rfl; simp at hb
    have h1 : b ≠ 0x2F := by rintro rfl; simp at hb
    simp only [List.cons_append, NodeName.scan, h0, h1, if_false]
    exact scan_high bs rest (fun x hx => h x (by simp [hx]))

theorem scan_encode (c : Char) (rest : Bytes) : NodeName.scan (encodeUtf8 c ++ rest)
    = if c = '\x00' then some .containsNul else if c = '/' then some .containsSlash else NodeName.scan rest := by
  by_cases h : c.toNat < 0x80
  · rw [encode_ascii h]
    have h0 : UInt8.ofNat c.toNat = 0 ↔ c = '\x00' := by
      rw [← UInt8.toNat_inj, ofNat_toNat (by omega)]
      exact ⟨fun h => char_ext h, fun h => by rw [h]; rfl⟩
    have h1 : UInt8.ofNat c.toNat = 0x2F ↔ c = '/' := by
      rw [← UInt8.toNat_inj, ofNat_toNat (by omega)]
      exact ⟨fun h => char_ext h, fun h => by rw [h]; rfl⟩
    simp only [List.cons_append, List.nil_append, NodeName.scan, h0, h1]
  · rw [scan_high _ _ (encode_high h), if_neg, if_neg]
    · rintro rfl; exact h (by decide)
    · rintro rfl; exact h (by decide)

theorem scan_asBytes : ∀ s : Str,
    match NodeName.scan s.asBytes with
    | none => '\x00' ∉ s ∧ '/' ∉ s
    | some .containsNul => ∃ p q, s = p ++ '\x00' :: q ∧ '\x00' ∉ p ∧ '/' ∉ p
    | some .containsSlash => ∃ p q, s = p ++ '/' :: q ∧ '\x00' ∉ p ∧ '/' ∉ p
    | some .empty => False
  | [] => by simp [Str.asBytes, NodeName.scan]
  | c :: s => by
    have ih := scan_asBytes s
    rw [asBytes_cons, scan_encode]
    by_cases h0 : c = '\x00'
    · rw [if_pos h0]; subst h0
      exact ⟨[], s, rfl, by simp, by simp⟩
    rw [if_neg h0]
    by_cases h1 : c = '/'
    · rw [if_pos h1]; subst h1
      exact ⟨[], s, rfl, by simp, by simp⟩
    rw [if_neg h1]
    generalize NodeName.scan (Str.asBytes s) = r at ih ⊢
    have g0 : ∀ p : Str, '\x00' ∉ p → '\x00' ∉ c :: p := by
      intro p hp; simp only [List.mem_cons, not_or]; exact ⟨fun h => h0 h.symm, hp⟩
    have g1 : ∀ p : Str, '/' ∉ p → '/' ∉ c :: p := by
      intro p hp; simp only [List.mem_cons, not_or]; exact ⟨fun h => h1 h.symm, hp⟩
    match r, ih with
    | none, ih => exact ⟨g0 s ih.1, g1 s ih.2⟩
    | some .containsNul, ⟨p, q, h, a, b⟩ => exact ⟨c :: p, q, by rw [h]; rfl, g0 p a, g1 p b⟩
    | some .containsSlash, ⟨p, q, h, a, b⟩ => exact ⟨c :: p, q, by rw [h]; rfl, g0 p a, g1 p b⟩

/-- C64: what `NodeName::new` makes of a string, in terms of its characters.  A name is refused for the first
character that is `NUL` or `'/'`; the bytes of other characters never count. -/
theorem C64_new (s : Str) :
    match NodeName.new s with
    | .ok name => s ≠ [] ∧ '\x00' ∉ s ∧ '/' ∉ s ∧ name.asBytes = s.asBytes
    | .error .empty => s = []
    | .error .containsNul => ∃ p q, s = p ++ '\x00' :: q ∧ '\x00' ∉ p ∧ '/' ∉ p
    | .error .containsSlash => ∃ p q, s = p ++ '/' :: q ∧ '\x00' ∉ p ∧ '/' ∉ p := by
  simp only [NodeName.new, NodeName.fromBytes]
  by_cases he : s = []
  · subst he; simp [Str.asBytes]
  · have hne : s.asBytes.isEmpty = false := by
      rw [List.isEmpty_eq_false_iff]; exact fun h => he ((asBytes_eq_nil s).1 h)
    rw [hne]
    have := scan_asBytes s
    generalize NodeName.scan s.asBytes = r at this ⊢
    match r, this with
    | none, h => exact ⟨he, h.1, h.2, rfl⟩
    | some .containsNul, h => exact h
    | some .containsSlash, h => exact h

/-- C64: a name made of three characters of one, two and three bytes; a string refused for its slash. -/
example : NodeName.new "aé€".toList = .ok ⟨[0x61, 0xC3, 0xA9, 0xE2, 0x82, 0xAC]⟩
    ∧ NodeName.new "é/\x00".toList = .error .containsSlash := by
  exact ⟨by rfl, by rfl⟩

/-- C64: `NodeName::as_str` gives the string whose bytes the name has, and fails iff there is none. -/
theorem C64_as_str (name : NodeName) (s : Str) :
    (name.asStr = some s ↔ name.asBytes = s.asBytes)
    ∧ (name.asStr = none ↔ ∀ t : Str, name.asBytes ≠ t.asBytes) := by
  refine ⟨fromUtf8_iff _ _, ?_⟩
  constructor
  · intro h t ht
    have := (fromUtf8_iff name.bytes t).2 ht
    rw [NodeName.asStr] at h
    rw [h] at this
    cases this
  · intro h
    cases hs : name.asStr with
    | none => rfl
    | some t => exact absurd ((fromUtf8_iff _ _).1 hs) (h t)

/-- C64: a string survives being a name. -/
theorem C64_round_trip (s : Str) (name : NodeName) (h : NodeName.new s = .ok name) : name.asStr = some s := by
  have := C64_new s
  rw [h] at this
  exact (fromUtf8_iff _ _).2 this.2.2.2

/-- C64: a Latin-1 name, a surrogate, an overlong slash and a cut-off character are names without being strings. -/
example : (NodeName.mk [0xE9]).asStr = none ∧ (NodeName.mk [0xED, 0xA0, 0x80]).asStr = none
    ∧ (NodeName.mk [0xC0, 0xAF]).asStr = none ∧ (NodeName.mk [0x61, 0xF0, 0x9F, 0x98]).asStr = none
    ∧ (NodeName.mk [0xF0, 0x9F, 0x98, 0x80]).asStr = some ['😀'] := by
  decide

/-- C64: comparing a name with a string, with bytes or with the name made of them gives the same answer, and
two strings equal to one name are equal. -/
theorem C64_eq (name : NodeName) (s : Str) :
    (name.eqStr s = true ↔ name.asStr = some s)
    ∧ (name.eqStr s = name.eqBytes s.asBytes)
    ∧ (∀ other, NodeName.new s = .ok other → name.eq other = name.eqStr s)
    ∧ (∀ bs other, NodeName.fromBytes bs = .ok other → name.eq other = name.eqBytes bs)
    ∧ (∀ t, name.eqStr s = true → name.eqStr t = true → s = t) := by
  have h1 : ∀ s : Str, name.eqStr s = true ↔ name.asStr = some s := fun s => by
    rw [(C64_as_str name s).1]; simp [NodeName.eqStr]
  have hb : ∀ bs other, NodeName.fromBytes bs = .ok other → other.bytes = bs := by
    intro bs other h
    unfold NodeName.fromBytes at h
    split at h
    · cases h
    split at h
    · cases h
    · cases h; rfl
  refine ⟨h1 s, rfl, ?_, ?_, ?_⟩
  · intro other h
    rw [NodeName.eq, hb _ _ h]; rfl
  · intro bs other h
    rw [NodeName.eq, hb _ _ h]; rfl
  · intro t hs ht
    have a := (h1 s).1 hs
    rw [(h1 t).1 ht] at a
    exact (Option.some.inj a).symm

/-- C64: a name that is not UTF-8 is equal to no string. -/
example (s : Str) : (NodeName.mk [0xE9]).eqStr s = false := by
  have h : (NodeName.mk [0xE9]).asStr = none := by decide
  cases he : (NodeName.mk [0xE9]).eqStr s with
  | false => rfl
  | true => rw [((C64_eq _ s).1).1 he] at h; cases h

/-! ## C64: the order of names -/

theorem cmpBytes_eq_iff : ∀ a b : Bytes, cmpBytes a b = .eq ↔ a = b
  | [], [] => by simp [cmpBytes]
  | [], _ :: _ => by simp [cmpBytes]
  | _ :: _, [] => by simp [cmpBytes]
  | a :: as, b :: bs => by
    simp only [cmpBytes, List.cons.injEq]
    have ih := cmpBytes_eq_iff as bs
    split
    · rename_i h
      simp only [reduceCtorEq, false_iff, not_and]
      rintro rfl; exact absurd h (UInt8.lt_irrefl _)
    split
    · rename_i h
      simp only [reduceCtorEq, false_iff, not_and]
      rintro rfl; exact absurd h (UInt8.lt_irrefl _)
    · rename_i h1 h2
      rw [ih]
      have : a = b := UInt8.le_antisymm (UInt8.not_lt.1 h2) (UInt8.not_lt.1 h1)
      simp [this]

theorem cmpBytes_swap : ∀ a b : Bytes, cmpBytes b a = (cmpBytes a b).swap
  | [], [] => rfl
  | [], _ :: _ => rfl
  | _ :: _, [] => rfl
  | a :: as, b :: bs => by
    simp only [cmpBytes]
    have ih := cmpBytes_swap as bs
    by_cases h1 : a < b
    · have h2 : ¬ b < a := UInt8.lt_asymm h1
      simp [h1, h2]
    · by_cases h2 : b < a
      · simp [h1, h2]
      · simp [h1, h2, ih]

theorem cmpBytes_lt_iff : ∀ a b : Bytes, cmpBytes a b = .lt ↔ a < b
  | [], [] => by simp [cmpBytes]
  | [], _ :: _ => by simp [cmpBytes]
  | _ :: _, [] => by simp [cmpBytes]
  | a :: as, b :: bs => by
    simp only [cmpBytes, List.cons_lt_cons_iff]
    have ih := cmpBytes_lt_iff as bs
    split
    · rename_i h; simp [h]
    split
    · rename_i h1 h2
      simp only [reduceCtorEq, false_iff, not_or, not_and]
      exact ⟨h1, by rintro rfl; exact absurd h2 (UInt8.lt_irrefl _)⟩
    · rename_i h1 h2
      have : a = b := UInt8.le_antisymm (UInt8.not_lt.1 h2) (UInt8.not_lt.1 h1)
      subst this
      rw [ih]; simp [h1]

/-- Encodings of different characters differ at some byte, in the direction of the code points. -/
theorem encode_lt {c d : Char} (h : c.toNat < d.toNat) :
    ∃ p u v x y, encodeUtf8 c = p ++ x :: u ∧ encodeUtf8 d = p ++ y :: v ∧ x < y := by
  have hc := char_range c
  have hd := char_range d
  unfold encodeUtf8
  generalize c.toNat = m at *
  generalize d.toNat = n at *
  dsimp only
  have lt : ∀ a b : Nat, a < 256 → b < 256 → a < b → UInt8.ofNat a < UInt8.ofNat b := by
    intro a b ha hb hab
    rw [UInt8.lt_iff_toNat_lt, ofNat_toNat ha, ofNat_toNat hb]; exact hab
  by_cases m1 : m < 0x80
  · rw [if_pos m1]
    by_cases n1 : n < 0x80
    · rw [if_pos n1]; exact ⟨[], [], [], _, _, rfl, rfl, lt _ _ (by omega) (by omega) (by omega)⟩
    rw [if_neg n1]
    by_cases n2 : n < 0x800
    · rw [if_pos n2]; exact ⟨[], _, _, _, _, rfl, rfl, lt _ _ (by omega) (by omega) (by omega)⟩
    rw [if_neg n2]
    by_cases n3 : n < 0x10000
    · rw [if_pos n3]; exact ⟨[], _, _, _, _, rfl, rfl, lt _ _ (by omega) (by omega) (by omega)⟩
    rw [if_neg n3]; exact ⟨[], _, _, _, _, rfl, rfl, lt _ _ (by omega) (by omega) (by omega)⟩
  rw [if_neg m1, if_neg (show ¬ n < 0x80 by omega)]
  by_cases m2 : m < 0x800
  · rw [if_pos m2]
    by_cases n2 : n < 0x800
    · rw [if_pos n2]
      by_cases e0 : m / 64 = n / 64
      · rw [e0]; exact ⟨[_], _, _, _, _, rfl, rfl, lt _ _ (by omega) (by omega) (by omega)⟩
      · exact ⟨[], _, _, _, _, rfl, rfl, lt _ _ (by omega) (by omega) (by omega)⟩
    rw [if_neg n2]
    by_cases n3 : n < 0x10000
    · rw [if_pos n3]; exact ⟨[], _, _, _, _, rfl, rfl, lt _ _ (by omega) (by omega) (by omega)⟩
    rw [if_neg n3]; exact ⟨[], _, _, _, _, rfl, rfl, lt _ _ (by omega) (by omega) (by omega)⟩
  rw [if_neg m2, if_neg (show ¬ n < 0x800 by omega)]
  by_cases m3 : m < 0x10000
  · rw [if_pos m3]
    by_cases n3 : n < 0x10000
    · rw [if_pos n3]
      by_cases e0 : m / 4096 = n / 4096
      · rw [e0]
        by_cases e1 : m / 64 % 64 = n / 64 % 64
        · rw [e1]; exact ⟨[_, _], _, _, _, _, rfl, rfl, lt _ _ (by omega) (by omega) (by omega)⟩
        · exact ⟨[_], _, _, _, _, rfl, rfl, lt _ _ (by omega) (by omega) (by omega)⟩
      · exact ⟨[], _, _, _, _, rfl, rfl, lt _ _ (by omega) (by omega) (by omega)⟩
    rw [if_neg n3]; exact ⟨[], _, _, _, _, rfl, rfl, lt _ _ (by omega) (by omega) (by omega)⟩
  rw [if_neg m3, if_neg (show ¬ n < 0x10000 by omega)]
  by_cases e0 : m / 262144 = n / 262144
  · rw [e0]
    by_cases e1 : m / 4096 % 64 = n / 4096 % 64
    · rw [e1]
      by_cases e2 : m / 64 % 64 = n / 64 % 64
      · rw [e2]; exact ⟨[_, _, _], _, _, _, _, rfl, rfl, lt _ _ (by omega) (by omega) (by omega)⟩
      · exact ⟨[_, _], _, _, _, _, rfl, rfl, lt _ _ (by omega) (by omega) (by omega)⟩
    · exact ⟨[_], _, _, _, _, rfl, rfl, lt _ _ (by omega) (by omega) (by omega)⟩
  · exact ⟨[], _, _, _, _, rfl, rfl, lt _ _ (by omega) (by omega) (by omega)⟩

theorem cmpBytes_prefix : ∀ p a b : Bytes, cmpBytes (p ++ a) (p ++ b) = cmpBytes a b
  | [], _, _ => rfl
  | x :: p, a, b => by
    simp only [List.cons_append, cmpBytes, UInt8.lt_irrefl, if_false]
    exact cmpBytes_prefix p a b

theorem cmpBytes_encode_lt {c d : Char} (h : c.toNat < d.toNat) (s t : Bytes) :
    cmpBytes (encodeUtf8 c ++ s) (encodeUtf8 d ++ t) = .lt := by
  obtain ⟨p, u, v, x, y, h1, h2, h3⟩ := encode_lt h
  rw [h1, h2, List.append_assoc, List.append_assoc, cmpBytes_prefix]
  simp [cmpBytes, h3]

theorem cmpBytes_asBytes : ∀ s t : Str, s < t → cmpBytes s.asBytes t.asBytes = .lt
  | [], [], h => by simp at h
  | _ :: _, [], h => by simp at h
  | [], d :: t, _ => by
    have : Str.asBytes (d :: t) ≠ [] := fun h => by cases (asBytes_eq_nil _).1 h
    generalize Str.asBytes (d :: t) = bs at this ⊢
    cases bs with
    | nil => exact absurd rfl this
    | cons b bs => rfl
  | c :: s, d :: t, h => by
    rw [asBytes_cons, asBytes_cons]
    rw [List.cons_lt_cons_iff] at h
    rcases h with h | ⟨rfl, h⟩
    · exact cmpBytes_encode_lt h _ _
    · rw [cmpBytes_prefix]; exact cmpBytes_asBytes s t h

theorem str_tri : ∀ s t : Str, s < t ∨ s = t ∨ t < s
  | [], [] => .inr (.inl rfl)
  | [], _ :: _ => .inl (by simp)
  | _ :: _, [] => .inr (.inr (by simp))
  | c :: s, d :: t => by
    simp only [List.cons_lt_cons_iff, List.cons.injEq]
    have hc : ∀ x y : Char, x < y ↔ x.toNat < y.toNat := fun _ _ => Iff.rfl
    rw [hc, hc]
    rcases Nat.lt_trichotomy c.toNat d.toNat with h | h | h
    · exact .inl (.inl h)
    · have := char_ext h
      subst this
      rcases str_tri s t with k | k | k
      · exact .inl (.inr ⟨rfl, k⟩)
      · exact .inr (.inl ⟨rfl, k⟩)
      · exact .inr (.inr (.inr ⟨rfl, k⟩))
    · exact .inr (.inr (.inl h))

/-- C64: `Ord` of names is a total order whose equality is `Eq`. -/
theorem C64_order (a b c : NodeName) :
    (a.cmp b = .eq ↔ a.eq b = true)
    ∧ (b.cmp a = (a.cmp b).swap)
    ∧ (a.cmp b = .lt → b.cmp c = .lt → a.cmp c = .lt)
    ∧ (∀ p x u y v, a.asBytes = p ++ x :: u → b.asBytes = p ++ y :: v → x < y → a.cmp b = .lt)
    ∧ (∀ y u, b.asBytes = a.asBytes ++ y :: u → a.cmp b = .lt) := by
  refine ⟨?_, cmpBytes_swap _ _, ?_, ?_, ?_⟩
  · rw [NodeName.cmp, cmpBytes_eq_iff]; simp [NodeName.eq]
  · simp only [NodeName.cmp, cmpBytes_lt_iff]
    exact fun h1 h2 => List.lt_trans h1 h2
  · intro p x u y v h1 h2 h
    simp only [NodeName.asBytes] at h1 h2
    rw [NodeName.cmp, h1, h2, cmpBytes_prefix]
    simp [cmpBytes, h]
  · intro y u h
    simp only [NodeName.asBytes] at h
    have := cmpBytes_prefix a.bytes [] (y :: u)
    rw [List.append_nil] at this
    rw [NodeName.cmp, h, this]; rfl

/-- C64: names made of strings are ordered as the strings are, character by character along the code points. -/
theorem C64_order_chars (s t : Str) (a b : NodeName) (ha : NodeName.new s = .ok a) (hb : NodeName.new t = .ok b) :
    (a.cmp b = .lt ↔ s < t) ∧ (a.cmp b = .eq ↔ s = t) ∧ (a.cmp b = .gt ↔ t < s) := by
  have h1 := C64_new s
  rw [ha] at h1
  have h2 := C64_new t
  rw [hb] at h2
  have e1 : a.bytes = s.asBytes := h1.2.2.2
  have e2 : b.bytes = t.asBytes := h2.2.2.2
  simp only [NodeName.cmp, e1, e2]
  have gt : cmpBytes s.asBytes t.asBytes = .gt ↔ cmpBytes t.asBytes s.asBytes = .lt := by
    rw [cmpBytes_swap s.asBytes t.asBytes]; cases cmpBytes s.asBytes t.asBytes <;> simp
  have tot : s < t ∨ s = t ∨ t < s := by
    rcases str_tri s t with h | h | h
    · exact .inl h
    · exact .inr (.inl h)
    · exact .inr (.inr h)
  have l := cmpBytes_asBytes s t
  have r := cmpBytes_asBytes t s
  have ee : s = t → cmpBytes s.asBytes t.asBytes = .eq := fun h => by rw [h]; exact (cmpBytes_eq_iff _ _).2 rfl
  rw [← gt] at r
  refine ⟨⟨fun h => ?_, l⟩, ⟨fun h => asBytes_inj ((cmpBytes_eq_iff _ _).1 h), ee⟩, ⟨fun h => ?_, r⟩⟩
  · rcases tot with k | k | k
    · exact k
    · rw [ee k] at h; cases h
    · rw [r k] at h; cases h
  · rcases tot with k | k | k
    · rw [l k] at h; cases h
    · rw [ee k] at h; cases h
    · exact k

/-- C64: U+FF5E sorts before U+1F600, as it would not in UTF-16. -/
example : (NodeName.mk (Str.asBytes ['～'])).cmp (NodeName.mk (Str.asBytes ['😀'])) = .lt := by decide

/-! ## C64: device names -/

/-- C64: what `DeviceName::new` makes of a string, and what the name gives back. -/
theorem C64_device (s : Str) :
    match CuseDeviceName.new s with
    | .ok name => s ≠ [] ∧ '\x00' ∉ s ∧ name.asStr = some s ∧ (∀ t, name.eqStr t = true ↔ t = s)
    | .error .empty => s = []
    | .error .containsNul => '\x00' ∈ s := by
  simp only [CuseDeviceName.new, CuseDeviceName.fromBytes]
  by_cases he : s = []
  · subst he; simp [Str.asBytes]
  · have hne : s.asBytes.isEmpty = false := by
      rw [List.isEmpty_eq_false_iff]; exact fun h => he ((asBytes_eq_nil s).1 h)
    rw [hne]
    by_cases h0 : '\x00' ∈ s
    · have : s.asBytes.contains 0 = true := by simp only [List.contains_iff_mem]; exact (nul_mem s).2 h0
      rw [this]; exact h0
    · have : s.asBytes.contains 0 = false := by
        rw [← Bool.not_eq_true, List.contains_iff_mem]; exact fun h => h0 ((nul_mem s).1 h)
      rw [this]
      refine ⟨he, h0, (fromUtf8_iff _ _).2 rfl, fun t => ?_⟩
      simp only [CuseDeviceName.eqStr, CuseDeviceName.asBytes, beq_iff_eq]
      exact ⟨fun h => (asBytes_inj h).symm, fun h => by rw [h]⟩

/-- C64: a device name may contain a slash. -/
example : CuseDeviceName.new "snd/dsp".toList = .ok ⟨[0x73, 0x6E, 0x64, 0x2F, 0x64, 0x73, 0x70]⟩ := by rfl

/-- C64: device names made of strings are ordered as the strings are. -/
theorem C64_device_order (s t : Str) (a b : CuseDeviceName) (ha : CuseDeviceName.new s = .ok a)
    (hb : CuseDeviceName.new t = .ok b) : (a.cmp b = .lt ↔ s < t) ∧ (a.cmp b = .eq ↔ a = b) := by
  have e : ∀ (s : Str) (a : CuseDeviceName), CuseDeviceName.new s = .ok a → a.bytes = s.asBytes := by
    intro s a h
    simp only [CuseDeviceName.new, CuseDeviceName.fromBytes] at h
    split at h
    · cases h
    split at h
    · cases h
    · cases h; rfl
  simp only [CuseDeviceName.cmp]
  constructor
  · rw [e s a ha, e t b hb]
    refine ⟨fun h => ?_, cmpBytes_asBytes s t⟩
    rcases str_tri s t with k | k | k
    · exact k
    · rw [k, (cmpBytes_eq_iff _ _).2 rfl] at h; cases h
    · have := cmpBytes_asBytes t s k
      rw [cmpBytes_swap, h] at this; cases this
  · rw [cmpBytes_eq_iff]
    exact ⟨fun h => by cases a; cases b; cases h; rfl, fun h => by rw [h]⟩

end Fuse
