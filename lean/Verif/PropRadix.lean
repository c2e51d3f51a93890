import Verif.PropDebug

/-!
# C59: node IDs and file modes in binary and hexadecimal

`{:b}`, `{:x}` and `{:X}` of `NodeId` and `FileMode` are those of the number inside, with the same formatter.  What
`core` does for integers is modelled with all options a format string can give: sign, prefix, width, zeros, alignment.
-/

namespace Fuse
open Spec

/-! ## Model -/

/-- The traits `fmt::Binary`, `fmt::LowerHex` and `fmt::UpperHex`. -/
inductive Radix
  | binary | lowerHex | upperHex
deriving DecidableEq, Repr

/-- Alignment, in `core::fmt::Formatter`. -/
inductive FmtAlign
  | left | center | right
deriving DecidableEq, Repr

/-- The options in a `core::fmt::Formatter`: `+`, `#`, `0`, the width, and the alignment.  The fill character is a
space. -/
structure FmtOptions where
  plus : Bool := false
  alternate : Bool := false
  zero : Bool := false
  width : Option Nat := none
  align : Option FmtAlign := none
deriving DecidableEq, Repr

/-- A digit. -/
def Radix.digit : Radix → Nat → UInt8
  | .upperHex => Fuse.upperHex
  | _ => Fuse.lowerHex

/-- The base, less two. -/
def Radix.base2 : Radix → Nat
  | .binary => 0
  | _ => 14

/-- The digits of a number, as `core` writes them for unsigned integers: at least one, without leading zeros. -/
def Radix.digits (r : Radix) (n : Nat) : Bytes :=
  if _h : n < r.base2 + 2 then [r.digit n]
  else r.digits (n / (r.base2 + 2)) ++ [r.digit (n % (r.base2 + 2))]
termination_by n
decreasing_by exact Nat.div_lt_self (by omega) (by omega)

/-- The prefix `#` asks for. -/
def Radix.pre : Radix → Bytes
  | .binary => [0x30, 0x62]
  | _ => [0x30, 0x78]

/-- `core::fmt::Formatter::pad_integral` for a number that is not negative. -/
def padIntegral (o : FmtOptions) (pre digits : Bytes) : Bytes :=
  let front := (if o.plus then [0x2B] else []) ++ (if o.alternate then pre else [])
  let missing := o.width.getD 0 - (front ++ digits).length
  if o.zero then front ++ List.replicate missing 0x30 ++ digits
  else
    let before := match o.align with
      | some .left => 0
      | some .center => missing / 2
      | _ => missing
    List.replicate before 0x20 ++ (front ++ digits) ++ List.replicate (missing - before) 0x20

/-- `Binary`, `LowerHex` and `UpperHex` for `NodeId`, fuse/node_id.rs:79-95. -/
def NodeId.format (i : NodeId) (r : Radix) (o : FmtOptions) : Bytes := padIntegral o r.pre (r.digits i.val.toNat)

/-- `Binary`, `LowerHex` and `UpperHex` for `FileMode`, fuse/file_mode.rs:96-112. -/
def FileMode.format (m : FileMode) (r : Radix) (o : FmtOptions) : Bytes := padIntegral o r.pre (r.digits m.bits.toNat)

/-! ## Reading -/

namespace Spec

/-- Without spaces on either side. -/
def trimmed (s : Bytes) : Bytes := ((s.dropWhile (· = 0x20)).reverse.dropWhile (· = 0x20)).reverse

/-- Digits of either case after those that make up `acc`. -/
def readDigits (base : Nat) : Nat → Bytes → Option Nat
  | acc, [] => some acc
  | acc, c :: cs => (hexValue c).bind fun d => if d < base then readDigits base (base * acc + d) cs else none

/-- Without a sign. -/
def unsigned : Bytes → Bytes
  | [] => []
  | c :: s => if c = 0x2B then s else c :: s

/-- Without a zero and the letter of a prefix. -/
def unprefixed (letter : UInt8) : Bytes → Bytes
  | c :: d :: s => if c = 0x30 ∧ d = letter then s else c :: d :: s
  | s => s

/-- A number: spaces, possibly a sign, possibly a prefix, digits, spaces. -/
def readNumber (base : Nat) (letter : UInt8) (s : Bytes) : Option Nat :=
  let digits := unprefixed letter (unsigned (trimmed s))
  if digits = [] then none else readDigits base 0 digits

end Spec
open Spec (trimmed unsigned unprefixed readDigits readNumber)

/-- The base of a trait. -/
def Radix.base : Radix → Nat
  | .binary => 2
  | .lowerHex | .upperHex => 16

/-- The letter of its prefix: `b` or `x`. -/
def Radix.letter : Radix → UInt8
  | .binary => 0x62
  | .lowerHex | .upperHex => 0x78

/-! ## Proofs -/

theorem dropWhile_spaces (k : Nat) (t : Bytes) (ht : ∀ c ∈ t, c ≠ 0x20) :
    (List.replicate k 0x20 ++ t).dropWhile (fun c => decide (c = 0x20)) = t := by
  induction k with
  | zero =>
    cases t with
    | nil => rfl
    | cons c t => exact List.dropWhile_cons_of_neg (by simp [ht c List.mem_cons_self])
  | succ k ih => rw [List.replicate_succ, List.cons_append, List.dropWhile_cons_of_pos (by simp)]; exact ih

theorem trimmed_pads (a b : Nat) (t : Bytes) (ht : ∀ c ∈ t, c ≠ 0x20) (hne : t ≠ []) :
    trimmed (List.replicate a 0x20 ++ t ++ List.replicate b 0x20) = t := by
  unfold trimmed
  have h1 : (List.replicate a (0x20 : UInt8) ++ t ++ List.replicate b 0x20).dropWhile (fun c => decide (c = 0x20)) =
      t ++ List.replicate b 0x20 := by
    rw [List.append_assoc]
    induction a with
    | zero =>
      cases t with
      | nil => exact absurd rfl hne
      | cons c t => exact List.dropWhile_cons_of_neg (by simp [ht c List.mem_cons_self])
    | succ a ih => rw [List.replicate_succ, List.cons_append, List.dropWhile_cons_of_pos (by simp)]; exact ih
  rw [h1, List.reverse_append, List.reverse_replicate,
    dropWhile_spaces b t.reverse (fun c hc => ht c (List.mem_reverse.1 hc)), List.reverse_reverse]

theorem Radix.base_eq (r : Radix) : r.base2 + 2 = r.base := by cases r <;> rfl

theorem Radix.hexValue_digit (r : Radix) {d : Nat} (h : d < r.base) : hexValue (r.digit d) = some d := by
  have h16 : d < 16 := by cases r <;> simp only [Radix.base] at h <;> omega
  cases r <;> (revert d; decide)

theorem Radix.digit_ne (r : Radix) {d : Nat} (h : d < r.base) :
    r.digit d ≠ 0x20 ∧ r.digit d ≠ 0x2B ∧ r.digit d ≠ r.letter := by
  cases r <;> (revert d; decide)

theorem readDigits_append (base : Nat) (s t : Bytes) (acc : Nat) :
    readDigits base acc (s ++ t) = (readDigits base acc s).bind fun n => readDigits base n t := by
  induction s generalizing acc with
  | nil => rfl
  | cons c s ih =>
    simp only [List.cons_append, readDigits]
    cases hexValue c with
    | none => rfl
    | some d =>
      simp only [Option.bind_some]
      by_cases h : d < base
      · simp only [if_pos h, ih]
      · simp only [if_neg h, Option.bind_none]

theorem readDigits_zeros (base : Nat) (hb : 0 < base) (k : Nat) : readDigits base 0 (List.replicate k 0x30) = some 0 := by
  induction k with
  | zero => rfl
  | succ k ih =>
    rw [List.replicate_succ, readDigits, show hexValue 0x30 = some 0 from by decide, Option.bind_some, if_pos hb]
    simpa using ih

theorem Radix.digits_spec (r : Radix) (n : Nat) :
    readDigits r.base 0 (r.digits n) = some n ∧ r.digits n ≠ [] ∧
      ∀ c ∈ r.digits n, c ≠ 0x20 ∧ c ≠ 0x2B ∧ c ≠ r.letter := by
  induction n using Nat.strongRecOn with
  | _ n ih =>
    have hb : 2 ≤ r.base := by cases r <;> decide
    rw [Radix.digits, r.base_eq]
    by_cases h : n < r.base
    · rw [dif_pos h]
      refine ⟨?_, List.cons_ne_nil _ _, fun c hc => ?_⟩
      · simp only [readDigits, r.hexValue_digit h, Option.bind_some, if_pos h, Nat.mul_zero, Nat.zero_add]
      · cases List.mem_singleton.1 hc; exact r.digit_ne h
    · rw [dif_neg h]
      have hm : n % r.base < r.base := Nat.mod_lt _ (by omega)
      obtain ⟨h1, h2, h3⟩ := ih (n / r.base) (Nat.div_lt_self (by omega) (by omega))
      refine ⟨?_, by simp, fun c hc => ?_⟩
      · rw [readDigits_append, h1, Option.bind_some]
        simp only [readDigits, r.hexValue_digit hm, Option.bind_some, if_pos hm]
        rw [Nat.div_add_mod]
      · rcases List.mem_append.1 hc with hc | hc
        · exact h3 c hc
        · cases List.mem_singleton.1 hc; exact r.digit_ne hm

/-- C59: a number in binary or hexadecimal is read back, whatever the options; the text has the width asked for, unless
the number needs more. -/
theorem padIntegral_reads (r : Radix) (o : FmtOptions) (n : Nat) :
    readNumber r.base r.letter (padIntegral o r.pre (r.digits n)) = some n ∧
      (padIntegral o r.pre (r.digits n)).length =
        max (o.width.getD 0) ((if o.plus then 1 else 0) + (if o.alternate then 2 else 0) + (r.digits n).length) := by
  obtain ⟨h1, h2, h3⟩ := r.digits_spec n
  have hb : 0 < r.base := by cases r <;> decide
  have hpre : r.pre = [0x30, r.letter] := by cases r <;> rfl
  have hlet : r.letter ≠ 0x20 ∧ r.letter ≠ 0x2B := by cases r <;> decide
  -- The text between the spaces.
  obtain ⟨a, b, z, e, hz⟩ : ∃ a b z, padIntegral o r.pre (r.digits n) = List.replicate a 0x20 ++
      ((if o.plus then [0x2B] else []) ++ (if o.alternate then r.pre else []) ++ (List.replicate z 0x30 ++ r.digits n)) ++
        List.replicate b 0x20 ∧ a + b + z = o.width.getD 0 -
          ((if o.plus then 1 else 0) + (if o.alternate then 2 else 0) + (r.digits n).length) := by
    have hl : ((if o.plus then [0x2B] else []) ++ (if o.alternate then r.pre else []) ++ r.digits n : Bytes).length =
        (if o.plus then 1 else 0) + (if o.alternate then 2 else 0) + (r.digits n).length := by
      rw [hpre]
      simp only [List.length_append]
      cases o.plus <;> cases o.alternate <;> simp
    unfold padIntegral
    dsimp only
    rw [hl]
    generalize o.width.getD 0 - _ = k
    by_cases ho : o.zero
    · rw [if_pos ho]
      exact ⟨0, 0, k, by simp only [List.replicate_zero, List.nil_append, List.append_nil, List.append_assoc], by omega⟩
    · rw [if_neg ho]
      refine ⟨match o.align with
        | some .left => 0
        | some .center => k / 2
        | _ => k, _, 0, by rw [List.replicate_zero, List.nil_append], ?_⟩
      split <;> omega
  have ht : ∀ c ∈ ((if o.plus then [0x2B] else []) ++ (if o.alternate then r.pre else []) ++
      (List.replicate z 0x30 ++ r.digits n) : Bytes), c ≠ 0x20 := by
    intro c hc
    rw [hpre] at hc
    simp only [List.mem_append] at hc
    rcases hc with (hc | hc) | (hc | hc)
    · split at hc
      · cases List.mem_singleton.1 hc; decide
      · cases hc
    · split at hc
      · simp only [List.mem_cons, List.not_mem_nil, or_false] at hc
        rcases hc with rfl | rfl
        · decide
        · exact hlet.1
      · cases hc
    · cases (List.mem_replicate.1 hc).2; decide
    · exact (h3 c hc).1
  have hd : List.replicate z 0x30 ++ r.digits n ≠ [] := by simp [h2]
  have hr : readDigits r.base 0 (List.replicate z 0x30 ++ r.digits n) = some n := by
    rw [readDigits_append, readDigits_zeros _ hb, Option.bind_some, h1]
  -- Neither a sign nor a prefix is seen in the digits.
  have hmem : ∀ c ∈ List.replicate z 0x30 ++ r.digits n, c ≠ 0x2B ∧ c ≠ r.letter := by
    intro c hc
    rcases List.mem_append.1 hc with hm | hm
    · cases (List.mem_replicate.1 hm).2; cases r <;> decide
    · exact (h3 c hm).2
  constructor
  · rw [e]
    unfold readNumber
    rw [trimmed_pads _ _ _ ht (by simp [h2])]
    generalize List.replicate z 0x30 ++ r.digits n = ds at hd hr hmem
    have key : unprefixed r.letter ds = ds := by
      match ds, hmem with
      | [], _ => rfl
      | [_], _ => rfl
      | c :: d :: s, hmem => exact if_neg fun h => (hmem d (by simp)).2 h.2
    have keys : unsigned ds = ds := by
      match ds, hmem with
      | [], _ => rfl
      | c :: s, hmem => exact if_neg (hmem c (by simp)).1
    have hp : unprefixed r.letter (0x30 :: r.letter :: ds) = ds := if_pos ⟨rfl, rfl⟩
    have hs : ∀ s, unsigned (0x2B :: s) = s := fun s => by simp [unsigned]
    have hz : unsigned (0x30 :: r.letter :: ds) = 0x30 :: r.letter :: ds := by simp [unsigned]
    cases o.plus <;> cases o.alternate <;>
      simp only [hpre, Bool.false_eq_true, if_false, if_true, List.nil_append, List.cons_append, key, keys, hp, hs, hz,
        if_neg hd, hr]
  · rw [e, hpre]
    simp only [List.length_append, List.length_replicate]
    revert hz
    cases o.plus <;> cases o.alternate <;>
      simp only [Bool.false_eq_true, if_false, if_true, List.length_cons, List.length_nil] <;> omega

/-- C59: node IDs and file modes in binary and hexadecimal are read back, whatever the options. -/
theorem C59_radix (r : Radix) (o : FmtOptions) (i : NodeId) (m : FileMode) :
    readNumber r.base r.letter (i.format r o) = some i.val.toNat ∧
      readNumber r.base r.letter (m.format r o) = some m.bits.toNat ∧
      o.width.getD 0 ≤ (i.format r o).length ∧ o.width.getD 0 ≤ (m.format r o).length := by
  obtain ⟨h1, h2⟩ := padIntegral_reads r o i.val.toNat
  obtain ⟨h3, h4⟩ := padIntegral_reads r o m.bits.toNat
  exact ⟨h1, h3, by unfold NodeId.format; omega, by unfold FileMode.format; omega⟩

/-- `{:^+#9x}`, `{:#012X}` and `{:b}`. -/
example : (FileMode.mk 0o100644).format .lowerHex { plus := true, alternate := true, width := some 9, align := some .center } =
      text " +0x81a4 " ∧
    (NodeId.format ⟨0xBEEF, by decide⟩ .upperHex { alternate := true, zero := true, width := some 12 }) = text "0x000000BEEF" ∧
    (NodeId.format ⟨10, by decide⟩ .binary {}) = text "1010" ∧
    readNumber 16 0x78 (text " +0x81a4 ") = some 0o100644 := by
  decide +kernel

end Fuse
