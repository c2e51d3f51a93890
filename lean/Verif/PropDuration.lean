import Verif.DebugResp
import Verif.PropDebug

/-!
# The text of a duration can be read as a number with a unit
-/

namespace Fuse

/-- A decimal digit. -/
def Spec.isDigit (c : UInt8) : Bool := 48 ≤ c && c ≤ 57

/-- The nanoseconds in one unit of time; the third one is `µs` in UTF-8. -/
def Spec.unitNanos (s : Bytes) : Option Nat :=
  if s = text "s" then some 1000000000
  else if s = text "ms" then some 1000000
  else if s = [0xC2, 0xB5, 0x73] then some 1000
  else if s = text "ns" then some 1
  else none

/-- A decimal number with an optional fraction, and a unit of time: the nanoseconds.  The fraction must not be
finer than nanoseconds. -/
def Spec.readDuration (s : Bytes) : Option Nat := do
  let int ← Kernel.digits 10 0 (s.takeWhile Spec.isDigit)
  match s.dropWhile Spec.isDigit with
  | 46 :: t => do
    let frac ← Kernel.digits 10 0 (t.takeWhile Spec.isDigit)
    let unit ← Spec.unitNanos (t.dropWhile Spec.isDigit)
    let parts := 10 ^ (t.takeWhile Spec.isDigit).length
    if unit % parts = 0 then some (int * unit + frac * (unit / parts)) else none
  | t => do
    let unit ← Spec.unitNanos t
    some (int * unit)

theorem isDigit_iff {c : UInt8} : Spec.isDigit c = true ↔ 0x30 ≤ c.toNat ∧ c.toNat ≤ 0x39 := by
  unfold Spec.isDigit
  rw [Bool.and_eq_true, decide_eq_true_eq, decide_eq_true_eq, UInt8.le_iff_toNat_le, UInt8.le_iff_toNat_le]
  exact Iff.rfl

/-- The digits at the start of a text and what follows. -/
theorem span_digits (s t : Bytes) (h : ∀ c ∈ s, Spec.isDigit c = true) (ht : ∀ c, t.head? = some c → Spec.isDigit c = false) :
    (s ++ t).takeWhile Spec.isDigit = s ∧ (s ++ t).dropWhile Spec.isDigit = t := by
  induction s with
  | nil =>
    cases t with
    | nil => exact ⟨rfl, rfl⟩
    | cons c t =>
      have := ht c rfl
      simp [this]
  | cons a s ih =>
    have ha := h a List.mem_cons_self
    have := ih fun c hc => h c (List.mem_cons_of_mem _ hc)
    simp only [List.cons_append, List.takeWhile_cons, List.dropWhile_cons, ha, if_true, this]
    exact ⟨trivial, trivial⟩

/-- The fraction's digits: there are at most `k`, and filled up with zeros they make up `f`. -/
theorem fracDigits_read (k : Nat) : ∀ (acc f : Nat), f < 10 ^ k →
    (∀ c ∈ fracDigits k f, Spec.isDigit c = true) ∧ (fracDigits k f).length ≤ k ∧
      ∃ v, Kernel.digits 10 acc (fracDigits k f) = some v ∧
        v * 10 ^ (k - (fracDigits k f).length) = acc * 10 ^ k + f := by
  induction k with
  | zero =>
    intro acc f hf
    have : f = 0 := by simpa using hf
    subst this
    exact ⟨by simp [fracDigits], Nat.le_refl _, acc, rfl, rfl⟩
  | succ k ih =>
    intro acc f hf
    rw [fracDigits]
    split
    · rename_i h0
      subst h0
      exact ⟨by simp, by simp, acc, rfl, by simp⟩
    · have hd : f / 10 ^ k < 10 := by
        rw [Nat.div_lt_iff_lt_mul (Nat.pow_pos (by decide))]
        rw [Nat.pow_succ] at hf; omega
      obtain ⟨h1, h2, v, h3, h4⟩ := ih (acc * 10 + f / 10 ^ k) (f % 10 ^ k) (Nat.mod_lt _ (Nat.pow_pos (by decide)))
      generalize hq : f / 10 ^ k = q at hd h3 h4
      have hv : (UInt8.ofNat (48 + q)).toNat = 48 + q := by
        rw [UInt8.toNat_ofNat']; omega
      refine ⟨?_, by simpa using h2, v, ?_, ?_⟩
      · intro c hc
        rcases List.mem_cons.1 hc with rfl | hc
        · rw [isDigit_iff, hv]; omega
        · exact h1 c hc
      · have hdig : ∀ q, q < 10 → Kernel.digit (UInt8.ofNat (48 + q)) = some q := by decide
        rw [Kernel.digits, hdig q hd]
        dsimp only
        rw [if_pos hd, h3]
      · rw [List.length_cons, Nat.add_sub_add_right, h4, Nat.add_mul, Nat.mul_assoc, Nat.pow_succ']
        have := Nat.div_add_mod f (10 ^ k)
        rw [hq, Nat.mul_comm] at this
        omega

/-- `fmt_decimal` is read back. -/
theorem readDuration_fmt (int frac k : Nat) (unit : Bytes) (n : Nat) (hu : Spec.unitNanos unit = some n)
    (hh : ∀ c, unit.head? = some c → Spec.isDigit c = false ∧ c ≠ 46) (hf : frac < 10 ^ k) (hk : frac ≠ 0 → n % 10 ^ k = 0) :
    Spec.readDuration (fmtDecimal int frac k unit) = some (int * n + frac * (n / 10 ^ k)) := by
  have hi : ∀ c ∈ showNat 10 int, Spec.isDigit c = true := fun c hc =>
    isDigit_iff.2 (mem_showNat (by decide) (by decide) int c hc)
  have hs := digits_showNat (base := 10) (by decide) (by decide) int
  unfold fmtDecimal Spec.readDuration
  rw [List.append_assoc]
  split
  · rename_i h0
    subst h0
    obtain ⟨h1, h2⟩ := span_digits _ unit hi fun c hc => (hh c hc).1
    rw [List.nil_append, h1, h2, hs]
    dsimp only [Option.bind_eq_bind, Option.bind_some]
    split
    · rename_i t; exact absurd rfl (hh 46 rfl).2
    · rw [hu]; simp
  · rename_i h0
    have hk := hk h0
    obtain ⟨h1, h2⟩ := span_digits (showNat 10 int) (46 :: fracDigits k frac ++ unit) hi
      (fun c hc => by
        rw [List.cons_append, List.head?_cons, Option.some.injEq] at hc
        rw [← hc]; decide)
    obtain ⟨g1, g2, v, g3, g4⟩ := fracDigits_read k 0 frac hf
    obtain ⟨h3, h4⟩ := span_digits (fracDigits k frac) unit g1 fun c hc => (hh c hc).1
    rw [h1, h2, hs]
    dsimp only [Option.bind_eq_bind, Option.bind_some, List.cons_append]
    split
    case h_2 hne => exact absurd rfl (hne _)
    rename_i t ht
    obtain rfl := (List.cons.inj ht).2
    rw [h3, h4, g3, hu]
    dsimp only [Option.bind_some]
    generalize (fracDigits k frac).length = l at *
    have hp : 0 < 10 ^ l := Nat.pow_pos (by decide)
    have hq : 0 < 10 ^ (k - l) := Nat.pow_pos (by decide)
    have hkl : 10 ^ k = 10 ^ l * 10 ^ (k - l) := by rw [← Nat.pow_add]; congr 1; omega
    obtain ⟨x, hx⟩ := Nat.dvd_of_mod_eq_zero hk
    have e1 : n = 10 ^ l * (10 ^ (k - l) * x) := by rw [hx, hkl, Nat.mul_assoc]
    have e2 : n / 10 ^ l = 10 ^ (k - l) * x := by rw [e1, Nat.mul_div_cancel_left _ hp]
    have e3 : n / 10 ^ k = x := by rw [hx, Nat.mul_div_cancel_left _ (Nat.pow_pos (by decide))]
    rw [if_pos (by rw [e1, Nat.mul_mod_right]), e2, e3, ← Nat.mul_assoc, g4]
    simp

/-- The unit is the largest one that fits: after digits and at most a point comes a unit no longer than the duration
(nanoseconds for no time at all), and every unit no longer than the duration is at most this one. -/
theorem C72_duration_unit (d : Duration) :
    let n := d.secs.toNat * 1000000000 + d.nanos.toNat
    ∃ number unit v, d.debug = number ++ unit ∧ (∀ c ∈ number, Spec.isDigit c = true ∨ c = 46) ∧
      Spec.unitNanos unit = some v ∧ (v ≤ n ∨ n = 0 ∧ v = 1) ∧
      ∀ other w, Spec.unitNanos other = some w → w ≤ n → w ≤ v := by
  intro n
  have hn : n = d.secs.toNat * 1000000000 + d.nanos.toNat := rfl
  have hlt : d.nanos.toNat < 1000000000 := UInt32.lt_iff_toNat_lt.1 d.lt
  have hall : ∀ other w, Spec.unitNanos other = some w → w = 1000000000 ∨ w = 1000000 ∨ w = 1000 ∨ w = 1 := by
    intro other w h
    unfold Spec.unitNanos at h
    repeat' split at h
    all_goals first | (cases h; omega) | cases h
  have hnum : ∀ (int frac k : Nat), frac < 10 ^ k →
      ∀ c ∈ showNat 10 int ++ (if frac = 0 then [] else 46 :: fracDigits k frac), Spec.isDigit c = true ∨ c = 46 := by
    intro int frac k hf c hc
    rcases List.mem_append.1 hc with hc | hc
    · exact Or.inl (isDigit_iff.2 (mem_showNat (by decide) (by decide) int c hc))
    · split at hc
      · cases hc
      · rcases List.mem_cons.1 hc with hc | hc
        · exact Or.inr hc
        · exact Or.inl ((fracDigits_read k 0 frac hf).1 c hc)
  unfold Duration.debug fmtDecimal
  dsimp only
  split
  · refine ⟨_, _, 1000000000, rfl, hnum _ _ _ (by omega), by decide, Or.inl (by omega), fun o w h1 h2 => ?_⟩
    have := hall o w h1; omega
  · split
    · refine ⟨_, _, 1000000, rfl, hnum _ _ _ (by omega), by decide, Or.inl (by omega), fun o w h1 h2 => ?_⟩
      have := hall o w h1; omega
    · split
      · refine ⟨_, _, 1000, rfl, hnum _ _ _ (by omega), by decide, Or.inl (by omega), fun o w h1 h2 => ?_⟩
        have := hall o w h1; omega
      · refine ⟨_, _, 1, rfl, hnum _ _ _ (by omega), by decide, by omega, fun o w h1 h2 => ?_⟩
        have := hall o w h1; omega

/-- **C72**, durations: the text read as a number with a unit is the duration, for all durations. -/
theorem C72_duration (d : Duration) :
    Spec.readDuration d.debug = some (d.secs.toNat * 1000000000 + d.nanos.toNat) := by
  have hlt : d.nanos.toNat < 1000000000 := UInt32.lt_iff_toNat_lt.1 d.lt
  unfold Duration.debug
  dsimp only
  split
  · rw [readDuration_fmt _ _ _ _ 1000000000 (by decide) (by decide) (by omega) (fun _ => by decide)]
    simp
  · have h0 : d.secs.toNat = 0 := by omega
    rw [h0]
    split
    · rw [readDuration_fmt _ _ _ _ 1000000 (by decide) (by decide) (by omega) (fun _ => by decide)]
      simp only [Option.some.injEq]; omega
    · split
      · rw [readDuration_fmt _ _ _ _ 1000 (by decide) (by decide) (by omega) (fun _ => by decide)]
        simp only [Option.some.injEq]; omega
      · rw [readDuration_fmt _ _ _ _ 1 (by decide) (by decide) (by omega) (fun h => absurd rfl h)]
        simp

theorem duration_inj {a b : Duration} (h : a.debug = b.debug) : a = b := by
  have h1 := C72_duration a
  rw [h, C72_duration b, Option.some.injEq] at h1
  have ha : a.nanos.toNat < 1000000000 := UInt32.lt_iff_toNat_lt.1 a.lt
  have hb : b.nanos.toNat < 1000000000 := UInt32.lt_iff_toNat_lt.1 b.lt
  have h2 : a.secs = b.secs := UInt64.toNat_inj.1 (by omega)
  have h3 : a.nanos = b.nanos := UInt32.toNat_inj.1 (by omega)
  cases a; cases b
  cases h2; cases h3
  rfl

/-- The third unit. -/
example : [0xC2, 0xB5, 0x73] = "µs".toUTF8.toList := by decide +kernel

/-- One second and a half, with a nanosecond: `1.500000001s`; and 2.5 milliseconds: `2.5ms`. -/
example : (⟨1, 500000001, by decide⟩ : Duration).debug = text "1.500000001s" ∧
    (⟨0, 2500000, by decide⟩ : Duration).debug = text "2.5ms" ∧
    (⟨0, 1020, by decide⟩ : Duration).debug = "1.02µs".toUTF8.toList ∧
    (⟨0, 0, by decide⟩ : Duration).debug = text "0ns" := by decide +kernel

/-- The limits between the units. -/
example : (⟨0, 999, by decide⟩ : Duration).debug = text "999ns" ∧
    (⟨0, 1000, by decide⟩ : Duration).debug = "1µs".toUTF8.toList ∧
    (⟨0, 999999, by decide⟩ : Duration).debug = "999.999µs".toUTF8.toList ∧
    (⟨0, 1000000, by decide⟩ : Duration).debug = text "1ms" ∧
    (⟨0, 999999999, by decide⟩ : Duration).debug = text "999.999999ms" ∧
    (⟨1, 0, by decide⟩ : Duration).debug = text "1s" := by decide +kernel

end Fuse
