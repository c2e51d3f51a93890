import Verif.Debug
import Verif.PropTypes
import Verif.PropMountCall

/-!
# C59 and C60: what `Debug` writes can be read back
-/

namespace Fuse
open Spec

/-! ## C59: byte strings and numbers -/

namespace Spec

/-- The value of a hexadecimal digit of either case. -/
def hexValue (c : UInt8) : Option Nat :=
  if 48 ≤ c ∧ c ≤ 57 then some (c.toNat - 48)
  else if 65 ≤ c ∧ c ≤ 70 then some (c.toNat - 55)
  else if 97 ≤ c ∧ c ≤ 102 then some (c.toNat - 87)
  else none

/-- Reads hexadecimal digits after those that make up `acc`. -/
def readHex : Nat → Bytes → Option Nat
  | acc, [] => some acc
  | acc, c :: cs => (hexValue c).bind fun d => readHex (16 * acc + d) cs

/-- What a backslash and a letter stand for. -/
def escaped (c : UInt8) : Option UInt8 :=
  if c = 0x74 then some 0x09
  else if c = 0x72 then some 0x0D
  else if c = 0x6E then some 0x0A
  else if c = 0x27 then some 0x27
  else if c = 0x22 then some 0x22
  else if c = 0x5C then some 0x5C
  else none

/-- Reads a quoted string, given what follows the opening quote: its bytes, and what follows the closing quote. -/
def readQuoted : Bytes → Option (Bytes × Bytes)
  | [] => none
  | c :: r =>
    if c = 0x22 then some ([], r)
    else if c = 0x5C then
      match r with
      | [] => none
      | x :: r =>
        if x = 0x78 then
          match r with
          | a :: b :: r => do
            let hi ← hexValue a
            let lo ← hexValue b
            let (v, rest) ← readQuoted r
            return (UInt8.ofNat (16 * hi + lo) :: v, rest)
          | _ => none
        else do
          let y ← escaped x
          let (v, rest) ← readQuoted r
          return (y :: v, rest)
    else do
      let (v, rest) ← readQuoted r
      return (c :: v, rest)

/-- Reads a decimal number with nine places, in units of the last place. -/
def readNanos (s : Bytes) : Option Int :=
  let (neg, s) := match s with
    | 45 :: s => (true, s)
    | s => (false, s)
  let whole := s.takeWhile (· ≠ 46)
  let frac := (s.dropWhile (· ≠ 46)).drop 1
  if frac.length = 9 then do
    let w ← Kernel.digits 10 0 whole
    let f ← Kernel.digits 10 0 frac
    return (if neg then -1 else 1) * ((w * 1000000000 + f : Nat) : Int)
  else none

end Spec

theorem all_bytes {p : UInt8 → Prop} (h : ∀ n, n < 256 → p (UInt8.ofNat n)) (b : UInt8) : p b := by
  have := h b.toNat b.toNat_lt
  rwa [UInt8.ofNat_toNat] at this

/-- Reading what one byte is written as. -/
theorem readQuoted_escape (b : UInt8) (r v rest : Bytes) (h : readQuoted r = some (v, rest)) :
    readQuoted (escapeDefault b ++ r) = some (b :: v, rest) := by
  by_cases hs : b = 0x09 ∨ b = 0x0D ∨ b = 0x0A ∨ b = 0x27 ∨ b = 0x22 ∨ b = 0x5C
  · have two : ∀ x y, escaped x = some y → x ≠ 0x78 → readQuoted (0x5C :: x :: r) = some (y :: v, rest) := by
      intro x y hy hx
      unfold readQuoted
      simp [hx, hy, h]
    rcases hs with h' | h' | h' | h' | h' | h' <;> subst h' <;> exact two _ _ (by decide) (by decide)
  · simp only [not_or] at hs
    obtain ⟨h1, h2, h3, h4, h5, h6⟩ := hs
    by_cases hp : 0x20 ≤ b ∧ b ≤ 0x7E
    · rw [escapeDefault, if_neg h1, if_neg h2, if_neg h3, if_neg h4, if_neg h5, if_neg h6, if_pos hp]
      rw [List.singleton_append]
      unfold readQuoted
      simp [h5, h6, h]
    · have hx : ∀ b : UInt8, hexValue (lowerHex (b.toNat / 16)) = some (b.toNat / 16) ∧
          hexValue (lowerHex (b.toNat % 16)) = some (b.toNat % 16) :=
        all_bytes (by decide +kernel)
      have hd : ∀ b : UInt8, 16 * UInt8.ofNat (b.toNat / 16) + UInt8.ofNat (b.toNat % 16) = b :=
        all_bytes (by decide +kernel)
      rw [escapeDefault, if_neg h1, if_neg h2, if_neg h3, if_neg h4, if_neg h5, if_neg h6, if_neg hp]
      simp only [List.cons_append, List.nil_append]
      unfold readQuoted
      simp [h, (hx b).1, (hx b).2, hd]

/-- C59: a byte string (a node name, a device name, an attribute value, written data) is printed as a quoted string
that is read back as the same bytes, whatever follows it in the text. -/
theorem C59_bytes (v rest : Bytes) :
    ∃ r, debugBytes v ++ rest = 0x22 :: r ∧ readQuoted r = some (v, rest) := by
  refine ⟨v.flatMap escapeDefault ++ (0x22 :: rest), by simp [debugBytes], ?_⟩
  induction v with
  | nil => rw [List.flatMap_nil, List.nil_append]; unfold readQuoted; simp
  | cons b v ih =>
    rw [List.flatMap_cons, List.append_assoc]
    exact readQuoted_escape b _ _ _ ih

/-- C59: the text of a byte string consists of printable ASCII characters only: no line break, control character
or invalid UTF-8 can get from a client's bytes into a log. -/
theorem C59_printable (v : Bytes) : ∀ c ∈ debugBytes v, 0x20 ≤ c ∧ c ≤ 0x7E := by
  intro c hc
  simp only [debugBytes, List.mem_append, List.mem_singleton, List.mem_flatMap] at hc
  have hb : ∀ b : UInt8, ∀ c ∈ escapeDefault b, 0x20 ≤ c ∧ c ≤ 0x7E := all_bytes (by decide +kernel)
  rcases hc with (rfl | ⟨b, -, hc⟩) | rfl
  · decide
  · exact hb b c hc
  · decide

theorem hexValue_upper : ∀ d, d < 16 → hexValue (upperHex d) = some d := by decide

theorem readHex_append (a b : Bytes) (acc : Nat) :
    readHex acc (a ++ b) = (readHex acc a).bind fun n => readHex n b := by
  induction a generalizing acc with
  | nil => rfl
  | cons c a ih =>
    simp only [List.cons_append, readHex]
    cases hexValue c with
    | none => rfl
    | some d => exact ih _

theorem readHex_hexDigits (k n acc : Nat) (h : n < 16 ^ k) :
    readHex acc (hexDigits k n) = some (acc * 16 ^ k + n) := by
  induction k generalizing n with
  | zero => simp only [Nat.pow_zero] at h; simp only [hexDigits, readHex, Nat.pow_zero]; congr 1; omega
  | succ k ih =>
    rw [hexDigits, readHex_append, ih (n / 16) (by rw [Nat.pow_succ] at h; omega)]
    simp only [Option.bind_some, readHex, hexValue_upper _ (Nat.mod_lt n (by decide))]
    congr 1
    rw [Nat.pow_succ, Nat.mul_add, ← Nat.mul_assoc, Nat.mul_comm 16 acc, Nat.mul_assoc acc 16, Nat.mul_comm 16 (16 ^ k)]
    omega

theorem length_hexDigits (k n : Nat) : (hexDigits k n).length = k := by
  induction k generalizing n with
  | zero => rfl
  | succ k ih => rw [hexDigits, List.length_append, ih]; rfl

/-- C59: numbers printed in hexadecimal have the prefix, all digits of their type, and the right value. -/
theorem C59_hex (a : UInt32) (b : UInt64) :
    (∃ d, hexU32 a = text "0x" ++ d ∧ d.length = 8 ∧ readHex 0 d = some a.toNat) ∧
    (∃ d, hexU64 b = text "0x" ++ d ∧ d.length = 16 ∧ readHex 0 d = some b.toNat) := by
  refine ⟨⟨_, rfl, length_hexDigits .., ?_⟩, ⟨_, rfl, length_hexDigits .., ?_⟩⟩
  · rw [readHex_hexDigits _ _ _ (by have := a.toNat_lt; omega)]; simp
  · rw [readHex_hexDigits _ _ _ (by have := b.toNat_lt; omega)]; simp

/-- C59: a file mode is printed in octal. -/
theorem C59_mode (m : FileMode) :
    ∃ d, m.debug = text "0o" ++ d ∧ Kernel.digits 8 0 d = some m.bits.toNat :=
  ⟨_, rfl, digits_showNat (by decide) (by decide) _⟩

theorem takeWhile_stop (s t : Bytes) (c : UInt8) (h : c ∉ s) :
    (s ++ c :: t).takeWhile (· ≠ c) = s ∧ (s ++ c :: t).dropWhile (· ≠ c) = c :: t := by
  induction s with
  | nil => simp
  | cons a s ih =>
    simp only [List.mem_cons, not_or] at h
    have := ih h.2
    have hp : decide (a ≠ c) = true := decide_eq_true (Ne.symm h.1)
    rw [List.cons_append, List.takeWhile_cons_of_pos (p := fun x => decide (x ≠ c)) hp,
      List.dropWhile_cons_of_pos (p := fun x => decide (x ≠ c)) hp, this.1, this.2]
    exact ⟨rfl, rfl⟩

theorem digits_zeros (k : Nat) (s : Bytes) (base : Nat) (hb : 0 < base) :
    Kernel.digits base 0 (List.replicate k 48 ++ s) = Kernel.digits base 0 s := by
  induction k with
  | zero => rfl
  | succ k ih =>
    rw [List.replicate_succ, List.cons_append, Kernel.digits]
    show (if 0 < base then _ else _) = _
    rw [if_pos hb, Nat.zero_mul]
    exact ih

theorem dot_not_mem (n : Nat) : (46 : UInt8) ∉ showNat 10 n ∧ (45 : UInt8) ∉ showNat 10 n := by
  constructor <;>
  · intro h
    have := mem_showNat (by decide) (by decide) _ _ h
    simp at this

/-- C59: the full statement is that a Unix time is printed as the decimal number of seconds with nine places; it
holds for times from the epoch on and for whole seconds.  Before the epoch the whole seconds and the nanoseconds are
printed one after the other although they have opposite signs, so that the text denotes the time mirrored at the
whole second. -/
theorem C59_time_partial (t : UnixTime) (h : t.nanos.toNat ≤ 999999999) :
    ∃ d, t.debug = text "UnixTime(" ++ d ++ text ")" ∧
      readNanos d = some (if t.seconds.toInt < 0 then t.seconds.toInt * 1000000000 - t.nanos.toNat
        else t.seconds.toInt * 1000000000 + t.nanos.toNat) := by
  have hlen := length_showNat 8 t.nanos.toNat (by omega)
  have hfrac : (zeroPad 9 (showNat 10 t.nanos.toNat)).length = 9 := by
    rw [zeroPad, List.length_append, List.length_replicate]; omega
  have hnanos : Kernel.digits 10 0 (zeroPad 9 (showNat 10 t.nanos.toNat)) = some t.nanos.toNat := by
    rw [zeroPad, digits_zeros _ _ _ (by decide)]; exact digits_showNat (by decide) (by decide) _
  have hwhole : Kernel.digits 10 0 (showNat 10 t.seconds.toInt.natAbs) = some t.seconds.toInt.natAbs :=
    digits_showNat (by decide) (by decide) _
  have hstop := takeWhile_stop _ (zeroPad 9 (showNat 10 t.nanos.toNat)) 46 (dot_not_mem t.seconds.toInt.natAbs).1
  have hneg : t.seconds < 0 ↔ t.seconds.toInt < 0 := Int64.lt_iff_toInt_lt
  refine ⟨showInt64 t.seconds ++ 46 :: zeroPad 9 (showNat 10 t.nanos.toNat), ?_, ?_⟩
  · simp [UnixTime.debug, text, ascii]
  by_cases hs : t.seconds < 0
  · rw [showInt64, if_pos hs, if_pos (hneg.mp hs)]
    unfold readNanos
    simp only [List.cons_append, hstop.1, hstop.2, List.drop_succ_cons, List.drop_zero, hfrac, ↓reduceIte, hwhole, hnanos,
      Option.bind_eq_bind, Option.bind_some, pure]
    have := hneg.mp hs
    congr 1; omega
  · rw [showInt64, if_neg hs, if_neg (fun h => hs (hneg.mpr h))]
    have hm : (match showNat 10 t.seconds.toInt.natAbs ++ 46 :: zeroPad 9 (showNat 10 t.nanos.toNat) with
        | 45 :: s => (true, s)
        | s => (false, s)) = (false, showNat 10 t.seconds.toInt.natAbs ++ 46 :: zeroPad 9 (showNat 10 t.nanos.toNat)) := by
      have h45 := (dot_not_mem t.seconds.toInt.natAbs).2
      cases hd : showNat 10 t.seconds.toInt.natAbs with
      | nil => rfl
      | cons c cs =>
        rw [hd, List.mem_cons, not_or] at h45
        simp only [List.cons_append]
        split
        · rename_i heq; exact absurd (List.cons.inj heq).1.symm h45.1
        · rfl
    unfold readNanos
    rw [hm]
    simp only [hstop.1, hstop.2, List.drop_succ_cons, List.drop_zero, hfrac, ↓reduceIte, hwhole, hnanos,
      Option.bind_eq_bind, Option.bind_some, pure, Bool.false_eq_true]
    have : ¬ t.seconds.toInt < 0 := fun h => hs (hneg.mpr h)
    congr 1; omega

/-- C59 fails for half a second before the epoch: the text says one and a half. -/
theorem C59_violated_time :
    ∃ t, UnixTime.new (-1) 500000000 = some t ∧ t.debug = text "UnixTime(-1.500000000)" ∧
      readNanos (text "-1.500000000") = some (-1500000000) ∧
      t.seconds.toInt * 1000000000 + t.nanos.toNat = -500000000 :=
  ⟨⟨-1, 500000000⟩, by decide, by decide +kernel, by decide +kernel, by decide⟩

/-- A name with a quote, a line break and a byte that is not ASCII. -/
example : debugBytes [97, 0x22, 0x0A, 0xC3] = text "\"a\\\"\\n\\xc3\"" := by decide +kernel

example : hexU32 0xBEEF = text "0x0000BEEF" := by decide +kernel

example : (UnixTime.mk 1 2).debug = text "UnixTime(1.000000002)" := by decide +kernel

/-! ## C60: flag sets -/

namespace Spec

/-- The bits that the protocol gives a name, with the names under which the library documents them. -/
def flagBits : FlagType → List (Nat × String)
  | .openRequest | .createRequest | .opendirRequest => [(0, "KILL_SUIDGID")]
  | .openResponse | .createResponse | .opendirResponse =>
    [(0, "DIRECT_IO"), (1, "KEEP_CACHE"), (2, "NONSEEKABLE"), (3, "CACHE_DIR"), (4, "STREAM"), (5, "NOFLUSH")]
  | .fuseInit =>
    [(0, "ASYNC_READ"), (1, "POSIX_LOCKS"), (2, "FILE_OPS"), (3, "ATOMIC_O_TRUNC"), (4, "EXPORT_SUPPORT"),
      (5, "BIG_WRITES"), (6, "DONT_MASK"), (7, "SPLICE_WRITE"), (8, "SPLICE_MOVE"), (9, "SPLICE_READ"),
      (10, "FLOCK_LOCKS"), (11, "HAS_IOCTL_DIR"), (12, "AUTO_INVAL_DATA"), (13, "DO_READDIRPLUS"),
      (14, "READDIRPLUS_AUTO"), (15, "ASYNC_DIO"), (16, "WRITEBACK_CACHE"), (17, "NO_OPEN_SUPPORT"),
      (18, "PARALLEL_DIROPS"), (19, "HANDLE_KILLPRIV"), (20, "POSIX_ACL"), (21, "ABORT_ERROR"), (22, "MAX_PAGES"),
      (23, "CACHE_SYMLINKS"), (24, "NO_OPENDIR_SUPPORT"), (25, "EXPLICIT_INVAL_DATA"), (26, "MAP_ALIGNMENT"),
      (27, "SUBMOUNTS"), (28, "HANDLE_KILLPRIV_V2"), (29, "SETXATTR_EXT"), (30, "INIT_EXT"), (31, "INIT_RESERVED"),
      (32, "SECURITY_CTX"), (33, "HAS_INODE_DAX")]
  | .pollRequest => [(0, "SCHEDULE_NOTIFY")]
  | .cuseInit => [(0, "UNRESTRICTED_IOCTL")]
  | .ioctlRequest =>
    [(0, "IOCTL_COMPAT"), (1, "IOCTL_UNRESTRICTED"), (3, "IOCTL_32BIT"), (4, "IOCTL_DIR"), (5, "IOCTL_COMPAT_X32")]
  | .copyFileRangeRequest => []
  | .writeRequest => [(0, "WRITE_CACHE"), (1, "WRITE_LOCKOWNER"), (2, "WRITE_KILL_SUIDGID")]
  | .fsyncRequest | .fsyncdirRequest => [(0, "FDATASYNC")]
  | .setlkRequest => [(0, "LK_FLOCK")]
  | .setxattrRequest => [(0, "ACL_KILL_SGID")]
  | .attribute => [(0, "FUSE_ATTR_SUBMOUNT"), (1, "FUSE_ATTR_DAX")]

/-- The number of bits of the protocol's field that holds a set of this type. -/
def flagFieldBits : FlagType → Nat
  | .fuseInit | .copyFileRangeRequest => 64
  | _ => 32

/-- What stands for bit `i`: its name, or else the number with only this bit, in hexadecimal. -/
def EntryOf (t : FlagType) (i : Nat) (e : Bytes) : Prop :=
  (∃ name, (i, name) ∈ flagBits t ∧ e = text name) ∨
  (∀ name, (i, name) ∉ flagBits t) ∧
    ∃ d, e = text "0x" ++ d ∧ 4 * d.length = flagFieldBits t ∧ readHex 0 d = some (2 ^ i)

/-- The entries of a text between braces, separated by a comma and a space. -/
def entriesIn (s : Bytes) : List Bytes → Prop
  | [] => s = []
  | [e] => s = e
  | e :: es => ∃ r, s = e ++ [0x2C, 0x20] ++ r ∧ entriesIn r es

end Spec

/-- The names of the bits, in the model and in the protocol. -/
theorem flagName_spec (t : FlagType) : ∀ i, i < t.width →
    t.flagName ((1#t.width) <<< i) = ((flagBits t).find? (·.1 == i)).map fun p => text p.2 := by
  cases t <;> decide +kernel

theorem entryOf_debugFlag (t : FlagType) (i : Nat) (hi : i < t.width) :
    EntryOf t i (t.debugFlag ((1#t.width) <<< i)) := by
  unfold FlagType.debugFlag
  rw [flagName_spec t i hi]
  cases h : (flagBits t).find? (·.1 == i) with
  | some p =>
    obtain ⟨j, name⟩ := p
    have h1 := List.find?_some h
    simp only [beq_iff_eq] at h1
    subst h1
    exact Or.inl ⟨name, List.mem_of_find?_eq_some h, rfl⟩
  | none =>
    refine Or.inr ⟨fun name hm => ?_, _, rfl, ?_, ?_⟩
    · have := List.find?_eq_none.mp h _ hm
      simp at this
    · rw [length_hexDigits]; cases t <;> rfl
    · have hv : ((1#t.width) <<< i).toNat = 2 ^ i := by
        rw [← BitVec.twoPow_eq, BitVec.toNat_twoPow, Nat.mod_eq_of_lt (Nat.pow_lt_pow_right (by decide) hi)]
      have hw : 16 ^ (t.width / 4) = 2 ^ t.width := by cases t <;> rfl
      rw [hv, readHex_hexDigits _ _ _ (by rw [hw]; exact Nat.pow_lt_pow_right (by decide) hi)]
      simp

theorem entriesIn_commaSeparated : ∀ es : List Bytes, entriesIn (commaSeparated es) es
  | [] => rfl
  | [_] => rfl
  | _ :: e' :: es => ⟨_, rfl, entriesIn_commaSeparated (e' :: es)⟩

/-- C60: a flag set is printed as its type and, in braces, one entry for each bit that is set, from the lowest to the
highest: the name of the flag if the protocol names this bit, its mask in hexadecimal otherwise. -/
theorem C60_entries (t : FlagType) (s : Flags t.width) :
    ∃ (body : Bytes) (entry : Nat → Bytes),
      t.debug s = text t.typeName ++ text " {" ++ body ++ text "}" ∧
      entriesIn body (((List.range (flagFieldBits t)).filter fun i => s.bits.getLsbD i).map entry) ∧
      ∀ i, i < flagFieldBits t → EntryOf t i (entry i) := by
  have hw : flagFieldBits t = t.width := by cases t <;> rfl
  rw [hw]
  refine ⟨_, fun i => t.debugFlag ((1#t.width) <<< i), ?_, entriesIn_commaSeparated _, entryOf_debugFlag t⟩
  rw [FlagType.debug, C35_debug, List.map_map]
  simp only [List.append_assoc]
  rfl

theorem hexDigits_no_comma (k n : Nat) : (0x2C : UInt8) ∉ hexDigits k n := by
  induction k generalizing n with
  | zero => exact List.not_mem_nil
  | succ k ih =>
    rw [hexDigits, List.mem_append, not_or]
    refine ⟨ih _, ?_⟩
    have : ∀ d, d < 16 → (0x2C : UInt8) ≠ upperHex d := by decide
    rw [List.mem_singleton]
    exact this _ (Nat.mod_lt _ (by decide))

theorem flagBits_names (t : FlagType) : ∀ p ∈ flagBits t,
    text p.2 ≠ [] ∧ (0x2C : UInt8) ∉ text p.2 ∧ (text p.2).head? ≠ some 48 ∧
    ∀ q ∈ flagBits t, text p.2 = text q.2 → p.1 = q.1 := by
  cases t <;> decide +kernel

theorem typeName_facts (t : FlagType) : (0x20 : UInt8) ∉ text t.typeName ∧
    ∀ t', text t.typeName = text t'.typeName → t = t' := by
  refine ⟨by cases t <;> decide +kernel, fun t' => ?_⟩
  cases t <;> cases t' <;> decide +kernel

theorem debugFlag_no_comma (t : FlagType) (i : Nat) (hi : i < t.width) :
    t.debugFlag ((1#t.width) <<< i) ≠ [] ∧ (0x2C : UInt8) ∉ t.debugFlag ((1#t.width) <<< i) := by
  unfold FlagType.debugFlag
  rw [flagName_spec t i hi]
  cases h : (flagBits t).find? (·.1 == i) with
  | some p =>
    have := flagBits_names t p (List.mem_of_find?_eq_some h)
    exact ⟨this.1, this.2.1⟩
  | none =>
    refine ⟨List.cons_ne_nil _ _, ?_⟩
    show (0x2C : UInt8) ∉ text "0x" ++ _
    rw [List.mem_append, not_or]
    exact ⟨by decide, hexDigits_no_comma _ _⟩

/-- Different bits are printed differently. -/
theorem entryOf_inj (t : FlagType) {i j : Nat} {e : Bytes} (h : EntryOf t i e) (h' : EntryOf t j e) : i = j := by
  have hx : ∀ d, (text "0x" ++ d).head? = some 48 := fun d => rfl
  rcases h with ⟨n, hn, he⟩ | ⟨-, d, he, -, hd⟩ <;> rcases h' with ⟨n', hn', he'⟩ | ⟨-, d', he', -, hd'⟩
  · exact (flagBits_names t _ hn).2.2.2 _ hn' (by rw [← he, ← he'])
  · exact absurd (by rw [← he, he', hx]) (flagBits_names t _ hn).2.2.1
  · exact absurd (by rw [← he', he, hx]) (flagBits_names t _ hn').2.2.1
  · rw [he, List.append_cancel_left_eq] at he'
    rw [he', hd'] at hd
    exact (Nat.pow_right_inj (by decide)).mp (Option.some.inj hd).symm

theorem split_comma {e e' r r' : Bytes} {c : UInt8} (h : c ∉ e) (h' : c ∉ e') (heq : e ++ c :: r = e' ++ c :: r') :
    e = e' ∧ r = r' := by
  have h1 := takeWhile_stop e r c h
  have h2 := takeWhile_stop e' r' c h'
  rw [heq] at h1
  refine ⟨h1.1.symm.trans h2.1, ?_⟩
  have := h1.2.symm.trans h2.2
  exact (List.cons.inj this).2

theorem commaSeparated_inj : ∀ es es' : List Bytes, (∀ e ∈ es, e ≠ [] ∧ (0x2C : UInt8) ∉ e) →
    (∀ e ∈ es', e ≠ [] ∧ (0x2C : UInt8) ∉ e) → commaSeparated es = commaSeparated es' → es = es'
  | [], [], _, _, _ => rfl
  | [], [e'], _, h', h => absurd h.symm (h' e' (by simp)).1
  | [], e' :: _ :: _, _, _, h => by
    simp only [commaSeparated] at h
    have := congrArg List.length h
    simp [text, ascii] at this
  | [e], [], h, _, heq => absurd heq (h e (by simp)).1
  | e :: _ :: _, [], _, _, h => by
    simp only [commaSeparated] at h
    have := congrArg List.length h
    simp [text, ascii] at this
  | [e], [e'], _, _, h => by rw [show e = e' from h]
  | [e], e' :: f' :: es', h, _, heq => by
    exfalso
    have : e = e' ++ 0x2C :: 0x20 :: commaSeparated (f' :: es') := by
      rw [show e = _ from heq]; simp [commaSeparated, text, ascii]
    exact (h e (by simp)).2 (by rw [this]; simp)
  | e :: f :: es, [e'], _, h', heq => by
    exfalso
    have : e' = e ++ 0x2C :: 0x20 :: commaSeparated (f :: es) := by
      rw [show e' = _ from heq.symm]; simp [commaSeparated, text, ascii]
    exact (h' e' (by simp)).2 (by rw [this]; simp)
  | e :: f :: es, e' :: f' :: es', h, h', heq => by
    have heq : e ++ 0x2C :: (0x20 :: commaSeparated (f :: es)) = e' ++ 0x2C :: (0x20 :: commaSeparated (f' :: es')) := by
      have h1 : ∀ (a b : Bytes) (l : List Bytes), commaSeparated (a :: b :: l) =
          a ++ 0x2C :: (0x20 :: commaSeparated (b :: l)) := fun a b l => by
        show a ++ text ", " ++ commaSeparated (b :: l) = _
        rw [List.append_assoc]; rfl
      rw [← h1, ← h1, heq]
    obtain ⟨h1, h2⟩ := split_comma (h e (by simp)).2 (h' e' (by simp)).2 heq
    rw [h1, commaSeparated_inj (f :: es) (f' :: es') (fun x hx => h x (List.mem_cons_of_mem _ hx))
      (fun x hx => h' x (List.mem_cons_of_mem _ hx)) (List.cons.inj h2).2]

/-- C60: the text tells the type and the set: two flag sets printed alike are the same set of the same type. -/
theorem C60_injective (t t' : FlagType) (s : Flags t.width) (s' : Flags t'.width) (h : t.debug s = t'.debug s') :
    (⟨t, s⟩ : Σ t : FlagType, Flags t.width) = ⟨t', s'⟩ := by
  have h1 : text t.typeName ++ 0x20 :: (text "{" ++ commaSeparated (s.debugMasks.map t.debugFlag) ++ text "}") =
      text t'.typeName ++ 0x20 :: (text "{" ++ commaSeparated (s'.debugMasks.map t'.debugFlag) ++ text "}") := by
    have : ∀ (t : FlagType) (s : Flags t.width), t.debug s = text t.typeName ++ 0x20 ::
        (text "{" ++ commaSeparated (s.debugMasks.map t.debugFlag) ++ text "}") := fun t s => by
      rw [FlagType.debug, List.append_assoc]; rfl
    rw [← this, ← this, h]
  obtain ⟨h2, h3⟩ := split_comma (typeName_facts t).1 (typeName_facts t').1 h1
  have ht := (typeName_facts t).2 t' h2
  subst ht
  simp only [List.append_assoc, List.append_cancel_left_eq, List.append_cancel_right_eq] at h3
  have hne : ∀ (s : Flags t.width), ∀ e ∈ s.debugMasks.map t.debugFlag, e ≠ [] ∧ (0x2C : UInt8) ∉ e := by
    intro s e he
    rw [C35_debug, List.map_map, List.mem_map] at he
    obtain ⟨i, hi, rfl⟩ := he
    exact debugFlag_no_comma t i (List.mem_range.mp (List.mem_filter.mp hi).1)
  have h4 := commaSeparated_inj _ _ (hne s) (hne s') h3
  rw [C35_debug, C35_debug, List.map_map, List.map_map] at h4
  have hbit : ∀ s s' : Flags t.width,
      ((List.range t.width).filter fun i => s.bits.getLsbD i).map (t.debugFlag ∘ fun i => (1#t.width) <<< i) =
      ((List.range t.width).filter fun i => s'.bits.getLsbD i).map (t.debugFlag ∘ fun i => (1#t.width) <<< i) →
      ∀ i, i < t.width → s.bits.getLsbD i = true → s'.bits.getLsbD i = true := by
    intro s s' h i hi hs
    have hm : t.debugFlag ((1#t.width) <<< i) ∈
        ((List.range t.width).filter fun i => s.bits.getLsbD i).map (t.debugFlag ∘ fun i => (1#t.width) <<< i) :=
      List.mem_map.mpr ⟨i, List.mem_filter.mpr ⟨List.mem_range.mpr hi, hs⟩, rfl⟩
    rw [h] at hm
    obtain ⟨j, hj, he⟩ := List.mem_map.mp hm
    rw [List.mem_filter, List.mem_range] at hj
    have h1 := entryOf_debugFlag t i hi
    have h2 := entryOf_debugFlag t j hj.1
    simp only [Function.comp] at he
    rw [he] at h2
    rw [entryOf_inj t h1 h2]
    exact hj.2
  have : s = s' := by
    have hb : s.bits = s'.bits := by
      apply BitVec.eq_of_getLsbD_eq
      intro i hi
      have a := hbit s s' h4 i hi
      have b := hbit s' s h4.symm i hi
      cases h5 : s.bits.getLsbD i <;> cases h6 : s'.bits.getLsbD i <;> simp_all
    cases s; cases s'; simp_all
  rw [this]

/-- An INIT flag set with two named bits and an unnamed one. -/
example : FlagType.fuseInit.debug ⟨0x8000000000000021#64⟩ =
    text "FuseInitFlags {ASYNC_READ, BIG_WRITES, 0x8000000000000000}" := by decide +kernel

example : FlagType.ioctlRequest.debug ⟨0#32⟩ = text "IoctlRequestFlags {}" := by decide +kernel

end Fuse
