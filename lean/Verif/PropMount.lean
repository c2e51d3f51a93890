import Verif.Mount

/-!
# C38: mount data round-trips and cannot be injected into

The reader is the kernel's: `generic_parse_monolithic` splits the string at commas and each piece at its
first `=`, `fuse_parse_param` interprets the pieces.  Not part of it are the checks of values (that the
descriptor is a FUSE device, that the IDs are mapped, that the root mode has a file type).
-/

namespace Fuse

namespace Kernel

/-- The pieces between occurrences of a byte. -/
def pieces (sep : UInt8) : Bytes → List Bytes
  | [] => [[]]
  | c :: cs =>
    if c = sep then [] :: pieces sep cs
    else match pieces sep cs with
      | [] => [[c]]
      | p :: ps => (c :: p) :: ps

/-- The key and, if there is an `=`, the value after the first one. -/
def keyValue : Bytes → Bytes × Option Bytes
  | [] => ([], none)
  | c :: cs => if c = 0x3D then ([], some cs) else (c :: (keyValue cs).1, (keyValue cs).2)

/-- The value of a digit. -/
def digit (c : UInt8) : Option Nat :=
  if 0x30 ≤ c ∧ c ≤ 0x39 then some (c.toNat - 0x30)
  else if 0x61 ≤ c ∧ c ≤ 0x66 then some (c.toNat - 0x61 + 10)
  else if 0x41 ≤ c ∧ c ≤ 0x46 then some (c.toNat - 0x41 + 10)
  else none

/-- The number read so far is `acc`. -/
def digits (base : Nat) (acc : Nat) : Bytes → Option Nat
  | [] => some acc
  | c :: cs =>
    match digit c with
    | some d => if d < base then digits base (acc * base + d) cs else none
    | none => none

/-- `_parse_integer_fixup_radix`: base 0 recognises the prefixes `0x` and `0`. -/
def radix (base : Nat) (s : Bytes) : Nat × Bytes :=
  if base ≠ 0 then (base, s)
  else match s with
    | 0x30 :: 0x78 :: rest => (16, rest)
    | 0x30 :: _ => (8, s)
    | _ => (10, s)

/-- `kstrtouint`. -/
def kstrtouint (base : Nat) (s : Bytes) : Option UInt32 :=
  if (radix base s).2.isEmpty then none
  else match digits (radix base s).1 0 (radix base s).2 with
    | some n => if n < 2 ^ 32 then some (UInt32.ofNat n) else none
    | none => none

/-- What the kernel remembers of the options, `struct fuse_fs_context`. -/
structure Mount where
  fd : Option UInt32 := none
  allowOther : Bool := false
  blksize : Option UInt32 := none
  defaultPermissions : Bool := false
  groupId : Option UInt32 := none
  maxRead : Option UInt32 := none
  rootmode : Option UInt32 := none
  subtype : Option Bytes := none
  userId : Option UInt32 := none
deriving DecidableEq, Repr

/-- A value that must be a number. -/
def number (base : Nat) (value : Option Bytes) : Option UInt32 :=
  match value with
  | some s => kstrtouint base s
  | none => none

/-- `fuse_parse_param`; `none` is `EINVAL`.  `blksize` is only for block devices. -/
def parseParam (isBdev : Bool) (m : Mount) (kv : Bytes × Option Bytes) : Option Mount :=
  if kv.1 = ascii ['f', 'd'] then (number 0 kv.2).map fun n => { m with fd := some n }
  else if kv.1 = ascii ['a', 'l', 'l', 'o', 'w', '_', 'o', 't', 'h', 'e', 'r'] then
    if kv.2.isNone then some { m with allowOther := true } else none
  else if kv.1 = ascii ['b', 'l', 'k', 's', 'i', 'z', 'e'] then
    if isBdev then (number 0 kv.2).map fun n => { m with blksize := some n } else none
  else if kv.1 = ascii ['d', 'e', 'f', 'a', 'u', 'l', 't', '_', 'p', 'e', 'r', 'm', 'i', 's', 's', 'i', 'o', 'n',
      's'] then
    if kv.2.isNone then some { m with defaultPermissions := true } else none
  else if kv.1 = ascii ['g', 'r', 'o', 'u', 'p', '_', 'i', 'd'] then
    (number 0 kv.2).map fun n => { m with groupId := some n }
  else if kv.1 = ascii ['m', 'a', 'x', '_', 'r', 'e', 'a', 'd'] then
    (number 0 kv.2).map fun n => { m with maxRead := some n }
  else if kv.1 = ascii ['r', 'o', 'o', 't', 'm', 'o', 'd', 'e'] then
    (number 8 kv.2).map fun n => { m with rootmode := some n }
  else if kv.1 = ascii ['s', 'u', 'b', 't', 'y', 'p', 'e'] then
    match kv.2, m.subtype with
    | some s, none => some { m with subtype := some s }
    | _, _ => none
  else if kv.1 = ascii ['u', 's', 'e', 'r', '_', 'i', 'd'] then
    (number 0 kv.2).map fun n => { m with userId := some n }
  else none

/-- The options one after the other. -/
def parseAll (isBdev : Bool) : Mount → List Bytes → Option Mount
  | m, [] => some m
  | m, p :: ps =>
    match parseParam isBdev m (keyValue p) with
    | some m => parseAll isBdev m ps
    | none => none

/-- `generic_parse_monolithic`: empty pieces are skipped. -/
def parse (isBdev : Bool) (text : Bytes) : Option Mount :=
  parseAll isBdev {} ((pieces 0x2C text).filter fun p => !p.isEmpty)

end Kernel

/-! ## Numbers -/

theorem digit_ofNat {d : Nat} (h : d < 10) : Kernel.digit (UInt8.ofNat (48 + d)) = some d := by
  have : d = 0 ∨ d = 1 ∨ d = 2 ∨ d = 3 ∨ d = 4 ∨ d = 5 ∨ d = 6 ∨ d = 7 ∨ d = 8 ∨ d = 9 := by omega
  rcases this with h | h | h | h | h | h | h | h | h | h <;> subst h <;> rfl

theorem digits_append (base : Nat) : ∀ (s t : Bytes) (acc : Nat),
    Kernel.digits base acc (s ++ t) = (Kernel.digits base acc s).bind fun n => Kernel.digits base n t
  | [], _, _ => rfl
  | c :: cs, t, acc => by
    simp only [List.cons_append, Kernel.digits]
    cases Kernel.digit c with
    | none => rfl
    | some d =>
      by_cases h : d < base
      · simp only [h, ↓reduceIte, digits_append base cs t]
      · simp only [h, ↓reduceIte, Option.bind]

theorem showNat_of_lt {base n : Nat} (h : n < base) : showNat base n = [UInt8.ofNat (48 + n)] := by
  rw [showNat, dif_pos (Or.inl h)]

theorem showNat_of_ge {base n : Nat} (hb : 2 ≤ base) (h : base ≤ n) :
    showNat base n = showNat base (n / base) ++ [UInt8.ofNat (48 + n % base)] := by
  rw [showNat, dif_neg (by omega)]

/-- The digits written are read back, whatever was read before. -/
theorem digits_showNat {base : Nat} (h2 : 2 ≤ base) (h10 : base ≤ 10) (n : Nat) :
    Kernel.digits base 0 (showNat base n) = some n := by
  induction n using Nat.strongRecOn with
  | _ n ih =>
    by_cases h : n < base
    · rw [showNat_of_lt h]
      simp only [Kernel.digits, digit_ofNat (show n < 10 by omega), h, ↓reduceIte, Nat.zero_mul, Nat.zero_add]
    · have hlt : n / base < n := Nat.div_lt_self (by omega) (by omega)
      have hm : n % base < base := Nat.mod_lt _ (by omega)
      rw [showNat_of_ge h2 (by omega), digits_append, ih _ hlt]
      simp only [Option.bind, Kernel.digits, digit_ofNat (show n % base < 10 by omega), hm, ↓reduceIte]
      rw [Nat.div_add_mod' n base]

theorem showNat_ne_nil {base : Nat} (n : Nat) : showNat base n ≠ [] := by
  rw [showNat]
  split <;> simp

theorem ofNat_digit_toNat {d : Nat} (h : d < 10) : (UInt8.ofNat (48 + d)).toNat = 48 + d := by
  simp only [UInt8.toNat_ofNat', Nat.reducePow]
  omega

/-- Every byte of a number is a digit. -/
theorem mem_showNat {base : Nat} (h2 : 2 ≤ base) (h10 : base ≤ 10) (n : Nat) :
    ∀ c ∈ showNat base n, 0x30 ≤ c.toNat ∧ c.toNat ≤ 0x39 := by
  induction n using Nat.strongRecOn with
  | _ n ih =>
    intro c hc
    by_cases h : n < base
    · rw [showNat_of_lt h, List.mem_singleton] at hc
      rw [hc, ofNat_digit_toNat (by omega)]
      omega
    · have hlt : n / base < n := Nat.div_lt_self (by omega) (by omega)
      have hm : n % base < base := Nat.mod_lt _ (by omega)
      rw [showNat_of_ge h2 (by omega), List.mem_append, List.mem_singleton] at hc
      rcases hc with hc | hc
      · exact ih _ hlt c hc
      · rw [hc, ofNat_digit_toNat (by omega)]
        omega

/-- There are no leading zeros. -/
theorem head_showNat {base : Nat} (h2 : 2 ≤ base) (h10 : base ≤ 10) (n : Nat) (hn : n ≠ 0) :
    ∃ c cs, showNat base n = c :: cs ∧ c ≠ 0x30 := by
  induction n using Nat.strongRecOn with
  | _ n ih =>
    by_cases h : n < base
    · refine ⟨_, [], showNat_of_lt h, fun hc => hn ?_⟩
      have := ofNat_digit_toNat (show n < 10 by omega)
      rw [hc] at this
      change 48 = 48 + n at this
      omega
    · have hlt : n / base < n := Nat.div_lt_self (by omega) (by omega)
      have h0 : n / base ≠ 0 := by
        have := Nat.div_pos (show base ≤ n by omega) (by omega)
        omega
      obtain ⟨c, cs, he, hc⟩ := ih _ hlt h0
      exact ⟨c, cs ++ [UInt8.ofNat (48 + n % base)], by rw [showNat_of_ge h2 (by omega), he]; rfl, hc⟩

theorem radix_of_ne {base : Nat} {s : Bytes} (h : base ≠ 0) : Kernel.radix base s = (base, s) := if_pos h

theorem radix_of_head {c : UInt8} {cs : Bytes} (h : c ≠ 0x30) : Kernel.radix 0 (c :: cs) = (10, c :: cs) := by
  unfold Kernel.radix
  rw [if_neg (by decide)]
  split
  · rename_i heq; injection heq with h' _; exact absurd h' h
  · rename_i heq; injection heq with h' _; exact absurd h' h
  · rfl

theorem kstrtouint_of_digits {base b : Nat} {s : Bytes} {n : Nat} (hs : s ≠ []) (hr : Kernel.radix b s = (base, s))
    (h : Kernel.digits base 0 s = some n) (hn : n < 2 ^ 32) : Kernel.kstrtouint b s = some (UInt32.ofNat n) := by
  have he : s.isEmpty = false := by cases s <;> simp_all
  simp only [Kernel.kstrtouint, hr, ↓reduceIte, he, h, hn, Bool.false_eq_true]

theorem kstrtouint_oct (n : UInt32) : Kernel.kstrtouint 8 (showNat 8 n.toNat) = some n := by
  rw [kstrtouint_of_digits (showNat_ne_nil _) (radix_of_ne (by decide)) (digits_showNat (by decide) (by decide) _)
    n.toNat_lt]
  simp

theorem kstrtouint_auto (n : UInt32) : Kernel.kstrtouint 0 (showNat 10 n.toNat) = some n := by
  by_cases h0 : n.toNat = 0
  · rw [h0, showNat_of_lt (by decide)]
    have : n = 0 := UInt32.toNat_inj.1 h0
    rw [this]
    rfl
  · obtain ⟨c, cs, he, hc⟩ := head_showNat (base := 10) (by decide) (by decide) _ h0
    have hd := digits_showNat (base := 10) (by decide) (by decide) n.toNat
    rw [he] at hd ⊢
    rw [kstrtouint_of_digits (by simp) (radix_of_head hc) hd n.toNat_lt]
    simp

/-! ## Splitting -/

/-- Joining pieces with commas. -/
def joinComma : List Bytes → Bytes
  | [] => []
  | [p] => p
  | p :: q :: ps => p ++ 0x2C :: joinComma (q :: ps)

theorem pieces_ne_nil (sep : UInt8) (s : Bytes) : Kernel.pieces sep s ≠ [] := by
  cases s with
  | nil => simp [Kernel.pieces]
  | cons c cs =>
    unfold Kernel.pieces
    split
    · simp
    · split <;> simp

theorem pieces_of_not_mem {sep : UInt8} : ∀ {s : Bytes}, sep ∉ s → Kernel.pieces sep s = [s]
  | [], _ => rfl
  | c :: cs, h => by
    have hc : c ≠ sep := fun e => h (by simp [e])
    have := pieces_of_not_mem (s := cs) (sep := sep) (fun m => h (by simp [m]))
    simp only [Kernel.pieces, hc, ↓reduceIte, this]

theorem pieces_append {sep : UInt8} : ∀ {s : Bytes} (t : Bytes), sep ∉ s →
    Kernel.pieces sep (s ++ sep :: t) = s :: Kernel.pieces sep t
  | [], t, _ => by simp [Kernel.pieces]
  | c :: cs, t, h => by
    have hc : c ≠ sep := fun e => h (by simp [e])
    have := pieces_append (s := cs) (sep := sep) t (fun m => h (by simp [m]))
    simp only [List.cons_append, Kernel.pieces, hc, ↓reduceIte, this]

theorem pieces_joinComma : ∀ (ps : List Bytes), ps ≠ [] → (∀ p ∈ ps, 0x2C ∉ p) →
    Kernel.pieces 0x2C (joinComma ps) = ps
  | [], h, _ => absurd rfl h
  | [p], _, h => pieces_of_not_mem (h p (by simp))
  | p :: q :: ps, _, h => by
    rw [joinComma, pieces_append _ (h p (by simp)),
      pieces_joinComma (q :: ps) (by simp) (fun r hr => h r (by simp_all))]

theorem filter_pieces_joinComma (ps : List Bytes) (h : ∀ p ∈ ps, 0x2C ∉ p) (hne : ∀ p ∈ ps, p ≠ []) :
    ((Kernel.pieces 0x2C (joinComma ps)).filter fun p => !p.isEmpty) = ps := by
  cases ps with
  | nil => rfl
  | cons p ps =>
    rw [pieces_joinComma _ (by simp) h, List.filter_eq_self]
    intro q hq
    have := hne q hq
    cases q <;> simp_all

theorem keyValue_append : ∀ {key : Bytes} (value : Bytes), 0x3D ∉ key →
    Kernel.keyValue (key ++ 0x3D :: value) = (key, some value)
  | [], value, _ => by simp [Kernel.keyValue]
  | c :: cs, value, h => by
    have hc : c ≠ 0x3D := fun e => h (by simp [e])
    simp only [List.cons_append, Kernel.keyValue, hc, ↓reduceIte,
      keyValue_append (key := cs) value (fun m => h (by simp [m]))]

theorem parseAll_append (b : Bool) : ∀ (ps qs : List Bytes) (m : Kernel.Mount),
    Kernel.parseAll b m (ps ++ qs) = (Kernel.parseAll b m ps).bind fun m => Kernel.parseAll b m qs
  | [], _, _ => rfl
  | p :: ps, qs, m => by
    simp only [List.cons_append, Kernel.parseAll]
    cases Kernel.parseParam b m (Kernel.keyValue p) with
    | none => rfl
    | some m => exact parseAll_append b ps qs m

/-! ## Writing -/

/-- The writer has written `out` into a buffer of length `size`. -/
def Wrote (size : Nat) (out : Bytes) (w : BufWriter) : Prop :=
  w.buf.length = size ∧ w.count = out.length ∧ w.buf.take w.count = out

theorem writeBytes_spec {size : Nat} {out : Bytes} {w : BufWriter} (h : Wrote size out w) (b : Bytes) :
    (out.length + b.length ≤ size → ∃ w', w.writeBytes b = .ok w' ∧ Wrote size (out ++ b) w') ∧
    (size < out.length + b.length → w.writeBytes b = .error .fmt) := by
  obtain ⟨hs, hc, ht⟩ := h
  have hle : w.count ≤ w.buf.length := by
    have := congrArg List.length ht
    rw [List.length_take] at this
    omega
  constructor
  · intro hb
    refine ⟨⟨w.buf.take w.count ++ (b ++ (w.buf.drop w.count).drop b.length), w.count + b.length⟩, ?_, ?_, ?_, ?_⟩
    · unfold BufWriter.writeBytes
      rw [if_neg (by omega), if_neg (by rw [List.length_drop]; omega)]
    · simp only [List.length_append, List.length_take, List.length_drop]
      omega
    · simp [hc]
    · show List.take (w.count + b.length) (w.buf.take w.count ++ (b ++ _)) = _
      rw [ht, hc, ← List.append_assoc, ← List.length_append, List.take_left]
  · intro hb
    unfold BufWriter.writeBytes
    rw [if_neg (by omega), if_pos (by rw [List.length_drop]; omega)]

/-- A step of `write_mount_data` that writes an option, or nothing. -/
def Writes (f : MountState → Except WriteFailure MountState) (item : Option Bytes) : Prop :=
  ∀ size out sep w, Wrote size out w →
    match item with
    | none => f (w, sep) = .ok (w, sep)
    | some p =>
      (out.length + (sep ++ p).length ≤ size →
        ∃ w', f (w, sep) = .ok (w', comma) ∧ Wrote size (out ++ (sep ++ p)) w') ∧
      (size < out.length + (sep ++ p).length → f (w, sep) = .error .fmt)

/-- Several pieces written one after the other. -/
def writePieces (w : BufWriter) : List Bytes → Except WriteFailure BufWriter
  | [] => .ok w
  | b :: bs => do
    let w ← w.writeBytes b
    writePieces w bs

theorem writePieces_spec {size : Nat} : ∀ (bs : List Bytes) {out : Bytes} {w : BufWriter}, Wrote size out w →
    (out.length + bs.flatten.length ≤ size → ∃ w', writePieces w bs = .ok w' ∧ Wrote size (out ++ bs.flatten) w') ∧
    (size < out.length + bs.flatten.length → writePieces w bs = .error .fmt)
  | [], out, w, h => by
    refine ⟨fun _ => ⟨w, rfl, by simpa using h⟩, fun hlt => ?_⟩
    have h2 := congrArg List.length h.2.2
    rw [List.length_take] at h2
    have := h.1
    simp at hlt
    omega
  | b :: bs, out, w, h => by
    have hb := writeBytes_spec h b
    simp only [List.flatten_cons, List.length_append, writePieces]
    constructor
    · intro hle
      obtain ⟨w', hw, hw'⟩ := hb.1 (by omega)
      obtain ⟨w'', h1, h2⟩ := (writePieces_spec bs hw').1 (by rw [List.length_append]; omega)
      refine ⟨w'', ?_, by rw [← List.append_assoc]; exact h2⟩
      rw [hw]
      exact h1
    · intro hlt
      by_cases hle : out.length + b.length ≤ size
      · obtain ⟨w', hw, hw'⟩ := hb.1 hle
        rw [hw]
        exact (writePieces_spec bs hw').2 (by rw [List.length_append]; omega)
      · rw [hb.2 (by omega)]
        rfl

theorem writes_none {f : MountState → Except WriteFailure MountState} (h : ∀ s, f s = .ok s) : Writes f none :=
  fun _ _ _ _ _ => h _

theorem writes_some {f : MountState → Except WriteFailure MountState} {p : List Bytes}
    (h : ∀ w sep, f (w, sep) = (writePieces w (sep :: p)).map fun w => (w, comma)) :
    Writes f (some p.flatten) := by
  intro size out sep w hw
  have := writePieces_spec (sep :: p) hw
  simp only [List.flatten_cons] at this
  constructor
  · intro hle
    obtain ⟨w', h1, h2⟩ := this.1 hle
    exact ⟨w', by rw [h, h1]; rfl, h2⟩
  · intro hlt
    rw [h, this.2 hlt]
    rfl

/-- Output so far and separator after one more option. -/
def addItem (s : Bytes × Bytes) : Option Bytes → Bytes × Bytes
  | none => s
  | some p => (s.1 ++ (s.2 ++ p), comma)

/-- A step and what it writes. -/
abbrev MountStep := (MountState → Except WriteFailure MountState) × Option Bytes

/-- Running the steps. -/
def runSteps : List MountStep → MountState → Except WriteFailure MountState
  | [], s => .ok s
  | f :: fs, s => do
    let s ← f.1 s
    runSteps fs s

theorem addItem_length (s : Bytes × Bytes) (i : Option Bytes) : s.1.length ≤ (addItem s i).1.length := by
  cases i <;> simp [addItem]

theorem foldl_addItem_length : ∀ (is : List (Option Bytes)) (s : Bytes × Bytes),
    s.1.length ≤ (is.foldl addItem s).1.length
  | [], _ => Nat.le_refl _
  | i :: is, s => Nat.le_trans (addItem_length s i) (foldl_addItem_length is _)

theorem Wrote.length_le {size : Nat} {out : Bytes} {w : BufWriter} (h : Wrote size out w) : out.length ≤ size := by
  have h2 := congrArg List.length h.2.2
  rw [List.length_take] at h2
  have := h.1
  omega

theorem runSteps_spec {size : Nat} : ∀ (fs : List MountStep), (∀ f ∈ fs, Writes f.1 f.2) →
    ∀ (out sep : Bytes) (w : BufWriter), Wrote size out w →
    (((fs.map Prod.snd).foldl addItem (out, sep)).1.length ≤ size → ∃ w' sep', runSteps fs (w, sep) = .ok (w', sep') ∧
      Wrote size ((fs.map Prod.snd).foldl addItem (out, sep)).1 w') ∧
    (size < ((fs.map Prod.snd).foldl addItem (out, sep)).1.length → runSteps fs (w, sep) = .error .fmt)
  | [], _, out, sep, w, hw => by
    refine ⟨fun _ => ⟨w, sep, rfl, hw⟩, fun hlt => ?_⟩
    have := hw.length_le
    simp only [List.map_nil, List.foldl_nil] at hlt
    omega
  | (f, i) :: fs, hfs, out, sep, w, hw => by
    have hs := hfs (f, i) (by simp) size out sep w hw
    have ih := runSteps_spec (size := size) fs (fun g hg => hfs g (by simp [hg]))
    have hlen := foldl_addItem_length (fs.map Prod.snd) (addItem (out, sep) i)
    cases i with
    | none =>
      simp only [List.map_cons, List.foldl_cons, addItem, runSteps]
      rw [show f (w, sep) = .ok (w, sep) from hs]
      exact ih out sep w hw
    | some p =>
      simp only [List.map_cons, List.foldl_cons, addItem, runSteps] at hlen ⊢
      obtain ⟨h1, h2⟩ := hs
      constructor
      · intro hle
        obtain ⟨w', e, hw'⟩ := h1 (by rw [← List.length_append]; omega)
        obtain ⟨w'', sep', e', h'⟩ := (ih _ comma w' hw').1 hle
        exact ⟨w'', sep', by simp only at e; rw [e]; exact e', h'⟩
      · intro hlt
        by_cases hle : out.length + (sep ++ p).length ≤ size
        · obtain ⟨w', e, hw'⟩ := h1 hle
          simp only at e
          rw [e]
          exact (ih _ comma w' hw').2 hlt
        · have := h2 (by omega)
          simp only at this
          rw [this]
          rfl

theorem foldl_addItem_comma : ∀ (is : List (Option Bytes)) (out : Bytes),
    (is.foldl addItem (out, comma)).1 = out ++ ((is.filterMap id).map (comma ++ ·)).flatten
  | [], out => by simp
  | none :: is, out => by simpa [addItem] using foldl_addItem_comma is out
  | some p :: is, out => by
    simp only [List.foldl_cons, addItem, List.filterMap_cons, id, List.map_cons, List.flatten_cons]
    rw [foldl_addItem_comma is, List.append_assoc]

theorem joinComma_cons (p : Bytes) : ∀ ps : List Bytes, joinComma (p :: ps) = p ++ (ps.map (comma ++ ·)).flatten
  | [] => by simp [joinComma]
  | q :: ps => by
    rw [joinComma, joinComma_cons q ps]
    simp [comma]

/-- The steps produce the options separated by commas. -/
theorem foldl_addItem : ∀ (is : List (Option Bytes)), (is.foldl addItem ([], [])).1 = joinComma (is.filterMap id)
  | [] => rfl
  | none :: is => by simpa [addItem] using foldl_addItem is
  | some p :: is => by
    simp only [List.foldl_cons, addItem, List.filterMap_cons, id]
    rw [foldl_addItem_comma, joinComma_cons]
    rfl

/-! ## The options -/

/-- The text of an option with a value. -/
def valueItem (key : List Char) (value : Option Bytes) : Option Bytes :=
  value.map fun v => ascii key ++ 0x3D :: v

/-- The text of an option without a value. -/
def flagItem (key : List Char) (on : Bool) : Option Bytes := if on then some (ascii key) else none

/-- The steps of `write_mount_data` and what they write.  The first one is preceded by writing the empty
separator, the last one followed by setting the separator. -/
def mountSteps (o : MountOptions) : List MountStep :=
  [(fun s => if o.fuseDeviceFd.isSome then do
      let w ← s.1.writeBytes s.2
      writeFd o (w, s.2)
    else writeFd o s, valueItem ['f', 'd'] (o.fuseDeviceFd.map fun n => showNat 10 n.toNat)),
   (writeAllowOther o, flagItem ['a', 'l', 'l', 'o', 'w', '_', 'o', 't', 'h', 'e', 'r'] o.allowOther),
   (writeBlockSize o, valueItem ['b', 'l', 'k', 's', 'i', 'z', 'e'] (o.blockSize.map fun n => showNat 10 n.toNat)),
   (writeDefaultPermissions o, flagItem ['d', 'e', 'f', 'a', 'u', 'l', 't', '_', 'p', 'e', 'r', 'm', 'i', 's', 's',
     'i', 'o', 'n', 's'] o.defaultPermissions),
   (writeGroupId o, valueItem ['g', 'r', 'o', 'u', 'p', '_', 'i', 'd'] (o.groupId.map fun n => showNat 10 n.toNat)),
   (writeMaxRead o, valueItem ['m', 'a', 'x', '_', 'r', 'e', 'a', 'd'] (o.maxRead.map fun n => showNat 10 n.toNat)),
   (writeRootMode o, valueItem ['r', 'o', 'o', 't', 'm', 'o', 'd', 'e']
     (o.rootMode.map fun m => showNat 8 m.bits.toNat)),
   (writeSubtype o, valueItem ['s', 'u', 'b', 't', 'y', 'p', 'e'] (o.subtype.map fun t => t.cstr.bytes)),
   (fun s => (writeUserId o s).map fun r => (r.1, if o.userId.isSome then comma else r.2),
     valueItem ['u', 's', 'e', 'r', '_', 'i', 'd'] (o.userId.map fun n => showNat 10 n.toNat))]

theorem writes_value {f : MountState → Except WriteFailure MountState} {key : List Char} {v : Bytes}
    (h : ∀ w sep, f (w, sep) = (writePieces w [sep, ascii key ++ [0x3D], v]).map fun w => (w, comma)) :
    Writes f (valueItem key (some v)) := by
  have := writes_some (p := [ascii key ++ [0x3D], v]) h
  simpa [valueItem] using this

theorem writes_flag {f : MountState → Except WriteFailure MountState} {key : List Char}
    (h : ∀ w sep, f (w, sep) = (writePieces w [sep, ascii key]).map fun w => (w, comma)) :
    Writes f (flagItem key true) := by
  have := writes_some (p := [ascii key]) h
  simpa [flagItem] using this

theorem bind_assoc3 {α : Type} (x : Except WriteFailure BufWriter) (b c : Bytes) (g : BufWriter → α) :
    ((do let w ← x
         let w ← w.writeBytes b
         let w ← w.writeBytes c
         pure (g w)) : Except WriteFailure α) =
    (x.bind fun w => writePieces w [b, c]).map g := by
  cases x with
  | error e => rfl
  | ok w =>
    show (w.writeBytes b >>= fun w => w.writeBytes c >>= fun w => pure (g w)) = _
    simp only [Except.bind, writePieces]
    cases w.writeBytes b with
    | error e => rfl
    | ok w =>
      show (w.writeBytes c >>= fun w => pure (g w)) = Except.map g (w.writeBytes c >>= fun w => .ok w)
      cases w.writeBytes c <;> rfl

theorem bind_assoc2 {α : Type} (x : Except WriteFailure BufWriter) (b : Bytes) (g : BufWriter → α) :
    ((do let w ← x
         let w ← w.writeBytes b
         pure (g w)) : Except WriteFailure α) =
    (x.bind fun w => writePieces w [b]).map g := by
  cases x with
  | error e => rfl
  | ok w =>
    show (w.writeBytes b >>= fun w => pure (g w)) = Except.map g (w.writeBytes b >>= fun w => .ok w)
    cases w.writeBytes b <;> rfl

theorem Except.map_map' {ε α β γ : Type} (x : Except ε α) (f : α → β) (g : β → γ) :
    Except.map g (Except.map f x) = Except.map (g ∘ f) x := by
  cases x <;> rfl

theorem mountSteps_writes (o : MountOptions) : ∀ f ∈ mountSteps o, Writes f.1 f.2 := by
  intro f hf
  simp only [mountSteps, List.mem_cons, List.not_mem_nil, or_false] at hf
  rcases hf with rfl | rfl | rfl | rfl | rfl | rfl | rfl | rfl | rfl
  · cases h : o.fuseDeviceFd with
    | none => exact writes_none fun s => by simp only [writeFd, h]; rfl
    | some n =>
      refine writes_value fun w sep => ?_
      simp only [writeFd, h, Option.isSome, ↓reduceIte]
      exact bind_assoc3 _ _ _ _
  · cases h : o.allowOther
    · exact writes_none fun s => by simp only [writeAllowOther, h]; rfl
    · refine writes_flag fun w sep => ?_
      simp only [writeAllowOther, h, ↓reduceIte]
      exact bind_assoc2 _ _ _
  · cases h : o.blockSize with
    | none => exact writes_none fun s => by simp only [writeBlockSize, h]; rfl
    | some n =>
      refine writes_value fun w sep => ?_
      simp only [writeBlockSize, h]
      exact bind_assoc3 _ _ _ _
  · cases h : o.defaultPermissions
    · exact writes_none fun s => by simp only [writeDefaultPermissions, h]; rfl
    · refine writes_flag fun w sep => ?_
      simp only [writeDefaultPermissions, h, ↓reduceIte]
      exact bind_assoc2 _ _ _
  · cases h : o.groupId with
    | none => exact writes_none fun s => by simp only [writeGroupId, h]; rfl
    | some n =>
      refine writes_value fun w sep => ?_
      simp only [writeGroupId, h]
      exact bind_assoc3 _ _ _ _
  · cases h : o.maxRead with
    | none => exact writes_none fun s => by simp only [writeMaxRead, h]; rfl
    | some n =>
      refine writes_value fun w sep => ?_
      simp only [writeMaxRead, h]
      exact bind_assoc3 _ _ _ _
  · cases h : o.rootMode with
    | none => exact writes_none fun s => by simp only [writeRootMode, h]; rfl
    | some n =>
      refine writes_value fun w sep => ?_
      simp only [writeRootMode, h]
      exact bind_assoc3 _ _ _ _
  · cases h : o.subtype with
    | none => exact writes_none fun s => by simp only [writeSubtype, h]; rfl
    | some n =>
      refine writes_value fun w sep => ?_
      simp only [writeSubtype, h]
      exact bind_assoc3 _ _ _ _
  · cases h : o.userId with
    | none => exact writes_none fun s => by simp only [writeUserId, h]; rfl
    | some n =>
      refine writes_value fun w sep => ?_
      simp only [writeUserId, h, Option.isSome, ↓reduceIte]
      rw [bind_assoc3, Except.map_map']
      rfl

/-- The text of the options, as a list of `key` or `key=value`. -/
def mountItems (o : MountOptions) : List Bytes := ((mountSteps o).map Prod.snd).filterMap id

theorem writeBytes_nil {w : BufWriter} (h : w.count ≤ w.buf.length) : w.writeBytes [] = .ok w := by
  unfold BufWriter.writeBytes
  rw [if_neg (by omega), if_neg (by simp)]
  simp

theorem writeMountData_eq {w : BufWriter} (h : w.count ≤ w.buf.length) (o : MountOptions) :
    writeMountData w o = (runSteps (mountSteps o) (w, [])).bind fun s => s.1.writeBytes [0] := by
  have hfd : (if o.fuseDeviceFd.isSome then do
      let w ← w.writeBytes []
      writeFd o (w, [])
    else writeFd o (w, [])) = writeFd o (w, []) := by
    rw [writeBytes_nil h]
    exact ite_self _
  simp only [mountSteps, runSteps, hfd, writeMountData]
  cases writeFd o (w, []) with
  | error e => rfl
  | ok s =>
  simp only [bind, Except.bind]
  cases writeAllowOther o s with
  | error e => rfl
  | ok s =>
  simp only []
  cases writeBlockSize o s with
  | error e => rfl
  | ok s =>
  simp only []
  cases writeDefaultPermissions o s with
  | error e => rfl
  | ok s =>
  simp only []
  cases writeGroupId o s with
  | error e => rfl
  | ok s =>
  simp only []
  cases writeMaxRead o s with
  | error e => rfl
  | ok s =>
  simp only []
  cases writeRootMode o s with
  | error e => rfl
  | ok s =>
  simp only []
  cases writeSubtype o s with
  | error e => rfl
  | ok s =>
  simp only []
  cases writeUserId o s with
  | error e => rfl
  | ok s => rfl

/-- What `mount_data` returns for every buffer. -/
theorem mountData_eq (o : MountOptions) (storage : Bytes) :
    mountData o storage = .ok (if (joinComma (mountItems o)).length < storage.length then
      some (joinComma (mountItems o) ++ [0]) else none) := by
  have hw : Wrote storage.length [] ⟨storage, 0⟩ := ⟨rfl, rfl, rfl⟩
  have hs := runSteps_spec (mountSteps o) (mountSteps_writes o) [] [] _ hw
  rw [foldl_addItem] at hs
  change (_ → _) ∧ (_ → _) at hs
  unfold mountData
  rw [writeMountData_eq (Nat.zero_le _)]
  by_cases h1 : (joinComma (mountItems o)).length ≤ storage.length
  · obtain ⟨w, sep, e, hw'⟩ := hs.1 h1
    have hz := writeBytes_spec hw' [0]
    by_cases h2 : (joinComma (mountItems o)).length < storage.length
    · obtain ⟨w2, e2, h3, h4, h5⟩ := hz.1 (Nat.succ_le_of_lt h2)
      rw [e, if_pos h2]
      simp only [Except.bind, e2]
      have hle := (show Wrote _ _ w2 from ⟨h3, h4, h5⟩).length_le
      rw [if_pos (by omega), h5]
      rfl
    · rw [e, if_neg h2]
      simp only [Except.bind, hz.2 (by simp only [mountItems] at h2; simp only [List.length_singleton]; omega)]
  · rw [hs.2 (by simp only [mountItems] at h1; omega), if_neg (by omega)]
    rfl

/-! ## Reading the options back -/

/-- One option with a value is understood. -/
theorem parseAll_value {b : Bool} {m m' : Kernel.Mount} {key : List Char} {v : Bytes} {ps : List Bytes}
    (hk : 0x3D ∉ ascii key) (h : Kernel.parseParam b m (ascii key, some v) = some m') :
    Kernel.parseAll b m ((ascii key ++ 0x3D :: v) :: ps) = Kernel.parseAll b m' ps := by
  simp only [Kernel.parseAll, keyValue_append v hk, h]

theorem keyValue_flag : ∀ {key : Bytes}, 0x3D ∉ key → Kernel.keyValue key = (key, none)
  | [], _ => rfl
  | c :: cs, h => by
    have hc : c ≠ 0x3D := fun e => h (by simp [e])
    simp only [Kernel.keyValue, hc, ↓reduceIte, keyValue_flag (key := cs) (fun m => h (by simp [m]))]

theorem mountItems_eq (o : MountOptions) : mountItems o =
    (valueItem ['f', 'd'] (o.fuseDeviceFd.map fun n => showNat 10 n.toNat)).toList ++
    ((flagItem ['a', 'l', 'l', 'o', 'w', '_', 'o', 't', 'h', 'e', 'r'] o.allowOther).toList ++
    ((valueItem ['b', 'l', 'k', 's', 'i', 'z', 'e'] (o.blockSize.map fun n => showNat 10 n.toNat)).toList ++
    ((flagItem ['d', 'e', 'f', 'a', 'u', 'l', 't', '_', 'p', 'e', 'r', 'm', 'i', 's', 's', 'i', 'o', 'n', 's']
      o.defaultPermissions).toList ++
    ((valueItem ['g', 'r', 'o', 'u', 'p', '_', 'i', 'd'] (o.groupId.map fun n => showNat 10 n.toNat)).toList ++
    ((valueItem ['m', 'a', 'x', '_', 'r', 'e', 'a', 'd'] (o.maxRead.map fun n => showNat 10 n.toNat)).toList ++
    ((valueItem ['r', 'o', 'o', 't', 'm', 'o', 'd', 'e'] (o.rootMode.map fun m => showNat 8 m.bits.toNat)).toList ++
    ((valueItem ['s', 'u', 'b', 't', 'y', 'p', 'e'] (o.subtype.map fun t => t.cstr.bytes)).toList ++
    ((valueItem ['u', 's', 'e', 'r', '_', 'i', 'd'] (o.userId.map fun n => showNat 10 n.toNat)).toList ++
    [])))))))) := by
  have cons : ∀ (i : Option Bytes) (is : List (Option Bytes)),
      (i :: is).filterMap id = i.toList ++ is.filterMap id := by
    intro i is
    cases i <;> simp
  simp only [mountItems, mountSteps, List.map_cons, List.map_nil, cons, List.filterMap_nil]

theorem parse_fd (b : Bool) (m : Kernel.Mount) (ps : List Bytes) (v : Option UInt32) (h : m.fd = none) :
    Kernel.parseAll b m ((valueItem ['f', 'd'] (v.map fun n => showNat 10 n.toNat)).toList ++ ps) =
    Kernel.parseAll b { m with fd := v } ps := by
  cases v with
  | none => cases m; cases h; rfl
  | some n =>
    refine parseAll_value (by decide) ?_
    simp [Kernel.parseParam, Kernel.number, kstrtouint_auto]

theorem parse_allowOther (b : Bool) (m : Kernel.Mount) (ps : List Bytes) (v : Bool) (h : m.allowOther = false) :
    Kernel.parseAll b m ((flagItem ['a', 'l', 'l', 'o', 'w', '_', 'o', 't', 'h', 'e', 'r'] v).toList ++ ps) =
    Kernel.parseAll b { m with allowOther := v } ps := by
  cases v with
  | false => cases m; cases h; rfl
  | true =>
    show Kernel.parseAll b m (ascii _ :: ps) = _
    simp only [Kernel.parseAll]
    rw [keyValue_flag (by decide)]
    simp [Kernel.parseParam, ascii]

theorem parse_blockSize (b : Bool) (m : Kernel.Mount) (ps : List Bytes) (v : Option UInt32) (h : m.blksize = none)
    (hb : v ≠ none → b = true) :
    Kernel.parseAll b m ((valueItem ['b', 'l', 'k', 's', 'i', 'z', 'e'] (v.map fun n => showNat 10 n.toNat)).toList
      ++ ps) = Kernel.parseAll b { m with blksize := v } ps := by
  cases v with
  | none => cases m; cases h; rfl
  | some n =>
    refine parseAll_value (by decide) ?_
    have hb := hb (by simp)
    simp [Kernel.parseParam, Kernel.number, kstrtouint_auto, ascii, hb]

theorem parse_blockSize_no (m : Kernel.Mount) (ps : List Bytes) (v : Option UInt32) (h : v ≠ none) :
    Kernel.parseAll false m ((valueItem ['b', 'l', 'k', 's', 'i', 'z', 'e'] (v.map fun n => showNat 10 n.toNat)).toList
      ++ ps) = none := by
  cases v with
  | none => exact absurd rfl h
  | some n =>
    show Kernel.parseAll false m ((ascii ['b', 'l', 'k', 's', 'i', 'z', 'e'] ++ 0x3D :: showNat 10 n.toNat) :: ps) = none
    simp only [Kernel.parseAll, keyValue_append _ (show 0x3D ∉ ascii ['b', 'l', 'k', 's', 'i', 'z', 'e'] by decide)]
    rfl

theorem parse_defaultPermissions (b : Bool) (m : Kernel.Mount) (ps : List Bytes) (v : Bool)
    (h : m.defaultPermissions = false) :
    Kernel.parseAll b m ((flagItem ['d', 'e', 'f', 'a', 'u', 'l', 't', '_', 'p', 'e', 'r', 'm', 'i', 's', 's', 'i',
      'o', 'n', 's'] v).toList ++ ps) = Kernel.parseAll b { m with defaultPermissions := v } ps := by
  cases v with
  | false => cases m; cases h; rfl
  | true =>
    show Kernel.parseAll b m (ascii _ :: ps) = _
    simp only [Kernel.parseAll]
    rw [keyValue_flag (by decide)]
    simp [Kernel.parseParam, ascii]

theorem parse_groupId (b : Bool) (m : Kernel.Mount) (ps : List Bytes) (v : Option UInt32) (h : m.groupId = none) :
    Kernel.parseAll b m ((valueItem ['g', 'r', 'o', 'u', 'p', '_', 'i', 'd']
      (v.map fun n => showNat 10 n.toNat)).toList ++ ps) = Kernel.parseAll b { m with groupId := v } ps := by
  cases v with
  | none => cases m; cases h; rfl
  | some n =>
    refine parseAll_value (by decide) ?_
    simp [Kernel.parseParam, Kernel.number, kstrtouint_auto, ascii]

theorem parse_maxRead (b : Bool) (m : Kernel.Mount) (ps : List Bytes) (v : Option UInt32) (h : m.maxRead = none) :
    Kernel.parseAll b m ((valueItem ['m', 'a', 'x', '_', 'r', 'e', 'a', 'd']
      (v.map fun n => showNat 10 n.toNat)).toList ++ ps) = Kernel.parseAll b { m with maxRead := v } ps := by
  cases v with
  | none => cases m; cases h; rfl
  | some n =>
    refine parseAll_value (by decide) ?_
    simp [Kernel.parseParam, Kernel.number, kstrtouint_auto, ascii]

theorem parse_rootMode (b : Bool) (m : Kernel.Mount) (ps : List Bytes) (v : Option FileMode) (h : m.rootmode = none) :
    Kernel.parseAll b m ((valueItem ['r', 'o', 'o', 't', 'm', 'o', 'd', 'e']
      (v.map fun m => showNat 8 m.bits.toNat)).toList ++ ps) =
      Kernel.parseAll b { m with rootmode := v.map FileMode.bits } ps := by
  cases v with
  | none => cases m; cases h; rfl
  | some n =>
    refine parseAll_value (by decide) ?_
    simp [Kernel.parseParam, Kernel.number, kstrtouint_oct, ascii]

theorem parse_subtype (b : Bool) (m : Kernel.Mount) (ps : List Bytes) (v : Option Bytes) (h : m.subtype = none) :
    Kernel.parseAll b m ((valueItem ['s', 'u', 'b', 't', 'y', 'p', 'e'] v).toList ++ ps) =
      Kernel.parseAll b { m with subtype := v } ps := by
  cases v with
  | none => cases m; cases h; rfl
  | some n =>
    refine parseAll_value (by decide) ?_
    simp [Kernel.parseParam, ascii, h]

theorem parse_userId (b : Bool) (m : Kernel.Mount) (ps : List Bytes) (v : Option UInt32) (h : m.userId = none) :
    Kernel.parseAll b m ((valueItem ['u', 's', 'e', 'r', '_', 'i', 'd']
      (v.map fun n => showNat 10 n.toNat)).toList ++ ps) = Kernel.parseAll b { m with userId := v } ps := by
  cases v with
  | none => cases m; cases h; rfl
  | some n =>
    refine parseAll_value (by decide) ?_
    simp [Kernel.parseParam, Kernel.number, kstrtouint_auto, ascii]

/-- A byte that is neither a digit, nor in a key, nor `=`, nor in the subtype, is not in an option. -/
theorem not_mem_item {c : UInt8} {key : List Char} {v : Option Bytes} {p : Bytes} (hp : p ∈ (valueItem key v).toList)
    (hk : c ∉ ascii key) (he : c ≠ 0x3D) (hv : ∀ s, v = some s → c ∉ s) : c ∉ p := by
  cases v with
  | none => simp [valueItem] at hp
  | some s =>
    simp only [valueItem, Option.map_some, Option.toList_some, List.mem_singleton] at hp
    subst hp
    simp only [List.mem_append, List.mem_cons, not_or]
    exact ⟨hk, he, hv s rfl⟩

theorem not_mem_flag {c : UInt8} {key : List Char} {v : Bool} {p : Bytes} (hp : p ∈ (flagItem key v).toList)
    (hk : c ∉ ascii key) : c ∉ p := by
  cases v with
  | false => simp [flagItem] at hp
  | true =>
    simp only [flagItem, ↓reduceIte, Option.toList_some, List.mem_singleton] at hp
    subst hp
    exact hk

theorem not_mem_number {α : Type} {c : UInt8} {base : Nat} {v : Option α} {f : α → Nat} (h2 : 2 ≤ base)
    (h10 : base ≤ 10) (hc : c.toNat < 0x30) : ∀ s, (v.map fun n => showNat base (f n)) = some s → c ∉ s := by
  intro s hs hm
  cases v with
  | none => simp at hs
  | some n =>
    simp only [Option.map_some, Option.some.injEq] at hs
    subst hs
    have := mem_showNat h2 h10 _ c hm
    omega

theorem not_mem_mountItems {c : UInt8} (o : MountOptions) (hc : c = 0 ∨ c = 0x2C)
    (hs : ∀ t, o.subtype = some t → c ∉ t.cstr.bytes) : ∀ p ∈ mountItems o, c ∉ p := by
  have h48 : c.toNat < 0x30 := by rcases hc with rfl | rfl <;> decide
  have he : c ≠ 0x3D := by rcases hc with rfl | rfl <;> decide
  have num {p : Bytes} {key : List Char} {α : Type} {base : Nat} {v : Option α} {f : α → Nat} (h2 : 2 ≤ base)
      (h10 : base ≤ 10) (hk : c ∉ ascii key)
      (hp : p ∈ (valueItem key (v.map fun n => showNat base (f n))).toList) : c ∉ p :=
    not_mem_item hp hk he (not_mem_number h2 h10 h48)
  intro p hp
  rw [mountItems_eq] at hp
  simp only [List.mem_append, List.not_mem_nil, or_false] at hp
  rcases hp with hp | hp | hp | hp | hp | hp | hp | hp | hp
  · exact num (by decide) (by decide) (by rcases hc with rfl | rfl <;> decide) hp
  · exact not_mem_flag hp (by rcases hc with rfl | rfl <;> decide)
  · exact num (by decide) (by decide) (by rcases hc with rfl | rfl <;> decide) hp
  · exact not_mem_flag hp (by rcases hc with rfl | rfl <;> decide)
  · exact num (by decide) (by decide) (by rcases hc with rfl | rfl <;> decide) hp
  · exact num (by decide) (by decide) (by rcases hc with rfl | rfl <;> decide) hp
  · exact num (by decide) (by decide) (by rcases hc with rfl | rfl <;> decide) hp
  · refine not_mem_item hp (by rcases hc with rfl | rfl <;> decide) he fun s hsome => ?_
    cases ht : o.subtype with
    | none => rw [ht] at hsome; simp at hsome
    | some t =>
      rw [ht] at hsome
      simp only [Option.map_some, Option.some.injEq] at hsome
      exact hsome ▸ hs t ht
  · exact num (by decide) (by decide) (by rcases hc with rfl | rfl <;> decide) hp

theorem not_mem_joinComma {c : UInt8} (hc : c ≠ 0x2C) : ∀ ps : List Bytes, (∀ p ∈ ps, c ∉ p) → c ∉ joinComma ps
  | [], _ => by simp [joinComma]
  | [p], h => h p (by simp)
  | p :: q :: ps, h => by
    simp only [joinComma, List.mem_append, List.mem_cons, not_or]
    exact ⟨h p (by simp), hc, not_mem_joinComma hc (q :: ps) fun r hr => h r (by simp_all)⟩

theorem mountItems_ne_nil (o : MountOptions) : ∀ p ∈ mountItems o, p ≠ [] := by
  intro p hp
  have hv {key : List Char} {v : Option Bytes} (hk : key ≠ []) (hp : p ∈ (valueItem key v).toList) : p ≠ [] := by
    cases v with
    | none => simp [valueItem] at hp
    | some s =>
      simp only [valueItem, Option.map_some, Option.toList_some, List.mem_singleton] at hp
      subst hp
      simp
  have hf {key : List Char} {v : Bool} (hk : key ≠ []) (hp : p ∈ (flagItem key v).toList) : p ≠ [] := by
    cases v with
    | false => simp [flagItem] at hp
    | true =>
      simp only [flagItem, ↓reduceIte, Option.toList_some, List.mem_singleton] at hp
      subst hp
      simpa [ascii] using hk
  rw [mountItems_eq] at hp
  simp only [List.mem_append, List.not_mem_nil, or_false] at hp
  rcases hp with hp | hp | hp | hp | hp | hp | hp | hp | hp
  · exact hv (by simp) hp
  · exact hf (by simp) hp
  · exact hv (by simp) hp
  · exact hf (by simp) hp
  · exact hv (by simp) hp
  · exact hv (by simp) hp
  · exact hv (by simp) hp
  · exact hv (by simp) hp
  · exact hv (by simp) hp

/-! ## The property -/

/-- For any options, with any subtype accepted by `FuseSubtype::new`, there is one text such that `mount_data`
returns it, terminated by a NUL, for every buffer with room for it, and `None` for every other buffer.  The
kernel reads the text as a C string and finds in it the configured options, and nothing else; only a block size
makes it refuse a mount that is not of a block device, as documented at `set_block_size`. -/
theorem C38 (o : MountOptions) (isBdev : Bool)
    (hsub : ∀ t, o.subtype = some t → FuseSubtype.new t.cstr = some t) :
    ∃ text : Bytes,
      (∀ storage : Bytes, text.length < storage.length → mountData o storage = .ok (some (text ++ [0]))) ∧
      (∀ storage : Bytes, storage.length ≤ text.length → mountData o storage = .ok none) ∧
      0 ∉ text ∧
      Kernel.parse isBdev text = if o.blockSize ≠ none ∧ isBdev = false then none else some
        { fd := o.fuseDeviceFd
          allowOther := o.allowOther
          blksize := o.blockSize
          defaultPermissions := o.defaultPermissions
          groupId := o.groupId
          maxRead := o.maxRead
          rootmode := o.rootMode.map FileMode.bits
          subtype := o.subtype.map fun t => t.cstr.bytes
          userId := o.userId } := by
  refine ⟨joinComma (mountItems o), fun storage h => ?_, fun storage h => ?_, ?_, ?_⟩
  · rw [mountData_eq, if_pos h]
  · rw [mountData_eq, if_neg (by omega)]
  · exact not_mem_joinComma (by decide) _ (not_mem_mountItems o (Or.inl rfl) fun t _ => t.cstr.noNul)
  · have hcomma : ∀ t, o.subtype = some t → 0x2C ∉ t.cstr.bytes := by
      intro t ht hm
      have := hsub t ht
      unfold FuseSubtype.new at this
      by_cases he : t.cstr.bytes.isEmpty = true
      · rw [if_pos he] at this; cases this
      · rw [if_neg he, if_pos (by simpa using hm)] at this; cases this
    unfold Kernel.parse
    rw [filter_pieces_joinComma _ (not_mem_mountItems o (Or.inr rfl) hcomma) (mountItems_ne_nil o), mountItems_eq,
      parse_fd _ _ _ _ rfl, parse_allowOther _ _ _ _ rfl]
    by_cases hblk : o.blockSize ≠ none ∧ isBdev = false
    · rw [if_pos hblk, hblk.2]
      exact parse_blockSize_no _ _ _ hblk.1
    rw [if_neg hblk, parse_blockSize _ _ _ _ rfl (fun h => by
        cases isBdev with
        | true => rfl
        | false => exact absurd ⟨h, rfl⟩ hblk), parse_defaultPermissions _ _ _ _ rfl, parse_groupId _ _ _ _ rfl, parse_maxRead _ _ _ _ rfl,
      parse_rootMode _ _ _ _ rfl, parse_subtype _ _ _ _ rfl, parse_userId _ _ _ _ rfl]
    rfl

/-- `FuseSubtype::new` rejects exactly the strings that are empty or contain a comma. -/
theorem C38_subtype (s : CName) : FuseSubtype.new s = none ↔ s.bytes = [] ∨ 0x2C ∈ s.bytes := by
  unfold FuseSubtype.new
  by_cases he : s.bytes.isEmpty = true
  · rw [if_pos he]
    simp [List.isEmpty_iff.1 he]
  · rw [if_neg he]
    have : s.bytes ≠ [] := fun h => he (by rw [h]; rfl)
    by_cases hc : s.bytes.contains 0x2C = true
    · rw [if_pos hc]
      simp only [true_iff]
      exact Or.inr (by simpa using hc)
    · rw [if_neg hc]
      simp only [reduceCtorEq, this, false_or, false_iff]
      simpa using hc

/-- A subtype with a comma would add options, so the check in `FuseSubtype::new` is needed: the options say
nothing of `allow_other`, the kernel finds it. -/
theorem C38_unchecked : ∃ (o : MountOptions) (data : Bytes) (m : Kernel.Mount),
    mountData o (List.replicate 64 0) = .ok (some (data ++ [0])) ∧ o.allowOther = false ∧
    Kernel.parse false data = some m ∧ m.allowOther = true :=
  ⟨{ subtype := some ⟨⟨ascii ['x', ',', 'a', 'l', 'l', 'o', 'w', '_', 'o', 't', 'h', 'e', 'r'], by decide⟩⟩ },
    ascii ['s', 'u', 'b', 't', 'y', 'p', 'e', '=', 'x', ',', 'a', 'l', 'l', 'o', 'w', '_', 'o', 't', 'h', 'e', 'r'],
    { subtype := some (ascii ['x']), allowOther := true },
    (mountData_eq _ _).trans (congrArg Except.ok (by decide +kernel)), rfl, by decide +kernel, rfl⟩

/-- The options of a typical mount: `fd=3,allow_other,group_id=0,rootmode=40755,subtype=a=b,user_id=1000`. -/
example : mountData
    { fuseDeviceFd := some 3, allowOther := true, groupId := some 0, rootMode := some ⟨0o40755⟩,
      subtype := some ⟨⟨ascii ['a', '=', 'b'], by decide⟩⟩, userId := some 1000 } (List.replicate 80 0xFF) =
    .ok (some (ascii ['f', 'd', '=', '3', ',', 'a', 'l', 'l', 'o', 'w', '_', 'o', 't', 'h', 'e', 'r', ',',
      'g', 'r', 'o', 'u', 'p', '_', 'i', 'd', '=', '0', ',',
      'r', 'o', 'o', 't', 'm', 'o', 'd', 'e', '=', '4', '0', '7', '5', '5', ',',
      's', 'u', 'b', 't', 'y', 'p', 'e', '=', 'a', '=', 'b', ',',
      'u', 's', 'e', 'r', '_', 'i', 'd', '=', '1', '0', '0', '0'] ++ [0])) :=
  (mountData_eq _ _).trans (congrArg Except.ok (by decide +kernel))

example : mountData { fuseDeviceFd := some 12 } (List.replicate 5 0) = .ok none :=
  (mountData_eq _ _).trans (congrArg Except.ok (by decide +kernel))

example : mountData { fuseDeviceFd := some 12 } (List.replicate 6 0) =
    .ok (some (ascii ['f', 'd', '=', '1', '2'] ++ [0])) :=
  (mountData_eq _ _).trans (congrArg Except.ok (by decide +kernel))

end Fuse
