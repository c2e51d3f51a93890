import Verif.PropIoctl
import Verif.PropDecode

/-!
# C51: typed reads of an ioctl's input

`IoctlInputReader::read_transmute` returns a reference to a value inside the message; the reference must be aligned.
The input of a decoded request starts 72 bytes behind the start of the buffer, so consecutive records of one type are
read where the client put them.
-/

namespace Fuse
open Spec

/-- `IoctlInputReader`, fuse/operations/ioctl.rs:239-241: the slice, with its address. -/
structure IoctlReader where
  addr : Nat
  bytes : Bytes
deriving DecidableEq, Repr

/-- `IoctlInputReader::read`, fuse/operations/ioctl.rs:250-262; `lit` is the address of the literal on line 253.  The
result is a slice, with its address. -/
def IoctlReader.read (lit : Nat) (r : IoctlReader) (len : Nat) :
    Except IoctlInputError (Nat × Bytes) × IoctlReader :=
  if len = r.bytes.length then (.ok (r.addr, r.bytes), ⟨lit, []⟩)
  else if len > r.bytes.length then (.error .unexpectedEof, r)
  else (.ok (r.addr, r.bytes.take len), ⟨r.addr + len, r.bytes.drop len⟩)

/-- `IoctlInputReader::read_transmute`, fuse/operations/ioctl.rs:271-277, for types of which any bytes are a value. -/
def IoctlReader.readTransmute (lit : Nat) (r : IoctlReader) (T : Type) [Wire T] :
    Except Fault (Except IoctlInputError T × IoctlReader) :=
  match r.read lit (Wire.size T) with
  | (.error e, r') => .ok (.error e, r')
  | (.ok (addr, bytes), r') =>
    if addr % Wire.align T ≠ 0 then .error .misaligned
    else if bytes.length < Wire.size T then .error .oob
    else .ok (.ok (dec (bytes.take (Wire.size T))), r')

/-- Reading `n` records. -/
def IoctlReader.readRecords (lit : Nat) (T : Type) [Wire T] :
    Nat → IoctlReader → Except Fault (List (Except IoctlInputError T) × IoctlReader)
  | 0, r => .ok ([], r)
  | n + 1, r => do
    let (x, r) ← r.readTransmute lit T
    let (xs, r) ← IoctlReader.readRecords lit T n r
    pure (x :: xs, r)

/-- **C51**: the input of a decoded IOCTL request is the part of the message from byte 72 on, of the declared length. -/
theorem C51_position {k : Bool} {buf : Bytes} {r : IoctlRequest}
    (h : decodeMessage (.ioctl k) buf = .ok (.ioctl r)) :
    r.input = (buf.drop 72).take r.inputLen.toNat ∧ 72 + r.inputLen.toNat ≤ buf.length := by
  have hz : ¬ DecodeHazard (.ioctl k) buf := fun h => h
  have hx : ¬ (AnyRequest.ioctl r).EmptyXattrName := fun h => h
  obtain ⟨a, s, h1, _, h3, h4, h5⟩ := decoded_from hz h hx
  cases a <;> first | exact False.elim h1 | skip
  rename_i b p _
  obtain ⟨_, h6⟩ := h4
  obtain ⟨_, _, _, _, h7, _, _, h8⟩ := h5
  simp only [ClientReq.body, ← enc_fuse_ioctl_in, List.append_assoc] at h3
  have h9 : ((buf.take (u32At buf 0)).drop 40).drop 32 = p ++ s := by
    rw [h3]; exact List.drop_left' (Wire.enc_length b)
  rw [List.drop_drop, List.drop_take] at h9
  have hl : p.length ≤ ((buf.drop 72).take (u32At buf 0 - 72)).length := by
    rw [h9, List.length_append]; omega
  rw [List.length_take, List.length_drop] at hl
  have hp : p = (buf.drop 72).take p.length := by
    have h10 : p = (p ++ s).take p.length := by rw [List.take_left]
    rw [← h9, List.take_take, Nat.min_eq_left (by omega)] at h10
    exact h10
  have h72 : 72 ≤ buf.length := by
    have := congrArg List.length h3
    rw [List.length_append, Wire.enc_length, List.length_drop, List.length_take, size_fuse_ioctl_in] at this
    omega
  rw [h7, h6, h8]
  exact ⟨hp, by omega⟩

theorem read_records (lit : Nat) (T : Type) [Wire T] (hpos : 0 < Wire.size T) (hs : Wire.align T ∣ Wire.size T)
    (n : Nat) (r : IoctlReader) (hr : Wire.align T ∣ r.addr ∨ r.bytes = []) :
    ∃ xs r', IoctlReader.readRecords lit T n r = .ok (xs, r') ∧ xs.length = n ∧
      ∀ i, i < n → xs[i]? = some (if i * Wire.size T + Wire.size T ≤ r.bytes.length then
        .ok (dec ((r.bytes.drop (i * Wire.size T)).take (Wire.size T))) else .error .unexpectedEof) := by
  induction n generalizing r with
  | zero => exact ⟨[], r, rfl, rfl, fun i h => absurd h (Nat.not_lt_zero i)⟩
  | succ n ih =>
    by_cases hle : Wire.size T ≤ r.bytes.length
    · have haddr : r.addr % Wire.align T = 0 := by
        rcases hr with hr | hr
        · exact Nat.mod_eq_zero_of_dvd hr
        · rw [hr] at hle; exact absurd hle (by simp only [List.length_nil]; omega)
      have hstep : ∃ a, (Wire.align T ∣ a ∨ r.bytes.drop (Wire.size T) = []) ∧
          r.readTransmute lit T = .ok (.ok (dec (r.bytes.take (Wire.size T))), ⟨a, r.bytes.drop (Wire.size T)⟩) := by
        unfold IoctlReader.readTransmute IoctlReader.read
        by_cases he : Wire.size T = r.bytes.length
        · refine ⟨lit, Or.inr (List.drop_eq_nil_of_le (by omega)), ?_⟩
          simp only [if_pos he, haddr]
          rw [if_neg (by simp), if_neg (by omega), List.drop_eq_nil_of_le (by omega)]
        · refine ⟨r.addr + Wire.size T, Or.inl ?_, ?_⟩
          · exact Nat.dvd_add (Nat.dvd_of_mod_eq_zero haddr) hs
          · simp only [if_neg he, if_neg (show ¬ Wire.size T > r.bytes.length by omega), haddr]
            rw [if_neg (by simp), if_neg (by rw [List.length_take]; omega), List.take_take, Nat.min_self]
      obtain ⟨a, ha, hstep⟩ := hstep
      obtain ⟨xs, r', h1, h2, h3⟩ := ih ⟨a, r.bytes.drop (Wire.size T)⟩ ha
      refine ⟨.ok (dec (r.bytes.take (Wire.size T))) :: xs, r', ?_, by rw [List.length_cons, h2], ?_⟩
      · unfold IoctlReader.readRecords
        rw [hstep]
        simp only [bind, Except.bind, h1, pure, Except.pure]
      · intro i hi
        cases i with
        | zero =>
          rw [List.getElem?_cons_zero, Nat.zero_mul, if_pos (by omega), List.drop_zero]
        | succ i =>
          rw [List.getElem?_cons_succ, h3 i (by omega), Nat.succ_mul, List.length_drop, List.drop_drop]
          generalize i * Wire.size T = m
          by_cases hc : m + Wire.size T ≤ r.bytes.length - Wire.size T
          · rw [if_pos hc, if_pos (by omega), Nat.add_comm m]
          · rw [if_neg hc, if_neg (by omega)]
    · have hstep : r.readTransmute lit T = .ok (.error .unexpectedEof, r) := by
        unfold IoctlReader.readTransmute IoctlReader.read
        rw [if_neg (by omega), if_pos (by omega)]
      obtain ⟨xs, r', h1, h2, h3⟩ := ih r hr
      refine ⟨.error .unexpectedEof :: xs, r', ?_, by rw [List.length_cons, h2], ?_⟩
      · unfold IoctlReader.readRecords
        rw [hstep]
        simp only [bind, Except.bind, h1, pure, Except.pure]
      · intro i hi
        cases i with
        | zero => rw [List.getElem?_cons_zero, if_neg (by omega)]
        | succ i =>
          rw [List.getElem?_cons_succ, h3 i (by omega), Nat.succ_mul, if_neg (by omega), if_neg (by omega)]

/-- **C51**: reading the input of a decoded request as records of one type, whose alignment divides 8 and its size (the
latter holds for every Rust type), never makes an unaligned reference.  The results are the records in the message from
byte 72 on, as far as the input reaches, and errors from then on.  `base` is the address of the message. -/
theorem C51_records {k : Bool} {buf : Bytes} {r : IoctlRequest} (h : decodeMessage (.ioctl k) buf = .ok (.ioctl r))
    (base lit : Nat) (hb : 8 ∣ base) (T : Type) [Wire T] (hpos : 0 < Wire.size T) (h8 : Wire.align T ∣ 8)
    (hs : Wire.align T ∣ Wire.size T) (n : Nat) :
    ∃ xs r', IoctlReader.readRecords lit T n ⟨base + 72, r.input⟩ = .ok (xs, r') ∧ xs.length = n ∧
      ∀ i, i < n → xs[i]? = some (if i * Wire.size T + Wire.size T ≤ r.inputLen.toNat then
        .ok (dec ((buf.drop (72 + i * Wire.size T)).take (Wire.size T))) else .error .unexpectedEof) := by
  obtain ⟨h1, h2⟩ := C51_position h
  have hl : r.input.length = r.inputLen.toNat := by rw [h1, List.length_take, List.length_drop]; omega
  obtain ⟨xs, r', h3, h4, h5⟩ := read_records lit T hpos hs n ⟨base + 72, r.input⟩
    (Or.inl (Nat.dvd_add (Nat.dvd_trans h8 hb) (Nat.dvd_trans h8 (by decide))))
  refine ⟨xs, r', h3, h4, fun i hi => ?_⟩
  rw [h5 i hi]
  show some (if _ ≤ r.input.length then _ else _) = _
  rw [hl]
  by_cases hc : i * Wire.size T + Wire.size T ≤ r.inputLen.toNat
  · rw [if_pos hc, if_pos hc]
    show some (Except.ok (dec ((r.input.drop _).take _))) = _
    rw [h1, List.drop_take, List.take_take, List.drop_drop, Nat.min_eq_left (by omega)]
  · rw [if_neg hc, if_neg hc]

/-- **C51**: `read` leaves the reader where the results of `ioctlRead` end. -/
theorem C51_reader (lit : Nat) (r : IoctlReader) (len : Nat) :
    (r.read lit len).2.bytes = (ioctlRead r.bytes len).2 ∧
    (r.read lit len).1.map (·.2) = (ioctlRead r.bytes len).1 := by
  unfold IoctlReader.read ioctlRead
  split
  · exact ⟨rfl, rfl⟩
  · split <;> exact ⟨rfl, rfl⟩

/-- **C51**: bytes are read one by one from any place: the results are the bytes that are left, then errors. -/
theorem C51_bytes (lit : Nat) (r : IoctlReader) (n : Nat) :
    ∃ xs r', IoctlReader.readRecords lit UInt8 n r = .ok (xs, r') ∧ xs.length = n ∧
      ∀ i, i < n → xs[i]? = some (match r.bytes[i]? with
        | some b => .ok b
        | none => .error .unexpectedEof) := by
  obtain ⟨xs, r', h1, h2, h3⟩ := read_records lit UInt8 (by decide) (Nat.dvd_refl 1) n r (Or.inl (Nat.one_dvd _))
  refine ⟨xs, r', h1, h2, fun i hi => ?_⟩
  rw [h3 i hi]
  show some (if i * 1 + 1 ≤ _ then Except.ok (dec ((r.bytes.drop (i * 1)).take 1)) else _) = _
  rw [Nat.mul_one]
  by_cases hl : i + 1 ≤ r.bytes.length
  · rw [if_pos hl, List.getElem?_eq_getElem (by omega)]
    have hd : (r.bytes.drop i).take 1 = enc (r.bytes[i]'(by omega)) := by
      rw [List.drop_eq_getElem_cons (by omega)]
      show [r.bytes[i]'(by omega)] = leEnc 1 _
      simp [leEnc]
    rw [hd, Wire.dec_enc]
  · rw [if_neg hl, List.getElem?_eq_none (by omega)]

-- bytes at an odd address
example : IoctlReader.readRecords 1 UInt8 3 ⟨4169, [7, 8]⟩ = .ok ([.ok 7, .ok 8, .error .unexpectedEof], ⟨1, []⟩) := by decide
-- three `u32` of a ten-byte input: the third is cut short
example : IoctlReader.readRecords 1 UInt32 3 ⟨4096 + 72, [1, 0, 0, 0, 2, 0, 0, 0, 3, 0]⟩ =
    .ok ([.ok 1, .ok 2, .error .unexpectedEof], ⟨4176, [3, 0]⟩) := by decide
-- after an odd number of bytes the reference is not aligned; to prevent that is left to the caller
example : (IoctlReader.read 1 ⟨4096 + 72, [9, 1, 0, 0, 0]⟩ 1).2.readTransmute 1 UInt32 = .error .misaligned := by decide

end Fuse
