import Verif.Requests

/-!
# Lemmas about the decoder primitives

Each primitive of `RequestDecoder` is characterised by what it does to the bytes that remain of
the message (`Decoder.rest`).
-/

namespace Fuse

/-- The decoder invariant: the message and the header lie inside the received bytes. -/
structure Decoder.Ok (d : Decoder) : Prop where
  len_le : d.headerLen ≤ d.mem.length
  len_lt : d.headerLen < 2 ^ 32
  hdr_le : 40 ≤ d.mem.length
  consumed_lt : d.consumed < 2 ^ 32 + 40

/-- The bytes of the message not consumed yet. -/
def Decoder.rest (d : Decoder) : Bytes := (d.mem.take d.headerLen).drop d.consumed

/-- The header at the start of the buffer. -/
def Decoder.hdr (d : Decoder) : FuseInHeader := dec (d.mem.take 40)

/-- The decoder after consuming `n` more bytes. -/
def Decoder.adv (d : Decoder) (n : Nat) : Decoder := { d with consumed := d.consumed + n }

@[simp] theorem Decoder.adv_mem (d : Decoder) (n) : (d.adv n).mem = d.mem := rfl
@[simp] theorem Decoder.adv_headerLen (d : Decoder) (n) : (d.adv n).headerLen = d.headerLen := rfl
@[simp] theorem Decoder.adv_consumed (d : Decoder) (n) : (d.adv n).consumed = d.consumed + n := rfl
@[simp] theorem Decoder.adv_hdr (d : Decoder) (n) : (d.adv n).hdr = d.hdr := rfl
@[simp] theorem Decoder.adv_rest (d : Decoder) (n) : (d.adv n).rest = d.rest.drop n := by
  simp [Decoder.rest, Decoder.adv]

theorem Decoder.Ok.rest_length {d : Decoder} (h : d.Ok) :
    d.rest.length = d.headerLen - d.consumed := by
  have := h.len_le
  simp only [Decoder.rest, List.length_drop, List.length_take]; omega

theorem Decoder.Ok.adv {d : Decoder} (h : d.Ok) {n : Nat} (hn : d.consumed + n ≤ d.headerLen) :
    (d.adv n).Ok :=
  ⟨h.len_le, h.len_lt, h.hdr_le, by have := h.len_lt; simp; omega⟩

theorem Decoder.Ok.read {d : Decoder} (h : d.Ok) (off n : Nat) (hn : off + n ≤ d.headerLen) :
    d.read off n = .ok ((d.mem.drop off).take n) := by
  have := h.len_le
  rw [Decoder.read, if_pos ⟨hn, by omega⟩]

theorem Decoder.Ok.read_rest {d : Decoder} (h : d.Ok) (n : Nat)
    (hn : d.consumed + n ≤ d.headerLen) : d.read d.consumed n = .ok (d.rest.take n) := by
  rw [h.read _ _ hn]
  simp only [Decoder.rest, List.drop_take, List.take_take]
  congr 2; omega

theorem header_eq {d : Decoder} (h : d.Ok) : header d = .ok (d.hdr, d) := by
  have := h.hdr_le
  simp only [header, Decoder.hdr, size_fuse_in_header]
  rw [if_pos this]

theorem consume_eq {d : Decoder} (h : d.Ok) (n : Nat) (hn : n < 2 ^ 32) :
    d.consume n = if d.consumed + n ≤ d.headerLen then .ok (d.consumed + n)
      else .error (.req .unexpectedEof) := by
  have := h.consumed_lt
  unfold Decoder.consume
  rw [if_pos (by omega)]
  split <;> split <;> first | rfl | omega

theorem deref_eq {d : Decoder} (h : d.Ok) (T : Type) [Wire T]
    (hn : d.consumed + Wire.size T ≤ d.headerLen) :
    d.deref T d.consumed = if d.consumed % Wire.align T = 0 then
      .ok (dec (d.rest.take (Wire.size T))) else .error (.fault .misaligned) := by
  simp only [Decoder.deref, h.read_rest _ hn]

theorem nextSized_eq {d : Decoder} (h : d.Ok) (T : Type) [Wire T] (hs : Wire.size T < 2 ^ 32) :
    nextSized T d = if d.consumed + Wire.size T ≤ d.headerLen then
      (if d.consumed % Wire.align T = 0 then
        .ok (dec (d.rest.take (Wire.size T)), d.adv (Wire.size T))
      else .error (.fault .misaligned))
    else .error (.req .unexpectedEof) := by
  simp only [nextSized, consume_eq h _ hs]
  split
  · rename_i hn
    by_cases ha : d.consumed % Wire.align T = 0 <;>
      simp only [bind, Except.bind, deref_eq h T hn, ha, ↓reduceIte] <;> rfl
  · rfl

theorem peekSized_eq {d : Decoder} (h : d.Ok) (T : Type) [Wire T] (hs : Wire.size T < 2 ^ 32) :
    peekSized T d = if d.consumed + Wire.size T ≤ d.headerLen then
      (if d.consumed % Wire.align T = 0 then
        .ok (dec (d.rest.take (Wire.size T)), d)
      else .error (.fault .misaligned))
    else .error (.req .unexpectedEof) := by
  simp only [peekSized, consume_eq h _ hs]
  split
  · rename_i hn
    by_cases ha : d.consumed % Wire.align T = 0 <;>
      simp only [bind, Except.bind, deref_eq h T hn, ha, ↓reduceIte] <;> rfl
  · rfl

theorem nextBytes_eq {d : Decoder} (h : d.Ok) (n : UInt32) :
    nextBytes n d = if d.consumed + n.toNat ≤ d.headerLen then
        .ok (d.rest.take n.toNat, d.adv n.toNat)
    else .error (.req .unexpectedEof) := by
  simp only [nextBytes, consume_eq h _ n.toNat_lt]
  split
  · rename_i hn
    simp only [bind, Except.bind, h.read_rest _ hn]
    rfl
  · rfl

/-- What `next_node_name` does with the remaining bytes: the result and the number of bytes
consumed. -/
def nameSpec (bs : Bytes) : Except RequestError (NodeName × Nat) :=
  let name := bs.takeWhile (fun b => b ≠ 0 ∧ b ≠ 0x2F)
  match bs.dropWhile (fun b => b ≠ 0 ∧ b ≠ 0x2F) with
  | [] => .error .unexpectedEof
  | c :: _ =>
    if c = 0x2F then .error (.nodeNameError .containsSlash)
    else if name = [] then .error (.nodeNameError .empty)
    else .ok (⟨name⟩, name.length + 1)

/-- What `next_cstr` does with the remaining bytes. -/
def cstrSpec (bs : Bytes) : Except RequestError (CStr × Nat) :=
  let s := bs.takeWhile (· ≠ 0)
  match bs.dropWhile (· ≠ 0) with
  | [] => .error .unexpectedEof
  | _ :: _ => if s = [] then .ok (⟨[]⟩, 0) else .ok (⟨s⟩, s.length + 1)

theorem getElem?_of_rest {d : Decoder} (h : d.Ok) {k : Nat} (hk : d.consumed + k < d.headerLen) :
    d.mem[d.consumed + k]? = d.rest[k]? := by
  have := h.len_le
  simp only [Decoder.rest, List.getElem?_drop, List.getElem?_take]
  rw [if_pos hk]

theorem byteAt_eq {d : Decoder} (h : d.Ok) {k : Nat} {b : UInt8} (hb : d.rest[k]? = some b) :
    d.byteAt (d.consumed + k) = .ok b := by
  have hk : k < d.rest.length := by
    rcases Nat.lt_or_ge k d.rest.length with h1 | h1
    · exact h1
    · rw [List.getElem?_eq_none h1] at hb; cases hb
  rw [h.rest_length] at hk
  unfold Decoder.byteAt
  rw [if_pos (by omega), getElem?_of_rest h (by omega), hb]

/-- Loop invariant of `next_node_name`. -/
theorem nameLoop_eq {d : Decoder} (h : d.Ok) (p r : Bytes) (hr : d.rest = p ++ r)
    (hp : ∀ b ∈ p, b ≠ 0 ∧ b ≠ 0x2F) :
    d.nameLoop r.length (d.consumed + p.length) =
      (match r.dropWhile (fun b => b ≠ 0 ∧ b ≠ 0x2F) with
      | [] => .error (.req .unexpectedEof)
      | c :: _ =>
        if c = 0x2F then .error (.req (.nodeNameError .containsSlash))
        else if p ++ r.takeWhile (fun b => b ≠ 0 ∧ b ≠ 0x2F) = [] then
          .error (.req (.nodeNameError .empty))
        else .ok (⟨p ++ r.takeWhile (fun b => b ≠ 0 ∧ b ≠ 0x2F)⟩,
          d.adv ((p ++ r.takeWhile (fun b => b ≠ 0 ∧ b ≠ 0x2F)).length + 1))) := by
  induction r generalizing p with
  | nil => simp [Decoder.nameLoop]
  | cons c r ih =>
    have hb : d.rest[p.length]? = some c := by rw [hr]; simp
    simp only [List.length_cons, Decoder.nameLoop, byteAt_eq h hb]
    by_cases hs : c = 0x2F
    · subst hs; simp
    · by_cases hz : c = 0
      · subst hz
        simp only [hs, ↓reduceIte, ne_eq, not_true_eq_false]
        by_cases hpe : p = []
        · subst hpe; simp
        · have hpl : p.length ≠ 0 := by simpa using hpe
          have hlen := h.rest_length
          rw [hr] at hlen
          simp only [List.length_append, List.length_cons] at hlen
          rw [if_neg (by omega)]
          have e1 : d.consumed + p.length - d.consumed = p.length := by omega
          rw [e1, h.read_rest _ (by omega), hr]
          have hv : NodeName.Valid p := ⟨hpe, fun hm => (hp _ hm).1 rfl, fun hm => (hp _ hm).2 rfl⟩
          simp [NodeName.fromBytesUnchecked, hv, hpe, Decoder.adv, Nat.add_assoc]
      · have hlen := h.rest_length
        have := ih (p ++ [c]) (by simp [hr]) (by
          intro b hb
          rcases List.mem_append.mp hb with h1 | h1
          · exact hp b h1
          · simp at h1; subst h1; exact ⟨hz, hs⟩)
        simp only [List.length_append, List.length_cons, List.length_nil] at this
        simp only [hs, hz, ↓reduceIte, ne_eq, not_false_eq_true]
        rw [show d.consumed + p.length + 1 = d.consumed + (p.length + (0 + 1)) by omega, this]
        simp [hz, hs, Nat.add_assoc, Nat.add_comm]

theorem nextNodeName_eq {d : Decoder} (h : d.Ok) :
    nextNodeName d = match nameSpec d.rest with
      | .ok (name, n) => .ok (name, d.adv n)
      | .error e => .error (.req e) := by
  have := nameLoop_eq h [] d.rest rfl (by simp)
  simp only [List.length_nil, Nat.add_zero, List.nil_append, h.rest_length] at this
  rw [nextNodeName, this]
  simp only [nameSpec]
  split
  · rfl
  · split
    · rfl
    · split <;> rfl

/-- Loop invariant of `next_cstr`. -/
theorem cstrLoop_eq {d : Decoder} (h : d.Ok) (p r : Bytes) (hr : d.rest = p ++ r)
    (hp : ∀ b ∈ p, b ≠ 0) :
    d.cstrLoop r.length (d.consumed + p.length) =
      (match r.dropWhile (· ≠ 0) with
      | [] => .error (.req .unexpectedEof)
      | _ :: _ =>
        if p ++ r.takeWhile (· ≠ 0) = [] then .ok (⟨[]⟩, d.adv 0)
        else .ok (⟨p ++ r.takeWhile (· ≠ 0)⟩,
          d.adv ((p ++ r.takeWhile (· ≠ 0)).length + 1))) := by
  induction r generalizing p with
  | nil => simp [Decoder.cstrLoop]
  | cons c r ih =>
    have hb : d.rest[p.length]? = some c := by rw [hr]; simp
    simp only [List.length_cons, Decoder.cstrLoop, byteAt_eq h hb]
    by_cases hz : c = 0
    · subst hz
      simp only [↓reduceIte, ne_eq, not_true_eq_false]
      by_cases hpe : p = []
      · subst hpe; simp [Decoder.adv]
      · have hpl : p.length ≠ 0 := by simpa using hpe
        have hlen := h.rest_length
        rw [hr] at hlen
        simp only [List.length_append, List.length_cons] at hlen
        rw [if_neg (by omega)]
        have e1 : d.consumed + p.length + 1 - d.consumed = p.length + 1 := by omega
        rw [e1, h.read_rest _ (by omega), hr]
        have e2 : (p ++ 0 :: r).take (p.length + 1) = p ++ [0] := by
          rw [show p ++ 0 :: r = (p ++ [0]) ++ r by simp]
          exact List.take_left' (by simp)
        have e3 : 0 ∉ p := fun hm => hp _ hm rfl
        simp [e2, CStr.fromBytesWithNulUnchecked, hpe, Decoder.adv, Nat.add_assoc, e3]
    · have := ih (p ++ [c]) (by simp [hr]) (by
          intro b hb
          rcases List.mem_append.mp hb with h1 | h1
          · exact hp b h1
          · simp at h1; subst h1; exact hz)
      simp only [List.length_append, List.length_cons, List.length_nil] at this
      simp only [hz, ↓reduceIte, ne_eq, not_false_eq_true]
      rw [show d.consumed + p.length + 1 = d.consumed + (p.length + (0 + 1)) by omega, this]
      simp [hz, Nat.add_assoc, Nat.add_comm]

theorem nextCstr_eq {d : Decoder} (h : d.Ok) :
    nextCstr d = match cstrSpec d.rest with
      | .ok (s, n) => .ok (s, d.adv n)
      | .error e => .error (.req e) := by
  have := cstrLoop_eq h [] d.rest rfl (by simp)
  simp only [List.length_nil, Nat.add_zero, List.nil_append, h.rest_length] at this
  rw [nextCstr, this]
  simp only [cstrSpec]
  split
  · rfl
  · split <;> rfl

end Fuse
