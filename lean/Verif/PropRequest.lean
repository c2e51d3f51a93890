import Verif.Layout
import Verif.RequestSim

/-!
# C02–C09: receiving and decoding requests

The statements speak about raw receive buffers through `Spec.u32At`/`Spec.u64At`: a request header is
40 bytes, with the length at offset 0, the opcode at 4, the request ID at 8 and the node ID at 16.
-/

namespace Fuse
open Spec

/-! ## Relating the header record to the buffer -/

theorem hdr_fields {buf : Bytes} (h : 40 ≤ buf.length) :
    let x : FuseInHeader := dec (buf.take 40)
    x.len.toNat = u32At buf 0 ∧ x.opcode.toNat = u32At buf 4 ∧ x.unique.toNat = u64At buf 8 ∧
    x.nodeid.toNat = u64At buf 16 ∧ x.uid.toNat = u32At buf 24 ∧ x.gid.toNat = u32At buf 28 ∧
    x.pid.toNat = u32At buf 32 := by
  have e : ∀ i n, i + n ≤ 40 → ((buf.take 40).drop i).take n = (buf.drop i).take n := by
    intro i n hin
    rw [List.drop_take, List.take_take, Nat.min_eq_left (by omega)]
  refine ⟨?_, ?_, ?_, ?_, ?_, ?_, ?_⟩
  · rw [← dec_u32_toNat (by omega), ← e 0 4 (by omega)]; rfl
  · rw [← dec_u32_toNat (by omega), ← e 4 4 (by omega)]; rfl
  · rw [← dec_u64_toNat (by omega), ← e 8 8 (by omega)]
    show (dec (List.take 8 (List.drop 4 (List.drop 4 _))) : UInt64).toNat = _
    rw [List.drop_drop]
  · rw [← dec_u64_toNat (by omega), ← e 16 8 (by omega)]
    show (dec (List.take 8 (List.drop 8 (List.drop 4 (List.drop 4 _)))) : UInt64).toNat = _
    simp only [List.drop_drop]
  · rw [← dec_u32_toNat (by omega), ← e 24 4 (by omega)]
    show (dec (List.take 4 (List.drop 8 (List.drop 8 (List.drop 4 (List.drop 4 _))))) : UInt32).toNat = _
    simp only [List.drop_drop]
  · rw [← dec_u32_toNat (by omega), ← e 28 4 (by omega)]
    show (dec (List.take 4 (List.drop 4 (List.drop 8 (List.drop 8 (List.drop 4 (List.drop 4 _)))))) :
      UInt32).toNat = _
    simp only [List.drop_drop]
  · rw [← dec_u32_toNat (by omega), ← e 32 4 (by omega)]
    show (dec (List.take 4 (List.drop 4 (List.drop 4 (List.drop 8 (List.drop 8 (List.drop 4
      (List.drop 4 _))))))) : UInt32).toNat = _
    simp only [List.drop_drop]

theorem hdr_unique_zero {buf : Bytes} (h : 40 ≤ buf.length) :
    (dec (buf.take 40) : FuseInHeader).unique = 0 ↔ u64At buf 8 = 0 := by
  have := (hdr_fields h).2.2.1
  rw [← UInt64.toNat_inj, this]; rfl

theorem clampU32_lt {n m : Nat} (h : m < 2 ^ 32) : clampU32 n < m ↔ n < m := by
  unfold clampU32; split <;> omega

theorem Request.new_eq (buf : Bytes) : Request.new buf =
    if buf.length < 40 then .error .unexpectedEof
    else if u64At buf 8 = 0 then .error .invalidRequestId
    else if buf.length < u32At buf 0 then .error .unexpectedEof
    else .ok ⟨buf⟩ := by
  unfold Request.new
  simp only [size_fuse_in_header]
  by_cases h : buf.length < 40
  · rw [if_pos h, if_pos h]
  · rw [if_neg h, if_neg h]
    have h40 : 40 ≤ buf.length := by omega
    have h1 := (hdr_fields h40).1
    simp only [hdr_unique_zero h40]
    simp only [h1, clampU32_lt (u32At_lt buf 0)]

/-! ## C02 -/

/-- **C02**: a buffer is accepted as a request exactly if it holds a full header with a non-zero
request ID whose length field does not exceed the received length.  The request then exposes exactly
the declared bytes. -/
theorem C02_accepted_iff (buf : Bytes) :
    (∃ r, Request.new buf = .ok r) ↔
      40 ≤ buf.length ∧ u64At buf 8 ≠ 0 ∧ u32At buf 0 ≤ buf.length := by
  rw [Request.new_eq]
  constructor
  · rintro ⟨r, h⟩
    split at h
    · cases h
    split at h
    · cases h
    split at h
    · cases h
    exact ⟨by omega, by assumption, by omega⟩
  · rintro ⟨h1, h2, h3⟩
    rw [if_neg (by omega), if_neg h2, if_neg (by omega)]
    exact ⟨_, rfl⟩

/-- **C02**, the exposed bytes. -/
theorem C02_exposes (buf : Bytes) (r : Request) (h : Request.new buf = .ok r) :
    r.asBytes = .ok (buf.take (u32At buf 0)) := by
  have ha := (C02_accepted_iff buf).mp ⟨r, h⟩
  rw [Request.new_eq, if_neg (by omega), if_neg ha.2.1, if_neg (by omega)] at h
  cases h
  have h1 := (hdr_fields ha.1).1
  simp only [Request.asBytes, Request.rawHeader, size_fuse_in_header, if_pos ha.1]
  show (if _ then _ else _) = _
  rw [h1, if_pos ha.2.2]; rfl

/-- **C02**, the reported errors. -/
theorem C02_error (buf : Bytes) (e : RequestError) :
    Request.new buf = .error e ↔
      (e = .unexpectedEof ∧ (buf.length < 40 ∨ (u64At buf 8 ≠ 0 ∧ buf.length < u32At buf 0))) ∨
      (e = .invalidRequestId ∧ 40 ≤ buf.length ∧ u64At buf 8 = 0) := by
  rw [Request.new_eq]
  by_cases h1 : buf.length < 40
  · rw [if_pos h1]
    constructor
    · intro h; cases h; exact Or.inl ⟨rfl, Or.inl h1⟩
    · rintro (⟨rfl, _⟩ | ⟨_, h, _⟩)
      · rfl
      · omega
  rw [if_neg h1]
  by_cases h2 : u64At buf 8 = 0
  · rw [if_pos h2]
    constructor
    · intro h; cases h; exact Or.inr ⟨rfl, by omega, h2⟩
    · rintro (⟨rfl, h | h⟩ | ⟨rfl, _⟩)
      · omega
      · exact absurd h2 h.1
      · rfl
  rw [if_neg h2]
  by_cases h3 : buf.length < u32At buf 0
  · rw [if_pos h3]
    constructor
    · intro h; cases h; exact Or.inl ⟨rfl, Or.inr ⟨h2, h3⟩⟩
    · rintro (⟨rfl, _⟩ | ⟨_, _, h⟩)
      · rfl
      · exact absurd h h2
  · rw [if_neg h3]
    constructor
    · intro h; cases h
    · rintro (⟨_, h | h⟩ | ⟨_, _, h⟩)
      · omega
      · exact absurd h.2 h3
      · exact absurd h h2

/-- A 44-byte LOOKUP message inside a longer receive buffer. -/
def exampleLookup : Bytes :=
  le32 44 ++ le32 1 ++ le64 7 ++ le64 1 ++ le32 1000 ++ le32 100 ++ le32 42 ++ le32 0 ++
    [0x61, 0x62, 0x63, 0]

example : 40 ≤ (exampleLookup ++ [9, 9]).length ∧ u64At (exampleLookup ++ [9, 9]) 8 ≠ 0 ∧
    u32At (exampleLookup ++ [9, 9]) 0 ≤ (exampleLookup ++ [9, 9]).length := by decide
example : ∃ r, Request.new (exampleLookup ++ [9, 9]) = .ok r ∧ r.asBytes = .ok exampleLookup := by
  refine ⟨⟨exampleLookup ++ [9, 9]⟩, by decide, by decide⟩

/-! ## C03 -/

/-- Everything `Request` offers for inspection: the header fields that are `NonZero` types, the
message bytes, the body (also printed by `Debug`). -/
def Request.Inspectable (r : Request) : Prop :=
  Returns r.asBytes ∧ Returns r.body ∧
  Returns (do let h ← r.rawHeader; h.requestId) ∧ Returns (do let h ← r.rawHeader; h.requestLen)

/-- **C03** holds for every accepted request that declares at least a header's worth of bytes.
Missing for the full claim: requests whose length field is below 40 (see `C03_violated`). -/
theorem C03_inspect_partial (buf : Bytes) (r : Request) (h : Request.new buf = .ok r)
    (hlen : 40 ≤ u32At buf 0) :
    r.Inspectable ∧ r.body = .ok ((buf.take (u32At buf 0)).drop 40) := by
  have hb := C02_exposes buf r h
  have ha := (C02_accepted_iff buf).mp ⟨r, h⟩
  have hbody : r.body = .ok ((buf.take (u32At buf 0)).drop 40) := by
    simp only [Request.body, hb, size_fuse_in_header]
    show (if _ then _ else _) = _
    rw [if_pos (by rw [List.length_take]; omega)]; rfl
  rw [Request.new_eq, if_neg (by omega), if_neg ha.2.1, if_neg (by omega)] at h
  cases h
  have hf := hdr_fields ha.1
  refine ⟨⟨⟨_, hb⟩, ⟨_, hbody⟩, ?_, ?_⟩, hbody⟩
  · simp only [Request.rawHeader, size_fuse_in_header, if_pos ha.1]
    exact ⟨_, newUnchecked_ok (fun hz => ha.2.1 ((hdr_unique_zero ha.1).mp hz))⟩
  · simp only [Request.rawHeader, size_fuse_in_header, if_pos ha.1]
    refine ⟨(dec (buf.take 40) : FuseInHeader).len.toNat, ?_⟩
    show (if _ then _ else _) = _
    rw [if_pos]
    intro hz
    have h1 := hf.1
    simp only [hz] at h1
    have : (0 : UInt32).toNat = 0 := rfl
    omega

/-- The header of every accepted request shows the fields the client sent; node and process ids of zero are absent. -/
theorem C03_header (buf : Bytes) (r : Request) (h : Request.new buf = .ok r) :
    ∃ x : FuseInHeader, r.rawHeader = .ok x ∧ x.opcode.toNat = u32At buf 4 ∧
      (∃ id, x.requestId = .ok id ∧ id.val.toNat = u64At buf 8) ∧
      x.nodeId.map (fun id => id.val.toNat) = (if u64At buf 16 = 0 then none else some (u64At buf 16)) ∧
      x.uid.toNat = u32At buf 24 ∧ x.gid.toNat = u32At buf 28 ∧
      x.processId.map (fun id => id.val.toNat) = (if u32At buf 32 = 0 then none else some (u32At buf 32)) := by
  have ha := (C02_accepted_iff buf).mp ⟨r, h⟩
  rw [Request.new_eq, if_neg (by omega), if_neg ha.2.1, if_neg (by omega)] at h
  cases h
  have hf := hdr_fields ha.1
  refine ⟨dec (buf.take 40), by simp only [Request.rawHeader, size_fuse_in_header, if_pos ha.1], hf.2.1,
    ⟨_, newUnchecked_ok (fun hz => ha.2.1 ((hdr_unique_zero ha.1).mp hz)), hf.2.2.1⟩, ?_, hf.2.2.2.2.1,
    hf.2.2.2.2.2.1, ?_⟩
  · rw [← hf.2.2.2.1]
    simp only [FuseInHeader.nodeId, NodeId.new, NonZeroU64.new]
    by_cases hz : (dec (buf.take 40) : FuseInHeader).nodeid = 0
    · simp [hz]
    · have hn : (dec (buf.take 40) : FuseInHeader).nodeid.toNat ≠ 0 := fun e => hz (UInt64.toNat_inj.mp e)
      rw [dif_pos hz, if_neg hn]; rfl
  · rw [← hf.2.2.2.2.2.2]
    simp only [FuseInHeader.processId, ProcessId.new]
    by_cases hz : (dec (buf.take 40) : FuseInHeader).pid = 0
    · simp [hz]
    · have hn : (dec (buf.take 40) : FuseInHeader).pid.toNat ≠ 0 := fun e => hz (UInt32.toNat_inj.mp e)
      rw [dif_pos hz, if_neg hn]; rfl

/-- **C03** fails in general: `Request::new` accepts a header declaring zero bytes; `body()` (and so
`Debug`) then panics and `request_len()` violates the precondition of `NonZeroU32::new_unchecked`. -/
theorem C03_violated : ∃ (buf : Bytes) (r : Request), Request.new buf = .ok r ∧
    r.body = .error .panic ∧ (do let h ← r.rawHeader; h.requestLen) = .error .invalid :=
  ⟨le32 0 ++ le32 1 ++ le64 7 ++ le64 1 ++ le64 0 ++ le64 0,
    ⟨le32 0 ++ le32 1 ++ le64 7 ++ le64 1 ++ le64 0 ++ le64 0⟩, by decide, by decide, by decide⟩

example : ∃ r, Request.new exampleLookup = .ok r ∧ 40 ≤ u32At exampleLookup 0 :=
  ⟨⟨exampleLookup⟩, by decide, by decide⟩

/-! ## C04 -/

theorem decodeMessage_cases (t : ReqType) (buf : Bytes) :
    (∃ e, Request.new buf = .error e ∧ decodeMessage t buf = .error (.req e)) ∨
    (Request.new buf = .ok ⟨buf⟩ ∧ 40 ≤ buf.length ∧ u64At buf 8 ≠ 0 ∧
      u32At buf 0 ≤ buf.length ∧ (Decoder.mk buf (u32At buf 0) 40).Ok ∧
      decodeMessage t buf =
        match decodeAny t ⟨buf, u32At buf 0, 40⟩ with
        | .ok (a, _) => .ok a
        | .error e => .error e) := by
  cases hn : Request.new buf with
  | error e => exact Or.inl ⟨e, rfl, by simp only [decodeMessage, hn]⟩
  | ok r =>
    right
    have ha := (C02_accepted_iff buf).mp ⟨r, hn⟩
    have hr : r = ⟨buf⟩ := by
      rw [Request.new_eq, if_neg (by omega), if_neg ha.2.1, if_neg (by omega)] at hn
      cases hn; rfl
    subst hr
    refine ⟨rfl, ha.1, ha.2.1, ha.2.2, ⟨ha.2.2, u32At_lt _ _, ha.1, by simp⟩, ?_⟩
    simp only [decodeMessage, hn, Request.decode, Request.rawHeader, size_fuse_in_header,
      if_pos ha.1, (hdr_fields ha.1).1]
    cases decodeAny t ⟨buf, u32At buf 0, 40⟩ <;> rfl

theorem decodeMessage_good (t : ReqType) (buf : Bytes) (hp : t.Pre buf) (r : AnyRequest)
    (h : decodeMessage t buf = .ok r) : 40 ≤ buf.length ∧ Good t (dec (buf.take 40)) r := by
  rcases decodeMessage_cases t buf with ⟨e, _, h1⟩ | ⟨_, h40, _, _, hok, h1⟩
  · rw [h1] at h; cases h
  · refine ⟨h40, ?_⟩
    have hs := safe_any (mem := buf) (H := u32At buf 0) t hp hok
    rw [h1] at h
    cases hd : decodeAny t ⟨buf, u32At buf 0, 40⟩ with
    | error e => rw [hd] at h; cases h
    | ok p =>
      obtain ⟨a, d'⟩ := p
      rw [hd] at h hs
      cases h
      obtain ⟨_, _, _, _, hg⟩ := hs
      exact hg

/-- The two circumstances, stated on raw bytes, in which decoding an accepted buffer can go wrong:
a BATCH_FORGET (opcode 42) announcing `2^28` or more items, and a WRITE in a session older than 7.9
when fewer than 80 bytes were received. -/
def DecodeHazard (t : ReqType) (buf : Bytes) : Prop :=
  match t with
  | .forget _ => u32At buf 4 = 42 ∧ 2 ^ 28 ≤ u32At buf 40
  | .write v _ => v < 9 ∧ buf.length < 80
  | _ => False

theorem pre_of_not_hazard {t : ReqType} {buf : Bytes} (h40 : 40 ≤ buf.length)
    (h : ¬ DecodeHazard t buf) : t.Pre buf := by
  cases t <;> try exact trivial
  · simp only [ReqType.Pre]
    intro hop
    by_cases hl : 44 ≤ buf.length
    · rw [dec_u32_toNat (by omega)]
      simp only [DecodeHazard] at h
      have h4 := (hdr_fields h40).2.1
      rw [hop] at h4
      have h42 : u32At buf 4 = 42 := h4.symm
      exact Nat.lt_of_not_le (fun hle => h ⟨h42, hle⟩)
    · have hlt := leDec_lt ((buf.drop 40).take 4)
      have hln : ((buf.drop 40).take 4).length ≤ 3 := by
        rw [List.length_take, List.length_drop]; omega
      have h3 : 256 ^ ((buf.drop 40).take 4).length ≤ 256 ^ 3 := Nat.pow_le_pow_right (by omega) hln
      show (UInt32.ofNat (leDec _)).toNat < _
      rw [UInt32.toNat_ofNat']
      have := Nat.mod_le (leDec ((buf.drop 40).take 4)) (2 ^ 32)
      omega
  · rename_i v k
    simp only [ReqType.Pre]
    simp only [DecodeHazard] at h
    by_cases hv : v ≥ 9
    · exact Or.inl hv
    · right
      have : v < 9 := by
        rw [UInt32.lt_iff_toNat_lt]; rw [ge_iff_le, UInt32.le_iff_toNat_le] at hv; omega
      exact Nat.le_of_not_lt (fun hl => h ⟨this, hl⟩)

theorem decodeMessage_no_fault (t : ReqType) (buf : Bytes) (h : ¬ DecodeHazard t buf) (f : Fault) :
    decodeMessage t buf ≠ .error (.fault f) := by
  rcases decodeMessage_cases t buf with ⟨e, _, h1⟩ | ⟨_, h40, _, _, hok, h1⟩
  · rw [h1]; intro h; cases h
  · have hs := safe_any (mem := buf) (H := u32At buf 0) t (pre_of_not_hazard h40 h) hok
    rw [h1]
    cases hd : decodeAny t ⟨buf, u32At buf 0, 40⟩ with
    | ok p => intro h; cases h
    | error e =>
      rw [hd] at hs
      cases e with
      | req e => intro h; cases h
      | fault f => exact hs.elim

/-- **C04**: decoding any buffer as any request type, whatever the session's version, never reads
outside the received bytes, never forms a misaligned reference, never panics (every such event is a
`Failure.fault` in the model), and every accessor of the decoded request returns normally too.
Missing for the full claim: `DecodeHazard`, see `C04_violated_forget` and `C04_violated_write`. -/
theorem C04_memory_safe_partial (t : ReqType) (buf : Bytes) (h : ¬ DecodeHazard t buf) :
    (∀ f, decodeMessage t buf ≠ .error (.fault f)) ∧
    (∀ r, decodeMessage t buf = .ok r → r.AccessorsReturn) := by
  refine ⟨decodeMessage_no_fault t buf h, fun r hr => ?_⟩
  have h40 : 40 ≤ buf.length := by
    rcases decodeMessage_cases t buf with ⟨e, _, h1⟩ | ⟨_, h40, _⟩
    · rw [h1] at hr; cases hr
    · exact h40
  exact (decodeMessage_good t buf (pre_of_not_hazard h40 h) r hr).2.accessors

/-- A 48-byte BATCH_FORGET announcing `2^28` items and carrying none. -/
def hugeForget : Bytes :=
  le32 48 ++ le32 42 ++ le64 7 ++ le64 0 ++ le64 0 ++ le64 0 ++ le32 0x10000000 ++ le32 0

/-- **C04** fails: the byte length of the items is computed in 32 bits.  With overflow checks the
decoder panics; without, it forms a slice of `2^28` records on a 48-byte message. -/
theorem C04_violated_forget :
    decodeMessage (.forget true) hugeForget = .error (.fault .panic) ∧
    decodeMessage (.forget false) hugeForget = .error (.fault .oob) := by decide

/-- A 64-byte WRITE of zero bytes, as sent by a protocol 7.8 client. -/
def oldWrite : Bytes :=
  le32 64 ++ le32 16 ++ le64 7 ++ le64 1 ++ le64 0 ++ le64 0 ++ le64 3 ++ le64 0 ++ le32 0 ++ le32 0

/-- **C04** fails: a valid 64-byte old-style WRITE is viewed through a reference to 80 bytes. -/
theorem C04_violated_write :
    decodeMessage (.write 8 false) oldWrite = .error (.fault .oob) := by decide

example : ¬ DecodeHazard (.write 31 false) oldWrite ∧ ¬ DecodeHazard .lookup exampleLookup ∧
    ∃ r, decodeMessage .lookup exampleLookup = .ok r :=
  ⟨fun h => absurd h.1 (by decide), fun h => h, .lookup ⟨NodeId.root, ⟨[0x61, 0x62, 0x63]⟩⟩, by decide⟩

/-! ## C05 -/

theorem rel_of_take {b1 b2 : Bytes} {n : Nat} (hn : n < 2 ^ 32) (h1 : n ≤ b1.length) (h2 : n ≤ b2.length)
    (h40 : 40 ≤ b1.length) (h40' : 40 ≤ b2.length)
    (heq : b1.take (max 40 n) = b2.take (max 40 n)) : Rel b1 n b2 n := by
  have ht : b1.take n = b2.take n := by
    have := congrArg (List.take n) heq
    simpa only [List.take_take, Nat.min_eq_left (Nat.le_max_right 40 n)] using this
  have hh : b1.take 40 = b2.take 40 := by
    have := congrArg (List.take 40) heq
    simpa only [List.take_take, Nat.min_eq_left (Nat.le_max_left 40 n)] using this
  refine ⟨Nat.le_refl _, hn, h1, h2, h40, h40', ⟨(dec (b1.take 40) : FuseInHeader).len, ?_, fun _ => rfl⟩,
    fun _ => ht, ?_⟩
  · rw [hh]
  · rw [ht, List.take_of_length_le (i := n - 40) (by simp only [List.length_drop, List.length_take]; omega)]

theorem u32At_take {b1 b2 : Bytes} {n i : Nat} (h : b1.take n = b2.take n) (hi : i + 4 ≤ n) :
    u32At b1 i = u32At b2 i := by
  have : ∀ j, j < n → u8At b1 j = u8At b2 j := by
    intro j hj
    have h1 : (b1.take n)[j]? = (b2.take n)[j]? := by rw [h]
    rw [List.getElem?_take, List.getElem?_take, if_pos hj, if_pos hj] at h1
    simp only [u8At, List.getD_eq_getElem?_getD, h1]
  unfold u32At
  rw [this i (by omega), this (i+1) (by omega), this (i+2) (by omega), this (i+3) (by omega)]

theorem ignores_trailing (t : ReqType) (b1 b2 : Bytes) (n : Nat)
    (hn : n = max 40 (u32At b1 0)) (h1 : n ≤ b1.length) (h2 : n ≤ b2.length)
    (heq : b1.take n = b2.take n) (hp2 : t.Pre2 b1 b2) : decodeMessage t b1 = decodeMessage t b2 := by
  subst hn
  have hl : u32At b1 0 = u32At b2 0 := u32At_take heq (by omega)
  have hu : u64At b1 8 = u64At b2 8 := by
    unfold u64At; rw [u32At_take heq (by omega), u32At_take heq (by omega)]
  have h40 : 40 ≤ b1.length := by omega
  have h40' : 40 ≤ b2.length := by omega
  rcases decodeMessage_cases t b1 with ⟨e, he, hd⟩ | ⟨_, _, hu1, hlen, hok, hd⟩
  · have he2 : Request.new b2 = .error e := by
      rw [C02_error] at he ⊢
      rw [← hl, ← hu]
      rcases he with ⟨e1, h | h⟩ | h
      · omega
      · omega
      · exact Or.inr ⟨h.1, h40', h.2.2⟩
    rcases decodeMessage_cases t b2 with ⟨e', he', hd'⟩ | ⟨hn2, _⟩
    · rw [he2] at he'; cases he'; rw [hd, hd']
    · rw [he2] at hn2; cases hn2
  · rcases decodeMessage_cases t b2 with ⟨e', he', hd'⟩ | ⟨_, _, hu2, hlen2, hok2, hd'⟩
    · exfalso
      rw [C02_error, ← hl, ← hu] at he'
      rcases he' with ⟨_, h | h⟩ | h
      · omega
      · omega
      · exact hu1 h.2.2
    · rw [hd, hd', ← hl]
      have hrel := rel_of_take (u32At_lt b1 0) (by omega) (by omega) h40 h40' heq
      have hs := sim_any hrel t hp2 40 (by omega) (by omega) (Or.inr rfl)
      cases hda : decodeAny t ⟨b1, u32At b1 0, 40⟩ with
      | error x =>
        rw [hda] at hs
        rw [hs rfl]
      | ok p =>
        obtain ⟨a, d'⟩ := p
        rw [hda] at hs
        rcases hs with ⟨c', b, _, _, _, _, h5, h6⟩ | ⟨h5, _⟩
        · rw [h5, h6 rfl]
        · omega

/-- **C05**: two receive buffers agreeing on the declared message (and on the header) decode to the
same result, whatever follows.  Missing for the full claim: an old-style WRITE (before 7.9) whose
buffer has fewer than 80 bytes, where the code reads past the message. -/
theorem C05_ignores_trailing_partial (t : ReqType) (b1 b2 : Bytes) (n : Nat)
    (hn : n = max 40 (u32At b1 0)) (h1 : n ≤ b1.length) (h2 : n ≤ b2.length)
    (heq : b1.take n = b2.take n)
    (hz : ¬ DecodeHazard t b1) (hz2 : ¬ DecodeHazard t b2) :
    decodeMessage t b1 = decodeMessage t b2 := by
  refine ignores_trailing t b1 b2 n hn h1 h2 heq ?_
  cases t <;> try exact trivial
  rename_i v k
  simp only [DecodeHazard] at hz hz2
  simp only [ReqType.Pre2]
  by_cases hv : v ≥ 9
  · exact Or.inl hv
  · have hv' : v < 9 := by
      rw [UInt32.lt_iff_toNat_lt]; rw [ge_iff_le, UInt32.le_iff_toNat_le] at hv; omega
    exact Or.inr ⟨Nat.le_of_not_lt (fun h => hz ⟨hv', h⟩), Nat.le_of_not_lt (fun h => hz2 ⟨hv', h⟩)⟩

/-- **C05** fails without that restriction: the 64-byte WRITE decodes once 16 stale bytes follow. -/
theorem C05_violated : (oldWrite ++ List.replicate 16 0).take 64 = oldWrite ∧
    decodeMessage (.write 8 false) oldWrite ≠
      decodeMessage (.write 8 false) (oldWrite ++ List.replicate 16 0) := by decide

example : ∃ r, decodeMessage .lookup (exampleLookup ++ [1, 2, 3]) = .ok r ∧
    decodeMessage .lookup (exampleLookup ++ [9]) = .ok r :=
  ⟨.lookup ⟨NodeId.root, ⟨[0x61, 0x62, 0x63]⟩⟩, by decide, by decide⟩

/-! ## C06 -/

theorem header_bind_run {β} {d : Decoder} (hok : d.Ok) (f : FuseInHeader → DecM β) :
    (header >>= f) d = f d.hdr d := by
  simp only [Bind.bind, StateT.bind, header_eq hok]; rfl

theorem expectOpcode_bind_ne {β} {d : Decoder} (hok : d.Ok) {op : UInt32} (h : d.hdr.opcode ≠ op)
    (f : Unit → DecM β) : (expectOpcode op >>= f) d = .error (.req .opcodeMismatch) := by
  simp only [expectOpcode, bind_assoc]
  rw [header_bind_run hok, if_pos h]
  rfl

theorem map_error {α β} {d : Decoder} {m : DecM α} {g : α → β} {e} (h : m d = .error e) :
    (g <$> m) d = .error e := by
  rw [map_eq_pure_bind]
  simp only [Bind.bind, StateT.bind, h]; rfl

theorem wrong_opcode {t : ReqType} {d : Decoder} (hok : d.Ok) (h : d.hdr.opcode ∉ t.opcodes) :
    decodeAny t d = .error (.req .opcodeMismatch) := by
  cases t <;> refine map_error ?_ <;>
    simp only [ReqType.opcodes, List.mem_cons, List.not_mem_nil, or_false, not_or] at h
  case forget k =>
    unfold decodeForget
    rw [header_bind_run hok, if_neg h.2]
    exact expectOpcode_bind_ne hok h.1 _
  case rename =>
    unfold decodeRename
    rw [header_bind_run hok]
    simp only [if_neg h.2]
    exact expectOpcode_bind_ne hok h.1 _
  case setlk =>
    unfold decodeSetlk
    rw [header_bind_run hok]
    simp only [if_pos h.2]
    exact expectOpcode_bind_ne hok h.1 _
  all_goals exact expectOpcode_bind_ne hok h _

/-- **C06**: an accepted buffer decodes as type `t` only if its opcode (offset 4) is one of `t`'s
opcodes, and otherwise the error is `OpcodeMismatch`. -/
theorem C06_wrong_opcode (t : ReqType) (buf : Bytes) (r : Request) (hn : Request.new buf = .ok r)
    (h : ∀ op ∈ t.opcodes, op.toNat ≠ u32At buf 4) :
    decodeMessage t buf = .error (.req .opcodeMismatch) := by
  rcases decodeMessage_cases t buf with ⟨e, he, _⟩ | ⟨_, h40, _, _, hok, hd⟩
  · rw [he] at hn; cases hn
  · rw [hd, wrong_opcode hok]
    intro hm
    exact h _ hm (hdr_fields h40).2.1

/-- The request types that share an opcode: the same operation for CUSE and FUSE sessions or for
different protocol versions. -/
theorem C06_unambiguous (t t' : ReqType) (buf : Bytes) (r r' : AnyRequest)
    (h : decodeMessage t buf = .ok r) (h' : decodeMessage t' buf = .ok r') :
    ∃ op, op ∈ t.opcodes ∧ op ∈ t'.opcodes ∧ op.toNat = u32At buf 4 := by
  have key : ∀ t r, decodeMessage t buf = .ok r →
      40 ≤ buf.length ∧ (dec (buf.take 40) : FuseInHeader).opcode ∈ t.opcodes := by
    intro t r h
    rcases decodeMessage_cases t buf with ⟨e, _, h1⟩ | ⟨_, h40, _, _, hok, hd⟩
    · rw [h1] at h; cases h
    · refine ⟨h40, ?_⟩
      apply Classical.byContradiction
      intro hno
      rw [hd, wrong_opcode hok hno] at h
      cases h
  exact ⟨_, (key t r h).2, (key t' r' h').2, (hdr_fields (key t r h).1).2.1⟩

/-- Which request type (by position in `ReqType`) an opcode belongs to. -/
def opcodeTable : List (UInt32 × Nat) :=
  [(34, 0), (37, 1), (47, 2), (43, 3), (2, 4), (42, 4), (30, 5), (31, 6),
   (22, 7), (36, 8), (13, 9), (23, 10), (1, 11), (46, 12), (9, 13), (27, 14),
   (40, 15), (5, 16), (24, 17), (12, 18), (45, 18), (11, 19), (4, 20), (32, 21),
   (33, 21), (17, 22), (6, 23), (10, 24), (26, 25), (4096, 26), (35, 27), (3, 28),
   (8, 29), (28, 30), (44, 31), (29, 32), (21, 33), (25, 34), (20, 35), (39, 36),
   (14, 37), (15, 38), (18, 39), (16, 40)]

/-- Opcodes of different operations are different, so `C06_unambiguous` separates them. -/
theorem C06_opcodes_disjoint (t t' : ReqType) (op : UInt32) (h : op ∈ t.opcodes)
    (h' : op ∈ t'.opcodes) : t.ctorIdx = t'.ctorIdx := by
  have key : ∀ t : ReqType, op ∈ t.opcodes → opcodeTable.lookup op = some t.ctorIdx := by
    intro t h
    cases t <;> simp only [ReqType.opcodes, List.mem_cons, List.not_mem_nil, or_false] at h <;>
      first
      | (subst h; rfl)
      | (rcases h with rfl | rfl <;> rfl)
  have := (key t h).symm.trans (key t' h')
  exact Option.some.inj this

example : decodeMessage .unlink exampleLookup = .error (.req .opcodeMismatch) := by decide

/-! ## C07, C08 -/

/-- Every node ID exposed by a decoded request is non-zero, and the primary one is the one in the message header
(offset 16). -/
theorem node_ids_good (t : ReqType) (buf : Bytes) (r : AnyRequest) (hz : ¬ DecodeHazard t buf)
    (h : decodeMessage t buf = .ok r) :
    (∀ id ∈ r.nodeIds, ∃ n : NodeId, id = .ok n ∧ n.val ≠ 0) ∧
    (t.isCuse = false → ∀ id ∈ r.nodeIds.head?, ∃ n : NodeId, id = .ok n ∧ n.val.toNat = u64At buf 16) := by
  have h40 : 40 ≤ buf.length := by
    rcases decodeMessage_cases t buf with ⟨e, _, h1⟩ | ⟨_, h40, _⟩
    · rw [h1] at h; cases h
    · exact h40
  have hg := (decodeMessage_good t buf (pre_of_not_hazard h40 hz) r h).2
  refine ⟨fun id hid => ?_, fun hc id hid => ?_⟩
  · obtain ⟨n, hn⟩ := hg.ids id hid
    exact ⟨n, hn, n.property⟩
  · obtain ⟨hne, rfl⟩ := hg.headId hc id hid
    exact ⟨_, rfl, (hdr_fields h40).2.2.2.1⟩

example : ∃ r, decodeMessage .lookup exampleLookup = .ok r ∧ r.nodeIds = [.ok NodeId.root] ∧
    u64At exampleLookup 16 = 1 :=
  ⟨.lookup ⟨NodeId.root, ⟨[0x61, 0x62, 0x63]⟩⟩, by decide, by decide, by decide⟩

/-- Every node name exposed by a decoded request is non-empty and contains neither NUL nor `/`. -/
theorem names_good (t : ReqType) (buf : Bytes) (r : AnyRequest) (hz : ¬ DecodeHazard t buf)
    (h : decodeMessage t buf = .ok r) :
    ∀ n ∈ r.names, n.bytes ≠ [] ∧ 0 ∉ n.bytes ∧ 0x2F ∉ n.bytes := by
  have h40 : 40 ≤ buf.length := by
    rcases decodeMessage_cases t buf with ⟨e, _, h1⟩ | ⟨_, h40, _⟩
    · rw [h1] at h; cases h
    · exact h40
  exact (decodeMessage_good t buf (pre_of_not_hazard h40 hz) r h).2.names

example : ∃ r, decodeMessage .lookup exampleLookup = .ok r ∧ r.names = [⟨[0x61, 0x62, 0x63]⟩] :=
  ⟨.lookup ⟨NodeId.root, ⟨[0x61, 0x62, 0x63]⟩⟩, by decide, by decide⟩

/-! ## C09 -/

theorem scan_none (bs : Bytes) : NodeName.scan bs = none ↔ 0 ∉ bs ∧ 0x2F ∉ bs := by
  induction bs with
  | nil => simp [NodeName.scan]
  | cons b bs ih =>
    simp only [NodeName.scan, List.mem_cons, not_or]
    by_cases h0 : b = 0
    · simp [h0]
    · by_cases h1 : b = 0x2F
      · simp [h1]
      · rw [if_neg h0, if_neg h1, ih]
        constructor
        · rintro ⟨a, c⟩; exact ⟨⟨fun h => h0 h.symm, a⟩, fun h => h1 h.symm, c⟩
        · rintro ⟨⟨_, a⟩, _, c⟩; exact ⟨a, c⟩

theorem scan_some (bs : Bytes) (e : NodeNameError) : NodeName.scan bs = some e ↔
    ∃ pre c post, bs = pre ++ c :: post ∧ 0 ∉ pre ∧ 0x2F ∉ pre ∧
      ((c = 0 ∧ e = .containsNul) ∨ (c = 0x2F ∧ e = .containsSlash)) := by
  induction bs with
  | nil => simp [NodeName.scan]
  | cons b bs ih =>
    simp only [NodeName.scan]
    by_cases h0 : b = 0
    · subst h0
      rw [if_pos rfl]
      constructor
      · intro h; cases h; exact ⟨[], 0, bs, rfl, by simp, by simp, Or.inl ⟨rfl, rfl⟩⟩
      · rintro ⟨pre, c, post, heq, hp, _, hc⟩
        cases pre with
        | nil =>
          simp only [List.nil_append, List.cons.injEq] at heq
          rcases hc with ⟨_, rfl⟩ | ⟨hc, _⟩
          · rfl
          · exact absurd (heq.1.trans hc) (by decide)
        | cons x pre =>
          simp only [List.cons_append, List.cons.injEq] at heq
          exact absurd (heq.1 ▸ List.mem_cons_self) hp
    · by_cases h1 : b = 0x2F
      · subst h1
        rw [if_neg (by decide), if_pos rfl]
        constructor
        · intro h; cases h; exact ⟨[], 0x2F, bs, rfl, by simp, by simp, Or.inr ⟨rfl, rfl⟩⟩
        · rintro ⟨pre, c, post, heq, _, hp, hc⟩
          cases pre with
          | nil =>
            simp only [List.nil_append, List.cons.injEq] at heq
            rcases hc with ⟨hc, _⟩ | ⟨_, rfl⟩
            · exact absurd (heq.1.trans hc) (by decide)
            · rfl
          | cons x pre =>
            simp only [List.cons_append, List.cons.injEq] at heq
            exact absurd (heq.1 ▸ List.mem_cons_self) hp
      · rw [if_neg h0, if_neg h1, ih]
        constructor
        · rintro ⟨pre, c, post, rfl, h2, h3, h4⟩
          refine ⟨b :: pre, c, post, rfl, ?_, ?_, h4⟩ <;> simp only [List.mem_cons, not_or]
          · exact ⟨fun h => h0 h.symm, h2⟩
          · exact ⟨fun h => h1 h.symm, h3⟩
        · rintro ⟨pre, c, post, heq, h2, h3, h4⟩
          cases pre with
          | nil =>
            simp only [List.nil_append, List.cons.injEq] at heq
            rcases h4 with ⟨rfl, _⟩ | ⟨rfl, _⟩
            · exact absurd heq.1 h0
            · exact absurd heq.1 h1
          | cons x pre =>
            simp only [List.cons_append, List.cons.injEq] at heq
            refine ⟨pre, c, post, heq.2, ?_, ?_, h4⟩
            · exact fun h => h2 (List.mem_cons_of_mem _ h)
            · exact fun h => h3 (List.mem_cons_of_mem _ h)

/-- **C09**: a node name is accepted exactly if it is non-empty and free of NUL and `/`; it then is
those bytes. -/
theorem C09_accepts_iff (bs : Bytes) (n : NodeName) :
    NodeName.fromBytes bs = .ok n ↔ n.bytes = bs ∧ bs ≠ [] ∧ 0 ∉ bs ∧ 0x2F ∉ bs := by
  unfold NodeName.fromBytes
  cases hb : bs with
  | nil => simp
  | cons b r =>
    rw [← hb]
    have hne : bs ≠ [] := by rw [hb]; simp
    have he : bs.isEmpty = false := by rw [hb]; rfl
    simp only [he]
    rw [if_neg (by simp)]
    cases hs : NodeName.scan bs with
    | none =>
      have := (scan_none bs).mp hs
      simp only [Except.ok.injEq]
      constructor
      · rintro rfl; exact ⟨rfl, hne, this⟩
      · rintro ⟨rfl, _⟩; rfl
    | some e =>
      simp only [reduceCtorEq, false_iff]
      rintro ⟨_, _, h⟩
      rw [(scan_none bs).mpr h] at hs
      cases hs

/-- **C09**, errors: `Empty` for the empty string, otherwise the kind of the first offending byte. -/
theorem C09_error_iff (bs : Bytes) (e : NodeNameError) :
    NodeName.fromBytes bs = .error e ↔
      (bs = [] ∧ e = .empty) ∨
      (∃ pre c post, bs = pre ++ c :: post ∧ 0 ∉ pre ∧ 0x2F ∉ pre ∧
        ((c = 0 ∧ e = .containsNul) ∨ (c = 0x2F ∧ e = .containsSlash))) := by
  unfold NodeName.fromBytes
  cases hb : bs with
  | nil =>
    simp only [List.isEmpty_nil, ↓reduceIte, Except.error.injEq, true_and]
    constructor
    · rintro rfl; exact Or.inl rfl
    · rintro (rfl | ⟨pre, c, post, h, _⟩)
      · rfl
      · simp at h
  | cons b r =>
    rw [← hb]
    have hne : bs ≠ [] := by rw [hb]; simp
    have he : bs.isEmpty = false := by rw [hb]; rfl
    simp only [he, hne, false_and, false_or]
    rw [if_neg (by simp), ← scan_some]
    cases NodeName.scan bs <;> simp

example : NodeName.fromBytes [0x61, 0x2F, 0] = .error .containsSlash ∧
    NodeName.fromBytes [0x61, 0, 0x2F] = .error .containsNul ∧
    NodeName.fromBytes [0x61, 0x62] = .ok ⟨[0x61, 0x62]⟩ := by decide

end Fuse
