import Verif.Handshake
import Verif.PropDecode
import Verif.PropReply

/-!
# `INIT` messages as byte strings

Which byte strings are `INIT` messages and what they say, read at fixed offsets.  The theorems compare
this with what the library's decoders accept and report.
-/

namespace Fuse
open Spec

/-- The size of the `INIT` arguments a client of the given version sends (at least). -/
def initInSize (major minor : Nat) : Nat :=
  if major ≠ 7 ∨ minor < 6 then 8 else if minor < 36 then 16 else 64

/-- `msg` starts with a complete FUSE `INIT` message. -/
def IsFuseInit (msg : Bytes) : Prop :=
  40 + initInSize (u32At msg 40) (u32At msg 44) ≤ u32At msg 0 ∧ u32At msg 0 ≤ msg.length ∧
    u32At msg 4 = 26 ∧ u64At msg 8 ≠ 0

/-- The flags announced in a FUSE `INIT` message, which clients of some versions do not send, or only
the lower half of. -/
def fuseInitFlags (msg : Bytes) : Nat :=
  if u32At msg 40 ≠ 7 ∨ u32At msg 44 < 6 then 0
  else if u32At msg 44 < 36 then u32At msg 52
  else u32At msg 52 + 2 ^ 32 * u32At msg 56

/-- The read-ahead size announced. -/
def fuseInitReadahead (msg : Bytes) : Nat :=
  if u32At msg 40 ≠ 7 ∨ u32At msg 44 < 6 then 0 else u32At msg 48

/-- `msg` starts with a complete `CUSE_INIT` message. -/
def IsCuseInit (msg : Bytes) : Prop :=
  56 ≤ u32At msg 0 ∧ u32At msg 0 ≤ msg.length ∧ u32At msg 4 = 4096 ∧ u64At msg 8 ≠ 0

instance (msg) : Decidable (IsFuseInit msg) := by unfold IsFuseInit; infer_instance
instance (msg) : Decidable (IsCuseInit msg) := by unfold IsCuseInit; infer_instance

theorem initInSize_ge (a b : Nat) : 8 ≤ initInSize a b := by
  unfold initInSize; split
  · omega
  · split <;> omega

/-! ## Byte-level lemmas -/

theorem enc_dec_u32 {bs : Bytes} {i : Nat} (h : i + 4 ≤ bs.length) :
    (bs.drop i).take 4 = le32 (UInt32.ofNat (u32At bs i)) := by
  rw [← enc_u32, ← dec_u32_toNat h, UInt32.ofNat_toNat, Wire.enc_dec]
  rw [List.length_take, List.length_drop]
  show min 4 _ = 4
  omega

theorem drop_le32 {bs : Bytes} {i : Nat} (h : i + 4 ≤ bs.length) :
    bs.drop i = le32 (UInt32.ofNat (u32At bs i)) ++ bs.drop (i + 4) := by
  rw [← enc_dec_u32 h, ← List.drop_drop, List.take_append_drop]

theorem u8At_of_take {bs : Bytes} {n i : Nat} (h : i < n) : u8At (bs.take n) i = u8At bs i := by
  unfold u8At
  rw [List.getD_eq_getElem?_getD, List.getD_eq_getElem?_getD, List.getElem?_take_of_lt h]

theorem u32At_of_take {bs : Bytes} {n i : Nat} (h : i + 4 ≤ n) : u32At (bs.take n) i = u32At bs i := by
  unfold u32At
  rw [u8At_of_take (by omega), u8At_of_take (by omega), u8At_of_take (by omega), u8At_of_take (by omega)]

theorem u8At_drop {bs : Bytes} {n i : Nat} : u8At (bs.drop n) i = u8At bs (n + i) := by
  unfold u8At
  rw [List.getD_eq_getElem?_getD, List.getD_eq_getElem?_getD, List.getElem?_drop]

theorem u32At_drop {bs : Bytes} {n i : Nat} : u32At (bs.drop n) i = u32At bs (n + i) := by
  unfold u32At
  simp only [u8At_drop, Nat.add_assoc]

theorem toNat_ofNat_u32At (bs : Bytes) (i : Nat) : (UInt32.ofNat (u32At bs i)).toNat = u32At bs i :=
  UInt32.toNat_ofNat_of_lt (u32At_lt _ _)

/-! ## Receiving -/

variable {ε : Type}

/-- Receiving an `INIT` message in terms of decoding it as that type. -/
theorem receiveInit_eq {α : Type} {t : ReqType} {m : DecM α} {f : α → AnyRequest}
    (hm : decodeAny t = f <$> m) (msg : Bytes) :
    (∃ e, decodeMessage t msg = .error (.req e) ∧
      receiveInit (ε := ε) m msg = .err (.request e)) ∨
    (∃ e, decodeMessage t msg = .error (.fault e) ∧ receiveInit (ε := ε) m msg = .fault e) ∨
    (∃ a id, decodeMessage t msg = .ok (f a) ∧ receiveInit (ε := ε) m msg = .ok (a, id) ∧
      id.val.toNat = u64At msg 8) := by
  rcases decodeMessage_cases t msg with ⟨e, h1, h2⟩ | ⟨h1, h40, hu, hl, hok, h2⟩
  · exact Or.inl ⟨e, h2, by simp only [receiveInit, h1]⟩
  · have hh : Request.rawHeader ⟨msg⟩ = .ok (dec (msg.take 40)) := by
      simp only [Request.rawHeader, size_fuse_in_header, if_pos h40]
    have hf := hdr_fields h40
    have hd' : Request.decode ⟨msg⟩ m =
        match m ⟨msg, u32At msg 0, 40⟩ with
        | .ok (a, _) => .ok a
        | .error e => .error e := by
      simp only [Request.decode, hh, hf.1]; rfl
    have hne : (dec (msg.take 40) : FuseInHeader).unique ≠ 0 := by
      intro h
      have := hf.2.2.1
      rw [h] at this
      exact hu this.symm
    have hid : (dec (msg.take 40) : FuseInHeader).requestId = .ok ⟨_, hne⟩ := by
      simp only [FuseInHeader.requestId, NonZeroU64.newUnchecked]
      rw [dif_pos hne]
    rw [h2, hm]
    cases hx : m ⟨msg, u32At msg 0, 40⟩ with
    | error e =>
      have h3 : (f <$> m : DecM AnyRequest) ⟨msg, u32At msg 0, 40⟩ = .error e := by
        show (StateT.map f m) _ = _
        simp only [StateT.map, hx]; rfl
      simp only [h3]
      rw [hx] at hd'
      cases e with
      | req e => exact Or.inl ⟨e, rfl, by simp only [receiveInit, h1, hd']⟩
      | fault e => exact Or.inr (Or.inl ⟨e, rfl, by simp only [receiveInit, h1, hd']⟩)
    | ok p =>
      obtain ⟨a, d⟩ := p
      have h3 : (f <$> m : DecM AnyRequest) ⟨msg, u32At msg 0, 40⟩ = .ok (f a, d) := by
        show (StateT.map f m) _ = _
        simp only [StateT.map, hx]; rfl
      simp only [h3]
      rw [hx] at hd'
      refine Or.inr (Or.inr ⟨a, ⟨_, hne⟩, rfl, ?_, hf.2.2.1⟩)
      simp only [receiveInit, h1, hd', hh, hid]

/-- A decoding run of type `t` that is known to describe client request `a`. -/
theorem decode_of_body {a : ClientReq} {t : ReqType} {msg s : Bytes} (ht : a.HasType t)
    (h40 : 40 ≤ msg.length) (hu : u64At msg 8 ≠ 0) (hl : u32At msg 0 ≤ msg.length)
    (hop : u32At msg 4 = a.opcode) (hw : a.WellFormed (hd msg).nodeid t.isCuse) (hne : a.ShiftFree)
    (h80 : ¬ a.IsOldWrite) (hb : (msg.take (u32At msg 0)).drop 40 = a.body ++ s) :
    ∃ r, decodeMessage t msg = .ok r ∧ a.Matches (hd msg).nodeid t.isCuse r := by
  rcases decodeMessage_cases t msg with ⟨e, he, _⟩ | ⟨_, _, _, _, hok, hd'⟩
  · exfalso
    have := (C02_accepted_iff msg).mpr ⟨h40, hu, hl⟩
    rw [he] at this
    obtain ⟨_, h⟩ := this
    cases h
  · obtain ⟨r, c, h1, _, _, h4⟩ := run_any (mem := msg) (H := u32At msg 0) (s := s) ht
      (by rw [← hop]; exact (hdr_fields h40).2.1) hw hne (fun h => absurd h h80) hok hb
    exact ⟨r, by rw [hd', h1], h4⟩

/-- Every FUSE `INIT` message is received, and reports the version, read-ahead and flags in it. -/
theorem receive_fuse_init {msg : Bytes} (h : IsFuseInit msg) :
    ∃ r id, receiveInit (ε := ε) decodeFuseInit msg = .ok (r, id) ∧ id.val.toNat = u64At msg 8 ∧
      r.version.major.toNat = u32At msg 40 ∧ r.version.minor.toNat = u32At msg 44 ∧
      r.maxReadahead.toNat = fuseInitReadahead msg ∧ r.flags.toNat = fuseInitFlags msg := by
  obtain ⟨hs, hl, hop, hu⟩ := h
  have h8 := initInSize_ge (u32At msg 40) (u32At msg 44)
  have hdl : ((msg.take (u32At msg 0)).drop 40).length = u32At msg 0 - 40 := by
    rw [List.length_drop, List.length_take, Nat.min_eq_left hl]
  have hlt : (msg.take (u32At msg 0)).length = u32At msg 0 := by
    rw [List.length_take, Nat.min_eq_left hl]
  have d0 := drop_le32 (bs := msg.take (u32At msg 0)) (i := 40) (by omega)
  have d1 := drop_le32 (bs := msg.take (u32At msg 0)) (i := 44) (by omega)
  rw [u32At_of_take (by omega)] at d0 d1
  have key : ∃ r, decodeMessage .fuseInit msg = .ok r ∧
      ∃ x : FuseInitRequest, r = .fuseInit x ∧
        x.version.major.toNat = u32At msg 40 ∧ x.version.minor.toNat = u32At msg 44 ∧
        x.maxReadahead.toNat = fuseInitReadahead msg ∧ x.flags.toNat = fuseInitFlags msg := by
    by_cases h1 : u32At msg 40 ≠ 7 ∨ u32At msg 44 < 6
    · have hw : (ClientReq.initV1 (UInt32.ofNat (u32At msg 40)) (UInt32.ofNat (u32At msg 44))).WellFormed
          (hd msg).nodeid (ReqType.isCuse .fuseInit) := by
        show _ ∨ _
        rcases h1 with h1 | h1
        · right; intro he; apply h1
          rw [← toNat_ofNat_u32At msg 40, he]; rfl
        · left; show _ < _; rw [UInt32.lt_iff_toNat_lt, toNat_ofNat_u32At]; exact h1
      obtain ⟨r, h2, h3⟩ := decode_of_body
        (a := .initV1 (UInt32.ofNat (u32At msg 40)) (UInt32.ofNat (u32At msg 44))) (t := .fuseInit)
        (s := (msg.take (u32At msg 0)).drop 48) trivial (by omega) hu hl hop hw trivial
        (fun h => h) (by rw [d0, d1]; simp only [ClientReq.body, List.append_assoc])
      refine ⟨r, h2, ?_⟩
      cases r <;> first | exact False.elim h3 | skip
      obtain ⟨e1, e2, e3⟩ := h3
      refine ⟨_, rfl, ?_, ?_, ?_, ?_⟩
      · rw [e1]; exact toNat_ofNat_u32At _ _
      · rw [e1]; exact toNat_ofNat_u32At _ _
      · rw [e2, fuseInitReadahead, if_pos h1]; rfl
      · rw [e3, fuseInitFlags, if_pos h1]; rfl
    · have h7 : u32At msg 40 = 7 := by omega
      have h6 : ¬ u32At msg 44 < 6 := by omega
      have hw1 : UInt32.ofNat (u32At msg 40) = 7 := by rw [h7]; rfl
      have hw2 : (6 : UInt32) ≤ UInt32.ofNat (u32At msg 44) := by
        rw [UInt32.le_iff_toNat_le, toNat_ofNat_u32At]; show 6 ≤ _; omega
      by_cases h36 : u32At msg 44 < 36
      · have hsz : initInSize (u32At msg 40) (u32At msg 44) = 16 := by
          rw [initInSize, if_neg h1, if_pos h36]
        have d2 := drop_le32 (bs := msg.take (u32At msg 0)) (i := 48) (by omega)
        have d3 := drop_le32 (bs := msg.take (u32At msg 0)) (i := 52) (by omega)
        rw [u32At_of_take (by omega)] at d2 d3
        obtain ⟨r, h2, h3⟩ := decode_of_body
          (a := .initV6 (UInt32.ofNat (u32At msg 40)) (UInt32.ofNat (u32At msg 44))
            (UInt32.ofNat (u32At msg 48)) (UInt32.ofNat (u32At msg 52))) (t := .fuseInit)
          (s := (msg.take (u32At msg 0)).drop 56) trivial (by omega) hu hl hop
          ⟨hw1, hw2, by rw [UInt32.lt_iff_toNat_lt, toNat_ofNat_u32At]; exact h36⟩ trivial
          (fun h => h) (by rw [d0, d1, d2, d3]; simp only [ClientReq.body, List.append_assoc])
        refine ⟨r, h2, ?_⟩
        cases r <;> first | exact False.elim h3 | skip
        obtain ⟨e1, e2, e3⟩ := h3
        refine ⟨_, rfl, ?_, ?_, ?_, ?_⟩
        · rw [e1]; exact toNat_ofNat_u32At _ _
        · rw [e1]; exact toNat_ofNat_u32At _ _
        · rw [e2, fuseInitReadahead, if_neg h1]; exact toNat_ofNat_u32At _ _
        · rw [e3, fuseInitFlags, if_neg h1, if_pos h36]; exact toNat_ofNat_u32At _ _
      · have hsz : initInSize (u32At msg 40) (u32At msg 44) = 64 := by
          rw [initInSize, if_neg h1, if_neg h36]
        have d2 := drop_le32 (bs := msg.take (u32At msg 0)) (i := 48) (by omega)
        have d3 := drop_le32 (bs := msg.take (u32At msg 0)) (i := 52) (by omega)
        have d4 := drop_le32 (bs := msg.take (u32At msg 0)) (i := 56) (by omega)
        rw [u32At_of_take (by omega)] at d2 d3 d4
        have hr : (((msg.take (u32At msg 0)).drop 60).take 44).length = 4 * 11 := by
          rw [List.length_take, List.length_drop, hlt]; omega
        obtain ⟨r, h2, h3⟩ := decode_of_body
          (a := .init ⟨UInt32.ofNat (u32At msg 40), UInt32.ofNat (u32At msg 44),
            UInt32.ofNat (u32At msg 48), UInt32.ofNat (u32At msg 52), UInt32.ofNat (u32At msg 56),
            ⟨((msg.take (u32At msg 0)).drop 60).take 44, hr⟩⟩) (t := .fuseInit)
          (s := (msg.take (u32At msg 0)).drop 104) trivial (by omega) hu hl hop
          ⟨hw1, by rw [UInt32.le_iff_toNat_le, toNat_ofNat_u32At]; show 36 ≤ _; omega⟩ trivial
          (fun h => h) (by
            rw [d0, d1, d2, d3, d4]
            simp only [ClientReq.body, layout_fuse_init_in, List.append_assoc]
            have := List.take_append_drop 44 ((msg.take (u32At msg 0)).drop 60)
            rw [List.drop_drop] at this
            rw [this])
        refine ⟨r, h2, ?_⟩
        cases r <;> first | exact False.elim h3 | skip
        obtain ⟨e1, e2, e3⟩ := h3
        refine ⟨_, rfl, ?_, ?_, ?_, ?_⟩
        · rw [e1]; exact toNat_ofNat_u32At _ _
        · rw [e1]; exact toNat_ofNat_u32At _ _
        · rw [e2, fuseInitReadahead, if_neg h1]; exact toNat_ofNat_u32At _ _
        · rw [e3, fuseInitFlags, if_neg h1, if_neg h36, toNat_ofNat_u32At, toNat_ofNat_u32At]
  obtain ⟨r, h1, x, h2, h3, h4, h5, h6⟩ := key
  subst h2
  rcases receiveInit_eq (ε := ε) (t := .fuseInit) (m := decodeFuseInit) (f := .fuseInit) rfl msg with
    ⟨e, he, _⟩ | ⟨e, he, _⟩ | ⟨y, id, he, h7, h8⟩
  · rw [h1] at he; cases he
  · rw [h1] at he; cases he
  · rw [h1] at he; cases he
    exact ⟨x, id, h7, h8, h3, h4, h5, h6⟩

/-- Reading a field of a message whose body starts with known bytes. -/
theorem u32At_body {msg b : Bytes} {n i : Nat} (hb : (msg.take n).drop 40 = b) (hi : i + 4 ≤ b.length) :
    u32At msg (40 + i) = u32At b i := by
  have hn : 40 + i + 4 ≤ n := by
    have := congrArg List.length hb
    rw [List.length_drop, List.length_take] at this
    omega
  rw [← hb, u32At_drop, u32At_of_take hn]

/-- Only `INIT` messages are received; anything else is a request error. -/
theorem receive_fuse_init_only {msg : Bytes} (h : ¬ IsFuseInit msg) :
    ∃ e, receiveInit (ε := ε) decodeFuseInit msg = .err (.request e) := by
  rcases receiveInit_eq (ε := ε) (t := .fuseInit) (m := decodeFuseInit) (f := .fuseInit) rfl msg with
    ⟨e, _, he⟩ | ⟨e, he, _⟩ | ⟨y, id, he, _, _⟩
  · exact ⟨e, he⟩
  · exact absurd he ((C04_memory_safe_partial .fuseInit msg (fun h => h)).1 e)
  · exfalso
    have hacc : 40 ≤ msg.length ∧ u64At msg 8 ≠ 0 ∧ u32At msg 0 ≤ msg.length := by
      rcases decodeMessage_cases .fuseInit msg with ⟨e, _, h1⟩ | ⟨_, h1, h2, h3, _⟩
      · rw [h1] at he; cases he
      · exact ⟨h1, h2, h3⟩
    obtain ⟨a, s, ht, hop, hb, hw, hm⟩ := decoded_from (t := .fuseInit) (fun h => h) he (fun h => h)
    have hbl := congrArg List.length hb
    rw [List.length_drop, List.length_take, Nat.min_eq_left hacc.2.2, List.length_append] at hbl
    apply h
    cases a <;> first | exact False.elim ht | skip
    · rename_i major minor
      have e0 := u32At_body (i := 0) hb (by simp [ClientReq.body]; try omega)
      have e1 := u32At_body (i := 4) hb (by simp [ClientReq.body]; try omega)
      simp only [ClientReq.body] at e0 e1 hbl
      simp only [List.length_append, le32_length] at hbl
      have e0' : u32At msg 40 = major.toNat := by rw [e0]; read_at
      have e1' : u32At msg 44 = minor.toNat := by rw [e1]; read_at
      refine ⟨?_, hacc.2.2, hop, hacc.2.1⟩
      rw [initInSize, if_pos]
      · omega
      · rcases hw with hw | hw
        · right; rw [e1']; exact UInt32.lt_iff_toNat_lt.mp hw
        · left; rw [e0']; intro h; exact hw (UInt32.toNat_inj.mp h)
    · rename_i major minor ra flags
      have e0 := u32At_body (i := 0) hb (by simp [ClientReq.body]; try omega)
      have e1 := u32At_body (i := 4) hb (by simp [ClientReq.body]; try omega)
      simp only [ClientReq.body] at e0 e1 hbl
      simp only [List.length_append, le32_length] at hbl
      have e0' : u32At msg 40 = major.toNat := by rw [e0]; read_at
      have e1' : u32At msg 44 = minor.toNat := by rw [e1]; read_at
      refine ⟨?_, hacc.2.2, hop, hacc.2.1⟩
      have hw3 := UInt32.lt_iff_toNat_lt.mp hw.2.2
      rw [initInSize]
      split
      · omega
      · rw [if_pos (by rw [e1']; exact hw3)]; omega
    · rename_i b
      have e0 := u32At_body (i := 0) hb (by simp [ClientReq.body, layout_fuse_init_in])
      have hlen : b.unused.bytes.length = 44 := b.unused.len
      simp only [ClientReq.body, layout_fuse_init_in] at hbl
      simp only [List.length_append, le32_length, hlen] at hbl
      refine ⟨?_, hacc.2.2, hop, hacc.2.1⟩
      rw [initInSize]
      split
      · omega
      · split <;> omega

/-- Every `CUSE_INIT` message is received, and reports the version and flags in it. -/
theorem receive_cuse_init {msg : Bytes} (h : IsCuseInit msg) :
    ∃ r id, receiveInit (ε := ε) decodeCuseInit msg = .ok (r, id) ∧ id.val.toNat = u64At msg 8 ∧
      r.version.major.toNat = u32At msg 40 ∧ r.version.minor.toNat = u32At msg 44 ∧
      r.flags.toNat = u32At msg 52 := by
  obtain ⟨hs, hl, hop, hu⟩ := h
  have hlt : (msg.take (u32At msg 0)).length = u32At msg 0 := by
    rw [List.length_take, Nat.min_eq_left hl]
  have d0 := drop_le32 (bs := msg.take (u32At msg 0)) (i := 40) (by omega)
  have d1 := drop_le32 (bs := msg.take (u32At msg 0)) (i := 44) (by omega)
  have d2 := drop_le32 (bs := msg.take (u32At msg 0)) (i := 48) (by omega)
  have d3 := drop_le32 (bs := msg.take (u32At msg 0)) (i := 52) (by omega)
  rw [u32At_of_take (by omega)] at d0 d1 d2 d3
  obtain ⟨r, h2, h3⟩ := decode_of_body
    (a := .cuseInit ⟨UInt32.ofNat (u32At msg 40), UInt32.ofNat (u32At msg 44),
      UInt32.ofNat (u32At msg 48), UInt32.ofNat (u32At msg 52)⟩) (t := .cuseInit)
    (s := (msg.take (u32At msg 0)).drop 56) trivial (by omega) hu hl hop trivial trivial
    (fun h => h) (by
      rw [d0, d1, d2, d3]; simp only [ClientReq.body, layout_cuse_init_in, List.append_assoc])
  rcases receiveInit_eq (ε := ε) (t := .cuseInit) (m := decodeCuseInit) (f := .cuseInit) rfl msg with
    ⟨e, he, _⟩ | ⟨e, he, _⟩ | ⟨y, id, he, h7, h8⟩
  · rw [h2] at he; cases he
  · rw [h2] at he; cases he
  · rw [h2] at he; cases he
    obtain ⟨e1, e2⟩ := h3
    refine ⟨y, id, h7, h8, ?_, ?_, ?_⟩
    · rw [e1]; exact toNat_ofNat_u32At _ _
    · rw [e1]; exact toNat_ofNat_u32At _ _
    · rw [e2]; exact toNat_ofNat_u32At _ _

/-- Only `CUSE_INIT` messages are received; anything else is a request error. -/
theorem receive_cuse_init_only {msg : Bytes} (h : ¬ IsCuseInit msg) :
    ∃ e, receiveInit (ε := ε) decodeCuseInit msg = .err (.request e) := by
  rcases receiveInit_eq (ε := ε) (t := .cuseInit) (m := decodeCuseInit) (f := .cuseInit) rfl msg with
    ⟨e, _, he⟩ | ⟨e, he, _⟩ | ⟨y, id, he, _, _⟩
  · exact ⟨e, he⟩
  · exact absurd he ((C04_memory_safe_partial .cuseInit msg (fun h => h)).1 e)
  · exfalso
    have hacc : 40 ≤ msg.length ∧ u64At msg 8 ≠ 0 ∧ u32At msg 0 ≤ msg.length := by
      rcases decodeMessage_cases .cuseInit msg with ⟨e, _, h1⟩ | ⟨_, h1, h2, h3, _⟩
      · rw [h1] at he; cases he
      · exact ⟨h1, h2, h3⟩
    obtain ⟨a, s, ht, hop, hb, hw, hm⟩ := decoded_from (t := .cuseInit) (fun h => h) he (fun h => h)
    have hbl := congrArg List.length hb
    rw [List.length_drop, List.length_take, Nat.min_eq_left hacc.2.2, List.length_append] at hbl
    apply h
    cases a <;> first | exact False.elim ht | skip
    simp only [ClientReq.body, layout_cuse_init_in] at hbl
    simp only [List.length_append, le32_length] at hbl
    exact ⟨by omega, hacc.2.2, hop, hacc.2.1⟩

end Fuse
