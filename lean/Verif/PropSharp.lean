import Verif.PropHello
import Verif.PropDecode
import Verif.PropServe

/-!
# How far the partial claims reach

For claims that the code does not meet, the exact set of inputs for which they fail.
-/

namespace Fuse
open Spec

/-! ## C03: inspecting an accepted request -/

/-- **C03**, exactly: the accepted requests that can be inspected are those declaring at least 40 bytes; for all
others taking the body panics. -/
theorem C03_exact (buf : Bytes) (r : Request) (h : Request.new buf = .ok r) :
    (r.Inspectable ↔ 40 ≤ u32At buf 0) ∧ (u32At buf 0 < 40 → r.body = .error .panic) := by
  have hb := C02_exposes buf r h
  have ha := (C02_accepted_iff buf).mp ⟨r, h⟩
  have hp : u32At buf 0 < 40 → r.body = .error .panic := by
    intro hl
    simp only [Request.body, hb, size_fuse_in_header]
    show (if _ then _ else _) = _
    rw [if_neg (by rw [List.length_take]; omega)]; rfl
  refine ⟨⟨fun hi => ?_, fun hl => (C03_inspect_partial buf r h hl).1⟩, hp⟩
  refine Nat.le_of_not_lt fun hl => ?_
  obtain ⟨x, hx⟩ := hi.2.1
  rw [hp hl] at hx
  cases hx

/-! ## C04: which messages make decoding fault -/

/-- The accepted messages whose decoding is undefined behaviour or a panic: a BATCH_FORGET (opcode 42) of 2^28 or
more items whose announced size, in 32 bits, is inside the message or is computed with overflow checks; and a
complete WRITE (opcode 16) in a session before 7.9, in a buffer of less than 80 bytes. -/
def DecodeFaults (t : ReqType) (buf : Bytes) : Prop :=
  Acceptable buf ∧
  match t with
  | .forget checks => u32At buf 4 = 42 ∧ 48 ≤ u32At buf 0 ∧ 2 ^ 28 ≤ u32At buf 40 ∧
      (checks = true ∨ 48 + u32At buf 40 * 16 % 2 ^ 32 ≤ u32At buf 0)
  | .write v cuse => v < 9 ∧ u32At buf 4 = 16 ∧ buf.length < 80 ∧ (cuse = true ∨ u64At buf 16 ≠ 0) ∧
      64 + u32At buf 56 ≤ u32At buf 0
  | _ => False

/-- A computation that fails: by a fault if `P`, with an error otherwise. -/
def FailsBy {α : Type} (P : Prop) (x : Except Failure α) : Prop :=
  (∃ f, x = .error (.fault f)) ∧ P ∨ (∃ e, x = .error (.req e)) ∧ ¬ P

theorem FailsBy.iff {α : Type} {P : Prop} {x : Except Failure α} (h : FailsBy P x) :
    (∃ f, x = .error (.fault f)) ↔ P := by
  rcases h with ⟨h, hp⟩ | ⟨⟨e, h⟩, hp⟩
  · exact ⟨fun _ => hp, fun _ => h⟩
  · refine ⟨fun ⟨f, hf⟩ => ?_, fun h => absurd h hp⟩
    rw [h] at hf
    cases hf

theorem FailsBy.not_ok {α : Type} {P : Prop} {x : Except Failure α} (h : FailsBy P x) (a : α) : x ≠ .ok a := by
  rcases h with ⟨⟨_, h⟩, _⟩ | ⟨⟨_, h⟩, _⟩ <;> rw [h] <;> nofun

theorem decodeForget_faults (checks : Bool) (buf : Bytes) (hok : (Decoder.mk buf (u32At buf 0) 40).Ok)
    (hop : u32At buf 4 = 42) (h28 : 2 ^ 28 ≤ u32At buf 40) :
    FailsBy (48 ≤ u32At buf 0 ∧ (checks = true ∨ 48 + u32At buf 40 * 16 % 2 ^ 32 ≤ u32At buf 0))
      (decodeForget checks ⟨buf, u32At buf 0, 40⟩) := by
  have h40 := hok.hdr_le
  have hlen : u32At buf 0 ≤ buf.length := hok.len_le
  have hH : u32At buf 0 < 2 ^ 32 := hok.len_lt
  have hopc : (dec (buf.take 40) : FuseInHeader).opcode = FUSE_BATCH_FORGET := by
    apply UInt32.toNat_inj.mp
    rw [(hdr_fields h40).2.1, hop]; rfl
  unfold decodeForget
  simp only [bind, StateT.bind, Except.bind, header_eq hok, Decoder.hdr, hopc, ↓reduceIte]
  rw [nextSized_eq hok FuseBatchForgetIn (by decide)]
  simp only [show Wire.size FuseBatchForgetIn = 8 from rfl, show Wire.align FuseBatchForgetIn = 4 from rfl]
  by_cases h48 : 48 ≤ u32At buf 0
  · rw [if_pos (show 40 + 8 ≤ u32At buf 0 by omega), if_pos (by decide)]
    have hcount : (dec (List.take 8 (Decoder.rest ⟨buf, u32At buf 0, 40⟩)) : FuseBatchForgetIn).count.toNat =
        u32At buf 40 := by
      rw [← dec_u32_toNat (bs := buf) (i := 40) (by omega)]
      show (dec (List.take 4 (List.take 8 _)) : UInt32).toNat = _
      congr 2
      unfold Decoder.rest
      rw [List.take_take, List.drop_take, List.take_take]
      congr 1; dsimp only; omega
    generalize hraw : (dec (List.take 8 (Decoder.rest ⟨buf, u32At buf 0, 40⟩)) : FuseBatchForgetIn) = raw at *
    dsimp only
    simp only [show Wire.size FuseForgetOne = 16 from rfl, show Wire.align FuseForgetOne = 8 from rfl, hcount]
    cases checks with
    | true =>
      rw [if_pos ⟨rfl, by omega⟩]
      exact .inl ⟨⟨_, rfl⟩, h48, .inl rfl⟩
    | false =>
      rw [if_neg (by rintro ⟨h, _⟩; cases h)]
      simp only [get, getThe, MonadStateOf.get, StateT.get, bind, StateT.bind, Except.bind, pure, Except.pure]
      have hok' := hok.adv (n := 8) (by show 40 + 8 ≤ u32At buf 0; omega)
      have hmul : (raw.count * 16).toNat = u32At buf 40 * 16 % 2 ^ 32 := by
        rw [UInt32.toNat_mul, hcount]; rfl
      have hnb : nextBytes (raw.count * 16) (Decoder.adv ⟨buf, u32At buf 0, 40⟩ 8) =
          if 48 + u32At buf 40 * 16 % 2 ^ 32 ≤ u32At buf 0 then
            .ok ((Decoder.adv ⟨buf, u32At buf 0, 40⟩ 8).rest.take (u32At buf 40 * 16 % 2 ^ 32),
              (Decoder.adv ⟨buf, u32At buf 0, 40⟩ 8).adv (u32At buf 40 * 16 % 2 ^ 32))
          else .error (.req .unexpectedEof) := by
        rw [nextBytes_eq hok', hmul]; rfl
      rw [hnb]
      by_cases hfit : 48 + u32At buf 40 * 16 % 2 ^ 32 ≤ u32At buf 0
      · rw [if_pos hfit]
        refine .inl ⟨⟨.oob, ?_⟩, h48, .inr hfit⟩
        dsimp only
        rw [if_pos (show (Decoder.adv ⟨buf, u32At buf 0, 40⟩ 8).consumed % 8 = 0 by simp [Decoder.adv])]
        simp only [DecM.ofRes, Decoder.read, StateT.bind, bind, Except.bind]
        rw [if_neg (by
          rintro ⟨h, _⟩
          have : 48 + u32At buf 40 * 16 ≤ u32At buf 0 := h
          omega)]
      · rw [if_neg hfit]
        exact .inr ⟨⟨_, rfl⟩, fun h => h.2.elim nofun hfit⟩
  · rw [if_neg (show ¬ 40 + 8 ≤ u32At buf 0 by omega)]
    exact .inr ⟨⟨_, rfl⟩, fun h => h48 h.1⟩

/-- What decoding a WRITE of the layout before 7.9 comes to. -/
theorem decodeWrite_old (v : UInt32) (cuse : Bool) (buf : Bytes) (hok : (Decoder.mk buf (u32At buf 0) 40).Ok)
    (hv : v < 9) :
    decodeWrite v cuse ⟨buf, u32At buf 0, 40⟩ =
      if u32At buf 4 ≠ 16 then .error (.req .opcodeMismatch)
      else if cuse = false ∧ u64At buf 16 = 0 then .error (.req .missingNodeId)
      else if u32At buf 0 < 64 ∨ u32At buf 0 < 64 + u32At buf 56 then .error (.req .unexpectedEof)
      else if 80 ≤ buf.length then
        .ok (⟨buf.take (u32At buf 0), v⟩, ⟨buf, u32At buf 0, 64 + u32At buf 56⟩)
      else .error (.fault .oob) := by
  have h40 := hok.hdr_le
  have hlen : u32At buf 0 ≤ buf.length := hok.len_le
  have hopc : (dec (buf.take 40) : FuseInHeader).opcode = FUSE_WRITE ↔ u32At buf 4 = 16 := by
    rw [← UInt32.toNat_inj, (hdr_fields h40).2.1]; rfl
  have hnid : (dec (buf.take 40) : FuseInHeader).nodeid = 0 ↔ u64At buf 16 = 0 := by
    rw [← UInt64.toNat_inj, (hdr_fields h40).2.2.2.1]; rfl
  have hexp : expectOpcode FUSE_WRITE ⟨buf, u32At buf 0, 40⟩ =
      if u32At buf 4 = 16 then .ok ((), ⟨buf, u32At buf 0, 40⟩) else .error (.req .opcodeMismatch) := by
    simp only [expectOpcode, bind, StateT.bind, Except.bind, header_eq hok, Decoder.hdr]
    by_cases h : u32At buf 4 = 16
    · rw [if_neg (fun hh => hh (hopc.mpr h)), if_pos h]; rfl
    · rw [if_pos (fun hh => h (hopc.mp hh)), if_neg h]; rfl
  have hv' : ¬ v ≥ 9 := by
    rw [ge_iff_le, UInt32.le_iff_toNat_le]; rw [UInt32.lt_iff_toNat_lt] at hv; omega
  have htail : (do
      let valueLen ←
        if v ≥ 9 then do
          let body ← nextSized FuseWriteIn
          pure body.size
        else do
          let body ← nextSized FuseWriteInV7p1
          pure body.size
      let _ ← nextBytes valueLen
      let d ← get
      if WRITE_MSG_SIZE ≤ d.mem.length then
        return ⟨d.mem.take d.headerLen, v⟩
      else DecM.ofFault (.error .oob) : DecM WriteRequest) ⟨buf, u32At buf 0, 40⟩ =
      if u32At buf 0 < 64 ∨ u32At buf 0 < 64 + u32At buf 56 then .error (.req .unexpectedEof)
      else if 80 ≤ buf.length then
        .ok (⟨buf.take (u32At buf 0), v⟩, ⟨buf, u32At buf 0, 64 + u32At buf 56⟩)
      else .error (.fault .oob) := by
    rw [if_neg hv']
    simp only [bind, StateT.bind, Except.bind]
    rw [nextSized_eq hok FuseWriteInV7p1 (by decide)]
    simp only [show Wire.size FuseWriteInV7p1 = 24 from rfl, show Wire.align FuseWriteInV7p1 = 8 from rfl]
    by_cases h64 : 64 ≤ u32At buf 0
    · rw [if_pos (show 40 + 24 ≤ u32At buf 0 by omega), if_pos (by decide)]
      have hsize : (dec (List.take 24 (Decoder.rest ⟨buf, u32At buf 0, 40⟩)) : FuseWriteInV7p1).size.toNat =
          u32At buf 56 := by
        rw [← dec_u32_toNat (bs := buf) (i := 56) (by omega)]
        show (dec (List.take 4 (List.drop 8 (List.drop 8 (List.take 24 _)))) : UInt32).toNat = _
        congr 2
        unfold Decoder.rest
        rw [List.drop_drop, List.drop_take, List.take_take, List.drop_take, List.drop_take, List.take_take,
          List.drop_drop]
        congr 1; dsimp only; omega
      generalize hraw : (dec (List.take 24 (Decoder.rest ⟨buf, u32At buf 0, 40⟩)) : FuseWriteInV7p1) = raw at *
      simp only [pure, StateT.pure, Except.pure]
      have hok' := hok.adv (n := 24) (by show 40 + 24 ≤ u32At buf 0; omega)
      have hnb : nextBytes raw.size (Decoder.adv ⟨buf, u32At buf 0, 40⟩ 24) =
          if 64 + u32At buf 56 ≤ u32At buf 0 then
            .ok ((Decoder.adv ⟨buf, u32At buf 0, 40⟩ 24).rest.take (u32At buf 56),
              ⟨buf, u32At buf 0, 64 + u32At buf 56⟩)
          else .error (.req .unexpectedEof) := by
        rw [nextBytes_eq hok', hsize]; rfl
      rw [hnb]
      by_cases hfit : 64 + u32At buf 56 ≤ u32At buf 0
      · rw [if_pos hfit, if_neg (by omega)]
        by_cases h80 : 80 ≤ buf.length
        · rw [if_pos h80]
          simp only [get, getThe, MonadStateOf.get, StateT.get, pure, Except.pure]
          rw [if_pos (c := WRITE_MSG_SIZE ≤ buf.length) h80]
          rfl
        · rw [if_neg h80]
          simp only [get, getThe, MonadStateOf.get, StateT.get, pure, Except.pure]
          rw [if_neg (c := WRITE_MSG_SIZE ≤ buf.length) h80]
          rfl
      · rw [if_neg hfit, if_pos (by omega)]
    · rw [if_neg (show ¬ 40 + 24 ≤ u32At buf 0 by omega), if_pos (.inl (by omega))]
  unfold decodeWrite
  simp only [bind, StateT.bind, Except.bind, hexp]
  by_cases h16 : u32At buf 4 = 16
  · rw [if_pos h16, if_neg (c := u32At buf 4 ≠ 16) (fun h => h h16)]
    simp only [header_eq hok, Decoder.hdr]
    cases cuse with
    | true => rw [if_neg (c := true = false ∧ u64At buf 16 = 0) (fun h => nomatch h.1)]; exact htail
    | false =>
      by_cases hn : u64At buf 16 = 0
      · have : nodeId (dec (buf.take 40) : FuseInHeader).nodeid =
            (DecM.throwReq .missingNodeId : DecM NodeId) := by
          rw [hnid.mpr hn]; rfl
        rw [this, if_pos (c := false = false ∧ u64At buf 16 = 0) ⟨rfl, hn⟩]
        rfl
      · have : ∃ x, nodeId (dec (buf.take 40) : FuseInHeader).nodeid = (pure x : DecM NodeId) := by
          have hne : (dec (buf.take 40) : FuseInHeader).nodeid ≠ 0 := fun h => hn (hnid.mp h)
          refine ⟨⟨_, hne⟩, ?_⟩
          have : NodeId.new (dec (buf.take 40) : FuseInHeader).nodeid = some ⟨_, hne⟩ := by
            unfold NodeId.new NonZeroU64.new
            first | rw [dif_neg hne] | rw [dif_pos hne]
          unfold nodeId
          rw [this]
        obtain ⟨x, hx⟩ := this
        rw [hx, if_neg (c := false = false ∧ u64At buf 16 = 0) (fun h => hn h.2)]
        exact htail
  · rw [if_neg h16, if_pos h16]

theorem decodeWrite_faults (v : UInt32) (cuse : Bool) (buf : Bytes) (hok : (Decoder.mk buf (u32At buf 0) 40).Ok)
    (hv : v < 9) (h80 : buf.length < 80) :
    FailsBy (u32At buf 4 = 16 ∧ (cuse = true ∨ u64At buf 16 ≠ 0) ∧ 64 + u32At buf 56 ≤ u32At buf 0)
      (decodeWrite v cuse ⟨buf, u32At buf 0, 40⟩) := by
  rw [decodeWrite_old v cuse buf hok hv]
  split
  · rename_i h; exact .inr ⟨⟨_, rfl⟩, fun h' => h h'.1⟩
  · rename_i h; split
    · rename_i h2; exact .inr ⟨⟨_, rfl⟩, fun h' => h'.2.1.elim (fun e => by rw [e] at h2; exact nomatch h2.1) (fun e => e h2.2)⟩
    · rename_i h2; split
      · rename_i h3; exact .inr ⟨⟨_, rfl⟩, fun h' => by omega⟩
      · rename_i h3
        rw [if_neg (by omega)]
        refine .inl ⟨⟨_, rfl⟩, by omega, ?_, by omega⟩
        cases cuse
        · exact .inr (fun e => h2 ⟨rfl, e⟩)
        · exact .inl rfl

theorem FailsBy.decodeMessage {α : Type} {P : Prop} {t : ReqType} {f : α → AnyRequest} {m : DecM α} {buf : Bytes}
    (hd : decodeAny t = f <$> m) (ha : Acceptable buf) (h : FailsBy P (m ⟨buf, u32At buf 0, 40⟩)) :
    FailsBy P (decodeMessage t buf) := by
  rcases decodeMessage_cases t buf with ⟨e, he, _⟩ | ⟨_, _, _, _, _, h1⟩
  · rw [acceptable_new ha] at he; cases he
  · rw [h1, hd]
    simp only [Functor.map, StateT.map, bind, Except.bind]
    rcases h with ⟨⟨e, h⟩, hp⟩ | ⟨⟨e, h⟩, hp⟩ <;> rw [h]
    · exact .inl ⟨⟨e, rfl⟩, hp⟩
    · exact .inr ⟨⟨e, rfl⟩, hp⟩

/-- **C04**, exactly: decoding a buffer as a request of type `t` is undefined behaviour or panics if and only if
`DecodeFaults`; whatever decodes, all its accessors return. -/
theorem C04_exact (t : ReqType) (buf : Bytes) :
    ((∃ f, decodeMessage t buf = .error (.fault f)) ↔ DecodeFaults t buf) ∧
    (∀ r, decodeMessage t buf = .ok r → r.AccessorsReturn) := by
  by_cases ha : Acceptable buf
  · have hok : (Decoder.mk buf (u32At buf 0) 40).Ok := ⟨ha.2.2, u32At_lt _ _, ha.1, by simp⟩
    by_cases hz : DecodeHazard t buf
    · cases t with
      | forget checks =>
        have hz : u32At buf 4 = 42 ∧ 2 ^ 28 ≤ u32At buf 40 := hz
        have key := (decodeForget_faults checks buf hok hz.1 hz.2).decodeMessage (t := .forget checks) (f := .forget) rfl ha
        exact ⟨key.iff.trans ⟨fun h => ⟨ha, hz.1, h.1, hz.2, h.2⟩, fun h => ⟨h.2.2.1, h.2.2.2.2⟩⟩,
          fun r hr => absurd hr (key.not_ok r)⟩
      | write v cuse =>
        have hz : v < 9 ∧ buf.length < 80 := hz
        have key := (decodeWrite_faults v cuse buf hok hz.1 hz.2).decodeMessage (t := .write v cuse) (f := .write) rfl ha
        exact ⟨key.iff.trans ⟨fun h => ⟨ha, hz.1, h.1, hz.2, h.2⟩, fun h => ⟨h.2.2.1, h.2.2.2.2⟩⟩,
          fun r hr => absurd hr (key.not_ok r)⟩
      | _ => exact hz.elim
    · have h := C04_memory_safe_partial t buf hz
      refine ⟨⟨fun ⟨f, hf⟩ => absurd hf (h.1 f), fun hd => ?_⟩, h.2⟩
      exfalso
      cases t with
      | forget checks => exact hz ⟨hd.2.1, hd.2.2.2.1⟩
      | write v cuse => exact hz ⟨hd.2.1, hd.2.2.2.1⟩
      | _ => exact hd.2
  · rcases decodeMessage_cases t buf with ⟨e, _, h1⟩ | ⟨hn, _⟩
    · refine ⟨⟨fun ⟨f, hf⟩ => ?_, fun hd => absurd hd.1 ha⟩, fun r hr => ?_⟩
      · rw [h1] at hf; cases hf
      · rw [h1] at hr; cases hr
    · exact absurd ((C02_accepted_iff buf).mp ⟨_, hn⟩) ha

example : DecodeFaults (.write 8 false) oldWrite ∧ DecodeFaults (.forget false) hugeForget ∧
    ¬ DecodeFaults (.write 9 false) oldWrite ∧ ¬ DecodeFaults (.forget false) (hugeForget.set 43 0) :=
  ⟨⟨⟨by decide, by decide, by decide⟩, by decide⟩, ⟨⟨by decide, by decide, by decide⟩, by decide⟩,
    fun h => absurd h.2 (by decide), fun h => absurd h.2 (by decide)⟩

/-- **C05**, exactly: the bytes after the declared message matter for nothing but an old-style WRITE (before 7.9)
in fewer than 80 bytes that is a fault (`DecodeFaults`). -/
theorem C05_exact (t : ReqType) (b1 b2 : Bytes) (n : Nat) (hn : n = max 40 (u32At b1 0)) (h1 : n ≤ b1.length)
    (h2 : n ≤ b2.length) (heq : b1.take n = b2.take n)
    (hf : ∀ v cuse, t = .write v cuse → ¬ DecodeFaults t b1 ∧ ¬ DecodeFaults t b2) :
    decodeMessage t b1 = decodeMessage t b2 := by
  cases t with
  | write v cuse =>
    by_cases hv : v < 9
    · obtain ⟨hf1, hf2⟩ := hf v cuse rfl
      have hfield : ∀ i, i + 4 ≤ n → u32At b1 i = u32At b2 i := fun i hi => u32At_take heq hi
      have e0 : u32At b1 0 = u32At b2 0 := hfield 0 (by omega)
      have e4 : u32At b1 4 = u32At b2 4 := hfield 4 (by omega)
      have e16 : u64At b1 16 = u64At b2 16 := by
        unfold u64At; rw [hfield 16 (by omega), hfield 20 (by omega)]
      by_cases ha : Acceptable b1
      · have ha2 : Acceptable b2 := by
          refine ⟨by omega, ?_, by omega⟩
          have : u64At b1 8 = u64At b2 8 := by unfold u64At; rw [hfield 8 (by omega), hfield 12 (by omega)]
          rw [← this]; exact ha.2.1
        have hok : (Decoder.mk b1 (u32At b1 0) 40).Ok := ⟨ha.2.2, u32At_lt _ _, ha.1, by simp⟩
        have hok2 : (Decoder.mk b2 (u32At b2 0) 40).Ok := ⟨ha2.2.2, u32At_lt _ _, ha2.1, by simp⟩
        have key : ∀ buf, Acceptable buf → decodeMessage (.write v cuse) buf =
            match decodeWrite v cuse ⟨buf, u32At buf 0, 40⟩ with
            | .ok (r, _) => .ok (.write r)
            | .error e => .error e := by
          intro buf ha
          rcases decodeMessage_cases (.write v cuse) buf with ⟨e, he, _⟩ | ⟨_, _, _, _, _, h1⟩
          · rw [acceptable_new ha] at he; cases he
          · rw [h1]
            simp only [decodeAny, Functor.map, StateT.map, bind, Except.bind]
            cases decodeWrite v cuse ⟨buf, u32At buf 0, 40⟩ <;> rfl
        rw [key b1 ha, key b2 ha2, decodeWrite_old v cuse b1 hok hv, decodeWrite_old v cuse b2 hok2 hv, ← e0, ← e4, ← e16]
        by_cases h16 : u32At b1 4 ≠ 16
        · rw [if_pos h16, if_pos h16]
        rw [if_neg h16, if_neg h16]
        by_cases hnid : cuse = false ∧ u64At b1 16 = 0
        · rw [if_pos hnid, if_pos hnid]
        rw [if_neg hnid, if_neg hnid]
        by_cases h64 : u32At b1 0 < 64
        · rw [if_pos (.inl h64), if_pos (.inl h64)]
        have e56 : u32At b1 56 = u32At b2 56 := hfield 56 (by omega)
        rw [← e56]
        by_cases hs : u32At b1 0 < 64 ∨ u32At b1 0 < 64 + u32At b1 56
        · rw [if_pos hs, if_pos hs]
        rw [if_neg hs, if_neg hs]
        have hc : cuse = true ∨ u64At b1 16 ≠ 0 := by
          cases cuse
          · exact .inr (fun h => hnid ⟨rfl, h⟩)
          · exact .inl rfl
        have hb1 : 80 ≤ b1.length := Nat.le_of_not_lt fun h =>
          hf1 ⟨ha, hv, by omega, h, hc, by omega⟩
        have hb2 : 80 ≤ b2.length := Nat.le_of_not_lt fun h =>
          hf2 ⟨ha2, hv, by omega, h, by rw [← e16]; exact hc, by omega⟩
        rw [if_pos hb1, if_pos hb2]
        have ht : b1.take (u32At b1 0) = b2.take (u32At b1 0) := by
          have := congrArg (List.take (u32At b1 0)) heq
          rwa [List.take_take, List.take_take, Nat.min_eq_left (by omega)] at this
        rw [ht]
      · have hu : u64At b1 8 = u64At b2 8 := by unfold u64At; rw [hfield 8 (by omega), hfield 12 (by omega)]
        have ha2 : ¬ Acceptable b2 := fun h => ha ⟨by omega, by rw [hu]; exact h.2.1, by omega⟩
        rcases decodeMessage_cases (.write v cuse) b1 with ⟨e, he, hd⟩ | ⟨hok, _⟩
        · rcases decodeMessage_cases (.write v cuse) b2 with ⟨e', he', hd'⟩ | ⟨hok, _⟩
          · rw [C02_error] at he he'
            have : e = e' := by
              rcases he with ⟨_, h⟩ | h
              · omega
              · rcases he' with ⟨_, h'⟩ | h'
                · omega
                · exact h.1.trans h'.1.symm
            rw [hd, hd', this]
          · exact absurd ((C02_accepted_iff b2).mp ⟨_, hok⟩) ha2
        · exact absurd ((C02_accepted_iff b1).mp ⟨_, hok⟩) ha
    · refine C05_ignores_trailing_partial _ b1 b2 n hn h1 h2 heq (fun h => hv h.1) (fun h => hv h.1)
  | _ => exact ignores_trailing _ b1 b2 n hn h1 h2 heq trivial

/-! ## Well-formed messages the decoder misreads -/

section
variable {a : ClientReq} {unique nodeid : UInt64} {uid gid pid padding : UInt32} {tail : Bytes} {t : ReqType}

theorem message_ok (hl : 40 + a.body.length < 2 ^ 32) :
    (Decoder.mk (a.message unique nodeid uid gid pid padding ++ tail) (40 + a.body.length) 40).Ok := by
  have hlen : (a.message unique nodeid uid gid pid padding ++ tail).length = 40 + a.body.length + tail.length := by
    rw [List.length_append, message_length]
  exact ⟨by rw [hlen]; show 40 + a.body.length ≤ _; omega, hl, by rw [hlen]; omega, by show 40 < _; omega⟩

theorem decodeMessage_message (t : ReqType) (hu : unique ≠ 0) (hl : 40 + a.body.length < 2 ^ 32) :
    decodeMessage t (a.message unique nodeid uid gid pid padding ++ tail) =
      match decodeAny t ⟨a.message unique nodeid uid gid pid padding ++ tail, 40 + a.body.length, 40⟩ with
      | .ok (r, _) => .ok r
      | .error e => .error e := by
  rcases decodeMessage_cases t (a.message unique nodeid uid gid pid padding ++ tail) with ⟨e, he, _⟩ | ⟨_, _, _, _, _, hd'⟩
  · exfalso
    have hlen := message_length (a := a) (unique := unique) (nodeid := nodeid) (uid := uid) (gid := gid)
      (pid := pid) (padding := padding)
    rw [C02_error, u32At_message hl, List.length_append] at he
    rcases he with ⟨_, h | h⟩ | h
    · omega
    · omega
    · exact u64At_message hu h.2.2
  · rw [hd', u32At_message hl]
    cases decodeAny t _ <;> rfl

theorem message_run {Q : AnyRequest → Bytes → Prop} (hu : unique ≠ 0) (hl : 40 + a.body.length < 2 ^ 32)
    (h : Run (a.message unique nodeid uid gid pid padding ++ tail) (40 + a.body.length) 40 a.body
      (decodeAny t) Q) :
    ∃ r s, decodeMessage t (a.message unique nodeid uid gid pid padding ++ tail) = .ok r ∧ Q r s := by
  obtain ⟨r, c, h1, _, h2⟩ := h (message_ok hl) (rest_message rfl)
  exact ⟨r, _, by rw [decodeMessage_message t hu hl, h1], h2⟩

theorem message_hdr : (dec ((a.message unique nodeid uid gid pid padding ++ tail).take 40) : FuseInHeader) =
    ⟨UInt32.ofNat (40 + a.body.length), UInt32.ofNat a.opcode, unique, nodeid, uid, gid, pid, padding⟩ := hd_message

end

/-- **C10**, the missing case of SYMLINK: no message with an empty target decodes, whatever the name. -/
theorem C10_exact_symlink (name : Bytes) (unique nodeid : UInt64) (uid gid pid padding : UInt32) (tail : Bytes)
    (hu : unique ≠ 0) (hl : 42 + name.length < 2 ^ 32) :
    decodeMessage .symlink ((ClientReq.symlink [] name).message unique nodeid uid gid pid padding ++ tail) =
      .error (.req (.nodeNameError .empty)) := by
  have hl' : 40 + (ClientReq.symlink [] name).body.length < 2 ^ 32 := by
    simp only [ClientReq.body, cstring, List.length_append, List.length_singleton, List.length_nil]; omega
  rw [decodeMessage_message _ hu hl']
  have hok := message_ok (a := ClientReq.symlink [] name) (unique := unique) (nodeid := nodeid) (uid := uid)
    (gid := gid) (pid := pid) (padding := padding) (tail := tail) hl'
  have hrest : Decoder.rest ⟨(ClientReq.symlink [] name).message unique nodeid uid gid pid padding ++ tail,
      40 + (ClientReq.symlink [] name).body.length, 40⟩ = 0 :: cstring name := rest_message rfl
  have : decodeSymlink ⟨(ClientReq.symlink [] name).message unique nodeid uid gid pid padding ++ tail,
      40 + (ClientReq.symlink [] name).body.length, 40⟩ = .error (.req (.nodeNameError .empty)) := by
    simp only [decodeSymlink, expectOpcode, bind_assoc]
    rw [header_bind_run hok, Decoder.hdr, message_hdr, if_neg (by simp [ClientReq.opcode, FUSE_SYMLINK]), pure_bind]
    simp only [bind, StateT.bind, Except.bind, nextCstr_eq hok, hrest, cstrSpec_empty]
    have hok' := hok.adv (n := 0) (by show 40 + 0 ≤ 40 + _; omega)
    rw [nextNodeName_eq hok', Decoder.adv_rest, hrest]
    rfl
  simp only [decodeAny, Functor.map, StateT.map, bind, Except.bind, this]

example : (ClientReq.symlink [] [0x61]).WellFormed 1 false := C10_violated_symlink.1

/-- **C10**, the missing case of SETXATTR: an empty attribute name always decodes, to a value that starts with
the name's terminator and lacks the last byte sent. -/
theorem C10_exact_setxattr (b : FuseSetxattrIn) (value : Bytes) (l : FuseLayout) (unique nodeid : UInt64)
    (uid gid pid padding : UInt32) (tail : Bytes) (hs : b.size.toNat = value.length) (hx : l.features &&& 1 ≠ 0)
    (hid : nodeid ≠ 0) (hu : unique ≠ 0) (hl : 57 + value.length < 2 ^ 32) :
    ∃ r, decodeMessage (.setxattr l)
        ((ClientReq.setxattr b [] value).message unique nodeid uid gid pid padding ++ tail) = .ok (.setxattr r) ∧
      r.name.bytes = [] ∧ r.value = ([0] ++ value).take value.length ∧
      (ClientReq.setxattr b [] (([0] ++ value).take value.length)).Matches nodeid false (.setxattr r) := by
  have hl' : 40 + (ClientReq.setxattr b [] value).body.length < 2 ^ 32 := by
    simp only [ClientReq.body, cstring, List.length_append, List.length_singleton, List.length_nil,
      ← enc_fuse_setxattr_in, Wire.enc_length, size_fuse_setxattr_in]; omega
  generalize hm : (ClientReq.setxattr b [] value).message unique nodeid uid gid pid padding ++ tail = mem
  have hop : (hd mem).opcode = 21 := by rw [← hm, hd_message]; rfl
  have hnid : (hd mem).nodeid ≠ 0 := by rw [← hm, hd_message]; exact hid
  have hnode : (hd mem).nodeid = nodeid := by rw [← hm, hd_message]
  have hbody : (ClientReq.setxattr b [] value).body =
      enc b ++ ([0] ++ value) := by
    simp only [ClientReq.body, cstring, List.append_assoc, List.nil_append, ← enc_fuse_setxattr_in]
  obtain ⟨r, _, h1, h2⟩ := message_run (a := .setxattr b [] value) (t := .setxattr l) (unique := unique)
    (nodeid := nodeid) (uid := uid) (gid := gid) (pid := pid) (padding := padding) (tail := tail)
    (Q := fun r _ => ∃ x, r = .setxattr x ∧ x.name.bytes = [] ∧ x.value = ([0] ++ value).take value.length ∧
      (ClientReq.setxattr b [] (([0] ++ value).take value.length)).Matches nodeid false (.setxattr x)) hu hl' (by
      rw [hm, hbody]
      refine Run.map ?_
      unfold decodeSetxattr
      repeat' run_step
      rw [if_pos (setxattr_ext_iff.mpr hx)]
      repeat' run_step
      refine Run.nextCstr_bind_empty (r := value) ?_
      refine Run.ofFault_bind (get_setxattr_old _) ?_
      rw [show (0 :: value : Bytes) = ([0] ++ value).take value.length ++ ([0] ++ value).drop value.length from
        (List.take_append_drop _ _).symm]
      refine Run.nextBytes_bind ?_ (by assumption) (Run.pure ⟨_, rfl, rfl, rfl, ?_⟩)
      rotate_left
      · rw [← hnode]
        exact match_setxattr hnid false
      rw [List.length_take, List.length_append, List.length_singleton, Nat.min_eq_left (by omega)]
      exact hs)
  obtain ⟨x, rfl, h3, h4⟩ := h2
  exact ⟨x, by rw [← hm]; exact h1, h3, h4⟩

/-- **C10**, the same for the layout without extended flags. -/
theorem C10_exact_setxattr_old (b : FuseSetxattrInV7p1) (value : Bytes) (l : FuseLayout) (unique nodeid : UInt64)
    (uid gid pid padding : UInt32) (tail : Bytes) (hs : b.size.toNat = value.length) (hx : l.features &&& 1 = 0)
    (hid : nodeid ≠ 0) (hu : unique ≠ 0) (hl : 49 + value.length < 2 ^ 32) :
    ∃ r, decodeMessage (.setxattr l)
        ((ClientReq.setxattrOld b [] value).message unique nodeid uid gid pid padding ++ tail) = .ok (.setxattr r) ∧
      r.name.bytes = [] ∧ r.value = ([0] ++ value).take value.length ∧
      (ClientReq.setxattrOld b [] (([0] ++ value).take value.length)).Matches nodeid false (.setxattr r) := by
  have hl' : 40 + (ClientReq.setxattrOld b [] value).body.length < 2 ^ 32 := by
    simp only [ClientReq.body, cstring, List.length_append, List.length_singleton, List.length_nil,
      ← enc_fuse_setxattr_in_v7p1, Wire.enc_length, size_fuse_setxattr_in_v7p1]; omega
  generalize hm : (ClientReq.setxattrOld b [] value).message unique nodeid uid gid pid padding ++ tail = mem
  have hop : (hd mem).opcode = 21 := by rw [← hm, hd_message]; rfl
  have hnid : (hd mem).nodeid ≠ 0 := by rw [← hm, hd_message]; exact hid
  have hnode : (hd mem).nodeid = nodeid := by rw [← hm, hd_message]
  have hbody : (ClientReq.setxattrOld b [] value).body =
      enc b ++ ([0] ++ value) := by
    simp only [ClientReq.body, cstring, List.append_assoc, List.nil_append, ← enc_fuse_setxattr_in_v7p1]
  obtain ⟨r, _, h1, h2⟩ := message_run (a := .setxattrOld b [] value) (t := .setxattr l) (unique := unique)
    (nodeid := nodeid) (uid := uid) (gid := gid) (pid := pid) (padding := padding) (tail := tail)
    (Q := fun r _ => ∃ x, r = .setxattr x ∧ x.name.bytes = [] ∧ x.value = ([0] ++ value).take value.length ∧
      (ClientReq.setxattrOld b [] (([0] ++ value).take value.length)).Matches nodeid false (.setxattr x)) hu hl' (by
      rw [hm, hbody]
      refine Run.map ?_
      unfold decodeSetxattr
      repeat' run_step
      rw [if_neg (fun h => setxattr_ext_iff.mp h hx)]
      repeat' run_step
      refine Run.nextCstr_bind_empty (r := value) ?_
      refine Run.ofFault_bind Versioned.get_self ?_
      rw [show (0 :: value : Bytes) = ([0] ++ value).take value.length ++ ([0] ++ value).drop value.length from
        (List.take_append_drop _ _).symm]
      refine Run.nextBytes_bind ?_ (by assumption) (Run.pure ⟨_, rfl, rfl, rfl, ?_⟩)
      rotate_left
      · rw [← hnode]
        exact match_setxattrOld hnid false
      rw [List.length_take, List.length_append, List.length_singleton, Nat.min_eq_left (by omega)]
      exact hs)
  obtain ⟨x, rfl, h3, h4⟩ := h2
  exact ⟨x, by rw [← hm]; exact h1, h3, h4⟩

example : ([0] ++ [0x61, 0x62] : Bytes).take 2 = [0, 0x61] := rfl

/-- The only named requests that are decoded as they were sent although their first string is empty: SETXATTR
with an empty name whose value consists of zero bytes. -/
def ClientReq.ShiftsUnseen : ClientReq → Prop
  | .setxattrOld _ name value | .setxattr _ name value => name = [] ∧ ∀ x ∈ value, x = 0
  | _ => False

theorem shift_eq {value : Bytes} : ([0] ++ value).take value.length = value ↔ ∀ x ∈ value, x = 0 := by
  induction value with
  | nil => simp
  | cons x v ih =>
    simp only [List.length_cons, List.singleton_append, List.take_succ_cons, List.cons.injEq, List.mem_cons,
      forall_eq_or_imp]
    constructor
    · rintro ⟨rfl, h⟩
      exact ⟨rfl, ih.mp h⟩
    · rintro ⟨rfl, h⟩
      exact ⟨rfl, ih.mpr h⟩

/-- **C12**, exactly: the message a client sends for a request with names is decoded to what was sent if and only
if its first string is not one of those that are shifted (SYMLINK's target, SETXATTR's attribute name) and empty,
or the shift cannot be seen. -/
theorem C12_exact (a : ClientReq) (t : ReqType) (unique nodeid : UInt64)
    (uid gid pid padding : UInt32) (tail : Bytes) (hn : a.Named) (ht : a.HasType t)
    (hw : a.WellFormed nodeid t.isCuse) (hu : unique ≠ 0) (hl : 40 + a.body.length < 2 ^ 32) :
    (∃ r, decodeMessage t (a.message unique nodeid uid gid pid padding ++ tail) = .ok r ∧
      a.Matches nodeid t.isCuse r) ↔ a.ShiftFree ∨ a.ShiftsUnseen := by
  by_cases hs : a.ShiftFree
  · exact ⟨fun _ => .inl hs, fun _ => C12_named_round_trip_partial a t unique nodeid uid gid pid padding tail
      hn ht hw hs hu hl⟩
  · cases a with
    | symlink content name =>
      cases t <;> first | exact False.elim ht | skip
      have hs : ¬ content ≠ [] := hs
      obtain rfl : content = [] := Classical.not_not.mp hs
      simp only [ClientReq.body, cstring, List.length_append, List.length_singleton, List.length_nil] at hl
      rw [C10_exact_symlink name unique nodeid uid gid pid padding tail hu (by omega)]
      exact ⟨fun ⟨r, h, _⟩ => (nomatch h), fun h => h.elim (fun h => absurd rfl h) False.elim⟩
    | setxattr b name value =>
      cases t <;> first | exact False.elim ht | skip
      have hs : ¬ name ≠ [] := hs
      obtain rfl : name = [] := Classical.not_not.mp hs
      simp only [ClientReq.body, cstring, List.length_append, List.length_singleton, List.length_nil,
        ← enc_fuse_setxattr_in, Wire.enc_length, size_fuse_setxattr_in] at hl
      obtain ⟨r, h1, h2, h3, h4⟩ := C10_exact_setxattr b value _ unique nodeid uid gid pid padding tail hw.2.2 ht
        hw.1 hu (by omega)
      rw [h1]
      constructor
      · rintro ⟨r', he, hm⟩
        cases he
        exact .inr ⟨rfl, shift_eq.mp (h3.symm.trans hm.2.2.1)⟩
      · rintro (h | h)
        · exact absurd rfl h
        · rw [shift_eq.mpr h.2] at h4
          exact ⟨_, rfl, h4⟩
    | setxattrOld b name value =>
      cases t <;> first | exact False.elim ht | skip
      have hs : ¬ name ≠ [] := hs
      obtain rfl : name = [] := Classical.not_not.mp hs
      simp only [ClientReq.body, cstring, List.length_append, List.length_singleton, List.length_nil,
        ← enc_fuse_setxattr_in_v7p1, Wire.enc_length, size_fuse_setxattr_in_v7p1] at hl
      obtain ⟨r, h1, h2, h3, h4⟩ := C10_exact_setxattr_old b value _ unique nodeid uid gid pid padding tail hw.2.2 ht
        hw.1 hu (by omega)
      rw [h1]
      constructor
      · rintro ⟨r', he, hm⟩
        cases he
        exact .inr ⟨rfl, shift_eq.mp (h3.symm.trans hm.2.2.1)⟩
      · rintro (h | h)
        · exact absurd rfl h
        · rw [shift_eq.mpr h.2] at h4
          exact ⟨_, rfl, h4⟩
    | _ => exact absurd trivial hs

example : ¬ (ClientReq.setxattr ⟨2, 0, 0, 0⟩ [] [0x61, 0]).ShiftFree ∧
    ¬ (ClientReq.setxattr ⟨2, 0, 0, 0⟩ [] [0x61, 0]).ShiftsUnseen ∧
    (ClientReq.setxattr ⟨2, 0, 0, 0⟩ [] [0, 0]).ShiftsUnseen := by
  refine ⟨fun h => h rfl, fun h => absurd (h.2 0x61 (by decide)) (by decide), rfl, by decide⟩

/-- **C13**, the missing case: an old-style WRITE whose receive buffer has fewer than 80 bytes is always viewed
through a reference past the buffer's end. -/
theorem C13_exact (b : FuseWriteInV7p1) (data : Bytes) (v : UInt32) (cuse : Bool) (unique nodeid : UInt64)
    (uid gid pid padding : UInt32) (tail : Bytes) (hv : v < 9) (hid : cuse = true ∨ nodeid ≠ 0)
    (hs : b.size.toNat = data.length) (hu : unique ≠ 0) (h80 : 64 + data.length + tail.length < 80) :
    ∃ f, decodeMessage (.write v cuse)
      ((ClientReq.writeOld b data).message unique nodeid uid gid pid padding ++ tail) = .error (.fault f) := by
  have hlen : (ClientReq.writeOld b data).body.length = 24 + data.length := by
    simp only [ClientReq.body, List.length_append, ← enc_fuse_write_in_v7p1, Wire.enc_length]; rfl
  have hl : 40 + (ClientReq.writeOld b data).body.length < 2 ^ 32 := by omega
  refine (C04_exact _ _).1.mpr ⟨message_acceptable hu hl, hv, message_opcode, ?_, ?_, ?_⟩
  · rw [List.length_append, message_length, hlen]; omega
  · refine hid.imp id (fun h => ?_)
    simp only [ClientReq.message]
    read_at
    exact fun h0 => h (UInt64.toNat_inj.mp h0)
  · rw [u32At_message hl, hlen, ← Nat.add_assoc]
    refine Nat.add_le_add_left (Nat.le_of_eq (Eq.trans ?_ hs)) 64
    simp only [ClientReq.message, ClientReq.body, layout_fuse_write_in_v7p1]
    read_at

/-- **C50**, the missing case: no POLL without a node ID decodes. -/
theorem C50_exact (b : FusePollIn) (unique : UInt64) (uid gid pid padding : UInt32) (tail : Bytes) (hu : unique ≠ 0) :
    decodeMessage .poll ((ClientReq.poll b).message unique 0 uid gid pid padding ++ tail) =
      .error (.req .missingNodeId) := by
  have hl' : 40 + (ClientReq.poll b).body.length < 2 ^ 32 := by
    simp only [ClientReq.body, ← enc_fuse_poll_in, Wire.enc_length]; decide
  rw [decodeMessage_message _ hu hl']
  have hok := message_ok (a := ClientReq.poll b) (unique := unique) (nodeid := 0) (uid := uid)
    (gid := gid) (pid := pid) (padding := padding) (tail := tail) hl'
  generalize hd : Decoder.mk ((ClientReq.poll b).message unique 0 uid gid pid padding ++ tail)
      (40 + (ClientReq.poll b).body.length) 40 = d at hok
  have hh : d.hdr = ⟨UInt32.ofNat (40 + (ClientReq.poll b).body.length), 40, unique, 0, uid, gid, pid, padding⟩ := by
    rw [← hd]; exact hd_message
  have hc : d.consumed = 40 := by rw [← hd]
  have hH : d.headerLen = 64 := by rw [← hd]; simp only [ClientReq.body, ← enc_fuse_poll_in, Wire.enc_length]; rfl
  have : decodePoll d = .error (.req .missingNodeId) := by
    simp only [decodePoll, expectOpcode, bind_assoc]
    rw [header_bind_run hok, if_neg (by rw [hh]; simp [FUSE_POLL]), pure_bind, header_bind_run hok]
    simp only [bind, StateT.bind, Except.bind]
    rw [nextSized_eq hok FusePollIn (by decide), hc, hH, if_pos (by decide), if_pos (by decide), hh]
    rfl
  simp only [decodeAny, Functor.map, StateT.map, bind, Except.bind, this]

/-- Three bytes written in protocol 7.8 with nothing behind the message in the buffer; with sixteen bytes behind it
the same message is read. -/
example : (∃ f, decodeMessage (.write 8 false) ((ClientReq.writeOld { fh := 1, size := 3 } [1, 2, 3]).message 5 2 0 0 0 0)
      = .error (.fault f)) ∧
    decodeMessage (.write 8 false)
      ((ClientReq.writeOld { fh := 1, size := 3 } [1, 2, 3]).message 5 2 0 0 0 0 ++ List.replicate 16 0) ≠
      .error (.fault .oob) := by
  refine ⟨?_, by decide +kernel⟩
  have := C13_exact { fh := 1, size := 3 } [1, 2, 3] 8 false 5 2 0 0 0 0 [] (by decide) (.inr (by decide)) rfl
    (by decide) (by decide)
  rwa [List.append_nil] at this

/-- A poll of a character device. -/
example : decodeMessage .poll ((ClientReq.poll { fh := 3, kh := 4, flags := 1, events := 1 }).message 9 0 0 0 0 0) =
    .error (.req .missingNodeId) := by decide +kernel

end Fuse
