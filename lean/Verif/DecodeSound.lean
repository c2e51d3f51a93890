import Verif.DecodeRun

/-!
# A program logic for decoders: what a success implies

`Snd mem H c bs m Q`: if running `m` at offset `c`, where the rest of the message is `bs`, succeeds,
then `Q` holds of the result.
-/

namespace Fuse

/-- See the file comment. -/
def Snd {α} (mem : Bytes) (H c : Nat) (bs : Bytes) (m : DecM α) (Q : α → Prop) : Prop :=
  (Decoder.mk mem H c).Ok → (Decoder.mk mem H c).rest = bs →
    ∀ a d', m ⟨mem, H, c⟩ = .ok (a, d') → Q a

variable {α β : Type} {mem : Bytes} {H c : Nat} {bs : Bytes}

theorem Snd.bind {m : DecM α} {f : α → DecM β} {R : β → Prop}
    (h : (Decoder.mk mem H c).Ok → (Decoder.mk mem H c).rest = bs → ∀ a d', m ⟨mem, H, c⟩ = .ok (a, d') →
      ∃ c' bs', d' = ⟨mem, H, c'⟩ ∧ d'.Ok ∧ d'.rest = bs' ∧ Snd mem H c' bs' (f a) R) :
    Snd mem H c bs (m >>= f) R := by
  intro hok hr b d2 hb
  simp only [Bind.bind, StateT.bind] at hb
  cases hm : m ⟨mem, H, c⟩ with
  | error e => rw [hm] at hb; cases hb
  | ok p =>
    obtain ⟨a, d'⟩ := p
    rw [hm] at hb
    obtain ⟨c', bs', rfl, h2, h3, h4⟩ := h hok hr a d' hm
    exact h4 h2 h3 b d2 hb

theorem Snd.pure {a : α} {Q : α → Prop} (h : Q a) : Snd mem H c bs (Pure.pure a) Q := by
  intro _ _ b d' hb
  cases hb
  exact h

theorem Snd.map {m : DecM α} {f : α → β} {Q : β → Prop}
    (h : Snd mem H c bs m (fun a => Q (f a))) : Snd mem H c bs (f <$> m) Q := by
  intro hok hr b d2 hb
  rw [map_eq_pure_bind] at hb
  simp only [Bind.bind, StateT.bind] at hb
  cases hm : m ⟨mem, H, c⟩ with
  | error e => rw [hm] at hb; cases hb
  | ok p =>
    obtain ⟨a, d'⟩ := p
    rw [hm] at hb
    cases hb
    exact h hok hr a d' hm

theorem Snd.throwReq_bind {e : RequestError} {f : α → DecM β} {Q : β → Prop} :
    Snd mem H c bs (DecM.throwReq e >>= f) Q := by
  intro _ _ b d2 hb; cases hb

theorem Snd.throwReq {e : RequestError} {Q : β → Prop} :
    Snd mem H c bs (DecM.throwReq e) Q := by
  intro _ _ b d2 hb; cases hb

theorem Snd.ofFault_error {e : Fault} {Q : β → Prop} :
    Snd mem H c bs (DecM.ofFault (.error e)) Q := by
  intro _ _ b d2 hb; cases hb

theorem Snd.header_bind {f : FuseInHeader → DecM β} {R}
    (hf : Snd mem H c bs (f (dec (mem.take 40))) R) : Snd mem H c bs (header >>= f) R := by
  refine Snd.bind (fun hok hr a d' hm => ?_)
  rw [header_eq hok] at hm
  cases hm
  exact ⟨c, bs, rfl, hok, hr, hf⟩

theorem Snd.expectOpcode_bind {op : UInt32} {f : Unit → DecM β} {R}
    (hf : (dec (mem.take 40) : FuseInHeader).opcode = op → Snd mem H c bs (f ()) R) :
    Snd mem H c bs (expectOpcode op >>= f) R := by
  simp only [expectOpcode, bind_assoc]
  apply Snd.header_bind
  split
  · exact Snd.throwReq_bind
  · rename_i h
    rw [pure_bind]
    exact hf (by simpa using h)

theorem Snd.nodeId_bind {raw : UInt64} {f : NodeId → DecM β} {R}
    (hf : ∀ h : raw ≠ 0, Snd mem H c bs (f ⟨raw, h⟩) R) :
    Snd mem H c bs (nodeId raw >>= f) R := by
  unfold nodeId NodeId.new NonZeroU64.new
  by_cases h : raw ≠ 0
  · rw [dif_pos h]
    simp only [pure_bind]
    exact hf h
  · rw [dif_neg h]
    exact Snd.throwReq_bind

theorem rest_adv {n : Nat} : (Decoder.mk mem H (c + n)).rest = ((Decoder.mk mem H c).rest).drop n := by
  have : (Decoder.mk mem H (c + n)).rest = ((Decoder.mk mem H c).adv n).rest := rfl
  rw [this, Decoder.adv_rest]

theorem Snd.nextSized_bind {T : Type} [Wire T] {f : T → DecM β} {R} (hs : Wire.size T < 2 ^ 32)
    (hf : ∀ x r, bs = enc x ++ r → c + Wire.size T ≤ H → Snd mem H (c + Wire.size T) r (f x) R) :
    Snd mem H c bs (nextSized T >>= f) R := by
  refine Snd.bind (fun hok hr a d' hm => ?_)
  rw [nextSized_eq hok T hs] at hm
  split at hm
  · rename_i hle
    split at hm
    · have hlen := hok.rest_length
      simp only at hle hlen
      rw [hr] at hm hlen
      simp only [Except.ok.injEq, Prod.mk.injEq] at hm
      obtain ⟨rfl, rfl⟩ := hm
      refine ⟨c + Wire.size T, bs.drop (Wire.size T), rfl, hok.adv hle, ?_, hf _ _ ?_ hle⟩
      · rw [Decoder.adv_rest, hr]
      · rw [Wire.enc_dec _ (by rw [List.length_take]; omega), List.take_append_drop]
    · cases hm
  · cases hm

theorem Snd.peekSized_bind {T : Type} [Wire T] {f : T → DecM β} {R} (hs : Wire.size T < 2 ^ 32)
    (hf : ∀ x r, bs = enc x ++ r → Snd mem H c bs (f x) R) :
    Snd mem H c bs (peekSized T >>= f) R := by
  refine Snd.bind (fun hok hr a d' hm => ?_)
  rw [peekSized_eq hok T hs] at hm
  split at hm
  · rename_i hle
    split at hm
    · have hlen := hok.rest_length
      simp only at hle hlen
      rw [hr] at hm hlen
      simp only [Except.ok.injEq, Prod.mk.injEq] at hm
      obtain ⟨rfl, rfl⟩ := hm
      refine ⟨c, bs, rfl, hok, hr, hf _ (bs.drop (Wire.size T)) ?_⟩
      rw [Wire.enc_dec _ (by rw [List.length_take]; omega), List.take_append_drop]
    · cases hm
  · cases hm

theorem Snd.nextBytes_bind {n : UInt32} {f : Bytes → DecM β} {R}
    (hf : ∀ p r, n.toNat = p.length → bs = p ++ r → c + n.toNat ≤ H →
      Snd mem H (c + n.toNat) r (f p) R) :
    Snd mem H c bs (nextBytes n >>= f) R := by
  refine Snd.bind (fun hok hr a d' hm => ?_)
  rw [nextBytes_eq hok n] at hm
  split at hm
  · rename_i hle
    have hlen := hok.rest_length
    simp only at hle hlen
    rw [hr] at hm hlen
    simp only [Except.ok.injEq, Prod.mk.injEq] at hm
    obtain ⟨rfl, rfl⟩ := hm
    refine ⟨c + n.toNat, bs.drop n.toNat, rfl, hok.adv hle, ?_, hf _ _ ?_ ?_ hle⟩
    · rw [Decoder.adv_rest, hr]
    · rw [List.length_take]; omega
    · rw [List.take_append_drop]
  · cases hm

theorem Snd.nextNodeName_bind {f : NodeName → DecM β} {R}
    (hf : ∀ p r, NodeName.Valid p → bs = p ++ ([0] ++ r) →
      Snd mem H (c + (p.length + 1)) r (f ⟨p⟩) R) :
    Snd mem H c bs (nextNodeName >>= f) R := by
  refine Snd.bind (fun hok hr a d' hm => ?_)
  rw [nextNodeName_eq hok, hr] at hm
  have hlen := hok.rest_length
  rw [hr] at hlen
  simp only at hlen
  cases hsp : nameSpec bs with
  | error e => rw [hsp] at hm; cases hm
  | ok p =>
    obtain ⟨⟨p⟩, n⟩ := p
    obtain ⟨h1, h2, h3, r, h4⟩ := nameSpec_ok hsp
    rw [hsp] at hm
    simp only [Except.ok.injEq, Prod.mk.injEq] at hm
    obtain ⟨rfl, rfl⟩ := hm
    simp only at h2 h4
    subst h2
    refine ⟨c + (p.length + 1), r, rfl, hok.adv (by simp only; omega), ?_, hf p r h1 (by simpa using h4)⟩
    rw [Decoder.adv_rest, hr, h4, show (p ++ 0 :: r) = (p ++ [0]) ++ r by simp,
      List.drop_left' (by simp)]

theorem Snd.nextCstr_bind {f : CStr → DecM β} {R}
    (hf : ∀ p r, 0 ∉ p → p ≠ [] → bs = p ++ ([0] ++ r) →
      Snd mem H (c + (p.length + 1)) r (f ⟨p⟩) R)
    (he : ∀ r, bs = [0] ++ r → Snd mem H c ([0] ++ r) (f ⟨[]⟩) R) :
    Snd mem H c bs (nextCstr >>= f) R := by
  refine Snd.bind (fun hok hr a d' hm => ?_)
  rw [nextCstr_eq hok, hr] at hm
  have hlen := hok.rest_length
  rw [hr] at hlen
  simp only at hlen
  cases hsp : cstrSpec bs with
  | error e => rw [hsp] at hm; cases hm
  | ok p =>
    obtain ⟨⟨p⟩, n⟩ := p
    obtain ⟨h1, h2, ⟨r, h4⟩, h3⟩ := cstrSpec_ok hsp
    rw [hsp] at hm
    simp only [Except.ok.injEq, Prod.mk.injEq] at hm
    obtain ⟨rfl, rfl⟩ := hm
    simp only at h1 h3 h4
    by_cases hp : p = []
    · subst hp
      rw [if_pos rfl] at h3
      subst h3
      refine ⟨c, [0] ++ r, rfl, hok, ?_, he r (by simpa using h4)⟩
      rw [Decoder.adv_rest, hr, h4]; rfl
    · rw [if_neg hp] at h3
      subst h3
      have hl : (p ++ 0 :: r).length = p.length + 1 + r.length := by simp; omega
      rw [h4, hl] at hlen
      refine ⟨c + (p.length + 1), r, rfl, hok.adv (by simp only; omega), ?_,
        hf p r h1 hp (by simpa using h4)⟩
      rw [Decoder.adv_rest, hr, h4, show (p ++ 0 :: r) = (p ++ [0]) ++ r by simp,
        List.drop_left' (by simp)]

theorem Snd.checkTimespecNanos_bind {n : UInt32} {f : Unit → DecM β} {R}
    (hf : n ≤ MAX_NANOS → Snd mem H c bs (f ()) R) :
    Snd mem H c bs (checkTimespecNanos n >>= f) R := by
  unfold checkTimespecNanos
  split
  · exact Snd.throwReq_bind
  · rename_i h
    rw [pure_bind]
    exact hf (by simpa using h)

theorem Snd.ofRes_bind {x : Res α} {f : α → DecM β} {R}
    (hf : ∀ a, x = .ok a → Snd mem H c bs (f a) R) : Snd mem H c bs (DecM.ofRes x >>= f) R := by
  refine Snd.bind (fun hok hr a d' hm => ?_)
  cases x with
  | error e => cases hm
  | ok y => cases hm; exact ⟨c, bs, rfl, hok, hr, hf _ rfl⟩

theorem Snd.ofFault_bind {x : Except Fault α} {f : α → DecM β} {R}
    (hf : ∀ a, x = .ok a → Snd mem H c bs (f a) R) : Snd mem H c bs (DecM.ofFault x >>= f) R := by
  refine Snd.bind (fun hok hr a d' hm => ?_)
  cases x with
  | error e => cases hm
  | ok y => cases hm; exact ⟨c, bs, rfl, hok, hr, hf _ rfl⟩

theorem Snd.get_bind {f : Decoder → DecM β} {R}
    (hf : Snd mem H c bs (f ⟨mem, H, c⟩) R) : Snd mem H c bs (MonadState.get >>= f) R := hf

theorem Snd.ok {m : DecM α} {Q} (h : (Decoder.mk mem H c).Ok → (Decoder.mk mem H c).rest = bs →
    Snd mem H c bs m Q) : Snd mem H c bs m Q := fun hok hr => h hok hr hok hr

theorem Run.ok {m : DecM α} {Q} (h : (Decoder.mk mem H c).Ok → (Decoder.mk mem H c).rest = bs →
    Run mem H c bs m Q) : Run mem H c bs m Q := fun hok hr => h hok hr hok hr

end Fuse
