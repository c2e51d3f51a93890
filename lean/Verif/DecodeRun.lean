import Verif.DecodeSim

/-!
# A program logic for decoders: successful runs

`Run mem H c bs m Q`: running `m` at offset `c`, where the rest of the message is `bs`, succeeds,
and `Q` holds of the result and the rest of the message after it.
-/

namespace Fuse

/-- See the file comment. -/
def Run {α} (mem : Bytes) (H c : Nat) (bs : Bytes) (m : DecM α) (Q : α → Bytes → Prop) : Prop :=
  (Decoder.mk mem H c).Ok → (Decoder.mk mem H c).rest = bs → ∃ a c', m ⟨mem, H, c⟩ = .ok (a, ⟨mem, H, c'⟩) ∧
    (Decoder.mk mem H c').Ok ∧ Q a (Decoder.mk mem H c').rest

variable {α β : Type} {mem : Bytes} {H c : Nat} {bs : Bytes}

theorem Run.bind {m : DecM α} {f : α → DecM β} {Q : α → Nat → Bytes → Prop} {R : β → Bytes → Prop}
    (hm : (Decoder.mk mem H c).Ok → (Decoder.mk mem H c).rest = bs → ∃ a c',
      m ⟨mem, H, c⟩ = .ok (a, ⟨mem, H, c'⟩) ∧ (Decoder.mk mem H c').Ok ∧
        Q a c' (Decoder.mk mem H c').rest)
    (hf : ∀ a c' bs', Q a c' bs' → Run mem H c' bs' (f a) R) :
    Run mem H c bs (m >>= f) R := by
  intro hok hr
  obtain ⟨a, c', h1, h2, h3⟩ := hm hok hr
  obtain ⟨b, c2, h4, h5, h6⟩ := hf a c' _ h3 h2 rfl
  refine ⟨b, c2, ?_, h5, h6⟩
  simp only [Bind.bind, StateT.bind, h1, Except.bind]
  exact h4

theorem Run.pure {a : α} {Q : α → Bytes → Prop} (h : Q a bs) : Run mem H c bs (Pure.pure a) Q :=
  fun hok hr => ⟨a, c, rfl, hok, hr ▸ h⟩

theorem Run.map {m : DecM α} {f : α → β} {Q : β → Bytes → Prop}
    (h : Run mem H c bs m (fun a r => Q (f a) r)) : Run mem H c bs (f <$> m) Q := by
  intro hok hr
  obtain ⟨a, c', h1, h2, h3⟩ := h hok hr
  refine ⟨f a, c', ?_, h2, h3⟩
  rw [map_eq_pure_bind]
  simp only [Bind.bind, StateT.bind, h1, Except.bind]
  rfl

theorem Run.header_bind {f : FuseInHeader → DecM β} {R}
    (hf : Run mem H c bs (f (dec (mem.take 40))) R) : Run mem H c bs (header >>= f) R :=
  Run.bind (Q := fun h c' b => h = dec (mem.take 40) ∧ c' = c ∧ b = bs)
    (fun hok hr => ⟨_, c, header_eq hok, hok, rfl, rfl, hr⟩)
    (by rintro a c' b ⟨rfl, rfl, rfl⟩; exact hf)

theorem Run.expectOpcode_bind {op : UInt32} {f : Unit → DecM β} {R}
    (hop : (dec (mem.take 40) : FuseInHeader).opcode = op)
    (hf : Run mem H c bs (f ()) R) : Run mem H c bs (expectOpcode op >>= f) R := by
  simp only [expectOpcode, bind_assoc]
  apply Run.header_bind
  rw [if_neg (by simp [hop]), pure_bind]
  exact hf

theorem Run.nodeId_bind {raw : UInt64} {f : NodeId → DecM β} {R} (h : raw ≠ 0)
    (hf : Run mem H c bs (f ⟨raw, h⟩) R) : Run mem H c bs (nodeId raw >>= f) R := by
  unfold nodeId NodeId.new NonZeroU64.new
  rw [dif_pos h]
  simp only [pure_bind]
  exact hf

theorem Decoder.Ok.rest_cons {d : Decoder} (hok : d.Ok) {p r : Bytes} (hr : d.rest = p ++ r)
    (hp : 0 < p.length) : d.consumed + p.length ≤ d.headerLen := by
  have := hok.rest_length
  rw [hr, List.length_append] at this
  omega

theorem Run.nextSized_bind {T : Type} [Wire T] {x : T} {r : Bytes} {f : T → DecM β} {R}
    (hs : Wire.size T < 2 ^ 32) (h0 : 0 < Wire.size T) (ha : c % Wire.align T = 0)
    (hf : c + Wire.size T ≤ H → Run mem H (c + Wire.size T) r (f x) R) :
    Run mem H c (enc x ++ r) (nextSized T >>= f) R := by
  refine Run.bind (Q := fun y c' b => y = x ∧ c' = c + Wire.size T ∧ b = r ∧ c + Wire.size T ≤ H)
    (fun hok hr => ⟨x, c + Wire.size T, ?_, ?_, rfl, rfl, ?_, ?_⟩)
    (by rintro a c' b ⟨rfl, rfl, rfl, h⟩; exact hf h)
  · have hle := hok.rest_cons hr (by rw [Wire.enc_length]; exact h0)
    rw [Wire.enc_length] at hle
    rw [nextSized_eq hok T hs, if_pos hle, if_pos ha, hr,
      List.take_left' (Wire.enc_length x), Wire.dec_enc]
    rfl
  · have hle := hok.rest_cons hr (by rw [Wire.enc_length]; exact h0)
    rw [Wire.enc_length] at hle
    exact hok.adv hle
  · have : (Decoder.mk mem H (c + Wire.size T)).rest = ((Decoder.mk mem H c).adv (Wire.size T)).rest := rfl
    rw [this, Decoder.adv_rest, hr, List.drop_left' (Wire.enc_length x)]
  · have hle := hok.rest_cons hr (by rw [Wire.enc_length]; exact h0)
    rw [Wire.enc_length] at hle
    exact hle

theorem Run.peekSized_bind {T : Type} [Wire T] {x : T} {r : Bytes} {f : T → DecM β} {R}
    (hs : Wire.size T < 2 ^ 32) (h0 : 0 < Wire.size T) (ha : c % Wire.align T = 0)
    (hf : Run mem H c (enc x ++ r) (f x) R) :
    Run mem H c (enc x ++ r) (peekSized T >>= f) R := by
  refine Run.bind (Q := fun y c' b => y = x ∧ c' = c ∧ b = enc x ++ r)
    (fun hok hr => ⟨x, c, ?_, hok, rfl, rfl, hr⟩)
    (by rintro a c' b ⟨rfl, rfl, rfl⟩; exact hf)
  have hle := hok.rest_cons hr (by rw [Wire.enc_length]; exact h0)
  rw [Wire.enc_length] at hle
  rw [peekSized_eq hok T hs, if_pos hle, if_pos ha, hr,
    List.take_left' (Wire.enc_length x), Wire.dec_enc]

theorem Run.nextBytes_bind {n : UInt32} {p r : Bytes} {f : Bytes → DecM β} {R}
    (hn : n.toNat = p.length) (hc : c ≤ H) (hf : Run mem H (c + n.toNat) r (f p) R) :
    Run mem H c (p ++ r) (nextBytes n >>= f) R := by
  refine Run.bind (Q := fun y c' b => y = p ∧ c' = c + n.toNat ∧ b = r)
    (fun hok hr => ?_)
    (by rintro a c' b ⟨rfl, rfl, rfl⟩; exact hf)
  have hle : c + n.toNat ≤ H := by
    have := hok.rest_length
    rw [hr, List.length_append] at this
    simp only at this
    omega
  refine ⟨p, c + n.toNat, ?_, hok.adv hle, rfl, rfl, ?_⟩
  · rw [nextBytes_eq hok n, if_pos hle, hr, hn, List.take_left' rfl]
    rfl
  · have : (Decoder.mk mem H (c + n.toNat)).rest = ((Decoder.mk mem H c).adv n.toNat).rest := rfl
    rw [this, Decoder.adv_rest, hr, hn, List.drop_left' rfl]

theorem Run.nextNodeName_bind {p r : Bytes} {f : NodeName → DecM β} {R} (hv : NodeName.Valid p)
    (hf : Run mem H (c + (p.length + 1)) r (f ⟨p⟩) R) :
    Run mem H c (p ++ ([0] ++ r)) (nextNodeName >>= f) R := by
  refine Run.bind (Q := fun y c' b => y = ⟨p⟩ ∧ c' = c + (p.length + 1) ∧ b = r)
    (fun hok hr => ?_)
    (by rintro a c' b ⟨rfl, rfl, rfl⟩; exact hf)
  have hle : c + (p.length + 1) ≤ H := by
    have := hok.rest_length
    rw [hr, List.length_append, List.length_append, List.length_cons, List.length_nil] at this
    simp only at this
    omega
  refine ⟨⟨p⟩, c + (p.length + 1), ?_, hok.adv hle, rfl, rfl, ?_⟩
  · rw [nextNodeName_eq hok, hr, List.singleton_append, nameSpec_of hv]
    rfl
  · have : (Decoder.mk mem H (c + (p.length + 1))).rest =
      ((Decoder.mk mem H c).adv (p.length + 1)).rest := rfl
    rw [this, Decoder.adv_rest, hr, ← List.append_assoc, List.drop_left' (by simp)]

theorem Run.nextCstr_bind {p r : Bytes} {f : CStr → DecM β} {R} (hv : 0 ∉ p) (hne : p ≠ [])
    (hf : c + (p.length + 1) ≤ H → Run mem H (c + (p.length + 1)) r (f ⟨p⟩) R) :
    Run mem H c (p ++ ([0] ++ r)) (nextCstr >>= f) R := by
  refine Run.bind (Q := fun y c' b => y = ⟨p⟩ ∧ c' = c + (p.length + 1) ∧ b = r ∧
      c + (p.length + 1) ≤ H)
    (fun hok hr => ?_)
    (by rintro a c' b ⟨rfl, rfl, rfl, h⟩; exact hf h)
  have hle : c + (p.length + 1) ≤ H := by
    have := hok.rest_length
    rw [hr, List.length_append, List.length_append, List.length_cons, List.length_nil] at this
    simp only at this
    omega
  refine ⟨⟨p⟩, c + (p.length + 1), ?_, hok.adv hle, rfl, rfl, ?_, hle⟩
  · rw [nextCstr_eq hok, hr, List.singleton_append, cstrSpec_of hv hne]
    rfl
  · have : (Decoder.mk mem H (c + (p.length + 1))).rest =
      ((Decoder.mk mem H c).adv (p.length + 1)).rest := rfl
    rw [this, Decoder.adv_rest, hr, ← List.append_assoc, List.drop_left' (by simp)]

/-- An empty string is returned but its NUL stays unread. -/
theorem Run.nextCstr_bind_empty {r : Bytes} {f : CStr → DecM β} {R}
    (hf : Run mem H c (0 :: r) (f ⟨[]⟩) R) :
    Run mem H c (0 :: r) (nextCstr >>= f) R := by
  refine Run.bind (Q := fun y c' b => y = ⟨[]⟩ ∧ c' = c ∧ b = 0 :: r)
    (fun hok hr => ⟨⟨[]⟩, c, ?_, hok, rfl, rfl, hr⟩)
    (by rintro a c' b ⟨rfl, rfl, rfl⟩; exact hf)
  rw [nextCstr_eq hok, hr, cstrSpec_empty]
  rfl

theorem Run.checkTimespecNanos_bind {n : UInt32} {f : Unit → DecM β} {R} (hn : n ≤ MAX_NANOS)
    (hf : Run mem H c bs (f ()) R) :
    Run mem H c bs (checkTimespecNanos n >>= f) R := by
  unfold checkTimespecNanos
  rw [if_neg (by simpa using hn), pure_bind]
  exact hf

theorem Run.ofRes_bind {x : Res α} {a : α} {f : α → DecM β} {R} (hx : x = .ok a)
    (hf : Run mem H c bs (f a) R) : Run mem H c bs (DecM.ofRes x >>= f) R := by
  subst hx
  exact Run.bind (Q := fun b c' r => b = a ∧ c' = c ∧ r = bs)
    (fun hok hr => ⟨a, c, rfl, hok, rfl, rfl, hr⟩)
    (by rintro a c' b ⟨rfl, rfl, rfl⟩; exact hf)

theorem Run.ofFault_bind {x : Except Fault α} {a : α} {f : α → DecM β} {R} (hx : x = .ok a)
    (hf : Run mem H c bs (f a) R) : Run mem H c bs (DecM.ofFault x >>= f) R := by
  subst hx
  exact Run.bind (Q := fun b c' r => b = a ∧ c' = c ∧ r = bs)
    (fun hok hr => ⟨a, c, rfl, hok, rfl, rfl, hr⟩)
    (by rintro a c' b ⟨rfl, rfl, rfl⟩; exact hf)

theorem Run.get_bind {f : Decoder → DecM β} {R}
    (hf : Run mem H c bs (f ⟨mem, H, c⟩) R) : Run mem H c bs (MonadState.get >>= f) R := hf

theorem Run.le {m : DecM α} {Q} (h : c ≤ H → Run mem H c bs m Q) (hne : bs ≠ []) :
    Run mem H c bs m Q := by
  intro hok hr
  have := hok.rest_length
  rw [hr] at this
  simp only at this
  have : 0 < bs.length := List.length_pos_iff.mpr hne
  exact h (by omega) hok hr

end Fuse
