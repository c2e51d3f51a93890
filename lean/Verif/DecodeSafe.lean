import Verif.DecodeLemmas

/-!
# A program logic for decoders: absence of faults

`SafeAt mem H c m Q`: running `m` at offset `c` of a message of `H` bytes in the buffer `mem` never
faults, keeps the buffer, moves forward, and on success satisfies `Q` (result, new offset).
-/

namespace Fuse

/-- See the file comment. -/
def SafeAt {α} (mem : Bytes) (H c : Nat) (m : DecM α) (Q : α → Nat → Prop) : Prop :=
  (Decoder.mk mem H c).Ok →
    match m ⟨mem, H, c⟩ with
    | .ok (a, d') => ∃ c', d' = ⟨mem, H, c'⟩ ∧ d'.Ok ∧ c ≤ c' ∧ Q a c'
    | .error (.req _) => True
    | .error (.fault _) => False

variable {α β : Type} {mem : Bytes} {H c : Nat}

theorem SafeAt.mono {m : DecM α} {Q Q' : α → Nat → Prop} (h : SafeAt mem H c m Q)
    (hQ : ∀ a c', Q a c' → Q' a c') : SafeAt mem H c m Q' := by
  intro hok
  have := h hok
  split at this
  · obtain ⟨c', h1, h2, h3, h4⟩ := this
    exact ⟨c', h1, h2, h3, hQ _ _ h4⟩
  · trivial
  · exact this

theorem SafeAt.bind {m : DecM α} {f : α → DecM β} {Q : α → Nat → Prop} {R : β → Nat → Prop}
    (hm : SafeAt mem H c m Q) (hf : ∀ a c', c ≤ c' → Q a c' → SafeAt mem H c' (f a) R) :
    SafeAt mem H c (m >>= f) R := by
  intro hok
  have h1 := hm hok
  simp only [Bind.bind, StateT.bind]
  split at h1
  · rename_i a d' heq
    obtain ⟨c', rfl, h2, h3, h4⟩ := h1
    have h5 := hf a c' h3 h4 h2
    rw [heq]
    simp only [Except.bind]
    split at h5
    · obtain ⟨c2, h6, h7, h8, h9⟩ := h5
      exact ⟨c2, h6, h7, by omega, h9⟩
    · trivial
    · exact h5.elim
  · rename_i heq; rw [heq]; simp only [Except.bind]
  · exact h1.elim

theorem SafeAt.pure {a : α} {Q : α → Nat → Prop} (h : Q a c) :
    SafeAt mem H c (Pure.pure a) Q := fun hok => ⟨c, rfl, hok, Nat.le_refl _, h⟩

theorem SafeAt.map {m : DecM α} {f : α → β} {Q : β → Nat → Prop}
    (h : SafeAt mem H c m (fun a c' => Q (f a) c')) : SafeAt mem H c (f <$> m) Q := by
  rw [map_eq_pure_bind]
  exact h.bind (fun a c' _ hq => SafeAt.pure hq)

theorem SafeAt.throwReq {e : RequestError} {Q : α → Nat → Prop} :
    SafeAt mem H c (DecM.throwReq e) Q := fun _ => trivial

theorem SafeAt.header_bind {f : FuseInHeader → DecM β} {R}
    (hf : SafeAt mem H c (f (dec (mem.take 40))) R) : SafeAt mem H c (header >>= f) R := by
  refine SafeAt.bind (Q := fun h c' => c' = c ∧ h = dec (mem.take 40)) ?_ ?_
  · intro hok
    rw [header_eq hok]
    exact ⟨c, rfl, hok, Nat.le_refl _, rfl, rfl⟩
  · rintro a c' _ ⟨rfl, rfl⟩; exact hf

theorem SafeAt.expectOpcode_bind {op : UInt32} {f : Unit → DecM β} {R}
    (hf : (dec (mem.take 40) : FuseInHeader).opcode = op → SafeAt mem H c (f ()) R) :
    SafeAt mem H c (expectOpcode op >>= f) R := by
  simp only [expectOpcode, bind_assoc]
  apply SafeAt.header_bind
  split
  · exact SafeAt.bind (Q := fun _ _ => False) (fun _ => trivial) (fun _ _ _ h => h.elim)
  · rename_i h
    rw [pure_bind]
    exact hf (by simpa using h)

theorem SafeAt.nodeId_bind {raw : UInt64} {f : NodeId → DecM β} {R}
    (hf : ∀ h : raw ≠ 0, SafeAt mem H c (f ⟨raw, h⟩) R) :
    SafeAt mem H c (nodeId raw >>= f) R := by
  unfold nodeId NodeId.new NonZeroU64.new
  by_cases h : raw ≠ 0
  · rw [dif_pos h]
    simp only [pure_bind]
    exact hf h
  · rw [dif_neg h]
    exact SafeAt.bind (Q := fun _ _ => False) (fun _ => trivial) (fun _ _ _ h => h.elim)

theorem SafeAt.nextSized_bind_val {T : Type} [Wire T] {f : T → DecM β} {R}
    (hs : Wire.size T < 2 ^ 32) (ha : c % Wire.align T = 0)
    (hf : c + Wire.size T ≤ H → SafeAt mem H (c + Wire.size T)
      (f (dec (((mem.take H).drop c).take (Wire.size T)))) R) :
    SafeAt mem H c (nextSized T >>= f) R := by
  refine SafeAt.bind (Q := fun x c' => x = dec (((mem.take H).drop c).take (Wire.size T)) ∧
    c' = c + Wire.size T ∧ c + Wire.size T ≤ H) ?_ ?_
  · intro hok
    rw [nextSized_eq hok T hs]
    simp only [ha, ↓reduceIte]
    split
    · rename_i a d' heq
      split at heq
      · rename_i hle
        simp only [Except.ok.injEq, Prod.mk.injEq] at heq
        exact ⟨c + Wire.size T, heq.2.symm, heq.2 ▸ hok.adv hle, by omega, heq.1.symm, rfl, hle⟩
      · cases heq
    · trivial
    · rename_i heq; split at heq <;> cases heq
  · rintro a c' _ ⟨rfl, rfl, h⟩; exact hf h

theorem SafeAt.nextSized_bind {T : Type} [Wire T] {f : T → DecM β} {R}
    (hs : Wire.size T < 2 ^ 32) (ha : c % Wire.align T = 0)
    (hf : ∀ x : T, c + Wire.size T ≤ H → SafeAt mem H (c + Wire.size T) (f x) R) :
    SafeAt mem H c (nextSized T >>= f) R := SafeAt.nextSized_bind_val hs ha (hf _)

theorem SafeAt.peekSized_bind {T : Type} [Wire T] {f : T → DecM β} {R}
    (hs : Wire.size T < 2 ^ 32) (ha : c % Wire.align T = 0)
    (hf : ∀ x : T, c + Wire.size T ≤ H → SafeAt mem H c (f x) R) :
    SafeAt mem H c (peekSized T >>= f) R := by
  refine SafeAt.bind (Q := fun x c' => c' = c ∧ c + Wire.size T ≤ H) ?_ ?_
  · intro hok
    rw [peekSized_eq hok T hs]
    simp only [ha, ↓reduceIte]
    split
    · rename_i a d' heq
      split at heq
      · rename_i hle
        simp only [Except.ok.injEq, Prod.mk.injEq] at heq
        exact ⟨c, heq.2.symm, heq.2 ▸ hok, by omega, rfl, hle⟩
      · cases heq
    · trivial
    · rename_i heq; split at heq <;> cases heq
  · rintro a c' _ ⟨rfl, h⟩; exact hf a h

theorem SafeAt.nextBytes_bind {n : UInt32} {f : Bytes → DecM β} {R}
    (hf : ∀ bs, bs.length = n.toNat → c + n.toNat ≤ H → SafeAt mem H (c + n.toNat) (f bs) R) :
    SafeAt mem H c (nextBytes n >>= f) R := by
  refine SafeAt.bind (Q := fun x c' => c' = c + n.toNat ∧ c + n.toNat ≤ H ∧
    x.length = n.toNat) ?_ ?_
  · intro hok
    rw [nextBytes_eq hok n]
    have hl := hok.rest_length
    simp only at hl ⊢
    split
    · rename_i a d' heq
      split at heq
      · rename_i hle
        simp only [Except.ok.injEq, Prod.mk.injEq] at heq
        refine ⟨c + n.toNat, heq.2.symm, heq.2 ▸ hok.adv hle, by omega, rfl, hle, ?_⟩
        rw [← heq.1, List.length_take, hl]; omega
      · cases heq
    · trivial
    · rename_i heq; split at heq <;> cases heq
  · rintro a c' _ ⟨rfl, h1, h2⟩; exact hf a h2 h1

theorem nameSpec_ok {bs : Bytes} {name n} (h : nameSpec bs = .ok (name, n)) :
    NodeName.Valid name.bytes ∧ n = name.bytes.length + 1 ∧ n ≤ bs.length ∧
      ∃ r, bs = name.bytes ++ 0 :: r := by
  simp only [nameSpec] at h
  split at h
  · cases h
  · rename_i c r heq
    split at h
    · cases h
    · split at h
      · cases h
      · rename_i h1 h2
        simp only [Except.ok.injEq, Prod.mk.injEq] at h
        obtain ⟨rfl, rfl⟩ := h
        have hsplit := List.takeWhile_append_dropWhile (p := fun b : UInt8 => decide (b ≠ 0 ∧ b ≠ 0x2F)) (l := bs)
        rw [heq] at hsplit
        have hmem : ∀ b ∈ bs.takeWhile (fun b : UInt8 => decide (b ≠ 0 ∧ b ≠ 0x2F)), b ≠ 0 ∧ b ≠ 0x2F := by
          intro b hb
          have := List.all_takeWhile (p := fun b : UInt8 => decide (b ≠ 0 ∧ b ≠ 0x2F)) (l := bs)
          rw [List.all_eq_true] at this
          simpa using this b hb
        have hc : c = 0 := by
          have := List.head?_dropWhile_not (fun b : UInt8 => decide (b ≠ 0 ∧ b ≠ 0x2F)) bs
          rw [heq] at this
          simp only [List.head?_cons] at this
          by_cases hc : c = 0
          · exact hc
          · simp [hc, h1] at this
        subst hc
        refine ⟨⟨h2, fun hm => (hmem _ hm).1 rfl, fun hm => (hmem _ hm).2 rfl⟩, rfl, ?_, r, hsplit.symm⟩
        conv => rhs; rw [← hsplit]
        simp

theorem SafeAt.nextNodeName_bind {f : NodeName → DecM β} {R}
    (hf : ∀ name c', NodeName.Valid name.bytes → c' ≤ H → SafeAt mem H c' (f name) R) :
    SafeAt mem H c (nextNodeName >>= f) R := by
  refine SafeAt.bind (Q := fun x c' => c' ≤ H ∧ NodeName.Valid x.bytes) ?_ ?_
  · intro hok
    rw [nextNodeName_eq hok]
    have hl := hok.rest_length
    simp only at hl
    cases hsp : nameSpec (Decoder.rest ⟨mem, H, c⟩) with
    | error e => trivial
    | ok p =>
      obtain ⟨name, n⟩ := p
      obtain ⟨h1, h2, h3, _⟩ := nameSpec_ok hsp
      rw [hl] at h3
      exact ⟨c + n, rfl, hok.adv (by simp only; omega), by omega, by omega, h1⟩
  · rintro a c' _ ⟨h1, h2⟩; exact hf a c' h2 h1

theorem cstrSpec_ok {bs : Bytes} {s n} (h : cstrSpec bs = .ok (s, n)) :
    0 ∉ s.bytes ∧ n ≤ bs.length ∧ (∃ r, bs = s.bytes ++ 0 :: r) ∧
      (n = if s.bytes = [] then 0 else s.bytes.length + 1) := by
  simp only [cstrSpec] at h
  split at h
  · cases h
  · rename_i c r heq
    have hsplit := List.takeWhile_append_dropWhile (p := fun b : UInt8 => decide (b ≠ 0)) (l := bs)
    rw [heq] at hsplit
    have hmem : ∀ b ∈ bs.takeWhile (fun b : UInt8 => decide (b ≠ 0)), b ≠ 0 := by
      intro b hb
      have := List.all_takeWhile (p := fun b : UInt8 => decide (b ≠ 0)) (l := bs)
      rw [List.all_eq_true] at this
      simpa using this b hb
    have hc : c = 0 := by
      have := List.head?_dropWhile_not (fun b : UInt8 => decide (b ≠ 0)) bs
      rw [heq] at this
      simpa using this
    subst hc
    split at h
    · rename_i h1
      rw [h1] at hsplit
      simp only [Except.ok.injEq, Prod.mk.injEq] at h
      obtain ⟨rfl, rfl⟩ := h
      exact ⟨by simp, by omega, ⟨r, hsplit.symm⟩, by simp⟩
    · rename_i h1
      simp only [Except.ok.injEq, Prod.mk.injEq] at h
      obtain ⟨rfl, rfl⟩ := h
      refine ⟨fun hm => hmem _ hm rfl, ?_, ⟨r, hsplit.symm⟩, by rw [if_neg h1]⟩
      conv => rhs; rw [← hsplit]
      simp

theorem SafeAt.nextCstr_bind {f : CStr → DecM β} {R}
    (hf : ∀ s c', 0 ∉ s.bytes → (c ≤ H → c' ≤ H) → SafeAt mem H c' (f s) R) :
    SafeAt mem H c (nextCstr >>= f) R := by
  refine SafeAt.bind (Q := fun x c' => (c ≤ H → c' ≤ H) ∧ 0 ∉ x.bytes) ?_ ?_
  · intro hok
    rw [nextCstr_eq hok]
    have hl := hok.rest_length
    simp only at hl
    cases hsp : cstrSpec (Decoder.rest ⟨mem, H, c⟩) with
    | error e => trivial
    | ok p =>
      obtain ⟨s, n⟩ := p
      obtain ⟨h1, h3, ⟨r, hr⟩, _⟩ := cstrSpec_ok hsp
      have h4 : 0 < (Decoder.rest ⟨mem, H, c⟩).length := by
        rw [hr]; exact List.length_append ▸ Nat.lt_of_lt_of_le (Nat.succ_pos _) (Nat.le_add_left _ _)
      rw [hl] at h3 h4
      exact ⟨c + n, rfl, hok.adv (by simp only; omega), by omega, by omega, h1⟩
  · rintro a c' _ ⟨h1, h2⟩; exact hf a c' h2 h1

theorem SafeAt.checkTimespecNanos_bind {n : UInt32} {f : Unit → DecM β} {R}
    (hf : n ≤ MAX_NANOS → SafeAt mem H c (f ()) R) :
    SafeAt mem H c (checkTimespecNanos n >>= f) R := by
  unfold checkTimespecNanos
  split
  · exact SafeAt.bind (Q := fun _ _ => False) (fun _ => trivial) (fun _ _ _ h => h.elim)
  · rename_i h
    rw [pure_bind]
    exact hf (by simpa using h)

theorem SafeAt.ofRes_bind {x : Res α} {f : α → DecM β} {R} (hx : ∀ e, x ≠ .error (.fault e))
    (hf : ∀ a, x = .ok a → SafeAt mem H c (f a) R) :
    SafeAt mem H c (DecM.ofRes x >>= f) R := by
  refine SafeAt.bind (Q := fun a c' => c' = c ∧ x = .ok a) ?_ ?_
  · intro hok
    cases x with
    | ok a => exact ⟨c, rfl, hok, Nat.le_refl _, rfl, rfl⟩
    | error e =>
      cases e with
      | req e => trivial
      | fault e => exact absurd rfl (hx e)
  · rintro a c' _ ⟨rfl, h⟩; exact hf a h

theorem SafeAt.ofFault_bind {x : Except Fault α} {a : α} {f : α → DecM β} {R} (hx : x = .ok a)
    (hf : SafeAt mem H c (f a) R) : SafeAt mem H c (DecM.ofFault x >>= f) R := by
  subst hx
  refine SafeAt.bind (Q := fun b c' => c' = c ∧ b = a) ?_ ?_
  · intro hok
    exact ⟨c, rfl, hok, Nat.le_refl _, rfl, rfl⟩
  · rintro a c' _ ⟨rfl, rfl⟩; exact hf

theorem SafeAt.get_bind {f : Decoder → DecM β} {R}
    (hf : SafeAt mem H c (f ⟨mem, H, c⟩) R) : SafeAt mem H c (MonadState.get >>= f) R := hf

theorem SafeAt.ok {m : DecM α} {Q} (h : (Decoder.mk mem H c).Ok → SafeAt mem H c m Q) :
    SafeAt mem H c m Q := fun hok => h hok hok

end Fuse
