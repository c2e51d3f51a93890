import Verif.DecodeSafe

/-!
# A relational logic for decoders

Two runs of a decoder are compared: one on a message of `H1` bytes in buffer `mem1`, one on a
message of `H2 ≤ H1` bytes in buffer `mem2`, where the two messages have the same header (except
for the length field) and the same body up to the shorter length.  With `H1 = H2` this gives
independence of the bytes after the message; with `H2 < H1` it gives rejection of truncated
messages.
-/

namespace Fuse

/-- Two received messages agreeing up to the length of the second one. -/
structure Rel (mem1 : Bytes) (H1 : Nat) (mem2 : Bytes) (H2 : Nat) : Prop where
  le : H2 ≤ H1
  lt : H1 < 2 ^ 32
  ok1 : H1 ≤ mem1.length
  ok2 : H2 ≤ mem2.length
  hdr1 : 40 ≤ mem1.length
  hdr2 : 40 ≤ mem2.length
  hdr : ∃ l, (dec (mem2.take 40) : FuseInHeader) = { (dec (mem1.take 40) : FuseInHeader) with len := l } ∧
    (H1 = H2 → l = (dec (mem1.take 40) : FuseInHeader).len)
  full : H1 = H2 → mem1.take H1 = mem2.take H2
  body : (mem2.take H2).drop 40 = ((mem1.take H1).drop 40).take (H2 - 40)

variable {α β : Type} {mem1 mem2 : Bytes} {H1 H2 : Nat}

theorem Rel.okA (r : Rel mem1 H1 mem2 H2) {c : Nat} (hc : c < 2 ^ 32 + 40) :
    (Decoder.mk mem1 H1 c).Ok := ⟨r.ok1, r.lt, r.hdr1, hc⟩

theorem Rel.okB (r : Rel mem1 H1 mem2 H2) {c : Nat} (hc : c < 2 ^ 32 + 40) :
    (Decoder.mk mem2 H2 c).Ok := ⟨r.ok2, by have := r.le; have := r.lt; show H2 < _; omega, r.hdr2, hc⟩

theorem Rel.rest (r : Rel mem1 H1 mem2 H2) {c : Nat} (hc : 40 ≤ c) :
    (Decoder.mk mem2 H2 c).rest = (Decoder.mk mem1 H1 c).rest.take (H2 - c) := by
  simp only [Decoder.rest]
  have h1 : (mem2.take H2).drop c = ((mem2.take H2).drop 40).drop (c - 40) := by
    rw [List.drop_drop]; congr 1; omega
  have h2 : (mem1.take H1).drop c = ((mem1.take H1).drop 40).drop (c - 40) := by
    rw [List.drop_drop]; congr 1; omega
  rw [h1, h2, r.body, List.drop_take]
  congr 1; omega

/-- The relation between the two runs; see the file comment. -/
def Sim (mem1 : Bytes) (H1 : Nat) (mem2 : Bytes) (H2 : Nat) (R : α → β → Prop)
    (m1 : DecM α) (m2 : DecM β) : Prop :=
  ∀ c, 40 ≤ c → c < 2 ^ 32 + 40 → (c ≤ H2 ∨ H1 = H2) →
    match m1 ⟨mem1, H1, c⟩ with
    | .ok (a, d') =>
      (∃ c' b, d' = ⟨mem1, H1, c'⟩ ∧ c ≤ c' ∧ c' < 2 ^ 32 + 40 ∧ (c' ≤ H2 ∨ H1 = H2) ∧
        m2 ⟨mem2, H2, c⟩ = .ok (b, ⟨mem2, H2, c'⟩) ∧ R a b) ∨
      (H2 < H1 ∧ m2 ⟨mem2, H2, c⟩ = .error (.req .unexpectedEof))
    | .error x => H1 = H2 → m2 ⟨mem2, H2, c⟩ = .error x

theorem Sim.bind {α' : Type} {S : β → β → Prop} {R : α → α' → Prop} {m1 : DecM α} {m2 : DecM α'}
    {f : α → DecM β} {g : α' → DecM β} (hm : Sim mem1 H1 mem2 H2 R m1 m2)
    (hf : ∀ a b, R a b → Sim mem1 H1 mem2 H2 S (f a) (g b)) :
    Sim mem1 H1 mem2 H2 S (m1 >>= f) (m2 >>= g) := by
  intro c hc1 hc2 hc3
  have h1 := hm c hc1 hc2 hc3
  simp only [Bind.bind, StateT.bind]
  cases hmc : m1 ⟨mem1, H1, c⟩ with
  | error e =>
    rw [hmc] at h1
    intro heq
    rw [h1 heq]; rfl
  | ok p =>
    obtain ⟨a, d1⟩ := p
    rw [hmc] at h1
    simp only [Except.bind] at h1 ⊢
    rcases h1 with ⟨c1, b, rfl, hc4, hc5, hle, hm2, hR⟩ | ⟨h3, h4⟩
    · rw [hm2]
      have := hf a b hR c1 (by omega) hc5 hle
      cases hfa : f a ⟨mem1, H1, c1⟩ with
      | error e => rw [hfa] at this; exact this
      | ok q =>
        obtain ⟨b', d2⟩ := q
        rw [hfa] at this
        rcases this with ⟨c2, b, rfl, h1, h2, h3, h4, h5⟩ | h
        · exact Or.inl ⟨c2, b, rfl, by omega, h2, h3, h4, h5⟩
        · exact Or.inr h
    · rw [h4]
      cases hfa : f a ⟨mem1, H1, d1.consumed⟩ <;> cases hfb : f a d1
      all_goals first
        | exact Or.inr ⟨h3, rfl⟩
        | (intro h; omega)

theorem Sim.bind_eq {S : β → β → Prop} {m : DecM α}
    {f : α → DecM β} {g : α → DecM β} (hm : Sim mem1 H1 mem2 H2 Eq m m)
    (hf : ∀ a, Sim mem1 H1 mem2 H2 S (f a) (g a)) :
    Sim mem1 H1 mem2 H2 S (m >>= f) (m >>= g) :=
  Sim.bind hm (fun a _ h => h ▸ hf a)

theorem Sim.pure {S : α → β → Prop} {a b} (h : S a b) :
    Sim mem1 H1 mem2 H2 S (Pure.pure a) (Pure.pure b) :=
  fun c _ h2 hc => Or.inl ⟨c, b, rfl, Nat.le_refl _, h2, hc, rfl, h⟩

theorem Sim.map {γ : Type} {S : γ → γ → Prop} {m1 m2 : DecM α} {f : α → γ}
    (h : Sim mem1 H1 mem2 H2 (fun a b => S (f a) (f b)) m1 m2) :
    Sim mem1 H1 mem2 H2 S (f <$> m1) (f <$> m2) := by
  rw [map_eq_pure_bind, map_eq_pure_bind]
  exact Sim.bind h (fun _ _ hr => Sim.pure hr)

theorem Sim.throwReq {S : α → β → Prop} {e} :
    Sim mem1 H1 mem2 H2 S (DecM.throwReq e) (DecM.throwReq e) :=
  fun _ _ _ _ _ => rfl

theorem Sim.throwReq_bind {S : β → β → Prop} {e} {f g : α → DecM β} :
    Sim mem1 H1 mem2 H2 S (DecM.throwReq e >>= f) (DecM.throwReq e >>= g) :=
  fun _ _ _ _ _ => rfl

theorem Sim.ite {S : α → β → Prop} {p : Prop} [Decidable p] {m1 m1' : DecM α} {m2 m2' : DecM β}
    (ht : p → Sim mem1 H1 mem2 H2 S m1 m2) (he : ¬ p → Sim mem1 H1 mem2 H2 S m1' m2') :
    Sim mem1 H1 mem2 H2 S (if p then m1 else m1') (if p then m2 else m2') := by
  by_cases h : p
  · rw [if_pos h, if_pos h]; exact ht h
  · rw [if_neg h, if_neg h]; exact he h

theorem Sim.header_bind {S : β → β → Prop} {f g : FuseInHeader → DecM β}
    (r : Rel mem1 H1 mem2 H2)
    (hf : ∀ h l, (H1 = H2 → l = h.len) → Sim mem1 H1 mem2 H2 S (f h) (g { h with len := l })) :
    Sim mem1 H1 mem2 H2 S (header >>= f) (header >>= g) := by
  obtain ⟨l, h1, h2⟩ := r.hdr
  refine Sim.bind (R := fun h h' => h' = { h with len := l } ∧ (H1 = H2 → l = h.len)) ?_ ?_
  · intro c _ hc hle
    rw [header_eq (r.okA hc), header_eq (r.okB hc)]
    exact Or.inl ⟨c, _, rfl, Nat.le_refl _, hc, hle, rfl, h1, h2⟩
  · rintro a b ⟨rfl, h⟩
    exact hf a l h

theorem Sim.nodeId {raw : UInt64} : Sim mem1 H1 mem2 H2 Eq (nodeId raw) (nodeId raw) := by
  unfold Fuse.nodeId
  split
  · exact Sim.pure rfl
  · exact Sim.throwReq

theorem Sim.checkTimespecNanos {n : UInt32} :
    Sim mem1 H1 mem2 H2 Eq (checkTimespecNanos n) (checkTimespecNanos n) := by
  unfold Fuse.checkTimespecNanos
  split
  · exact Sim.throwReq
  · exact Sim.pure rfl

theorem Sim.ofRes {x : Res α} : Sim mem1 H1 mem2 H2 Eq (DecM.ofRes x) (DecM.ofRes x) := by
  cases x with
  | ok a => exact Sim.pure rfl
  | error e => exact fun _ _ _ _ _ => rfl

theorem Sim.ofFault {x : Except Fault α} :
    Sim mem1 H1 mem2 H2 Eq (DecM.ofFault x) (DecM.ofFault x) := by
  cases x with
  | ok a => exact Sim.pure rfl
  | error e => exact fun _ _ _ _ _ => rfl

theorem Sim.expectOpcode_bind {S : β → β → Prop} {op : UInt32} {f g : Unit → DecM β}
    (r : Rel mem1 H1 mem2 H2) (hf : Sim mem1 H1 mem2 H2 S (f ()) (g ())) :
    Sim mem1 H1 mem2 H2 S (expectOpcode op >>= f) (expectOpcode op >>= g) := by
  simp only [expectOpcode, bind_assoc]
  refine Sim.header_bind r (fun h l _ => ?_)
  split
  · exact Sim.throwReq_bind
  · rw [pure_bind, pure_bind]; exact hf

theorem Sim.nextSized (r : Rel mem1 H1 mem2 H2) {T : Type} [Wire T] (hs : Wire.size T < 2 ^ 32) :
    Sim mem1 H1 mem2 H2 Eq (nextSized T) (nextSized T) := by
  intro c h40 hc hle
  rw [nextSized_eq (r.okA hc) T hs, nextSized_eq (r.okB hc) T hs, r.rest h40]
  simp only
  have hr := r.le
  have hlt := r.lt
  by_cases h1 : c + Wire.size T ≤ H1
  · by_cases ha : c % Wire.align T = 0
    · simp only [h1, ha, ↓reduceIte]
      by_cases h2 : c + Wire.size T ≤ H2
      · left
        refine ⟨c + Wire.size T, _, rfl, by omega, by omega, Or.inl (by omega), ?_, rfl⟩
        rw [if_pos h2, List.take_take, Nat.min_eq_left (by omega)]
        rfl
      · right
        rw [if_neg h2]
        exact ⟨by omega, rfl⟩
    · simp only [h1, ha, ↓reduceIte]
      intro heq
      rw [if_pos (by omega)]
  · simp only [h1, ↓reduceIte]
    intro heq
    rw [if_neg (by omega)]

theorem Sim.peekSized (r : Rel mem1 H1 mem2 H2) {T : Type} [Wire T] (hs : Wire.size T < 2 ^ 32) :
    Sim mem1 H1 mem2 H2 Eq (peekSized T) (peekSized T) := by
  intro c h40 hc hle
  rw [peekSized_eq (r.okA hc) T hs, peekSized_eq (r.okB hc) T hs, r.rest h40]
  simp only
  have hr := r.le
  have hlt := r.lt
  by_cases h1 : c + Wire.size T ≤ H1
  · by_cases ha : c % Wire.align T = 0
    · simp only [h1, ha, ↓reduceIte]
      by_cases h2 : c + Wire.size T ≤ H2
      · left
        refine ⟨c, _, rfl, by omega, by omega, Or.inl (by omega), ?_, rfl⟩
        rw [if_pos h2, List.take_take, Nat.min_eq_left (by omega)]
      · right
        rw [if_neg h2]
        exact ⟨by omega, rfl⟩
    · simp only [h1, ha, ↓reduceIte]
      intro heq
      rw [if_pos (by omega)]
  · simp only [h1, ↓reduceIte]
    intro heq
    rw [if_neg (by omega)]

theorem Sim.nextBytes (r : Rel mem1 H1 mem2 H2) {n : UInt32} :
    Sim mem1 H1 mem2 H2 Eq (nextBytes n) (nextBytes n) := by
  intro c h40 hc hle
  rw [nextBytes_eq (r.okA hc), nextBytes_eq (r.okB hc), r.rest h40]
  simp only
  have hr := r.le
  have hlt := r.lt
  by_cases h1 : c + n.toNat ≤ H1
  · simp only [h1, ↓reduceIte]
    by_cases h2 : c + n.toNat ≤ H2
    · left
      refine ⟨c + n.toNat, _, rfl, by omega, by omega, Or.inl h2, ?_, rfl⟩
      rw [if_pos h2, List.take_take, Nat.min_eq_left (by omega)]
      rfl
    · right
      rw [if_neg h2]
      exact ⟨by omega, rfl⟩
  · simp only [h1, ↓reduceIte]
    intro heq
    rw [if_neg (by omega)]

/-! Truncating the bytes seen by `nameSpec`/`cstrSpec`. -/

theorem dropWhile_split {p : UInt8 → Bool} {x r : Bytes} {c : UInt8} (hx : ∀ b ∈ x, p b = true)
    (hc : p c = false) : (x ++ c :: r).dropWhile p = c :: r ∧ (x ++ c :: r).takeWhile p = x := by
  induction x with
  | nil => simp [hc]
  | cons b x ih =>
    have hb := hx b (by simp)
    have := ih (fun b hb => hx b (by simp [hb]))
    simp [hb, this.1, this.2]

theorem all_dropWhile {p : UInt8 → Bool} {x : Bytes} (hx : ∀ b ∈ x, p b = true) :
    x.dropWhile p = [] := by
  induction x with
  | nil => rfl
  | cons b x ih => simp [hx b (by simp), ih (fun b hb => hx b (by simp [hb]))]

theorem nameSpec_of {name r : Bytes} (h : NodeName.Valid name) :
    nameSpec (name ++ 0 :: r) = .ok (⟨name⟩, name.length + 1) := by
  have h1 := dropWhile_split (p := fun b : UInt8 => decide (b ≠ 0 ∧ b ≠ 0x2F)) (x := name) (c := 0) (r := r)
    (fun b hb => by
      simp only [decide_eq_true_eq]
      exact ⟨fun hz => h.2.1 (hz ▸ hb), fun hz => h.2.2 (hz ▸ hb)⟩) (by simp)
  simp only [nameSpec, h1.1, h1.2, h.1, ↓reduceIte]
  rw [if_neg (by decide)]

theorem cstrSpec_of {s r : Bytes} (h : 0 ∉ s) (hne : s ≠ []) :
    cstrSpec (s ++ 0 :: r) = .ok (⟨s⟩, s.length + 1) := by
  have h1 := dropWhile_split (p := fun b : UInt8 => decide (b ≠ 0)) (x := s) (c := 0) (r := r)
    (fun b hb => by simp only [decide_eq_true_eq]; exact fun hz => h (hz ▸ hb)) (by simp)
  simp only [cstrSpec, h1.1, h1.2, hne, ↓reduceIte]

theorem cstrSpec_empty {r : Bytes} : cstrSpec (0 :: r) = .ok (⟨[]⟩, 0) := by
  simp [cstrSpec]

theorem nameSpec_take {bs : Bytes} {name n} (h : nameSpec bs = .ok (name, n)) (k : Nat) :
    nameSpec (bs.take k) = if n ≤ k then .ok (name, n) else .error .unexpectedEof := by
  obtain ⟨hv, hn, _, r, hr⟩ := nameSpec_ok h
  subst hn
  split
  · rename_i hk
    have : bs.take k = name.bytes ++ 0 :: r.take (k - (name.bytes.length + 1)) := by
      rw [hr, List.take_append, List.take_of_length_le (by omega)]
      congr 1
      rw [show k - name.bytes.length = (k - (name.bytes.length + 1)) + 1 by omega, List.take_succ_cons]
    rw [this, nameSpec_of hv]
  · rename_i hk
    have : bs.take k = name.bytes.take k := by
      rw [hr, List.take_append, show k - name.bytes.length = 0 by omega]; simp
    rw [this]
    have h1 := all_dropWhile (p := fun b : UInt8 => decide (b ≠ 0 ∧ b ≠ 0x2F)) (x := name.bytes.take k)
      (fun b hb => by
        have hb' := List.mem_of_mem_take hb
        simp only [decide_eq_true_eq]
        exact ⟨fun hz => hv.2.1 (hz ▸ hb'), fun hz => hv.2.2 (hz ▸ hb')⟩)
    simp only [nameSpec, h1]

theorem cstrSpec_take {bs : Bytes} {s n} (h : cstrSpec bs = .ok (s, n)) (k : Nat) :
    cstrSpec (bs.take k) = if s.bytes.length + 1 ≤ k then .ok (s, n) else .error .unexpectedEof := by
  obtain ⟨hv, _, ⟨r, hr⟩, hn⟩ := cstrSpec_ok h
  split
  · rename_i hk
    have : bs.take k = s.bytes ++ 0 :: r.take (k - (s.bytes.length + 1)) := by
      rw [hr, List.take_append, List.take_of_length_le (by omega)]
      congr 1
      rw [show k - s.bytes.length = (k - (s.bytes.length + 1)) + 1 by omega, List.take_succ_cons]
    by_cases hs : s.bytes = []
    · rw [this, hs, List.nil_append, cstrSpec_empty, hn, if_pos hs]
      cases s; simp_all
    · rw [this, cstrSpec_of hv hs, hn, if_neg hs]
  · rename_i hk
    have : bs.take k = s.bytes.take k := by
      rw [hr, List.take_append, show k - s.bytes.length = 0 by omega]; simp
    rw [this]
    have h1 := all_dropWhile (p := fun b : UInt8 => decide (b ≠ 0)) (x := s.bytes.take k)
      (fun b hb => by
        have hb' := List.mem_of_mem_take hb
        simp only [decide_eq_true_eq]
        exact fun hz => hv (hz ▸ hb'))
    simp only [cstrSpec, h1]

theorem Sim.nextNodeName (r : Rel mem1 H1 mem2 H2) :
    Sim mem1 H1 mem2 H2 Eq nextNodeName nextNodeName := by
  intro c h40 hc hle
  have hok := r.okA hc
  have hl := hok.rest_length
  simp only at hl
  rw [nextNodeName_eq hok, nextNodeName_eq (r.okB hc), r.rest h40]
  have hr := r.le
  have hlt := r.lt
  cases hsp : nameSpec (Decoder.rest ⟨mem1, H1, c⟩) with
  | ok p =>
    obtain ⟨name, n⟩ := p
    obtain ⟨_, h1, h2, h3⟩ := nameSpec_ok hsp
    rw [nameSpec_take hsp]
    simp only
    by_cases hk : n ≤ H2 - c
    · left
      rw [if_pos hk]
      exact ⟨c + n, name, rfl, by omega, by omega, Or.inl (by omega), rfl, rfl⟩
    · right
      rw [if_neg hk]
      exact ⟨by omega, rfl⟩
  | error e =>
    intro heq
    rw [List.take_of_length_le (by omega), hsp]

theorem Sim.nextCstr (r : Rel mem1 H1 mem2 H2) :
    Sim mem1 H1 mem2 H2 Eq nextCstr nextCstr := by
  intro c h40 hc hle
  have hok := r.okA hc
  have hl := hok.rest_length
  simp only at hl
  rw [nextCstr_eq hok, nextCstr_eq (r.okB hc), r.rest h40]
  have hr := r.le
  have hlt := r.lt
  cases hsp : cstrSpec (Decoder.rest ⟨mem1, H1, c⟩) with
  | ok p =>
    obtain ⟨s, n⟩ := p
    obtain ⟨_, h1, ⟨x, hx⟩, h3⟩ := cstrSpec_ok hsp
    have h4 : s.bytes.length + 1 ≤ (Decoder.rest ⟨mem1, H1, c⟩).length := by
      rw [hx, List.length_append, List.length_cons]; omega
    have hn1 : n ≤ s.bytes.length + 1 := by rw [h3]; split <;> omega
    rw [cstrSpec_take hsp]
    simp only
    by_cases hk : s.bytes.length + 1 ≤ H2 - c
    · left
      rw [if_pos hk]
      exact ⟨c + n, s, rfl, by omega, by omega, Or.inl (by omega), rfl, rfl⟩
    · right
      rw [if_neg hk]
      exact ⟨by omega, rfl⟩
  | error e =>
    intro heq
    rw [List.take_of_length_le (by omega), hsp]

end Fuse
