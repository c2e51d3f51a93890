import Verif.VfsFacts

/-!
# Lookup counts over a history
-/

namespace Fuse

variable {ν φ η σ ε : Type}

open VfsEv

/-- How many items of a FORGET are about the node `i`. -/
def itemsFor (i : NodeId) (items : List ForgetItem) : Nat := items.countP fun x => decide (x.nodeId = i)

/-- How many lookups of the node `i` a FORGET gives back. -/
def lookupsFor (i : NodeId) (items : List ForgetItem) : Nat :=
  (items.map fun x => if x.nodeId = i then x.lookupCount.toNat else 0).sum

theorem itemsFor_le {i : NodeId} {items : List ForgetItem} (h : ∀ x ∈ items, x.lookupCount ≠ 0) :
    itemsFor i items ≤ lookupsFor i items := by
  induction items with
  | nil => exact Nat.le_refl _
  | cons x xs ih =>
    have h1 := ih fun y hy => h y (List.mem_cons_of_mem _ hy)
    have h2 : x.lookupCount.toNat ≠ 0 := fun h3 => h x List.mem_cons_self (UInt64.toNat_inj.mp h3)
    unfold itemsFor lookupsFor at *
    rw [List.countP_cons, List.map_cons, List.sum_cons]
    by_cases hx : x.nodeId = i
    · simp only [hx, decide_true, if_true]; omega
    · simp only [hx, decide_false, if_false]
      simpa using h1

/-- The number of lookups in an entry of the node map. -/
def entryCount : Option (NodeLookup ν) → Nat
  | some x => x.lookupCount.toNat
  | none => 0

/-- The number of lookups recorded for a node. -/
def Vfs.count (s : Vfs ν φ η σ) (i : NodeId) : Nat := entryCount (s.nodes i)

theorem satPred_toNat (n : UInt64) : (NodeMap.satPred n).toNat = n.toNat - 1 := by
  unfold NodeMap.satPred
  by_cases h : n = 0
  · subst h; rfl
  · rw [if_neg h]
    have h1 : n.toNat ≠ 0 := fun h3 => h (UInt64.toNat_inj.mp h3)
    have h2 : (1 : UInt64) ≤ n := by
      rw [UInt64.le_iff_toNat_le]
      show 1 ≤ _
      omega
    rw [UInt64.toNat_sub_of_le _ _ h2]
    rfl

theorem forgetOne_ne {m : NodeMap ν} {x : ForgetItem} {i : NodeId} (h : x.nodeId ≠ i) :
    m.forgetOne x i = m i := by
  unfold NodeMap.forgetOne
  cases hm : m x.nodeId with
  | none => rfl
  | some y =>
    dsimp only
    split
    · exact if_neg (Ne.symm h)
    · exact if_neg (Ne.symm h)

theorem forgetOne_count (m : NodeMap ν) (x : ForgetItem) :
    entryCount (m.forgetOne x x.nodeId) = entryCount (m x.nodeId) - 1 := by
  unfold NodeMap.forgetOne
  cases hm : m x.nodeId with
  | none => simp only [hm]; rfl
  | some y =>
    dsimp only
    have hp := satPred_toNat y.lookupCount
    split
    · rename_i h0
      rw [h0] at hp
      simp only [NodeMap.remove, if_true]
      show 0 = y.lookupCount.toNat - 1
      rw [← hp]; rfl
    · simp only [NodeMap.insert, if_true]
      exact hp

/-- What is left after forgetting was there before. -/
theorem forgetOne_some {m : NodeMap ν} {x : ForgetItem} {i : NodeId} {y} (h : m.forgetOne x i = some y) :
    ∃ z, m i = some z ∧ z.node = y.node ∧ (z = y ∨ y.lookupCount ≠ 0) := by
  by_cases hi : x.nodeId = i
  · unfold NodeMap.forgetOne at h
    subst hi
    cases hm : m x.nodeId with
    | none => simp only [hm] at h; cases h
    | some z =>
      simp only [hm] at h
      split at h
      · simp only [NodeMap.remove, if_true] at h; cases h
      · rename_i h0
        simp only [NodeMap.insert, if_true] at h
        cases h
        exact ⟨z, rfl, rfl, Or.inr h0⟩
  · rw [forgetOne_ne hi] at h
    exact ⟨y, h, rfl, Or.inl rfl⟩

theorem forget_count (m : NodeMap ν) (items : List ForgetItem) (i : NodeId) :
    entryCount (m.forget items i) = entryCount (m i) - itemsFor i items := by
  unfold NodeMap.forget
  induction items generalizing m with
  | nil => rfl
  | cons x xs ih =>
    rw [List.foldl_cons, ih]
    unfold itemsFor
    rw [List.countP_cons]
    by_cases hi : x.nodeId = i
    · subst hi
      rw [forgetOne_count]
      simp only [decide_true, if_true]
      omega
    · rw [forgetOne_ne hi]
      simp [hi]

theorem forget_some {m : NodeMap ν} {items : List ForgetItem} {i : NodeId} {y} (h : m.forget items i = some y) :
    ∃ z, m i = some z ∧ z.node = y.node ∧ (z = y ∨ y.lookupCount ≠ 0) := by
  unfold NodeMap.forget at h
  induction items generalizing m with
  | nil => exact ⟨y, h, rfl, Or.inl rfl⟩
  | cons x xs ih =>
    obtain ⟨z, h1, h2, h3⟩ := ih h
    obtain ⟨z', h4, h5, h6⟩ := forgetOne_some h1
    refine ⟨z', h4, h5.trans h2, ?_⟩
    rcases h3 with rfl | h3
    · exact h6
    · exact Or.inr h3

theorem forget_untouched {m : NodeMap ν} {items : List ForgetItem} {i : NodeId} (h : itemsFor i items = 0) :
    m.forget items i = m i := by
  unfold NodeMap.forget
  unfold itemsFor at h
  rw [List.countP_eq_zero] at h
  induction items generalizing m with
  | nil => rfl
  | cons x xs ih =>
    rw [List.foldl_cons, ih fun a ha => h a (List.mem_cons_of_mem _ ha),
      forgetOne_ne (by simpa using h x List.mem_cons_self)]

/-- Whether the event adds a lookup of the node `i`: 1 or 0. -/
def VfsEv.addsFor (i : NodeId) (e : VfsEv ν φ η ε) : Nat :=
  match e.adds with
  | some p => if p.1 = i then 1 else 0
  | none => 0

/-- How many items about the node `i` the event forgets. -/
def VfsEv.forgetsFor (i : NodeId) (e : VfsEv ν φ η ε) : Nat := itemsFor i e.forgets

section
variable {fs : Filesystem ν φ η σ ε} {hdr : FuseInHeader} {s s' : Vfs ν φ η σ} {e : VfsEv ν φ η ε}

theorem effect_nodes (h : e.Effect fs hdr s s') :
    s'.nodes = s.nodes ∨ (∃ i v, e = .added i v) ∨ ∃ items, e = .forgot items := by
  cases e <;> first
    | exact Or.inr (Or.inl ⟨_, _, rfl⟩)
    | exact Or.inr (Or.inr ⟨_, rfl⟩)
    | exact Or.inl (Called.nodes h)
    | exact Or.inl (Called.nodes h.2)
    | (left; rw [h.2])
    | (left; rw [h.2.2])

theorem effect_same (h : e.Effect fs hdr s s') (h1 : ∀ i v, e ≠ .added i v) (h2 : ∀ items, e ≠ .forgot items) :
    s'.nodes = s.nodes ∧ e.adds = none ∧ e.forgets = [] := by
  rcases effect_nodes h with h | ⟨i, v, h⟩ | ⟨items, h⟩
  · refine ⟨h, ?_, ?_⟩
    · cases e <;> first | rfl | exact absurd rfl (h1 _ _)
    · cases e <;> first | rfl | exact absurd rfl (h2 _)
  · exact absurd h (h1 _ _)
  · exact absurd h (h2 _)

/-- The effect of an event on a lookup count. -/
theorem effect_count (h : e.Effect fs hdr s s') (i : NodeId) :
    s'.count i = s.count i + e.addsFor i - e.forgetsFor i := by
  by_cases h1 : ∃ j v, e = .added j v
  · obtain ⟨j, v, rfl⟩ := h1
    obtain ⟨x, hs, hx⟩ := h
    rw [hs]
    by_cases hi : i = j
    · subst hi
      simp only [Vfs.count, VfsEv.addsFor, VfsEv.adds, VfsEv.forgetsFor, VfsEv.forgets, if_true]
      cases hn : s.nodes i with
      | none => rw [hn] at hx; subst hx; rfl
      | some y => rw [hn] at hx; exact hx.2
    · simp [Vfs.count, VfsEv.addsFor, VfsEv.adds, VfsEv.forgetsFor, VfsEv.forgets, itemsFor, hi, Ne.symm hi]
  · by_cases h2 : ∃ items, e = .forgot items
    · obtain ⟨items, rfl⟩ := h2
      rw [show s' = _ from h]
      exact forget_count _ _ _
    · obtain ⟨h3, h4, h5⟩ := effect_same h (fun i v he => h1 ⟨i, v, he⟩) (fun i he => h2 ⟨i, he⟩)
      unfold Vfs.count VfsEv.addsFor VfsEv.forgetsFor
      rw [h3, h4, h5]
      rfl

/-- Where an entry of the node map comes from. -/
theorem effect_entry (h : e.Effect fs hdr s s') {i y} (hy : s'.nodes i = some y) :
    (∃ z, s.nodes i = some z ∧ z.node = y.node ∧ (z = y ∨ y.lookupCount ≠ 0)) ∨
    (e.adds = some (i, y.node) ∧ y.lookupCount ≠ 0) := by
  by_cases h1 : ∃ j v, e = .added j v
  · obtain ⟨j, v, rfl⟩ := h1
    obtain ⟨x, hs, hx⟩ := h
    rw [hs] at hy
    by_cases hi : i = j
    · subst hi
      simp only [if_true] at hy
      cases hy
      cases hn : s.nodes i with
      | none => rw [hn] at hx; subst hx; exact Or.inr ⟨rfl, (by decide : (1 : UInt64) ≠ 0)⟩
      | some z =>
        rw [hn] at hx
        refine Or.inl ⟨z, rfl, hx.1.symm, Or.inr fun h0 => ?_⟩
        have := hx.2
        rw [h0] at this
        cases this
    · simp only [if_neg hi] at hy
      exact Or.inl ⟨y, hy, rfl, Or.inl rfl⟩
  · by_cases h2 : ∃ items, e = .forgot items
    · obtain ⟨items, rfl⟩ := h2
      rw [show s' = _ from h] at hy
      exact Or.inl (forget_some hy)
    · obtain ⟨h3, h4, h5⟩ := effect_same h (fun i v he => h1 ⟨i, v, he⟩) (fun i he => h2 ⟨i, he⟩)
      rw [h3] at hy
      exact Or.inl ⟨y, hy, rfl, Or.inl rfl⟩

/-- An entry stays if nothing of it is forgotten. -/
theorem effect_entry_kept (h : e.Effect fs hdr s s') {i z} (hz : s.nodes i = some z) (hf : e.forgetsFor i = 0) :
    ∃ y, s'.nodes i = some y ∧ y.node = z.node := by
  by_cases h1 : ∃ j v, e = .added j v
  · obtain ⟨j, v, rfl⟩ := h1
    obtain ⟨x, hs, hx⟩ := h
    rw [hs]
    by_cases hi : i = j
    · subst hi
      simp only [if_true]
      rw [hz] at hx
      exact ⟨x, rfl, hx.1⟩
    · simp only [if_neg hi]
      exact ⟨z, hz, rfl⟩
  · by_cases h2 : ∃ items, e = .forgot items
    · obtain ⟨items, rfl⟩ := h2
      rw [show s' = _ from h]
      exact ⟨z, (forget_untouched hf).trans hz, rfl⟩
    · obtain ⟨h3, _, _⟩ := effect_same h (fun i v he => h1 ⟨i, v, he⟩) (fun i he => h2 ⟨i, he⟩)
      rw [h3]
      exact ⟨z, hz, rfl⟩

theorem effect_looks (h : e.Effect fs hdr s s') {i r} (hl : e.looks = some (i, r)) :
    (s.nodes i).map (·.node) = r := by
  cases e <;> first
    | (cases hl; done)
    | (cases hl; exact h.1)

end

/-! ## Sums over histories -/

/-- The sum of a measure of events. -/
def total (f : VfsEv ν φ η ε → Nat) (L : List (Nat × VfsEv ν φ η ε)) : Nat := (L.map fun x => f x.2).sum

section
variable {f : VfsEv ν φ η ε → Nat} {L M : List (Nat × VfsEv ν φ η ε)}

theorem total_append : total f (L ++ M) = total f L + total f M := by
  unfold total
  rw [List.map_append, List.sum_append]

theorem total_zero (h : ∀ t e, (t, e) ∈ L → f e = 0) : total f L = 0 := by
  unfold total
  induction L with
  | nil => rfl
  | cons x L ih =>
    rw [List.map_cons, List.sum_cons, h x.1 x.2 List.mem_cons_self,
      ih fun t e he => h t e (List.mem_cons_of_mem _ he)]

theorem total_split (t : Nat) :
    total f L = ((eventsOf t L).map f).sum + total f (L.filter fun x => x.1 != t) := by
  induction L with
  | nil => rfl
  | cons x L ih =>
    obtain ⟨u, e⟩ := x
    by_cases hu : u = t
    · subst hu
      rw [eventsOf_cons_self]
      simp only [List.filter_cons, bne_self_eq_false, List.map_cons, List.sum_cons]
      show f e + total f L = _
      rw [ih]
      simp only [Bool.false_eq_true, if_false]
      omega
    · rw [eventsOf_cons_ne hu]
      have hb : (u != t) = true := by simpa using hu
      simp only [List.filter_cons, hb, if_true]
      show f e + total f L = _ + (f e + total f _)
      rw [ih]
      omega

theorem eventsOf_filter {t u : Nat} (h : u ≠ t) :
    eventsOf u (L.filter fun x => x.1 != t) = eventsOf u L := by
  induction L with
  | nil => rfl
  | cons x L ih =>
    obtain ⟨v, e⟩ := x
    by_cases hv : v = t
    · subst hv
      simp only [List.filter_cons, bne_self_eq_false, Bool.false_eq_true, if_false]
      rw [ih, eventsOf_cons_ne (Ne.symm h)]
    · have hb : (v != t) = true := by simpa using hv
      simp only [List.filter_cons, hb, if_true]
      by_cases hu : v = u
      · subst hu
        rw [eventsOf_cons_self, eventsOf_cons_self, ih]
      · rw [eventsOf_cons_ne hu, eventsOf_cons_ne hu, ih]

theorem eventsOf_filter_self {t : Nat} : eventsOf t (L.filter fun x => x.1 != t) = [] := by
  rw [List.eq_nil_iff_forall_not_mem]
  intro e he
  have := (List.mem_filter.mp (mem_eventsOf.mp he)).2
  simp at this

/-- A bound on the sum, thread by thread. -/
theorem total_le {T : List Nat} {w : Nat → Nat} (hT : ∀ t e, (t, e) ∈ L → f e ≠ 0 → t ∈ T)
    (hw : ∀ t ∈ T, ((eventsOf t L).map f).sum ≤ w t) : total f L ≤ (T.map w).sum := by
  induction T generalizing L with
  | nil =>
    rw [total_zero]
    · exact Nat.zero_le _
    · intro t e he
      by_cases h0 : f e = 0
      · exact h0
      · cases hT t e he h0
  | cons t T ih =>
    rw [total_split t, List.map_cons, List.sum_cons]
    refine Nat.add_le_add (hw t List.mem_cons_self) (ih ?_ ?_)
    · intro u e he h0
      obtain ⟨h1, h2⟩ := List.mem_filter.mp he
      rcases List.mem_cons.mp (hT u e h1 h0) with h3 | h3
      · subst h3
        simp at h2
      · exact h3
    · intro u hu
      by_cases h : u = t
      · subst h
        rw [eventsOf_filter_self]
        exact Nat.zero_le _
      · rw [eventsOf_filter h]
        exact hw u (List.mem_cons_of_mem _ hu)

/-- The converse bound. -/
theorem le_total {T : List Nat} {w : Nat → Nat} (hT : T.Nodup)
    (hw : ∀ t ∈ T, w t ≤ ((eventsOf t L).map f).sum) : (T.map w).sum ≤ total f L := by
  induction T generalizing L with
  | nil => exact Nat.zero_le _
  | cons t T ih =>
    rw [List.nodup_cons] at hT
    rw [total_split t, List.map_cons, List.sum_cons]
    refine Nat.add_le_add (hw t List.mem_cons_self) (ih hT.2 fun u hu => ?_)
    rw [eventsOf_filter (fun h : u = t => hT.1 (h ▸ hu))]
    exact hw u (List.mem_cons_of_mem _ hu)

theorem sum_map_zero {α : Type} {g : α → Nat} {l : List α} (h : ∀ a ∈ l, g a = 0) : (l.map g).sum = 0 := by
  induction l with
  | nil => rfl
  | cons x xs ih =>
    rw [List.map_cons, List.sum_cons, h x List.mem_cons_self, ih fun a ha => h a (List.mem_cons_of_mem _ ha)]

theorem sum_ones {α : Type} (l : List α) : (l.map fun _ => 1).sum = l.length := by
  induction l with
  | nil => rfl
  | cons x xs ih =>
    rw [List.map_cons, List.sum_cons, ih, List.length_cons, Nat.add_comm]

theorem sum_ge_of_mem {α : Type} {g : α → Nat} {l : List α} {a : α} (h : a ∈ l) : g a ≤ (l.map g).sum := by
  induction l with
  | nil => cases h
  | cons x xs ih =>
    rw [List.map_cons, List.sum_cons]
    rcases List.mem_cons.mp h with h | h
    · subst h; omega
    · have := ih h; omega

end

/-! ## Lookup counts -/

section
variable {fs : Filesystem ν φ η σ ε} {hdr : Nat → FuseInHeader} {s s' : Vfs ν φ η σ}
  {L : List (Nat × VfsEv ν φ η ε)}

theorem Hist.count_lower (h : Hist fs hdr s L s') (i : NodeId) :
    s.count i + total (VfsEv.addsFor i) L ≤ s'.count i + total (VfsEv.forgetsFor i) L := by
  induction h with
  | nil => exact Nat.le_refl _
  | @cons s s1 s' t e L he hh ih =>
    have := effect_count he i
    show s.count i + (e.addsFor i + total _ L) ≤ s'.count i + (e.forgetsFor i + total _ L)
    omega

theorem Hist.count_upper (h : Hist fs hdr s L s') (i : NodeId) :
    s'.count i ≤ s.count i + total (VfsEv.addsFor i) L := by
  induction h with
  | nil => exact Nat.le_refl _
  | @cons s s1 s' t e L he hh ih =>
    have := effect_count he i
    show s'.count i ≤ s.count i + (e.addsFor i + total _ L)
    omega

theorem Hist.count_forgets (h : Hist fs hdr s L s') {i : NodeId} (ha : total (VfsEv.addsFor i) L = 0) :
    s'.count i = s.count i - total (VfsEv.forgetsFor i) L := by
  induction h with
  | nil => rfl
  | @cons s s1 s' t e L he hh ih =>
    have h1 := effect_count he i
    have h2 : e.addsFor i + total (VfsEv.addsFor i) L = 0 := ha
    have h3 := ih (by omega)
    show s'.count i = s.count i - (e.forgetsFor i + total _ L)
    omega

/-- Nodes other than the root are in the map only with a positive count. -/
theorem Hist.positive (h : Hist fs hdr s L s') {i : NodeId} (hs : ∀ x, s.nodes i = some x → x.lookupCount ≠ 0) :
    ∀ x, s'.nodes i = some x → x.lookupCount ≠ 0 := by
  induction h with
  | nil => exact hs
  | @cons s s1 s' t e L he hh ih =>
    refine ih fun x hx => ?_
    rcases effect_entry he hx with ⟨z, h1, _, rfl | h2⟩ | ⟨_, h2⟩
    · exact hs _ h1
    · exact h2
    · exact h2

/-- What is in the node map was there before or was added. -/
theorem Hist.entry_origin (h : Hist fs hdr s L s') {i x} (hx : s'.nodes i = some x) :
    (∃ z, s.nodes i = some z ∧ z.node = x.node) ∨ ∃ t e, (t, e) ∈ L ∧ e.adds = some (i, x.node) := by
  induction h with
  | nil => exact Or.inl ⟨x, hx, rfl⟩
  | @cons s s1 s' t e L he hh ih =>
    rcases ih hx with ⟨z, h1, h2⟩ | ⟨u, e', h1, h2⟩
    · rcases effect_entry he h1 with ⟨z', h3, h4, _⟩ | ⟨h3, _⟩
      · exact Or.inl ⟨z', h3, h4.trans h2⟩
      · exact Or.inr ⟨t, e, List.mem_cons_self, by rw [h3, h2]⟩
    · exact Or.inr ⟨u, e', List.mem_cons_of_mem _ h1, h2⟩

/-- An entry stays as long as nothing of it is forgotten. -/
theorem Hist.entry_kept (h : Hist fs hdr s L s') {i z} (hz : s.nodes i = some z)
    (hf : ∀ t e, (t, e) ∈ L → e.forgetsFor i = 0) : ∃ y, s'.nodes i = some y ∧ y.node = z.node := by
  induction h generalizing z with
  | nil => exact ⟨z, hz, rfl⟩
  | @cons s s1 s' t e L he hh ih =>
    obtain ⟨y, h1, h2⟩ := effect_entry_kept he hz (hf t e List.mem_cons_self)
    obtain ⟨y', h3, h4⟩ := ih h1 fun t e hm => hf t e (List.mem_cons_of_mem _ hm)
    exact ⟨y', h3, h4.trans h2⟩

end

end Fuse
