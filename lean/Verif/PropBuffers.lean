import Verif.Buffers

/-!
# C61: receive buffers are aligned, large enough and not shared
-/

namespace Fuse

/-! ## Slices -/

theorem alignOffset_eq_zero (addr align : Nat) (h : 0 < align) : alignOffset addr align = 0 ↔ addr % align = 0 := by
  unfold alignOffset
  have := Nat.mod_lt addr h
  constructor
  · intro h0
    rcases Nat.eq_zero_or_pos (addr % align) with h1 | h1
    · exact h1
    · rw [Nat.mod_eq_of_lt (by omega)] at h0; omega
  · intro h0
    rw [h0, Nat.sub_zero, Nat.mod_self]

/-- C61: a slice is accepted if and only if its address is a multiple of 8, and unchanged. -/
theorem C61_new (s : Slice) : AlignedSlice.new s = if s.addr % 8 = 0 then some ⟨s⟩ else none := by
  unfold AlignedSlice.new
  by_cases h : s.addr % 8 = 0
  · rw [if_pos h, if_pos ((alignOffset_eq_zero _ _ (by decide)).mpr h)]
  · rw [if_neg h, if_neg (fun h' => h ((alignOffset_eq_zero _ _ (by decide)).mp h'))]

/-- C61: truncating keeps the address and the first bytes, never panics and never makes a slice longer. -/
theorem C61_truncate (s : AlignedSlice) (len : Nat) :
    (s.truncate len).inner = ⟨s.inner.addr, s.inner.bytes.take len⟩ := by
  unfold AlignedSlice.truncate
  split
  · next h => rw [List.take_of_length_le h]
  · rfl

/-! ## The heap -/

/-- A buffer as an allocation. -/
def AlignedBuf.region (b : AlignedBuf) : Nat × Layout := (b.ptr, ⟨b.len, 8⟩)

def regionsApart (x y : Nat × Layout) : Prop := Heap.Apart x.1 x.2.size y.1 y.2.size

theorem regionsApart_symm {x y : Nat × Layout} (h : regionsApart x y) : regionsApart y x := Or.symm h

structure BufInv (st : BufState) : Prop where
  live : st.heap.live.Perm (st.bufs.map AlignedBuf.region ++ st.others)
  apart : (st.bufs.map AlignedBuf.region ++ st.others).Pairwise regionsApart
  valid : ∀ b ∈ st.bufs, b.ptr ≠ 0 ∧ b.ptr % 8 = 0 ∧ b.ptr + b.len ≤ 2 ^ 64 ∧ 8192 ≤ b.len

theorem withCapacity_ok {h h' : Heap} {capacity : Nat} {answer : Layout → Option Nat} {b : AlignedBuf}
    (hc : AlignedBuf.withCapacity h capacity answer = .ok b h') :
    b.len = max capacity 8192 ∧ answer ⟨b.len, 8⟩ = some b.ptr ∧ h' = h.alloc ⟨b.len, 8⟩ b.ptr := by
  unfold AlignedBuf.withCapacity Layout.fromSizeAlign at hc
  dsimp only at hc
  split at hc
  · cases hc
  · next l hl =>
    split at hl
    · cases hl
      split at hc
      · next p hp => cases hc; exact ⟨rfl, hp, rfl⟩
      · cases hc
    · cases hl

theorem region_inj {a b : AlignedBuf} (h : a.region = b.region) : a = b := by
  obtain ⟨p, l⟩ := a
  obtain ⟨p', l'⟩ := b
  cases h; rfl

theorem map_region_erase (bufs : List AlignedBuf) (b : AlignedBuf) :
    (bufs.map AlignedBuf.region).erase b.region = (bufs.erase b).map AlignedBuf.region := by
  induction bufs with
  | nil => rfl
  | cons a as ih =>
    by_cases h : a = b
    · subst h; rw [List.map_cons, List.erase_cons_head, List.erase_cons_head]
    · have h' : ¬ a.region = b.region := fun e => h (region_inj e)
      rw [List.map_cons, List.erase_cons_tail (by simpa using h'), List.erase_cons_tail (by simpa using h),
        List.map_cons, ih]

theorem dealloc_ok {h h' : Heap} {a : Nat} {l : Layout} (hd : h.dealloc a l = .ok h') :
    (a, l) ∈ h.live ∧ h' = ⟨h.live.erase (a, l), h.mem⟩ := by
  unfold Heap.dealloc at hd
  split at hd
  · next hm => cases hd; exact ⟨hm, rfl⟩
  · cases hd

theorem inv_alloc {st : BufState} (inv : BufInv st) {l : Layout} {a : Nat}
    (ha : st.heap.MayAnswer l (some a)) : ∀ x ∈ st.bufs.map AlignedBuf.region ++ st.others, regionsApart (a, l) x :=
  fun x hx => ha.2.2.2 x (inv.live.mem_iff.mpr hx)

theorem bufInv_step {st st' : BufState} (inv : BufInv st) (h : BufStep st st') : BufInv st' := by
  cases h with
  | @create capacity answer b h ha hc =>
    obtain ⟨h1, h2, rfl⟩ := withCapacity_ok hc
    have hm := ha ⟨b.len, 8⟩
    rw [h2] at hm
    refine ⟨?_, ?_, ?_⟩
    · exact inv.live.cons b.region
    · exact List.pairwise_cons.mpr ⟨inv_alloc inv hm, inv.apart⟩
    · intro x hx
      rcases List.mem_cons.mp hx with rfl | hx
      · exact ⟨hm.1, hm.2.1, hm.2.2.1, by rw [h1]; exact Nat.le_max_right ..⟩
      · exact inv.valid x hx
  | @drop b h hb hd =>
    obtain ⟨h1, rfl⟩ := dealloc_ok hd
    have he : (st.bufs.map AlignedBuf.region ++ st.others).erase b.region =
        (st.bufs.erase b).map AlignedBuf.region ++ st.others := by
      rw [List.erase_append_left _ (List.mem_map_of_mem hb), map_region_erase]
    refine ⟨?_, ?_, fun x hx => inv.valid x (List.mem_of_mem_erase hx)⟩
    · show (st.heap.live.erase b.region).Perm _
      rw [← he]; exact inv.live.erase _
    · show List.Pairwise _ ((st.bufs.erase b).map AlignedBuf.region ++ st.others)
      rw [← he]; exact inv.apart.sublist List.erase_sublist
  | store hb hl => exact ⟨inv.live, inv.apart, inv.valid⟩
  | @otherAlloc l a ha =>
    have hp : ((a, l) :: (st.bufs.map AlignedBuf.region ++ st.others)).Perm
        (st.bufs.map AlignedBuf.region ++ (a, l) :: st.others) := List.perm_middle.symm
    refine ⟨(inv.live.cons (a, l)).trans hp, ?_, inv.valid⟩
    exact hp.pairwise (List.pairwise_cons.mpr ⟨inv_alloc inv ha, inv.apart⟩) regionsApart_symm
  | @otherDealloc l a h hx hd =>
    obtain ⟨h1, rfl⟩ := dealloc_ok hd
    have hn : (a, l) ∉ st.bufs.map AlignedBuf.region := by
      intro hm
      obtain ⟨b, hb, he⟩ := List.mem_map.mp hm
      have h2 := (List.pairwise_append.mp inv.apart).2.2 _ hm _ hx
      have h3 := (inv.valid b hb).2.2.2
      cases he
      rcases h2 with h2 | h2 <;> (dsimp only at h2; omega)
    have he : (st.bufs.map AlignedBuf.region ++ st.others).erase (a, l) =
        st.bufs.map AlignedBuf.region ++ st.others.erase (a, l) := List.erase_append_right _ hn
    refine ⟨?_, ?_, inv.valid⟩
    · show (st.heap.live.erase (a, l)).Perm _
      rw [← he]; exact inv.live.erase _
    · show List.Pairwise _ (st.bufs.map AlignedBuf.region ++ st.others.erase (a, l))
      rw [← he]; exact inv.apart.sublist List.erase_sublist

theorem bufInv {h : Heap} (h0 : h.live.Pairwise regionsApart) {st : BufState} (hr : BufReach h st) : BufInv st := by
  induction hr with
  | start => exact ⟨.refl _, h0, fun _ h => nomatch h⟩
  | step _ hs ih => exact bufInv_step ih hs

/-- C61: whatever buffers have been allocated, filled and dropped, and whatever the rest of the program has done with
the heap: every buffer is not null, aligned, within the address space, has at least the minimum size, and overlaps
neither another buffer nor anything else on the heap; dropping it frees memory that is live, with the layout it was
allocated with. -/
theorem C61_heap {h : Heap} (h0 : h.live.Pairwise fun x y => Heap.Apart x.1 x.2.size y.1 y.2.size) {st : BufState}
    (hr : BufReach h st) :
    (∀ b ∈ st.bufs, b.ptr ≠ 0 ∧ b.ptr % 8 = 0 ∧ b.ptr + b.len ≤ 2 ^ 64 ∧ 8192 ≤ b.len) ∧
    (st.bufs.Pairwise fun a b => Heap.Apart a.ptr a.len b.ptr b.len) ∧
    (∀ b ∈ st.bufs, ∀ x ∈ st.others, Heap.Apart b.ptr b.len x.1 x.2.size) ∧
    (∀ b ∈ st.bufs, ∃ h', b.drop st.heap = .ok h') := by
  have inv := bufInv h0 hr
  obtain ⟨h1, h2, h3⟩ := List.pairwise_append.mp inv.apart
  refine ⟨inv.valid, List.pairwise_map.mp h1, fun b hb x hx => h3 _ (List.mem_map_of_mem hb) x hx, fun b hb => ?_⟩
  refine ⟨_, if_pos (inv.live.mem_iff.mpr (List.mem_append_left _ (List.mem_map_of_mem (f := AlignedBuf.region) hb)))⟩

/-- C61: nothing is leaked or freed twice: once all buffers are dropped, exactly the rest of the program's
allocations are live. -/
theorem C61_no_leak {h : Heap} (h0 : h.live.Pairwise fun x y => Heap.Apart x.1 x.2.size y.1 y.2.size) {st : BufState}
    (hr : BufReach h st) (hb : st.bufs = []) : st.heap.live.Perm st.others := by
  have := (bufInv h0 hr).live
  rwa [hb] at this

theorem mapM_range {f g : Nat → Option UInt8} (n : Nat) (h : ∀ i, i < n → f i = g i) :
    (List.range n).mapM f = (List.range n).mapM g := by
  have : ∀ l : List Nat, (∀ i ∈ l, f i = g i) → l.mapM f = l.mapM g := by
    intro l
    induction l with
    | nil => intro _; rfl
    | cons a as ih =>
      intro h
      rw [List.mapM_cons, List.mapM_cons, h a (List.mem_cons_self ..), ih fun i hi => h i (List.mem_cons_of_mem _ hi)]
  exact this _ fun i hi => h i (List.mem_range.mp hi)

theorem mapM_some (l : List Nat) (f : Nat → Option UInt8) (g : Nat → UInt8) (h : ∀ i ∈ l, f i = some (g i)) :
    l.mapM f = some (l.map g) := by
  induction l with
  | nil => rfl
  | cons a as ih =>
    rw [List.mapM_cons, h a (List.mem_cons_self ..), ih fun i hi => h i (List.mem_cons_of_mem _ hi)]
    rfl

theorem pairwise_forall {α : Type} {R : α → α → Prop} (hs : ∀ a b, R a b → R b a) {l : List α} (hp : l.Pairwise R)
    {a b : α} (ha : a ∈ l) (hb : b ∈ l) (hne : a ≠ b) : R a b := by
  induction hp with
  | nil => cases ha
  | cons h _ ih =>
    rcases List.mem_cons.mp ha with ha | ha <;> rcases List.mem_cons.mp hb with hb | hb
    · exact absurd (ha.trans hb.symm) hne
    · rw [ha]; exact h _ hb
    · rw [hb]; exact hs _ _ (h _ ha)
    · exact ih ha hb

/-- C61: what is stored in a buffer is what is read from it, and storing in it changes no other buffer: two
threads never see each other's messages. -/
theorem C61_separate {h : Heap} (h0 : h.live.Pairwise fun x y => Heap.Apart x.1 x.2.size y.1 y.2.size) {st : BufState}
    (hr : BufReach h st) {b c : AlignedBuf} (hb : b ∈ st.bufs) (hc : c ∈ st.bufs) (hne : c ≠ b) (bytes : Bytes)
    (hl : bytes.length = b.len) :
    b.asAlignedSlice (st.heap.store b.ptr bytes) = .ok ⟨⟨b.ptr, bytes⟩⟩ ∧
    c.asAlignedSlice (st.heap.store b.ptr bytes) = c.asAlignedSlice st.heap := by
  have hap : Heap.Apart b.ptr b.len c.ptr c.len := by
    have hp := (C61_heap h0 hr).2.1
    exact pairwise_forall (fun _ _ h => Or.symm h) hp hb hc (Ne.symm hne)
  constructor
  · have : (List.range b.len).mapM (fun i => (st.heap.store b.ptr bytes).mem (b.ptr + i)) = some bytes := by
      rw [mapM_some _ _ (fun i => bytes[i]?.getD 0) ?_]
      · congr 1
        refine List.ext_getElem? fun i => ?_
        rw [List.getElem?_map]
        by_cases hi : i < b.len
        · rw [List.getElem?_range hi, Option.map_some, List.getElem?_eq_getElem (by omega), Option.getD_some]
        · rw [List.getElem?_eq_none (by rw [List.length_range]; omega), List.getElem?_eq_none (by omega)]; rfl
      · intro i hi
        have hi := List.mem_range.mp hi
        show (if _ then _ else _) = _
        rw [if_pos (by omega), Nat.add_sub_cancel_left, List.getElem?_eq_getElem (by omega), Option.getD_some]
    unfold AlignedBuf.asAlignedSlice AlignedBuf.asSlice Heap.slice
    rw [this]; rfl
  · have : (List.range c.len).mapM (fun i => (st.heap.store b.ptr bytes).mem (c.ptr + i)) =
        (List.range c.len).mapM (fun i => st.heap.mem (c.ptr + i)) := by
      refine mapM_range _ fun i hi => ?_
      show (if _ then _ else _) = _
      rw [if_neg (by rcases hap with h | h <;> omega)]
    unfold AlignedBuf.asAlignedSlice AlignedBuf.asSlice Heap.slice
    rw [this]

/-- C61: a buffer has the capacity asked for, but at least the minimum; allocating panics only for sizes that no
allocation can have, and is otherwise up to the allocator. -/
theorem C61_capacity (h : Heap) (capacity : Nat) (answer : Layout → Option Nat) :
    AlignedBuf.withCapacity h capacity answer =
      if 2 ^ 63 - 8 < max capacity 8192 then .panic
      else match answer ⟨max capacity 8192, 8⟩ with
        | some a => .ok ⟨a, max capacity 8192⟩ (h.alloc ⟨max capacity 8192, 8⟩ a)
        | none => .outOfMemory := by
  unfold AlignedBuf.withCapacity Layout.fromSizeAlign
  by_cases hc : 2 ^ 63 - 8 < max capacity 8192
  · rw [if_pos hc]
    have : ¬ max capacity FUSE_MIN_READ_BUFFER ≤ 2 ^ 63 - 1 - (8 - 1) := by
      show ¬ max capacity 8192 ≤ _
      omega
    dsimp only
    rw [if_neg this]
  · rw [if_neg hc]
    have : max capacity FUSE_MIN_READ_BUFFER ≤ 2 ^ 63 - 1 - (8 - 1) := by
      show max capacity 8192 ≤ _
      omega
    dsimp only
    rw [if_pos this]
    rfl

/-- C61: the buffers that the multi-threaded server allocates for a connection never panic and have exactly the size
that the connection demands, which holds the largest message of the client. -/
theorem C61_connection (h : Heap) (maxWrite : UInt32) (answer : Layout → Option Nat) :
    AlignedBuf.withCapacity h (recvBufLen maxWrite) answer =
      match answer ⟨max (maxWrite.toNat + 4096) 8192, 8⟩ with
      | some a => .ok ⟨a, max (maxWrite.toNat + 4096) 8192⟩ (h.alloc ⟨max (maxWrite.toNat + 4096) 8192, 8⟩ a)
      | none => .outOfMemory := by
  have hlt := maxWrite.toNat_lt
  have h1 : recvBufLen maxWrite = max (maxWrite.toNat + 4096) 8192 := by
    unfold recvBufLen satLen
    rw [if_pos (by omega)]
  have h2 : max (recvBufLen maxWrite) 8192 = max (maxWrite.toNat + 4096) 8192 := by rw [h1]; omega
  rw [C61_capacity, h2, if_neg (by omega)]

/-- C61 fails for fresh buffers: borrowing one as a slice, which safe code can do at once and the server's threads do,
makes a reference to memory that nobody has initialised. -/
theorem C61_violated_uninit (h : Heap) (capacity : Nat) (answer : Layout → Option Nat) {b : AlignedBuf} {h' : Heap}
    (hc : AlignedBuf.withCapacity h capacity answer = .ok b h') : b.asSlice h' = .error .invalid := by
  obtain ⟨h1, h2, rfl⟩ := withCapacity_ok hc
  have hpos : 0 < b.len := by have := Nat.le_max_right capacity 8192; omega
  obtain ⟨n, hn⟩ : ∃ n, b.len = n + 1 := ⟨b.len - 1, by omega⟩
  have : (List.range b.len).mapM (fun i => (h.alloc ⟨b.len, 8⟩ b.ptr).mem (b.ptr + i)) = none := by
    rw [hn, List.range_succ_eq_map, List.mapM_cons]
    have : (h.alloc ⟨n + 1, 8⟩ b.ptr).mem (b.ptr + 0) = none :=
      if_pos ⟨Nat.le_refl _, Nat.add_lt_add_left (Nat.succ_pos n) _⟩
    rw [this]; rfl
  unfold AlignedBuf.asSlice Heap.slice
  rw [this]

/-! ## Concrete cases -/

/-- Two buffers on an empty heap, the first of them dropped. -/
example : ∃ st, BufReach ⟨[], fun _ => none⟩ st ∧ st.bufs = [⟨16384, 69632⟩] ∧
    st.heap.live = [(16384, ⟨69632, 8⟩)] := by
  let h0 : Heap := ⟨[], fun _ => none⟩
  let h1 := h0.alloc ⟨8192, 8⟩ 4096
  let h2 := h1.alloc ⟨69632, 8⟩ 16384
  have s1 : BufReach h0 ⟨h1, [⟨4096, 8192⟩], []⟩ :=
    .step .start (.create (capacity := 100) (answer := fun l => if l = ⟨8192, 8⟩ then some 4096 else none)
      (fun l => by
        dsimp only
        split
        · next hl => subst hl; exact ⟨by decide, by decide, by decide, fun x hx => nomatch hx⟩
        · trivial) (by rw [C61_capacity]; rfl))
  have s2 : BufReach h0 ⟨h2, [⟨16384, 69632⟩, ⟨4096, 8192⟩], []⟩ :=
    .step s1 (.create (capacity := recvBufLen 65536)
      (answer := fun l => if l = ⟨69632, 8⟩ then some 16384 else none)
      (fun l => by
        dsimp only
        split
        · next hl =>
          subst hl
          refine ⟨by decide, by decide, by decide, fun x hx => ?_⟩
          cases List.mem_singleton.mp hx
          exact Or.inr (by decide)
        · trivial) (by
        rw [C61_connection]
        simp only [show max ((65536 : UInt32).toNat + 4096) 8192 = 69632 by decide +kernel, if_true]; rfl))
  have hd : AlignedBuf.drop ⟨4096, 8192⟩ h2 = .ok ⟨[(16384, ⟨69632, 8⟩)], h2.mem⟩ := by
    unfold AlignedBuf.drop Heap.dealloc
    rw [if_pos (by decide)]; rfl
  exact ⟨_, .step s2 (.drop (by decide) hd), rfl, rfl⟩

/-- The stack buffer of the handshake, and part of it. -/
example : AlignedSlice.new ⟨4096, minReadBuffer⟩ = some (minReadSlice 4096) ∧
    AlignedSlice.new ⟨4097, minReadBuffer⟩ = none ∧ ((minReadSlice 4096).truncate 3).inner.bytes = [0, 0, 0] ∧
    ((minReadSlice 4096).truncate 9000).inner.bytes.length = 8192 := by
  refine ⟨by rw [C61_new]; rfl, by rw [C61_new]; rfl, ?_, ?_⟩
  · rw [C61_truncate]; decide +kernel
  · rw [C61_truncate, List.length_take, minReadSlice, minReadBuffer, List.length_replicate]; rfl

end Fuse
