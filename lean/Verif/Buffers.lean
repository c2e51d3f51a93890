import Verif.Std

/-!
# Receive buffers

Slices with their address, `AlignedSlice`, `MinReadBuffer` and the heap-allocated `AlignedBuf` of `fuse-std`.  The
heap is the list of allocations that are live and the memory's contents, `none` for a byte that has not been
initialised.  The allocator is any that answers as the documentation of `GlobalAlloc` demands; the address it
answers is a parameter.  `AlignedSliceMut` has the same operations as `AlignedSlice` and is not told apart.
-/

namespace Fuse

/-- A byte slice: where it is and what it contains. -/
structure Slice where
  addr : Nat
  bytes : Bytes
deriving DecidableEq, Repr

/-- `<*const u8>::align_offset`: how many bytes there are up to the next aligned address. -/
def alignOffset (addr align : Nat) : Nat := (align - addr % align) % align

/-- `AlignedSlice`, fuse/io.rs:30-32; `AlignedSliceMut`, fuse/io.rs:96-98. -/
structure AlignedSlice where
  inner : Slice
deriving DecidableEq, Repr

namespace AlignedSlice

/-- `AlignedSlice::new`, fuse/io.rs:44-50; `AlignedSliceMut::new`, fuse/io.rs:110-116. -/
def new (slice : Slice) : Option AlignedSlice :=
  if alignOffset slice.addr 8 = 0 then some ⟨slice⟩ else none

/-- `AlignedSlice::new_unchecked`, fuse/io.rs:60-62; `AlignedSliceMut::new_unchecked`, fuse/io.rs:126-130. -/
def newUnchecked (slice : Slice) : AlignedSlice := ⟨slice⟩

/-- `AlignedSlice::truncate`, fuse/io.rs:77-84; `AlignedSliceMut::truncate`, fuse/io.rs:145-152. -/
def truncate (s : AlignedSlice) (len : Nat) : AlignedSlice :=
  if len ≥ s.inner.bytes.length then s else ⟨⟨s.inner.addr, s.inner.bytes.take len⟩⟩

end AlignedSlice

/-- `MinReadBuffer::as_aligned_slice`, fuse/io.rs:224-226, of a fresh buffer (fuse/io.rs:201-205) at `addr`. -/
def minReadSlice (addr : Nat) : AlignedSlice := ⟨⟨addr, minReadBuffer⟩⟩

/-! ## The heap -/

/-- `core::alloc::Layout`. -/
structure Layout where
  size : Nat
  align : Nat
deriving DecidableEq, Repr

/-- `Layout::from_size_align` for an alignment that is a power of two, on a 64-bit platform: the size rounded up to
the alignment must not exceed `isize::MAX`. -/
def Layout.fromSizeAlign (size align : Nat) : Option Layout :=
  if size ≤ 2 ^ 63 - 1 - (align - 1) then some ⟨size, align⟩ else none

/-- The heap. -/
structure Heap where
  live : List (Nat × Layout)
  mem : Nat → Option UInt8

namespace Heap

/-- Whether two regions of memory have no byte in common. -/
def Apart (a n b m : Nat) : Prop := a + n ≤ b ∨ b + m ≤ a

/-- What `GlobalAlloc::alloc` may answer: null, or the address of fresh memory. -/
def MayAnswer (h : Heap) (l : Layout) : Option Nat → Prop
  | none => True
  | some a => a ≠ 0 ∧ a % l.align = 0 ∧ a + l.size ≤ 2 ^ 64 ∧ ∀ x ∈ h.live, Apart a l.size x.1 x.2.size

/-- The heap after `alloc` has answered `a`: the new memory is not initialised. -/
def alloc (h : Heap) (l : Layout) (a : Nat) : Heap :=
  ⟨(a, l) :: h.live, fun x => if a ≤ x ∧ x < a + l.size then none else h.mem x⟩

/-- `std::alloc::dealloc`: requires memory allocated with the same layout and not yet freed. -/
def dealloc (h : Heap) (a : Nat) (l : Layout) : Except Fault Heap :=
  if (a, l) ∈ h.live then .ok ⟨h.live.erase (a, l), h.mem⟩ else .error .invalid

/-- `core::slice::from_raw_parts`: requires initialised memory. -/
def slice (h : Heap) (a n : Nat) : Except Fault Slice :=
  match (List.range n).mapM (fun i => h.mem (a + i)) with
  | some bytes => .ok ⟨a, bytes⟩
  | none => .error .invalid

/-- Storing bytes. -/
def store (h : Heap) (a : Nat) (bytes : Bytes) : Heap :=
  ⟨h.live, fun x => if a ≤ x ∧ x < a + bytes.length then bytes[x - a]? else h.mem x⟩

end Heap

/-! ## `AlignedBuf` -/

/-- `AlignedBuf`, fuse-std/fuse-std.rs:213-216. -/
structure AlignedBuf where
  ptr : Nat
  len : Nat
deriving DecidableEq, Repr

/-- How `AlignedBuf::with_capacity` ends. -/
inductive Allocated
  | ok (buf : AlignedBuf) (h : Heap)
  | panic
  /-- `handle_alloc_error` -/
  | outOfMemory

namespace AlignedBuf

/-- `AlignedBuf::with_capacity`, fuse-std/fuse-std.rs:240-248; `answer` is the allocator's. -/
def withCapacity (h : Heap) (capacity : Nat) (answer : Layout → Option Nat) : Allocated :=
  let capacity := max capacity FUSE_MIN_READ_BUFFER
  match Layout.fromSizeAlign capacity 8 with
  | none => .panic
  | some layout =>
    match answer layout with
    | some ptr => .ok ⟨ptr, capacity⟩ (h.alloc layout ptr)
    | none => .outOfMemory

/-- `AlignedBuf::new`, fuse-std/fuse-std.rs:234-236. -/
def new (h : Heap) (answer : Layout → Option Nat) : Allocated := withCapacity h FUSE_MIN_READ_BUFFER answer

/-- `AlignedBuf::drop`, fuse-std/fuse-std.rs:223-228. -/
def drop (b : AlignedBuf) (h : Heap) : Except Fault Heap := h.dealloc b.ptr ⟨b.len, 8⟩

/-- `AlignedBuf::as_slice`, fuse-std/fuse-std.rs:253-257; `AlignedBuf::as_mut_slice`, fuse-std/fuse-std.rs:262-266. -/
def asSlice (b : AlignedBuf) (h : Heap) : Except Fault Slice := h.slice b.ptr b.len

/-- `AsAlignedSlice` and `AsAlignedSliceMut` for `AlignedBuf`, fuse-std/fuse-std.rs:269-285. -/
def asAlignedSlice (b : AlignedBuf) (h : Heap) : Except Fault AlignedSlice := do
  return .newUnchecked (← b.asSlice h)

end AlignedBuf

/-- A program that allocates, fills and drops buffers; `others` are the allocations of the rest of the program. -/
structure BufState where
  heap : Heap
  bufs : List AlignedBuf
  others : List (Nat × Layout)

/-- One operation. -/
inductive BufStep : BufState → BufState → Prop
  | create {st : BufState} {capacity : Nat} {answer : Layout → Option Nat} {b : AlignedBuf} {h : Heap}
      (ha : ∀ l, st.heap.MayAnswer l (answer l)) (hc : AlignedBuf.withCapacity st.heap capacity answer = .ok b h) :
      BufStep st ⟨h, b :: st.bufs, st.others⟩
  | drop {st : BufState} {b : AlignedBuf} {h : Heap} (hb : b ∈ st.bufs) (hd : b.drop st.heap = .ok h) :
      BufStep st ⟨h, st.bufs.erase b, st.others⟩
  | store {st : BufState} {b : AlignedBuf} {bytes : Bytes} (hb : b ∈ st.bufs) (hl : bytes.length ≤ b.len) :
      BufStep st ⟨st.heap.store b.ptr bytes, st.bufs, st.others⟩
  | otherAlloc {st : BufState} {l : Layout} {a : Nat} (ha : st.heap.MayAnswer l (some a)) :
      BufStep st ⟨st.heap.alloc l a, st.bufs, (a, l) :: st.others⟩
  | otherDealloc {st : BufState} {l : Layout} {a : Nat} {h : Heap} (hx : (a, l) ∈ st.others)
      (hd : st.heap.dealloc a l = .ok h) : BufStep st ⟨h, st.bufs, st.others.erase (a, l)⟩

/-- The states reachable from a heap without buffers. -/
inductive BufReach (h : Heap) : BufState → Prop
  | start : BufReach h ⟨h, [], h.live⟩
  | step {st st' : BufState} : BufReach h st → BufStep st st' → BufReach h st'

end Fuse
