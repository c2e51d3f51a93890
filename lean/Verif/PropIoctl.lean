import Verif.Ioctl
import Verif.PropReply

/-!
# C37, C39, C51: ioctl retries, error codes, ioctl input
-/

namespace Fuse
open Spec

/-! ## C37: retry lists -/

/-- Adding one iovec to a retry buffer, by the four public methods. -/
inductive RetryOp
  | inputPtr (addr size : UInt64)
  | inputSlice (x : IoctlSlice)
  | outputPtr (addr size : UInt64)
  | outputSlice (x : IoctlSlice)
deriving DecidableEq

/-- Calling the method. -/
def RetryOp.run (b : IoctlRetryBuf) :
    RetryOp → Except Fault (Except IoctlRetryError Unit × IoctlRetryBuf)
  | .inputPtr a n => b.addInputPtr a n
  | .inputSlice x => b.addInputSlice x
  | .outputPtr a n => b.addOutputPtr a n
  | .outputSlice x => b.addOutputSlice x

/-- A sequence of calls: the results and the final buffer. -/
def RetryOp.runAll : List RetryOp → IoctlRetryBuf →
    Except Fault (List (Except IoctlRetryError Unit) × IoctlRetryBuf)
  | [], b => .ok ([], b)
  | op :: ops, b => do
    let (r, b) ← op.run b
    let (rs, b) ← runAll ops b
    return (r :: rs, b)

/-- What an addition adds, to the input list and to the output list. -/
def RetryOp.adds : RetryOp → List IoctlSlice × List IoctlSlice
  | .inputPtr a n => ([⟨a, n⟩], [])
  | .inputSlice x => ([x], [])
  | .outputPtr a n => ([], [⟨a, n⟩])
  | .outputSlice x => ([], [x])

/-- The reference behaviour: two lists, together at most 256 long. -/
def retrySpec : List RetryOp → List IoctlSlice → List IoctlSlice →
    List (Except IoctlRetryError Unit) × List IoctlSlice × List IoctlSlice
  | [], i, o => ([], i, o)
  | op :: ops, i, o =>
    if i.length + o.length = 256 then
      (.error .tooManySlices :: (retrySpec ops i o).1, (retrySpec ops i o).2)
    else
      (.ok () :: (retrySpec ops (i ++ op.adds.1) (o ++ op.adds.2)).1,
        (retrySpec ops (i ++ op.adds.1) (o ++ op.adds.2)).2)

/-- The buffer `b` holds the lists `i` and `o`. -/
structure Holds (b : IoctlRetryBuf) (i o : List IoctlSlice) : Prop where
  li : b.input.length = 256
  lo : b.output.length = 256
  ni : b.inputLen = i.length
  no : b.outputLen = o.length
  ti : b.input.take i.length = i
  to : b.output.take o.length = o
  le : i.length + o.length ≤ 256

theorem holds_new : Holds .new [] [] :=
  ⟨List.length_replicate, List.length_replicate, rfl, rfl, rfl, rfl, by simp⟩

theorem take_set_succ {α : Type} (xs : List α) (i : List α) (x : α) (h : xs.take i.length = i)
    (hl : i.length < xs.length) : (xs.set i.length x).take (i ++ [x]).length = i ++ [x] := by
  rw [List.length_append, List.length_singleton, List.take_add_one, List.take_set_of_le (by omega), h]
  simp [hl]

theorem Holds.addInput {b i o} (h : Holds b i o) (x : IoctlSlice) (hl : i.length + o.length < 256) :
    Holds { b with input := b.input.set b.inputLen x, inputLen := b.inputLen + 1 } (i ++ [x]) o :=
  ⟨by simp [h.li], h.lo, by simp [h.ni], h.no,
    by simp only [h.ni]; exact take_set_succ _ _ _ h.ti (by rw [h.li]; omega), h.to,
    by simp; omega⟩

theorem Holds.addOutput {b i o} (h : Holds b i o) (x : IoctlSlice) (hl : i.length + o.length < 256) :
    Holds { b with output := b.output.set b.outputLen x, outputLen := b.outputLen + 1 }
      i (o ++ [x]) :=
  ⟨h.li, by simp [h.lo], h.ni, by simp [h.no], h.ti,
    by simp only [h.no]; exact take_set_succ _ _ _ h.to (by rw [h.lo]; omega),
    by simp; omega⟩

theorem Holds.slices {b i o} (h : Holds b i o) : b.borrow = .ok ⟨i, o⟩ := by
  have := h.le
  have hi : b.inputSlices = .ok i := by
    unfold IoctlRetryBuf.inputSlices; rw [if_pos (by rw [h.ni, h.li]; omega), h.ni, h.ti]
  have ho : b.outputSlices = .ok o := by
    unfold IoctlRetryBuf.outputSlices; rw [if_pos (by rw [h.no, h.lo]; omega), h.no, h.to]
  unfold IoctlRetryBuf.borrow; rw [hi, ho]; rfl

theorem retry_run (ops : List RetryOp) (b : IoctlRetryBuf) (i o : List IoctlSlice)
    (h : Holds b i o) :
    ∃ b', RetryOp.runAll ops b = .ok ((retrySpec ops i o).1, b') ∧
      Holds b' (retrySpec ops i o).2.1 (retrySpec ops i o).2.2 := by
  induction ops generalizing b i o with
  | nil => exact ⟨b, rfl, h⟩
  | cons op ops ih =>
    have hle := h.le
    by_cases hf : i.length + o.length = 256
    · have hc : b.checkAdd = .error .tooManySlices := by
        unfold IoctlRetryBuf.checkAdd
        rw [if_pos (by rw [h.ni, h.no, show FUSE_IOCTL_MAX_IOV = 256 from rfl]; omega)]
      obtain ⟨b', h1, h2⟩ := ih b i o h
      refine ⟨b', ?_, ?_⟩
      · have : op.run b = .ok (.error .tooManySlices, b) := by
          cases op <;> simp only [RetryOp.run, IoctlRetryBuf.addInputPtr, IoctlRetryBuf.addInputSlice,
            IoctlRetryBuf.addOutputPtr, IoctlRetryBuf.addOutputSlice, hc]
        rw [RetryOp.runAll, this]
        show (RetryOp.runAll ops b >>= _) = _
        rw [h1, retrySpec, if_pos hf]; rfl
      · rw [retrySpec, if_pos hf]; exact h2
    · have hc : b.checkAdd = .ok () := by
        unfold IoctlRetryBuf.checkAdd
        rw [if_neg (by rw [h.ni, h.no, show FUSE_IOCTL_MAX_IOV = 256 from rfl]; omega)]
      have hi : b.inputLen < b.input.length := by rw [h.ni, h.li]; omega
      have ho : b.outputLen < b.output.length := by rw [h.no, h.lo]; omega
      have step : ∀ (b1 : IoctlRetryBuf) (i1 o1 : List IoctlSlice), Holds b1 i1 o1 →
          op.run b = .ok (.ok (), b1) →
          retrySpec (op :: ops) i o = (.ok () :: (retrySpec ops i1 o1).1, (retrySpec ops i1 o1).2) →
          ∃ b', RetryOp.runAll (op :: ops) b = .ok ((retrySpec (op :: ops) i o).1, b') ∧
            Holds b' (retrySpec (op :: ops) i o).2.1 (retrySpec (op :: ops) i o).2.2 := by
        intro b1 i1 o1 hb hr hs
        obtain ⟨b', h1, h2⟩ := ih b1 i1 o1 hb
        refine ⟨b', ?_, by rw [hs]; exact h2⟩
        rw [RetryOp.runAll, hr]
        show (RetryOp.runAll ops b1 >>= _) = _
        rw [h1, hs]; rfl
      cases op with
      | inputPtr a n =>
        refine step _ (i ++ [⟨a, n⟩]) o (h.addInput ⟨a, n⟩ (by omega)) ?_ ?_
        · simp only [RetryOp.run, IoctlRetryBuf.addInputPtr, hc, if_pos hi]
        · rw [retrySpec, if_neg hf]; simp only [RetryOp.adds, List.append_nil]
      | inputSlice x =>
        refine step _ (i ++ [x]) o (h.addInput x (by omega)) ?_ ?_
        · simp only [RetryOp.run, IoctlRetryBuf.addInputSlice, hc, if_pos hi]
        · rw [retrySpec, if_neg hf]; simp only [RetryOp.adds, List.append_nil]
      | outputPtr a n =>
        refine step _ i (o ++ [⟨a, n⟩]) (h.addOutput ⟨a, n⟩ (by omega)) ?_ ?_
        · simp only [RetryOp.run, IoctlRetryBuf.addOutputPtr, hc, if_pos ho]
        · rw [retrySpec, if_neg hf]; simp only [RetryOp.adds, List.append_nil]
      | outputSlice x =>
        refine step _ i (o ++ [x]) (h.addOutput x (by omega)) ?_ ?_
        · simp only [RetryOp.run, IoctlRetryBuf.addOutputSlice, hc, if_pos ho]
        · rw [retrySpec, if_neg hf]; simp only [RetryOp.adds, List.append_nil]

/-- C37: after any sequence of additions, a retry buffer contains the accepted iovecs in order (each
addition is accepted iff fewer than 256 are held), without panics. -/
theorem C37_buffer (ops : List RetryOp) :
    ∃ b, RetryOp.runAll ops .new = .ok ((retrySpec ops [] []).1, b) ∧
      b.borrow = .ok ⟨(retrySpec ops [] []).2.1, (retrySpec ops [] []).2.2⟩ ∧
      (retrySpec ops [] []).2.1.length + (retrySpec ops [] []).2.2.length ≤ 256 := by
  obtain ⟨b, h1, h2⟩ := retry_run ops .new [] [] holds_new
  exact ⟨b, h1, h2.slices, h2.le⟩

/-- C37: a retry list built from slices is accepted iff it holds at most 256 iovecs in total. -/
theorem C37_new (i o : List IoctlSlice) :
    IoctlRetry.new i o = if i.length + o.length ≤ 256 then .ok ⟨i, o⟩ else .error .tooManySlices := by
  unfold IoctlRetry.new
  simp only [show FUSE_IOCTL_MAX_IOV = 256 from rfl]
  by_cases h : i.length + o.length ≤ 256
  · rw [if_neg (by omega), if_neg (by omega), if_neg (by omega), if_pos h]
  · rw [if_neg h, if_pos (c := i.length + o.length > 256) (by omega)]
    split
    · rfl
    · split <;> rfl

/-- Every way to obtain a retry list. -/
inductive Retry : IoctlRetry → Prop
  | new {i o r} (h : IoctlRetry.new i o = .ok r) : Retry r
  | borrow {ops rs b r} (h : RetryOp.runAll ops .new = .ok (rs, b)) (hb : b.borrow = .ok r) : Retry r

theorem Retry.le {r} (h : Retry r) : r.input.length + r.output.length ≤ 256 := by
  cases h with
  | @new i o _ h =>
    rw [C37_new] at h
    split at h
    · cases h; assumption
    · cases h
  | @borrow ops rs b _ h hb =>
    obtain ⟨b', h1, h2, h3⟩ := C37_buffer ops
    rw [h] at h1; cases h1
    rw [hb] at h2; cases h2
    exact h3

/-- C37: the reply made from any retry list (with any result set afterwards) carries at most 256
iovecs; the counts in its record equal the numbers of input and output iovecs that follow it, inputs
first; it is marked as a retry and nothing else follows. -/
theorem C37_reply (r : IoctlRetry) (h : Retry r) (result : Option Int32) (minor : Nat) :
    let x := (match result with
      | none => IoctlResponse.newRetry r
      | some v => (IoctlResponse.newRetry r).setResult v)
    let p := (FuseReply.ioctl x).payload minor
    p = (CuseReply.ioctl x).payload ∧
    u32At p 0 = (result.getD 0).toUInt32.toNat ∧ u32At p 4 = 4 ∧
    u32At p 8 = r.input.length ∧ u32At p 12 = r.output.length ∧
    u32At p 8 + u32At p 12 ≤ 256 ∧
    p.drop 16 = iovecBytes r.input ++ iovecBytes r.output ∧
    p.length = 16 + 16 * (u32At p 8 + u32At p 12) := by
  have hle := h.le
  have hv : ∀ xs : List IoctlSlice, (iovecBytes xs).length = 16 * xs.length := by
    intro xs
    induction xs with
    | nil => rfl
    | cons x xs ih =>
      have : iovecBytes (x :: xs) = (le64 x.base ++ le64 x.len) ++ iovecBytes xs := rfl
      rw [this, List.length_append, ih, List.length_append, le64_length, le64_length,
        List.length_cons]
      omega
  have key : ∀ v : Int32,
      let p := leI32 v ++ le32 4 ++ le32 (UInt32.ofNat r.input.length) ++
        le32 (UInt32.ofNat r.output.length) ++ (iovecBytes r.input ++ iovecBytes r.output)
      u32At p 0 = v.toUInt32.toNat ∧ u32At p 4 = 4 ∧
      u32At p 8 = r.input.length ∧ u32At p 12 = r.output.length ∧
      u32At p 8 + u32At p 12 ≤ 256 ∧
      p.drop 16 = iovecBytes r.input ++ iovecBytes r.output ∧
      p.length = 16 + 16 * (u32At p 8 + u32At p 12) := by
    intro v p
    have h8 : u32At p 8 = r.input.length := by
      show u32At (_ ++ _) 8 = _
      read_at; rw [UInt32.toNat_ofNat']; omega
    have h12 : u32At p 12 = r.output.length := by
      show u32At (_ ++ _) 12 = _
      read_at; rw [UInt32.toNat_ofNat']; omega
    refine ⟨?_, ?_, h8, h12, by omega, List.drop_left' (by simp), ?_⟩
    · show u32At (_ ++ _) 0 = _
      read_at
    · show u32At (_ ++ _) 4 = _
      read_at; rfl
    · rw [h8, h12]
      show (_ ++ _ : Bytes).length = _
      simp only [List.length_append, hv, le32_length, leI32_length]; omega
  cases result with
  | none => exact ⟨rfl, key 0⟩
  | some v => exact ⟨rfl, key v⟩

/-- Two inputs and one output; the reply counts 2 and 1. -/
example :
    ∃ b r, RetryOp.runAll [.inputPtr 0x1000 8, .outputSlice ⟨0x2000, 16⟩, .inputSlice ⟨0x3000, 4⟩] .new
        = .ok ([.ok (), .ok (), .ok ()], b) ∧ b.borrow = .ok r ∧
      r = ⟨[⟨0x1000, 8⟩, ⟨0x3000, 4⟩], [⟨0x2000, 16⟩]⟩ ∧
      ((FuseReply.ioctl (.newRetry r)).payload 31).take 16 =
        [0, 0, 0, 0, 4, 0, 0, 0, 2, 0, 0, 0, 1, 0, 0, 0] := by
  obtain ⟨b, h1, h2, -⟩ := C37_buffer [.inputPtr 0x1000 8, .outputSlice ⟨0x2000, 16⟩,
    .inputSlice ⟨0x3000, 4⟩]
  exact ⟨b, ⟨[⟨0x1000, 8⟩, ⟨0x3000, 4⟩], [⟨0x2000, 16⟩]⟩, h1, h2, rfl, by decide⟩

/-! ## C39: error codes -/

/-- C39 (Linux): every error number becomes its negation, which is strictly negative, and no
undefined behaviour is involved. -/
theorem C39_linux (errno : { e : UInt16 // e ≠ 0 }) :
    ∃ e, linuxError errno = .ok e ∧ e.val.toInt = -(errno.val.toNat : Int) ∧ e.val.toInt < 0 := by
  have hlt := errno.val.toNat_lt
  have hpos : 0 < errno.val.toNat := Nat.pos_of_ne_zero fun h =>
    errno.2 (UInt16.toNat_inj.mp h)
  have hv : (errno.val.toUInt32.toInt32).toInt = errno.val.toNat := by
    show BitVec.toInt errno.val.toUInt32.toBitVec = _
    rw [BitVec.toInt_eq_toNat_bmod]
    show Int.bmod (errno.val.toUInt32.toNat : Int) _ = _
    rw [UInt16.toNat_toUInt32, Int.bmod_eq_of_le (by omega) (by omega)]
  have hn : (-(errno.val.toUInt32.toInt32)).toInt = -(errno.val.toNat : Int) := by
    rw [Int32.toInt_neg, hv, Int.bmod_eq_of_le (by omega) (by omega)]
  have h0 : -(errno.val.toUInt32.toInt32) ≠ 0 := fun h => by
    rw [h] at hn; have : (0 : Int32).toInt = 0 := rfl
    omega
  refine ⟨⟨_, h0⟩, ?_, hn, by simp only [hn]; omega⟩
  unfold linuxError
  simp only
  rw [dif_pos h0]

/-- C39 (FreeBSD): every error number becomes a strictly negative code; the negation exactly for
error numbers between 1 and 65535, and -65535 for all others. -/
theorem C39_freebsd (errno : { e : Int32 // e ≠ 0 }) :
    ∃ e, freebsdError errno = .ok e ∧ e.val.toInt < 0 ∧
      (1 ≤ errno.val.toInt ∧ errno.val.toInt ≤ 65535 → e.val.toInt = -errno.val.toInt) ∧
      (¬ (1 ≤ errno.val.toInt ∧ errno.val.toInt ≤ 65535) → e.val.toInt = -65535) := by
  have hz : errno.val.toInt ≠ 0 := fun h => errno.2 (Int32.toInt_inj.mp (by rw [h]; rfl))
  have hlt : errno.val < 0 ↔ errno.val.toInt < 0 := Int32.lt_iff_toInt_lt
  have hgt : errno.val > 65535 ↔ 65535 < errno.val.toInt := by
    show (65535 : Int32) < errno.val ↔ _
    rw [Int32.lt_iff_toInt_lt]; rfl
  unfold freebsdError
  simp only
  by_cases h : errno.val < 0 ∨ errno.val > 65535
  · simp only [if_pos h]
    rw [dif_pos (by decide)]
    refine ⟨_, rfl, (by decide : (-65535 : Int32).toInt < 0), fun h' => ?_, fun _ => rfl⟩
    rw [hlt, hgt] at h; omega
  · simp only [if_neg h]
    rw [hlt, hgt] at h
    have hn : (-errno.val).toInt = -errno.val.toInt := by
      rw [Int32.toInt_neg, Int.bmod_eq_of_le (by omega) (by omega)]
    have h0 : -errno.val ≠ 0 := fun e => by
      rw [e] at hn; have : (0 : Int32).toInt = 0 := rfl
      omega
    rw [dif_pos h0]
    exact ⟨_, rfl, by simp only [hn]; omega, fun _ => hn, fun h' => by omega⟩

/-- C39 fails as stated on FreeBSD: the kernel-internal error `ERESTART` (-1) is not negated. -/
theorem C39_violated_freebsd :
    ∃ errno e, freebsdError errno = .ok e ∧ e.val.toInt ≠ -errno.val.toInt :=
  ⟨⟨-1, by decide⟩, ⟨-65535, by decide⟩, by decide, by decide⟩

/-- ENOENT on both platforms. -/
example : linuxError ⟨2, by decide⟩ = .ok ⟨-2, by decide⟩ ∧
    freebsdError ⟨2, by decide⟩ = .ok ⟨-2, by decide⟩ ∧
    linuxError ⟨65535, by decide⟩ = .ok ⟨-65535, by decide⟩ := by decide

/-- The error number (positive) that a 16-byte message carries. -/
def errnoIn (msg : Bytes) : Int := -(UInt32.toInt32 (UInt32.ofNat (u32At msg 4))).toInt

/-- C39: answering with a Linux error number, over FUSE or CUSE, is one message of 16 bytes with this request's
identifier and the error number in the error field. -/
theorem C39_reply_linux (sock : Socket σ ε) (fuse : FuseLayout) (cuse : CuseLayout) (id : NonZeroU64)
    (errno : { e : UInt16 // e ≠ 0 }) (s : σ) :
    ∃ e msg, linuxError errno = .ok e ∧ msg.length = 16 ∧ u64At msg 8 = id.val.toNat ∧
      errnoIn msg = errno.val.toNat ∧
      (∃ buf, Carries buf msg ∧ (FuseAnswer.err e).run (.new sock fuse id) s = sock.send buf s) ∧
      (∃ buf, Carries buf msg ∧ (CuseAnswer.err e).run (.new sock cuse id) s = sock.send buf s) := by
  obtain ⟨e, h1, h2, -⟩ := C39_linux errno
  obtain ⟨f1, f2, f3, f4⟩ := C17_frame id.val e.val [] (by decide)
  refine ⟨e, frame id.val e.val [], h1, by rw [← f1]; rfl, f3, ?_, C17_fuse sock fuse id (.err e) s (show 16 + 0 < 2 ^ 32 by decide),
    C17_cuse sock cuse id (.err e) s (show 16 + 0 < 2 ^ 32 by decide)⟩
  unfold errnoIn
  rw [f2, UInt32.ofNat_toNat, Int32.toInt32_toUInt32, h2]; omega

/-- C39: the same on FreeBSD, for the error numbers the protocol has room for. -/
theorem C39_reply_freebsd_partial (sock : Socket σ ε) (fuse : FuseLayout) (cuse : CuseLayout) (id : NonZeroU64)
    (errno : { e : Int32 // e ≠ 0 }) (h : 1 ≤ errno.val.toInt ∧ errno.val.toInt ≤ 65535) (s : σ) :
    ∃ e msg, freebsdError errno = .ok e ∧ msg.length = 16 ∧ u64At msg 8 = id.val.toNat ∧
      errnoIn msg = errno.val.toInt ∧
      (∃ buf, Carries buf msg ∧ (FuseAnswer.err e).run (.new sock fuse id) s = sock.send buf s) ∧
      (∃ buf, Carries buf msg ∧ (CuseAnswer.err e).run (.new sock cuse id) s = sock.send buf s) := by
  obtain ⟨e, h1, -, h2, -⟩ := C39_freebsd errno
  obtain ⟨f1, f2, f3, f4⟩ := C17_frame id.val e.val [] (by decide)
  refine ⟨e, frame id.val e.val [], h1, by rw [← f1]; rfl, f3, ?_, C17_fuse sock fuse id (.err e) s (show 16 + 0 < 2 ^ 32 by decide),
    C17_cuse sock cuse id (.err e) s (show 16 + 0 < 2 ^ 32 by decide)⟩
  unfold errnoIn
  rw [f2, UInt32.ofNat_toNat, Int32.toInt32_toUInt32, h2 h]; omega

/-- The named constants with the numbers that `errno(3)` of Linux and `errno(2)` of FreeBSD give the documented
errors. -/
def documentedErrors : List (OsErrorName × Int × Int) :=
  [(.interrupted, 4, 4), (.invalidArgument, 22, 22), (.isDirectory, 21, 21), (.notDirectory, 20, 20),
    (.notFound, 2, 2), (.notSupported, 95, 45), (.overflow, 75, 84), (.protocolError, 71, 92),
    (.unavailable, 11, 35), (.unimplemented, 38, 78), (.xattrNotFound, 61, 87), (.xattrTooBig, 7, 7)]

/-- C39: a reply with a named constant carries the documented error number of the platform, and different
constants are different errors. -/
theorem C39_names (sock : Socket σ ε) (layout : FuseLayout) (id : NonZeroU64) (n : OsErrorName) (s : σ) :
    (∃ linux freebsd msg msg', (n, linux, freebsd) ∈ documentedErrors ∧
      errnoIn msg = linux ∧ errnoIn msg' = freebsd ∧
      (∃ buf, Carries buf msg ∧ (FuseAnswer.err n.linux).run (.new sock layout id) s = sock.send buf s) ∧
      (∃ buf, Carries buf msg' ∧ (FuseAnswer.err n.freebsd).run (.new sock layout id) s = sock.send buf s)) ∧
    (∀ n', n.linux = n'.linux ∨ n.freebsd = n'.freebsd → n = n') := by
  refine ⟨?_, fun n' => by cases n <;> cases n' <;> decide⟩
  have hcarry : ∀ e : FuseError, errnoIn (frame id.val e.val []) = -e.val.toInt := fun e => by
    unfold errnoIn
    rw [(C17_frame id.val e.val [] (by decide)).2.1, UInt32.ofNat_toNat, Int32.toInt32_toUInt32]
  refine ⟨-n.linux.val.toInt, -n.freebsd.val.toInt, _, _, ?_, hcarry _, hcarry _,
    C17_fuse sock layout id (.err n.linux) s (show 16 + 0 < 2 ^ 32 by decide),
    C17_fuse sock layout id (.err n.freebsd) s (show 16 + 0 < 2 ^ 32 by decide)⟩
  cases n <;> decide

/-- The bytes of "not found" in answer to request 7. -/
example : ((FuseAnswer.err OsErrorName.notFound.linux).run (ε := Unit) (.new (recorder (.ok ())) ⟨31, 0⟩ ⟨7, by decide⟩)
    []).2.map (·.chunks.toOption.map List.flatten) =
    [some [16, 0, 0, 0, 0xFE, 0xFF, 0xFF, 0xFF, 7, 0, 0, 0, 0, 0, 0, 0]] := by decide +kernel

/-! ## C51: ioctl input -/

/-- Reading `len` bytes. -/
theorem C51_read (bytes : Bytes) (len : Nat) :
    ioctlRead bytes len =
      if len ≤ bytes.length then (.ok (bytes.take len), bytes.drop len)
      else (.error .unexpectedEof, bytes) := by
  unfold ioctlRead
  by_cases h1 : len = bytes.length
  · subst h1; simp
  · rw [if_neg h1]
    by_cases h2 : len > bytes.length
    · rw [if_pos h2, if_neg (by omega)]
    · rw [if_neg h2, if_pos (by omega)]

/-- A sequence of reads: the results and the input left over. -/
def ioctlReads : List Nat → Bytes → List (Except IoctlInputError Bytes) × Bytes
  | [], bs => ([], bs)
  | n :: ns, bs =>
    let r := ioctlRead bs n
    let t := ioctlReads ns r.2
    (r.1 :: t.1, t.2)

/-- C51: any sequence of reads partitions the input: the successful results and the rest, in order,
are the input; a failed read consumes nothing; each result has the requested length. -/
theorem C51_reads (ns : List Nat) (bs : Bytes) :
    let t := ioctlReads ns bs
    (t.1.map fun r => match r with | .ok b => b | .error _ => []).flatten ++ t.2 = bs ∧
    t.1.length = ns.length ∧
    ∀ i (h : i < t.1.length) b, t.1[i] = .ok b → ns[i]? = some b.length := by
  induction ns generalizing bs with
  | nil => exact ⟨rfl, rfl, fun i h => absurd h (by simp [ioctlReads])⟩
  | cons n ns ih =>
    obtain ⟨h1, h2, h3⟩ := ih (ioctlRead bs n).2
    refine ⟨?_, by simp only [ioctlReads, List.length_cons, h2], ?_⟩
    · simp only [ioctlReads, List.map_cons, List.flatten_cons, List.append_assoc, h1]
      rw [C51_read]
      by_cases hle : n ≤ bs.length
      · simp only [if_pos hle]; exact List.take_append_drop _ _
      · simp only [if_neg hle]; rfl
    · intro i h b hb
      cases i with
      | zero =>
        simp only [ioctlReads, List.getElem_cons_zero] at hb
        rw [C51_read] at hb
        split at hb
        · cases hb
          rename_i hle
          rw [List.getElem?_cons_zero, List.length_take, Nat.min_eq_left hle]
        · cases hb
      | succ i =>
        simp only [ioctlReads, List.getElem_cons_succ] at hb
        rw [List.getElem?_cons_succ]
        exact h3 i (by simpa [ioctlReads] using h) b hb

/-- C51: reading a fixed-size array never reads outside the input and yields the next `n` bytes. -/
theorem C51_array (n : Nat) (bytes : Bytes) :
    ioctlReadArray n bytes = .ok (
      if n ≤ bytes.length then (.ok (bytes.take n), bytes.drop n)
      else (.error .unexpectedEof, bytes)) := by
  unfold ioctlReadArray
  rw [C51_read]
  by_cases h : n ≤ bytes.length
  · simp only [if_pos h]
    rw [if_pos (by rw [List.length_take]; omega), List.take_take, Nat.min_self]
  · simp only [if_neg h]

/-- Reading 2, 5 (too much), 3 bytes of a five-byte input. -/
example : ioctlReads [2, 5, 3, 0] [1, 2, 3, 4, 5] =
    ([.ok [1, 2], .error .unexpectedEof, .ok [3, 4, 5], .ok []], []) := by decide

end Fuse
