import Verif.Wire

/-!
# Specification vocabulary: bytes on the wire

Little-endian integers, written out byte by byte.  Nothing here refers to the model of the code;
the protocol messages in the theorem statements are concatenations of these.
-/

deriving instance DecidableEq for Except

namespace Fuse.Spec

/-- The little-endian bytes of a 16-bit integer. -/
def le16 (n : UInt16) : Bytes := [n.toUInt8, (n >>> 8).toUInt8]

/-- The little-endian bytes of a 32-bit integer. -/
def le32 (n : UInt32) : Bytes :=
  [n.toUInt8, (n >>> 8).toUInt8, (n >>> 16).toUInt8, (n >>> 24).toUInt8]

/-- The little-endian bytes of a 64-bit integer. -/
def le64 (n : UInt64) : Bytes :=
  [n.toUInt8, (n >>> 8).toUInt8, (n >>> 16).toUInt8, (n >>> 24).toUInt8,
    (n >>> 32).toUInt8, (n >>> 40).toUInt8, (n >>> 48).toUInt8, (n >>> 56).toUInt8]

/-- Two's complement of a signed 32-bit integer. -/
def leI32 (n : Int32) : Bytes := le32 n.toUInt32

/-- Two's complement of a signed 64-bit integer. -/
def leI64 (n : Int64) : Bytes := le64 n.toUInt64

/-- The byte at offset `i` (0 past the end; used only inside the string). -/
def u8At (bs : Bytes) (i : Nat) : Nat := (bs.getD i 0).toNat

/-- The 32-bit little-endian integer at offset `i`. -/
def u32At (bs : Bytes) (i : Nat) : Nat :=
  u8At bs i + 2 ^ 8 * u8At bs (i + 1) + 2 ^ 16 * u8At bs (i + 2) + 2 ^ 24 * u8At bs (i + 3)

/-- The 64-bit little-endian integer at offset `i`. -/
def u64At (bs : Bytes) (i : Nat) : Nat := u32At bs i + 2 ^ 32 * u32At bs (i + 4)

/-- `bs` starts at offset `i` of `buf`. -/
def At (buf : Bytes) (i : Nat) (bs : Bytes) : Prop := ∃ pre post, buf = pre ++ bs ++ post ∧ pre.length = i

end Fuse.Spec

namespace Fuse
open Spec

@[simp] theorem le16_length (n) : (le16 n).length = 2 := rfl
@[simp] theorem le32_length (n) : (le32 n).length = 4 := rfl
@[simp] theorem le64_length (n) : (le64 n).length = 8 := rfl
@[simp] theorem leI32_length (n) : (leI32 n).length = 4 := rfl
@[simp] theorem leI64_length (n) : (leI64 n).length = 8 := rfl

theorem enc_u8 (n : UInt8) : enc n = [n] := by
  show [UInt8.ofNat n.toNat] = [n]
  simp

theorem enc_u16 (n : UInt16) : enc n = le16 n := by
  show leEnc 2 n.toNat = le16 n
  simp only [leEnc, le16, List.cons.injEq, and_true]
  refine ⟨?_, ?_⟩ <;> apply UInt8.toNat_inj.mp <;>
    simp [Nat.shiftRight_eq_div_pow]

theorem enc_u32 (n : UInt32) : enc n = le32 n := by
  show leEnc 4 n.toNat = le32 n
  simp only [leEnc, le32, List.cons.injEq, and_true]
  refine ⟨?_, ?_, ?_, ?_⟩ <;> apply UInt8.toNat_inj.mp <;>
    simp [Nat.shiftRight_eq_div_pow, Nat.div_div_eq_div_mul]

theorem enc_u64 (n : UInt64) : enc n = le64 n := by
  show leEnc 8 n.toNat = le64 n
  simp only [leEnc, le64, List.cons.injEq, and_true]
  refine ⟨?_, ?_, ?_, ?_, ?_, ?_, ?_, ?_⟩ <;> apply UInt8.toNat_inj.mp <;>
    simp [Nat.shiftRight_eq_div_pow, Nat.div_div_eq_div_mul]

theorem enc_i32 (n : Int32) : enc n = leI32 n := enc_u32 _
theorem enc_i64 (n : Int64) : enc n = leI64 n := enc_u64 _

theorem enc_prod {α β : Type} [Wire α] [Wire β] (p : α × β) : enc p = enc p.1 ++ enc p.2 := rfl

theorem leDec_four {bs : Bytes} {i : Nat} (h : i + 4 ≤ bs.length) :
    leDec ((bs.drop i).take 4) = u32At bs i := by
  have e : (bs.drop i).take 4 = [bs.getD i 0, bs.getD (i+1) 0, bs.getD (i+2) 0, bs.getD (i+3) 0] := by
    apply List.ext_getElem?
    intro k
    rw [List.getElem?_take]
    rcases k with _ | _ | _ | _ | k
    case succ.succ.succ.succ =>
      rw [if_neg (by omega)]; rfl
    all_goals
      simp [List.getElem?_drop, List.getD_eq_getElem?_getD]
      rw [List.getElem?_eq_getElem (by omega)]; rfl
  rw [e]
  simp only [leDec, u32At, u8At]
  omega

theorem leDec_append (a b : Bytes) : leDec (a ++ b) = leDec a + 256 ^ a.length * leDec b := by
  induction a with
  | nil => simp [leDec]
  | cons x a ih =>
    simp only [List.cons_append, leDec, ih, List.length_cons, Nat.pow_succ]
    rw [Nat.mul_add, Nat.mul_comm (256 ^ a.length) 256, Nat.mul_assoc]; omega

theorem leDec_eight {bs : Bytes} {i : Nat} (h : i + 8 ≤ bs.length) :
    leDec ((bs.drop i).take 8) = u64At bs i := by
  have e : (bs.drop i).take 8 = (bs.drop i).take 4 ++ (bs.drop (i + 4)).take 4 := by
    rw [show 8 = 4 + 4 from rfl, List.take_add, List.drop_drop]
  rw [e, leDec_append, leDec_four (by omega), leDec_four (by omega)]
  rw [List.length_take, List.length_drop, Nat.min_eq_left (by omega)]
  rfl

theorem u32At_lt (bs i) : u32At bs i < 2 ^ 32 := by
  have h : ∀ j, u8At bs j < 256 := fun j => (bs.getD j 0).toNat_lt
  have := h i; have := h (i+1); have := h (i+2); have := h (i+3)
  unfold u32At; omega

theorem u64At_lt (bs i) : u64At bs i < 2 ^ 64 := by
  have := u32At_lt bs i; have := u32At_lt bs (i+4)
  unfold u64At; omega

theorem dec_u32_toNat {bs : Bytes} {i : Nat} (h : i + 4 ≤ bs.length) :
    (dec ((bs.drop i).take 4) : UInt32).toNat = u32At bs i := by
  show (UInt32.ofNat (leDec _)).toNat = _
  rw [leDec_four h, UInt32.toNat_ofNat']
  exact Nat.mod_eq_of_lt (u32At_lt _ _)

theorem dec_u64_toNat {bs : Bytes} {i : Nat} (h : i + 8 ≤ bs.length) :
    (dec ((bs.drop i).take 8) : UInt64).toNat = u64At bs i := by
  show (UInt64.ofNat (leDec _)).toNat = _
  rw [leDec_eight h, UInt64.toNat_ofNat']
  exact Nat.mod_eq_of_lt (u64At_lt _ _)

end Fuse
