import Verif.Spec

/-!
# Reading integers at offsets of a message

`u16At`, `u32At` and `u64At` are how a client reads a field.  The lemmas evaluate them on messages
written as concatenations of little-endian integers.
-/

namespace Fuse
namespace Spec

/-- The 16-bit little-endian integer at offset `i`. -/
def u16At (bs : Bytes) (i : Nat) : Nat := u8At bs i + 256 * u8At bs (i + 1)

theorem u8At_append (a b : Bytes) (i : Nat) : u8At (a ++ b) (i + a.length) = u8At b i := by
  unfold u8At
  rw [List.getD_eq_getElem?_getD, List.getD_eq_getElem?_getD, List.getElem?_append_right (by omega)]
  congr 4; omega

theorem u16At_append (a b : Bytes) (i : Nat) : u16At (a ++ b) (i + a.length) = u16At b i := by
  have h (k : Nat) : u8At (a ++ b) (i + a.length + k) = u8At b (i + k) := by
    rw [← u8At_append a b (i + k)]; congr 1; omega
  unfold u16At; rw [u8At_append, h]

theorem u32At_append (a b : Bytes) (i : Nat) : u32At (a ++ b) (i + a.length) = u32At b i := by
  have h (k : Nat) : u8At (a ++ b) (i + a.length + k) = u8At b (i + k) := by
    rw [← u8At_append a b (i + k)]; congr 1; omega
  unfold u32At; rw [u8At_append, h, h, h]

theorem u64At_append (a b : Bytes) (i : Nat) : u64At (a ++ b) (i + a.length) = u64At b i := by
  have h : u32At (a ++ b) (i + a.length + 4) = u32At b (i + 4) := by
    rw [← u32At_append a b (i + 4)]; congr 1; omega
  unfold u64At; rw [u32At_append, h]

theorem u16At_skip16 (n : UInt16) (b : Bytes) (i : Nat) : u16At (le16 n ++ b) (i + 2) = u16At b i :=
  u16At_append (le16 n) b i
theorem u16At_skip32 (n : UInt32) (b : Bytes) (i : Nat) : u16At (le32 n ++ b) (i + 4) = u16At b i :=
  u16At_append (le32 n) b i
theorem u16At_skip64 (n : UInt64) (b : Bytes) (i : Nat) : u16At (le64 n ++ b) (i + 8) = u16At b i :=
  u16At_append (le64 n) b i
theorem u32At_skip16 (n : UInt16) (b : Bytes) (i : Nat) : u32At (le16 n ++ b) (i + 2) = u32At b i :=
  u32At_append (le16 n) b i
theorem u32At_skip32 (n : UInt32) (b : Bytes) (i : Nat) : u32At (le32 n ++ b) (i + 4) = u32At b i :=
  u32At_append (le32 n) b i
theorem u32At_skipI32 (n : Int32) (b : Bytes) (i : Nat) : u32At (leI32 n ++ b) (i + 4) = u32At b i :=
  u32At_append (leI32 n) b i
theorem u32At_skip64 (n : UInt64) (b : Bytes) (i : Nat) : u32At (le64 n ++ b) (i + 8) = u32At b i :=
  u32At_append (le64 n) b i
theorem u64At_skip16 (n : UInt16) (b : Bytes) (i : Nat) : u64At (le16 n ++ b) (i + 2) = u64At b i :=
  u64At_append (le16 n) b i
theorem u64At_skip32 (n : UInt32) (b : Bytes) (i : Nat) : u64At (le32 n ++ b) (i + 4) = u64At b i :=
  u64At_append (le32 n) b i
theorem u64At_skipI32 (n : Int32) (b : Bytes) (i : Nat) : u64At (leI32 n ++ b) (i + 4) = u64At b i :=
  u64At_append (leI32 n) b i
theorem u64At_skip64 (n : UInt64) (b : Bytes) (i : Nat) : u64At (le64 n ++ b) (i + 8) = u64At b i :=
  u64At_append (le64 n) b i

theorem u16At_le16 (n : UInt16) (b : Bytes) : u16At (le16 n ++ b) 0 = n.toNat := by
  have := n.toNat_lt
  simp only [u16At, u8At, le16, List.cons_append, List.nil_append, List.getD_cons_zero,
    List.getD_cons_succ, UInt16.toNat_toUInt8, UInt16.toNat_shiftRight]
  simp only [Nat.shiftRight_eq_div_pow, show (8 : UInt16).toNat % 16 = 8 from rfl]
  omega

theorem u32At_le32 (n : UInt32) (b : Bytes) : u32At (le32 n ++ b) 0 = n.toNat := by
  have := n.toNat_lt
  simp only [u32At, u8At, le32, List.cons_append, List.nil_append, List.getD_cons_zero,
    List.getD_cons_succ, UInt32.toNat_toUInt8, UInt32.toNat_shiftRight, Nat.zero_add]
  simp only [Nat.shiftRight_eq_div_pow, show (8 : UInt32).toNat % 32 = 8 from rfl,
    show (16 : UInt32).toNat % 32 = 16 from rfl, show (24 : UInt32).toNat % 32 = 24 from rfl]
  omega

theorem u32At_leI32 (n : Int32) (b : Bytes) : u32At (leI32 n ++ b) 0 = n.toUInt32.toNat :=
  u32At_le32 _ _

theorem u64At_le64 (n : UInt64) (b : Bytes) : u64At (le64 n ++ b) 0 = n.toNat := by
  have := n.toNat_lt
  simp only [u64At, u32At, u8At, le64, List.cons_append, List.nil_append, List.getD_cons_zero,
    List.getD_cons_succ, UInt64.toNat_toUInt8, UInt64.toNat_shiftRight, Nat.zero_add]
  simp only [Nat.shiftRight_eq_div_pow, show (8 : UInt64).toNat % 64 = 8 from rfl,
    show (16 : UInt64).toNat % 64 = 16 from rfl, show (24 : UInt64).toNat % 64 = 24 from rfl,
    show (32 : UInt64).toNat % 64 = 32 from rfl, show (40 : UInt64).toNat % 64 = 40 from rfl,
    show (48 : UInt64).toNat % 64 = 48 from rfl, show (56 : UInt64).toNat % 64 = 56 from rfl]
  omega

theorem u16At_le16' (n : UInt16) : u16At (le16 n) 0 = n.toNat := by
  have := u16At_le16 n []; rwa [List.append_nil] at this
theorem u32At_le32' (n : UInt32) : u32At (le32 n) 0 = n.toNat := by
  have := u32At_le32 n []; rwa [List.append_nil] at this
theorem u64At_le64' (n : UInt64) : u64At (le64 n) 0 = n.toNat := by
  have := u64At_le64 n []; rwa [List.append_nil] at this

/-- Evaluate reads of integers at fixed offsets of a concatenation. -/
macro "read_at" : tactic =>
  `(tactic| simp only [List.append_assoc, u16At_skip16, u16At_skip32, u16At_skip64, u32At_skip16,
    u32At_skip32, u32At_skipI32, u32At_skip64, u64At_skip16, u64At_skip32, u64At_skipI32,
    u64At_skip64, u16At_le16, u32At_le32, u32At_leI32, u64At_le64, u16At_le16', u32At_le32',
    u64At_le64'])

example (a : UInt64) (b c : UInt32) (d : UInt16) :
    u32At (le64 a ++ le32 b ++ le32 c ++ le16 d) 12 = c.toNat ∧
      u16At (le64 a ++ le32 b ++ le32 c ++ le16 d) 16 = d.toNat := by
  constructor <;> read_at

end Spec
end Fuse
