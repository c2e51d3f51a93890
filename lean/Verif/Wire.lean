/-!
# Bytes, little-endian integers and fixed-size wire records

The library reads and writes `#[repr(C)]` records by casting pointers
(`fuse/kernel.rs:1745-1749` `as_bytes`, `fuse/server/decode.rs:106-126`
`peek_sized`/`next_sized`).  On a little-endian target such a cast is exactly the
concatenation of the little-endian encodings of the fields, provided the record has no
implicit padding.  `Wire` packages that view together with its laws.

Simplification: little-endian targets only (the native-endian cast of the code is modelled
for x86-64/aarch64-le).
-/

namespace Fuse

/-- A byte string; models `&[u8]`. -/
abbrev Bytes := List UInt8

/-- `n`-byte little-endian encoding of `v` (truncating). -/
def leEnc : Nat → Nat → Bytes
  | 0, _ => []
  | n + 1, v => UInt8.ofNat v :: leEnc n (v / 256)

/-- Little-endian value of a byte string. -/
def leDec : Bytes → Nat
  | [] => 0
  | b :: bs => b.toNat + 256 * leDec bs

@[simp] theorem leEnc_length (n v : Nat) : (leEnc n v).length = n := by
  induction n generalizing v with
  | zero => rfl
  | succ n ih => simp [leEnc, ih]

theorem leDec_lt (bs : Bytes) : leDec bs < 256 ^ bs.length := by
  induction bs with
  | nil => simp [leDec]
  | cons b bs ih =>
    have hb := b.toNat_lt
    simp only [leDec, List.length_cons, Nat.pow_succ]
    omega

theorem leDec_leEnc (n v : Nat) : leDec (leEnc n v) = v % 256 ^ n := by
  induction n generalizing v with
  | zero => simp [leEnc, leDec, Nat.mod_one]
  | succ n ih =>
    simp only [leEnc, leDec, ih, UInt8.toNat_ofNat']
    have h : (256 : Nat) ^ (n + 1) = 256 * 256 ^ n := by rw [Nat.pow_succ, Nat.mul_comm]
    rw [h, Nat.mod_mul]

theorem leEnc_leDec (bs : Bytes) : leEnc bs.length (leDec bs) = bs := by
  induction bs with
  | nil => rfl
  | cons b bs ih =>
    have hb := b.toNat_lt
    simp only [leDec, List.length_cons, leEnc]
    have h1 : (b.toNat + 256 * leDec bs) / 256 = leDec bs := by omega
    rw [h1, ih]
    congr 1
    apply UInt8.toNat_inj.mp
    rw [UInt8.toNat_ofNat']
    omega

/-- A fixed-size wire record: `size` bytes, required alignment `align`, encoder, decoder and
the laws making the two mutually inverse. -/
class Wire (α : Type) where
  size : Nat
  align : Nat
  enc : α → Bytes
  dec : Bytes → α
  enc_length : ∀ a, (enc a).length = size
  dec_enc : ∀ a, dec (enc a) = a
  enc_dec : ∀ bs, bs.length = size → enc (dec bs) = bs

export Wire (enc dec)

attribute [simp] Wire.enc_length Wire.dec_enc

theorem Wire.enc_injective {α} [Wire α] {a b : α} (h : enc a = enc b) : a = b := by
  rw [← Wire.dec_enc a, h, Wire.dec_enc]

instance : Wire UInt8 where
  size := 1
  align := 1
  enc x := leEnc 1 x.toNat
  dec bs := UInt8.ofNat (leDec bs)
  enc_length _ := by simp
  dec_enc x := by
    rw [leDec_leEnc]; apply UInt8.toNat_inj.mp
    have := x.toNat_lt
    rw [UInt8.toNat_ofNat']; omega
  enc_dec bs h := by
    have h1 := leDec_lt bs
    rw [h] at h1
    rw [UInt8.toNat_ofNat', Nat.mod_eq_of_lt (by omega), ← h, leEnc_leDec]

instance : Wire UInt16 where
  size := 2
  align := 2
  enc x := leEnc 2 x.toNat
  dec bs := UInt16.ofNat (leDec bs)
  enc_length _ := by simp
  dec_enc x := by
    rw [leDec_leEnc]; apply UInt16.toNat_inj.mp
    have := x.toNat_lt
    rw [UInt16.toNat_ofNat']; omega
  enc_dec bs h := by
    have h1 := leDec_lt bs
    rw [h] at h1
    rw [UInt16.toNat_ofNat', Nat.mod_eq_of_lt (by omega), ← h, leEnc_leDec]

instance : Wire UInt32 where
  size := 4
  align := 4
  enc x := leEnc 4 x.toNat
  dec bs := UInt32.ofNat (leDec bs)
  enc_length _ := by simp
  dec_enc x := by
    rw [leDec_leEnc]; apply UInt32.toNat_inj.mp
    have := x.toNat_lt
    rw [UInt32.toNat_ofNat']; omega
  enc_dec bs h := by
    have h1 := leDec_lt bs
    rw [h] at h1
    rw [UInt32.toNat_ofNat', Nat.mod_eq_of_lt (by omega), ← h, leEnc_leDec]

instance : Wire UInt64 where
  size := 8
  align := 8
  enc x := leEnc 8 x.toNat
  dec bs := UInt64.ofNat (leDec bs)
  enc_length _ := by simp
  dec_enc x := by
    rw [leDec_leEnc]; apply UInt64.toNat_inj.mp
    have := x.toNat_lt
    rw [UInt64.toNat_ofNat']; omega
  enc_dec bs h := by
    have h1 := leDec_lt bs
    rw [h] at h1
    rw [UInt64.toNat_ofNat', Nat.mod_eq_of_lt (by omega), ← h, leEnc_leDec]

/-- Transport along a bijection. -/
@[reducible] def Wire.iso {α β : Type} [Wire β] (f : α → β) (g : β → α)
    (gf : ∀ a, g (f a) = a) (fg : ∀ b, f (g b) = b) : Wire α where
  size := Wire.size β
  align := Wire.align β
  enc a := enc (f a)
  dec bs := g (dec bs)
  enc_length _ := by simp
  dec_enc a := by simp [gf]
  enc_dec bs h := by rw [fg, Wire.enc_dec bs h]

instance : Wire Int32 :=
  Wire.iso (β := UInt32) Int32.toUInt32 UInt32.toInt32 (by intro a; simp) (by intro a; simp)

instance : Wire Int64 :=
  Wire.iso (β := UInt64) Int64.toUInt64 UInt64.toInt64 (by intro a; simp) (by intro a; simp)

instance {α β : Type} [Wire α] [Wire β] : Wire (α × β) where
  size := Wire.size α + Wire.size β
  align := max (Wire.align α) (Wire.align β)
  enc p := enc p.1 ++ enc p.2
  dec bs := (dec (bs.take (Wire.size α)), dec (bs.drop (Wire.size α)))
  enc_length _ := by simp
  dec_enc p := by
    have h := Wire.enc_length p.1
    simp only [← h, List.take_left', List.drop_left', Wire.dec_enc]
  enc_dec bs h := by
    show enc (dec (bs.take (Wire.size α)) : α) ++ enc (dec (bs.drop (Wire.size α)) : β) = bs
    rw [Wire.enc_dec _ (by rw [List.length_take]; omega),
      Wire.enc_dec _ (by rw [List.length_drop]; omega), List.take_append_drop]

/-- An opaque run of `n` reserved `u32` words (private array fields such as `unused: [u32; 11]`). -/
structure Reserved (n : Nat) where
  bytes : Bytes
  len : bytes.length = 4 * n
deriving DecidableEq, Repr

/-- All-zero reserved words, as produced by `mem::zeroed()`. -/
def Reserved.zero (n : Nat) : Reserved n := ⟨List.replicate (4 * n) 0, by simp⟩

instance (n : Nat) : Inhabited (Reserved n) := ⟨Reserved.zero n⟩

instance (n : Nat) : Wire (Reserved n) where
  size := 4 * n
  align := 4
  enc r := r.bytes
  dec bs := if h : bs.length = 4 * n then ⟨bs, h⟩ else Reserved.zero n
  enc_length r := r.len
  dec_enc r := by simp [r.len]
  enc_dec bs h := by simp [h]

end Fuse
