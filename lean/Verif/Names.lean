import Verif.Server

/-!
# Names and strings

`&str` and the conversions of `NodeName` and `DeviceName` from and to it.  A `str` is a list of `Char`s, which in Rust
as in Lean are the Unicode scalar values.  `core::str::from_utf8` and `str::as_bytes` belong to Rust's standard
library; they are written out here after its documentation (and RFC 3629).
-/

namespace Fuse

/-- `str`. -/
abbrev Str := List Char

/-- The UTF-8 encoding of a scalar value (`char::encode_utf8`). -/
def encodeUtf8 (c : Char) : Bytes :=
  let n := c.toNat
  if n < 0x80 then [.ofNat n]
  else if n < 0x800 then [.ofNat (0xC0 + n / 64), .ofNat (0x80 + n % 64)]
  else if n < 0x10000 then [.ofNat (0xE0 + n / 4096), .ofNat (0x80 + n / 64 % 64), .ofNat (0x80 + n % 64)]
  else [.ofNat (0xF0 + n / 262144), .ofNat (0x80 + n / 4096 % 64), .ofNat (0x80 + n / 64 % 64), .ofNat (0x80 + n % 64)]

/-- `str::as_bytes`. -/
def Str.asBytes (s : Str) : Bytes := s.flatMap encodeUtf8

/-- A continuation byte. -/
def isCont (b : UInt8) : Bool := 0x80 ≤ b && b ≤ 0xBF

/-- The first scalar value of a byte string and what follows it; `none` if the bytes do not start with one. -/
def nextUtf8 : Bytes → Option (Nat × Bytes)
  | [] => none
  | b0 :: rest =>
    if b0 < 0x80 then some (b0.toNat, rest)
    else if 0xC2 ≤ b0 ∧ b0 ≤ 0xDF then
      match rest with
      | b1 :: rest =>
        if isCont b1 then some ((b0.toNat - 0xC0) * 64 + (b1.toNat - 0x80), rest) else none
      | _ => none
    else if 0xE0 ≤ b0 ∧ b0 ≤ 0xEF then
      match rest with
      | b1 :: b2 :: rest =>
        if isCont b1 && isCont b2 && (b0 != 0xE0 || 0xA0 ≤ b1) && (b0 != 0xED || b1 ≤ 0x9F) then
          some ((b0.toNat - 0xE0) * 4096 + (b1.toNat - 0x80) * 64 + (b2.toNat - 0x80), rest)
        else none
      | _ => none
    else if 0xF0 ≤ b0 ∧ b0 ≤ 0xF4 then
      match rest with
      | b1 :: b2 :: b3 :: rest =>
        if isCont b1 && isCont b2 && isCont b3 && (b0 != 0xF0 || 0x90 ≤ b1) && (b0 != 0xF4 || b1 ≤ 0x8F) then
          some ((b0.toNat - 0xF0) * 262144 + (b1.toNat - 0x80) * 4096 + (b2.toNat - 0x80) * 64 + (b3.toNat - 0x80), rest)
        else none
      | _ => none
    else none

/-- `core::str::from_utf8`, with at most `fuel` scalar values. -/
def fromUtf8With : Nat → Bytes → Option Str
  | _, [] => some []
  | 0, _ => none
  | fuel + 1, bs =>
    match nextUtf8 bs with
    | none => none
    | some (n, rest) => (fromUtf8With fuel rest).map (Char.ofNat n :: ·)

/-- `core::str::from_utf8`; `none` is `Utf8Error`. -/
def fromUtf8 (bs : Bytes) : Option Str := fromUtf8With bs.length bs

/-- `Ord` of `[u8]`: lexicographic. -/
def cmpBytes : Bytes → Bytes → Ordering
  | [], [] => .eq
  | [], _ :: _ => .lt
  | _ :: _, [] => .gt
  | a :: as, b :: bs => if a < b then .lt else if b < a then .gt else cmpBytes as bs

namespace NodeName

/-- `NodeName::new`, fuse/node_name.rs:55-57; `TryFrom<&str>`, lines 149-154. -/
def new (name : Str) : Except NodeNameError NodeName := fromBytes name.asBytes

/-- `NodeName::new_unchecked`, fuse/node_name.rs:67-69. -/
def newUnchecked (name : Str) : Except Fault NodeName := fromBytesUnchecked name.asBytes

/-- `NodeName::as_bytes`, fuse/node_name.rs:108-110; `From<&NodeName> for &[u8]`, lines 129-133. -/
def asBytes (name : NodeName) : Bytes := name.bytes

/-- `NodeName::as_str`, fuse/node_name.rs:118-120; `TryFrom<&NodeName> for &str`, lines 142-147. -/
def asStr (name : NodeName) : Option Str := fromUtf8 name.bytes

/-- `PartialEq<str>`, fuse/node_name.rs:156-166, in both directions. -/
def eqStr (name : NodeName) (s : Str) : Bool := name.asBytes == s.asBytes

/-- `PartialEq<[u8]>`, fuse/node_name.rs:168-178, in both directions. -/
def eqBytes (name : NodeName) (bs : Bytes) : Bool := name.asBytes == bs

/-- The derived `PartialEq`, fuse/node_name.rs:42. -/
def eq (a b : NodeName) : Bool := a.bytes == b.bytes

/-- The derived `Ord`, fuse/node_name.rs:42. -/
def cmp (a b : NodeName) : Ordering := cmpBytes a.bytes b.bytes

end NodeName

namespace CuseDeviceName

/-- `DeviceName::new`, fuse/cuse.rs:57-59. -/
def new (name : Str) : Except DeviceNameError CuseDeviceName := fromBytes name.asBytes

/-- `DeviceName::as_bytes`, fuse/cuse.rs:103-105. -/
def asBytes (name : CuseDeviceName) : Bytes := name.bytes

/-- `DeviceName::as_str`, fuse/cuse.rs:113-115. -/
def asStr (name : CuseDeviceName) : Option Str := fromUtf8 name.bytes

/-- `PartialEq<str>`, fuse/cuse.rs:124-128 and 136-140. -/
def eqStr (name : CuseDeviceName) (s : Str) : Bool := name.asBytes == s.asBytes

/-- `PartialEq<[u8]>`, fuse/cuse.rs:130-134 and 142-146. -/
def eqBytes (name : CuseDeviceName) (bs : Bytes) : Bool := name.asBytes == bs

/-- The derived `Ord`, fuse/cuse.rs:45. -/
def cmp (a b : CuseDeviceName) : Ordering := cmpBytes a.bytes b.bytes

end CuseDeviceName

end Fuse
