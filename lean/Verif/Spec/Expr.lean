import Verif.Mandos.Reconstruct
/-!
What C40 and C41 say about value expressions.
-/
namespace Arwen.Spec
open Arwen.Mandos

/-- a text without the `|` that separates the parts of an expression -/
def NoBar (s : Bytes) : Prop := bar ∉ s

/-- the digit `c` of a base up to ten stands for `d` -/
def IsDigit (base : Nat) (c : UInt8) (d : Nat) : Prop := d < base ∧ c.toNat = 48 + d

/-- the text consists of at least one digit and stands for `n` -/
inductive Digits (base : Nat) : Bytes → Nat → Prop
  | one {c d} (h : IsDigit base c d) : Digits base [c] d
  | more {s n c d} (hs : Digits base s n) (h : IsDigit base c d) : Digits base (s ++ [c]) (n * base + d)

/-- the hexadecimal digit `c` stands for `d` -/
def IsHexDigit (c : UInt8) (d : Nat) : Prop :=
  d < 10 ∧ c.toNat = 48 + d ∨ 10 ≤ d ∧ d < 16 ∧ (c.toNat = 87 + d ∨ c.toNat = 55 + d)

/-- the text consists of hexadecimal digits, possibly none, and stands for `n` -/
inductive HexDigits : Bytes → Nat → Prop
  | none : HexDigits [] 0
  | more {s n c d} (hs : HexDigits s n) (h : IsHexDigit c d) : HexDigits (s ++ [c]) (n * 16 + d)

/-- underscores and commas are there for the reader only -/
def ungroup (s : Bytes) : Bytes := s.filter (fun c => c != 95 && c != 44)

/-- the text after an optional sign -/
inductive SignedText : Bytes → Bytes → Bool → Prop
  | bare {t} : SignedText t t false
  | plus {t} : SignedText (43 :: t) t false
  | minus {t} : SignedText (45 :: t) t true

/-- the text starts with the mark of a hexadecimal or of a binary number -/
def HexMark (s : Bytes) : Prop := ∃ r, s = 48 :: 120 :: r ∨ s = 48 :: 88 :: r
def BinMark (s : Bytes) : Prop := ∃ r, s = 48 :: 98 :: r ∨ s = 48 :: 66 :: r

/-- The texts that are read as a natural number. Decimal and binary digits may be grouped and may have a sign; a minus has no effect on
binary digits and is allowed for zero only before decimal ones. -/
inductive Numeral : Bytes → Nat → Prop
  | hex {s r n} (hs : s = 48 :: 120 :: r ∨ s = 48 :: 88 :: r) (h : HexDigits r n) : Numeral s n
  | bin {s r t n neg} (hs : s = 48 :: 98 :: r ∨ s = 48 :: 66 :: r) (ht : SignedText (ungroup r) t neg) (h : Digits 2 t n) : Numeral s n
  | dec {s t n neg} (hx : ¬ HexMark s) (hb : ¬ BinMark s) (ht : SignedText (ungroup s) t neg) (h : Digits 10 t n)
      (hz : neg = true → n = 0) : Numeral s n

/-- Hexadecimal digits stand for whole bytes and are counted; other numbers are measured by their value. -/
def FitsIn (s : Bytes) (n width : Nat) : Prop :=
  (HexMark s ∧ s.length ≤ 2 + 2 * width) ∨ (¬ HexMark s ∧ n < 256 ^ width)

/-- `r` is the unsigned big-endian form of `n` in `width` bytes -/
def IsFixed (n width : Nat) (r : Bytes) : Prop := r.length = width ∧ bytesToNat r = n

/-- `r` is the two's complement big-endian form of `z` in `width` bytes -/
def IsFixedSigned (z : Int) (width : Nat) (r : Bytes) : Prop :=
  r.length = width ∧ (bytesToNat r : Int) = if z < 0 then z + 256 ^ width else z

/-- the number lies in the range of the signed numbers of the given number of bytes -/
def InSignedRange (z : Int) (width : Nat) : Prop := -(256 ^ width : Int) ≤ 2 * z ∧ 2 * z < (256 ^ width : Int)

/-- the texts `a₁|a₂|…` -/
def joinBar : List Bytes → Bytes
  | [] => []
  | [a] => a
  | a :: b :: l => a ++ bar :: joinBar (b :: l)

/-- the values of a list of expressions, in order -/
inductive Values (I : Interpreter) : List Bytes → Bytes → Prop
  | nil : Values I [] []
  | cons {a l v r} (h : interpretString I a = .ok v) (hl : Values I l r) : Values I (a :: l) (v ++ r)

/-- `r` is the shortest two's complement form of `z` -/
def IsShortestSigned (z : Int) (r : Bytes) : Prop :=
  InSignedRange z r.length ∧ IsFixedSigned z r.length r ∧ ∀ w, w < r.length → ¬ InSignedRange z w

/-- `r` is the value `v` after its length in four bytes -/
def HasLength (v r : Bytes) : Prop := ∃ n : Bytes, n.length = 4 ∧ r = n ++ v ∧ (v.length < 2 ^ 32 → bytesToNat n = v.length)

/-- the 32 bytes of a named address: zeros, the name as far as it fits, underscores -/
def AddressOf (name : Bytes) (zeros : Nat) (r : Bytes) : Prop :=
  r.length = 32 ∧ ∀ i, i < 32 → r[i]? = some (if i < zeros then 0 else name.getD (i - zeros) 95)

/-- the same with the last byte given by the shard -/
def AddressInShard (name : Bytes) (zeros : Nat) (shard : UInt8) (r : Bytes) : Prop :=
  ∃ a, AddressOf name zeros a ∧ r = a.take 31 ++ [shard]

/-- the order of keys: byte by byte, a text comes after its beginnings -/
def Before (a b : Bytes) : Prop :=
  (∃ y t, b = a ++ y :: t) ∨ ∃ p x y s t, a = p ++ x :: s ∧ b = p ++ y :: t ∧ x.toNat < y.toNat

/-- the pairs in the order of their keys -/
def InKeyOrder (l : List (Bytes × Json)) : Prop := l.Pairwise (fun p q => Before p.1 q.1)

/-- the fixed widths and their marks -/
def FixedUnsigned (mark : Bytes) (width : Nat) : Prop :=
  (mark, width) ∈ [(u8Prefix, 1), (u16Prefix, 2), (u32Prefix, 4), (u64Prefix, 8)]
def FixedSigned (mark : Bytes) (width : Nat) : Prop :=
  (mark, width) ∈ [(i8Prefix, 1), (i16Prefix, 2), (i32Prefix, 4), (i64Prefix, 8)]

end Arwen.Spec
