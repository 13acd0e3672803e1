import Verif.Basic.Math
/-
Byte strings and byte-level helpers: `arwen/helpers.go`, the parts of Go's `math/big` and
`encoding/hex` that the VM relies on, and the call-data format of `elrond-vm-common/parsers`
(external package; the behaviour described here is part of the trusted base).
-/
namespace Arwen

/-- A Go `[]byte` or `string`. -/
abbrev Bytes := List UInt8
/-- An account address. -/
abbrev Addr := Bytes

/-! ### Unsigned big-endian integers: `big.Int.SetBytes` and `big.Int.Bytes` -/

/-- `big.Int.SetBytes`: big-endian value. -/
def bytesToNat (bs : Bytes) : Nat := bs.foldl (fun acc b => acc * 256 + b.toNat) 0

/-- digits, least significant first, no zero digit at the end -/
def natToBytesLE : Nat → Nat → Bytes
  | 0, _ => []
  | fuel + 1, n => if n = 0 then [] else UInt8.ofNat (n % 256) :: natToBytesLE fuel (n / 256)

/-- `big.Int.Bytes` of a non-negative integer: minimal big-endian bytes, empty for zero. -/
def natToBytes (n : Nat) : Bytes := (natToBytesLE (n.log2 + 1) n).reverse

theorem bytesToNat_append (a b : Bytes) :
    bytesToNat (a ++ b) = bytesToNat a * 256 ^ b.length + bytesToNat b := by
  unfold bytesToNat
  rw [List.foldl_append]
  generalize List.foldl (fun acc (b : UInt8) => acc * 256 + b.toNat) 0 a = x
  have aux : ∀ (b : Bytes) (x : Nat), List.foldl (fun acc (b : UInt8) => acc * 256 + b.toNat) x b
      = x * 256 ^ b.length + List.foldl (fun acc (b : UInt8) => acc * 256 + b.toNat) 0 b := by
    intro b
    induction b with
    | nil => intro x; simp
    | cons c cs ih =>
      intro x
      simp only [List.foldl_cons, List.length_cons]
      rw [ih, ih (0 * 256 + c.toNat), Nat.pow_succ]
      generalize 256 ^ cs.length = p
      simp only [Nat.zero_mul, Nat.zero_add, Nat.add_mul]
      rw [Nat.mul_assoc, Nat.mul_comm 256 p]
      omega
  exact aux b x

theorem bytesToNat_cons (c : UInt8) (cs : Bytes) :
    bytesToNat (c :: cs) = c.toNat * 256 ^ cs.length + bytesToNat cs := by
  have := bytesToNat_append [c] cs
  simpa [bytesToNat] using this

@[simp] theorem bytesToNat_nil : bytesToNat [] = 0 := rfl

theorem bytesToNat_lt (bs : Bytes) : bytesToNat bs < 256 ^ bs.length := by
  induction bs with
  | nil => simp
  | cons c cs ih =>
    rw [bytesToNat_cons, List.length_cons, Nat.pow_succ]
    have : c.toNat < 256 := c.toNat_lt
    have h2 : c.toNat * 256 ^ cs.length ≤ 255 * 256 ^ cs.length := Nat.mul_le_mul_right _ (by omega)
    omega

theorem bytesToNat_natToBytesLE (fuel n : Nat) (h : n < 256 ^ fuel) :
    bytesToNat (natToBytesLE fuel n).reverse = n := by
  induction fuel generalizing n with
  | zero => simp at h; subst h; simp [natToBytesLE]
  | succ f ih =>
    simp only [natToBytesLE]
    split
    · simp_all
    · rw [List.reverse_cons, bytesToNat_append, ih (n / 256) (by rw [Nat.pow_succ] at h; omega)]
      simp only [List.length_singleton, bytesToNat, List.foldl_cons, List.foldl_nil, Nat.zero_mul, Nat.zero_add,
        Nat.pow_one]
      simp
      omega

theorem lt_256_pow_log2 (n : Nat) : n < 256 ^ (n.log2 + 1) := by
  have h1 : n < 2 ^ (n.log2 + 1) := Nat.lt_log2_self
  have h2 : 2 ^ (n.log2 + 1) ≤ 256 ^ (n.log2 + 1) := Nat.pow_le_pow_left (by decide) _
  omega

@[simp] theorem bytesToNat_natToBytes (n : Nat) : bytesToNat (natToBytes n) = n :=
  bytesToNat_natToBytesLE _ _ (lt_256_pow_log2 n)

theorem natToBytesLE_getLast (fuel n : Nat) (h : n < 256 ^ fuel) :
    ∀ b, (natToBytesLE fuel n).getLast? = some b → b ≠ 0 := by
  induction fuel generalizing n with
  | zero => intro b hb; simp [natToBytesLE] at hb
  | succ f ih =>
    intro b hb
    simp only [natToBytesLE] at hb
    split at hb
    · simp at hb
    · rename_i hn
      rw [Nat.pow_succ] at h
      by_cases h0 : n / 256 = 0
      · have : natToBytesLE f (n / 256) = [] := by cases f <;> simp [natToBytesLE, h0]
        rw [this] at hb
        simp at hb
        subst hb
        intro hc
        have := congrArg UInt8.toNat hc
        simp at this
        omega
      · have hne : natToBytesLE f (n / 256) ≠ [] := by
          cases f with
          | zero => simp at h; omega
          | succ f => simp [natToBytesLE, h0]
        rw [List.getLast?_cons_of_ne_nil hne] at hb
        exact ih (n / 256) (by omega) b hb

/-- `Bytes()` has no leading zero byte. -/
theorem natToBytes_head (n : Nat) (b : UInt8) (h : (natToBytes n).head? = some b) : b ≠ 0 := by
  unfold natToBytes at h
  rw [List.head?_reverse] at h
  exact natToBytesLE_getLast _ _ (lt_256_pow_log2 n) b h

/-- A byte string without leading zero is determined by its value. -/
theorem bytes_unique (a b : Bytes) (ha : ∀ x, a.head? = some x → x ≠ 0) (hb : ∀ x, b.head? = some x → x ≠ 0)
    (h : bytesToNat a = bytesToNat b) : a = b := by
  have len : ∀ (l : Bytes) (x : UInt8) (xs : Bytes), l = x :: xs → x ≠ 0 → 256 ^ xs.length ≤ bytesToNat l := by
    intro l x xs hl hx
    subst hl
    rw [bytesToNat_cons]
    have : 1 ≤ x.toNat := by
      rcases Nat.eq_zero_or_pos x.toNat with h | h
      · exact absurd (UInt8.toNat_inj.1 (by simpa using h)) hx
      · exact h
    have := Nat.mul_le_mul_right (256 ^ xs.length) this
    omega
  have hlen : a.length = b.length := by
    rcases Nat.lt_trichotomy a.length b.length with hl | hl | hl
    · exfalso
      cases b with
      | nil => simp at hl
      | cons y ys =>
        have h1 := len _ y ys rfl (hb y rfl)
        have h2 := bytesToNat_lt a
        have h3 : 256 ^ a.length ≤ 256 ^ ys.length := Nat.pow_le_pow_right (by decide) (by simp at hl; omega)
        omega
    · exact hl
    · exfalso
      cases a with
      | nil => simp at hl
      | cons y ys =>
        have h1 := len _ y ys rfl (ha y rfl)
        have h2 := bytesToNat_lt b
        have h3 : 256 ^ b.length ≤ 256 ^ ys.length := Nat.pow_le_pow_right (by decide) (by simp at hl; omega)
        omega
  clear ha hb len
  induction a generalizing b with
  | nil => cases b with
    | nil => rfl
    | cons => simp at hlen
  | cons x xs ih =>
    cases b with
    | nil => simp at hlen
    | cons y ys =>
      simp only [List.length_cons, Nat.add_right_cancel_iff] at hlen
      rw [bytesToNat_cons, bytesToNat_cons, hlen] at h
      have h1 := bytesToNat_lt xs
      have h2 := bytesToNat_lt ys
      rw [hlen] at h1
      have hx : x.toNat = y.toNat := by
        have e1 : (x.toNat * 256 ^ ys.length + bytesToNat xs) / 256 ^ ys.length = x.toNat := by
          rw [Nat.mul_comm, Nat.mul_add_div (by exact Nat.pow_pos (by decide)), Nat.div_eq_of_lt h1]; rfl
        have e2 : (y.toNat * 256 ^ ys.length + bytesToNat ys) / 256 ^ ys.length = y.toNat := by
          rw [Nat.mul_comm, Nat.mul_add_div (by exact Nat.pow_pos (by decide)), Nat.div_eq_of_lt h2]; rfl
        rw [← e1, h, e2]
      have hx' : x = y := UInt8.toNat_inj.1 hx
      subst hx'
      have : xs = ys := ih ys (by omega) hlen
      rw [this]

/-- value-preserving: `SetBytes` then `Bytes` strips the leading zeros and nothing else -/
theorem natToBytes_bytesToNat (bs : Bytes) (h : ∀ x, bs.head? = some x → x ≠ 0) :
    natToBytes (bytesToNat bs) = bs :=
  bytes_unique _ _ (fun x hx => natToBytes_head _ x hx) h (by simp)

/-! ### Hexadecimal and call data -/

/-- one lower-case hexadecimal digit (`encoding/hex`) -/
def hexDigit (n : UInt8) : UInt8 := if n < 10 then 48 + n else 87 + n

/-- value of a hexadecimal digit, upper or lower case -/
def hexVal (c : UInt8) : Option UInt8 :=
  if 48 ≤ c ∧ c ≤ 57 then some (c - 48)
  else if 97 ≤ c ∧ c ≤ 102 then some (c - 87)
  else if 65 ≤ c ∧ c ≤ 70 then some (c - 55)
  else none

/-- `hex.EncodeToString` -/
def hexEncode (bs : Bytes) : Bytes := bs.flatMap (fun b => [hexDigit (b / 16), hexDigit (b % 16)])

/-- `hex.DecodeString`; `none` is an error (odd length or bad digit) -/
def hexDecode : Bytes → Option Bytes
  | [] => some []
  | [_] => none
  | a :: b :: rest => do
    let x ← hexVal a
    let y ← hexVal b
    let r ← hexDecode rest
    return (x * 16 + y) :: r

/-- '@' -/
def atSign : UInt8 := 64

theorem forall_uint8 {p : UInt8 → Prop} (h : ∀ n : Fin 256, p (UInt8.ofFin n)) : ∀ b, p b := by
  intro b
  have := h b.toFin
  simpa using this

theorem hexVal_digits : ∀ b : UInt8,
    hexVal (hexDigit (b / 16)) = some (b / 16) ∧ hexVal (hexDigit (b % 16)) = some (b % 16) ∧
    (b / 16) * 16 + b % 16 = b ∧ hexDigit (b / 16) ≠ atSign ∧ hexDigit (b % 16) ≠ atSign := by
  apply forall_uint8
  decide +kernel

@[simp] theorem hexDecode_encode (bs : Bytes) : hexDecode (hexEncode bs) = some bs := by
  induction bs with
  | nil => rfl
  | cons b bs ih =>
    obtain ⟨h1, h2, h3, _, _⟩ := hexVal_digits b
    simp only [hexEncode, List.flatMap_cons, List.cons_append, List.nil_append, hexDecode] at ih ⊢
    simp [h1, h2, ih, h3]

theorem atSign_not_mem_hex (bs : Bytes) : atSign ∉ hexEncode bs := by
  induction bs with
  | nil => simp [hexEncode]
  | cons b bs ih =>
    obtain ⟨_, _, _, h4, h5⟩ := hexVal_digits b
    simp only [hexEncode, List.flatMap_cons, List.cons_append, List.nil_append, List.mem_cons, not_or] at ih ⊢
    exact ⟨fun h => h4 h.symm, fun h => h5 h.symm, ih⟩

@[simp] theorem hexEncode_length (bs : Bytes) : (hexEncode bs).length = 2 * bs.length := by
  induction bs with
  | nil => rfl
  | cons b bs ih => simp only [hexEncode, List.flatMap_cons, List.length_append, List.length_cons, List.length_nil] at ih ⊢; omega

/-- The data field `function@hex(arg)@hex(arg)…`, as built e.g. in arwen/contexts/output.go:349-375
and arwen/host/execution.go:778-781. -/
def buildCallData (function : Bytes) (args : List Bytes) : Bytes :=
  function ++ args.flatMap (fun a => atSign :: hexEncode a)

/-- `strings.Split(data, "@")`: never empty -/
def splitAt : Bytes → List Bytes
  | [] => [[]]
  | c :: cs =>
    if c = atSign then [] :: splitAt cs
    else match splitAt cs with
      | [] => [[c]]
      | t :: ts => (c :: t) :: ts

/-- `CallArgsParser.ParseData` (elrond-vm-common/parsers, external): split at '@', the first token is the function
and must be non-empty, the other tokens are hex-decoded; any failure is an error. -/
def parseCallData (data : Bytes) : Option (Bytes × List Bytes) :=
  match splitAt data with
  | [] => none
  | f :: toks => if f = [] then none else (toks.mapM hexDecode).map (fun args => (f, args))

theorem splitAt_no_at (f rest : Bytes) (h : atSign ∉ f) :
    splitAt (f ++ atSign :: rest) = f :: splitAt rest := by
  induction f with
  | nil => simp [splitAt]
  | cons c cs ih =>
    simp only [List.mem_cons, not_or] at h
    have hc : c ≠ atSign := fun he => h.1 he.symm
    simp [splitAt, hc, ih h.2]

theorem splitAt_self (f : Bytes) (h : atSign ∉ f) : splitAt f = [f] := by
  induction f with
  | nil => simp [splitAt]
  | cons c cs ih =>
    simp only [List.mem_cons, not_or] at h
    have hc : c ≠ atSign := fun he => h.1 he.symm
    simp [splitAt, hc, ih h.2]

theorem splitAt_build (f : Bytes) (args : List Bytes) (h : atSign ∉ f) :
    splitAt (buildCallData f args) = f :: args.map hexEncode := by
  induction args generalizing f with
  | nil => simp [buildCallData, splitAt_self f h]
  | cons a args ih =>
    have := ih (hexEncode a) (atSign_not_mem_hex a)
    simp only [buildCallData, List.flatMap_cons, List.cons_append, List.map_cons] at this ⊢
    rw [splitAt_no_at _ _ h, this]

theorem mapM_hexDecode (args : List Bytes) : (args.map hexEncode).mapM hexDecode = some args := by
  induction args with
  | nil => rfl
  | cons a args ih => simp [List.mapM_cons, ih]

/-! ### `arwen/helpers.go` -/

/-- `CustomStorageKey`, arwen/helpers.go:23-25: `append(associatedKey, keyType...)`. The key type comes last.
(Go's `append` may write into spare capacity of `associatedKey`; callers pass freshly copied slices, so that is not modelled.) -/
def customStorageKey (keyType associatedKey : Bytes) : Bytes := associatedKey ++ keyType

/-- `GuardedGetBytesSlice`, arwen/helpers.go:46-64. `none` is an error. `len(data)` is converted to `uint32`. -/
def guardedGetBytesSlice (data : Bytes) (offset length : Int32) : Option Bytes :=
  let dataLength : UInt32 := UInt32.ofNat data.length
  let requestedEnd := addI32 offset length
  if offset < 0 ∨ offset.toUInt32 > dataLength ∨ requestedEnd.toUInt32 > dataLength then none
  else if length < 0 then none
  else some ((data.take requestedEnd.toUInt32.toNat).drop offset.toUInt32.toNat)

/-- `PadBytesLeft`, arwen/helpers.go:67-82 (`size` is a Go `int`; nil and empty coincide). -/
def padBytesLeft (data : Bytes) (size : Int64) : Bytes :=
  if data = [] then []
  else
    let padSize := subInt size (Int64.ofInt data.length)
    if padSize ≤ 0 then data
    else List.replicate padSize.toInt.toNat 0 ++ data

/-- `InverseBytes`, arwen/helpers.go:85-92. -/
def inverseBytes (data : Bytes) : Bytes := data.reverse

/-- loop of `U64ToLEB128`; a `uint64` needs at most ten rounds -/
def leb128Loop : Nat → UInt64 → Bytes
  | 0, _ => []
  | fuel + 1, n =>
    let b : UInt8 := (n &&& 0x7F).toUInt8
    let n' := n >>> 7
    if n' = 0 then [b] else (b ||| 0x80) :: leb128Loop fuel n'

/-- `U64ToLEB128`, arwen/helpers.go:109-122. -/
def u64ToLEB128 (n : UInt64) : Bytes := leb128Loop 10 n

end Arwen
