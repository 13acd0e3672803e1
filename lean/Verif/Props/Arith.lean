import Verif.Basic.Bytes
import Verif.Spec.Arith
/-
C01 (overflow-safe arithmetic), C44 (byte helpers), C32 (call data).
-/
namespace Arwen.Props

open Arwen Arwen.Spec

/-! ## C01 -/

/-- C01: `AddUint64` is the mathematical sum clamped to 64 bits. -/
theorem c01_add_clamped (a b : UInt64) : ((addU64 a b).toNat : Int) = clampU64 (a.toNat + b.toNat) := by
  rw [addU64_toNat]; unfold clampU64; omega

/-- C01: `SubUint64` is the mathematical difference clamped at zero. -/
theorem c01_sub_clamped (a b : UInt64) : ((subU64 a b).toNat : Int) = clampU64 ((a.toNat : Int) - b.toNat) := by
  have := toNat_lt a
  rw [subU64_toNat]; unfold clampU64; omega

/-- C01: `MulUint64` is the mathematical product clamped to 64 bits. -/
theorem c01_mul_clamped (a b : UInt64) : ((mulU64 a b).toNat : Int) = clampU64 (a.toNat * b.toNat : Nat) := by
  rw [mulU64_toNat]; unfold clampU64; omega

/-- C01: the error variants fail exactly when the true result does not fit, and are exact otherwise. -/
theorem c01_add_err (a b : UInt64) :
    (addU64E a b = none ↔ 2 ^ 64 ≤ a.toNat + b.toNat) ∧
    (∀ s, addU64E a b = some s → s.toNat = a.toNat + b.toNat) := by
  rw [addU64E_spec]
  constructor
  · split <;> simp <;> omega
  · intro s h
    split at h
    · simp only [Option.some.injEq] at h
      subst h
      rw [UInt64.toNat_add, Nat.mod_eq_of_lt (by assumption)]
    · simp at h

theorem c01_mul_err (a b : UInt64) :
    (mulU64E a b = none ↔ 2 ^ 64 ≤ a.toNat * b.toNat) ∧
    (∀ s, mulU64E a b = some s → s.toNat = a.toNat * b.toNat) := by
  rw [mulU64E_spec]
  constructor
  · split <;> simp <;> omega
  · intro s h
    split at h
    · simp only [Option.some.injEq] at h
      subst h
      rw [UInt64.toNat_mul, Nat.mod_eq_of_lt (by assumption)]
    · simp at h

/-- C01: `AddInt32` is exact when the sum fits, otherwise the largest `int32`. -/
theorem c01_addInt32 (a b : Int32) :
    (FitsSigned 32 (a.toInt + b.toInt) → (addI32 a b).toInt = a.toInt + b.toInt) ∧
    (¬ FitsSigned 32 (a.toInt + b.toInt) → (addI32 a b).toInt = 2 ^ 31 - 1) := by
  have ha := int32_bounds a; have hb := int32_bounds b
  have hs := bmod32 (a.toInt + b.toInt) (by omega) (by omega)
  simp only [addI32, addI32E_spec]
  constructor
  · intro h
    rw [if_pos (by simp only [FitsSigned] at h; omega)]
    simp only [Int32.toInt_add, hs]
    simp only [FitsSigned] at h
    split <;> (try split) <;> omega
  · intro h
    rw [if_neg (by simp only [FitsSigned] at h; omega)]; rfl

/-- C01: `AddInt64` is exact when the sum fits, otherwise the largest `int64`. -/
theorem c01_addInt64 (a b : Int64) :
    (FitsSigned 64 (a.toInt + b.toInt) → (addI64 a b).toInt = a.toInt + b.toInt) ∧
    (¬ FitsSigned 64 (a.toInt + b.toInt) → (addI64 a b).toInt = 2 ^ 63 - 1) := by
  have ha := int64_bounds a; have hb := int64_bounds b
  have hs := bmod64 (a.toInt + b.toInt) (by omega) (by omega)
  have hm : maxI64.toInt = 2 ^ 63 - 1 := rfl
  simp only [addI64, FitsSigned, gt_iff_lt, Int64.lt_iff_toInt_lt, apply_ite Int64.toInt, Int64.toInt_add, hs, hm]
  have h0 : (0 : Int64).toInt = 0 := rfl
  simp only [h0]
  by_cases h1 : a.toInt + b.toInt < -9223372036854775808
  · simp [h1]; omega
  · by_cases h2 : a.toInt + b.toInt < 9223372036854775808
    · simp [h1, h2]; omega
    · simp [h1, h2]; omega

/-- C01: `SubInt` is exact when the difference fits, otherwise the smallest `int64`. -/
theorem c01_subInt (a b : Int64) :
    (FitsSigned 64 (a.toInt - b.toInt) → (subInt a b).toInt = a.toInt - b.toInt) ∧
    (¬ FitsSigned 64 (a.toInt - b.toInt) → (subInt a b).toInt = -2 ^ 63) := by
  have ha := int64_bounds a; have hb := int64_bounds b
  have hs := bmod64 (a.toInt - b.toInt) (by omega) (by omega)
  have hm : minI64.toInt = -2 ^ 63 := rfl
  simp only [subInt, FitsSigned, gt_iff_lt, Int64.lt_iff_toInt_lt, apply_ite Int64.toInt, Int64.toInt_sub, hs, hm]
  have h0 : (0 : Int64).toInt = 0 := rfl
  simp only [h0]
  by_cases h1 : a.toInt - b.toInt < -9223372036854775808
  · simp [h1]; omega
  · by_cases h2 : a.toInt - b.toInt < 9223372036854775808
    · simp [h1, h2]; omega
    · simp [h1, h2]; omega

-- both branches occur
example : addU64 0xFFFFFFFFFFFFFFFF 1 = 0xFFFFFFFFFFFFFFFF ∧ addU64 3 4 = 7 ∧ mulU64 0x100000000 0x100000000 = maxU64
    ∧ subU64 3 5 = 0 ∧ addI32 0x7FFFFFFF 1 = 0x7FFFFFFF ∧ addI32 (-5) 3 = -2 ∧ addI32 (-0x80000000) (-1) = 0x7FFFFFFF := by decide

/-! ## C44 -/

theorem leb_low7 (n : UInt64) :
    ((n &&& 0x7F).toUInt8).toNat = n.toNat % 128 ∧ ((n &&& 0x7F).toUInt8 ||| 0x80).toNat = n.toNat % 128 + 128 := by
  have h1 : ((n &&& 0x7F).toUInt8).toNat = n.toNat % 128 := by
    have : (127 : Nat) = 2 ^ 7 - 1 := rfl
    simp only [UInt64.toNat_toUInt8, UInt64.toNat_and]
    show (n.toNat &&& 127) % 256 = _
    rw [this, Nat.and_two_pow_sub_one_eq_mod]
    omega
  refine ⟨h1, ?_⟩
  have key : ∀ b : UInt8, b.toNat < 128 → (b ||| 0x80).toNat = b.toNat + 128 := by
    apply forall_uint8; decide +kernel
  rw [key _ (by omega), h1]

theorem leb_loop (fuel : Nat) (n : UInt64) (h : n.toNat < 128 ^ (fuel + 1)) :
    base128Value (leb128Loop (fuel + 1) n) = n.toNat ∧ lebTerminated (leb128Loop (fuel + 1) n) ∧
    (leb128Loop (fuel + 1) n).length ≤ fuel + 1 ∧
    (∀ b, (leb128Loop (fuel + 1) n).getLast? = some b → b = 0 → n = 0) := by
  induction fuel generalizing n with
  | zero =>
    obtain ⟨h1, _⟩ := leb_low7 n
    have hz : n >>> 7 = 0 := by
      apply UInt64.toNat_inj.1
      simp only [UInt64.toNat_shiftRight]
      show n.toNat >>> 7 = 0
      rw [Nat.shiftRight_eq_div_pow]; omega
    simp only [leb128Loop, hz, if_true, base128Value, lebTerminated, h1, List.length_singleton]
    refine ⟨by omega, by omega, by omega, ?_⟩
    intro b hb h0
    simp only [List.getLast?_singleton, Option.some.injEq] at hb
    subst hb
    have := congrArg UInt8.toNat h0
    rw [h1] at this
    apply UInt64.toNat_inj.1
    show n.toNat = 0
    have e : UInt8.toNat 0 = 0 := rfl
    omega
  | succ f ih =>
    obtain ⟨h1, h2⟩ := leb_low7 n
    have hs : (n >>> 7).toNat = n.toNat / 128 := by
      simp only [UInt64.toNat_shiftRight]
      show n.toNat >>> 7 = _
      rw [Nat.shiftRight_eq_div_pow]
    rw [leb128Loop]
    by_cases hz : n >>> 7 = 0
    · have hz' : n.toNat / 128 = 0 := by rw [← hs, hz]; rfl
      simp only [hz, if_true, base128Value, lebTerminated, h1, List.length_singleton]
      refine ⟨by omega, by omega, by omega, ?_⟩
      intro b hb h0
      simp only [List.getLast?_singleton, Option.some.injEq] at hb
      subst hb
      have := congrArg UInt8.toNat h0
      rw [h1] at this
      apply UInt64.toNat_inj.1
      show n.toNat = 0
      have e : UInt8.toNat 0 = 0 := rfl
      omega
    · simp only [hz, if_false]
      obtain ⟨i1, i2, i3, i4⟩ := ih (n >>> 7) (by rw [hs]; rw [Nat.pow_succ] at h; omega)
      have hne : leb128Loop (f + 1) (n >>> 7) ≠ [] := by
        intro he; rw [he] at i2; exact i2
      refine ⟨?_, ?_, ?_, ?_⟩
      · simp only [base128Value, i1, hs, h2]; omega
      · cases hl : leb128Loop (f + 1) (n >>> 7) with
        | nil => exact absurd hl hne
        | cons c cs =>
          rw [hl] at i2
          exact ⟨by omega, i2⟩
      · simp only [List.length_cons]; omega
      · intro b hb h0
        rw [List.getLast?_cons_of_ne_nil hne] at hb
        exact absurd (i4 b hb h0) hz

/-- C44: LEB128 encoding terminates correctly, decodes to the same number, uses at most ten bytes and
has no redundant final zero byte (except for the number zero itself). -/
theorem c44_leb128 (n : UInt64) :
    base128Value (u64ToLEB128 n) = n.toNat ∧ lebTerminated (u64ToLEB128 n) ∧ (u64ToLEB128 n).length ≤ 10 ∧
    ((u64ToLEB128 n).getLast? = some 0 → n = 0) := by
  obtain ⟨a, b, c, d⟩ := leb_loop 9 n (by have := toNat_lt n; simp; omega)
  exact ⟨a, b, c, fun h => d 0 h rfl⟩

/-- C44: distinct numbers have distinct encodings. -/
theorem c44_leb128_injective (m n : UInt64) (h : u64ToLEB128 m = u64ToLEB128 n) : m = n := by
  have h1 := (c44_leb128 m).1
  have h2 := (c44_leb128 n).1
  rw [h] at h1
  exact UInt64.toNat_inj.1 (by omega)

/-- C44: reversing twice is the identity; the result lists the bytes from last to first. -/
theorem c44_inverse (d : Bytes) :
    inverseBytes (inverseBytes d) = d ∧ (inverseBytes d).length = d.length ∧
    ∀ i, i < d.length → (inverseBytes d)[i]? = d[d.length - 1 - i]? := by
  refine ⟨by simp [inverseBytes], by simp [inverseBytes], ?_⟩
  intro i hi
  simp [inverseBytes, hi]

/-- C44: left padding of a non-empty string gives exactly the requested size when that is larger, and the same
number; otherwise the data is unchanged. An empty string is not padded. -/
theorem c44_pad (d : Bytes) (size : Int64) (hd : d ≠ []) (hlen : d.length < 2 ^ 62) (hs : 0 ≤ size.toInt) :
    ((padBytesLeft d size).length : Int) = max size.toInt d.length ∧
    bytesToNat (padBytesLeft d size) = bytesToNat d ∧
    (∃ zs, padBytesLeft d size = zs ++ d ∧ ∀ z ∈ zs, z = 0) := by
  have hb := int64_bounds size
  have hl : (Int64.ofInt (d.length : Int)).toInt = d.length := by
    rw [Int64.toInt_ofInt, bmod64 _ (by omega) (by omega)]; split <;> (try split) <;> omega
  have hsub := (c01_subInt size (Int64.ofInt d.length)).1 (by rw [hl]; unfold FitsSigned; omega)
  rw [hl] at hsub
  have h0 : (0 : Int64).toInt = 0 := rfl
  have hz : ∀ n, bytesToNat (List.replicate n 0 ++ d) = bytesToNat d := by
    intro n
    induction n with
    | zero => simp
    | succ n ih => rw [List.replicate_succ, List.cons_append, bytesToNat_cons, ih]; simp
  simp only [padBytesLeft, hd, if_false, Int64.le_iff_toInt_le, h0, hsub]
  split
  · exact ⟨by omega, rfl, [], rfl, by simp⟩
  · refine ⟨by simp only [List.length_append, List.length_replicate]; omega, hz _, _, rfl, ?_⟩
    intro z hz
    exact (List.mem_replicate.1 hz).2

example : u64ToLEB128 300 = [0xAC, 0x02] ∧ u64ToLEB128 0 = [0] ∧ (u64ToLEB128 maxU64).length = 10 := by decide
example : padBytesLeft [1, 2] 4 = [0, 0, 1, 2] ∧ padBytesLeft [1, 2, 3] 2 = [1, 2, 3] ∧ padBytesLeft [] 3 = [] := by decide

/-! ## C32 -/

/-- C32: the data field built for a call parses back to the same function and arguments. -/
theorem c32_roundtrip (f : Bytes) (args : List Bytes) (hne : f ≠ []) (hat : atSign ∉ f) :
    parseCallData (buildCallData f args) = some (f, args) := by
  simp only [parseCallData, splitAt_build f args hat, hne, mapM_hexDecode, if_false, Option.map_some]

/-- C32: hence two different calls never share a data field. -/
theorem c32_injective (f g : Bytes) (as bs : List Bytes) (hf : f ≠ []) (hfa : atSign ∉ f) (hg : g ≠ []) (hga : atSign ∉ g)
    (h : buildCallData f as = buildCallData g bs) : f = g ∧ as = bs := by
  have h1 := c32_roundtrip f as hf hfa
  rw [h, c32_roundtrip g bs hg hga] at h1
  simp only [Option.some.injEq, Prod.mk.injEq] at h1
  exact ⟨h1.1.symm, h1.2.symm⟩

/-- C32: anything the parser accepts has a non-empty function name without '@' (so the builder's precondition holds
for every call the host re-encodes after parsing). -/
theorem c32_parsed_function_ok (d f : Bytes) (args : List Bytes) (h : parseCallData d = some (f, args)) :
    f ≠ [] ∧ atSign ∉ f := by
  have key : ∀ d : Bytes, ∀ t ∈ splitAt d, atSign ∉ t := by
    intro d
    induction d with
    | nil => simp [splitAt]
    | cons c cs ih =>
      simp only [splitAt]
      split
      · intro t ht
        simp only [List.mem_cons] at ht
        rcases ht with rfl | ht
        · simp
        · exact ih t ht
      · cases hcs : splitAt cs with
        | nil => rename_i hc; intro t ht; simp at ht; subst ht; simp; exact fun h => hc h.symm
        | cons u us =>
          rename_i hc
          rw [hcs] at ih
          intro t ht
          simp only [List.mem_cons] at ht
          rcases ht with rfl | ht
          · simp only [List.mem_cons, not_or]
            exact ⟨fun h => hc h.symm, ih u (by simp)⟩
          · exact ih t (by simp [ht])
  unfold parseCallData at h
  cases hs : splitAt d with
  | nil => rw [hs] at h; simp at h
  | cons u us =>
    rw [hs] at h
    simp only at h
    split at h
    · simp at h
    · have : u = f := by
        cases hm : us.mapM hexDecode <;> rw [hm] at h <;> simp at h
        exact h.1
      subst this
      exact ⟨by assumption, key d u (by rw [hs]; simp)⟩

example : parseCallData (buildCallData [102, 111, 111] [[], [1, 0xAB]]) = some ([102, 111, 111], [[], [1, 0xAB]]) := by decide
example : parseCallData [64, 48, 48] = none := by decide

end Arwen.Props
