import Verif.Basic.Bytes
/-
Two's-complement byte encoding of big integers: package `big-int-util/twos-complement` (external, used by
`arwen/elrondapi/bigIntOps.go` and `smallIntOps.go`).  The functions below describe its documented behaviour
(minimal big-endian two's complement, empty for zero); they belong to the trusted base.
-/
namespace Arwen

/-- bitwise complement of each byte -/
def complBytes (bs : Bytes) : Bytes := bs.map (fun b => 255 - b)

/-- `twos.ToBytes` -/
def twosToBytes (z : Int) : Bytes :=
  if z = 0 then []
  else if 0 < z then
    match natToBytes z.toNat with
    | [] => []
    | b :: bs => if 128 ≤ b then 0 :: b :: bs else b :: bs
  else
    match complBytes (natToBytes (-z - 1).toNat) with
    | [] => [255]
    | b :: bs => if b < 128 then 255 :: b :: bs else b :: bs

/-- `twos.SetBytes` / `twos.FromBytes` -/
def twosFromBytes : Bytes → Int
  | [] => 0
  | b :: bs => if 128 ≤ b then (bytesToNat (b :: bs) : Int) - 256 ^ (bs.length + 1) else bytesToNat (b :: bs)

@[simp] theorem complBytes_length (bs : Bytes) : (complBytes bs).length = bs.length := by simp [complBytes]

theorem compl_toNat : ∀ b : UInt8, (255 - b).toNat = 255 - b.toNat := by
  apply forall_uint8; decide +kernel

theorem bytesToNat_compl (bs : Bytes) : bytesToNat (complBytes bs) + bytesToNat bs + 1 = 256 ^ bs.length := by
  induction bs with
  | nil => rfl
  | cons b bs ih =>
    have hb : b.toNat < 256 := b.toNat_lt
    simp only [complBytes, List.map_cons] at ih ⊢
    rw [bytesToNat_cons, bytesToNat_cons, compl_toNat, List.length_map, List.length_cons, Nat.pow_succ]
    have : (255 - b.toNat) * 256 ^ bs.length + b.toNat * 256 ^ bs.length = 255 * 256 ^ bs.length := by
      rw [← Nat.add_mul]; congr 1; omega
    omega

theorem u8_le_iff (a b : UInt8) : a ≤ b ↔ a.toNat ≤ b.toNat := UInt8.le_iff_toNat_le
theorem u8_lt_iff (a b : UInt8) : a < b ↔ a.toNat < b.toNat := UInt8.lt_iff_toNat_lt

theorem u8_128 : UInt8.toNat 128 = 128 := rfl
theorem u8_255 : UInt8.toNat 255 = 255 := rfl
theorem u8_0 : UInt8.toNat 0 = 0 := rfl

/-- value of a byte string read as two's complement stays in the usual range -/
theorem twosFromBytes_range (bs : Bytes) (h : bs ≠ []) :
    -(256 ^ bs.length : Int) ≤ 2 * twosFromBytes bs ∧ 2 * twosFromBytes bs < (256 ^ bs.length : Int) := by
  cases bs with
  | nil => exact absurd rfl h
  | cons b bs =>
    have h1 := bytesToNat_lt bs
    have hb : b.toNat < 256 := b.toNat_lt
    have hc := bytesToNat_cons b bs
    have hp : 0 < 256 ^ bs.length := Nat.pow_pos (by decide)
    have hcast : ((256 : Int) ^ (bs.length + 1)) = ((256 ^ bs.length * 256 : Nat) : Int) := by
      simp [Int.pow_succ]
    simp only [twosFromBytes, u8_le_iff, u8_128, List.length_cons, hcast, hc]
    generalize 256 ^ bs.length = p at *
    generalize bytesToNat bs = x at *
    split
    · rename_i h2
      have e1 : 128 * p ≤ b.toNat * p := Nat.mul_le_mul_right p h2
      have e2 : b.toNat * p ≤ 255 * p := Nat.mul_le_mul_right p (by omega)
      generalize b.toNat * p = y at *
      omega
    · rename_i h2
      have e2 : b.toNat * p ≤ 127 * p := Nat.mul_le_mul_right p (by omega)
      generalize b.toNat * p = y at *
      omega

theorem natToBytes_ne_nil {n : Nat} (h : 0 < n) : natToBytes n ≠ [] := by
  intro he
  have := bytesToNat_natToBytes n
  rw [he] at this
  simp at this
  omega

/-- decoding inverts encoding -/
theorem twosFromBytes_toBytes (z : Int) : twosFromBytes (twosToBytes z) = z := by
  unfold twosToBytes
  split
  · simp_all [twosFromBytes]
  · split
    · rename_i hz
      have hv := bytesToNat_natToBytes z.toNat
      cases hb : natToBytes z.toNat with
      | nil => exact absurd hb (natToBytes_ne_nil (by omega))
      | cons b bs =>
        rw [hb] at hv
        simp only
        split
        · have h0 : ¬ ((128 : UInt8) ≤ 0) := by decide
          simp only [twosFromBytes, h0, if_false]
          rw [bytesToNat_cons, hv]
          simp; omega
        · rename_i hlt
          simp only [twosFromBytes, hlt, if_false, hv]
          omega
    · rename_i h0 hz
      have hv := bytesToNat_natToBytes (-z - 1).toNat
      have hcv := bytesToNat_compl (natToBytes (-z - 1).toNat)
      have hcl := complBytes_length (natToBytes (-z - 1).toNat)
      rw [hv, ← hcl] at hcv
      cases hb : complBytes (natToBytes (-z - 1).toNat) with
      | nil =>
        rw [hb] at hcv
        simp at hcv
        have h1 : (128 : UInt8) ≤ 255 := by decide
        simp only [twosFromBytes, h1, if_true]
        simp [bytesToNat]
        omega
      | cons b bs =>
        rw [hb] at hcv
        simp only
        split
        · have h1 : (128 : UInt8) ≤ 255 := by decide
          simp only [twosFromBytes, h1, if_true]
          rw [bytesToNat_cons, u8_255]
          have e : ((256 : Int) ^ ((b :: bs).length + 1)) = (256 ^ (b :: bs).length * 256 : Nat) := by
            simp [Int.pow_succ]
          rw [e]
          generalize 256 ^ (b :: bs).length = p at *
          generalize bytesToNat (b :: bs) = q at *
          omega
        · rename_i hge
          have h1 : (128 : UInt8) ≤ b := by
            rw [u8_lt_iff] at hge; rw [u8_le_iff]; omega
          simp only [twosFromBytes, h1, if_true]
          have e : ((256 : Int) ^ (bs.length + 1)) = (256 ^ (b :: bs).length : Nat) := by
            simp
          rw [e]
          generalize 256 ^ (b :: bs).length = p at *
          generalize bytesToNat (b :: bs) = q at *
          omega

/-- a byte string with leading byte `b` is at least `b * 256^len` -/
theorem bytesToNat_ge (b : UInt8) (bs : Bytes) : b.toNat * 256 ^ bs.length ≤ bytesToNat (b :: bs) := by
  rw [bytesToNat_cons]; omega

/-- the encoding is minimal: the value does not fit in one byte less -/
theorem twosToBytes_needs (z : Int) (h : 2 ≤ (twosToBytes z).length) :
    2 * z < -(256 ^ ((twosToBytes z).length - 1) : Int) ∨ (256 ^ ((twosToBytes z).length - 1) : Int) ≤ 2 * z := by
  unfold twosToBytes at h ⊢
  split
  · simp_all
  · rename_i hz0
    split
    · rename_i hz
      right
      have hv := bytesToNat_natToBytes z.toNat
      have hh := natToBytes_head z.toNat
      cases hb : natToBytes z.toNat with
      | nil => exact absurd hb (natToBytes_ne_nil (by omega))
      | cons b bs =>
        rw [hb] at hv hh
        simp only
        have hb0 : b ≠ 0 := hh b rfl
        have hb1 : 1 ≤ b.toNat := by
          rcases Nat.eq_zero_or_pos b.toNat with h | h
          · exact absurd (UInt8.toNat_inj.1 (by simpa using h)) hb0
          · exact h
        have hge := bytesToNat_ge b bs
        split
        · rename_i h128
          rw [u8_le_iff, u8_128] at h128
          simp only [List.length_cons, Nat.add_sub_cancel]
          have e : ((256 : Int) ^ (bs.length + 1)) = (256 ^ bs.length * 256 : Nat) := by simp [Int.pow_succ]
          rw [e]
          have := Nat.mul_le_mul_right (256 ^ bs.length) h128
          omega
        · simp only [List.length_cons, Nat.add_sub_cancel]
          have e : ((256 : Int) ^ bs.length) = (256 ^ bs.length : Nat) := by simp
          rw [e]
          have := Nat.mul_le_mul_right (256 ^ bs.length) hb1
          omega
    · rename_i hz
      left
      have hv := bytesToNat_natToBytes (-z - 1).toNat
      have hh := natToBytes_head (-z - 1).toNat
      rw [if_neg hz0, if_neg hz] at h
      cases hb : natToBytes (-z - 1).toNat with
      | nil => rw [hb] at h; simp [complBytes] at h
      | cons b bs =>
        rw [hb] at hv hh
        simp only [complBytes, List.map_cons]
        have hb0 : b ≠ 0 := hh b rfl
        have hb1 : 1 ≤ b.toNat := by
          rcases Nat.eq_zero_or_pos b.toNat with h | h
          · exact absurd (UInt8.toNat_inj.1 (by simpa using h)) hb0
          · exact h
        have hge := bytesToNat_ge b bs
        split
        · rename_i h128
          rw [u8_lt_iff, u8_128, compl_toNat] at h128
          simp only [List.length_cons, List.length_map, Nat.add_sub_cancel]
          have e : ((256 : Int) ^ (bs.length + 1)) = (256 ^ bs.length * 256 : Nat) := by simp [Int.pow_succ]
          rw [e]
          have h3 : 128 ≤ b.toNat := by omega
          have := Nat.mul_le_mul_right (256 ^ bs.length) h3
          omega
        · simp only [List.length_cons, List.length_map, Nat.add_sub_cancel]
          have e : ((256 : Int) ^ bs.length) = (256 ^ bs.length : Nat) := by simp
          rw [e]
          have := Nat.mul_le_mul_right (256 ^ bs.length) hb1
          omega

theorem twosToBytes_minimal (z : Int) (bs : Bytes) (h : twosFromBytes bs = z) :
    (twosToBytes z).length ≤ bs.length := by
  by_cases hz : z = 0
  · simp [twosToBytes, hz]
  have hne : bs ≠ [] := by rintro rfl; exact hz (by simpa [twosFromBytes] using h.symm)
  have hr := twosFromBytes_range bs hne
  rw [h] at hr
  by_cases h2 : 2 ≤ (twosToBytes z).length
  · have hn := twosToBytes_needs z h2
    rcases Nat.lt_or_ge bs.length (twosToBytes z).length with hlt | hge
    · exfalso
      have hle : (256 : Nat) ^ bs.length ≤ 256 ^ ((twosToBytes z).length - 1) :=
        Nat.pow_le_pow_right (by decide) (by omega)
      have e1 : ((256 : Int) ^ bs.length) = ((256 ^ bs.length : Nat) : Int) := by simp
      have e2 : ((256 : Int) ^ ((twosToBytes z).length - 1)) = ((256 ^ ((twosToBytes z).length - 1) : Nat) : Int) := by simp
      rw [e1] at hr
      rw [e2] at hn
      omega
    · exact hge
  · have : 0 < bs.length := List.length_pos_iff.2 hne
    omega

end Arwen
