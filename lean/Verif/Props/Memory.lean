import Verif.Eei.Run
import Verif.Props.BigInt
import Verif.Spec.Memory
import Verif.Fixture
/-
C21 (contract memory).
-/
namespace Arwen.Props
open Arwen Arwen.Eei Arwen.Spec

theorem int32_le_toNat (o : Int32) (h : ¬ o < 0) : (o.toNatClampNeg : Int) = o.toInt ∧ o.toUInt32.toNat = o.toNatClampNeg := by
  have hb := int32_bounds o
  have h0 : ¬ o.toInt < 0 := by
    intro hc; exact h (by rw [Int32.lt_iff_toInt_lt]; exact hc)
  have e : o.toNatClampNeg = o.toInt.toNat := rfl
  refine ⟨by omega, ?_⟩
  have h1 : o.toUInt32.toNat = o.toBitVec.toNat := rfl
  have h2 : o.toInt = o.toBitVec.toInt := rfl
  have h3 := BitVec.toInt_eq_toNat_cond o.toBitVec
  have h4 := o.toBitVec.isLt
  rw [e, h1]
  rw [h2, h3] at h0 ⊢
  split at h0
  · rename_i hc; rw [if_pos hc]; omega
  · omega

theorem u32_ofNat {n : Nat} (h : n < 2 ^ 32) : (UInt32.ofNat n).toNat = n := by
  show n % 2 ^ 32 = n
  omega

/-- the requested end of a range, for ranges that start inside a memory below 2 GiB -/
theorem reqEnd_spec (o n : Int32) (ho : ¬ o < 0) (hn : ¬ n < 0) :
    ¬ (addI32 o n < 0) ∧ (addI32 o n).toNatClampNeg = min (o.toNatClampNeg + n.toNatClampNeg) (2 ^ 31 - 1) := by
  have h1 := int32_le_toNat o ho
  have h2 := int32_le_toNat n hn
  have b1 := int32_bounds o
  have b2 := int32_bounds n
  have hs := bmod32 (o.toInt + n.toInt) (by omega) (by omega)
  have hval : (addI32 o n).toInt = min (o.toInt + n.toInt) (2 ^ 31 - 1) := by
    unfold addI32
    rw [addI32E_spec]
    by_cases hc : -2147483648 ≤ o.toInt + n.toInt ∧ o.toInt + n.toInt < 2147483648
    · rw [if_pos hc]
      show (o + n).toInt = _
      rw [Int32.toInt_add, hs, if_neg (by omega), if_pos hc.2]; omega
    · rw [if_neg hc]
      show (2147483647 : Int) = _
      omega
  have hneg : ¬ (addI32 o n < 0) := by
    rw [Int32.lt_iff_toInt_lt, hval]
    show ¬ (_ < (0 : Int))
    omega
  refine ⟨hneg, ?_⟩
  have := (int32_le_toNat _ hneg).1
  omega


theorem getD_append (a b : Bytes) (j : Nat) (d : UInt8) :
    (a ++ b).getD j d = if j < a.length then a.getD j d else b.getD (j - a.length) d := by
  simp only [List.getD_eq_getElem?_getD, List.getElem?_append]
  split <;> rfl

theorem bytesFrom_eq {mem r : Bytes} {o n : Nat} (hl : r.length = n) (h : ∀ j < n, byteAt r j = byteAt mem (o + j)) :
    r = bytesFrom mem o n := by
  apply List.ext_getElem
  · simp [bytesFrom, hl]
  · intro j h1 h2
    have := h j (by omega)
    simp only [byteAt, List.getD_eq_getElem?_getD, List.getElem?_eq_getElem h1, Option.getD_some] at this
    simp [bytesFrom, byteAt, this]

/-- **C21 (loads).** Loading a range of a memory below 2 GiB: an error exactly if the range starts outside the memory or its
length is negative; otherwise exactly the requested number of bytes, zero past the end of the memory. -/
theorem c21_load (mem : Bytes) (o n : Int32) (hm : mem.length < 2 ^ 31) :
    memLoadPure mem o n =
      if o.toInt < 0 ∨ (mem.length : Int) < o.toInt then .error .memLoadBadBounds
      else if n.toInt < 0 then .error .memLoadNegativeLength
      else .ok (bytesFrom mem o.toInt.toNat n.toInt.toNat) := by
  unfold memLoadPure
  have hz : (0 : Int32).toInt = 0 := rfl
  by_cases ho : o < 0
  · have : o.toInt < 0 := by rw [Int32.lt_iff_toInt_lt, hz] at ho; exact ho
    simp [ho, this]
  have h1 := int32_le_toNat o ho
  have ho' : ¬ o.toInt < 0 := by omega
  have hc : o.toUInt32 > UInt32.ofNat mem.length ↔ (mem.length : Int) < o.toInt := by
    rw [gt_iff_lt, UInt32.lt_iff_toNat_lt, u32_ofNat (by omega)]; omega
  by_cases hb : (mem.length : Int) < o.toInt
  · simp [hc.2 hb, hb]
  have hb' : ¬ o.toUInt32 > UInt32.ofNat mem.length := fun h => hb (hc.1 h)
  by_cases hn : n < 0
  · have : n.toInt < 0 := by rw [Int32.lt_iff_toInt_lt, hz] at hn; exact hn
    simp [ho, hb', hn, this, ho', hb]
  have h2 := int32_le_toNat n hn
  have hn' : ¬ n.toInt < 0 := by omega
  rw [if_neg (by simp [ho, hb']), if_neg hn, if_neg (by simp [ho', hb]), if_neg hn']
  have e1 : o.toInt.toNat = o.toNatClampNeg := rfl
  have e2 : n.toInt.toNat = n.toNatClampNeg := rfl
  rw [e1, e2]
  have hre := reqEnd_spec o n ho hn
  have hre2 := int32_le_toNat _ hre.1
  generalize hO : o.toNatClampNeg = O at *
  generalize hN : n.toNatClampNeg = N at *
  have hsrc : (if (addI32 o n).toUInt32 > UInt32.ofNat mem.length then mem.drop O
      else (mem.take (addI32 o n).toNatClampNeg).drop O).take N = (mem.drop O).take N := by
    split
    · rfl
    · rename_i hle
      rw [gt_iff_lt, UInt32.lt_iff_toNat_lt, u32_ofNat (by omega), hre2.2, hre.2] at hle
      rw [hre.2, List.drop_take, List.take_take]
      by_cases hx : O + N ≤ 2 ^ 31 - 1
      · congr 1; omega
      · rw [List.take_of_length_le (by simp; omega), List.take_of_length_le (by simp; omega)]
  dsimp only
  rw [hsrc]
  congr 1
  apply bytesFrom_eq
  · simp; omega
  · intro j hj
    simp only [byteAt]
    rw [getD_append]
    by_cases hin : j < ((mem.drop O).take N).length
    · rw [if_pos hin]
      simp only [List.getD_eq_getElem?_getD]
      rw [List.getElem?_take, if_pos hj, List.getElem?_drop]
    · rw [if_neg hin]
      simp only [List.length_take, List.length_drop] at hin
      simp only [List.getD_eq_getElem?_getD]
      rw [List.getElem?_eq_none (l := mem) (by omega)]
      simp only [List.getElem?_replicate]
      split <;> rfl

theorem byteAt_overwrite {mem data : Bytes} {o : Nat} (h : o + data.length ≤ mem.length) (j : Nat) :
    byteAt (overwrite mem o data) j =
      if o ≤ j ∧ j < o + data.length then byteAt data (j - o) else byteAt mem j := by
  simp only [byteAt, overwrite]
  rw [getD_append, getD_append]
  have hl : (mem.take o).length = o := by simp; omega
  rw [List.length_append, hl]
  simp only [List.getD_eq_getElem?_getD]
  by_cases h1 : j < o
  · rw [if_pos (by omega), if_pos h1, if_neg (by omega), List.getElem?_take, if_pos h1]
  · by_cases h2 : j < o + data.length
    · rw [if_pos h2, if_neg h1, if_pos ⟨by omega, h2⟩]
    · rw [if_neg h2, if_neg (by omega), List.getElem?_drop]
      congr 2; omega

theorem length_overwrite {mem data : Bytes} {o : Nat} (h : o + data.length ≤ mem.length) :
    (overwrite mem o data).length = mem.length := by simp [overwrite]; omega

theorem byteAt_grow (mem : Bytes) (k j : Nat) : byteAt (mem ++ List.replicate k 0) j = byteAt mem j := by
  simp only [byteAt]
  rw [getD_append]
  split
  · rfl
  · simp only [List.getD_eq_getElem?_getD]
    rw [List.getElem?_eq_none (l := mem) (by omega), List.getElem?_replicate]
    split <;> rfl

/-- the size of the memory after a store is attempted: one page is added if the range does not fit -/
def sizeAfter (growOk : Nat → Bool) (size o n : Nat) : Nat :=
  if size < o + n ∧ growOk size then size + 65536 else size

/-- **C21 (stores).** Storing bytes in a memory that stays below 2 GiB never panics. The offset must not be negative and the
range must fit after adding at most one page. Success changes exactly the bytes of the range; failure changes no byte.
Memory never shrinks. -/
theorem c21_store (growOk : Nat → Bool) (mem data : Bytes) (o : Int32) (hm : mem.length + 65537 < 2 ^ 31)
    (hd : data.length < 2 ^ 31) :
    ∃ e mem', memStorePure growOk mem o data = some (e, mem') ∧
      (e = none ↔ 0 ≤ o.toInt ∧ o.toInt.toNat + data.length ≤ sizeAfter growOk mem.length o.toInt.toNat data.length) ∧
      mem'.length = (if o.toInt < 0 then mem.length else sizeAfter growOk mem.length o.toInt.toNat data.length) ∧
      ∀ j, byteAt mem' j =
        if e = none ∧ o.toInt.toNat ≤ j ∧ j < o.toInt.toNat + data.length then byteAt data (j - o.toInt.toNat)
        else byteAt mem j := by
  unfold memStorePure
  have hz : (0 : Int32).toInt = 0 := rfl
  by_cases ho : o < 0
  · have hneg : o.toInt < 0 := by rw [Int32.lt_iff_toInt_lt, hz] at ho; exact ho
    refine ⟨some .badLowerBounds, mem, by simp [ho], ?_, by simp [hneg], by simp⟩
    constructor
    · intro h; cases h
    · intro h; omega
  have h1 := int32_le_toNat o ho
  have ho' : ¬ o.toInt < 0 := by omega
  have e1 : o.toInt.toNat = o.toNatClampNeg := rfl
  have hdl : (Int32.ofNat data.length).toInt = data.length := by
    rw [Int32.toInt_ofNat', show Int32.size = 2 ^ 32 from rfl, Int.bmod_def]
    split <;> omega
  have hn : ¬ Int32.ofNat data.length < 0 := by
    rw [Int32.lt_iff_toInt_lt, hdl, hz]; omega
  have h2 := int32_le_toNat _ hn
  have hN : (Int32.ofNat data.length).toNatClampNeg = data.length := by omega
  have hre := reqEnd_spec o (Int32.ofNat data.length) ho hn
  have hre2 := int32_le_toNat _ hre.1
  rw [hN] at hre
  have hlt : ¬ addI32 o (Int32.ofNat data.length) < o := by
    rw [Int32.lt_iff_toInt_lt]
    have := int32_bounds o
    omega
  have hcond : ∀ m : Bytes, m.length < 2 ^ 31 → ((addI32 o (Int32.ofNat data.length)).toUInt32 > UInt32.ofNat m.length ↔
      m.length < o.toNatClampNeg + data.length ∧ m.length < 2 ^ 31 - 1) := by
    intro m hml
    rw [gt_iff_lt, UInt32.lt_iff_toNat_lt, u32_ofNat (by omega), hre2.2, hre.2]; omega
  simp only [ho, if_false, hlt, ho']
  rw [e1]
  generalize hO : o.toNatClampNeg = O at *
  have key : ∀ m : Bytes, m.length + 1 < 2 ^ 31 → O + data.length ≤ m.length →
      (overwrite m O (data.take ((addI32 o (Int32.ofNat data.length)).toNatClampNeg - O))) = overwrite m O data := by
    intro m h3 h4
    congr 1
    exact List.take_of_length_le (by omega)
  by_cases hneed : mem.length < O + data.length
  · have hneed' := (hcond mem (by omega)).2 ⟨hneed, by omega⟩
    by_cases hg : growOk mem.length = true
    · simp only [hneed', decide_true, hg, Bool.not_true, Bool.and_false, Bool.false_eq_true, if_false, if_true]
      have hgl : (mem ++ List.replicate wasmPage (0 : UInt8)).length = mem.length + 65536 := by rw [List.length_append, List.length_replicate]; rfl
      have hsz : sizeAfter growOk mem.length O data.length = mem.length + 65536 := by simp [sizeAfter, hneed, hg]
      by_cases hfit : mem.length + 65536 < O + data.length
      · have := (hcond (mem ++ List.replicate wasmPage 0) (by omega)).2 ⟨by omega, by omega⟩
        refine ⟨some .badUpperBounds, _, by rw [if_pos this], ?_, by rw [hsz, hgl], fun j => by rw [byteAt_grow, if_neg (by intro h; cases h.1)]⟩
        rw [hsz]; constructor
        · intro h; cases h
        · intro h; omega
      · have hno : ¬ ((addI32 o (Int32.ofNat data.length)).toUInt32 > UInt32.ofNat (mem ++ List.replicate wasmPage 0).length) := by
          rw [hcond _ (by omega)]; omega
        refine ⟨none, _, by rw [if_neg hno], ?_, ?_, ?_⟩
        · rw [hsz]; simp; omega
        · rw [hsz, key _ (by omega) (by omega), length_overwrite (by omega), hgl]
        · intro j
          rw [key _ (by omega) (by omega), byteAt_overwrite (by omega), byteAt_grow]
          simp
    · have hsz : sizeAfter growOk mem.length O data.length = mem.length := by simp [sizeAfter, hg]
      refine ⟨some (.wasm 0), mem, by simp [hneed', hg], ?_, hsz.symm, by simp⟩
      rw [hsz]; constructor
      · intro h; cases h
      · intro h; omega
  · have hneed' : ¬ ((addI32 o (Int32.ofNat data.length)).toUInt32 > UInt32.ofNat mem.length) := by
      rw [hcond mem (by omega)]; omega
    have hsz : sizeAfter growOk mem.length O data.length = mem.length := by simp [sizeAfter, hneed]
    simp only [hneed', decide_false, Bool.false_and, Bool.false_eq_true, if_false]
    refine ⟨none, _, rfl, ?_, ?_, ?_⟩
    · rw [hsz]; simp; omega
    · rw [hsz, key _ (by omega) (by omega), length_overwrite (by omega)]
    · intro j
      rw [key _ (by omega) (by omega), byteAt_overwrite (by omega)]
      simp

/-- **C21 (round trip).** What was stored successfully is read back. -/
theorem c21_store_load (growOk : Nat → Bool) (mem mem' data : Bytes) (o n : Int32) (hm : mem.length + 65537 < 2 ^ 31)
    (hn : n.toInt = data.length) (h : memStorePure growOk mem o data = some (none, mem')) :
    memLoadPure mem' o n = .ok data := by
  have hb := int32_bounds n
  obtain ⟨e, m, h1, h2, h3, h4⟩ := c21_store growOk mem data o hm (by omega)
  rw [h] at h1
  simp only [Option.some.injEq, Prod.mk.injEq] at h1
  obtain ⟨rfl, rfl⟩ := h1
  have hfit := h2.1 rfl
  have hle : sizeAfter growOk mem.length o.toInt.toNat data.length ≤ mem.length + 65536 := by
    unfold sizeAfter; split <;> omega
  rw [if_neg (by omega)] at h3
  rw [c21_load mem' o n (by omega), if_neg (by omega), if_neg (by omega)]
  congr 1
  symm
  apply bytesFrom_eq
  · omega
  · intro j hj
    rw [h4, if_pos ⟨rfl, by omega, by omega⟩]
    congr 1; omega

/-- **C21 (sizes from 2 GiB on).** The end of a range is clamped to `2^31-1`: a memory of 2 GiB holding ones answers 0 for its last
byte. -/
theorem c21_load_clamped_neg : ∃ (mem : Bytes) (o n : Int32), o.toInt.toNat + n.toInt.toNat ≤ mem.length ∧ 0 ≤ o.toInt ∧
    0 ≤ n.toInt ∧ memLoadPure mem o n ≠ .ok (bytesFrom mem o.toInt.toNat n.toInt.toNat) := by
  refine ⟨List.replicate (2 ^ 31) 1, maxI32, 1, ?_, by decide, by decide, ?_⟩
  · rw [List.length_replicate]; decide
  · have hl : (List.replicate (2 ^ 31) (1 : UInt8)).length = 2 ^ 31 := List.length_replicate ..
    unfold memLoadPure
    simp only [hl]
    rw [if_neg (by decide), if_neg (by decide), if_neg (by decide)]
    have h1 : maxI32.toNatClampNeg = 2147483647 := by decide
    have h2 : (addI32 maxI32 1).toNatClampNeg = 2147483647 := by decide
    have h3 : (1 : Int32).toNatClampNeg = 1 := by decide
    have h4 : maxI32.toInt.toNat = 2147483647 := by decide
    have h5 : (1 : Int32).toInt.toNat = 1 := by decide
    rw [h1, h2, h3, h4, h5, List.drop_take]
    simp only [Nat.sub_self, List.take_zero, List.take_nil, List.nil_append, List.length_nil, Nat.sub_zero]
    intro hc
    injection hc with hc
    simp only [bytesFrom, byteAt, List.getD_eq_getElem?_getD, List.range_one, List.map_cons, List.map_nil, Nat.add_zero,
      List.getElem?_replicate] at hc
    rw [if_pos (by decide)] at hc
    revert hc; decide

/-- the hypotheses of `c21_store` meet both outcomes -/
example : memStorePure (fun _ => true) [1, 2, 3, 4] 1 [9, 8] = some (none, [1, 9, 8, 4]) := by decide +kernel
example : memStorePure (fun _ => false) [1, 2, 3, 4] 3 [9, 8] = some (some (.wasm 0), [1, 2, 3, 4]) := by decide +kernel
example : memLoadPure [1, 2, 3, 4] 2 4 = .ok [3, 4, 0, 0] := by rfl


/-! ### The API of a running contract -/

section
variable {χ A : Type} (E : Env χ A) (ex : Executor χ A)

theorem int32_ofNat_eq_zero {n : Nat} (h : n < 2 ^ 31) : Int32.ofNat n = 0 ↔ n = 0 := by
  constructor
  · intro hc
    have := congrArg Int32.toInt hc
    rw [Int32.toInt_ofNat', show Int32.size = 2 ^ 32 from rfl, Int.bmod_def] at this
    have h0 : (0 : Int32).toInt = 0 := rfl
    rw [h0] at this
    split at this <;> omega
  · rintro rfl; rfl

/-- **C21 (host).** A store by the running contract changes at most the memory of its own instance, as `c21_store` says;
an empty store changes nothing and succeeds. -/
theorem c21_host (s : St χ A) (o : Int32) (data : Bytes) {i : Nat} (h : s.rt.instance_ = some i)
    (hm : (s.insts i).mem.length + 65537 < 2 ^ 31) (hd : data.length < 2 ^ 31) :
    ∃ e mem', memStore E o data s = (.ok e, s.modInst i (fun x => { x with mem := mem' })) ∧
      (data = [] → e = none ∧ mem' = (s.insts i).mem) ∧
      (data ≠ [] → memStorePure E.wasm.growOk (s.insts i).mem o data = some (e, mem')) := by
  by_cases hz : data = []
  · subst hz
    refine ⟨none, (s.insts i).mem, ?_, fun _ => ⟨rfl, rfl⟩, fun hc => absurd rfl hc⟩
    simp only [memStore]
    rw [if_pos (show Int32.ofNat ([] : Bytes).length = 0 from rfl)]
    congr 1
    have : s.insts = (s.modInst i (fun x => { x with mem := (s.insts i).mem })).insts := by
      funext j
      simp only [St.modInst]
      by_cases hj : j = i
      · subst hj; rw [if_pos rfl]
      · rw [if_neg hj]
    cases s
    simp only [St.modInst] at this ⊢
    rw [← this]
  · obtain ⟨e, mem', h1, -⟩ := c21_store E.wasm.growOk (s.insts i).mem data o hm hd
    refine ⟨e, mem', ?_, fun hc => absurd hc hz, fun _ => h1⟩
    simp only [memStore, h, h1]
    rw [if_neg]
    rw [int32_ofNat_eq_zero hd]
    exact fun hc => hz (List.length_eq_zero_iff.1 hc)

/-- **C21 (host).** A load by the running contract reads its own memory and changes nothing. -/
theorem c21_host_load (s : St χ A) (o n : Int32) {i : Nat} (h : s.rt.instance_ = some i)
    (hm : (s.insts i).mem.length < 2 ^ 31) :
    memLoad s o n = .ok (if n.toInt = 0 then .ok []
      else if o.toInt < 0 ∨ ((s.insts i).mem.length : Int) < o.toInt then .error .memLoadBadBounds
      else if n.toInt < 0 then .error .memLoadNegativeLength
      else .ok (bytesFrom (s.insts i).mem o.toInt.toNat n.toInt.toNat)) := by
  have hz : n = 0 ↔ n.toInt = 0 := by
    constructor
    · rintro rfl; rfl
    · intro hc; exact Int32.toInt_inj.1 hc
  simp only [memLoad, h, hz]
  split
  · rfl
  · rw [c21_load _ _ _ hm]

/-- the memory of the running contract is not touched by gas or big-integer bookkeeping -/
theorem spend_mem (s : St χ A) (g : UInt64) (i : Nat) : ((s.spend g).insts i).mem = (s.insts i).mem := by
  simp only [St.spend]; split <;> rfl

/-- **C04 (API).** If writing an integer as bytes to memory does not fault, reading these bytes back into any handle gives the
same integer (unsigned bytes: for a non-negative integer). -/
theorem c04_api_roundtrip (signed : Bool) (x d off : Int32) (s s1 : St χ A) (r : Int64) {i : Nat}
    (h : s.rt.instance_ = some i) (hm : (s.insts i).mem.length + 131073 < 2 ^ 31)
    (hv : signed = false → 0 ≤ bigVal s x) (hl : (bigBytes signed (bigVal s x)).length < 2 ^ 31)
    (hrun : interp E ex (bigGetBytes signed x off) s = (.ok r, s1)) (hbp : s1.curBp ≠ .executionFailed) :
    r.toInt = (bigBytes signed (bigVal s x)).length ∧
    ∃ t, interp E ex (bigSetBytes signed d off r.toInt32) s1 = (.ok 0, t) ∧ bigVal t d = bigVal s x ∧ t.curBp = s.curBp := by
  have hb : (if signed then twosFromBytes (bigBytes signed (bigVal s x))
      else (bytesToNat (bigBytes signed (bigVal s x)) : Int)) = bigVal s x := by
    cases signed
    · exact (c04_unsigned _ (hv rfl)).1
    · exact c04_signed _
  unfold bigGetBytes at hrun
  rw [interp_gasK E ex _ _ s h, interp_bigGet] at hrun
  change interp E ex (storeK off (bigBytes signed (bigVal s x)) 0 _) (touched (s.spend _) x) = _ at hrun
  generalize hbb : bigBytes signed (bigVal s x) = b at *
  generalize ha : touched (s.spend (s.met.sched.api (if signed = true then ApiCost.bigIntGetSignedBytes
    else ApiCost.bigIntGetUnsignedBytes))) x = a at *
  have hai : a.rt.instance_ = some i := by rw [← ha]; exact h
  have ham : (a.insts i).mem = (s.insts i).mem := by rw [← ha]; exact spend_mem s _ i
  have habp : a.curBp = s.curBp := by rw [← ha]; exact curBp_spend s _
  obtain ⟨e, mem', h1, h2, h3⟩ := c21_host E a off b hai (by rw [ham]; omega) hl
  unfold storeK at hrun
  rw [interp_op_ok E ex (.memStore off b) _ a _ e h1] at hrun
  generalize ha1 : a.modInst i (fun x => { x with mem := mem' }) = a1 at *
  have ha1i : a1.rt.instance_ = some i := by rw [← ha1]; exact hai
  have ha1m : (a1.insts i).mem = mem' := by rw [← ha1]; simp [St.modInst]
  have ha1bp : a1.curBp = s.curBp := by
    rw [← habp, ← ha1]; simp only [St.curBp, St.modInst, hai]; simp
  cases e with
  | some e =>
    simp only [orFaultK] at hrun
    rw [interp_faultK E ex e 0 a1 ha1i] at hrun
    simp only [Prod.mk.injEq] at hrun
    rw [← hrun.2, curBp_faulted E a1 e ha1i] at hbp
    exact absurd rfl hbp
  | none =>
    simp only [orFaultK, copyK] at hrun
    rw [interp_useK E ex _ _ a1 ha1i, interp_pure] at hrun
    simp only [Prod.mk.injEq, Res.ok.injEq] at hrun
    obtain ⟨hr, hs1⟩ := hrun
    replace hr : lenRes b = r := by rw [← hbb]; exact hr
    have hlen : (Int32.ofNat b.length).toInt = b.length := by
      rw [Int32.toInt_ofNat', show Int32.size = 2 ^ 32 from rfl, Int.bmod_def]
      split <;> omega
    have hr32 : r.toInt32 = Int32.ofNat b.length := by
      rw [← hr, lenRes]; exact Int32.toInt32_toInt64 _
    refine ⟨by rw [← hr]; simp only [lenRes, Int32.toInt_toInt64]; exact hlen, ?_⟩
    have hi1 : s1.rt.instance_ = some i := by rw [← hs1]; exact ha1i
    have hm1 : (s1.insts i).mem = mem' := by rw [← hs1, spend_mem, ha1m]
    unfold bigSetBytes
    rw [interp_gasK E ex _ _ s1 hi1, hr32]
    generalize ha2 : s1.spend (s1.met.sched.api (if signed = true then ApiCost.bigIntSetSignedBytes
      else ApiCost.bigIntSetUnsignedBytes)) = a2
    have ha2i : a2.rt.instance_ = some i := by rw [← ha2]; exact hi1
    have ha2bp : a2.curBp = s.curBp := by
      rw [← ha2, curBp_spend, ← hs1, curBp_spend, ha1bp]
    have hload : memLoad a2 off (Int32.ofNat b.length) = .ok (.ok b) := by
      simp only [memLoad, ha2i]
      by_cases hz : b = []
      · subst hz; rw [if_pos (show Int32.ofNat ([] : Bytes).length = 0 from rfl)]
      · rw [if_neg (by rw [int32_ofNat_eq_zero hl]; exact fun hc => hz (List.length_eq_zero_iff.1 hc))]
        have := h3 hz
        rw [ham] at this
        rw [← ha2, spend_mem, hm1, c21_store_load _ _ _ _ _ _ (by omega) hlen this]
    unfold loadK loadEK
    rw [interp_ask]
    simp only [hload, putK]
    let a3 : St χ A := { touched a2 d with big := (touched a2 d).big.setVal d (bigVal s x) }
    refine ⟨a3.spend (mulU64 a3.met.sched.dataCopyPerByte (lenU b)), (interp_bigGet E ex d _ a2).trans
      ((interp_bigSet E ex d _ _ _).trans ?_), ?_, ?_⟩
    · rw [hb]
      exact interp_useK E ex _ _ a3 (i := i) ha2i
    · show bigVal a3 d = _
      rw [bigVal_set, if_pos rfl]
    · rw [curBp_spend]; exact ha2bp

/-- the hypotheses are met by a running contract that writes −129 and reads it back -/
example : let s := { Fixture.running (List.replicate 64 0) 1000000 with big := { vals := AMap.empty.insert 3 (-129) } }
    let p := interp Fixture.env0 ⟨fun _ => M.panic, fun _ => M.panic⟩ (bigGetBytes true 3 10) s
    (match p.1 with | .ok r => r | _ => 0) = 2 ∧ p.2.curBp = .none ∧
      (curMem p.2).take 13 = [0, 0, 0, 0, 0, 0, 0, 0, 0, 0, 255, 127, 0] := by decide +kernel

end
end Arwen.Props
