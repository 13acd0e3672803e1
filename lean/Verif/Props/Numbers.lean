import Verif.Spec.Numbers
import Verif.Props.Requests
/-
C65 (numbers, hashes and signatures, as contracts use them).
-/
namespace Arwen.Props
open Arwen Arwen.Eei Arwen.Spec
variable {χ A : Type} {E : Env χ A} {ex : Executor χ A}

/-- **C65**: the number of bits is what it should be. -/
theorem c65_bits (v : Int) (n : Nat) : bits v ≤ n ↔ v.natAbs < 2 ^ n := by
  unfold bits
  split
  · rename_i h; subst h; simp [Nat.two_pow_pos]
  · rename_i h
    rw [Nat.succ_le_iff, Nat.log2_lt (by omega)]

theorem _root_.Arwen.Spec.Looked.rt {s t : St χ A} {i g : Nat} (h : Looked s t i g) : t.rt = s.rt := h.paid.rt
theorem _root_.Arwen.Spec.Looked.met {s t : St χ A} {i g : Nat} (h : Looked s t i g) : t.met = s.met := h.paid.met
theorem _root_.Arwen.Spec.Looked.of {s t : St χ A} {i g : Nat} (h : OnlyPaid s t i g) : Looked s t i g := by
  have hb : t.big = s.big := by rw [h.rest]
  refine ⟨⟨by rw [h.rest], h.others, h.running, h.points⟩, by rw [hb], fun k => ?_⟩
  unfold handleValue; rw [hb]
theorem _root_.Arwen.Spec.Looked.val {s t : St χ A} {i g : Nat} (h : Looked s t i g) (x : Int32) : bigVal t x = handleValue s x := h.handles.2 x
theorem _root_.Arwen.Spec.Looked.touch {s t : St χ A} {i g : Nat} (h : Looked s t i g) (x : Int32) : Looked s (touched t x) i g := by
  refine ⟨h.paid, ?_, fun k => ?_⟩
  · exact (getOne_val t.big x x).2.2.trans h.handles.1
  · exact (bigVal_touched t x k).trans (h.handles.2 k)
theorem _root_.Arwen.Spec.Looked.spend {s t : St χ A} {i g : Nat} (hi : s.rt.instance_ = some i) (h : Looked s t i g) (p : UInt64) : Looked s (t.spend p) i (g + p.toNat) := by
  refine ⟨h.paid.trans ?_, h.handles⟩
  exact OnlyPaid.spend (s := { t with big := s.big }) (by show t.rt.instance_ = _; rw [h.rt]; exact hi) p
theorem _root_.Arwen.Spec.Looked.cast {s t : St χ A} {i g g' : Nat} (h : Looked s t i g) (hh : min g (2 ^ 63 - 1) = min g' (2 ^ 63 - 1)) : Looked s t i g' :=
  ⟨h.paid.cast hh, h.handles⟩

theorem interp_sizes {s : St χ A} {i : Nat} (hi : s.rt.instance_ = some i) : ∀ (vs : List Int) (t : St χ A) (g : Nat) (k : Eei.P χ A),
    Looked s t i g → (∀ v ∈ vs, bits v < 2 ^ 64) →
    ∃ u, interp E ex (extraK vs k) t = interp E ex k u ∧ Looked s u i (g + sizesPrice s.met.sched vs)
  | [], t, g, k, h, _ => ⟨t, rfl, h⟩
  | v :: vs, t, g, k, h, hb => by
    have hv := hb v List.mem_cons_self
    have e : bitLen v = bits v := rfl
    unfold extraK
    rw [e]
    by_cases hc : bits v / 8 > 32
    · rw [if_pos hc]
      have hti : t.rt.instance_ = some i := by rw [h.rt]; exact hi
      rw [interp_useK E ex _ _ t hti]
      have hp := h.spend hi (mulU64 (UInt64.ofNat (bits v / 8)) t.met.sched.dataCopyPerByte)
      have hp' : Looked s _ i (g + sizePrice s.met.sched v) := hp.cast (by
        rw [mulU64_toNat, UInt64.toNat_ofNat_of_lt' (by have : UInt64.size = 2 ^ 64 := rfl; omega), h.met]
        unfold sizePrice
        rw [if_pos (by omega), Nat.mul_comm]
        omega)
      obtain ⟨u, h1, h2⟩ := interp_sizes hi vs _ _ k hp' fun w hw => hb w (List.mem_cons_of_mem _ hw)
      refine ⟨u, h1, h2.cast ?_⟩
      unfold sizesPrice
      rw [List.map_cons, List.sum_cons, Nat.add_assoc]
    · rw [if_neg hc]
      obtain ⟨u, h1, h2⟩ := interp_sizes hi vs t g k h fun w hw => hb w (List.mem_cons_of_mem _ hw)
      refine ⟨u, h1, h2.cast ?_⟩
      unfold sizesPrice
      have : sizePrice s.met.sched v = 0 := by unfold sizePrice; rw [if_neg (by omega)]
      rw [List.map_cons, List.sum_cons, this, Nat.zero_add]

/-- setting a number after looking -/
theorem _root_.Arwen.Spec.Looked.set {s t : St χ A} {i g : Nat} (h : Looked s t i g) {p : Eei.P χ A} {d : Int32} {v : Int} {r : Int64}
    (hr : interp E ex p s = (.ok r, { t with big := t.big.setVal d v })) : Sets E ex p s i g d v r := by
  refine ⟨{ t with big := s.big }, { t with big := t.big.setVal d v }, h.paid, hr, rfl, h.handles.1, fun k => ?_⟩
  refine (bigVal_set t d k v).trans ?_
  split
  · rfl
  · exact h.handles.2 k

section
variable {s : St χ A} {i : Nat} (hi : s.rt.instance_ = some i) (hm : (s.insts i).mem.length + 65537 < 2 ^ 31)
include hi

/-- the end of an operation -/
theorem op_end {t : St χ A} {g : Nat} (h : Looked s t i g) {p : Eei.P χ A} {d : Int32} {e : Except Err Int} {R : Int → Prop}
    (he : ∀ v, e = .ok v ↔ R v) {k : Int → Eei.P χ A} {g' : Int → Nat}
    (hk : ∀ v, R v → ∃ u : St χ A, interp E ex (k v) { t with big := t.big.setVal d v } = (.ok 0, { u with big := t.big.setVal d v }) ∧ Looked s { u with big := t.big } i (g' v))
    (hr : interp E ex p s = interp E ex (match e with | .error e => faultK e 0 | .ok v => .op (.bigSet d v) fun _ => k v) t) :
    (∀ v, R v → Sets E ex p s i (g' v) d v 0) ∧ ((∀ v, ¬ R v) → Refuses E ex p s) := by
  refine ⟨fun v hv => ?_, fun hn => ?_⟩
  · rw [(he v).2 hv] at hr
    dsimp only at hr
    obtain ⟨u, h1, h2⟩ := hk v hv
    refine h2.set (v := v) (d := d) ?_
    exact hr.trans ((interp_bigSet E ex d v _ t).trans h1)
  · cases e with
    | ok v => exact absurd ((he v).1 rfl) (hn v)
    | error e =>
      dsimp only at hr
      have hti : t.rt.instance_ = some i := by rw [h.rt]; exact hi
      rw [interp_faultK E ex e 0 t hti] at hr
      exact ⟨0, _, hr, curBp_faulted E t e hti⟩

theorem op_end_pure {t : St χ A} {g : Nat} (h : Looked s t i g) {p : Eei.P χ A} {d : Int32} {e : Except Err Int} {R : Int → Prop}
    (he : ∀ v, e = .ok v ↔ R v)
    (hr : interp E ex p s = interp E ex (match e with | .error e => faultK e 0 | .ok v => .op (.bigSet d v) fun _ => .pure 0) t) :
    (∀ v, R v → Sets E ex p s i g d v 0) ∧ ((∀ v, ¬ R v) → Refuses E ex p s) :=
  op_end hi h he (k := fun _ => .pure 0) (g' := fun _ => g) (fun _ _ => ⟨t, rfl, h⟩) hr

/-- **C65**: operations with two operands: the result goes to the destination, at the price of the operation and of the sizes; if there is
no result, the execution fails. -/
theorem c65_binary (op : BinOp) (d x y : Int32) (hd : bits (handleValue s d) < 2 ^ 64) (hx : bits (handleValue s x) < 2 ^ 64)
    (hy : bits (handleValue s y) < 2 ^ 64) :
    (∀ v, BinResult op (handleValue s x) (handleValue s y) v →
      Sets E ex (eei E (.bigIntBin op d x y)) s i
        (binPrice s.met.sched op + sizesPrice s.met.sched (binPaid op (handleValue s d) (handleValue s x) (handleValue s y))) d v 0) ∧
    ((∀ v, ¬ BinResult op (handleValue s x) (handleValue s y) v) → Refuses E ex (eei E (.bigIntBin op d x y)) s) := by
  obtain ⟨u, hu, hr⟩ := interp_gas (E := E) (ex := ex) hi op.cost (.op (.bigGet d) fun (vd : Int) => .op (.bigGet x) fun (a : Int) =>
    .op (.bigGet y) fun (b : Int) => extraK (op.charged vd a b) <| match op.eval a b with
      | .error e => faultK e 0 | .ok v => .op (.bigSet d v) fun _ => .pure 0)
  have l1 := (Looked.of hu)
  have l2 := l1.touch d
  have l3 := l2.touch x
  have l4 := l3.touch y
  rw [interp_bigGet, interp_bigGet, interp_bigGet, l1.val, l2.val, l3.val] at hr
  obtain ⟨w, hw, l5⟩ := interp_sizes (E := E) (ex := ex) hi (op.charged (handleValue s d) (handleValue s x) (handleValue s y)) _ _
    (match op.eval (handleValue s x) (handleValue s y) with | .error e => faultK e 0 | .ok v => .op (.bigSet d v) fun _ => .pure 0) l4 (by
      intro v hv
      cases op <;> simp [BinOp.charged] at hv <;> rcases hv with rfl | rfl | rfl <;> assumption)
  have e1 : (s.met.sched.api op.cost).toNat = binPrice s.met.sched op := by cases op <;> rfl
  have e2 : ∀ a b c, op.charged a b c = binPaid op a b c := by intro a b c; cases op <;> rfl
  rw [e1, e2] at l5
  exact op_end_pure hi l5 (binop_eval_iff op _ _) (hr.trans hw)

/-- **C65**: operations with one operand. -/
theorem c65_unary (op : UnOp) (d x : Int32) (hd : bits (handleValue s d) < 2 ^ 64) (hx : bits (handleValue s x) < 2 ^ 64) :
    (∀ v, UnResult op (handleValue s x) v →
      Sets E ex (eei E (.bigIntUn op d x)) s i
        ((s.met.sched.api .bigIntSub).toNat + sizesPrice s.met.sched [handleValue s d, handleValue s x]) d v 0) ∧
    ((∀ v, ¬ UnResult op (handleValue s x) v) → Refuses E ex (eei E (.bigIntUn op d x)) s) := by
  obtain ⟨u, hu, hr⟩ := interp_gas (E := E) (ex := ex) hi .bigIntSub (.op (.bigGet d) fun (vd : Int) => .op (.bigGet x) fun (a : Int) =>
    extraK [vd, a] <| match op.eval a with
      | .error e => faultK e 0 | .ok v => .op (.bigSet d v) fun _ => .pure 0)
  have l1 := (Looked.of hu)
  have l2 := l1.touch d
  have l3 := l2.touch x
  rw [interp_bigGet, interp_bigGet, l1.val, l2.val] at hr
  obtain ⟨w, hw, l5⟩ := interp_sizes (E := E) (ex := ex) hi [handleValue s d, handleValue s x] _ _
    (match op.eval (handleValue s x) with | .error e => faultK e 0 | .ok v => .op (.bigSet d v) fun _ => .pure 0) l3 (by
      intro v hv; simp at hv; rcases hv with rfl | rfl <;> assumption)
  exact op_end_pure hi l5 (unop_eval_iff op _) (hr.trans hw)

/-- **C65**: shifts; the size of the result is paid as well. -/
theorem c65_shift (op : ShiftOp) (d x n : Int32) (hx : bits (handleValue s x) < 2 ^ 64)
    (hv : ∀ v, ShiftResult op (handleValue s x) n.toInt v → bits v < 2 ^ 64) :
    (∀ v, ShiftResult op (handleValue s x) n.toInt v →
      Sets E ex (eei E (.bigIntShift op d x n)) s i ((s.met.sched.api .bigIntSub).toNat + sizesPrice s.met.sched [handleValue s x, v]) d v 0) ∧
    ((∀ v, ¬ ShiftResult op (handleValue s x) n.toInt v) → Refuses E ex (eei E (.bigIntShift op d x n)) s) := by
  obtain ⟨u, hu, hr⟩ := interp_gas (E := E) (ex := ex) hi .bigIntSub (.op (.bigGet d) fun (_ : Int) => .op (.bigGet x) fun (a : Int) =>
    extraK [a] <| match op.eval a n with
      | .error e => faultK e 0 | .ok v => .op (.bigSet d v) fun _ => extraK [v] (.pure 0))
  have l1 := (Looked.of hu)
  have l2 := l1.touch d
  have l3 := l2.touch x
  rw [interp_bigGet, interp_bigGet, l2.val] at hr
  obtain ⟨w, hw, l5⟩ := interp_sizes (E := E) (ex := ex) hi [handleValue s x] _ _
    (match op.eval (handleValue s x) n with | .error e => faultK e 0 | .ok v => .op (.bigSet d v) fun _ => extraK [v] (.pure 0)) l3 (by
      intro v hv; simp at hv; rcases hv with rfl; assumption)
  refine op_end hi l5 (shiftop_eval_iff op _ n) (g' := fun v => (s.met.sched.api .bigIntSub).toNat + sizesPrice s.met.sched [handleValue s x, v])
    (k := fun v => extraK [v] (.pure 0)) (fun v hR => ?_) (hr.trans hw)
  have hwi : w.rt.instance_ = some i := by rw [l5.rt]; exact hi
  have hb := hv v hR
  have e : bitLen v = bits v := rfl
  show ∃ u, interp E ex (extraK [v] (.pure 0)) { w with big := w.big.setVal d v } = _ ∧ _
  unfold extraK
  rw [e]
  by_cases hc : bits v / 8 > 32
  · rw [if_pos hc]
    refine ⟨w.spend (mulU64 (UInt64.ofNat (bits v / 8)) w.met.sched.dataCopyPerByte), ?_, ?_⟩
    · exact interp_useK E ex _ _ ({ w with big := w.big.setVal d v }) hwi
    · refine (l5.spend hi (mulU64 (UInt64.ofNat (bits v / 8)) w.met.sched.dataCopyPerByte)).cast ?_
      rw [mulU64_toNat, UInt64.toNat_ofNat_of_lt' (by have : UInt64.size = 2 ^ 64 := rfl; omega), l5.met]
      unfold sizesPrice sizePrice
      simp only [List.map_cons, List.map_nil, List.sum_cons, List.sum_nil]
      rw [if_pos (show 33 ≤ bits v / 8 by omega), Nat.mul_comm (bits v / 8)]
      omega
  · rw [if_neg hc]
    refine ⟨w, rfl, l5.cast ?_⟩
    unfold sizesPrice sizePrice
    simp only [List.map_cons, List.map_nil, List.sum_cons, List.sum_nil]
    rw [if_neg (show ¬ 33 ≤ bits v / 8 by omega)]
    omega

/-- **C65**: comparing and the sign. -/
theorem c65_compare (x y : Int32) (hx : bits (handleValue s x) < 2 ^ 64) (hy : bits (handleValue s y) < 2 ^ 64) :
    TellsNumber E ex (eei E (.bigIntCmp x y)) s i
        ((s.met.sched.api .bigIntCmp).toNat + sizesPrice s.met.sched [handleValue s x, handleValue s y])
        (if handleValue s x < handleValue s y then -1 else if handleValue s x = handleValue s y then 0 else 1) ∧
      TellsNumber E ex (eei E (.bigIntSign x)) s i ((s.met.sched.api .bigIntSign).toNat + sizesPrice s.met.sched [handleValue s x])
        (if handleValue s x < 0 then -1 else if handleValue s x = 0 then 0 else 1) := by
  refine ⟨?_, ?_⟩
  · obtain ⟨u, hu, hr⟩ := interp_gas (E := E) (ex := ex) hi .bigIntCmp (.op (.bigGet x) fun (a : Int) => .op (.bigGet y) fun (b : Int) =>
      extraK [a, b] (.pure (if a < b then -1 else if a = b then 0 else 1)))
    have l1 := (Looked.of hu)
    have l2 := l1.touch x
    have l3 := l2.touch y
    rw [interp_bigGet, interp_bigGet, l1.val, l2.val] at hr
    obtain ⟨w, hw, l5⟩ := interp_sizes (E := E) (ex := ex) hi [handleValue s x, handleValue s y] _ _
      (.pure (if handleValue s x < handleValue s y then -1 else if handleValue s x = handleValue s y then 0 else 1)) l3 (by
        intro v hv; simp at hv; rcases hv with rfl | rfl <;> assumption)
    exact ⟨w, hr.trans hw, l5⟩
  · obtain ⟨u, hu, hr⟩ := interp_gas (E := E) (ex := ex) hi .bigIntSign (.op (.bigGet x) fun (a : Int) =>
      extraK [a] (.pure (Int64.ofInt a.sign)))
    have l1 := (Looked.of hu)
    have l2 := l1.touch x
    rw [interp_bigGet, l1.val] at hr
    obtain ⟨w, hw, l5⟩ := interp_sizes (E := E) (ex := ex) hi [handleValue s x] _ _ (.pure (Int64.ofInt (handleValue s x).sign)) l2 (by
        intro v hv; simp at hv; rcases hv with rfl; assumption)
    refine ⟨w, hr.trans (hw.trans ?_), l5⟩
    show (Res.ok (Int64.ofInt (handleValue s x).sign), w) = _
    congr 2
    rcases Int.lt_trichotomy (handleValue s x) 0 with h | h | h
    · rw [if_pos h, Int.sign_eq_neg_one_of_neg h]; rfl
    · rw [if_neg (by omega), if_pos h, h]; rfl
    · rw [if_neg (by omega), if_neg (by omega), Int.sign_eq_one_of_pos h]; rfl

/-- **C65**: a new number gets a handle that was not in use; all others stay. -/
theorem c65_new (v : Int64) (hs : s.big.vals.size < 2 ^ 32) :
    ∃ h : Int32, s.big.vals.get? h = none ∧ Sets E ex (eei E (.bigIntNew v)) s i (s.met.sched.api .bigIntNew).toNat h v.toInt h.toInt64 := by
  obtain ⟨u, hu, hr⟩ := interp_gas (E := E) (ex := ex) hi .bigIntNew (.op (.bigPut v) fun (h : Int32) => .pure h.toInt64)
  have hub : u.big = s.big := by rw [hu.rest]
  refine ⟨(s.big.put v).1, put_fresh s.big v hs, u, { u with big := (s.big.put v).2 }, hu, ?_, rfl, rfl, fun k => ?_⟩
  · refine hr.trans ((interp_op_ok E ex (.bigPut v) _ u { u with big := (s.big.put v).2 } (s.big.put v).1 ?_).trans rfl)
    rw [runCmd_bigPut, hub]
  · show ((s.big.put v).2.vals.get? k).getD 0 = _
    unfold BigCtx.put
    dsimp only
    rw [AMap.get?_insert]
    by_cases hk : k = BigCtx.probe s.big.vals (s.big.vals.size + 1) (BigCtx.firstHandle s.big.vals)
    · rw [if_pos hk.symm, if_pos hk]; rfl
    · rw [if_neg (fun h => hk h.symm), if_neg hk]

/-- **C65**: 64-bit numbers to handles and back. -/
theorem c65_word (x : Int32) (v : Int64) :
    Sets E ex (eei E (.bigIntSetInt64 x v)) s i (s.met.sched.api .bigIntSub).toNat x v.toInt 0 ∧
    (∃ r : Int64, TellsNumber E ex (eei E (.bigIntIsInt64 x)) s i (s.met.sched.api .bigIntIsInt64).toNat r ∧
      (r = 1 ∨ r = 0) ∧ (r = 1 ↔ InWord true (handleValue s x))) ∧
    ∃ r : Int64, TellsNumber E ex (eei E (.bigIntGetInt64 x)) s i (s.met.sched.api .bigIntGetInt64).toNat r ∧
      (InWord true (handleValue s x) → r.toInt = handleValue s x) := by
  refine ⟨?_, ?_, ?_⟩
  · obtain ⟨u, hu, hr⟩ := interp_gas (E := E) (ex := ex) hi .bigIntSub (putK x v.toInt (.pure 0))
    exact sets_of hu hr
  · obtain ⟨u, hu, hr⟩ := interp_gas (E := E) (ex := ex) hi .bigIntIsInt64 (.op (.bigGet x) fun (v : Int) => .pure (boolRes (isInt64 v)))
    have l1 := Looked.of hu
    rw [interp_bigGet, l1.val] at hr
    refine ⟨_, ⟨_, hr, l1.touch x⟩, ?_⟩
    unfold boolRes isInt64 InWord
    simp only [if_true]
    by_cases h : -(2 ^ 63 : Int) ≤ handleValue s x ∧ handleValue s x < 2 ^ 63
    · rw [if_pos (by simp; omega)]; exact ⟨.inl rfl, fun _ => h, fun _ => rfl⟩
    · rw [if_neg (by simp; omega)]; exact ⟨.inr rfl, fun h1 => absurd h1 (by decide), fun h1 => absurd h1 h⟩
  · obtain ⟨u, hu, hr⟩ := interp_gas (E := E) (ex := ex) hi .bigIntGetInt64 (.op (.bigGet x) fun (v : Int) => .pure (Int64.ofInt v))
    have l1 := Looked.of hu
    rw [interp_bigGet, l1.val] at hr
    refine ⟨_, ⟨_, hr, l1.touch x⟩, fun h => ?_⟩
    unfold InWord at h
    simp only [if_true] at h
    exact Int64.toInt_ofInt_of_le h.1 h.2

omit hi in
/-- the price of copying -/
theorem copy_price (g : GasSchedule) {b : Bytes} (hb : b.length < 2 ^ 64) : ∃ q, mulU64 g.dataCopyPerByte (lenU b) = q ∧
    ∀ n, min (n + q.toNat) (2 ^ 63 - 1) = min (n + g.dataCopyPerByte.toNat * b.length) (2 ^ 63 - 1) := by
  refine ⟨_, rfl, fun n => ?_⟩
  have := mul_price g.dataCopyPerByte b.length hb
  unfold maxPoints at this
  unfold lenU
  omega

include hm in
/-- **C65**: bytes in the memory become a number, unsigned or signed. -/
theorem c65_set_bytes (signed : Bool) (d : Int32) {off len : Int32} {b : Bytes} (hb : BytesAt (s.insts i).mem off len b) :
    Sets E ex (eei E (.bigIntSetBytes signed d off len)) s i
      ((s.met.sched.api (if signed then .bigIntSetSignedBytes else .bigIntSetUnsignedBytes)).toNat + s.met.sched.dataCopyPerByte.toNat * b.length) d
      (argValue signed b) 0 := by
  have hbl := bytesAt_bound hb
  obtain ⟨u, hu, hr⟩ := interp_key hi hm (E := E) (ex := ex) (if signed then .bigIntSetSignedBytes else .bigIntSetUnsignedBytes) hb 0 (fun b =>
    putK d (if signed then twosFromBytes b else bytesToNat b) <| copyK (lenU b) (.pure 0))
  have hui : u.rt.instance_ = some i := by rw [hu.rt]; exact hi
  have l1 := (Looked.of hu).touch d
  obtain ⟨q, hq, hp⟩ := copy_price s.met.sched (b := b) (by omega)
  have l2 := (l1.spend hi q).cast (hp _)
  refine l2.set (hr.trans ?_)
  refine (interp_bigGet E ex d _ u).trans ((interp_bigSet E ex d _ _ _).trans ?_)
  refine (interp_useK E ex _ _ _ (i := i) (by exact hui)).trans ?_
  have e1 : (touched u d).met = s.met := hu.met
  have e2 : (if signed = true then twosFromBytes b else (bytesToNat b : Int)) = argValue signed b := decode_eq signed b
  rw [← e1] at hq
  dsimp only
  rw [hq, e2]
  rfl

/-- the end of `bigIntGetBytes` -/
theorem give_number {t : St χ A} {g : Nat} (h : Looked s t i g) {p : Eei.P χ A} (hm : (s.insts i).mem.length + 65537 < 2 ^ 31) {off : Int32} {b : Bytes}
    (hb : b.length < 2 ^ 31)
    (hr : interp E ex p s = interp E ex (storeK off b 0 (copyK (lenU b) (.pure (lenRes b)))) t) :
    GivesNumber E ex p s i (g + s.met.sched.dataCopyPerByte.toNat * b.length) off b (asResult b.length) := by
  have hti : t.rt.instance_ = some i := by rw [h.rt]; exact hi
  have htm : (t.insts i).mem = (s.insts i).mem := h.paid.mem
  obtain ⟨mem, e, h1, h2, h3⟩ := interp_storeK (E := E) (ex := ex) (s := t) hti (by rw [htm]; exact hm) off hb 0 (copyK (lenU b) (.pure (lenRes b)))
  rw [h1] at hr
  obtain ⟨q, hq, hp⟩ := copy_price s.met.sched (b := b) (by omega)
  have l2 := (h.spend hi q).cast (hp _)
  have good : e = none → interp E ex p s = (.ok (asResult b.length), ((t.spend q).modInst i fun x => { x with mem := mem })) ∧
      Wrote s { (t.spend q).modInst i (fun x => { x with mem := mem }) with big := s.big } i
        (g + s.met.sched.dataCopyPerByte.toNat * b.length) off b := by
    intro he
    rw [he] at hr
    refine ⟨hr.trans ((interp_useK E ex _ _ _ (i := i) (by exact hti)).trans ?_), ?_⟩
    · have e1 : (t.modInst i fun x => { x with mem := mem }).met = s.met := h.met
      rw [← e1] at hq
      rw [hq, lenRes_eq hb]
      refine congrArg (Prod.mk _) ?_
      unfold St.modInst St.spend
      dsimp only
      congr 1
      funext j
      rw [hti]
      by_cases hj : j = i
      · subst hj; simp [St.pointsUsed, hti]
      · have : ¬ i = j := fun h => hj h.symm
        simp [hj, this]
    · refine ⟨{ t.spend q with big := s.big }, mem, l2.paid, ?_, (h2 he).1, fun j hj => ?_⟩
      · unfold St.modInst
        dsimp only
      · rw [(h2 he).2 j hj, htm]
  refine ⟨fun hf => ?_, ?_⟩
  · have he := h3 (by unfold Fits at hf ⊢; rw [htm]; exact hf)
    exact ⟨_, (good he).1, (good he).2, l2.handles⟩
  · cases e with
    | none => exact ⟨_, _, (good rfl).1, .inl ⟨rfl, (good rfl).2, l2.handles⟩⟩
    | some e => exact ⟨0, _, hr, .inr (curBp_faulted E _ e hti)⟩

omit hi in
theorem bigBytes_encodes (signed : Bool) (v : Int) : Encodes signed (readAs signed v) (bigBytes signed v) := by
  cases signed with
  | true => exact twos_encodes _
  | false => exact abs_encodes _

include hm in
/-- **C65**: a number as bytes in the memory: the shortest that stand for it, or, unsigned, for its absolute value; and how many there
are. -/
theorem c65_get_bytes (signed : Bool) (x off : Int32) {c : Bytes} (hc : argValue signed c = readAs signed (handleValue s x)) (hcl : c.length < 2 ^ 31) :
    ∃ b, Encodes signed (readAs signed (handleValue s x)) b ∧
      GivesNumber E ex (eei E (.bigIntGetBytes signed x off)) s i
        ((s.met.sched.api (if signed then .bigIntGetSignedBytes else .bigIntGetUnsignedBytes)).toNat + s.met.sched.dataCopyPerByte.toNat * b.length)
        off b (asResult b.length) ∧
      TellsNumber E ex (eei E (.bigIntByteLength signed x)) s i
        (s.met.sched.api (if signed then .bigIntSignedByteLength else .bigIntUnsignedByteLength)).toNat (asResult b.length) := by
  have hen := bigBytes_encodes signed (handleValue s x)
  have hl : (bigBytes signed (handleValue s x)).length < 2 ^ 31 := Nat.lt_of_le_of_lt (hen.shortest c hc) hcl
  refine ⟨_, hen, ?_, ?_⟩
  · obtain ⟨u, hu, hr⟩ := interp_gas (E := E) (ex := ex) hi (if signed then .bigIntGetSignedBytes else .bigIntGetUnsignedBytes)
      (.op (.bigGet x) fun (v : Int) => storeK off (bigBytes signed v) 0 <| copyK (lenU (bigBytes signed v)) (.pure (lenRes (bigBytes signed v))))
    have l1 := Looked.of hu
    rw [interp_bigGet, l1.val] at hr
    exact give_number hi (l1.touch x) hm hl hr
  · obtain ⟨u, hu, hr⟩ := interp_gas (E := E) (ex := ex) hi (if signed then .bigIntSignedByteLength else .bigIntUnsignedByteLength)
      (.op (.bigGet x) fun (v : Int) => .pure (lenRes (bigBytes signed v)))
    have l1 := Looked.of hu
    rw [interp_bigGet, l1.val, lenRes_eq hl] at hr
    exact ⟨_, hr, l1.touch x⟩

/-! ### Hashes and signatures -/

include hm in
/-- **C65**: the hash of the bytes is put into the memory; if the host has none, the answer is 1. -/
theorem c65_hash (h : HashFn) {dataOff len : Int32} (off : Int32) {d : Bytes} (hd : BytesAt (s.insts i).mem dataOff len d) :
    (∀ r, hashOf E.crypto h d = .ok r → r.length < 2 ^ 31 →
      Gives E ex (eei E (.hash h dataOff len off)) s i (hashPrice s.met.sched h + s.met.sched.dataCopyPerByte.toNat * d.length) off r 0) ∧
    (∀ e, hashOf E.crypto h d = .error e →
      Tells E ex (eei E (.hash h dataOff len off)) s i (hashPrice s.met.sched h + s.met.sched.dataCopyPerByte.toNat * d.length) 1) := by
  have hdl := bytesAt_bound hd
  have hlen : len = Int32.ofNat d.length := ofNat_len hd.len
  obtain ⟨u, hu, hr⟩ := interp_price (E := E) (ex := ex) hi h.cost GasSchedule.dataCopyPerByte hdl
    (loadK dataOff len 1 fun data =>
      match h.run E.crypto data with
      | .error _ => .pure 1
      | .ok r => storeK off r 1 (.pure 0))
  rw [interp_loadK_holds (by rw [hu.rt]; exact hi) (by rw [hu.mem]; omega) hd.len (by rw [hu.mem]; exact hd.data)] at hr
  have e1 : (s.met.sched.api h.cost).toNat = hashPrice s.met.sched h := by cases h <;> rfl
  have e2 : h.run E.crypto d = hashOf E.crypto h d := by cases h <;> rfl
  rw [e1] at hu
  rw [e2] at hr
  rw [← hlen] at hr
  refine ⟨fun r he hrl => ?_, fun e he => ?_⟩
  · rw [he] at hr
    exact gives_store hi hm hrl hu hr
  · rw [he] at hr
    exact ⟨u, hu, hr⟩

include hm in
/-- the end of the checks of signatures -/
theorem interp_msg {u : St χ A} {g : Nat} (hu : OnlyPaid s u i g) {msgOff msgLen : Int32} {msg : Bytes} (hmsg : BytesAt (s.insts i).mem msgOff msgLen msg)
    (k : Bytes → Eei.P χ A) : ∃ w, OnlyPaid s w i (g + s.met.sched.dataCopyPerByte.toNat * msg.length) ∧
      interp E ex (copyK (len64 msgLen) (loadK msgOff msgLen 1 k)) u = interp E ex (k msg) w := by
  have hml := bytesAt_bound hmsg
  obtain ⟨w, hw, hr⟩ := interp_copyK (E := E) (ex := ex) (s := u) (by rw [hu.rt]; exact hi) hml (loadK msgOff msgLen 1 k)
  rw [hu.met] at hw
  have hw' := hu.trans hw
  refine ⟨w, hw', ?_⟩
  rw [← ofNat_len hmsg.len] at hr
  rw [hr]
  exact interp_loadK_holds (by rw [hw'.rt]; exact hi) (by rw [hw'.mem]; omega) hmsg.len (by rw [hw'.mem]; exact hmsg.data) 1 k

include hm in
/-- **C65**: BLS signatures (keys of 96 bytes, signatures of 48): the answer is that of the library for exactly these bytes. -/
theorem c65_bls {keyOff msgOff msgLen sigOff : Int32} {key msg sig : Bytes} (hk : key.length = 96) (hkey : Holds (s.insts i).mem keyOff key)
    (hmsg : BytesAt (s.insts i).mem msgOff msgLen msg) (hs : sig.length = 48) (hsig : Holds (s.insts i).mem sigOff sig) :
    Tells E ex (eei E (.verifyBLS keyOff msgOff msgLen sigOff)) s i
      ((s.met.sched.api .verifyBLS).toNat + s.met.sched.dataCopyPerByte.toNat * msg.length) (checked (E.crypto.verifyBLS key msg sig)) := by
  obtain ⟨u, hu, hr⟩ := interp_gas (E := E) (ex := ex) hi .verifyBLS (loadK keyOff 96 1 fun key => copyK (len64 msgLen) <|
    loadK msgOff msgLen 1 fun msg => loadK sigOff 48 1 fun sig => .pure (sigRes (E.crypto.verifyBLS key msg sig)))
  rw [interp_loadK_holds (by rw [hu.rt]; exact hi) (by rw [hu.mem]; omega) (by rw [hk]; rfl) (by rw [hu.mem]; exact hkey)] at hr
  obtain ⟨w, hw, hr2⟩ := interp_msg hi hm (E := E) (ex := ex) hu hmsg (fun msg => loadK sigOff 48 1 fun sig => .pure (sigRes (E.crypto.verifyBLS key msg sig)))
  rw [interp_loadK_holds (by rw [hw.rt]; exact hi) (by rw [hw.mem]; omega) (by rw [hs]; rfl) (by rw [hw.mem]; exact hsig)] at hr2
  exact ⟨w, hw, hr.trans hr2⟩

include hm in
/-- **C65**: Ed25519 signatures (keys of 32 bytes, signatures of 64). -/
theorem c65_ed25519 {keyOff msgOff msgLen sigOff : Int32} {key msg sig : Bytes} (hk : key.length = 32) (hkey : Holds (s.insts i).mem keyOff key)
    (hmsg : BytesAt (s.insts i).mem msgOff msgLen msg) (hs : sig.length = 64) (hsig : Holds (s.insts i).mem sigOff sig) :
    Tells E ex (eei E (.verifyEd25519 keyOff msgOff msgLen sigOff)) s i
      ((s.met.sched.api .verifyEd25519).toNat + s.met.sched.dataCopyPerByte.toNat * msg.length) (checked (E.crypto.verifyEd25519 key msg sig)) := by
  obtain ⟨u, hu, hr⟩ := interp_gas (E := E) (ex := ex) hi .verifyEd25519 (loadK keyOff 32 1 fun key => copyK (len64 msgLen) <|
    loadK msgOff msgLen 1 fun msg => loadK sigOff 64 1 fun sig => .pure (sigRes (E.crypto.verifyEd25519 key msg sig)))
  rw [interp_loadK_holds (by rw [hu.rt]; exact hi) (by rw [hu.mem]; omega) (by rw [hk]; rfl) (by rw [hu.mem]; exact hkey)] at hr
  obtain ⟨w, hw, hr2⟩ := interp_msg hi hm (E := E) (ex := ex) hu hmsg (fun msg => loadK sigOff 64 1 fun sig => .pure (sigRes (E.crypto.verifyEd25519 key msg sig)))
  rw [interp_loadK_holds (by rw [hw.rt]; exact hi) (by rw [hw.mem]; omega) (by rw [hs]; rfl) (by rw [hw.mem]; exact hsig)] at hr2
  exact ⟨w, hw, hr.trans hr2⟩

include hm in
/-- **C65**: Secp256k1 signatures (keys of 33 or 65 bytes; the second byte of a signature says how many bytes follow it). Keys of another
length fail the execution. -/
theorem c65_secp256k1 {keyOff keyLen msgOff msgLen sigOff : Int32} {key msg : Bytes} {c n : UInt8} {sig : Bytes} (hkey : BytesAt (s.insts i).mem keyOff keyLen key)
    (hmsg : BytesAt (s.insts i).mem msgOff msgLen msg) (hs : sig.length = n.toNat) (hsig : Holds (s.insts i).mem sigOff (c :: n :: sig)) :
    (key.length = 33 ∨ key.length = 65 →
      Tells E ex (eei E (.verifySecp256k1 keyOff keyLen msgOff msgLen sigOff)) s i
        ((s.met.sched.api .verifySecp256k1).toNat + s.met.sched.dataCopyPerByte.toNat * msg.length)
        (checked (E.crypto.verifySecp256k1 key msg (c :: n :: sig)))) ∧
    (¬ (key.length = 33 ∨ key.length = 65) → Refuses E ex (eei E (.verifySecp256k1 keyOff keyLen msgOff msgLen sigOff)) s) := by
  obtain ⟨u, hu, hr⟩ := interp_gas (E := E) (ex := ex) hi .verifySecp256k1 (if keyLen ≠ 33 ∧ keyLen ≠ 65 then faultK .invalidPublicKeySize 1
    else loadK keyOff keyLen 1 fun key => copyK (len64 msgLen) <| loadK msgOff msgLen 1 fun msg =>
      loadK sigOff 2 1 fun header =>
      match header[1]? with
      | none => .panic
      | some n => loadK sigOff (n.toUInt32.toInt32 + 2) 1 fun sig => .pure (sigRes (E.crypto.verifySecp256k1 key msg sig)))
  replace hr : interp E ex (eei E (.verifySecp256k1 keyOff keyLen msgOff msgLen sigOff)) s = _ := hr
  have hui : u.rt.instance_ = some i := by rw [hu.rt]; exact hi
  have hkl : ∀ m : Int32, keyLen = m ↔ (key.length : Int) = m.toInt := fun m => by rw [← hkey.len, Int32.toInt_inj]
  have e33 : keyLen = 33 ↔ key.length = 33 := by rw [hkl]; show (key.length : Int) = 33 ↔ _; omega
  have e65 : keyLen = 65 ↔ key.length = 65 := by rw [hkl]; show (key.length : Int) = 65 ↔ _; omega
  refine ⟨fun h => ?_, fun h => ?_⟩
  · rw [if_neg (by rw [Ne, Ne, e33, e65]; omega)] at hr
    rw [interp_loadK_holds hui (by rw [hu.mem]; omega) hkey.len (by rw [hu.mem]; exact hkey.data)] at hr
    obtain ⟨w, hw, hr2⟩ := interp_msg hi hm (E := E) (ex := ex) hu hmsg (fun msg => loadK sigOff 2 1 fun header =>
      match header[1]? with
      | none => .panic
      | some n => loadK sigOff (n.toUInt32.toInt32 + 2) 1 fun sig => .pure (sigRes (E.crypto.verifySecp256k1 key msg sig)))
    have hwi : w.rt.instance_ = some i := by rw [hw.rt]; exact hi
    have h2 : Holds (w.insts i).mem sigOff [c, n] := by
      rw [hw.mem]
      exact (holds_append (n := 2) (a := [c, n]) (b := sig) (by omega) rfl hsig).1
    rw [interp_loadK_holds hwi (by rw [hw.mem]; omega) (by rfl) h2] at hr2
    have hn : (n.toUInt32.toInt32 + 2).toInt = ((c :: n :: sig).length : Int) := by
      show _ = ((sig.length + 1 + 1 : Nat) : Int)
      rw [hs]
      have : ∀ m : Fin 256, ((UInt8.ofNat m.val).toUInt32.toInt32 + 2).toInt = (((UInt8.ofNat m.val).toNat + 1 + 1 : Nat) : Int) := by decide +kernel
      have := this ⟨n.toNat, n.toNat_lt⟩
      rw [UInt8.ofNat_toNat] at this
      exact this
    have hr3 := interp_loadK_holds (E := E) (ex := ex) hwi (by rw [hw.mem]; omega) hn (by rw [hw.mem]; exact hsig) 1
      (fun sig => .pure (sigRes (E.crypto.verifySecp256k1 key msg sig)))
    exact ⟨w, hw, hr.trans (hr2.trans hr3)⟩
  · rw [if_pos (by rw [Ne, Ne, e33, e65]; omega)] at hr
    rw [interp_faultK E ex _ 1 u hui] at hr
    exact ⟨1, _, hr, curBp_faulted E u _ hui⟩

end

/-! ### The hypotheses can be met; what may surprise -/

/-- a memory with the bytes [255, 0, 7], a key, and a signature that says that one byte follows; handles 0 and 1 have the numbers −12 and 5 -/
def reckoning : St Fixture.World EeiCall :=
  { Fixture.running ([255, 0, 7] ++ List.replicate 96 1 ++ [48, 1, 9] ++ List.replicate 64 2) 10000 with
    big := { vals := (AMap.empty.insert 0 (-12)).insert 1 5 } }

example : reckoning.rt.instance_ = some 0 ∧ (reckoning.insts 0).mem.length + 65537 < 2 ^ 31 ∧ handleValue reckoning 0 = -12 ∧ handleValue reckoning 1 = 5 ∧
    bits (handleValue reckoning 0) < 2 ^ 64 ∧ BinResult .tdiv (-12) 5 (-2) ∧ BinResult .emod (-12) 5 3 ∧ (∀ v, ¬ BinResult .and (-12) 5 v) ∧
    UnResult .abs (-12) 12 ∧ ShiftResult .shl 5 3 40 ∧ (∀ v, ¬ ShiftResult .shr (-12) 1 v) ∧ reckoning.big.vals.size < 2 ^ 32 ∧
    BytesAt (reckoning.insts 0).mem 0 3 [255, 0, 7] ∧ argValue true [255, 244] = readAs true (handleValue reckoning 0) ∧
    Holds (reckoning.insts 0).mem 3 (List.replicate 96 1) ∧ BytesAt (reckoning.insts 0).mem 3 33 (List.replicate 33 1) ∧
    Holds (reckoning.insts 0).mem 99 [48, 1, 9] ∧ Holds (reckoning.insts 0).mem 102 (List.replicate 64 2) := by
  refine ⟨rfl, by decide +kernel, rfl, rfl, by decide +kernel, ⟨by decide +kernel, by decide +kernel, by decide +kernel⟩, ⟨by decide +kernel, by decide +kernel, by decide +kernel, -3, by decide +kernel⟩,
    fun v h => absurd h.1 (by decide +kernel), ⟨by decide +kernel, .inr (by decide +kernel)⟩, ⟨by decide +kernel, by decide +kernel, by decide +kernel⟩, fun v h => absurd h.1 (by decide +kernel),
    by decide +kernel, ⟨rfl, .inr ⟨by decide +kernel, by decide +kernel, by decide +kernel⟩⟩, by decide +kernel, .inr ⟨by decide +kernel, by decide +kernel, by decide +kernel⟩,
    ⟨rfl, .inr ⟨by decide +kernel, by decide +kernel, by decide +kernel⟩⟩, .inr ⟨by decide +kernel, by decide +kernel, by decide +kernel⟩, .inr ⟨by decide +kernel, by decide +kernel, by decide +kernel⟩⟩

/-- the numbers that contracts get: −12 / 5, and −12 as one byte -/
example : (interp Fixture.env0 (execN Fixture.env0 3) (eei Fixture.env0 (.bigIntBin .tdiv 2 0 1)) reckoning).2.big.vals.get? 2 = some (-2) ∧
    (interp Fixture.env0 (execN Fixture.env0 3) (eei Fixture.env0 (.bigIntGetBytes true 0 0)) reckoning).1 = .ok 1 ∧
    ((interp Fixture.env0 (execN Fixture.env0 3) (eei Fixture.env0 (.bigIntGetBytes true 0 0)) reckoning).2.insts 0).mem.take 1 = [244] := by decide +kernel

/-- A number that does not fit in 64 bits is cut off by `bigIntGetInt64`, and the execution goes on. -/
theorem c65_word_neg : ∃ (s : St Fixture.World EeiCall), handleValue s 0 = 2 ^ 64 + 3 ∧
    let q := interp Fixture.env0 (execN Fixture.env0 3) (eei Fixture.env0 (.bigIntGetInt64 0)) s
    q.1 = .ok 3 ∧ q.2.curBp = .none :=
  ⟨{ reckoning with big := { vals := AMap.empty.insert 0 (2 ^ 64 + 3) } }, by decide +kernel⟩

end Arwen.Props
