import Verif.Eei.Run
import Verif.Spec.BigInt
import Verif.Fixture
/-
C02 (fresh handles), C03 (exact, aliasing-independent arithmetic), C04 (byte encodings).
-/
namespace Arwen.Props
open Arwen Arwen.Eei Arwen.Spec

/-! ## The integer operations against their specification -/

theorem tmod_unique {a b r : Int} (hb : b ≠ 0) (h1 : r.natAbs < b.natAbs) (h2 : 0 ≤ r * a) (h3 : ∃ q, a = q * b + r) :
    r = a.tmod b := by
  obtain ⟨q, hq⟩ := h3
  have hm := Int.mul_tdiv_add_tmod a b
  have hbn : b.natAbs ≠ 0 := by omega
  have hlt : (a.tmod b).natAbs < b.natAbs := by
    rw [Int.natAbs_tmod]; exact Nat.mod_lt _ (by omega)
  have hd : b ∣ r - a.tmod b := by
    refine ⟨a.tdiv b - q, ?_⟩
    rw [Int.mul_sub]
    have : b * q = q * b := Int.mul_comm _ _
    omega
  have key : (r - a.tmod b).natAbs < b.natAbs := by
    rcases Int.lt_trichotomy a 0 with ha | ha | ha
    · have hr : r ≤ 0 := by
        rcases Int.lt_or_le 0 r with h | h
        · have := Int.mul_neg_of_pos_of_neg h ha; omega
        · exact h
      have ht : a.tmod b ≤ 0 := by
        have := Int.tmod_nonneg (a := -a) b (by omega)
        rw [Int.neg_tmod] at this; omega
      omega
    · subst ha
      have h0 : b ∣ r := ⟨-q, by rw [Int.mul_neg]; have : b * q = q * b := Int.mul_comm _ _; omega⟩
      have hr := Int.eq_zero_of_dvd_of_natAbs_lt_natAbs h0 h1
      subst hr
      simp; omega
    · have hr : 0 ≤ r := by
        rcases Int.lt_or_le r 0 with h | h
        · have := Int.mul_neg_of_neg_of_pos h ha; omega
        · exact h
      have ht : 0 ≤ a.tmod b := Int.tmod_nonneg b (by omega)
      omega
  have := Int.eq_zero_of_dvd_of_natAbs_lt_natAbs hd key
  omega

theorem tmod_spec {a b : Int} (hb : b ≠ 0) :
    (a.tmod b).natAbs < b.natAbs ∧ 0 ≤ a.tmod b * a ∧ ∃ q, a = q * b + a.tmod b := by
  have hm := Int.mul_tdiv_add_tmod a b
  refine ⟨?_, ?_, a.tdiv b, ?_⟩
  · rw [Int.natAbs_tmod]; exact Nat.mod_lt _ (by omega)
  · rcases Int.le_total 0 a with ha | ha
    · exact Int.mul_nonneg (Int.tmod_nonneg b ha) ha
    · have := Int.tmod_nonneg (a := -a) b (by omega)
      rw [Int.neg_tmod] at this
      have h2 := Int.mul_nonneg (a := -(a.tmod b)) (b := -a) this (by omega)
      rwa [Int.neg_mul_neg] at h2
  · have : b * a.tdiv b = a.tdiv b * b := Int.mul_comm _ _
    omega

theorem emod_unique {a b r : Int} (hb : b ≠ 0) (h1 : 0 ≤ r) (h2 : r < b.natAbs) (h3 : ∃ q, a = q * b + r) :
    r = a % b := by
  obtain ⟨q, hq⟩ := h3
  have hm := Int.mul_ediv_add_emod a b
  have e1 := Int.emod_nonneg a hb
  have e2 := Int.emod_lt a hb
  have hd : b ∣ r - a % b := by
    refine ⟨a / b - q, ?_⟩
    rw [Int.mul_sub]
    have : b * q = q * b := Int.mul_comm _ _
    omega
  have := Int.eq_zero_of_dvd_of_natAbs_lt_natAbs hd (by omega)
  omega

theorem emod_spec {a b : Int} (hb : b ≠ 0) : 0 ≤ a % b ∧ a % b < b.natAbs ∧ ∃ q, a = q * b + a % b := by
  have hm := Int.mul_ediv_add_emod a b
  refine ⟨Int.emod_nonneg a hb, Int.emod_lt a hb, a / b, ?_⟩
  have : b * (a / b) = (a / b) * b := Int.mul_comm _ _
  omega

theorem bits_unique {a b : Int} {v : Int} (f : Nat → Nat → Nat) (g : Bool → Bool → Bool)
    (hf : ∀ m n i, (f m n).testBit i = g (m.testBit i) (n.testBit i)) :
    ((f a.toNat b.toNat : Nat) : Int) = v ↔ 0 ≤ v ∧ ∀ i, v.toNat.testBit i = g (a.toNat.testBit i) (b.toNat.testBit i) := by
  constructor
  · rintro rfl
    refine ⟨by omega, fun i => ?_⟩
    rw [Int.toNat_natCast, hf]
  · rintro ⟨h0, h⟩
    have : f a.toNat b.toNat = v.toNat := Nat.eq_of_testBit_eq fun i => by rw [hf, h]
    omega

/-- Each binary operation computes exactly the specified result, and fails exactly when there is none. -/
theorem binop_eval_iff (op : BinOp) (a b v : Int) : op.eval a b = .ok v ↔ BinResult op a b v := by
  cases op <;> simp only [BinOp.eval, BinResult]
  · exact ⟨fun h => (Except.ok.inj h).symm, fun h => by rw [h]⟩
  · exact ⟨fun h => by have := Except.ok.inj h; omega, fun h => by congr 1; omega⟩
  · exact ⟨fun h => (Except.ok.inj h).symm, fun h => by rw [h]⟩
  · split
    · rename_i h; simp [h]
    · rename_i hb
      have hm := Int.mul_tdiv_add_tmod a b
      have hc : b * a.tdiv b = a.tdiv b * b := Int.mul_comm _ _
      constructor
      · intro h
        have h := Except.ok.inj h
        subst h
        have hr : a - a.tdiv b * b = a.tmod b := by omega
        rw [hr]
        have := tmod_spec (a := a) hb
        exact ⟨hb, this.1, this.2.1⟩
      · rintro ⟨_, h1, h2⟩
        have hr := tmod_unique hb h1 h2 ⟨v, by omega⟩
        have : a.tdiv b * b = v * b := by omega
        rw [Int.eq_of_mul_eq_mul_right hb this]
  · split
    · rename_i h; simp [h]
    · rename_i hb
      constructor
      · intro h
        have h := Except.ok.inj h
        subst h
        exact ⟨hb, tmod_spec hb⟩
      · rintro ⟨_, h1, h2, h3⟩
        rw [tmod_unique hb h1 h2 h3]
  · split
    · rename_i h; simp [h]
    · rename_i hb
      have hm := Int.mul_ediv_add_emod a b
      have hc : b * (a / b) = a / b * b := Int.mul_comm _ _
      constructor
      · intro h
        have h := Except.ok.inj h
        subst h
        have := emod_spec (a := a) hb
        exact ⟨hb, by omega, by omega⟩
      · rintro ⟨_, h1, h2⟩
        have hr := emod_unique (a := a) hb h1 h2 ⟨v, by omega⟩
        have : a / b * b = v * b := by omega
        rw [Int.eq_of_mul_eq_mul_right hb this]
  · split
    · rename_i h; simp [h]
    · rename_i hb
      constructor
      · intro h
        have h := Except.ok.inj h
        subst h
        exact ⟨hb, emod_spec hb⟩
      · rintro ⟨_, h1, h2, h3⟩
        rw [emod_unique hb h1 h2 h3]
  · split
    · rename_i h
      simp only [reduceCtorEq, false_iff]; omega
    · have := bits_unique (a := a) (b := b) (v := v) (· &&& ·) (· && ·) Nat.testBit_and
      simp only [Except.ok.injEq, this]
      constructor
      · intro h; exact ⟨by omega, by omega, h⟩
      · intro h; exact h.2.2
  · split
    · rename_i h
      simp only [reduceCtorEq, false_iff]; omega
    · have := bits_unique (a := a) (b := b) (v := v) (· ||| ·) (· || ·) Nat.testBit_or
      simp only [Except.ok.injEq, this]
      constructor
      · intro h; exact ⟨by omega, by omega, h⟩
      · intro h; exact h.2.2
  · split
    · rename_i h
      simp only [reduceCtorEq, false_iff]; omega
    · have := bits_unique (a := a) (b := b) (v := v) (· ^^^ ·) (· != ·) (fun m n i => by rw [Nat.testBit_xor])
      simp only [Except.ok.injEq, this]
      constructor
      · intro h; exact ⟨by omega, by omega, h⟩
      · intro h; exact h.2.2

theorem unop_eval_iff (op : UnOp) (a v : Int) : op.eval a = .ok v ↔ UnResult op a v := by
  cases op <;> simp only [UnOp.eval, UnResult]
  · constructor
    · intro h; have := Except.ok.inj h; omega
    · intro h; congr 1; omega
  · constructor
    · intro h; have := Except.ok.inj h; omega
    · intro h; congr 1; omega
  · split
    · simp only [reduceCtorEq, false_iff]; omega
    · constructor
      · intro h; have := Except.ok.inj h; omega
      · intro h; congr 1; omega

theorem int32_lt_zero (b : Int32) : b < 0 ↔ b.toInt < 0 := by
  rw [Int32.lt_iff_toInt_lt]; rfl

theorem shiftop_eval_iff (op : ShiftOp) (a : Int) (bits : Int32) (v : Int) :
    op.eval a bits = .ok v ↔ ShiftResult op a bits.toInt v := by
  simp only [ShiftOp.eval, int32_lt_zero]
  split
  · rename_i h
    cases op <;> simp only [ShiftResult, reduceCtorEq, false_iff] <;> omega
  · rename_i h
    have ha : 0 ≤ a := by omega
    have hp : (0 : Nat) < 2 ^ bits.toInt.toNat := Nat.pow_pos (by decide)
    have hcast : ((2 : Int) ^ bits.toInt.toNat) = ((2 ^ bits.toInt.toNat : Nat) : Int) := by simp
    have hclamp : bits.toNatClampNeg = bits.toInt.toNat := rfl
    obtain ⟨n, rfl⟩ := Int.eq_ofNat_of_zero_le ha
    cases op <;> simp only [ShiftResult, Except.ok.injEq, hclamp, Int.toNat_natCast]
    · rw [Nat.shiftRight_eq_div_pow, hcast]
      generalize 2 ^ bits.toInt.toNat = p at *
      have h1 := Nat.div_add_mod n p
      have h2 := Nat.mod_lt n hp
      constructor
      · rintro rfl
        refine ⟨by omega, by omega, ?_, ?_⟩
        · have := Nat.div_mul_le_self n p
          exact_mod_cast this
        · have : n < (n / p + 1) * p := by rw [Nat.add_mul, Nat.mul_comm]; omega
          exact_mod_cast this
      · rintro ⟨_, _, h3, h4⟩
        have hv : 0 ≤ v := by
          rcases Int.lt_or_le v 0 with hv | hv
          · have h5 : (v + 1) * (p : Int) ≤ 0 := Int.mul_nonpos_of_nonpos_of_nonneg (by omega) (by omega)
            omega
          · exact hv
        obtain ⟨w, rfl⟩ := Int.eq_ofNat_of_zero_le hv
        have h3' : w * p ≤ n := by exact_mod_cast h3
        have h4' : n < (w + 1) * p := by exact_mod_cast h4
        have : n / p = w := by
          apply Nat.div_eq_of_lt_le
          · exact h3'
          · exact h4'
        rw [this]
    · rw [Nat.shiftLeft_eq, hcast]
      constructor
      · rintro rfl; exact ⟨by omega, by omega, by simp⟩
      · rintro ⟨_, _, rfl⟩; simp

/-! ## The API -/

section
variable {χ A : Type} (E : Env χ A) (ex : Executor χ A)

/-- The value a contract sees behind a handle: handles never used read as 0 (`GetOne`). -/
def bigVal (s : St χ A) (h : Int32) : Int := (s.big.vals.get? h).getD 0

theorem curBp_spend (s : St χ A) (g : UInt64) : (s.spend g).curBp = s.curBp := by
  simp only [St.curBp, St.spend]
  cases s.rt.instance_ <;> simp

theorem curBp_faulted (s : St χ A) (e : Err) {i : Nat} (h : s.rt.instance_ = some i) :
    (s.faulted E e).curBp = .executionFailed := by
  simp [St.curBp, St.faulted, St.withBp, h]

/-- Reading a handle: the value seen, and no value changes. -/
theorem getOne_val (c : BigCtx) (h k : Int32) :
    (c.getOne h).1 = (c.vals.get? h).getD 0 ∧ ((c.getOne h).2.vals.get? k).getD 0 = (c.vals.get? k).getD 0 ∧
    (c.getOne h).2.stack = c.stack := by
  unfold BigCtx.getOne
  cases hh : c.vals.get? h with
  | some v => simp
  | none =>
    refine ⟨rfl, ?_, rfl⟩
    simp only [AMap.get?_insert]
    split
    · subst_vars; simp [hh]
    · rfl

/-- a state after reading a handle -/
def touched (s : St χ A) (h : Int32) : St χ A := { s with big := (s.big.getOne h).2 }

theorem bigVal_touched (s : St χ A) (h k : Int32) : bigVal (touched s h) k = bigVal s k :=
  (getOne_val s.big h k).2.1

theorem interp_bigGet (h : Int32) (k : Int → P χ A) (s : St χ A) :
    interp E ex (.op (.bigGet h) k) s = interp E ex (k (bigVal s h)) (touched s h) := by
  rw [interp_op_ok E ex (.bigGet h) k s (touched s h) (bigVal s h)]
  rw [runCmd_bigGet, (getOne_val s.big h h).1]
  rfl

theorem interp_bigSet (h : Int32) (v : Int) (k : Unit → P χ A) (s : St χ A) :
    interp E ex (.op (.bigSet h v) k) s = interp E ex (k ()) { s with big := s.big.setVal h v } :=
  interp_op_ok E ex (.bigSet h v) k s _ () rfl

theorem bigVal_set (s : St χ A) (h k : Int32) (v : Int) :
    bigVal { s with big := s.big.setVal h v } k = if k = h then v else bigVal s k := by
  simp only [bigVal, BigCtx.setVal, AMap.get?_insert]
  by_cases hk : k = h
  · subst hk; simp
  · simp [hk, Ne.symm hk]

/-- Everything that big-integer operations must leave alone. -/
def SameRest (s t : St χ A) : Prop :=
  t.world = s.world ∧ t.sto = s.sto ∧ t.rt = s.rt ∧ t.big.stack = s.big.stack

/-- The result of a computing API call: `v` stored under `d`, nothing else changed; or a fault with nothing written,
when no result exists. -/
def Computes (s t : St χ A) (d : Int32) (R : Int → Prop) : Prop :=
  SameRest s t ∧
  ((∃ v, R v ∧ (∀ k, bigVal t k = if k = d then v else bigVal s k) ∧ t.out = s.out ∧ t.curBp = s.curBp) ∨
   ((¬ ∃ v, R v) ∧ (∀ k, bigVal t k = bigVal s k) ∧ t.curBp = .executionFailed))

/-- `t` is `s` after charging gas and reading handles. -/
structure Prep (s t : St χ A) : Prop where
  val : ∀ k, bigVal t k = bigVal s k
  stack : t.big.stack = s.big.stack
  world : t.world = s.world
  sto : t.sto = s.sto
  rt : t.rt = s.rt
  out : t.out = s.out
  bp : t.curBp = s.curBp

theorem Prep.refl (s : St χ A) : Prep s s := ⟨fun _ => rfl, rfl, rfl, rfl, rfl, rfl, rfl⟩
theorem Prep.spend {s t : St χ A} (h : Prep s t) (g : UInt64) : Prep s (t.spend g) :=
  ⟨h.val, h.stack, h.world, h.sto, h.rt, h.out, (curBp_spend t g).trans h.bp⟩
theorem Prep.touched {s t : St χ A} (h : Prep s t) (x : Int32) : Prep s (touched t x) :=
  ⟨fun k => (bigVal_touched t x k).trans (h.val k), ((getOne_val t.big x x).2.2).trans h.stack, h.world, h.sto, h.rt, h.out, h.bp⟩

variable {E ex}

/-- `p`, run from `s0`, answers `a` and ends in a state with property `Q`. -/
def Runs (E : Env χ A) (ex : Executor χ A) (p : P χ A) (s0 : St χ A) (a : Int64) (Q : St χ A → Prop) : Prop :=
  ∃ t, interp E ex p s0 = (.ok a, t) ∧ Q t

theorem runs_gas {s s0 : St χ A} {c : ApiCost} {k : P χ A} {a Q} {i : Nat} (hp : Prep s s0) (h : s.rt.instance_ = some i)
    (hk : ∀ s1, Prep s s1 → Runs E ex k s1 a Q) : Runs E ex (gasK c k) s0 a Q := by
  unfold Runs
  rw [interp_gasK E ex c k s0 (i := i) (by rw [hp.rt]; exact h)]
  exact hk _ (hp.spend _)

theorem runs_bigGet {s s0 : St χ A} {x : Int32} {k : Int → P χ A} {a Q} (hp : Prep s s0)
    (hk : ∀ s1, Prep s s1 → Runs E ex (k (bigVal s x)) s1 a Q) : Runs E ex (.op (.bigGet x) k) s0 a Q := by
  unfold Runs
  rw [interp_bigGet, hp.val]
  exact hk _ (hp.touched x)

theorem runs_extra {s s0 : St χ A} {vs : List Int} {k : P χ A} {a Q} {i : Nat} (hp : Prep s s0) (h : s.rt.instance_ = some i)
    (hk : ∀ s1, Prep s s1 → Runs E ex k s1 a Q) : Runs E ex (extraK vs k) s0 a Q := by
  induction vs generalizing s0 with
  | nil => exact hk s0 hp
  | cons v vs ih =>
    simp only [extraK]
    split
    · unfold Runs
      rw [interp_useK E ex _ _ s0 (i := i) (by rw [hp.rt]; exact h)]
      exact ih (hp.spend _)
    · exact ih hp

/-- the last step of the computing calls -/
theorem runs_result {s s0 : St χ A} {d : Int32} {r : Except Err Int} {R : Int → Prop} {k : Int → P χ A} {i : Nat}
    (hp : Prep s s0) (h : s.rt.instance_ = some i) (hr : ∀ v, r = .ok v ↔ R v)
    (hk : ∀ v s1, r = .ok v → Prep { s with big := s.big.setVal d v } s1 →
      Runs E ex (k v) s1 0 (fun t => Computes s t d R)) :
    Runs E ex (match (generalizing := false) r with | .error e => faultK e 0 | .ok v => .op (.bigSet d v) fun _ => k v) s0 0
      (fun t => Computes s t d R) := by
  have h0 : s0.rt.instance_ = some i := by rw [hp.rt]; exact h
  cases hc : r with
  | error e =>
    refine ⟨_, interp_faultK E ex e 0 s0 h0, ⟨hp.world, hp.sto, hp.rt, hp.stack⟩, .inr ⟨?_, hp.val, curBp_faulted E s0 e h0⟩⟩
    rintro ⟨v, hv⟩
    rw [(hr v).2 hv] at hc
    cases hc
  | ok v =>
    have hp' : Prep { s with big := s.big.setVal d v } { s0 with big := s0.big.setVal d v } :=
      ⟨fun k => by rw [bigVal_set, bigVal_set, hp.val], hp.stack, hp.world, hp.sto, hp.rt, hp.out, hp.bp⟩
    obtain ⟨t, ht, hq⟩ := hk v _ hc hp'
    exact ⟨t, (interp_bigSet E ex d v (fun _ => k v) s0).trans ht, hq⟩

theorem computes_of_prep {s t : St χ A} {d : Int32} {R : Int → Prop} {v : Int} (hv : R v)
    (hp : Prep { s with big := s.big.setVal d v } t) : Computes s t d R :=
  ⟨⟨hp.world, hp.sto, hp.rt, hp.stack⟩, .inl ⟨v, hv, fun k => by rw [hp.val, bigVal_set], hp.out, hp.bp⟩⟩

/-- C03: for all handles (also equal ones) and all values, `bigIntAdd` … `bigIntXor` store the mathematical result of the
operands' values before the call, change no other handle and no other state; they fail without writing exactly when
there is no result. -/
theorem c03_binary (op : BinOp) (d x y : Int32) (s : St χ A) {i : Nat} (h : s.rt.instance_ = some i) :
    ∃ t, interp E ex (eei E (.bigIntBin op d x y)) s = (.ok 0, t) ∧
      Computes s t d (BinResult op (bigVal s x) (bigVal s y)) := by
  show Runs E ex (binK op d x y) s 0 _
  refine runs_gas (.refl s) h fun s1 h1 => runs_bigGet h1 fun s2 h2 => runs_bigGet h2 fun s3 h3 => runs_bigGet h3 fun s4 h4 =>
    runs_extra h4 h fun s5 h5 => runs_result (k := fun _ => .pure 0) h5 h (fun v => binop_eval_iff op _ _ v) fun v s6 hv h6 => ?_
  exact ⟨s6, rfl, computes_of_prep ((binop_eval_iff op _ _ v).1 hv) h6⟩

/-- C03 for `bigIntAbs`, `bigIntNeg`, `bigIntNot`. -/
theorem c03_unary (op : UnOp) (d x : Int32) (s : St χ A) {i : Nat} (h : s.rt.instance_ = some i) :
    ∃ t, interp E ex (eei E (.bigIntUn op d x)) s = (.ok 0, t) ∧ Computes s t d (UnResult op (bigVal s x)) := by
  show Runs E ex (unK op d x) s 0 _
  refine runs_gas (.refl s) h fun s1 h1 => runs_bigGet h1 fun s2 h2 => runs_bigGet h2 fun s3 h3 =>
    runs_extra h3 h fun s4 h4 => runs_result (k := fun _ => .pure 0) h4 h (fun v => unop_eval_iff op _ v) fun v s6 hv h6 => ?_
  exact ⟨s6, rfl, computes_of_prep ((unop_eval_iff op _ v).1 hv) h6⟩

/-- C03 for `bigIntShl`, `bigIntShr`. -/
theorem c03_shift (op : ShiftOp) (d x bits : Int32) (s : St χ A) {i : Nat} (h : s.rt.instance_ = some i) :
    ∃ t, interp E ex (eei E (.bigIntShift op d x bits)) s = (.ok 0, t) ∧
      Computes s t d (ShiftResult op (bigVal s x) bits.toInt) := by
  show Runs E ex (shiftK op d x bits) s 0 _
  refine runs_gas (.refl s) h fun s1 h1 => runs_bigGet h1 fun s2 h2 => runs_bigGet h2 fun s3 h3 =>
    runs_extra h3 h fun s4 h4 => runs_result (k := fun v => extraK [v] (.pure 0)) h4 h (fun v => shiftop_eval_iff op _ _ v) fun v s5 hv h5 => ?_
  exact runs_extra h5 h fun s6 h6 => ⟨s6, rfl, computes_of_prep ((shiftop_eval_iff op _ _ v).1 hv) h6⟩

/-- C03 for `bigIntSign`: the answer is the sign, nothing changes. -/
theorem c03_sign (x : Int32) (s : St χ A) {i : Nat} (h : s.rt.instance_ = some i) :
    ∃ t a, interp E ex (eei E (.bigIntSign x)) s = (.ok a, t) ∧ Prep s t ∧
      (a = -1 ↔ bigVal s x < 0) ∧ (a = 0 ↔ bigVal s x = 0) ∧ (a = 1 ↔ 0 < bigVal s x) := by
  have hrun : Runs E ex (bigSign x) s (Int64.ofInt (bigVal s x).sign) (Prep s) :=
    runs_gas (.refl s) h fun s1 h1 => runs_bigGet h1 fun s2 h2 => runs_extra h2 h fun s3 h3 => ⟨s3, rfl, h3⟩
  obtain ⟨t, ht, hp⟩ := hrun
  refine ⟨t, _, ht, hp, ?_⟩
  rcases Int.lt_trichotomy (bigVal s x) 0 with h0 | h0 | h0
  · rw [Int.sign_eq_neg_one_of_neg h0]
    refine ⟨⟨fun _ => h0, fun _ => by decide⟩, ⟨fun hc => absurd hc (by decide), by omega⟩, ⟨fun hc => absurd hc (by decide), by omega⟩⟩
  · rw [h0]; decide
  · rw [Int.sign_eq_one_of_pos h0]
    refine ⟨⟨fun hc => absurd hc (by decide), by omega⟩, ⟨fun hc => absurd hc (by decide), by omega⟩, ⟨fun _ => h0, fun _ => by decide⟩⟩

/-- C03 for `bigIntCmp`. -/
theorem c03_cmp (x y : Int32) (s : St χ A) {i : Nat} (h : s.rt.instance_ = some i) :
    ∃ t a, interp E ex (eei E (.bigIntCmp x y)) s = (.ok a, t) ∧ Prep s t ∧
      (a = -1 ↔ bigVal s x < bigVal s y) ∧ (a = 0 ↔ bigVal s x = bigVal s y) ∧ (a = 1 ↔ bigVal s y < bigVal s x) := by
  have hrun : Runs E ex (bigCmp x y) s (if bigVal s x < bigVal s y then -1 else if bigVal s x = bigVal s y then 0 else 1)
      (Prep s) :=
    runs_gas (.refl s) h fun s1 h1 => runs_bigGet h1 fun s2 h2 => runs_bigGet h2 fun s3 h3 =>
      runs_extra h3 h fun s4 h4 => ⟨s4, rfl, h4⟩
  obtain ⟨t, ht, hp⟩ := hrun
  refine ⟨t, _, ht, hp, ?_⟩
  have e1 : ¬ ((0 : Int64) = -1) := by decide
  have e2 : ¬ ((1 : Int64) = -1) := by decide
  have e3 : ¬ ((-1 : Int64) = 0) := by decide
  have e4 : ¬ ((1 : Int64) = 0) := by decide
  have e5 : ¬ ((-1 : Int64) = 1) := by decide
  have e6 : ¬ ((0 : Int64) = 1) := by decide
  rcases Int.lt_trichotomy (bigVal s x) (bigVal s y) with h0 | h0 | h0
  · have : ¬ bigVal s x = bigVal s y := by omega
    have : ¬ bigVal s y < bigVal s x := by omega
    simp [*]
  · simp [h0, e1, e6]
  · have : ¬ bigVal s x = bigVal s y := by omega
    have : ¬ bigVal s x < bigVal s y := by omega
    simp [*]

/-- an aliased case: handle 3 := handle 3 / handle 4, with values -7 and 2 (truncated division gives -3) -/
example : let s0 := Fixture.running
    let s : St Fixture.World EeiCall := { s0 with big := (s0.big.setVal 3 (-7)).setVal 4 2 }
    s.rt.instance_ = some 0 ∧ bigVal s 3 = -7 ∧
    bigVal (interp Fixture.env0 (execN Fixture.env0 0) (eei Fixture.env0 (.bigIntBin .tdiv 3 3 4)) s).2 3 = -3 ∧
    BinResult .tdiv (-7) 2 (-3) ∧ ¬ ∃ v, BinResult .tdiv (-7) 0 v := by
  refine ⟨rfl, by decide +kernel, by decide +kernel, ⟨by decide, by decide, by decide⟩, ?_⟩
  rintro ⟨v, h, _⟩; exact h rfl

/-! ## C02 -/

theorem probe_spec (vals : AMap Int32 Int) (fuel : Nat) (h : Int32) :
    vals.get? (BigCtx.probe vals fuel h) = none ∨ ∀ j < fuel, (vals.get? (h + Int32.ofNat j)).isSome := by
  induction fuel generalizing h with
  | zero => right; intro j hj; omega
  | succ n ih =>
    simp only [BigCtx.probe]
    split
    · rename_i hs
      rcases ih (h + 1) with h1 | h1
      · exact .inl h1
      · right
        intro j hj
        cases j with
        | zero => simpa using hs
        | succ j =>
          have := h1 j (by omega)
          have e : h + 1 + Int32.ofNat j = h + Int32.ofNat (j + 1) := by
            rw [Int32.add_assoc]
            congr 1
            rw [Int32.ofNat_add, Int32.add_comm]; rfl
          rwa [e] at this
    · left
      rename_i hs
      cases hg : vals.get? h with
      | none => rfl
      | some v => simp [hg] at hs

theorem int32_ofNat_inj {a b : Nat} (ha : a < 2 ^ 32) (hb : b < 2 ^ 32) (h : Int32.ofNat a = Int32.ofNat b) : a = b := by
  have h1 := congrArg (fun x : Int32 => x.toUInt32.toNat) h
  have e : ∀ n, (Int32.ofNat n).toUInt32.toNat = n % 2 ^ 32 := fun n => rfl
  simp only [e] at h1
  rwa [Nat.mod_eq_of_lt ha, Nat.mod_eq_of_lt hb] at h1

/-- the probing loop finds a free handle while fewer than 2^32 handles are in use -/
theorem put_fresh (c : BigCtx) (v : Int64) (hs : c.vals.size < 2 ^ 32) : c.vals.get? (c.put v).1 = none := by
  simp only [BigCtx.put]
  rcases probe_spec c.vals (c.vals.size + 1) (BigCtx.firstHandle c.vals) with h | h
  · exact h
  · exfalso
    let l := (List.range (c.vals.size + 1)).map (fun j => BigCtx.firstHandle c.vals + Int32.ofNat j)
    have hn : l.Nodup := by
      refine List.pairwise_map.2 (List.Pairwise.imp_of_mem ?_ List.nodup_range)
      intro a b ha hb hab he
      rw [List.mem_range] at ha hb
      exact hab (int32_ofNat_inj (by omega) (by omega) (Int32.add_right_inj _ |>.1 he))
    have hsub : l ⊆ c.vals.keys := by
      intro k hk
      obtain ⟨j, hj, rfl⟩ := List.mem_map.1 hk
      have := h j (List.mem_range.1 hj)
      rcases Classical.em (BigCtx.firstHandle c.vals + Int32.ofNat j ∈ c.vals.keys) with hm | hm
      · exact hm
      · rw [(AMap.get?_none_iff _ _).2 hm] at this; cases this
    have := hn.length_le_of_subset hsub
    simp [l, AMap.keys, AMap.size] at this
    omega

/-- C02: `bigIntNew` answers a handle that was not in use; it holds the requested value; every other handle is as before.
(With 2^32 live handles the loop of the code does not end.) -/
theorem c02_new (v : Int64) (s : St χ A) {i : Nat} (h : s.rt.instance_ = some i) (hs : s.big.vals.size < 2 ^ 32) :
    ∃ t n, interp E ex (eei E (.bigIntNew v)) s = (.ok n.toInt64, t) ∧
      s.big.vals.get? n = none ∧ t.big.vals.get? n = some v.toInt ∧ (∀ k, k ≠ n → t.big.vals.get? k = s.big.vals.get? k) ∧
      SameRest s t := by
  let s1 := s.spend (s.met.sched.api .bigIntNew)
  refine ⟨{ s1 with big := (s.big.put v).2 }, (s.big.put v).1, ?_, put_fresh s.big v hs, ?_, ?_, rfl, rfl, rfl, rfl⟩
  · show interp E ex (bigNew v) s = _
    unfold bigNew
    rw [interp_gasK E ex _ _ s h]
    rfl
  · simp [BigCtx.put]
  · intro k hk
    exact AMap.get?_insert_ne _ _ (Ne.symm hk)

/-- What a contract can do with handles: allocate, read (which creates), write. -/
inductive HandleOp
  | new (v : Int64) | read (h : Int32) | write (h : Int32) (v : Int)

/-- the effect of each on the big-integer context (`Put`; `GetOne`; `GetOne` and `Set`) -/
def HandleOp.run (c : BigCtx) : HandleOp → BigCtx
  | .new v => (c.put v).2
  | .read h => (c.getOne h).2
  | .write h v => (c.getOne h).2.setVal h v

theorem size_insert_le (m : AMap Int32 Int) (h : Int32) (v : Int) : (m.insert h v).size ≤ m.size + 1 := by
  have : ∀ l : List (Int32 × Int), (AMap.insertL h v l).length ≤ l.length + 1 := by
    intro l
    induction l with
    | nil => simp [AMap.insertL]
    | cons p l ih => simp only [AMap.insertL]; split <;> simp; omega
  exact this m.entries

theorem size_insert_present (m : AMap Int32 Int) (h : Int32) (v : Int) (hp : (m.get? h).isSome) :
    (m.insert h v).size = m.size := by
  have : ∀ l : List (Int32 × Int), (AMap.lookupL h l).isSome → (AMap.insertL h v l).length = l.length := by
    intro l
    induction l with
    | nil => simp [AMap.lookupL]
    | cons p l ih =>
      simp only [AMap.lookupL, AMap.insertL]
      split
      · simp
      · intro hl; simp [ih hl]
  exact this m.entries hp

theorem getOne_size (c : BigCtx) (h : Int32) : (c.getOne h).2.vals.size ≤ c.vals.size + 1 := by
  unfold BigCtx.getOne
  cases c.vals.get? h with
  | some v => simp
  | none => exact size_insert_le _ _ _

theorem getOne_present (c : BigCtx) (h : Int32) : ((c.getOne h).2.vals.get? h).isSome := by
  unfold BigCtx.getOne
  cases hc : c.vals.get? h with
  | some v => simp [hc]
  | none => simp

theorem handleOp_size (c : BigCtx) (o : HandleOp) : (o.run c).vals.size ≤ c.vals.size + 1 := by
  cases o with
  | new v => exact size_insert_le _ _ _
  | read h => exact getOne_size c h
  | write h v =>
    show ((c.getOne h).2.vals.insert h v).size ≤ _
    rw [size_insert_present _ _ _ (getOne_present c h)]
    exact getOne_size c h

theorem history_size (ops : List HandleOp) (c : BigCtx) :
    (ops.foldl HandleOp.run c).vals.size ≤ c.vals.size + ops.length := by
  induction ops generalizing c with
  | nil => simp
  | cons o ops ih =>
    have h1 := ih (o.run c)
    have h2 := handleOp_size c o
    simp only [List.foldl_cons, List.length_cons]
    omega

/-- C02 over histories: after any history of fewer than 2^32 allocations, reads and writes with arbitrary handles, a new
handle is one that was not in use. -/
theorem c02_history (ops : List HandleOp) (hl : ops.length < 2 ^ 32) (v : Int64) :
    let c := ops.foldl HandleOp.run {}
    c.vals.get? (c.put v).1 = none ∧ (c.put v).2.vals.get? (c.put v).1 = some v.toInt ∧
    ∀ k, k ≠ (c.put v).1 → (c.put v).2.vals.get? k = c.vals.get? k := by
  intro c
  have hs : c.vals.size < 2 ^ 32 := by
    have := history_size ops {}
    have h0 : ({} : BigCtx).vals.size = 0 := rfl
    show (ops.foldl HandleOp.run {}).vals.size < _
    omega
  refine ⟨put_fresh c v hs, ?_, fun k hk => ?_⟩
  · simp [BigCtx.put]
  · exact AMap.get?_insert_ne _ _ (Ne.symm hk)

/-- a history where the first handle tried is taken: read handle 1 and 2, then allocate -/
example : let c := [HandleOp.read 1, .read 3, .write 2 7].foldl HandleOp.run {}
    c.vals.size = 3 ∧ (c.vals.get? (BigCtx.firstHandle c.vals)).isSome ∧ (c.put 5).1 = 4 := by decide +kernel

/-! ## C04 -/

/-- C04: signed bytes read back to the same integer. -/
theorem c04_signed (z : Int) : twosFromBytes (twosToBytes z) = z := twosFromBytes_toBytes z

/-- C04: the signed encoding has the least length of all byte strings denoting the integer. -/
theorem c04_signed_minimal (z : Int) (bs : Bytes) (h : twosFromBytes bs = z) : (twosToBytes z).length ≤ bs.length :=
  twosToBytes_minimal z bs h

/-- C04: unsigned bytes of a non-negative integer read back to it, and no shorter byte string denotes it. -/
theorem c04_unsigned (z : Int) (h : 0 ≤ z) :
    (bytesToNat (absBytes z) : Int) = z ∧ ∀ bs, (bytesToNat bs : Int) = z → (absBytes z).length ≤ bs.length := by
  have e : (z.natAbs : Int) = z := by omega
  constructor
  · simp only [absBytes]; rw [bytesToNat_natToBytes, e]
  · intro bs hb
    have hb' : bytesToNat bs = z.natAbs := by omega
    simp only [absBytes, ← hb']
    rcases Nat.eq_zero_or_pos (bytesToNat bs) with h0 | h0
    · rw [h0]; exact Nat.zero_le _
    · rcases Nat.lt_or_ge bs.length (natToBytes (bytesToNat bs)).length with hlt | hge
      · exfalso
        have h1 := bytesToNat_lt bs
        have h2 := bytesToNat_natToBytes (bytesToNat bs)
        have h3 := natToBytes_head (bytesToNat bs)
        cases hn : natToBytes (bytesToNat bs) with
        | nil => rw [hn] at hlt; simp at hlt
        | cons b r =>
          rw [hn] at h2 h3 hlt
          have hb0 : b ≠ 0 := h3 b rfl
          have hb1 : 1 ≤ b.toNat := by
            rcases Nat.eq_zero_or_pos b.toNat with h | h
            · exact absurd (UInt8.toNat_inj.1 (by simpa using h)) hb0
            · exact h
          have hge := bytesToNat_ge b r
          have h4 := Nat.mul_le_mul_right (256 ^ r.length) hb1
          have h5 : 256 ^ bs.length ≤ 256 ^ r.length := Nat.pow_le_pow_right (by decide) (by simp at hlt; omega)
          omega
      · exact hge

/-- the memory of the running instance -/
def curMem (s : St χ A) : Bytes := match s.rt.instance_ with | none => [] | some i => (s.insts i).mem

example : twosToBytes (-129) = [255, 127] ∧ twosToBytes 128 = [0, 128] ∧ absBytes 256 = [1, 0] := by decide +kernel

end
end Arwen.Props
