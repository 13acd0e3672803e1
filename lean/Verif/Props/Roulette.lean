import Verif.Spec.Roulette
/-
C87: the fuzzers choose each outcome as often as its weight says.
-/
namespace Arwen.Props
open Arwen.Spec Arwen.Mock

theorem weightSum_nat (a : Nat) (ws : List Nat) : weightSum (Int64.ofNat a) (asWeights ws) = Int64.ofNat (a + ws.sum) := by
  induction ws generalizing a with
  | nil => rfl
  | cons w l ih =>
    show weightSum (Int64.ofNat a + Int64.ofNat w) (asWeights l) = _
    rw [← Int64.ofNat_add, ih, List.sum_cons, Nat.add_assoc]

theorem int64_lt_nat {a b : Nat} (ha : a < 2 ^ 63) (hb : b < 2 ^ 63) : Int64.ofNat a < Int64.ofNat b ↔ a < b := by
  rw [Int64.lt_iff_toInt_lt, Int64.toInt_ofNat_of_lt ha, Int64.toInt_ofNat_of_lt hb]
  omega

/-- which outcome a draw chooses: that in whose part of the sum it lies -/
theorem pick_iff (ws : List Nat) (a x i : Nat) (hx : x < 2 ^ 63) (hs : a + ws.sum < 2 ^ 63) (hax : a ≤ x) :
    pick (Int64.ofNat x) (Int64.ofNat a) (asWeights ws) = some i ↔
      ∃ w, ws[i]? = some w ∧ a + (ws.take i).sum ≤ x ∧ x < a + (ws.take i).sum + w := by
  induction ws generalizing a i with
  | nil => simp [asWeights, pick]
  | cons w l ih =>
    rw [List.sum_cons] at hs
    show (if Int64.ofNat x < Int64.ofNat a + Int64.ofNat w then some 0
      else (pick (Int64.ofNat x) (Int64.ofNat a + Int64.ofNat w) (asWeights l)).map (· + 1)) = some i ↔ _
    rw [← Int64.ofNat_add]
    have hlt := int64_lt_nat (a := x) (b := a + w) hx (by omega)
    by_cases h : x < a + w
    · rw [if_pos (hlt.2 h)]
      cases i with
      | zero => simp; omega
      | succ i => simp; intros; omega
    · rw [if_neg (fun e => h (hlt.1 e))]
      cases i with
      | zero => simp; intros; omega
      | succ i =>
        have := ih (a + w) i (by omega) (by omega)
        simp only [List.getElem?_cons_succ, List.take_succ_cons, List.sum_cons, Option.map_eq_some_iff, Nat.add_right_cancel_iff,
          exists_eq_right]
        rw [this]
        simp only [Nat.add_assoc]

theorem draws_between (n lo w : Nat) (h : lo + w ≤ n) : draws n (fun x => decide (lo ≤ x ∧ x < lo + w)) = w := by
  have key : ∀ n, draws n (fun x => decide (lo ≤ x ∧ x < lo + w)) = min n (lo + w) - min n lo := by
    intro n
    induction n with
    | zero => simp [draws]
    | succ n ih =>
      unfold draws at ih ⊢
      rw [List.range_succ, List.filter_append, List.length_append, ih]
      by_cases hc : lo ≤ n ∧ n < lo + w
      · simp [hc]; omega
      · simp only [List.filter_cons, decide_eq_true_eq, hc, if_false, List.filter_nil, List.length_nil]; omega
  rw [key]
  omega

theorem take_sum_le (ws : List Nat) (i w : Nat) (h : ws[i]? = some w) : (ws.take i).sum + w ≤ ws.sum := by
  induction ws generalizing i with
  | nil => simp at h
  | cons v l ih =>
    cases i with
    | zero => simp at h; simp [h]
    | succ i =>
      rw [List.getElem?_cons_succ] at h
      have := ih i h
      simp only [List.take_succ_cons, List.sum_cons]
      omega

/-- the program for weights whose sum is not too large -/
theorem choice_eq (draw : Int64 → Int64) (ws : List Nat) (h0 : 0 < ws.sum) (hs : ws.sum < 2 ^ 63) :
    randomChoice draw (asWeights ws) = .event (pick (draw (Int64.ofNat ws.sum)) 0 (asWeights ws)) := by
  have h := weightSum_nat 0 ws
  rw [Nat.zero_add] at h
  change weightSum 0 (asWeights ws) = _ at h
  unfold randomChoice
  rw [h, if_neg]
  intro e
  have := (int64_lt_nat (a := 0) (b := ws.sum) (by decide) hs).2 h0
  rw [Int64.le_iff_toInt_le] at e
  rw [Int64.lt_iff_toInt_lt] at this
  change (Int64.ofNat ws.sum).toInt ≤ (Int64.ofNat 0).toInt at e
  omega

/-- **C87 (weights).** Of all the numbers that may be drawn, exactly as many choose an outcome as its weight says. -/
theorem c87_weights_partial (ws : List Nat) (h0 : 0 < ws.sum) (hs : ws.sum < 2 ^ 63) (i w : Nat) (hw : ws[i]? = some w) :
    draws ws.sum (fun x => decide (randomChoice (fun _ => Int64.ofNat x) (asWeights ws) = .event (some i))) = w := by
  rw [← draws_between ws.sum (ws.take i).sum w (take_sum_le ws i w hw)]
  unfold draws
  congr 1
  apply List.filter_congr
  intro x hx
  have hx := List.mem_range.1 hx
  rw [choice_eq _ ws h0 hs, decide_eq_decide, Choice.event.injEq]
  have := pick_iff ws 0 x i (by omega) (by omega) (Nat.zero_le _)
  rw [show (0 : Int64) = Int64.ofNat 0 from rfl, this, hw]
  simp

/-- **C87 (one event).** Whatever is drawn, the event of exactly one outcome is executed, and its weight is not zero. -/
theorem c87_one_partial (ws : List Nat) (h0 : 0 < ws.sum) (hs : ws.sum < 2 ^ 63) (draw : Int64 → Int64)
    (hd : ∃ x, x < ws.sum ∧ draw (Int64.ofNat ws.sum) = Int64.ofNat x) :
    ∃ i w, randomChoice draw (asWeights ws) = .event (some i) ∧ ws[i]? = some w ∧ 0 < w := by
  obtain ⟨x, hx, hd⟩ := hd
  have cover : ∀ (ws : List Nat) (a : Nat), a ≤ x → x < a + ws.sum →
      ∃ i w, ws[i]? = some w ∧ a + (ws.take i).sum ≤ x ∧ x < a + (ws.take i).sum + w := by
    intro ws
    induction ws with
    | nil => intro a h1 h2; simp at h2; omega
    | cons w l ih =>
      intro a h1 h2
      rw [List.sum_cons] at h2
      by_cases h : x < a + w
      · exact ⟨0, w, rfl, by simpa using h1, by simpa using h⟩
      · obtain ⟨i, v, e, h3, h4⟩ := ih (a + w) (by omega) (by omega)
        refine ⟨i + 1, v, by simpa using e, ?_, ?_⟩ <;> simp only [List.take_succ_cons, List.sum_cons] <;> omega
  obtain ⟨i, w, e, h1, h2⟩ := cover ws 0 (Nat.zero_le _) (by omega)
  refine ⟨i, w, ?_, e, by omega⟩
  rw [choice_eq _ ws h0 hs, hd]
  congr 1
  exact (pick_iff ws 0 x i (by omega) (by omega) (Nat.zero_le _)).2 ⟨w, e, h1, h2⟩

/-- **C87 (no weights).** If all weights are zero, the program panics. -/
theorem c87_none (draw : Int64 → Int64) (ws : List Nat) (h : ws.sum = 0) : randomChoice draw (asWeights ws) = .panics := by
  have hs := weightSum_nat 0 ws
  rw [h] at hs
  change weightSum 0 (asWeights ws) = 0 at hs
  unfold randomChoice
  rw [hs]
  rfl

/-- **Negative weights take from others.** With the weights 1, -1 and 2 two numbers may be drawn, and only one of them chooses the
last outcome; the outcome of weight -1 is never chosen, and no error is reported. -/
theorem c87_negative_neg : [0, 1].map (fun x => randomChoice (fun _ => x) [1, -1, 2]) = [.event (some 0), .event (some 2)] := by decide

/-- **Large weights make the program panic.** The sum of two weights of 2^62 is negative. -/
theorem c87_overflow_neg (draw : Int64 → Int64) : randomChoice draw (asWeights [2 ^ 62, 2 ^ 62]) = .panics := rfl

/-! ### Examples -/

-- three outcomes, of which the second cannot be chosen
example : (List.range 5).map (fun x => randomChoice (fun _ => Int64.ofNat x) (asWeights [2, 0, 3])) =
    [.event (some 0), .event (some 0), .event (some 2), .event (some 2), .event (some 2)] := by decide

-- the theorems at these weights
example : draws 5 (fun x => decide (randomChoice (fun _ => Int64.ofNat x) (asWeights [2, 0, 3]) = .event (some 2))) = 3 :=
  c87_weights_partial [2, 0, 3] (by decide) (by decide) 2 3 rfl
example : ∃ i w, randomChoice (fun n => n - 1) (asWeights [2, 0, 3]) = .event (some i) ∧ [2, 0, 3][i]? = some w ∧ 0 < w :=
  c87_one_partial [2, 0, 3] (by decide) (by decide) _ ⟨4, by decide, by decide⟩

end Arwen.Props
