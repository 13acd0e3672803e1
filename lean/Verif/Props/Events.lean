import Verif.World.Events
/-
C87 (random events): events happen with the probabilities that are given.
-/
namespace Arwen.Props
open Arwen.Mock

theorem round_exact (n : Nat) (h : 2 ^ (Nat.log2 n - 23) ∣ n) : roundFloat n = n := by
  unfold roundFloat
  dsimp only
  rw [Nat.mod_eq_zero_of_dvd h, if_pos (.inl (by simpa using Nat.two_pow_pos _)), Nat.div_mul_cancel h]

/-- numbers up to 1 with 24 binary digits after the point are not rounded -/
theorem round_steps (m : Nat) (h : m ≤ 2 ^ 24) : roundFloat (m * 2 ^ 125) = m * 2 ^ 125 := by
  apply round_exact
  by_cases e : m = 2 ^ 24
  · subst e
    decide +kernel
  · by_cases z : m = 0
    · subst z; exact ⟨0, by simp⟩
    · have hl : Nat.log2 (m * 2 ^ 125) < 149 := by
        rw [Nat.log2_lt (Nat.mul_ne_zero z (Nat.ne_of_gt (Nat.two_pow_pos 125)))]
        have : m * 2 ^ 125 < 2 ^ 24 * 2 ^ 125 := Nat.mul_lt_mul_of_pos_right (by omega) (Nat.two_pow_pos _)
        rwa [← Nat.pow_add] at this
      exact Nat.dvd_trans (Nat.pow_dvd_pow 2 (by omega)) ⟨m, Nat.mul_comm _ _⟩

/-- the events from some point on -/
theorem first_iff (u N : Nat) (hN : N * u = floatOne) (hu : ∀ m, m ≤ N → roundFloat (m * u) = m * u) (qs : List Nat) (a x i : Nat)
    (hs : a + qs.sum ≤ N) (hx : a * u ≤ x) :
    EventSource.first (qs.map (· * u)) ⟨x, a * u⟩ = some (some i) ↔
      ∃ q, qs[i]? = some q ∧ (a + (qs.take i).sum) * u ≤ x ∧ x < (a + (qs.take i).sum + q) * u := by
  induction qs generalizing a i with
  | nil =>
    rw [List.map_nil, EventSource.first]
    constructor
    · intro e; cases e
    · rintro ⟨q, hq, -⟩; cases hq
  | cons q l ih =>
    rw [List.sum_cons] at hs
    have hr : roundFloat (a * u + q * u) = (a + q) * u := by
      rw [← Nat.add_mul]; exact hu _ (by omega)
    have h1 : ¬ floatOne < (a + q) * u := by
      have : (a + q) * u ≤ N * u := Nat.mul_le_mul_right _ (by omega)
      rw [hN] at this
      exact Nat.not_lt.2 this
    rw [List.map_cons, EventSource.first]
    unfold EventSource.withProbability
    dsimp only
    rw [hr, if_neg h1]
    by_cases h : x < (a + q) * u
    · rw [decide_eq_true h]
      dsimp only
      rw [if_pos rfl]
      cases i with
      | zero => simp [hx, h]
      | succ i =>
        simp only [List.getElem?_cons_succ, List.take_succ_cons, List.sum_cons, Option.some.injEq]
        constructor
        · intro e; cases e
        · rintro ⟨v, -, h2, -⟩
          have : (a + q) * u ≤ (a + (q + (l.take i).sum)) * u := Nat.mul_le_mul_right _ (by omega)
          omega
    · rw [decide_eq_false h]
      dsimp only
      rw [if_neg Bool.false_ne_true]
      cases i with
      | zero =>
        simp only [List.getElem?_cons_zero, List.take_zero, List.sum_nil, Nat.add_zero, Option.some.injEq, exists_eq_left']
        constructor
        · intro e
          cases h3 : EventSource.first (l.map (· * u)) ⟨x, (a + q) * u⟩ with
          | none => rw [h3] at e; cases e
          | some r => rw [h3] at e; cases r <;> simp at e
        · rintro ⟨-, h2⟩; exact absurd h2 h
      | succ i =>
        have := ih (a + q) i (by omega) (by omega)
        simp only [List.getElem?_cons_succ, List.take_succ_cons, List.sum_cons]
        rw [← Nat.add_assoc, ← this]
        cases EventSource.first (l.map (· * u)) ⟨x, (a + q) * u⟩ with
        | none => simp
        | some r => cases r <;> simp

/-- **C87 (events).** If the probabilities have at most 24 binary digits after the point and their sum is at most 1, an event happens
exactly for the drawn numbers in an interval whose length is its probability: from the sum of the probabilities before it up to, but not
including, this sum and its own. -/
theorem c87_events_partial (qs : List Nat) (hs : qs.sum ≤ 2 ^ 24) (x i : Nat) :
    EventSource.first (qs.map (· * 2 ^ 125)) (EventSource.reset x) = some (some i) ↔
      ∃ q, qs[i]? = some q ∧ (qs.take i).sum * 2 ^ 125 ≤ x ∧ x < (qs.take i).sum * 2 ^ 125 + q * 2 ^ 125 := by
  have hN : 2 ^ 24 * 2 ^ 125 = floatOne := by unfold floatOne; exact (Nat.pow_add 2 24 125).symm
  have hu := round_steps
  revert hN hu hs
  unfold EventSource.reset
  generalize 2 ^ 125 = u
  generalize 2 ^ 24 = N
  intro hs hN hu
  have := first_iff u N hN hu qs 0 x i (by omega) (by omega)
  simp only [Nat.zero_add, Nat.zero_mul, Nat.add_mul] at this
  exact this

/-- the number of type `float32` that is nearest to 0.1 -/
def tenth : Nat := 13421773 * 2 ^ 122

/-- **Probabilities whose sum is 1 can make the program panic.** Ten events of probability 0.1: their sum is rounded to a number greater
than 1. -/
theorem c87_tenths_neg : EventSource.first (List.replicate 10 tenth) (EventSource.reset (floatOne - 2 ^ 125)) = none := by decide +kernel

/-! ### Examples -/

-- a half, a quarter and an eighth: the three events and none, for the numbers 0.25, 0.5, 0.75 and 0.875
example : [2, 4, 6, 7].map (fun x => EventSource.first [2 ^ 148, 2 ^ 147, 2 ^ 146] (EventSource.reset (x * 2 ^ 146))) =
    [some (some 0), some (some 1), some (some 2), some none] := by decide +kernel

-- a number between two of type `float32` is rounded, to the even one at the middle
example : [2 ^ 24 + 1, 2 ^ 24 + 3, 2 ^ 25 + 3].map roundFloat = [2 ^ 24, 2 ^ 24 + 4, 2 ^ 25 + 4] ∧ roundFloat tenth = tenth := by
  decide +kernel

end Arwen.Props
