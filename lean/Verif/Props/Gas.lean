import Verif.Host.Gas
import Verif.Spec.Gas
import Verif.Spec.Outcome
import Verif.Fixture
/-
C12 (no execution ends with more gas than it was given), C13 (gas is conserved on success).
-/
namespace Arwen.Props
open Arwen Spec
variable {χ A : Type} {E : Env χ A}

/-! ### Saturating sums -/

/-- a saturating sum that is not at the bound is exact -/
theorem addU64_exact {a b : UInt64} {n : Nat} (h : (addU64 a b).toNat = n) (hn : n < 2 ^ 64 - 1) : a.toNat + b.toNat = n := by
  rw [addU64_toNat] at h
  omega

theorem addU64_le (a b : UInt64) : a.toNat ≤ (addU64 a b).toNat ∧ b.toNat ≤ (addU64 a b).toNat := by
  rw [addU64_toNat]
  have := a.toNat_lt; have := b.toNat_lt
  omega

theorem fold_exact {α : Type} (f : UInt64 → α → UInt64) (c : α → Nat)
    (hf : ∀ g x, g.toNat ≤ (f g x).toNat ∧ ((f g x).toNat < 2 ^ 64 - 1 → (f g x).toNat = g.toNat + c x)) (l : List α) :
    ∀ g : UInt64, g.toNat ≤ (l.foldl f g).toNat ∧
      ((l.foldl f g).toNat < 2 ^ 64 - 1 → (l.foldl f g).toNat = g.toNat + (l.map c).sum) := by
  induction l with
  | nil => intro g; exact ⟨Nat.le_refl _, fun _ => rfl⟩
  | cons x l ih =>
    intro g
    obtain ⟨h1, h2⟩ := ih (f g x)
    obtain ⟨h3, h4⟩ := hf g x
    simp only [List.foldl_cons, List.map_cons, List.sum_cons]
    refine ⟨Nat.le_trans h3 h1, fun h => ?_⟩
    have h5 := h2 h
    have h6 := h4 (by omega)
    omega

theorem addU64_two (g a b : UInt64) : g.toNat ≤ (addU64 (addU64 g a) b).toNat ∧
    ((addU64 (addU64 g a) b).toNat < 2 ^ 64 - 1 → (addU64 (addU64 g a) b).toNat = g.toNat + (a.toNat + b.toNat)) := by
  have h1 := addU64_le g a
  have h2 := addU64_le (addU64 g a) b
  refine ⟨Nat.le_trans h1.1 h2.1, fun h => ?_⟩
  have h3 := addU64_exact rfl h
  have h4 := addU64_exact (a := g) (b := a) rfl (by omega)
  omega

theorem gasTransferred_exact (a : OutAcc) (h : (gasTransferred a).toNat < 2 ^ 64 - 1) : (gasTransferred a).toNat = forwardedGas a := by
  have := (fold_exact (fun g (t : OutTransfer) => addU64 (addU64 g t.gasLimit) t.gasLocked)
    (fun t => t.gasLimit.toNat + t.gasLocked.toNat) (fun g t => addU64_two g _ _) a.transfers 0).2 h
  rw [show (0 : UInt64).toNat = 0 from rfl, Nat.zero_add] at this
  exact this

theorem totalUsedGas_exact (o : VMOutput) (h : (totalUsedGas o.accounts).toNat < 2 ^ 64 - 1) :
    (totalUsedGas o.accounts).toNat = spentGas o := by
  have := (fold_exact (fun g (p : Addr × OutAcc) => addU64 (addU64 g p.2.gasUsed) (gasTransferred p.2))
    (fun p => p.2.gasUsed.toNat + forwardedGas p.2) (fun g p => by
      obtain ⟨h1, h2⟩ := addU64_two g p.2.gasUsed (gasTransferred p.2)
      refine ⟨h1, fun h => ?_⟩
      rw [h2 h, gasTransferred_exact]
      have := addU64_le (addU64 g p.2.gasUsed) (gasTransferred p.2)
      omega) o.accounts.entries 0).2 h
  rw [show (0 : UInt64).toNat = 0 from rfl, Nat.zero_add] at this
  exact this

/-! ### The start of a transaction -/

theorem meterInit_gas (i : VMInput) (s : St χ A) : ∃ g : UInt64, (meterInit i s).2.met.cur.initialGasProvided = g ∧
    (meterInit i s).2.met.cur.gasForExecution = g ∧ i.gasProvided ≤ g ∧ g.toNat ≤ inputGas i ∧
    (inputGas i < 2 ^ 64 - 1 → g.toNat = inputGas i) := by
  unfold meterInit inputGas
  dsimp only
  refine ⟨_, rfl, rfl, ?_⟩
  split
  · rw [UInt64.le_iff_toNat_le, addU64_toNat]
    have := i.gasProvided.toNat_lt
    omega
  · exact ⟨UInt64.le_refl _, Nat.le_refl _, fun _ => rfl⟩

/-- the gas on record when a transaction starts; nothing is on record if no address can be made for a deployment -/
theorem txStart_gas (tx : Tx) (s : St χ A) (hc : ∀ i, tx = .create i → ∃ a, (newAddress E i.vm.caller (hostInit E s)).1 = .ok a) :
    ∃ g : UInt64, (txStart E tx s).met.cur.initialGasProvided = g ∧ GasBound g (txStart E tx s) ∧ g.toNat ≤ txGas tx ∧
      (txGas tx < 2 ^ 64 - 1 → g.toNat = txGas tx) := by
  cases tx with
  | call i =>
    obtain ⟨g, h1, h2, h3, h4, h5⟩ := meterInit_gas i.vm (St.rtInitFrom i (hostInit E s))
    refine ⟨g, h1, ⟨?_, h3⟩, h4, h5⟩
    exact UInt64.le_of_eq h2
  | create i =>
    obtain ⟨a, ha⟩ := hc i rfl
    simp only [txStart, ha]
    obtain ⟨w, hw⟩ : ∃ w, w = (newAddress E i.vm.caller (hostInit E s)).2 := ⟨_, rfl⟩
    rw [← hw]
    obtain ⟨g, h1, h2, h3, h4, h5⟩ := meterInit_gas i.vm
      { w with rt := { w.rt with cur := { w.rt.cur with vmInput := i.vm, scAddress := a } } }
    refine ⟨g, h1, ⟨?_, h3⟩, h4, h5⟩
    exact UInt64.le_of_eq h2

theorem txStart_flags (tx : Tx) (s : St χ A) : (txStart E tx s).flags = (hostInit E s).flags := by
  cases tx with
  | call i => rfl
  | create i =>
    unfold txStart
    dsimp only
    split
    · rfl
    · obtain ⟨o, ho⟩ := newAddress_rest (E := E) i.vm.caller (hostInit E s)
      rw [ho]; rfl

/-- a deployment for which the node makes no address fails -/
theorem create_error {n : Nat} {i : CreateInput} {s : St χ A} {o : VMOutput} {e : Err}
    (hn : (newAddress E i.vm.caller (hostInit E s)).1 = .error e) (h : Outputs E n (.create i) s o) :
    ∃ e w, o = (outputOnError E e w).1 := by
  have ha := runTx_any (E := E) n (.create i) s
  unfold Outputs at h
  generalize (runTx E n (.create i) s).1 = r at ha h
  generalize (runTx E n (.create i) s).2 = t at ha
  subst h
  have key : ∀ t, txBody E (execN E n) (.create i) (hostInit E s) = (.ok o, t) → ∃ e w, o = (outputOnError E e w).1 := by
    intro t ht
    simp only [txBody, createBody_run] at ht
    rw [hn] at ht
    simp only [Prod.mk.injEq, Res.ok.injEq] at ht
    exact ⟨_, _, ht.1.symm⟩
  cases ha with
  | ok _ t ho => exact key _ ho
  | reset _ t ho _ => exact key _ ho

/-- what is reported when no error is -/
theorem ending_gas {n : Nat} {tx : Tx} {s : St χ A} {o : VMOutput} (hr : AtRest E s) (h : Outputs E n tx s o) :
    (∃ e w, o = (outputOnError E e w).1) ∨
    (∃ u : St χ A, GasKept (txStart E tx s) u ∧ (∀ i, tx = .create i → ∃ a, (newAddress E i.vm.caller (hostInit E s)).1 = .ok a) ∧
      o.gasRemaining = u.gasLeft ∧
      (u.flags.v2 = true → addU64 (totalUsedGas o.accounts) o.gasRemaining = u.met.cur.initialGasProvided)) := by
  by_cases hc : ∀ i, tx = .create i → ∃ a, (newAddress E i.vm.caller (hostInit E s)).1 = .ok a
  · obtain ⟨u, t, h1, h2⟩ := runTx_ending n tx hr h
    rcases h2.cases with h2 | ⟨h2, h3, h4, _⟩
    · exact .inl h2
    · refine .inr ⟨u, gasKept_binary.runT (fun _ _ _ => GasKept.of_eq rfl rfl rfl) h1, hc, ?_, ?_⟩
      · rw [h2, h4, updateGasOnSuccess_state]
        show ((readyState u).out.getAcc u.rt.cur.scAddress).2.2.cur.gasRemaining = _
        unfold OutCtx.getAcc
        split <;> rfl
      · intro hv
        rw [updateGasOnSuccess_run] at h3
        split at h3
        · simp at h3
        · rw [h2, h4, updateGasOnSuccess_state]
          unfold checkGas at h3
          have hf : (setGasUsed (updateSCGasUsed (readyState u))).2.flags.v2 = true := hv
          rw [if_neg (by rw [hf]; simp)] at h3
          split at h3
          · simp at h3
          · rename_i h5
            exact Decidable.byContradiction h5
  · obtain ⟨i, hi⟩ := Classical.not_forall.mp hc
    obtain ⟨rfl, hi⟩ := Classical.not_imp.mp hi
    cases hn : (newAddress E i.vm.caller (hostInit E s)).1 with
    | ok a => exact absurd (fun _ => ⟨a, hn⟩) hi
    | error e => exact .inl (create_error hn h)

/-! ### C13 -/

/-- **C13.** With the V2 rules, whenever a transaction succeeds, the gas left, the gas reported as used by the accounts and the
gas that leaves with the reported transfers add up to the gas that came with the transaction. (An amount of `2 ^ 64 - 1` or more
cannot be told from larger ones by the saturating counters.) -/
theorem c13_tx (n : Nat) (tx : Tx) {s : St χ A} {o : VMOutput} (hr : AtRest E s) (hv : RulesV2 E s) (h : Outputs E n tx s o)
    (hok : o.returnCode = .ok) (hg : txGas tx < 2 ^ 64 - 1) : o.gasRemaining.toNat + spentGas o = txGas tx := by
  rcases ending_gas hr h with ⟨e, w, rfl⟩ | ⟨u, hk, hc, _, h2⟩
  · exact absurd hok (onError_output e w).1
  · obtain ⟨g, g1, _, _, g3⟩ := txStart_gas (E := E) tx s hc
    have hf : u.flags.v2 = true := by
      rw [hk.flags, txStart_flags]; exact decide_eq_true hv
    have h3 := h2 hf
    rw [hk.provided, g1] at h3
    have h4 := addU64_exact (congrArg UInt64.toNat h3) (by rw [g3 hg]; exact hg)
    rw [totalUsedGas_exact o (by have := g3 hg; omega), g3 hg] at h4
    omega

/-! ### C12 -/

/-- **C12**, whole transactions: the gas left is at most the gas that came with the transaction. -/
theorem c12_tx (n : Nat) (tx : Tx) {s : St χ A} {o : VMOutput} (hr : AtRest E s) (h : Outputs E n tx s o) :
    o.gasRemaining.toNat ≤ txGas tx := by
  rcases ending_gas hr h with ⟨e, w, rfl⟩ | ⟨u, hk, hc, h1, _⟩
  · simp [(onError_output (E := E) e w).2.2.2.2.1]
  · obtain ⟨g, _, g2, g3, _⟩ := txStart_gas (E := E) tx s hc
    have h2 := (hk.bound g g2).1
    have h4 : u.gasLeft ≤ u.met.cur.gasForExecution := by
      unfold St.gasLeft
      split
      · exact UInt64.le_iff_toNat_le.mpr (by simp)
      · rename_i hx
        have hx := UInt64.not_lt.mp hx
        simp only [UInt64.le_iff_toNat_le, UInt64.toNat_sub_of_le _ _ hx]
        omega
    rw [h1]
    exact Nat.le_trans (UInt64.le_iff_toNat_le.mp h4) (Nat.le_trans (UInt64.le_iff_toNat_le.mp h2) g3)

/-! ### Examples -/

section
open Fixture
/-- a contract that calls another one, pays to a third, and stores something -/
def gasEnv : Env World EeiCall := envWith [
  ([3], mod [(Fixture.f, callDest (addr 101) Fixture.g 200 <| send (addr 2) 7 <| put [1] [2] .ret)]),
  ([4], mod [(Fixture.g, put [1] [2, 3, 4] .ret)])]
def gasHost : St World EeiCall := host (node [(addr 100, contract [3] 50), (addr 101, contract [4])])
def gasTx : Tx := callTx (addr 1) (addr 100) Fixture.f 1000
end

/-- C13 and C12: such a transaction succeeds, both contracts use gas, some is left, and the hypotheses hold. -/
example : AtRest gasEnv gasHost ∧ RulesV2 gasEnv gasHost ∧ txGas gasTx < 2 ^ 64 - 1 :=
  ⟨⟨.inl rfl, rfl, .inl rfl⟩, by unfold RulesV2; decide +kernel, by decide⟩
example : (match (runTx gasEnv 3 gasTx gasHost).1 with
    | some (some o) => decide (o.returnCode = .ok ∧ 0 < o.gasRemaining ∧
        0 < ((o.accounts.get? (Fixture.addr 100)).map OutAcc.gasUsed).getD 0 ∧
        0 < ((o.accounts.get? (Fixture.addr 101)).map OutAcc.gasUsed).getD 0 ∧
        o.gasRemaining.toNat + spentGas o = 1000)
    | _ => false) = true := by decide +kernel

end Arwen.Props
