import Verif.Host.TxOut
/-
Gas of an execution: what was provided stays on record, and the gas for execution never exceeds it.
-/
namespace Arwen
variable {χ A : Type} {E : Env χ A}

/-- the active execution has at most `B` gas -/
def GasBound (B : UInt64) (s : St χ A) : Prop := s.met.cur.gasForExecution ≤ B ∧ s.rt.cur.vmInput.gasProvided ≤ B

/-- the gas provided on record and the rules in force are the same, and bounds on the gas are kept -/
structure GasKept (s t : St χ A) : Prop where
  provided : t.met.cur.initialGasProvided = s.met.cur.initialGasProvided
  flags : t.flags = s.flags
  bound : ∀ B, GasBound B s → GasBound B t

theorem GasKept.refl (s : St χ A) : GasKept s s := ⟨rfl, rfl, fun _ h => h⟩
theorem GasKept.of_eq {s t : St χ A} (h1 : t.met.cur = s.met.cur) (h2 : t.rt.cur = s.rt.cur) (h3 : t.flags = s.flags) : GasKept s t :=
  ⟨by rw [h1], h3, fun B h => by unfold GasBound at *; rw [h1, h2]; exact h⟩

theorem getVMOutput_met (s : St χ A) : ∃ m, (getVMOutput E s).2.met.cur = { s.met.cur with gasUsedByAccounts := m } ∧
    (getVMOutput E s).2.rt = s.rt ∧ (getVMOutput E s).2.flags = s.flags := by
  rcases getVMOutput_cases (E := E) s with h | h <;> rw [h] <;> exact ⟨_, rfl, rfl, rfl⟩

theorem gasKept_finalize (s : St χ A) : GasKept s (getVMOutput E s).2 := by
  obtain ⟨m, h1, h2, h3⟩ := getVMOutput_met (E := E) s
  refine ⟨by rw [h1], h3, fun B h => ?_⟩
  unfold GasBound at *
  rw [h1, h2]; exact h

theorem gasLeft_le (s : St χ A) : s.gasLeft.toNat ≤ s.met.cur.gasForExecution.toNat := by
  unfold St.gasLeft
  split
  · simp
  · rename_i hx
    have hx := UInt64.not_lt.mp hx
    rw [UInt64.toNat_sub_of_le _ _ hx]
    omega

/-- the gas reported as remaining: what is left, or nothing -/
theorem getVMOutput_gas (s : St χ A) : (getVMOutput E s).1.gasRemaining = s.gasLeft ∨ (getVMOutput E s).1.gasRemaining = 0 := by
  rw [getVMOutput_run]
  split
  · exact .inr rfl
  · refine .inl ?_
    dsimp only
    rw [updateGasOnSuccess_state]
    show ((readyState s).out.getAcc s.rt.cur.scAddress).2.2.cur.gasRemaining = _
    unfold OutCtx.getAcc
    split <;> rfl

theorem cleanInstance_cur (s : St χ A) : s.cleanInstance.met = s.met ∧ s.cleanInstance.rt.cur = s.rt.cur ∧ s.cleanInstance.flags = s.flags := by
  unfold St.cleanInstance
  split
  · exact ⟨rfl, rfl, rfl⟩
  · split <;> exact ⟨rfl, rfl, rfl⟩

theorem gasKept_step {s t : St χ A} (h : StepB E Executor.halt s t) : GasKept s t := by
  cases h with
  | a _ h =>
    cases h with
    | rt c hc =>
      cases hc with
      | noGas => exact ⟨rfl, rfl, fun B h => ⟨h.1, UInt64.le_iff_toNat_le.mpr (by simp)⟩⟩
      | _ => exact ⟨rfl, rfl, fun B h => h⟩
    | deduct cost i _ hc =>
      refine ⟨rfl, rfl, fun B h => ⟨?_, h.2⟩⟩
      have h2 := h.2
      simp only [UInt64.le_iff_toNat_le, UInt64.toNat_sub_of_le _ _ hc] at h2 hc ⊢
      omega
    | dest _ i r he _ => exact (halt_dest he).elim
    | same _ i r he _ => exact (halt_same he).elim
    | undo _ i r a ci he => exact (halt_dest he).elim
    | _ => exact GasKept.of_eq rfl rfl rfl
  | deduct cost hc =>
    refine ⟨rfl, rfl, fun B h => ⟨?_, h.2⟩⟩
    have h2 := h.2
    simp only [UInt64.le_iff_toNat_le, UInt64.toNat_sub_of_le _ _ hc] at h2 hc ⊢
    omega
  | finalize => exact gasKept_finalize s
  | clean _ => obtain ⟨h1, h2, h3⟩ := cleanInstance_cur s; exact GasKept.of_eq (by rw [h1]) h2 h3
  | failed c new m g h1 h2 h3 => obtain ⟨k1, k2, k3⟩ := cleanInstance_cur (newInstance m g new s); exact GasKept.of_eq (by rw [k1]; rfl) k2 k3
  | args l => exact ⟨rfl, rfl, fun B h => h⟩
  | callFunction f => exact ⟨rfl, rfl, fun B h => h⟩
  | _ => exact GasKept.of_eq rfl rfl rfl

theorem gasKept_merge {s t : St χ A} (h1 : ∃ m, t.met.cur = { s.met.cur with gasUsedByAccounts := m }) (h2 : t.rt.cur = s.rt.cur)
    (h3 : t.flags = s.flags) : GasKept s t := by
  obtain ⟨m, h1⟩ := h1
  exact ⟨by rw [h1], h3, fun B h => by unfold GasBound at *; rw [h1, h2]; exact h⟩

theorem rtPopSet_met (s : St χ A) : s.rtPopSet.met = s.met := by
  have hi : ∀ s : St χ A, s.popInstance.met = s.met := by
    intro s; unfold St.popInstance
    split
    · rfl
    · dsimp only
      split
      · rfl
      · rename_i prev rest _ _
        exact (cleanInstance_cur { s with rt := { s.rt with instanceStack := rest } }).1
  unfold St.rtPopSet
  split
  · rfl
  · rename_i p rest _; exact hi { s with rt := { s.rt with cur := p, stack := rest } }

/-- leaving a call on the destination's context restores the caller's gas, up to what the accounts used -/
theorem finDest_met {j : CallInput} {s u v : St χ A} {e : Option Err} {info : Option AsyncContextInfo} {r : DestResult}
    (hF : Frame (enterDestState j s) u) (hf : finDest E e info u = (.ok r, v)) :
    (∃ m, v.met.cur = { s.met.cur with gasUsedByAccounts := m }) ∧ v.rt.cur = s.rt.cur ∧ v.flags = s.flags := by
  obtain ⟨hl, _, _⟩ := finDest_left e info j s u v r hF hf
  obtain ⟨r', hf'⟩ := finDest_state e info u v _ hf
  obtain ⟨h1, h2, _⟩ := finishDest_frame e j s u v r' hF hf'
  refine ⟨?_, h2, h1.flags⟩
  by_cases hc : r.output.returnCode = .ok
  · rw [(hl.ok hc).2]; exact ⟨_, rfl⟩
  · rw [(hl.failed hc).2]; exact ⟨_, rfl⟩

/-- the same for a call on the same context -/
theorem finishSame_met {i : CallInput} {s u v : St χ A} {e : Option Err} {r : Res Unit}
    (hF : Frame (enterSameState E i s) u) (hf : finishSame E e u = (r, v)) :
    (∃ m, v.met.cur = { s.met.cur with gasUsedByAccounts := m }) ∧ v.rt.cur = s.rt.cur ∧ v.flags = s.flags := by
  obtain ⟨h1, h2, _⟩ := finishSame_frame e i s u v _ hF hf
  refine ⟨?_, h2, h1.flags⟩
  have hmet : u.met.stack = s.met.cur :: s.met.stack := hF.met
  by_cases hc : u.out.cur.returnCode ≠ .ok ∨ e.isSome
  · rw [finishSame_fail e u hc] at hf
    simp only [Prod.mk.injEq] at hf
    rw [← hf.2]
    unfold popSameFail
    rw [(bcPopSet_rest (E := E) _).2.1, (rtPopSet_met _)]
    simp only [MeterCtx.popSet, hmet]
    exact ⟨_, rfl⟩
  · have h3 : u.out.cur.returnCode = .ok := Decidable.byContradiction fun h => hc (.inl h)
    obtain rfl : e = none := by
      cases e with
      | none => rfl
      | some e => exact absurd (.inr rfl) hc
    rw [finishSame_ok u h3] at hf
    obtain ⟨o, m, ho⟩ := getVMOutput_only (E := E) u
    obtain ⟨r', ins', hr, _, _⟩ := restoreGas_only (getVMOutput E u).1.gasRemaining (popSameOk (getVMOutput E u).2)
    rw [hr] at hf
    simp only [Prod.mk.injEq] at hf
    rw [← hf.2]
    have hmet' : (getVMOutput E u).2.met.stack = s.met.cur :: s.met.stack := by rw [ho]; exact hmet
    dsimp only
    unfold popSameOk
    rw [rtPopSet_met]
    simp only [St.bcPopDiscard, MeterCtx.popMerge, hmet']
    exact ⟨_, rfl⟩

theorem gasKept_binary : Binary E (GasKept (χ := χ) (A := A)) where
  refl := GasKept.refl
  delete s t a i _ _ _ h := ⟨h.provided, h.flags, h.bound⟩
  trans s t u h1 h2 := ⟨h2.provided.trans h1.provided, h2.flags.trans h1.flags, fun B h => h2.bound B (h1.bound B h)⟩
  step s t := gasKept_step
  stepH s t h := by
    cases h with
    | inst i x _ => exact GasKept.of_eq rfl rfl rfl
    | world i => exact GasKept.of_eq rfl rfl rfl
    | merge i b hb => exact GasKept.of_eq rfl rfl rfl
  bcPush s := GasKept.of_eq rfl rfl rfl
  bcPopSet s := by
    obtain ⟨_, h1, _, _, _, _, h2⟩ := bcPopSet_rest (E := E) s
    exact GasKept.of_eq (by rw [h1]) (by rw [bcPopSet_rt]) h2
  bcPopDiscard s := GasKept.of_eq rfl rfl rfl
  onError e s := GasKept.of_eq rfl rfl rfl
  dest j s u e info r v hF hu hf := by
    obtain ⟨h1, h2, h3⟩ := finDest_met hF hf
    exact gasKept_merge h1 h2 h3
  same i s u e v hF hu hf := by
    obtain ⟨h1, h2, h3⟩ := finishSame_met hF hf
    exact gasKept_merge h1 h2 h3

/-! ### What nested calls leave untouched -/

/-- the gas on record for the active execution is the same -/
structure MetKept (s t : St χ A) : Prop where
  provided : t.met.cur.initialGasProvided = s.met.cur.initialGasProvided
  cost : t.met.cur.initialCost = s.met.cur.initialCost
  forExecution : t.met.cur.gasForExecution = s.met.cur.gasForExecution

theorem MetKept.refl (s : St χ A) : MetKept s s := ⟨rfl, rfl, rfl⟩
theorem MetKept.trans {s t u : St χ A} (h1 : MetKept s t) (h2 : MetKept t u) : MetKept s u :=
  ⟨h2.1.trans h1.1, h2.2.trans h1.2, h2.3.trans h1.3⟩
theorem MetKept.of_eq {s t : St χ A} (h : ∃ m, t.met.cur = { s.met.cur with gasUsedByAccounts := m }) : MetKept s t := by
  obtain ⟨m, h⟩ := h
  exact ⟨by rw [h], by rw [h], by rw [h]⟩

/-- the steps of built-in functions -/
theorem stepH_met {s t : St χ A} (h : Run (StepH E) s t) : t.met = s.met :=
  h.rel (R := fun s t => t.met = s.met) (fun _ => rfl) (fun _ _ _ h1 h2 => h2.trans h1) (fun s t h => by cases h <;> rfl)

/-- Nested calls of any depth leave the caller's record as it was. -/
theorem metKept_execN (n : Nat) : RelEx (execN E n) (MetKept (χ := χ) (A := A)) := by
  cases n with
  | zero => exact ⟨by simp [execN, M.oof], by simp [execN, M.oof]⟩
  | succ n =>
    have hF := frameEx_execN E n
    refine ⟨fun i s r t h => ?_, fun i s r t h => ?_⟩
    · rcases execDest_any i s t _ h with ⟨a, _, h⟩ | ⟨h, _⟩ | ⟨h, _⟩
      · cases h with
        | failed u e hr _ =>
          refine .of_eq ⟨s.met.cur.gasUsedByAccounts, ?_⟩
          show (St.bcPopSet E u).met.cur = _
          rw [(bcPopSet_rest (E := E) u).2.1, stepH_met hr]; rfl
        | builtin u o hr _ =>
          refine .of_eq ⟨s.met.cur.gasUsedByAccounts, ?_⟩
          show u.met.cur = _
          rw [stepH_met hr]; rfl
        | called u w v j info e r hr hj hb hf =>
          have h1 := (sim_bodyDest (E := E) hF.keeps _ _ (fresh_enterDest j u)).ok hb
          have h2 := (finDest_met (h1.frame hF).1 hf).1
          rw [stepH_met hr] at h2
          refine .of_eq ?_
          split
          · rw [(bcPopSet_rest (E := E) v).2.1]; exact h2
          · exact h2
      · simp at h
      · simp at h
    · rcases execSame_any i s t _ h with ⟨_, h, _⟩ | ⟨_, ⟨e, u, h1, h2⟩ | ⟨h, _⟩ | ⟨h, _⟩⟩
      · rw [h]; exact .refl s
      · have h3 := (sim_bodySame (E := E) hF.keeps _ _ (fresh_enterSame i s)).ok h1
        rcases h2 with ⟨_, h2⟩ | ⟨h2, _⟩
        · exact .of_eq (finishSame_met (h3.frame hF).1 h2).1
        · simp at h2
      · simp at h
      · simp at h

/-- the steps of a contract that deploys nothing, with any nested calls -/
theorem metKept_run {back : Bool} (hn : NoCreateApi E) {n : Nat} {s t : St χ A} (h : Run (StepX E (execN E n) back) s t) : MetKept s t :=
  h.rel MetKept.refl (fun _ _ _ => MetKept.trans) (fun s t h => by
    cases h with
    | dest t i r h _ => exact (metKept_execN n).dest _ _ _ _ h
    | same t i r h _ => exact (metKept_execN n).same _ _ _ _ h
    | undo t i r a ci h =>
      have := (metKept_execN n).dest _ _ _ _ h
      exact ⟨this.provided, this.cost, this.forExecution⟩
    | deduct cost i h _ => exact absurd h (hn i)
    | _ => exact ⟨rfl, rfl, rfl⟩)

theorem stepI_met {s t : St χ A} (h : Run (StepI E) s t) : t.met = s.met :=
  h.rel (R := fun s t => t.met = s.met) (fun _ => rfl) (fun _ _ _ h1 h2 => h2.trans h1) (fun s t h => by
    cases h with
    | failed c new m g h1 h2 h3 => exact (cleanInstance_cur (newInstance m g new s)).1
    | _ => rfl)

end Arwen
