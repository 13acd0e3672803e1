import Verif.Host.TxOut
/-
Invariants of the active output and of all saved outputs.
-/
namespace Arwen
variable {χ A : Type} {E : Env χ A}

/-- A property `P` of outputs kept by every change, as long as `J` holds. -/
structure OutInv (E : Env χ A) (J : St χ A → Prop) (P : VMOutput → Prop) : Prop where
  unary : Unary E J
  step : ∀ s t, J s → StepB E Executor.halt s t → P s.out.cur → P t.out.cur
  builtin : ∀ s i b, J s → BuiltinFrom E s.world i b → P s.out.cur → P (addToActive s.out.cur b).1
  delete : ∀ (s : St χ A) (c : OutCtx) a i, J s → ApiRuns E (.createContract i) → NewAt E s a → P c.cur → P (c.deleteAcc a).cur
  fail : ∀ s : St χ A, P s.out.cur → P (updateGasOnFailure s).out.cur
  censored : ∀ o : VMOutput, P o → P o.censored
  nested : ∀ p c, P p → P c → P (mergeOut p c)

/-- the property of states: of the active output and of all saved ones -/
def OutAll (J : St χ A → Prop) (P : VMOutput → Prop) (s : St χ A) : Prop := J s ∧ P s.out.cur ∧ ∀ o ∈ s.out.stack, P o

theorem rtPopSet_keeps (s : St χ A) : s.rtPopSet.out = s.out ∧ s.rtPopSet.sto = s.sto ∧ s.rtPopSet.world = s.world := by
  have hc : ∀ s : St χ A, s.cleanInstance.out = s.out ∧ s.cleanInstance.sto = s.sto ∧ s.cleanInstance.world = s.world := by
    intro s; unfold St.cleanInstance
    split
    · exact ⟨rfl, rfl, rfl⟩
    · split <;> exact ⟨rfl, rfl, rfl⟩
  have hi : ∀ s : St χ A, s.popInstance.out = s.out ∧ s.popInstance.sto = s.sto ∧ s.popInstance.world = s.world := by
    intro s; unfold St.popInstance
    split
    · exact ⟨rfl, rfl, rfl⟩
    · dsimp only
      split
      · exact ⟨rfl, rfl, rfl⟩
      · rename_i prev rest _ _
        exact hc { s with rt := { s.rt with instanceStack := rest } }
  unfold St.rtPopSet
  split
  · exact ⟨rfl, rfl, rfl⟩
  · rename_i p rest _; exact hi { s with rt := { s.rt with cur := p, stack := rest } }

theorem OutInv.all {J : St χ A → Prop} {P : VMOutput → Prop} (h : OutInv E J P) : Unary E (OutAll J P) where
  step s t hs hI := by
    obtain ⟨hJ, hP, hS⟩ := hI
    refine ⟨h.unary.step s t hs hJ, h.step s t hJ hs hP, ?_⟩
    rw [(hs.frame (ex := Executor.halt) frameEx_halt).1.out]
    exact hS
  stepH s t hs hI := by
    obtain ⟨hJ, hP, hS⟩ := hI
    refine ⟨h.unary.stepH s t hs hJ, ?_, ?_⟩
    · cases hs with
      | inst i g _ => exact hP
      | world i => exact hP
      | merge i b hb => exact h.builtin s i b hJ hb hP
    · cases hs <;> exact hS
  delete s t a i hc hn hr hs ht := ⟨h.unary.delete s t a i hc hn hr hs.1 ht.1, h.delete s t.out a i hs.1 hc hn ht.2.1, ht.2.2⟩
  push s hI := ⟨h.unary.push s hI.1, hI.2⟩
  bcPopSet s hI := by
    refine ⟨h.unary.bcPopSet s hI.1, ?_⟩
    rw [(bcPopSet_rest (E := E) s).1]
    exact hI.2
  bcPopDiscard s hI := ⟨h.unary.bcPopDiscard s hI.1, hI.2⟩
  onError e s hI := ⟨h.unary.onError e s hI.1, h.fail s hI.2.1, hI.2.2⟩
  enterDest i s hI := by
    refine ⟨h.unary.enterDest i s hI.1, h.censored _ hI.2.1, fun o ho => ?_⟩
    have e : (enterDestState i s).out.stack = mergeOut {} s.out.cur :: s.out.stack := rfl
    rw [e, mergeOut_empty] at ho
    rcases List.mem_cons.mp ho with rfl | ho
    · exact hI.2.1
    · exact hI.2.2 o ho
  enterSame i s hI := by
    refine ⟨h.unary.enterSame i s hI.1, hI.2.1, fun o ho => ?_⟩
    have e : (enterSameState E i s).out.stack = mergeOut {} s.out.cur :: s.out.stack := rfl
    rw [e, mergeOut_empty] at ho
    rcases List.mem_cons.mp ho with rfl | ho
    · exact hI.2.1
    · exact hI.2.2 o ho
  popDest b s hI := by
    refine ⟨h.unary.popDest b s hI.1, ?_⟩
    obtain ⟨_, hP, hS⟩ := hI
    unfold popDest
    dsimp only
    rw [(rtPopSet_keeps _).1]
    cases hst : s.out.stack with
    | nil => cases b <;> simp only [Bool.false_eq_true, if_false, if_true, OutCtx.popMerge, OutCtx.popSet, hst] <;>
        exact ⟨hP, by rw [← hst]; exact hS⟩
    | cons p rest =>
      have h1 : P p := hS p (by rw [hst]; exact List.mem_cons_self ..)
      have h2 : ∀ o ∈ rest, P o := fun o ho => hS o (by rw [hst]; exact List.mem_cons_of_mem _ ho)
      cases b
      · simp only [Bool.false_eq_true, if_false, OutCtx.popSet, hst]; exact ⟨h1, h2⟩
      · simp only [if_true, OutCtx.popMerge, hst, mergeOut_empty]; exact ⟨h.nested _ _ h1 hP, h2⟩
  popSameFail s hI := by
    refine ⟨h.unary.popSameFail s hI.1, ?_⟩
    obtain ⟨_, hP, hS⟩ := hI
    unfold popSameFail
    rw [(bcPopSet_rest (E := E) _).1, (rtPopSet_keeps _).1]
    dsimp only
    cases hst : s.out.stack with
    | nil => simp only [OutCtx.popSet, hst]; exact ⟨hP, by rw [← hst]; exact hS⟩
    | cons p rest =>
      simp only [OutCtx.popSet, hst]
      exact ⟨hS p (by rw [hst]; exact List.mem_cons_self ..), fun o ho => hS o (by rw [hst]; exact List.mem_cons_of_mem _ ho)⟩
  popSameOk s hI := by
    refine ⟨h.unary.popSameOk s hI.1, ?_⟩
    obtain ⟨_, hP, hS⟩ := hI
    unfold popSameOk
    rw [(rtPopSet_keeps _).1]
    exact ⟨hP, fun o ho => hS o (List.mem_of_mem_tail ho)⟩
  restore g s hI := by
    obtain ⟨r, ins, hr, _, _⟩ := restoreGas_only g s
    have h1 := h.unary.restore g s hI.1
    refine ⟨h1, ?_⟩
    rw [hr]
    exact hI.2

/-- The output of a transaction is an error output, or has the property. -/
theorem OutInv.tx {J : St χ A → Prop} {P : VMOutput → Prop} (h : OutInv E J P) (hJ : TopOk E J)
    (hP : ∀ (s : St χ A) d, J s → Vetted E d.code → P s.out.cur → P (s.out.deployCode d).cur) (n : Nat) (tx : Tx) {s : St χ A} {o : VMOutput}
    (hr : AtRest E s) (hI : OutAll J P (txStart E tx s)) (ho : (runTx E n tx s).1 = some (some o)) :
    (∃ e w, o = (outputOnError E e w).1) ∨ P o := by
  obtain ⟨u, t, h1, h2⟩ := runTx_ending n tx hr ho
  rcases h2.cases with h2 | ⟨h2, _, _, _⟩
  · exact .inl h2
  · refine .inr ?_
    have h3 := h1.inv (h.all.stepT (fun s d hv hI => ⟨hJ s d hv hI.1, hP s d hI.1 hv hI.2.1, hI.2.2⟩) (h.all.keeps n)) hI
    rw [h2]
    exact h.step u _ h3.1 (.finalize u) h3.2.1

/-- The same for a call that is not an upgrade. -/
theorem OutInv.txCall {J : St χ A → Prop} {P : VMOutput → Prop} (h : OutInv E J P) (n : Nat) (i : CallInput)
    (hf : i.function ≠ upgradeName) {s : St χ A} {o : VMOutput}
    (hr : AtRest E s) (hI : OutAll J P (txStart E (.call i) s)) (ho : (runTx E n (.call i) s).1 = some (some o)) :
    (∃ e w, o = (outputOnError E e w).1) ∨ P o := by
  obtain ⟨u, t, h1, h2⟩ := runTx_ending_call n i hf hr ho
  rcases h2.cases with h2 | ⟨h2, _, _, _⟩
  · exact .inl h2
  · refine .inr ?_
    have h3 := h1.inv (h.all.stepEx (h.all.keeps n)) hI
    rw [h2]
    exact h.step u _ h3.1 (.finalize u) h3.2.1

end Arwen
