import Verif.Host.Compare
/-
Invariants of the whole host: kept by every contract, at every depth, if kept by the small steps, by entering and by leaving a
call.
-/
namespace Arwen
variable {χ A : Type}

/-- A step of a contract that is not a nested call. -/
theorem StepA.split {E : Env χ A} {ex : Executor χ A} {s t : St χ A} (h : StepA E ex s t) :
    StepA E Executor.halt s t ∨ (∃ i r, ex.dest i s = (.ok r, t) ∧ t.rt.instance_ = s.rt.instance_) ∨
    (∃ i r, ex.same i s = (.ok r, t) ∧ t.rt.instance_ = s.rt.instance_) ∨
    (∃ i r u a ci, ex.dest i s = (.ok r, u) ∧ ApiRuns E (.createContract ci) ∧ NewAt E s a ∧ u.rt.cur.readOnly = false ∧
      t = { u with out := u.out.deleteAcc a }) := by
  cases h with
  | dest _ i r h h' => exact .inr (.inl ⟨i, r, h, h'⟩)
  | same _ i r h h' => exact .inr (.inr (.inl ⟨i, r, h, h'⟩))
  | undo u i r a ci h _ h1 h2 h3 => exact .inr (.inr (.inr ⟨i, r, u, a, ci, h, h1, h2, h3, rfl⟩))
  | inst i x h h' => exact .inl (.inst _ i x h h')
  | out o h => exact .inl (.out _ o h)
  | fail i rc m b h h' => exact .inl (.fail _ i rc m b h h')
  | failNone rc m h h' => exact .inl (.failNone _ rc m h h')
  | deploy d i h1 h2 h3 h4 => exact .inl (.deploy _ d i h1 h2 h3 h4)
  | big b h => exact .inl (.big _ b h)
  | rt c h => exact .inl (.rt _ c h)
  | verify b => exact .inl (.verify _ b)
  | protect => exact .inl (.protect _)
  | world w h => exact .inl (.world _ w h)
  | deduct c i hc h => exact .inl (.deduct _ c i hc h)

theorem StepB.split {E : Env χ A} {ex : Executor χ A} {s t : St χ A} (h : StepB E ex s t) :
    StepB E Executor.halt s t ∨ (∃ i r, ex.dest i s = (.ok r, t) ∧ t.rt.instance_ = s.rt.instance_) ∨
    (∃ i r, ex.same i s = (.ok r, t) ∧ t.rt.instance_ = s.rt.instance_) ∨
    (∃ i r u a ci, ex.dest i s = (.ok r, u) ∧ ApiRuns E (.createContract ci) ∧ NewAt E s a ∧ u.rt.cur.readOnly = false ∧
      t = { u with out := u.out.deleteAcc a }) := by
  cases h with
  | a _ h =>
    rcases h.split with h | h
    · exact .inl (.a _ _ h)
    · exact .inr h
  | codeSize n => exact .inl (.codeSize _ n)
  | deduct c h => exact .inl (.deduct _ c h)
  | instNone h => exact .inl (.instNone _ h)
  | newInst c new m g h h' h'' => exact .inl (.newInst _ c new m g h h' h'')
  | warmStart i g h1 h2 h3 h4 => exact .inl (.warmStart _ i g h1 h2 h3 h4)
  | setWarm h => exact .inl (.setWarm _ h)
  | clean h => exact .inl (.clean _ h)
  | failed c new m g h1 h2 h3 => exact .inl (.failed _ c new m g h1 h2 h3)
  | saveCompiled c new h cc h1 h2 => exact .inl (.saveCompiled _ c new h cc h1 h2)
  | args l => exact .inl (.args _ l)
  | callFunction f => exact .inl (.callFunction _ f)
  | outOfGas => exact .inl (.outOfGas _)
  | deploy d h h' => exact .inl (.deploy _ d h h')
  | finalize => exact .inl (.finalize _)

/-- A property of states kept by all operations of the host. -/
structure Unary (E : Env χ A) (I : St χ A → Prop) : Prop where
  step : ∀ s t, StepB E Executor.halt s t → I s → I t
  stepH : ∀ s t, StepH E s t → I s → I t
  push : ∀ s, I s → I (St.bcPush E s)
  bcPopSet : ∀ s, I s → I (St.bcPopSet E s)
  bcPopDiscard : ∀ s, I s → I (St.bcPopDiscard s)
  onError : ∀ e s, I s → I (outputOnError E e s).2
  enterDest : ∀ i s, I s → I (enterDestState i s)
  enterSame : ∀ i s, I s → I (enterSameState E i s)
  popDest : ∀ b s, I s → I (popDest b s)
  popSameFail : ∀ s, I s → I (popSameFail E s)
  popSameOk : ∀ s, I s → I (popSameOk s)
  restore : ∀ g s, I s → I (restoreGas g s).2
  /-- a contract that was new in state `s` is removed -/
  delete : ∀ (s t : St χ A) a i, ApiRuns E (.createContract i) → NewAt E s a → t.rt.cur.readOnly = false → I s → I t →
    I { t with out := t.out.deleteAcc a }

/-- deployments and upgrades that are the transaction itself keep a property -/
def TopOk (E : Env χ A) (I : St χ A → Prop) : Prop := ∀ s d, Vetted E d.code → I s → I { s with out := s.out.deployCode d }

/-- nested calls keep a property, also when they panic -/
structure KeepsEx (ex : Executor χ A) (I : St χ A → Prop) : Prop where
  dest : ∀ i s r t, ex.dest i s = (r, t) → r ≠ .oof → I s → I t
  same : ∀ i s r t, ex.same i s = (r, t) → r ≠ .oof → I s → I t

section
variable {E : Env χ A} {ex : Executor χ A} {I : St χ A → Prop}

theorem Unary.stepEx (hU : Unary E I) (hk : KeepsEx ex I) (s t : St χ A) (h : StepB E ex s t) (hI : I s) : I t := by
  rcases h.split with h | ⟨i, r, h, _⟩ | ⟨i, r, h, _⟩ | ⟨i, r, u, a, ci, hd, h1, h2, h3, rfl⟩
  · exact hU.step s t h hI
  · exact hk.dest i s _ t h (by simp) hI
  · exact hk.same i s _ t h (by simp) hI
  · exact hU.delete s u a ci h1 h2 h3 hI (hk.dest i s _ u hd (by simp) hI)

theorem Unary.stepT (hU : Unary E I) (ht : TopOk E I) (hk : KeepsEx ex I) (s t : St χ A) (h : StepT E ex s t) (hI : I s) : I t := by
  cases h with
  | b _ h => exact hU.stepEx hk _ _ h hI
  | top d h => exact ht s d h hI

theorem KeepsEx.bad (hk : KeepsEx ex I) {s t : St χ A} (hb : NestedBad ex .panic s t) (hI : I s) : I t := by
  rcases hb with ⟨i, hb⟩ | ⟨i, hb⟩
  · split at hb
    · simp at hb
    · rename_i u he; simp only [Prod.mk.injEq] at hb; rw [← hb.2]; exact hk.dest i s _ u he (by simp) hI
    · simp at hb
  · split at hb
    · simp at hb
    · rename_i u he; simp only [Prod.mk.injEq] at hb; rw [← hb.2]; exact hk.same i s _ u he (by simp) hI
    · simp at hb

theorem Unary.simAtT (hU : Unary E I) (ht : TopOk E I) (hk : KeepsEx ex I) {α : Type} {m : M χ A α} {s t : St χ A} {r : Res α}
    (h : SimAt ex (StepT E ex) m s) (he : m s = (r, t)) (hr : r ≠ .oof) (hI : I s) : I t := by
  unfold SimAt at h
  rw [he] at h
  cases r with
  | ok a => exact h.inv (hU.stepT ht hk) hI
  | panic =>
    obtain ⟨t0, h1, h2⟩ := h
    have h3 := h1.inv (hU.stepT ht hk) hI
    rcases h2 with rfl | h2
    · exact h3
    · exact hk.bad h2 h3
  | oof => exact absurd rfl hr

theorem Unary.simAt (hU : Unary E I) (hk : KeepsEx ex I) {α : Type} {m : M χ A α} {s t : St χ A} {r : Res α}
    (h : SimAt ex (StepB E ex) m s) (he : m s = (r, t)) (hr : r ≠ .oof) (hI : I s) : I t := by
  unfold SimAt at h
  rw [he] at h
  cases r with
  | ok a => exact h.inv (hU.stepEx hk) hI
  | panic =>
    obtain ⟨t0, h1, h2⟩ := h
    have h3 := h1.inv (hU.stepEx hk) hI
    rcases h2 with rfl | h2
    · exact h3
    · exact hk.bad h2 h3
  | oof => exact absurd rfl hr

theorem Unary.destOutput (hU : Unary E I) (e : Option Err) (s : St χ A) (hI : I s) : I (destOutput E e s).2 := by
  cases e with
  | some e => exact hU.onError e s hI
  | none => exact hU.step _ _ (.finalize s) hI

theorem Unary.finishDest (hU : Unary E I) (e : Option Err) (s : St χ A) (hI : I s) : I (finishDest E e s).2 := by
  rw [finishDest_run]
  have h1 := hU.popDest (decide ((Arwen.destOutput E e s).1.returnCode = .ok)) _ (hU.destOutput e s hI)
  generalize Arwen.popDest (decide ((Arwen.destOutput E e s).1.returnCode = .ok)) (Arwen.destOutput E e s).2 = w at h1 ⊢
  have h2 := hU.restore (Arwen.destOutput E e s).1.gasRemaining w h1
  simp only [M.bind_eq, M.bind]
  generalize restoreGas (Arwen.destOutput E e s).1.gasRemaining w = q at h2 ⊢
  obtain ⟨r, t⟩ := q
  cases r <;> exact h2

theorem Unary.finDest (hU : Unary E I) (e : Option Err) (info : Option AsyncContextInfo) (s t : St χ A) (r : Res DestResult)
    (h : finDest E e info s = (r, t)) (hI : I s) : I t := by
  obtain ⟨r', h'⟩ := finDest_state e info s t r h
  have := hU.finishDest e s hI
  rw [h'] at this
  exact this

theorem Unary.finishSame (hU : Unary E I) (e : Option Err) (s : St χ A) (hI : I s) : I (finishSame E e s).2 := by
  by_cases hc : s.out.cur.returnCode ≠ .ok ∨ e.isSome
  · rw [finishSame_fail e s hc]; exact hU.popSameFail s hI
  · have h1 : s.out.cur.returnCode = .ok := by
      by_cases h : s.out.cur.returnCode = .ok
      · exact h
      · exact absurd (.inl h) hc
    have h2 : e = none := by
      cases e with
      | none => rfl
      | some e => exact absurd (.inr rfl) hc
    subst h2
    rw [finishSame_ok s h1]
    exact hU.restore _ _ (hU.popSameOk _ (hU.step _ _ (.finalize s) hI))

/-- All operations keep the property, so nested calls of any depth do. -/
theorem Unary.keeps (hU : Unary E I) : ∀ n, KeepsEx (execN E n) I
  | 0 => ⟨fun i s r t h hr _ => by simp only [execN, M.oof, Prod.mk.injEq] at h; exact absurd h.1.symm hr,
      fun i s r t h hr _ => by simp only [execN, M.oof, Prod.mk.injEq] at h; exact absurd h.1.symm hr⟩
  | n + 1 => by
    have hk := Unary.keeps hU n
    have hki := keepsInst_execN E n
    have runH : ∀ {s t : St χ A}, Run (StepH E) (St.bcPush E s) t → I s → I t :=
      fun {s t} h hI => h.inv hU.stepH (hU.push s hI)
    refine ⟨fun i s r t h hr hI => ?_, fun i s r t h hr hI => ?_⟩
    · rcases execDest_any i s t _ h with ⟨a, _, h⟩ | ⟨_, h⟩ | ⟨h, _⟩
      · cases h with
        | failed u e hr _ => exact hU.onError e _ (hU.bcPopSet _ (runH hr hI))
        | builtin u o hr _ => exact hU.bcPopDiscard _ (runH hr hI)
        | called u w v j info e r hr hj hb hf =>
          have h1 := hU.simAt hk (sim_bodyDest hki _ _ (fresh_enterDest _ _)) hb (by simp) (hU.enterDest j u (runH hr hI))
          have h2 := hU.finDest e info w v _ hf h1
          split
          · exact hU.bcPopSet _ h2
          · exact hU.bcPopDiscard _ h2
      · cases h with
        | builtin _ hr => exact runH hr hI
        | body u w _ j hr hb hv =>
          have h1 := hU.simAt hk (sim_bodyDest hki _ _ (fresh_enterDest _ _)) hb (by simp) (hU.enterDest j u (runH hr hI))
          rw [← hv]
          exact hU.finishDest none w h1
        | finish u w _ j info e hr hb hf =>
          have h1 := hU.simAt hk (sim_bodyDest hki _ _ (fresh_enterDest _ _)) hb (by simp) (hU.enterDest j u (runH hr hI))
          exact hU.finDest e info w _ _ hf h1
      · exact absurd h hr
    · rcases execSame_any i s t _ h with ⟨_, h, _⟩ | ⟨_, ⟨e, u, h1, h2⟩ | ⟨_, u, h1, h2⟩ | ⟨h, _⟩⟩
      · rw [h]; exact hI
      · have h3 := hU.simAt hk (sim_bodySame hki _ _ (fresh_enterSame _ _)) h1 (by simp) (hU.enterSame i s hI)
        have h4 := hU.finishSame e u h3
        rcases h2 with ⟨_, h2⟩ | ⟨_, h2⟩ <;> · rw [h2] at h4; exact h4
      · have h3 := hU.simAt hk (sim_bodySame hki _ _ (fresh_enterSame _ _)) h1 (by simp) (hU.enterSame i s hI)
        rw [← h2]
        exact hU.finishSame none u h3
      · exact absurd h hr

/-- such a property holds at every call of an API function -/
theorem Unary.invariant (hU : Unary E I) : Invariant E I :=
  ⟨fun n => hU.stepEx (hU.keeps n), hU.stepH, hU.push, hU.enterDest, hU.enterSame⟩

/-- the end of the body of a transaction -/
theorem Unary.txBody (hU : Unary E I) (ht : TopOk E I) (n : Nat) (tx : Tx) {s t : St χ A} {r : Res VMOutput} (hr : AtRest E s)
    (h : txBody E (execN E n) tx (hostInit E s) = (r, t)) (hn : r ≠ .oof) (hI : I (txStart E tx s)) : I t := by
  obtain ⟨m, h1, h2⟩ := sim_txBody (E := E) (frameEx_execN E n) tx hr
  rw [h1] at h
  exact hU.simAtT ht (hU.keeps n) h2 h hn hI

end
end Arwen
