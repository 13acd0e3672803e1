import Verif.Host.Limit
/-
Relations between the state before and the state after: kept by nested calls of any depth if kept by the small steps and by
leaving a call. The instance used most is a relation between the active outputs.
-/
namespace Arwen
variable {χ A : Type} {E : Env χ A} {ex : Executor χ A}

/-- A relation between earlier and later states, established by every operation of the host. -/
structure Binary (E : Env χ A) (T : St χ A → St χ A → Prop) : Prop where
  refl : ∀ s, T s s
  trans : ∀ s t u, T s t → T t u → T s u
  step : ∀ s t, StepB E Executor.halt s t → T s t
  stepH : ∀ s t, StepH E s t → T s t
  bcPush : ∀ s, T s (St.bcPush E s)
  bcPopSet : ∀ s, T s (St.bcPopSet E s)
  bcPopDiscard : ∀ s, T s (St.bcPopDiscard s)
  onError : ∀ e s, T s (outputOnError E e s).2
  dest : ∀ j s u e info r v, Frame (enterDestState j s) u → T (enterDestState j s) u →
    finDest E e info u = (.ok r, v) → T s v
  same : ∀ i s u e v, Frame (enterSameState E i s) u → T (enterSameState E i s) u → finishSame E e u = (.ok (), v) → T s v
  /-- a contract that was new in state `s` is removed -/
  delete : ∀ (s t : St χ A) a i, ApiRuns E (.createContract i) → NewAt E s a → t.rt.cur.readOnly = false → T s t →
    T s { t with out := t.out.deleteAcc a }

/-- nested calls that return establish a relation -/
structure RelEx (ex : Executor χ A) (T : St χ A → St χ A → Prop) : Prop where
  dest : ∀ i s r t, ex.dest i s = (.ok r, t) → T s t
  same : ∀ i s r t, ex.same i s = (.ok r, t) → T s t

theorem Binary.stepEx {T : St χ A → St χ A → Prop} (hT : Binary E T) (hx : RelEx ex T) (s t : St χ A) (h : StepB E ex s t) : T s t := by
  rcases h.split with h | ⟨i, r, h, _⟩ | ⟨i, r, h, _⟩ | ⟨i, r, u, a, ci, hd, h1, h2, h3, rfl⟩
  · exact hT.step s t h
  · exact hx.dest i s r t h
  · exact hx.same i s r t h
  · exact hT.delete s u a ci h1 h2 h3 (hx.dest i s r u hd)

theorem Binary.run {T : St χ A → St χ A → Prop} (hT : Binary E T) (hx : RelEx ex T) {s t : St χ A} (h : Run (StepB E ex) s t) : T s t :=
  h.rel hT.refl (fun s t u => hT.trans s t u) (hT.stepEx hx)

theorem Binary.runH {T : St χ A → St χ A → Prop} (hT : Binary E T) {s t : St χ A} (h : Run (StepH E) s t) : T s t :=
  h.rel hT.refl (fun s t u => hT.trans s t u) hT.stepH

/-- Nested calls of any depth. -/
theorem Binary.nested {T : St χ A → St χ A → Prop} (hT : Binary E T) : ∀ n, RelEx (execN E n) T
  | 0 => ⟨by simp [execN, M.oof], by simp [execN, M.oof]⟩
  | n + 1 => by
    have hx := Binary.nested hT n
    have hF := frameEx_execN E n
    refine ⟨fun i s r t h => ?_, fun i s r t h => ?_⟩
    · rcases execDest_any i s t _ h with ⟨a, _, h⟩ | ⟨h, _⟩ | ⟨h, _⟩
      · cases h with
        | failed u e hr _ =>
          exact hT.trans _ _ _ (hT.bcPush s) (hT.trans _ _ _ (hT.runH hr) (hT.trans _ _ _ (hT.bcPopSet u) (hT.onError e _)))
        | builtin u o hr _ => exact hT.trans _ _ _ (hT.bcPush s) (hT.trans _ _ _ (hT.runH hr) (hT.bcPopDiscard u))
        | called u w v j info e r hr hj hb hf =>
          have h1 := (sim_bodyDest (E := E) hF.keeps _ _ (fresh_enterDest j u)).ok hb
          have h2 := hT.dest j u w e info a v (h1.frame hF).1 (hT.run hx h1) hf
          have h3 := hT.trans _ _ _ (hT.bcPush s) (hT.trans _ _ _ (hT.runH hr) h2)
          split
          · exact hT.trans _ _ _ h3 (hT.bcPopSet v)
          · exact hT.trans _ _ _ h3 (hT.bcPopDiscard v)
      · simp at h
      · simp at h
    · rcases execSame_any i s t _ h with ⟨_, h, _⟩ | ⟨_, ⟨e, u, h1, h2⟩ | ⟨h, _⟩ | ⟨h, _⟩⟩
      · rw [h]; exact hT.refl s
      · have h3 := (sim_bodySame (E := E) hF.keeps _ _ (fresh_enterSame i s)).ok h1
        rcases h2 with ⟨_, h2⟩ | ⟨h2, _⟩
        · exact hT.same i s u e t (h3.frame hF).1 (hT.run hx h3) h2
        · simp at h2
      · simp at h
      · simp at h

theorem Binary.runN {T : St χ A → St χ A → Prop} (hT : Binary E T) {n : Nat} {s t : St χ A} (h : Run (StepB E (execN E n)) s t) : T s t :=
  hT.run (hT.nested n) h

/-- the steps of a transaction, for a relation that deployments and upgrades by the transaction itself establish -/
theorem Binary.runT {T : St χ A → St χ A → Prop} (hT : Binary E T)
    (htop : ∀ s d, Vetted E d.code → T s { s with out := s.out.deployCode d }) {n : Nat} {s t : St χ A}
    (h : Run (StepT E (execN E n)) s t) : T s t :=
  h.rel hT.refl (fun s t u => hT.trans s t u) (fun s t h => by
    cases h with
    | b _ h => exact hT.stepEx (hT.nested n) _ _ h
    | top d hv => exact htop s d hv)

/-! ### Changes of the active output -/

/-- All changes of the active output other than by built-in functions, by failed deployments and by entering and leaving nested
calls. -/
inductive OutMove (E : Env χ A) (s : St χ A) : VMOutput → Prop
  | step (o : VMOutput) : OutStep E s o → OutMove E s o
  | code (rc : ReturnCode) : OutMove E s { s.out.cur with returnCode := rc }
  | deploy (d : CodeDeployInput) (h : MayDeploy E s d) : OutMove E s (s.out.deployCode d).cur
  | strip : OutMove E s s.out.removeNonUpdatedCode.cur
  | left (g : UInt64) : OutMove E s { s.out.cur with gasRemaining := g }
  | used : OutMove E s (setGasUsed s).2.out.cur
  | failUsed : OutMove E s (updateGasOnFailure s).out.cur

/-- what a called contract sees of the output so far -/
def VMOutput.censored (c : VMOutput) : VMOutput :=
  { c with returnData := [], returnCode := .ok, returnMessage := [], gasRemaining := 0, gasRefund := 0, logs := [] }
theorem enterDest_out (i : CallInput) (s : St χ A) : (enterDestState i s).out.cur = s.out.cur.censored := rfl
theorem enterSame_out (i : CallInput) (s : St χ A) : (enterSameState E i s).out.cur = s.out.cur := rfl

/-- the state whose gas `GetVMOutput` checks -/
def readyState (s : St χ A) : St χ A :=
  let s1 : St χ A := { s with out := s.out.removeNonUpdatedCode }
  { s1 with out := { s1.out with cur := { s1.out.cur with gasRemaining := s1.gasLeft } } }

theorem getVMOutput_run (s : St χ A) : getVMOutput E s =
    match (updateGasOnSuccess (readyState s)).1 with
    | some e => outputOnError E e (updateGasOnSuccess (readyState s)).2
    | none => ((updateGasOnSuccess (readyState s)).2.out.cur, (updateGasOnSuccess (readyState s)).2) := rfl

theorem updateGasOnSuccess_run (s : St χ A) : updateGasOnSuccess s =
    match (setGasUsed (updateSCGasUsed s)).1 with
    | some e => (some e, (setGasUsed (updateSCGasUsed s)).2)
    | none => (checkGas (setGasUsed (updateSCGasUsed s)).2, (setGasUsed (updateSCGasUsed s)).2) := rfl

theorem updateGasOnSuccess_state (s : St χ A) : (updateGasOnSuccess s).2 = (setGasUsed (updateSCGasUsed s)).2 := by
  rw [updateGasOnSuccess_run]; split <;> rfl

theorem getVMOutput_cases (s : St χ A) : (getVMOutput E s).2 = (setGasUsed (updateSCGasUsed (readyState s))).2 ∨
    (getVMOutput E s).2 = updateGasOnFailure (setGasUsed (updateSCGasUsed (readyState s))).2 := by
  rw [getVMOutput_run, updateGasOnSuccess_state]
  split
  · exact .inr rfl
  · exact .inl rfl

/-- A relation between outputs that every change establishes, as long as `J` holds. -/
structure OutRel (E : Env χ A) (J : St χ A → Prop) (Q : VMOutput → VMOutput → Prop) : Prop where
  unary : Unary E J
  blind : ∀ s o m, J s → o.codeUpdates = s.out.codeUpdates → J { s with out := o, met := m }
  refl : ∀ o, Q o o
  trans : ∀ a b c, Q a b → Q b c → Q a c
  move : ∀ s o, J s → OutMove E s o → Q s.out.cur o
  delete : ∀ (s : St χ A) (c : OutCtx) a i, J s → ApiRuns E (.createContract i) → NewAt E s a → Q c.cur (c.deleteAcc a).cur
  builtin : ∀ s c i b, J s → BuiltinFrom E s.world i b → Q c (addToActive c b).1
  nested : ∀ c o, Q c.censored o → Q c (mergeOut c o)

section
variable {J : St χ A → Prop} {Q : VMOutput → VMOutput → Prop}

theorem OutRel.finalize (h : OutRel E J Q) (s : St χ A) (hJ : J s) : Q s.out.cur (getVMOutput E s).2.out.cur := by
  have h1 : Q s.out.cur s.out.removeNonUpdatedCode.cur := h.move s _ hJ .strip
  have hJ1 : J { s with out := s.out.removeNonUpdatedCode } := h.blind s _ s.met hJ rfl
  generalize hs1 : ({ s with out := s.out.removeNonUpdatedCode } : St χ A) = s1 at hJ1
  have e1 : s.out.removeNonUpdatedCode.cur = s1.out.cur := by rw [← hs1]
  rw [e1] at h1
  have h2 := h.move s1 _ hJ1 (.left s1.gasLeft)
  have hJ2 : J { s1 with out := { s1.out with cur := { s1.out.cur with gasRemaining := s1.gasLeft } } } := h.blind s1 _ s1.met hJ1 rfl
  generalize hs2 : ({ s1 with out := { s1.out with cur := { s1.out.cur with gasRemaining := s1.gasLeft } } } : St χ A) = s2 at hJ2
  have e2 : ({ s1.out.cur with gasRemaining := s1.gasLeft } : VMOutput) = s2.out.cur := by rw [← hs2]
  rw [e2] at h2
  have h3 : Q s2.out.cur (updateSCGasUsed s2).out.cur ∧ J (updateSCGasUsed s2) := by
    unfold updateSCGasUsed
    dsimp only
    refine ⟨?_, h.blind s2 _ _ hJ2 (by unfold OutCtx.getAcc; split <;> rfl)⟩
    unfold OutCtx.getAcc
    split
    · exact h.refl _
    · rename_i hn; exact h.move s2 _ hJ2 (.step _ (.touch _ hn))
  generalize hs3 : updateSCGasUsed s2 = s3 at h3
  have h4 := h.move s3 _ h3.2 .used
  have hJ4 : J (setGasUsed s3).2 := h.blind s3 _ s3.met h3.2 rfl
  have h5 : Q s.out.cur (setGasUsed s3).2.out.cur := h.trans _ _ _ h1 (h.trans _ _ _ h2 (h.trans _ _ _ h3.1 h4))
  have h6 : Q s.out.cur (updateGasOnFailure (setGasUsed s3).2).out.cur := h.trans _ _ _ h5 (h.move _ _ hJ4 .failUsed)
  have he : (getVMOutput E s).2 = (setGasUsed s3).2 ∨ (getVMOutput E s).2 = updateGasOnFailure (setGasUsed s3).2 := by
    subst hs3 hs2 hs1
    exact getVMOutput_cases s
  rcases he with he | he <;> rw [he]
  · exact h5
  · exact h6

/-- the relation between states behind `OutRel` -/
def OutStates (J : St χ A → Prop) (Q : VMOutput → VMOutput → Prop) (s t : St χ A) : Prop := J s → J t ∧ Q s.out.cur t.out.cur

theorem OutRel.binary (h : OutRel E J Q) : Binary E (OutStates J Q) where
  refl s hJ := ⟨hJ, h.refl _⟩
  trans s t u h1 h2 hJ := ⟨(h2 (h1 hJ).1).1, h.trans _ _ _ (h1 hJ).2 (h2 (h1 hJ).1).2⟩
  step s t hs hJ := by
    refine ⟨h.unary.step s t hs hJ, ?_⟩
    cases hs with
    | a _ hs =>
      cases hs with
      | out o ho => exact h.move s _ hJ (.step o ho)
      | fail i rc m b hi hb =>
        have h1 := h.move s _ hJ (.code rc)
        have h2 := h.move { s with out := { s.out with cur := { s.out.cur with returnCode := rc } } } _ (h.blind s _ s.met hJ rfl) (.step _ (.msg m))
        exact h.trans _ _ _ h1 h2
      | failNone rc m hi hb =>
        have h1 := h.move s _ hJ (.code rc)
        have h2 := h.move { s with out := { s.out with cur := { s.out.cur with returnCode := rc } } } _ (h.blind s _ s.met hJ rfl) (.step _ (.msg m))
        exact h.trans _ _ _ h1 h2
      | deploy d i h1 h2 h3 h4 => exact h.move s _ hJ (.deploy d (.new i h1 h2 h3 h4))
      | dest _ i r he _ => exact (halt_dest he).elim
      | same _ i r he _ => exact (halt_same he).elim
      | undo _ i r a ci he => exact (halt_dest he).elim
      | _ => exact h.refl _
    | outOfGas => exact h.move s _ hJ (.code .outOfGas)
    | deploy d h1 h2 => exact h.move s _ hJ (.deploy d (.upgrade h1 h2))
    | finalize => exact h.finalize s hJ
    | clean _ =>
      unfold St.cleanInstance
      split
      · exact h.refl _
      · split <;> exact h.refl _
    | failed c new m g h1 h2 h3 =>
      unfold St.cleanInstance
      split
      · exact h.refl _
      · split <;> exact h.refl _
    | _ => exact h.refl _
  stepH s t hs hJ := by
    refine ⟨h.unary.stepH s t hs hJ, ?_⟩
    cases hs with
    | merge i b hb => exact h.builtin s _ i b hJ hb
    | _ => exact h.refl _
  bcPush s hJ := ⟨h.unary.push s hJ, h.refl _⟩
  bcPopSet s hJ := ⟨h.unary.bcPopSet s hJ, by rw [(bcPopSet_rest (E := E) s).1]; exact h.refl _⟩
  bcPopDiscard s hJ := ⟨h.unary.bcPopDiscard s hJ, h.refl _⟩
  onError e s hJ := ⟨h.unary.onError e s hJ, h.move s _ hJ .failUsed⟩
  dest j s u e info r v hF hu hf hJ := by
    have hJ1 := h.unary.enterDest j s hJ
    obtain ⟨hJ2, hq⟩ := hu hJ1
    refine ⟨h.unary.finDest e info u v _ hf hJ2, ?_⟩
    obtain ⟨hl, _, _⟩ := finDest_left e info j s u v r hF hf
    by_cases hc : r.output.returnCode = .ok
    · rw [(hl.ok hc).1]
      refine h.nested _ _ (h.trans _ _ _ hq ?_)
      cases e with
      | none => exact h.finalize u hJ2
      | some e => exact h.move u _ hJ2 .failUsed
    · rw [(hl.failed hc).1]; exact h.refl _
  delete s t a i hc hn hr hT hJ := by
    obtain ⟨hJ2, hq⟩ := hT hJ
    exact ⟨h.unary.delete s t a i hc hn hr hJ hJ2, h.trans _ _ _ hq (h.delete s t.out a i hJ hc hn)⟩
  same i s u e v hF hu hf hJ := by
    have hJ1 := h.unary.enterSame i s hJ
    obtain ⟨hJ2, hq⟩ := hu hJ1
    have hJ3 := h.unary.finishSame e u hJ2
    rw [hf] at hJ3
    refine ⟨hJ3, ?_⟩
    have hout : u.out.stack = s.out.cur :: s.out.stack := by
      have : u.out.stack = mergeOut {} s.out.cur :: s.out.stack := hF.out
      rw [this, mergeOut_empty]
    have hrt : u.rt.stack = s.rt.cur :: s.rt.stack := hF.rt
    have hins : u.rt.instanceStack = s.rt.instance_ :: s.rt.instanceStack := hF.insts
    by_cases hc : u.out.cur.returnCode ≠ .ok ∨ e.isSome
    · rw [finishSame_fail e u hc] at hf
      simp only [Prod.mk.injEq, true_and] at hf
      rw [← hf]
      unfold popSameFail
      rw [(bcPopSet_rest (E := E) _).1]
      obtain ⟨ins, he, _⟩ := rtPopSet_eq ({ u with big := u.big.popSet, met := u.met.popSet, out := u.out.popSet })
        s.rt.cur s.rt.stack s.rt.instance_ s.rt.instanceStack hrt hins
      rw [he]
      simp only [OutCtx.popSet, hout]
      exact h.refl _
    · have h1 : u.out.cur.returnCode = .ok := by
        by_cases h : u.out.cur.returnCode = .ok
        · exact h
        · exact absurd (.inl h) hc
      have h2 : e = none := by
        cases e with
        | none => rfl
        | some e => exact absurd (.inr rfl) hc
      subst h2
      rw [finishSame_ok u h1] at hf
      obtain ⟨o, m, ho⟩ := getVMOutput_only (E := E) u
      obtain ⟨r', ins', hr, _, _⟩ := restoreGas_only (getVMOutput E u).1.gasRemaining (popSameOk (getVMOutput E u).2)
      rw [hr] at hf
      simp only [Prod.mk.injEq] at hf
      have h3 := h.finalize u hJ2
      have h4 : v.out.cur = (getVMOutput E u).2.out.cur := by
        rw [← hf.2]
        show (popSameOk (getVMOutput E u).2).out.cur = _
        have hrt' : (getVMOutput E u).2.rt.stack = s.rt.cur :: s.rt.stack := by rw [ho]; exact hrt
        have hins' : (getVMOutput E u).2.rt.instanceStack = s.rt.instance_ :: s.rt.instanceStack := by rw [ho]; exact hins
        unfold popSameOk
        generalize (getVMOutput E u).2 = w at hrt' hins' ⊢
        obtain ⟨ins, he, _⟩ := rtPopSet_eq (St.bcPopDiscard { w with met := w.met.popMerge, out := w.out.popDiscard, big := w.big.popDiscard })
          s.rt.cur s.rt.stack s.rt.instance_ s.rt.instanceStack hrt' hins'
        rw [he]
        rfl
      rw [h4]
      exact h.trans _ _ _ hq h3

/-- nested calls -/
theorem OutRel.dest (h : OutRel E J Q) {n : Nat} {i : CallInput} {s t : St χ A} {r : DestResult}
    (he : (execN E n).dest i s = (.ok r, t)) (hJ : J s) : Q s.out.cur t.out.cur := ((h.binary.nested n).dest i s r t he hJ).2
theorem OutRel.same (h : OutRel E J Q) {n : Nat} {i : CallInput} {s t : St χ A} {r : Option Err}
    (he : (execN E n).same i s = (.ok r, t)) (hJ : J s) : Q s.out.cur t.out.cur := ((h.binary.nested n).same i s r t he hJ).2
theorem OutRel.run (h : OutRel E J Q) {n : Nat} {s t : St χ A} (hr : Run (StepB E (execN E n)) s t) (hJ : J s) :
    Q s.out.cur t.out.cur := (h.binary.runN hr hJ).2
end

end Arwen
