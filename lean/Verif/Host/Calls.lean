import Verif.Host.Frame
import Verif.Ctx.OutputLemmas
/-
The two ways to call another contract, taken apart: built-in function, entering, running, leaving.
-/
namespace Arwen
variable {χ A : Type} {E : Env χ A} {ex : Executor χ A}

/-- outputs that the built-in function called with `i` gives to the host, in a state of the node (`callBuiltinFunction`) -/
def BuiltinFrom (E : Env χ A) (w : χ) (i : CallInput) (b : BuiltinOutput) : Prop :=
  ∃ (b0 : BuiltinOutput) (p : Bool) (s : St χ A), (E.hook.processBuiltIn w i).1 = .ok b0 ∧
    b = { b0 with out := addEsdtTransfer E s i (if p then clearTransfers b0.out else b0.out) }

/-- outputs that a built-in function of the node gives to the host -/
def BuiltinMade (E : Env χ A) (b : BuiltinOutput) : Prop := ∃ (w : χ) (i : CallInput), BuiltinFrom E w i b

/-- Steps of a built-in function call. -/
inductive StepH (E : Env χ A) : St χ A → St χ A → Prop
  | inst (s : St χ A) (i : Nat) (g : UInt64) : s.rt.instance_ = some i →
      StepH E s (s.modInst i (fun x => { x with points := clampPoints (addU64 x.points g) }))
  | world (s : St χ A) (i : CallInput) : StepH E s { s with world := (E.hook.processBuiltIn s.world i).2 }
  | merge (s : St χ A) (i : CallInput) (b : BuiltinOutput) : BuiltinFrom E s.world i b →
      StepH E s { s with world := (E.hook.processBuiltIn s.world i).2, out := { s.out with cur := (addToActive s.out.cur b).1 } }

section
local notation "SimH" => SimAt (Executor.idle : Executor χ A) (StepH E)

theorem simH_useGas (g : UInt64) (s : St χ A) : SimH (useGas g) s := by
  unfold SimAt useGas
  simp only [M.bind_eq, M.bind, M.get, setPointsUsed]
  cases hi : s.rt.instance_ with
  | none => exact ⟨s, .refl s, .inl rfl⟩
  | some i =>
    have h := Run.step (StepH.inst (E := E) s i g hi)
    have h2 : s.modInst i (fun x => { x with points := clampPoints (addU64 x.points g) })
        = s.modInst i (fun x => { x with points := clampPoints (addU64 s.pointsUsed g) }) := by
      unfold St.modInst
      congr 1
      funext j
      by_cases hj : j = i
      · subst hj; simp [St.pointsUsed, hi]
      · simp [hj]
    rw [h2] at h
    exact h

theorem simH_afterBuiltin (i : CallInput) (o : VMOutput) (s : St χ A) : SimH (afterBuiltin E i o) s := by
  unfold afterBuiltin
  refine sim_ite (fun _ => sim_pure _) (fun _ => ?_)
  extract_lets recipient
  clear_value recipient
  split
  · exact sim_panic
  · refine sim_get (sim_ite (fun _ => sim_pure _) (fun _ => sim_ite (fun _ => sim_pure _) (fun _ => ?_)))
    split
    · split
      · exact sim_pure _
      · dsimp only
        split
        · exact sim_panic
        · exact sim_pure _
    · exact sim_pure _

theorem simH_callBuiltin (i : CallInput) (s : St χ A) : SimH (callBuiltin E i) s := by
  unfold callBuiltin processBuiltin
  refine sim_lift_bind (.step (.world s i)) ?_
  dsimp only
  split
  · exact sim_bind (simH_useGas _ _) (fun _ _ _ _ => sim_pure _)
  · refine sim_bind (simH_afterBuiltin _ _ _) (fun r t _ _ => ?_)
    cases r with
    | error e => exact sim_bind (simH_useGas _ _) (fun _ _ _ _ => sim_pure _)
    | ok post => exact sim_bind (simH_useGas _ _) (fun _ _ _ _ => sim_get (sim_pure _))

theorem afterBuiltin_state (i : CallInput) (o : VMOutput) (s : St χ A) : (afterBuiltin E i o s).2 = s := by
  unfold afterBuiltin
  split
  · rfl
  · extract_lets recipient
    clear_value recipient
    split
    · rfl
    · rw [get_bind]
      split
      · rfl
      · split
        · rfl
        · generalize Option.map OutAcc.transfers _ = l
          match l with
          | some [t] =>
            dsimp only
            cases parseCallData t.data with
            | none => rfl
            | some p =>
              dsimp only
              generalize fillEsdt i _ = x
              cases x <;> rfl
          | none => rfl
          | some [] => rfl
          | some (_ :: _ :: _) => rfl

theorem callBuiltin_made (i : CallInput) (s t : St χ A) (p : Option CallInput) (b : BuiltinOutput)
    (h : callBuiltin E i s = (.ok (.ok (p, b)), t)) :
    BuiltinFrom E s.world i b ∧ ∃ g, useGas g { s with world := (E.hook.processBuiltIn s.world i).2 } = (.ok (), t) := by
  unfold callBuiltin processBuiltin at h
  rw [lift_bind] at h
  cases hb0 : (E.hook.processBuiltIn s.world i).1 with
  | error e =>
    simp only [hb0] at h
    rcases bind_ok h with ⟨a, u, _, h⟩ | ⟨_, h⟩ | ⟨_, h⟩
    · simp [M.pure_eq, M.pure] at h
    · simp at h
    · simp at h
  | ok b0 =>
    simp only [hb0] at h
    rcases bind_ok h with ⟨r, u, h1, h⟩ | ⟨_, h⟩ | ⟨_, h⟩
    · have hu := afterBuiltin_state (E := E) i b0.out { s with world := (E.hook.processBuiltIn s.world i).2 }
      rw [h1] at hu
      cases r with
      | error e =>
        rcases bind_ok h with ⟨a, u, _, h⟩ | ⟨_, h⟩ | ⟨_, h⟩
        · simp [M.pure_eq, M.pure] at h
        · simp at h
        · simp at h
      | ok post =>
        rcases bind_ok h with ⟨a, v, h2, h⟩ | ⟨_, h⟩ | ⟨_, h⟩
        · rw [get_bind] at h
          simp only [M.pure_eq, M.pure, Prod.mk.injEq, Res.ok.injEq, Except.ok.injEq] at h
          unfold trackBuiltinGas at h2
          dsimp only at h2 hu
          rw [hu] at h2
          rw [← h.2]
          exact ⟨⟨b0, post.isSome, v, hb0, h.1.2.symm⟩, _, h2⟩
        · simp at h
        · simp at h
    · simp at h
    · simp at h

theorem useGas_out (g : UInt64) (s t : St χ A) (o : OutCtx) (h : useGas g s = (.ok (), t)) :
    useGas g { s with out := o } = (.ok (), { t with out := o }) := by
  unfold useGas at h ⊢
  rw [get_bind] at h ⊢
  have e : ({ s with out := o } : St χ A).pointsUsed = s.pointsUsed := rfl
  rw [e]
  unfold setPointsUsed at h ⊢
  cases hi : s.rt.instance_ with
  | none => simp [hi] at h
  | some i =>
    simp only [hi, Prod.mk.injEq, true_and] at h ⊢
    rw [← h]; rfl

theorem simH_handleBuiltin (i : CallInput) (s : St χ A) : SimH (handleBuiltin E i) s := by
  have h1 := simH_callBuiltin (E := E) i s
  unfold handleBuiltin
  unfold SimAt at h1 ⊢
  simp only [M.bind_eq, M.bind]
  generalize hq : callBuiltin E i s = q at h1 ⊢
  obtain ⟨r, t⟩ := q
  match r, hq, h1 with
  | .ok (.error e), _, h1 => exact h1
  | .ok (.ok (post, b)), hq, _ =>
    obtain ⟨hb, g, hg⟩ := callBuiltin_made i s t post b hq
    have hm := Run.step (StepH.merge (E := E) s i b hb)
    have hg' := useGas_out g _ t { s.out with cur := (addToActive s.out.cur b).1 } hg
    have h2 := (SimAt.ok (simH_useGas (E := E) g _) hg')
    have e : t.out = s.out := by
      have hk := congrArg (fun q => q.2.out) (useGas_out g _ t s.out hg)
      simp only at hk
      rw [hg] at hk
      exact hk
    have h3 := hm.trans h2
    show Run (StepH E) s { t with out := { t.out with cur := (addToActive t.out.cur b).1 } }
    rw [e]
    exact h3
  | .panic, _, h1 => exact h1
  | .oof, _, h1 => exact h1

/-- a run of a method without nested calls -/
theorem SimAt.any {S : St χ A → St χ A → Prop} {α : Type} {m : M χ A α} {s t : St χ A} {r : Res α}
    (h : SimAt (Executor.idle : Executor χ A) S m s) (he : m s = (r, t)) : Run S s t ∧ r ≠ .oof := by
  unfold SimAt at h
  rw [he] at h
  cases r with
  | ok a => exact ⟨h, by simp⟩
  | panic =>
    obtain ⟨t0, h1, h2⟩ := h
    rcases h2 with rfl | h2
    · exact ⟨h1, by simp⟩
    · exact absurd h2 (not_bad_idle (by simp))
  | oof =>
    obtain ⟨t0, h1, h2⟩ := h
    exact absurd h2 (not_bad_idle (by simp))
end

/-! ### The parts of a call -/

/-- the end of a call on the destination's context -/
def finDest (E : Env χ A) (e : Option Err) (info : Option AsyncContextInfo) : M χ A DestResult := do
  let out ← finishDest E e
  match e with
  | some e => pure ⟨out, info, some e⟩
  | none => pure ⟨out, info, if out.returnCode ≠ .ok then some .executionFailed else none⟩

/-- the input a called contract sees -/
def enterDestInput (i : CallInput) (s : St χ A) : CallInput :=
  match (enterDest i s).1 with
  | .ok i => i
  | _ => i

theorem enterDest_run (i : CallInput) (s : St χ A) : enterDest i s = (.ok (enterDestInput i s), enterDestState i s) := rfl

/-- The call that follows a built-in function: it is of the same type, and its gas is that of a transfer the function reported. -/
def PostInput (E : Env χ A) (i j : CallInput) : Prop :=
  j.vm.callType = i.vm.callType ∧ ∃ w b a acc x, (E.hook.processBuiltIn w i).1 = .ok b ∧ b.out.accounts.get? a = some acc ∧
    acc.transfers = [x] ∧ j.vm.gasProvided = x.gasLimit

theorem fillEsdt_vm {i j k : CallInput} (h : fillEsdt i j = some k) : k.vm.callType = j.vm.callType ∧ k.vm.gasProvided = j.vm.gasProvided := by
  unfold fillEsdt at h
  repeat' split at h
  all_goals first
    | cases h; done
    | (cases h; exact ⟨rfl, rfl⟩)

theorem afterBuiltin_post {i j : CallInput} {o : VMOutput} {s : St χ A} (h : (afterBuiltin E i o s).1 = .ok (.ok (some j))) :
    j.vm.callType = i.vm.callType ∧ ∃ a acc x, o.accounts.get? a = some acc ∧ acc.transfers = [x] ∧ j.vm.gasProvided = x.gasLimit := by
  unfold afterBuiltin at h
  split at h
  · simp [M.pure_eq, M.pure] at h
  · extract_lets recipient at h
    clear_value recipient
    split at h
    · simp [M.panic] at h
    · rename_i a
      rw [get_bind] at h
      split at h
      · simp [M.pure_eq, M.pure] at h
      · split at h
        · simp [M.pure_eq, M.pure] at h
        · cases hacc : o.accounts.get? a with
          | none => rw [hacc] at h; simp [M.pure_eq, M.pure] at h
          | some acc =>
            rw [hacc] at h
            simp only [Option.map_some] at h
            generalize hl : acc.transfers = l at h
            match l with
            | [] => simp [M.pure_eq, M.pure] at h
            | _ :: _ :: _ => simp [M.pure_eq, M.pure] at h
            | [t] =>
              dsimp only at h
              cases hp : parseCallData t.data with
              | none => rw [hp] at h; simp [M.pure_eq, M.pure] at h
              | some p =>
                rw [hp] at h
                dsimp only at h
                generalize hx : fillEsdt i _ = x at h
                cases x with
                | none => simp [M.panic] at h
                | some k =>
                  simp only [M.pure_eq, M.pure, Res.ok.injEq, Except.ok.injEq, Option.some.injEq] at h
                  subst h
                  obtain ⟨h1, h2⟩ := fillEsdt_vm hx
                  exact ⟨h1, a, acc, t, hacc, hl, h2⟩

theorem handleBuiltin_post {i j : CallInput} {o : VMOutput} {s t : St χ A} (h : handleBuiltin E i s = (.ok (.ok (some j, o)), t)) :
    PostInput E i j := by
  unfold handleBuiltin at h
  rcases bind_ok h with ⟨r, u, h1, h⟩ | ⟨_, h⟩ | ⟨_, h⟩
  · cases r with
    | error e => simp [M.pure_eq, M.pure] at h
    | ok p =>
      obtain ⟨post, b⟩ := p
      dsimp only at h
      rw [lift_bind] at h
      simp only [M.pure_eq, M.pure, Prod.mk.injEq, Res.ok.injEq, Except.ok.injEq] at h
      obtain ⟨⟨rfl, _⟩, _⟩ := h
      unfold callBuiltin processBuiltin at h1
      rw [lift_bind] at h1
      cases hb0 : (E.hook.processBuiltIn s.world i).1 with
      | error e =>
        simp only [hb0] at h1
        rcases bind_ok h1 with ⟨a, u, _, h⟩ | ⟨_, h⟩ | ⟨_, h⟩
        · simp [M.pure_eq, M.pure] at h
        · simp at h
        · simp at h
      | ok b0 =>
        simp only [hb0] at h1
        rcases bind_ok h1 with ⟨r, v, h2, h⟩ | ⟨_, h⟩ | ⟨_, h⟩
        · cases r with
          | error e =>
            rcases bind_ok h with ⟨a, u, _, h⟩ | ⟨_, h⟩ | ⟨_, h⟩
            · simp [M.pure_eq, M.pure] at h
            · simp at h
            · simp at h
          | ok post =>
            rcases bind_ok h with ⟨a, v, h3, h⟩ | ⟨_, h⟩ | ⟨_, h⟩
            · rw [get_bind] at h
              simp only [M.pure_eq, M.pure, Prod.mk.injEq, Res.ok.injEq, Except.ok.injEq] at h
              obtain ⟨⟨rfl, _⟩, _⟩ := h
              obtain ⟨h4, a, acc, x, h5, h6, h7⟩ := afterBuiltin_post (congrArg Prod.fst h2)
              exact ⟨h4, s.world, b0, a, acc, x, hb0, h5, h6, h7⟩
            · simp at h
            · simp at h
        · simp at h
        · simp at h
  · simp at h
  · simp at h

/-- A call on the destination's context that returns. -/
inductive DestOk (E : Env χ A) (ex : Executor χ A) (i : CallInput) (s : St χ A) : DestResult → St χ A → Prop
  /-- a built-in function that fails -/
  | failed (t : St χ A) (e : Err) : Run (StepH E) (St.bcPush E s) t → E.isBuiltin i.function = true →
      DestOk E ex i s ⟨(outputOnError E e (St.bcPopSet E t)).1, none, some e⟩ (outputOnError E e (St.bcPopSet E t)).2
  /-- a built-in function -/
  | builtin (t : St χ A) (out : VMOutput) : Run (StepH E) (St.bcPush E s) t → E.isBuiltin i.function = true →
      DestOk E ex i s ⟨out, none, none⟩ (St.bcPopDiscard t)
  /-- a contract, directly or after a built-in function -/
  | called (t u v : St χ A) (j : CallInput) (info : Option AsyncContextInfo) (e : Option Err) (r : DestResult) :
      Run (StepH E) (St.bcPush E s) t → (E.isBuiltin i.function = false → t = St.bcPush E s ∧ j = i) →
      bodyDest E ex (enterDestInput j t) (enterDestState j t) = (.ok (info, e), u) →
      finDest E e info u = (.ok r, v) → (j = i ∨ PostInput E i j) →
      DestOk E ex i s r (if r.err.isSome then St.bcPopSet E v else St.bcPopDiscard v)

/-- A call on the destination's context that panics. -/
inductive DestPanic (E : Env χ A) (ex : Executor χ A) (i : CallInput) (s : St χ A) : St χ A → Prop
  | builtin (t : St χ A) : Run (StepH E) (St.bcPush E s) t → DestPanic E ex i s t
  | body (t u v : St χ A) (j : CallInput) : Run (StepH E) (St.bcPush E s) t →
      bodyDest E ex (enterDestInput j t) (enterDestState j t) = (.panic, u) → (finishDest E none u).2 = v → DestPanic E ex i s v
  | finish (t u v : St χ A) (j : CallInput) (info : Option AsyncContextInfo) (e : Option Err) :
      Run (StepH E) (St.bcPush E s) t →
      bodyDest E ex (enterDestInput j t) (enterDestState j t) = (.ok (info, e), u) →
      finDest E e info u = (.panic, v) → DestPanic E ex i s v

theorem finishDest_not_oof (e : Option Err) (s : St χ A) : (finishDest E e s).1 ≠ .oof := by
  rw [finishDest_run]
  obtain ⟨r, ins, h1, h2, _⟩ := restoreGas_only (destOutput E e s).1.gasRemaining
    (popDest (decide ((destOutput E e s).1.returnCode = .ok)) (destOutput E e s).2)
  simp only [M.bind_eq, M.bind, h1]
  cases r with
  | ok _ => simp [M.pure_eq, M.pure]
  | panic => simp
  | oof => exact absurd rfl h2

theorem deferred_cases {α β : Type} {m : M χ A α} {fin : Option α → M χ A β} {s t : St χ A} {r : Res β}
    (h : M.deferred m fin s = (r, t)) :
    (∃ a u, m s = (.ok a, u) ∧ fin (some a) u = (r, t)) ∨
    (∃ u r', m s = (.panic, u) ∧ fin none u = (r', t) ∧ (r' = .oof ∧ r = .oof ∨ r' ≠ .oof ∧ r = .panic)) ∨
    (m s = (.oof, t) ∧ r = .oof) := by
  unfold M.deferred at h
  split at h
  · rename_i a u he; exact .inl ⟨a, u, he, h⟩
  · rename_i u he
    refine .inr (.inl ?_)
    cases hf : fin none u with
    | mk r' t' =>
      rw [hf] at h
      cases r' with
      | oof => simp only [Prod.mk.injEq] at h; exact ⟨u, .oof, he, by rw [h.2] at hf; exact hf, .inl ⟨rfl, h.1.symm⟩⟩
      | ok a => simp only [Prod.mk.injEq] at h; exact ⟨u, .ok a, he, by rw [h.2] at hf; exact hf, .inr ⟨by simp, h.1.symm⟩⟩
      | panic => simp only [Prod.mk.injEq] at h; exact ⟨u, .panic, he, by rw [h.2] at hf; exact hf, .inr ⟨by simp, h.1.symm⟩⟩
  · rename_i u he
    simp only [Prod.mk.injEq] at h
    rw [h.2] at he
    exact .inr (.inr ⟨he, h.1.symm⟩)

theorem execDestNoBuiltin_any (i : CallInput) (s v : St χ A) (r : Res DestResult) (h : execDestNoBuiltin E ex i s = (r, v)) :
    (∃ info e u, bodyDest E ex (enterDestInput i s) (enterDestState i s) = (.ok (info, e), u) ∧ finDest E e info u = (r, v)) ∨
    (∃ u, bodyDest E ex (enterDestInput i s) (enterDestState i s) = (.panic, u) ∧ (finishDest E none u).2 = v ∧ r = .panic) ∨
    (bodyDest E ex (enterDestInput i s) (enterDestState i s) = (.oof, v) ∧ r = .oof) := by
  unfold execDestNoBuiltin at h
  simp only [M.bind_eq, M.bind, enterDest_run] at h
  rcases deferred_cases h with ⟨⟨info, e⟩, u, h1, h2⟩ | ⟨u, r', h1, h2, h3⟩ | h1
  · exact .inl ⟨info, e, u, h1, h2⟩
  · refine .inr (.inl ⟨u, h1, ?_⟩)
    have hno := finishDest_not_oof (E := E) none u
    simp only [M.bind] at h2
    cases hq : finishDest E none u with
    | mk q w =>
      rw [hq] at h2 hno
      cases q with
      | oof => exact absurd rfl hno
      | ok _ =>
        simp only [M.panic, Prod.mk.injEq] at h2
        refine ⟨h2.2, ?_⟩
        rcases h3 with h3 | h3
        · rw [h3.1] at h2; simp at h2
        · exact h3.2
      | panic =>
        simp only [Prod.mk.injEq] at h2
        refine ⟨h2.2, ?_⟩
        rcases h3 with h3 | h3
        · rw [h3.1] at h2; simp at h2
        · exact h3.2
  · exact .inr (.inr h1)

theorem finDest_not_oof (e : Option Err) (info : Option AsyncContextInfo) (s t : St χ A) : finDest E e info s ≠ (.oof, t) := by
  intro h
  unfold finDest at h
  rcases bind_ok h with ⟨a, u, _, h⟩ | ⟨_, h⟩ | ⟨h, _⟩
  · cases e <;> simp [M.pure_eq, M.pure] at h
  · simp at h
  · exact finishDest_not_oof e s (by rw [h])

/-- everything a call on the destination's context can be -/
theorem execDest_any (i : CallInput) (s v : St χ A) (r : Res DestResult) (h : execDest E ex i s = (r, v)) :
    (∃ a, r = .ok a ∧ DestOk E ex i s a v) ∨ (r = .panic ∧ DestPanic E ex i s v) ∨
    (r = .oof ∧ ∃ t j, Run (StepH E) (St.bcPush E s) t ∧ bodyDest E ex (enterDestInput j t) (enterDestState j t) = (.oof, v)) := by
  have called : ∀ (j : CallInput) (t : St χ A) (_ : Run (StepH E) (St.bcPush E s) t)
      (_ : E.isBuiltin i.function = false → t = St.bcPush E s ∧ j = i) (_ : j = i ∨ PostInput E i j)
      (h : (execDestNoBuiltin E ex j >>= fun r => do
        M.modify (if r.err.isSome then St.bcPopSet E else St.bcPopDiscard)
        pure r) t = (r, v)),
      (∃ a, r = .ok a ∧ DestOk E ex i s a v) ∨ (r = .panic ∧ DestPanic E ex i s v) ∨
      (r = .oof ∧ ∃ t j, Run (StepH E) (St.bcPush E s) t ∧ bodyDest E ex (enterDestInput j t) (enterDestState j t) = (.oof, v)) := by
    intro j t ht hj hp h
    rcases bind_ok h with ⟨a, u, h1, h⟩ | ⟨h1, h⟩ | ⟨h1, h⟩
    · rw [modify_bind] at h
      simp only [M.pure_eq, M.pure, Prod.mk.injEq] at h
      obtain ⟨h, h'⟩ := h
      subst h
      rcases execDestNoBuiltin_any j t u (.ok a) h1 with ⟨info, e, w, h2, h3⟩ | ⟨_, _, _, h4⟩ | ⟨_, h4⟩
      · refine .inl ⟨a, rfl, ?_⟩
        have := DestOk.called t w u j info e a ht hj h2 h3 hp
        rw [← h']
        split <;> simp_all
      · simp at h4
      · simp at h4
    · subst h
      rcases execDestNoBuiltin_any j t v .panic h1 with ⟨info, e, w, h2, h3⟩ | ⟨w, h2, h3, _⟩ | ⟨_, h4⟩
      · exact .inr (.inl ⟨rfl, .finish t w v j info e ht h2 h3⟩)
      · exact .inr (.inl ⟨rfl, .body t w v j ht h2 h3⟩)
      · simp at h4
    · subst h
      rcases execDestNoBuiltin_any j t v .oof h1 with ⟨info, e, w, h2, h3⟩ | ⟨w, h2, h3, h4⟩ | ⟨h2, _⟩
      · exact absurd h3 (finDest_not_oof e info w v)
      · simp at h4
      · exact .inr (.inr ⟨rfl, t, j, ht, h2⟩)
  unfold execDest at h
  rw [modify_bind] at h
  by_cases hb : E.isBuiltin i.function = true
  · rw [if_pos hb] at h
    rcases bind_ok h with ⟨a, t, h1, h⟩ | ⟨h1, h⟩ | ⟨h1, h⟩
    · have hr := ((simH_handleBuiltin (E := E) i _).any h1).1
      match a, h with
      | .error e, h =>
        dsimp only at h
        rw [pure_bind'] at h
        dsimp only at h
        rw [modify_bind, lift_bind] at h
        simp only [M.pure_eq, M.pure, Prod.mk.injEq] at h
        refine .inl ⟨_, h.1.symm, ?_⟩
        rw [← h.2]
        exact .failed t e hr hb
      | .ok (some j, o), h => exact called j t hr (by rw [hb]; simp) (.inr (handleBuiltin_post h1)) h
      | .ok (none, o), h =>
        dsimp only at h
        rw [pure_bind'] at h
        dsimp only at h
        rw [modify_bind] at h
        simp only [M.pure_eq, M.pure, Prod.mk.injEq] at h
        refine .inl ⟨_, h.1.symm, ?_⟩
        rw [← h.2]
        exact .builtin t o hr hb
    · exact .inr (.inl ⟨h, .builtin v ((simH_handleBuiltin (E := E) i _).any h1).1⟩)
    · exact absurd rfl ((simH_handleBuiltin (E := E) i _).any h1).2
  · rw [if_neg hb] at h
    exact called i _ (.refl _) (fun _ => ⟨rfl, rfl⟩) (.inl rfl) h

/-! ### Calls on the same context -/

/-- the state and input in which a contract called on the same context starts -/
def enterSameState (E : Env χ A) (i : CallInput) (s : St χ A) : St χ A := (enterSame E i s).2
def enterSameInput (E : Env χ A) (i : CallInput) (s : St χ A) : CallInput :=
  match (enterSame E i s).1 with
  | .ok i => i
  | _ => i
theorem enterSame_run (i : CallInput) (s : St χ A) : enterSame E i s = (.ok (enterSameInput E i s), enterSameState E i s) := rfl

/-- the pops at the end of a call on the same context -/
def popSameFail (E : Env χ A) (t : St χ A) : St χ A :=
  St.bcPopSet E (St.rtPopSet { t with big := t.big.popSet, met := t.met.popSet, out := t.out.popSet })
def popSameOk (t : St χ A) : St χ A :=
  St.rtPopSet (St.bcPopDiscard { t with met := t.met.popMerge, out := t.out.popDiscard, big := t.big.popDiscard })

theorem finishSame_fail (e : Option Err) (u : St χ A) (h : u.out.cur.returnCode ≠ .ok ∨ e.isSome) :
    finishSame E e u = (.ok (), popSameFail E u) := by
  unfold finishSame
  rw [get_bind, if_pos h]; rfl

theorem finishSame_ok (u : St χ A) (h : u.out.cur.returnCode = .ok) :
    finishSame E none u = restoreGas (getVMOutput E u).1.gasRemaining (popSameOk (getVMOutput E u).2) := by
  unfold finishSame
  rw [get_bind, if_neg (by simp [h])]; rfl

/-- a call on the same context: refused, or entered, run and left -/
theorem execSame_any (i : CallInput) (s v : St χ A) (r : Res (Option Err)) (h : execSame E ex i s = (r, v)) :
    (r = .ok (some .builtinCallOnSameContextDisallowed) ∧ v = s ∧ E.isBuiltin i.function = true) ∨
    (E.isBuiltin i.function = false ∧
      ((∃ e u, bodySame E ex (enterSameInput E i s) (enterSameState E i s) = (.ok e, u) ∧
          ((r = .ok e ∧ finishSame E e u = (.ok (), v)) ∨ (r = .panic ∧ finishSame E e u = (.panic, v)))) ∨
      (r = .panic ∧ ∃ u, bodySame E ex (enterSameInput E i s) (enterSameState E i s) = (.panic, u) ∧ (finishSame E none u).2 = v) ∨
      (r = .oof ∧ bodySame E ex (enterSameInput E i s) (enterSameState E i s) = (.oof, v)))) := by
  have hno : ∀ e (u : St χ A), (finishSame E e u).1 ≠ .oof := by
    intro e u
    by_cases hc : u.out.cur.returnCode ≠ .ok ∨ e.isSome
    · rw [finishSame_fail e u hc]; simp
    · have h1 : u.out.cur.returnCode = .ok := by
        by_cases h : u.out.cur.returnCode = .ok
        · exact h
        · exact absurd (.inl h) hc
      have h2 : e = none := by
        cases e with
        | none => rfl
        | some e => exact absurd (.inr rfl) hc
      subst h2
      rw [finishSame_ok u h1]
      obtain ⟨r, ins, h1, h2, _⟩ := restoreGas_only (getVMOutput E u).1.gasRemaining (popSameOk (getVMOutput E u).2)
      rw [h1]; exact h2
  unfold execSame at h
  by_cases hb : E.isBuiltin i.function = true
  · rw [if_pos hb] at h
    simp only [M.pure_eq, M.pure, Prod.mk.injEq] at h
    exact .inl ⟨h.1.symm, h.2.symm, hb⟩
  · rw [if_neg hb] at h
    refine .inr ⟨by simpa using hb, ?_⟩
    simp only [M.bind_eq, M.bind, enterSame_run] at h
    rcases deferred_cases h with ⟨e, u, h1, h2⟩ | ⟨u, r', h1, h2, h3⟩ | ⟨h1, h2⟩
    · refine .inl ⟨e, u, h1, ?_⟩
      have hno := hno e u
      simp only [M.bind] at h2
      cases hq : finishSame E e u with
      | mk q w =>
        rw [hq] at h2 hno
        cases q with
        | oof => exact absurd rfl hno
        | ok _ =>
          simp only [M.pure_eq, M.pure, Prod.mk.injEq] at h2
          rw [← h2.1, ← h2.2]
          exact .inl ⟨rfl, rfl⟩
        | panic =>
          simp only [Prod.mk.injEq] at h2
          rw [← h2.1, ← h2.2]
          exact .inr ⟨rfl, rfl⟩
    · have hno := hno none u
      simp only [M.bind] at h2
      cases hq : finishSame E none u with
      | mk q w =>
        rw [hq] at h2 hno
        have hr : r = .panic := by
          rcases h3 with h3 | h3
          · rw [h3.1] at h2
            cases q with
            | oof => exact absurd rfl hno
            | ok _ => simp [M.panic] at h2
            | panic => simp at h2
          · exact h3.2
        refine .inr (.inl ⟨hr, u, h1, ?_⟩)
        rw [hq]
        cases q with
        | oof => exact absurd rfl hno
        | ok _ => simp only [M.panic, Prod.mk.injEq] at h2; exact h2.2
        | panic => simp only [Prod.mk.injEq] at h2; exact h2.2
    · exact .inr (.inr ⟨h2, h1⟩)

/-! ### The frame of a call -/

theorem StepH.frame {s t : St χ A} (h : StepH E s t) : FrameOk s t := by
  cases h <;> exact ⟨⟨rfl, rfl, rfl, rfl, rfl, rfl, rfl, rfl, rfl⟩, rfl, rfl, rfl⟩

theorem FrameOk.refl (s : St χ A) : FrameOk s s := ⟨.refl s, rfl, rfl, rfl⟩
theorem FrameOk.trans {s t u : St χ A} (h : FrameOk s t) (h' : FrameOk t u) : FrameOk s u :=
  ⟨h.toFrame.trans h'.toFrame, h'.cur.trans h.cur, h'.inst.trans h.inst, h'.bc.trans h.bc⟩

theorem Run.frameH {s t : St χ A} (h : Run (StepH E) s t) : FrameOk s t :=
  h.rel (R := FrameOk) FrameOk.refl (fun _ _ _ h1 h2 => h1.trans h2) (fun _ _ h => h.frame)

theorem bcPush_frame (s : St χ A) : Frame s (St.bcPush E s) := ⟨rfl, rfl, rfl, rfl, rfl, rfl, rfl, rfl, rfl⟩
theorem bcPopSet_frame (s : St χ A) : Frame s (St.bcPopSet E s) := by
  unfold St.bcPopSet
  split
  · exact .refl s
  · exact ⟨rfl, rfl, rfl, rfl, rfl, rfl, rfl, rfl, rfl⟩
theorem bcPopSet_rt (s : St χ A) : (St.bcPopSet E s).rt = s.rt := by unfold St.bcPopSet; split <;> rfl
theorem bcPopSet_bc (s : St χ A) : (St.bcPopSet E s).bcStack = s.bcStack.tail := by
  unfold St.bcPopSet
  split
  · rename_i h; rw [h]; rfl
  · rename_i h; rw [h]; rfl

/-- leaving a call on the destination's context after a body that kept the frame -/
theorem finishDest_frame (e : Option Err) (i : CallInput) (s u v : St χ A) (r : Res VMOutput) (h : Frame (enterDestState i s) u)
    (he : finishDest E e u = (r, v)) : Frame s v ∧ v.rt.cur = s.rt.cur ∧ v.rt.instance_ = s.rt.instance_ ∧
      v.bcStack = u.bcStack ∧ v.big = s.big := by
  obtain ⟨o, m, ho⟩ := destOutput_only (E := E) e u
  have h1 : Frame (enterDestState i s) (destOutput E e u).2 := h.trans (Frame.only ho)
  have h2 := popDest_frame (decide ((destOutput E e u).1.returnCode = .ok)) i s _ h1
  have hbc : (destOutput E e u).2.bcStack = u.bcStack := by rw [ho]
  rw [finishDest_run] at he
  rw [hbc] at h2
  generalize popDest (decide ((destOutput E e u).1.returnCode = .ok)) (destOutput E e u).2 = w at he h2
  obtain ⟨r', ins, hr, _, _⟩ := restoreGas_only (destOutput E e u).1.gasRemaining w
  have hv : v = { w with insts := ins } := by
    simp only [M.bind_eq, M.bind, hr] at he
    cases r' <;> simp only [M.pure_eq, M.pure, Prod.mk.injEq] at he <;> exact he.2.symm
  subst hv
  obtain ⟨⟨a1, a2, a3, a4, a5, a6, a7, a8, a9⟩, h2⟩ := h2
  exact ⟨⟨a1, a2, a3, a4, a5, a6, a7, a8, a9⟩, h2⟩

theorem finDest_state (e : Option Err) (info : Option AsyncContextInfo) (u v : St χ A) (r : Res DestResult)
    (h : finDest E e info u = (r, v)) : ∃ r', finishDest E e u = (r', v) := by
  unfold finDest at h
  rcases bind_ok h with ⟨a, w, h1, h⟩ | ⟨h, _⟩ | ⟨h, _⟩
  · refine ⟨.ok a, ?_⟩
    cases e <;> simp only [M.pure_eq, M.pure, Prod.mk.injEq] at h <;> rw [← h.2] <;> exact h1
  · exact ⟨_, h⟩
  · exact ⟨_, h⟩

theorem fresh_enterDest (i : CallInput) (s : St χ A) : Fresh E (enterDestState i s) := .inr (.inl (List.mem_cons_self ..))
theorem fresh_enterSame (i : CallInput) (s : St χ A) : Fresh E (enterSameState E i s) := .inr (.inl (List.mem_cons_self ..))

/-- a body that returned -/
theorem bodyDest_frame (hF : FrameEx ex) {i j : CallInput} {s u : St χ A} {a : Option AsyncContextInfo × Option Err}
    (h : bodyDest E ex i (enterDestState j s) = (.ok a, u)) : Frame (enterDestState j s) u ∧ SameCall (enterDestState j s) u :=
  ((sim_bodyDest hF.keeps i _ (fresh_enterDest j s)).ok h).frame hF

theorem enterDest_bc (i : CallInput) (s : St χ A) : (enterDestState i s).bcStack = s.bcStack := rfl

theorem DestOk.frame (hF : FrameEx ex) {i : CallInput} {s t : St χ A} {r : DestResult} (h : DestOk E ex i s r t) :
    FrameOk s t := by
  cases h with
  | failed u e hr _ =>
    have h1 := hr.frameH
    obtain ⟨o, m, ho⟩ := outputOnError_only (E := E) (St.bcPopSet E u) e
    have h2 : Frame s (St.bcPopSet E u) := (bcPush_frame s).trans (h1.toFrame.trans (bcPopSet_frame u))
    refine ⟨h2.trans (Frame.only ho), ?_, ?_, ?_⟩
    · rw [ho]; show (St.bcPopSet E u).rt.cur = _; rw [bcPopSet_rt]; exact h1.cur
    · rw [ho]; show (St.bcPopSet E u).rt.instance_ = _; rw [bcPopSet_rt]; exact h1.inst
    · rw [ho]; show (St.bcPopSet E u).bcStack = _; rw [bcPopSet_bc, h1.bc]; rfl
  | builtin u o hr _ =>
    have h1 := hr.frameH
    obtain ⟨⟨a1, a2, a3, a4, a5, a6, a7, a8, a9⟩, b1, b2, b3⟩ := h1
    exact ⟨⟨a1, a2, a3, a4, a5, a6, a7, a8, a9⟩, b1, b2, by show u.bcStack.tail = _; rw [b3]; rfl⟩
  | called t u v j info e r hr hj hb hf =>
    have h1 := hr.frameH
    obtain ⟨h2, h3⟩ := bodyDest_frame hF hb
    obtain ⟨r', hf'⟩ := finDest_state e info u v _ hf
    obtain ⟨h4, h5, h6, h7, h8⟩ := finishDest_frame e j t u v r' h2 hf'
    have hbc : v.bcStack = E.hook.snapshot s.world :: s.bcStack := by
      rw [h7, h3.bc]; exact h1.bc
    have h9 : Frame s v := (bcPush_frame s).trans (h1.toFrame.trans h4)
    have h10 : v.rt.cur = s.rt.cur := h5.trans h1.cur
    have h11 : v.rt.instance_ = s.rt.instance_ := h6.trans h1.inst
    split
    · exact ⟨h9.trans (bcPopSet_frame v), by rw [bcPopSet_rt]; exact h10, by rw [bcPopSet_rt]; exact h11,
        by rw [bcPopSet_bc, hbc]; rfl⟩
    · obtain ⟨a1, a2, a3, a4, a5, a6, a7, a8, a9⟩ := h9
      exact ⟨⟨a1, a2, a3, a4, a5, a6, a7, a8, a9⟩, h10, h11, by show v.bcStack.tail = _; rw [hbc]; rfl⟩

theorem DestPanic.frame (hF : FrameEx ex) {i : CallInput} {s t : St χ A} (h : DestPanic E ex i s t) : Frame s t := by
  cases h with
  | builtin _ hr => exact (bcPush_frame s).trans hr.frameH.toFrame
  | body t u _ j hr hb hv =>
    have h1 := (sim_bodyDest (E := E) hF.keeps _ _ (fresh_enterDest _ _)).frame hF hb (by simp)
    have h2 := (finishDest_frame (E := E) none j t u (finishDest E none u).2 (finishDest E none u).1 h1 rfl).1
    rw [hv] at h2
    exact (bcPush_frame s).trans (hr.frameH.toFrame.trans h2)
  | finish t u _ j info e hr hb hf =>
    have h1 := (sim_bodyDest (E := E) hF.keeps _ _ (fresh_enterDest _ _)).frame hF hb (by simp)
    obtain ⟨r', hf'⟩ := finDest_state e info u _ _ hf
    exact (bcPush_frame s).trans (hr.frameH.toFrame.trans (finishDest_frame e j t u _ r' h1 hf').1)

/-- leaving a call on the same context -/
theorem popSame_frame (i : CallInput) (s u : St χ A) (h : Frame (enterSameState E i s) u) :
    (Frame s (popSameFail E u) ∧ (popSameFail E u).rt.cur = s.rt.cur ∧ (popSameFail E u).rt.instance_ = s.rt.instance_ ∧
      (popSameFail E u).bcStack = u.bcStack.tail ∧ (popSameFail E u).big = s.big) ∧
    (Frame s (popSameOk u) ∧ (popSameOk u).rt.cur = s.rt.cur ∧ (popSameOk u).rt.instance_ = s.rt.instance_ ∧
      (popSameOk u).bcStack = u.bcStack.tail) := by
  have hbig : u.big.stack = s.big.vals :: s.big.stack := h.big
  have hsto : u.sto.stack = s.sto.stack := h.stoStack
  have hstoA : u.sto.addr = s.sto.addr := h.stoAddr
  have hout : u.out.stack = mergeOut {} s.out.cur :: s.out.stack := h.out
  have hmet : u.met.stack = s.met.cur :: s.met.stack := h.met
  have hrt : u.rt.stack = s.rt.cur :: s.rt.stack := h.rt
  have hins : u.rt.instanceStack = s.rt.instance_ :: s.rt.instanceStack := h.insts
  have hsched : u.met.sched = s.met.sched := h.sched
  have hflags : u.flags = s.flags := h.flags
  constructor
  · unfold popSameFail
    obtain ⟨ins, he, _⟩ := rtPopSet_eq ({ u with big := u.big.popSet, met := u.met.popSet, out := u.out.popSet })
      s.rt.cur s.rt.stack s.rt.instance_ s.rt.instanceStack hrt hins
    rw [he]
    refine ⟨Frame.trans ?_ (bcPopSet_frame _), ?_, ?_, ?_, ?_⟩
    · refine ⟨?_, hsto, hstoA, ?_, ?_, ?_, rfl, rfl, hflags⟩
      · simp only [BigCtx.popSet, hbig]
      · simp only [OutCtx.popSet, hout]
      · simp only [MeterCtx.popSet, hmet]
      · simp only [MeterCtx.popSet, hmet, hsched]
    · rw [bcPopSet_rt]
    · rw [bcPopSet_rt]
    · rw [bcPopSet_bc]
    · have : ∀ w : St χ A, (St.bcPopSet E w).big = w.big := by intro w; unfold St.bcPopSet; split <;> rfl
      rw [this]
      simp only [BigCtx.popSet, hbig]
  · unfold popSameOk
    obtain ⟨ins, he, _⟩ := rtPopSet_eq (St.bcPopDiscard { u with met := u.met.popMerge, out := u.out.popDiscard, big := u.big.popDiscard })
      s.rt.cur s.rt.stack s.rt.instance_ s.rt.instanceStack hrt hins
    rw [he]
    refine ⟨⟨?_, hsto, hstoA, ?_, ?_, ?_, rfl, rfl, hflags⟩, rfl, rfl, rfl⟩
    · simp only [St.bcPopDiscard, BigCtx.popDiscard, hbig, List.tail_cons]
    · simp only [St.bcPopDiscard, OutCtx.popDiscard, hout, List.tail_cons]
    · simp only [St.bcPopDiscard, MeterCtx.popMerge, hmet]
    · simp only [St.bcPopDiscard, MeterCtx.popMerge, hmet, hsched]

theorem finishSame_frame (e : Option Err) (i : CallInput) (s u v : St χ A) (r : Res Unit) (h : Frame (enterSameState E i s) u)
    (he : finishSame E e u = (r, v)) : Frame s v ∧ v.rt.cur = s.rt.cur ∧ v.rt.instance_ = s.rt.instance_ ∧
      v.bcStack = u.bcStack.tail := by
  by_cases hc : u.out.cur.returnCode ≠ .ok ∨ e.isSome
  · rw [finishSame_fail e u hc] at he
    simp only [Prod.mk.injEq] at he
    rw [← he.2]
    have := (popSame_frame i s u h).1
    exact ⟨this.1, this.2.1, this.2.2.1, this.2.2.2.1⟩
  · have h1 : u.out.cur.returnCode = .ok := by
      by_cases h : u.out.cur.returnCode = .ok
      · exact h
      · exact absurd (.inl h) hc
    have h2 : e = none := by
      cases e with
      | none => rfl
      | some e => exact absurd (.inr rfl) hc
    subst h2
    rw [finishSame_ok u h1] at he
    obtain ⟨o, m, ho⟩ := getVMOutput_only (E := E) u
    have h3 := (popSame_frame i s _ (h.trans (Frame.only ho))).2
    have h4 := frame_restoreGas _ _ _ _ he
    have hbc : (getVMOutput E u).2.bcStack = u.bcStack := by rw [ho]
    rw [hbc] at h3
    exact ⟨h3.1.trans h4.toFrame, h4.cur.trans h3.2.1, h4.inst.trans h3.2.2.1, h4.bc.trans h3.2.2.2⟩

/-- Nested execution to any depth keeps the frame. -/
theorem frameEx_execN (E : Env χ A) : ∀ n, FrameEx (execN E n)
  | 0 => ⟨by simp [execN, M.oof], by simp [execN, M.oof], by simp [execN, M.oof], by simp [execN, M.oof]⟩
  | n + 1 => by
    have hF := frameEx_execN E n
    refine ⟨?_, ?_, ?_, ?_⟩
    · intro i s r t h
      rcases execDest_any i s t _ h with ⟨a, _, h⟩ | ⟨h, _⟩ | ⟨h, _⟩
      · exact h.frame hF
      · simp at h
      · simp at h
    · intro i s r t h
      rcases execSame_any i s t _ h with ⟨_, h, _⟩ | ⟨_, ⟨e, u, h1, h2⟩ | ⟨h, _⟩ | ⟨h, _⟩⟩
      · rw [h]; exact .refl s
      · have hb := ((sim_bodySame (E := E) hF.keeps _ _ (fresh_enterSame _ _)).ok h1).frame hF
        rcases h2 with ⟨_, h2⟩ | ⟨h2, _⟩
        · obtain ⟨a, b, c, d⟩ := finishSame_frame e i s u t _ hb.1 h2
          refine ⟨a, b, c, ?_⟩
          rw [d, hb.2.bc]; rfl
        · simp at h2
      · simp at h
      · simp at h
    · intro i s t h
      rcases execDest_any i s t _ h with ⟨a, h, _⟩ | ⟨_, h⟩ | ⟨h, _⟩
      · simp at h
      · exact h.frame hF
      · simp at h
    · intro i s t h
      rcases execSame_any i s t _ h with ⟨h, _, _⟩ | ⟨_, ⟨e, u, h1, h2⟩ | ⟨_, u, h1, h2⟩ | ⟨h, _⟩⟩
      · simp at h
      · have hb := (sim_bodySame (E := E) hF.keeps _ _ (fresh_enterSame _ _)).frame hF h1 (by simp)
        rcases h2 with ⟨h2, _⟩ | ⟨_, h2⟩
        · simp at h2
        · exact (finishSame_frame e i s u t _ hb h2).1
      · have hb := (sim_bodySame (E := E) hF.keeps _ _ (fresh_enterSame _ _)).frame hF h1 (by simp)
        have := (finishSame_frame (E := E) none i s u (finishSame E none u).2 (finishSame E none u).1 hb rfl).1
        rw [h2] at this
        exact this
      · simp at h

theorem keepsInst_execN (E : Env χ A) (n : Nat) : KeepsInst (execN E n) := (frameEx_execN E n).keeps

/-! ### The contexts after a call -/

theorem resolveReturnCode_ne (e : Err) : resolveReturnCode (some e) ≠ .ok := by
  unfold resolveReturnCode
  dsimp only
  repeat' split
  all_goals simp

/-- the gas record of the caller after a successful call -/
def MeterCore.merge (p c : MeterCore) : MeterCore :=
  { p with gasUsedByAccounts := AMap.mergeWith (fun old g => old.getD 0 + g) c.gasUsedByAccounts p.gasUsedByAccounts }

/-- The state after leaving a call on the destination's context. -/
structure LeftDest (E : Env χ A) (e : Option Err) (s u : St χ A) (out : VMOutput) (v : St χ A) : Prop where
  out_eq : out = (destOutput E e u).1
  big : v.big = s.big
  world : v.world = u.world
  codeUpdates : v.out.codeUpdates = u.out.codeUpdates
  protect : v.sto.protect = u.sto.protect
  failed : out.returnCode ≠ .ok → v.out.cur = s.out.cur ∧ v.met.cur = s.met.cur
  ok : out.returnCode = .ok → v.out.cur = mergeOut s.out.cur (destOutput E e u).2.out.cur ∧
    v.met.cur = MeterCore.merge s.met.cur (destOutput E e u).2.met.cur
  nextInst : v.nextInst = u.nextInst
  codeSize : v.rt.codeSize = u.rt.codeSize
  verifyCode : v.rt.verifyCode = u.rt.verifyCode
  warmAddress : v.rt.warmAddress = u.rt.warmAddress
  warmInstance : v.rt.warmInstance = u.rt.warmInstance

theorem popDest_left (i : CallInput) (s u : St χ A) (h : Frame (enterDestState i s) u) (ok : Bool) :
    (popDest ok u).world = u.world ∧ (popDest ok u).out.codeUpdates = u.out.codeUpdates ∧
    (popDest ok u).sto.protect = u.sto.protect ∧ (popDest ok u).nextInst = u.nextInst ∧
    (popDest ok u).rt.codeSize = u.rt.codeSize ∧ (popDest ok u).rt.verifyCode = u.rt.verifyCode ∧
    (popDest ok u).rt.warmAddress = u.rt.warmAddress ∧ (popDest ok u).rt.warmInstance = u.rt.warmInstance ∧
    (ok = false → (popDest ok u).out.cur = s.out.cur ∧ (popDest ok u).met.cur = s.met.cur) ∧
    (ok = true → (popDest ok u).out.cur = mergeOut s.out.cur u.out.cur ∧
      (popDest ok u).met.cur = MeterCore.merge s.met.cur u.met.cur) := by
  have hsto : u.sto.stack = s.sto.addr :: s.sto.stack := h.stoStack
  have hout : u.out.stack = s.out.cur :: s.out.stack := by
    have : u.out.stack = mergeOut {} s.out.cur :: s.out.stack := h.out
    rw [this, mergeOut_empty]
  have hmet : u.met.stack = s.met.cur :: s.met.stack := h.met
  have hrt : u.rt.stack = s.rt.cur :: s.rt.stack := h.rt
  have hins : u.rt.instanceStack = s.rt.instance_ :: s.rt.instanceStack := h.insts
  unfold popDest
  cases ok
  · obtain ⟨ins, he, _⟩ := rtPopSet_eq ({ u with big := u.big.popSet, sto := u.sto.popSet, met := u.met.popSet, out := u.out.popSet })
      s.rt.cur s.rt.stack s.rt.instance_ s.rt.instanceStack hrt hins
    dsimp only
    rw [if_neg (by simp), he]
    refine ⟨rfl, ?_, ?_, rfl, rfl, rfl, rfl, rfl, ?_, by simp⟩
    · simp only [OutCtx.popSet, hout]
    · simp only [StoCtx.popSet, hsto]
    · intro _; simp only [OutCtx.popSet, hout, MeterCtx.popSet, hmet, and_self]
  · obtain ⟨ins, he, _⟩ := rtPopSet_eq ({ u with big := u.big.popSet, sto := u.sto.popSet, met := u.met.popMerge, out := u.out.popMerge })
      s.rt.cur s.rt.stack s.rt.instance_ s.rt.instanceStack hrt hins
    dsimp only
    rw [if_pos rfl, he]
    refine ⟨rfl, ?_, ?_, rfl, rfl, rfl, rfl, rfl, by simp, ?_⟩
    · simp only [OutCtx.popMerge, hout]
    · simp only [StoCtx.popSet, hsto]
    · intro _; simp only [OutCtx.popMerge, hout, MeterCtx.popMerge, hmet, mergeOut_empty, MeterCore.merge, and_self]

theorem finishDest_left (e : Option Err) (i : CallInput) (s u v : St χ A) (out : VMOutput) (h : Frame (enterDestState i s) u)
    (he : finishDest E e u = (.ok out, v)) : LeftDest E e s u out v := by
  have hbig := (finishDest_frame e i s u v _ h he).2.2.2.2
  obtain ⟨o, m, ho⟩ := destOutput_only (E := E) e u
  have h1 : Frame (enterDestState i s) (destOutput E e u).2 := h.trans (Frame.only ho)
  obtain ⟨p1, p2, p3, p4, p5, p6, p7, p8, p9, p10⟩ := popDest_left i s _ h1 (decide ((destOutput E e u).1.returnCode = .ok))
  rw [finishDest_run] at he
  generalize hw : popDest (decide ((destOutput E e u).1.returnCode = .ok)) (destOutput E e u).2 = w at *
  obtain ⟨r', ins, hr, _, _⟩ := restoreGas_only (destOutput E e u).1.gasRemaining w
  simp only [M.bind_eq, M.bind, hr] at he
  cases r' with
  | panic => simp at he
  | oof => simp at he
  | ok a =>
    simp only [M.pure_eq, M.pure, Prod.mk.injEq, Res.ok.injEq] at he
    obtain ⟨he1, he2⟩ := he
    subst he2
    refine ⟨he1.symm, hbig, ?_, ?_, ?_, ?_, ?_, ?_, ?_, ?_, ?_, ?_⟩
    · rw [← show (destOutput E e u).2.world = u.world by rw [ho]]; exact p1
    · rw [← show (destOutput E e u).2.out.codeUpdates = u.out.codeUpdates by rw [ho]]; exact p2
    · rw [← show (destOutput E e u).2.sto.protect = u.sto.protect by rw [ho]]; exact p3
    · intro hc; rw [← he1] at hc; exact p9 (by simpa using hc)
    · intro hc; rw [← he1] at hc; exact p10 (by simpa using hc)
    · rw [← show (destOutput E e u).2.nextInst = u.nextInst by rw [ho]]; exact p4
    · rw [← show (destOutput E e u).2.rt.codeSize = u.rt.codeSize by rw [ho]]; exact p5
    · rw [← show (destOutput E e u).2.rt.verifyCode = u.rt.verifyCode by rw [ho]]; exact p6
    · rw [← show (destOutput E e u).2.rt.warmAddress = u.rt.warmAddress by rw [ho]]; exact p7
    · rw [← show (destOutput E e u).2.rt.warmInstance = u.rt.warmInstance by rw [ho]]; exact p8

/-- the result of a call on the destination's context: an error exactly when the output is not Ok -/
theorem finDest_left (e : Option Err) (info : Option AsyncContextInfo) (i : CallInput) (s u v : St χ A) (r : DestResult)
    (h : Frame (enterDestState i s) u) (he : finDest E e info u = (.ok r, v)) :
    LeftDest E e s u r.output v ∧ (r.err.isSome ↔ r.output.returnCode ≠ .ok) ∧ r.asyncInfo = info := by
  unfold finDest at he
  rcases bind_ok he with ⟨out, w, h1, h2⟩ | ⟨_, h2⟩ | ⟨_, h2⟩
  · have hl := finishDest_left e i s u w out h h1
    cases e with
    | some e =>
      simp only [M.pure_eq, M.pure, Prod.mk.injEq, Res.ok.injEq] at h2
      obtain ⟨h2, h3⟩ := h2
      subst h2 h3
      refine ⟨hl, ?_, rfl⟩
      have := hl.out_eq
      simp only [destOutput, outputOnError] at this
      rw [this]
      simp [resolveReturnCode_ne]
    | none =>
      simp only [M.pure_eq, M.pure, Prod.mk.injEq, Res.ok.injEq] at h2
      obtain ⟨h2, h3⟩ := h2
      subst h2 h3
      refine ⟨hl, ?_, rfl⟩
      by_cases hc : out.returnCode = .ok <;> simp [hc]
  · simp at h2
  · simp at h2

theorem bcPopSet_rest (s : St χ A) : (St.bcPopSet E s).out = s.out ∧ (St.bcPopSet E s).met = s.met ∧ (St.bcPopSet E s).big = s.big ∧
    (St.bcPopSet E s).sto = s.sto ∧ (St.bcPopSet E s).insts = s.insts ∧ (St.bcPopSet E s).nextInst = s.nextInst ∧
    (St.bcPopSet E s).flags = s.flags := by
  unfold St.bcPopSet; split <;> exact ⟨rfl, rfl, rfl, rfl, rfl, rfl, rfl⟩

end Arwen
