import Verif.Host.SimCall
/-
Nested calls give the contexts back as they found them: heights and contents of all context stacks, the executing contract and
the running instance.
-/
namespace Arwen
variable {χ A : Type} {E : Env χ A} {ex : Executor χ A}

/-- The stacks of all contexts, the storage address and the configuration are the same. -/
structure Frame (s t : St χ A) : Prop where
  big : t.big.stack = s.big.stack
  stoStack : t.sto.stack = s.sto.stack
  stoAddr : t.sto.addr = s.sto.addr
  out : t.out.stack = s.out.stack
  met : t.met.stack = s.met.stack
  sched : t.met.sched = s.met.sched
  rt : t.rt.stack = s.rt.stack
  insts : t.rt.instanceStack = s.rt.instanceStack
  flags : t.flags = s.flags

theorem Frame.refl (s : St χ A) : Frame s s := ⟨rfl, rfl, rfl, rfl, rfl, rfl, rfl, rfl, rfl⟩
theorem Frame.trans {s t u : St χ A} (h : Frame s t) (h' : Frame t u) : Frame s u :=
  ⟨h'.big.trans h.big, h'.stoStack.trans h.stoStack, h'.stoAddr.trans h.stoAddr, h'.out.trans h.out, h'.met.trans h.met,
   h'.sched.trans h.sched, h'.rt.trans h.rt, h'.insts.trans h.insts, h'.flags.trans h.flags⟩

/-- What a call that returns gives back unchanged. -/
structure FrameOk (s t : St χ A) : Prop extends Frame s t where
  cur : t.rt.cur = s.rt.cur
  inst : t.rt.instance_ = s.rt.instance_
  bc : t.bcStack = s.bcStack

/-- nested calls keep the frame; a panic may leave snapshots behind -/
structure FrameEx (ex : Executor χ A) : Prop where
  dest : ∀ i s r t, ex.dest i s = (.ok r, t) → FrameOk s t
  same : ∀ i s r t, ex.same i s = (.ok r, t) → FrameOk s t
  destPanic : ∀ i s t, ex.dest i s = (.panic, t) → Frame s t
  samePanic : ∀ i s t, ex.same i s = (.panic, t) → Frame s t

theorem FrameEx.keeps (h : FrameEx ex) : KeepsInst ex :=
  ⟨fun i s r t he => (h.dest i s r t he).inst, fun i s r t he => (h.same i s r t he).inst, fun i s r t he => (h.dest i s r t he).cur⟩

theorem FrameEx.bad (h : FrameEx ex) {s t : St χ A} (hb : NestedBad ex .panic s t) : Frame s t := by
  rcases hb with ⟨i, hb⟩ | ⟨i, hb⟩
  · split at hb
    · simp at hb
    · rename_i u he; simp only [Prod.mk.injEq] at hb; rw [← hb.2]; exact h.destPanic i s u he
    · simp at hb
  · split at hb
    · simp at hb
    · rename_i u he; simp only [Prod.mk.injEq] at hb; rw [← hb.2]; exact h.samePanic i s u he
    · simp at hb

/-- The part of a contract's view of its call that steps of contracts keep. -/
structure SameCall (s t : St χ A) : Prop where
  addr : t.rt.cur.scAddress = s.rt.cur.scAddress
  caller : t.rt.cur.vmInput.caller = s.rt.cur.vmInput.caller
  callType : t.rt.cur.vmInput.callType = s.rt.cur.vmInput.callType
  callValue : t.rt.cur.vmInput.callValue = s.rt.cur.vmInput.callValue
  esdt : t.rt.cur.vmInput.esdt = s.rt.cur.vmInput.esdt
  bc : t.bcStack = s.bcStack
theorem SameCall.refl (s : St χ A) : SameCall s s := ⟨rfl, rfl, rfl, rfl, rfl, rfl⟩
theorem SameCall.trans {s t u : St χ A} (h : SameCall s t) (h' : SameCall t u) : SameCall s u :=
  ⟨h'.addr.trans h.addr, h'.caller.trans h.caller, h'.callType.trans h.callType, h'.callValue.trans h.callValue,
   h'.esdt.trans h.esdt, h'.bc.trans h.bc⟩
theorem SameCall.of_cur {s t : St χ A} (h : t.rt.cur = s.rt.cur) (hb : t.bcStack = s.bcStack) : SameCall s t := by
  constructor <;> first | exact hb | (rw [h])

theorem StepA.frame (hF : FrameEx ex) {s t : St χ A} (h : StepA E ex s t) : Frame s t ∧ SameCall s t := by
  cases h with
  | dest _ i r h _ => exact ⟨(hF.dest _ _ _ _ h).toFrame, .of_cur (hF.dest _ _ _ _ h).cur (hF.dest _ _ _ _ h).bc⟩
  | same _ i r h _ => exact ⟨(hF.same _ _ _ _ h).toFrame, .of_cur (hF.same _ _ _ _ h).cur (hF.same _ _ _ _ h).bc⟩
  | undo _ i r a ci h =>
    have h1 := (hF.dest _ _ _ _ h).toFrame
    exact ⟨⟨h1.big, h1.stoStack, h1.stoAddr, h1.out, h1.met, h1.sched, h1.rt, h1.insts, h1.flags⟩, .of_cur (hF.dest _ _ _ _ h).cur (hF.dest _ _ _ _ h).bc⟩
  | big b hb => exact ⟨⟨hb, rfl, rfl, rfl, rfl, rfl, rfl, rfl, rfl⟩, ⟨rfl, rfl, rfl, rfl, rfl, rfl⟩⟩
  | rt c hc => cases hc <;> exact ⟨⟨rfl, rfl, rfl, rfl, rfl, rfl, rfl, rfl, rfl⟩, ⟨rfl, rfl, rfl, rfl, rfl, rfl⟩⟩
  | _ => exact ⟨⟨rfl, rfl, rfl, rfl, rfl, rfl, rfl, rfl, rfl⟩, ⟨rfl, rfl, rfl, rfl, rfl, rfl⟩⟩

/-! ### The final output -/

/-- computing the final output changes the active output and the active gas record only -/
theorem getVMOutput_only (s : St χ A) : ∃ (o : VMOutput) (m : MeterCore),
    (getVMOutput E s).2 = { s with out := { s.out with cur := o }, met := { s.met with cur := m } } := by
  unfold getVMOutput updateGasOnSuccess
  have h1 : ∀ s : St χ A, ∃ o m, updateSCGasUsed s = { s with out := { s.out with cur := o }, met := { s.met with cur := m } } := by
    intro s
    unfold updateSCGasUsed
    dsimp only
    have : ∃ o, (s.out.getAcc s.rt.cur.scAddress).2.2 = { s.out with cur := o } := by
      unfold OutCtx.getAcc
      split <;> exact ⟨_, rfl⟩
    obtain ⟨o, ho⟩ := this
    rw [ho]
    exact ⟨_, _, rfl⟩
  have h2 : ∀ s : St χ A, ∃ o, (setGasUsed s).2 = { s with out := { s.out with cur := o } } := fun s => ⟨_, rfl⟩
  dsimp only
  generalize hs1 : ({ s with out := { s.out.removeNonUpdatedCode with
    cur := { s.out.removeNonUpdatedCode.cur with gasRemaining := _ } } } : St χ A) = s1
  obtain ⟨o, m, ho⟩ := h1 s1
  obtain ⟨o', ho'⟩ := h2 (updateSCGasUsed s1)
  have h3 : ∀ e, ∃ o m, (outputOnError E e (setGasUsed (updateSCGasUsed s1)).2).2
      = { s with out := { s.out with cur := o }, met := { s.met with cur := m } } := by
    intro e
    simp only [outputOnError, updateGasOnFailure]
    rw [ho', ho, ← hs1]
    exact ⟨_, _, rfl⟩
  have h4 : ∃ o m, (setGasUsed (updateSCGasUsed s1)).2
      = { s with out := { s.out with cur := o }, met := { s.met with cur := m } } := by
    rw [ho', ho, ← hs1]
    exact ⟨_, _, rfl⟩
  cases (setGasUsed (updateSCGasUsed s1)).1 with
  | some e => exact h3 e
  | none =>
    dsimp only
    cases checkGas (setGasUsed (updateSCGasUsed s1)).2 with
    | some e => exact h3 e
    | none => exact h4

theorem outputOnError_only (s : St χ A) (e : Err) : ∃ (o : VMOutput) (m : MeterCore),
    (outputOnError E e s).2 = { s with out := { s.out with cur := o }, met := { s.met with cur := m } } :=
  ⟨_, s.met.cur, rfl⟩

theorem StepB.frame (hF : FrameEx ex) {s t : St χ A} (h : StepB E ex s t) : Frame s t ∧ SameCall s t := by
  cases h with
  | a _ h => exact h.frame hF
  | finalize =>
    obtain ⟨o, m, h⟩ := getVMOutput_only (E := E) s
    rw [h]; exact ⟨⟨rfl, rfl, rfl, rfl, rfl, rfl, rfl, rfl, rfl⟩, ⟨rfl, rfl, rfl, rfl, rfl, rfl⟩⟩
  | clean _ =>
    unfold St.cleanInstance
    split
    · exact ⟨.refl s, .refl s⟩
    · split
      · exact ⟨.refl s, .refl s⟩
      · exact ⟨⟨rfl, rfl, rfl, rfl, rfl, rfl, rfl, rfl, rfl⟩, ⟨rfl, rfl, rfl, rfl, rfl, rfl⟩⟩
  | failed c new m g h1 h2 h3 =>
    unfold St.cleanInstance
    split
    · exact ⟨⟨rfl, rfl, rfl, rfl, rfl, rfl, rfl, rfl, rfl⟩, ⟨rfl, rfl, rfl, rfl, rfl, rfl⟩⟩
    · split <;> exact ⟨⟨rfl, rfl, rfl, rfl, rfl, rfl, rfl, rfl, rfl⟩, ⟨rfl, rfl, rfl, rfl, rfl, rfl⟩⟩
  | _ => exact ⟨⟨rfl, rfl, rfl, rfl, rfl, rfl, rfl, rfl, rfl⟩, ⟨rfl, rfl, rfl, rfl, rfl, rfl⟩⟩

theorem Run.frame (hF : FrameEx ex) {s t : St χ A} (h : Run (StepB E ex) s t) : Frame s t ∧ SameCall s t :=
  h.rel (R := fun s t => Frame s t ∧ SameCall s t) (fun s => ⟨.refl s, .refl s⟩)
    (fun _ _ _ h1 h2 => ⟨h1.1.trans h2.1, h1.2.trans h2.2⟩) (fun _ _ h => h.frame hF)

theorem StepT.frame (hF : FrameEx ex) {s t : St χ A} (h : StepT E ex s t) : Frame s t ∧ SameCall s t := by
  cases h with
  | b _ h => exact h.frame hF
  | top d _ => exact ⟨⟨rfl, rfl, rfl, rfl, rfl, rfl, rfl, rfl, rfl⟩, ⟨rfl, rfl, rfl, rfl, rfl, rfl⟩⟩

theorem Run.frameT (hF : FrameEx ex) {s t : St χ A} (h : Run (StepT E ex) s t) : Frame s t ∧ SameCall s t :=
  h.rel (R := fun s t => Frame s t ∧ SameCall s t) (fun s => ⟨.refl s, .refl s⟩)
    (fun _ _ _ h1 h2 => ⟨h1.1.trans h2.1, h1.2.trans h2.2⟩) (fun _ _ h => h.frame hF)

/-- a body that returned or panicked has kept the frame -/
theorem SimAt.frameT (hF : FrameEx ex) {α : Type} {m : M χ A α} {s t : St χ A} {r : Res α}
    (h : SimAt ex (StepT E ex) m s) (he : m s = (r, t)) (hr : r ≠ .oof) : Frame s t := by
  unfold SimAt at h
  rw [he] at h
  cases r with
  | ok a => exact (h.frameT hF).1
  | panic =>
    obtain ⟨t0, h1, h2⟩ := h
    rcases h2 with rfl | h2
    · exact (h1.frameT hF).1
    · exact (h1.frameT hF).1.trans (hF.bad h2)
  | oof => exact absurd rfl hr

/-- a body that returned or panicked has kept the frame -/
theorem SimAt.frame (hF : FrameEx ex) {α : Type} {m : M χ A α} {s t : St χ A} {r : Res α}
    (h : SimAt ex (StepB E ex) m s) (he : m s = (r, t)) (hr : r ≠ .oof) : Frame s t := by
  unfold SimAt at h
  rw [he] at h
  cases r with
  | ok a => exact (h.frame hF).1
  | panic =>
    obtain ⟨t0, h1, h2⟩ := h
    rcases h2 with rfl | h2
    · exact (h1.frame hF).1
    · exact (h1.frame hF).1.trans (hF.bad h2)
  | oof => exact absurd rfl hr

/-! ### Leaving a nested call -/

/-- restoring the caller's runtime state and instance -/
theorem rtPopSet_eq (s : St χ A) (p : RtCore) (rest : List RtCore) (x : Option Nat) (irest : List (Option Nat))
    (h1 : s.rt.stack = p :: rest) (h2 : s.rt.instanceStack = x :: irest) : ∃ ins : Nat → Inst A,
    s.rtPopSet = { s with insts := ins, rt := { s.rt with cur := p, stack := rest, instance_ := x, instanceStack := irest } } ∧
    (∀ j, ins j = s.insts j ∨ (s.rt.instance_ = some j ∧ x ≠ some j ∧ ins j = (s.insts j).clean)) := by
  unfold St.rtPopSet
  rw [h1]
  dsimp only
  unfold St.popInstance
  dsimp only
  rw [h2]
  dsimp only
  split
  · rename_i hx
    refine ⟨s.insts, ?_, fun j => .inl rfl⟩
    simp only [hx]
  · rename_i hx
    unfold St.cleanInstance
    dsimp only
    split
    · exact ⟨s.insts, rfl, fun j => .inl rfl⟩
    · rename_i i hi
      split
      · exact ⟨s.insts, rfl, fun j => .inl rfl⟩
      · refine ⟨_, rfl, fun j => ?_⟩
        by_cases hj : j = i
        · subst hj
          refine .inr ⟨hi, ?_, by simp [St.modInst]⟩
          intro hc; exact hx (hc.trans hi.symm)
        · exact .inl (by simp [St.modInst, hj])

/-- giving gas back changes the points of the current instance only -/
theorem restoreGas_only (g : UInt64) (s : St χ A) : ∃ (r : Res Unit) (ins : Nat → Inst A), restoreGas g s = (r, { s with insts := ins }) ∧
    r ≠ .oof ∧ (∀ j, ins j = s.insts j ∨ (s.rt.instance_ = some j ∧ g ≤ (s.insts j).points ∧
      ins j = { s.insts j with points := clampPoints (subU64 (s.insts j).points g) })) := by
  simp only [restoreGas, M.bind_eq, M.bind, M.get]
  split
  · rename_i hg
    simp only [setPointsUsed]
    cases hi : s.rt.instance_ with
    | none => exact ⟨.panic, s.insts, rfl, by simp, fun j => .inl rfl⟩
    | some i =>
      refine ⟨.ok (), _, rfl, by simp, fun j => ?_⟩
      by_cases hj : j = i
      · subst hj
        simp only [St.pointsUsed, hi] at hg ⊢
        exact .inr ⟨trivial, hg, by simp [clampPoints]⟩
      · exact .inl (by simp [hj])
  · exact ⟨.ok (), s.insts, rfl, by simp, fun j => .inl rfl⟩

theorem frame_restoreGas (g : UInt64) (s t : St χ A) (r : Res Unit) (h : restoreGas g s = (r, t)) : FrameOk s t := by
  obtain ⟨r', ins, h1, _, _⟩ := restoreGas_only g s
  rw [h1] at h
  simp only [Prod.mk.injEq] at h
  rw [← h.2]
  exact ⟨⟨rfl, rfl, rfl, rfl, rfl, rfl, rfl, rfl, rfl⟩, rfl, rfl, rfl⟩

/-- the state in which a called contract starts -/
def enterDestState (i : CallInput) (s : St χ A) : St χ A := (enterDest i s).2

theorem enterDest_ok (i : CallInput) (s : St χ A) : ∃ i', enterDest i s = (.ok i', enterDestState i s) := ⟨_, rfl⟩

theorem pure_bind' {α β : Type} (a : α) {g : α → M χ A β} (s : St χ A) : (pure a >>= g : M χ A β) s = g a s := rfl

/-- the output of a nested call and the state before the contexts are popped -/
def destOutput (E : Env χ A) (err : Option Err) (s : St χ A) : VMOutput × St χ A :=
  match err with
  | some e => outputOnError E e s
  | none => getVMOutput E s

theorem destOutput_only (err : Option Err) (s : St χ A) : ∃ (o : VMOutput) (m : MeterCore),
    (destOutput E err s).2 = { s with out := { s.out with cur := o }, met := { s.met with cur := m } } := by
  unfold destOutput
  cases err with
  | some e => exact outputOnError_only s e
  | none => exact getVMOutput_only s

/-- the pops at the end of a call on the destination's context -/
def popDest (ok : Bool) (t : St χ A) : St χ A :=
  let t : St χ A := { t with big := t.big.popSet, sto := t.sto.popSet }
  let t : St χ A := if ok then { t with met := t.met.popMerge, out := t.out.popMerge }
    else { t with met := t.met.popSet, out := t.out.popSet }
  t.rtPopSet

theorem finishDest_run (err : Option Err) (s : St χ A) : finishDest E err s =
    (restoreGas (destOutput E err s).1.gasRemaining >>= fun _ => pure (destOutput E err s).1)
      (popDest (decide ((destOutput E err s).1.returnCode = .ok)) (destOutput E err s).2) := by
  unfold finishDest
  cases err with
  | some e =>
    simp only [lift_bind, modify_bind, destOutput, popDest]
    by_cases hc : (outputOnError E e s).1.returnCode = .ok
    · simp only [hc, decide_true, if_true]; rfl
    · simp only [hc, decide_false, if_false]; rfl
  | none =>
    simp only [lift_bind, modify_bind, destOutput, popDest]
    by_cases hc : (getVMOutput E s).1.returnCode = .ok
    · simp only [hc, decide_true, if_true]; rfl
    · simp only [hc, decide_false, if_false]; rfl

/-- popping after a body that kept the frame of the entered state gives the caller's frame back -/
theorem popDest_frame (ok : Bool) (i : CallInput) (s t : St χ A) (h : Frame (enterDestState i s) t) :
    Frame s (popDest ok t) ∧ (popDest ok t).rt.cur = s.rt.cur ∧ (popDest ok t).rt.instance_ = s.rt.instance_ ∧
      (popDest ok t).bcStack = t.bcStack ∧ (popDest ok t).big = s.big := by
  have hbig : t.big.stack = s.big.vals :: s.big.stack := h.big
  have hsto : t.sto.stack = s.sto.addr :: s.sto.stack := h.stoStack
  have hout : t.out.stack = mergeOut {} s.out.cur :: s.out.stack := h.out
  have hmet : t.met.stack = s.met.cur :: s.met.stack := h.met
  have hrt : t.rt.stack = s.rt.cur :: s.rt.stack := h.rt
  have hins : t.rt.instanceStack = s.rt.instance_ :: s.rt.instanceStack := h.insts
  have hsched : t.met.sched = s.met.sched := h.sched
  have hflags : t.flags = s.flags := h.flags
  unfold popDest
  cases ok
  · obtain ⟨ins, he, _⟩ := rtPopSet_eq ({ t with big := t.big.popSet, sto := t.sto.popSet, met := t.met.popSet, out := t.out.popSet })
      s.rt.cur s.rt.stack s.rt.instance_ s.rt.instanceStack hrt hins
    dsimp only
    rw [if_neg (by simp), he]
    refine ⟨⟨?_, ?_, ?_, ?_, ?_, ?_, rfl, rfl, hflags⟩, rfl, rfl, rfl, ?_⟩
    · simp only [BigCtx.popSet, hbig]
    · simp only [StoCtx.popSet, hsto]
    · simp only [StoCtx.popSet, hsto]
    · simp only [OutCtx.popSet, hout]
    · simp only [MeterCtx.popSet, hmet]
    · simp only [MeterCtx.popSet, hmet, hsched]
    · simp only [BigCtx.popSet, hbig]
  · obtain ⟨ins, he, _⟩ := rtPopSet_eq ({ t with big := t.big.popSet, sto := t.sto.popSet, met := t.met.popMerge, out := t.out.popMerge })
      s.rt.cur s.rt.stack s.rt.instance_ s.rt.instanceStack hrt hins
    dsimp only
    rw [if_pos rfl, he]
    refine ⟨⟨?_, ?_, ?_, ?_, ?_, ?_, rfl, rfl, hflags⟩, rfl, rfl, rfl, ?_⟩
    · simp only [BigCtx.popSet, hbig]
    · simp only [StoCtx.popSet, hsto]
    · simp only [StoCtx.popSet, hsto]
    · simp only [OutCtx.popMerge, hout]
    · simp only [MeterCtx.popMerge, hmet]
    · simp only [MeterCtx.popMerge, hmet, hsched]
    · simp only [BigCtx.popSet, hbig]

theorem Frame.only {s : St χ A} {o : VMOutput} {m : MeterCore} {t : St χ A}
    (h : t = { s with out := { s.out with cur := o }, met := { s.met with cur := m } }) : Frame s t := by
  subst h; exact ⟨rfl, rfl, rfl, rfl, rfl, rfl, rfl, rfl, rfl⟩

end Arwen
