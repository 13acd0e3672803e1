import Verif.Spec.Attribution
import Verif.Props.Gas
import Verif.Props.Aggregate
/-
C66: gas is charged to the account that used it.
-/
namespace Arwen.Props
open Arwen Spec
variable {χ A : Type} {E : Env χ A}

/-! ### The final bookkeeping -/

/-- the final bookkeeping changes only the record of the running contract -/
theorem charged_final (s : St χ A) {a : Addr} (h : a ≠ s.rt.cur.scAddress) : chargedTo (getVMOutput E s).2 a = chargedTo s a := by
  have hx : chargedTo (setGasUsed (updateSCGasUsed (readyState s))).2 a = chargedTo s a := by
    exact congrArg (fun o => o.getD 0) (AMap.get?_insert_ne s.met.cur.gasUsedByAccounts _ (Ne.symm h))
  rcases getVMOutput_cases (E := E) s with h1 | h1 <;> rw [h1] <;> exact hx

/-- a successful output reports what is on record -/
theorem used_final (s : St χ A) (hok : (getVMOutput E s).1.returnCode = .ok) (a : Addr) :
    usedBy (getVMOutput E s).1 a = chargedTo (getVMOutput E s).2 a := by
  rcases (Ending.ok (E := E) (u := s)).cases with ⟨e, w, h⟩ | ⟨h1, h2, h3, _⟩
  · rw [h] at hok; exact absurd hok (onError_output e w).1
  · rw [h1, h3, updateGasOnSuccess_state]
    rw [updateGasOnSuccess_run] at h2
    generalize updateSCGasUsed (readyState s) = x at h2
    have hacc : (setGasUsed x).2.out.cur.accounts.get? a = (x.out.cur.accounts.get? a).map
        (fun y => { y with gasUsed := (x.met.cur.gasUsedByAccounts.get? a).getD 0 }) :=
      AMap.lookupL_mapKey (W := OutAcc) (fun k (y : OutAcc) => { y with gasUsed := (x.met.cur.gasUsedByAccounts.get? k).getD 0 }) x.out.cur.accounts.entries a
    have hmet : (setGasUsed x).2.met = x.met := rfl
    unfold usedBy chargedTo
    rw [hmet, hacc]
    cases hg : x.out.cur.accounts.get? a with
    | some y => rfl
    | none =>
      cases hu : x.met.cur.gasUsedByAccounts.get? a with
      | none => rfl
      | some g =>
        exfalso
        have hf : (setGasUsed x).1 ≠ none := by
          unfold setGasUsed
          dsimp only
          split
          · rename_i hall
            exfalso
            have := List.all_eq_true.mp hall (a, g) ((AMap.mem_entries_iff _ _ _).mpr hu)
            have hc : (AMap.get? (setGasUsed x).2.out.cur.accounts a).isSome = true := this
            rw [hacc, hg] at hc
            cases hc
          · simp
        cases hs : (setGasUsed x).1 with
        | none => exact hf hs
        | some e => rw [hs] at h2; cases h2

theorem charged_merge (p c : MeterCore) (a : Addr) :
    ((MeterCore.merge p c).gasUsedByAccounts.get? a).getD 0 = (p.gasUsedByAccounts.get? a).getD 0 + (c.gasUsedByAccounts.get? a).getD 0 := by
  unfold MeterCore.merge
  dsimp only
  rw [AMap.get?_mergeWith]
  cases p.gasUsedByAccounts.get? a with
  | none => simp
  | some g => simp [UInt64.add_comm]

theorem copy_recipient (s : St χ A) (i : CallInput) : (copyTxHashes s i).recipient = i.recipient := by
  unfold copyTxHashes; split <;> rfl

/-! ### Calls -/

/-- what a call on the destination's context leaves on record -/
theorem dest_charge {n : Nat} {i : CallInput} {s t : St χ A} {r : DestResult} (h : (execN E n).dest i s = (.ok r, t)) :
    ((E.isBuiltin i.function = true ∨ r.output.returnCode ≠ .ok) ∧ ∀ a, chargedTo t a = chargedTo s a) ∨
    (r.output.returnCode = .ok ∧ ∀ a, chargedTo t a = chargedTo s a + usedBy r.output a) := by
  cases n with
  | zero => simp [execN, M.oof] at h
  | succ n =>
    have hF := frameEx_execN E n
    rcases execDest_any i s t _ h with ⟨a, ha, h⟩ | ⟨h, _⟩ | ⟨h, _⟩
    · simp only [Res.ok.injEq] at ha
      subst ha
      cases h with
      | failed u e hr hc =>
        refine .inl ⟨.inl hc, fun a => ?_⟩
        unfold chargedTo
        show ((St.bcPopSet E u).met.cur.gasUsedByAccounts.get? a).getD 0 = _
        rw [(bcPopSet_rest (E := E) u).2.1, stepH_met hr]; rfl
      | builtin u o hr hc =>
        refine .inl ⟨.inl hc, fun a => ?_⟩
        unfold chargedTo
        show (u.met.cur.gasUsedByAccounts.get? a).getD 0 = _
        rw [stepH_met hr]; rfl
      | called u w v j info e r hr hj hbd hf =>
        obtain ⟨hl, hiff, _⟩ := finDest_left e info j u w v _ (bodyDest_frame hF hbd).1 hf
        have hm : ∀ a, chargedTo (if r.err.isSome then St.bcPopSet E v else St.bcPopDiscard v) a = chargedTo v a := by
          intro a; unfold chargedTo
          split
          · rw [(bcPopSet_rest (E := E) v).2.1]
          · rfl
        have hs : u.met = s.met := by rw [stepH_met hr]; rfl
        by_cases hc : r.output.returnCode = .ok
        · refine .inr ⟨hc, fun a => ?_⟩
          rw [hm]
          unfold chargedTo
          rw [(hl.ok hc).2, charged_merge, hs]
          congr 1
          have h1 := hl.out_eq
          cases e with
          | some e => rw [h1] at hc; exact absurd hc (onError_output (E := E) e w).1
          | none => rw [h1] at hc ⊢; exact (used_final w hc a).symm
        · refine .inl ⟨.inr hc, fun a => ?_⟩
          rw [hm]
          unfold chargedTo
          rw [(hl.failed hc).2, hs]
    · simp at h
    · simp at h

/-- what a call on the caller's context leaves on record -/
theorem same_charge {n : Nat} {i : CallInput} {s t : St χ A} {r : Option Err} (h : (execN E (n + 1)).same i s = (.ok r, t)) :
    (r ≠ none ∧ ∀ a, chargedTo t a = chargedTo s a) ∨
    ∃ u, r = none ∧ bodySame E (execN E n) (enterSameInput E i s) (enterSameState E i s) = (.ok none, u) ∧
      (u.out.cur.returnCode = .ok ∧ (∀ a, chargedTo t a = chargedTo s a + chargedTo (getVMOutput E u).2 a) ∨
       u.out.cur.returnCode ≠ .ok ∧ ∀ a, chargedTo t a = chargedTo s a) := by
  have hF := frameEx_execN E n
  rcases execSame_any i s t _ h with ⟨hr, h, _⟩ | ⟨_, ⟨e, u, h1, h2⟩ | ⟨h, _⟩ | ⟨h, _⟩⟩
  · simp only [Res.ok.injEq] at hr
    subst h hr
    exact .inl ⟨by simp, fun _ => rfl⟩
  · rcases h2 with ⟨h2, h3⟩ | ⟨h2, _⟩
    · simp only [Res.ok.injEq] at h2
      subst h2
      have hfr := (((sim_bodySame (E := E) hF.keeps _ _ (fresh_enterSame i s)).ok h1).frame hF).1
      have hmet : u.met.stack = s.met.cur :: s.met.stack := hfr.met
      have hfail : (u.out.cur.returnCode ≠ .ok ∨ r.isSome) → ∀ a, chargedTo t a = chargedTo s a := by
        intro hc a
        rw [finishSame_fail r u hc] at h3
        simp only [Prod.mk.injEq, true_and] at h3
        unfold chargedTo
        rw [← h3]
        unfold popSameFail
        rw [(bcPopSet_rest (E := E) _).2.1, (rtPopSet_met _)]
        simp only [MeterCtx.popSet, hmet]
      cases r with
      | some e => exact .inl ⟨by simp, hfail (.inr rfl)⟩
      | none =>
        refine .inr ⟨u, rfl, h1, ?_⟩
        by_cases hc : u.out.cur.returnCode = .ok
        · refine .inl ⟨hc, fun a => ?_⟩
          rw [finishSame_ok u hc] at h3
          obtain ⟨o, m, ho⟩ := getVMOutput_only (E := E) u
          obtain ⟨r', ins', hr, _, _⟩ := restoreGas_only (getVMOutput E u).1.gasRemaining (popSameOk (getVMOutput E u).2)
          rw [hr] at h3
          simp only [Prod.mk.injEq] at h3
          have hmet' : (getVMOutput E u).2.met.stack = s.met.cur :: s.met.stack := by rw [ho]; exact hmet
          unfold chargedTo
          rw [← h3.2]
          dsimp only
          unfold popSameOk
          rw [rtPopSet_met]
          simp only [St.bcPopDiscard, MeterCtx.popMerge, hmet']
          exact charged_merge s.met.cur (getVMOutput E u).2.met.cur a
        · exact .inr ⟨hc, hfail (.inl hc)⟩
    · simp at h2
  · simp at h
  · simp at h

/-- **C66.** After a successful call of a contract each account is charged, on top of what the calls before it were charged for,
exactly what the output of the call reports for it. -/
theorem c66_call {n : Nat} {i : CallInput} {s t : St χ A} {r : DestResult} (hb : E.isBuiltin i.function = false)
    (h : (execN E n).dest i s = (.ok r, t)) (hok : r.output.returnCode = .ok) (a : Addr) :
    chargedTo t a = chargedTo s a + usedBy r.output a := by
  rcases dest_charge h with ⟨h1 | h1, _⟩ | ⟨_, h1⟩
  · rw [hb] at h1; cases h1
  · exact absurd hok h1
  · exact h1 a

/-- **C66.** A call that fails charges nothing to any account: its gas is left to the caller. -/
theorem c66_failed {n : Nat} {i : CallInput} {s t : St χ A} {r : DestResult} (h : (execN E n).dest i s = (.ok r, t))
    (hok : r.output.returnCode ≠ .ok) (a : Addr) : chargedTo t a = chargedTo s a := by
  rcases dest_charge h with ⟨_, h1⟩ | ⟨h1, _⟩
  · exact h1 a
  · exact absurd h1 hok

/-- **C66.** A failed call on the caller's context charges nothing; a successful one charges to the accounts other than the called
one what the calls made by the called contract charge to them. -/
theorem c66_same {n : Nat} {i : CallInput} {s t : St χ A} {r : Option Err} (h : (execN E (n + 1)).same i s = (.ok r, t)) :
    (r ≠ none → ∀ a, chargedTo t a = chargedTo s a) ∧
    (r = none → ∃ u, bodySame E (execN E n) (enterSameInput E i s) (enterSameState E i s) = (.ok none, u) ∧
      (u.out.cur.returnCode = .ok → ∀ a, a ≠ i.recipient → chargedTo t a = chargedTo s a + chargedTo u a)) := by
  rcases same_charge h with ⟨h1, h2⟩ | ⟨u, h1, hb, h2⟩
  · exact ⟨fun _ => h2, fun h => absurd h h1⟩
  · refine ⟨fun h => absurd h1 h, fun _ => ⟨u, hb, fun hc a ha => ?_⟩⟩
    rcases h2 with ⟨_, h2⟩ | ⟨h2, _⟩
    · rw [h2, charged_final]
      have hF := frameEx_execN E n
      have := ((((sim_bodySame (E := E) hF.keeps _ _ (fresh_enterSame i s)).ok hb).frame hF).2).addr
      rw [this]
      have hx : (enterSameState E i s).rt.cur.scAddress = i.recipient := copy_recipient _ i
      rw [hx]
      exact ha
    · exact absurd hc h2

/-! ### Transactions -/

/-- the running contract is the same and the others are charged for successful calls -/
def Ledger (E : Env χ A) (n : Nat) (s t : St χ A) : Prop :=
  t.rt.cur.scAddress = s.rt.cur.scAddress ∧
  ∃ cs, (∀ c ∈ cs, Charge E n c) ∧ ∀ a, a ≠ s.rt.cur.scAddress → chargedTo t a = chargedTo s a + totalCharge cs a

theorem totalCharge_append (l r : List (Addr → UInt64)) (a : Addr) : totalCharge (l ++ r) a = totalCharge l a + totalCharge r a := by
  induction l with
  | nil => simp [totalCharge]
  | cons x l ih => 
    unfold totalCharge at ih ⊢
    simp only [List.cons_append, List.map_cons, List.foldr_cons, ih, UInt64.add_assoc]

theorem Ledger.of_eq {n : Nat} {s t : St χ A} (h1 : t.rt.cur.scAddress = s.rt.cur.scAddress)
    (h2 : ∀ a, a ≠ s.rt.cur.scAddress → chargedTo t a = chargedTo s a) : Ledger E n s t :=
  ⟨h1, [], by simp, fun a ha => by rw [h2 a ha]; simp [totalCharge]⟩

theorem Ledger.trans {n : Nat} {s t u : St χ A} (h1 : Ledger E n s t) (h2 : Ledger E n t u) : Ledger E n s u := by
  obtain ⟨a1, c1, b1, d1⟩ := h1
  obtain ⟨a2, c2, b2, d2⟩ := h2
  refine ⟨a2.trans a1, c1 ++ c2, ?_, fun a ha => ?_⟩
  · intro c hc
    rcases List.mem_append.mp hc with h | h
    · exact b1 c h
    · exact b2 c h
  · rw [d2 a (by rw [a1]; exact ha), d1 a ha, totalCharge_append, UInt64.add_assoc]

theorem ledger_dest {n : Nat} {i : CallInput} {s t : St χ A} {r : DestResult} (h : (execN E n).dest i s = (.ok r, t)) : Ledger E n s t := by
  have hc := ((frameEx_execN E n).dest i s r t h).cur
  rcases dest_charge h with ⟨_, h1⟩ | ⟨h0, h1⟩
  · exact .of_eq (by rw [hc]) (fun a _ => h1 a)
  · refine ⟨by rw [hc], [usedBy r.output], ?_, fun a _ => ?_⟩
    · intro c hc
      rw [List.mem_singleton] at hc
      rw [hc]; exact .dest n i s t r h h0
    · rw [h1]; simp [totalCharge]

theorem ledger_same {n : Nat} {i : CallInput} {s t : St χ A} {r : Option Err} (h : (execN E n).same i s = (.ok r, t)) : Ledger E n s t := by
  have hc := ((frameEx_execN E n).same i s r t h).cur
  cases n with
  | zero => simp [execN, M.oof] at h
  | succ n =>
    rcases same_charge h with ⟨_, h1⟩ | ⟨u, h0, hb, ⟨_, h1⟩ | ⟨_, h1⟩⟩
    · exact .of_eq (by rw [hc]) (fun a _ => h1 a)
    · subst h0
      refine ⟨by rw [hc], [chargedTo (getVMOutput E u).2], ?_, fun a _ => ?_⟩
      · intro c hc
        rw [List.mem_singleton] at hc
        rw [hc]; exact .same n i s u t h hb
      · rw [h1]; simp [totalCharge]
    · exact .of_eq (by rw [hc]) (fun a _ => h1 a)

theorem ledger_step {n : Nat} {s t : St χ A} (h : StepT E (execN E n) s t) : Ledger E n s t := by
  cases h with
  | top d _ => exact .of_eq rfl (fun _ _ => rfl)
  | b _ h =>
    cases h with
    | a _ h =>
      cases h with
      | dest t i r h _ => exact ledger_dest h
      | same t i r h _ => exact ledger_same h
      | undo t i r a ci h => exact (ledger_dest h).trans (.of_eq rfl (fun _ _ => rfl))
      | rt c hc => cases hc <;> exact .of_eq rfl (fun _ _ => rfl)
      | _ => exact .of_eq rfl (fun _ _ => rfl)
    | finalize =>
      obtain ⟨m, h1, h2, h3⟩ := getVMOutput_met (E := E) s
      exact .of_eq (by rw [h2]) (fun a ha => charged_final s ha)
    | clean _ =>
      obtain ⟨h1, h2, h3⟩ := cleanInstance_cur s
      exact .of_eq (by rw [h2]) (fun a _ => by unfold chargedTo; rw [h1])
    | failed c new m g h1 h2 h3 =>
      obtain ⟨k1, k2, k3⟩ := cleanInstance_cur (newInstance m g new s)
      exact .of_eq (by rw [k2]; rfl) (fun a _ => by unfold chargedTo; rw [k1]; rfl)
    | _ => exact .of_eq rfl (fun _ _ => rfl)

theorem ledger_run {n : Nat} {s t : St χ A} (h : Run (StepT E (execN E n)) s t) : Ledger E n s t :=
  h.rel (R := Ledger E n) (fun _ => .of_eq rfl (fun _ _ => rfl)) (fun _ _ _ h1 h2 => h1.trans h2) (fun _ _ h => ledger_step h)

theorem txStart_charged (tx : Tx) (s : St χ A) {b : Addr} (hb : RunsAt E s tx b) :
    (txStart E tx s).rt.cur.scAddress = b ∧ ∀ a, chargedTo (txStart E tx s) a = 0 := by
  cases tx with
  | call i => exact ⟨Eq.symm hb, fun _ => rfl⟩
  | create i =>
    have hb : (newAddress E i.vm.caller (hostInit E s)).1 = .ok b := hb
    simp only [txStart, hb]
    exact ⟨rfl, fun _ => rfl⟩

/-- **C66.** A successful transaction reports for every account but the one whose code it runs exactly what the successful calls
made by that code charge to it: the sum of what their outputs report. -/
theorem c66_tx (n : Nat) (tx : Tx) {s : St χ A} {o : VMOutput} {b : Addr} (hr : AtRest E s) (h : Outputs E n tx s o)
    (hok : o.returnCode = .ok) (hb : RunsAt E s tx b) :
    ∃ cs, (∀ c ∈ cs, Charge E n c) ∧ ∀ a, a ≠ b → usedBy o a = totalCharge cs a := by
  obtain ⟨u, t, h1, h2⟩ := runTx_ending n tx hr h
  obtain ⟨hs1, hs2⟩ := txStart_charged tx s hb
  obtain ⟨ha, cs, hcs, hl⟩ := ledger_run h1
  refine ⟨cs, hcs, fun a hab => ?_⟩
  rw [hs1] at ha hl
  cases h2 with
  | err e => exact absurd hok (onError_output e u).1
  | ok => rw [used_final u hok, charged_final u (by rw [ha]; exact hab), hl a hab, hs2, UInt64.zero_add]

/-- **C66.** The same for what the output of a nested call reports. -/
theorem c66_nested {n : Nat} {i : CallInput} {s t : St χ A} {r : DestResult} (hb : E.isBuiltin i.function = false)
    (h : (execN E (n + 1)).dest i s = (.ok r, t)) (hok : r.output.returnCode = .ok) :
    ∃ cs, (∀ c ∈ cs, Charge E n c) ∧ ∀ a, a ≠ i.recipient → usedBy r.output a = totalCharge cs a := by
  have hF := frameEx_execN E n
  rcases execDest_any i s t _ h with ⟨a, ha, h⟩ | ⟨h, _⟩ | ⟨h, _⟩
  · simp only [Res.ok.injEq] at ha
    subst ha
    cases h with
    | failed u e hr hx => rw [hb] at hx; simp at hx
    | builtin u o hr hx => rw [hb] at hx; simp at hx
    | called u w v j info e r hr hj hbd hf =>
      obtain ⟨hl, hiff, _⟩ := finDest_left e info j u w v _ (bodyDest_frame hF hbd).1 hf
      obtain ⟨rfl, rfl⟩ := hj hb
      have hrun := (sim_bodyDest (E := E) hF.keeps _ _ (fresh_enterDest _ _)).ok hbd
      obtain ⟨ha, cs, hcs, hl2⟩ := ledger_run hrun.toT
      refine ⟨cs, hcs, fun a hab => ?_⟩
      have hs : (enterDestState j (St.bcPush E s)).rt.cur.scAddress = j.recipient := copy_recipient _ j
      rw [hs] at ha hl2
      have h1 := hl.out_eq
      cases e with
      | some e => rw [h1] at hok; exact absurd hok (onError_output (E := E) e w).1
      | none =>
        rw [h1] at hok ⊢
        refine (used_final w hok a).trans ?_
        rw [charged_final w (by rw [ha]; exact hab), hl2 a hab]
        exact UInt64.zero_add _
  · simp at h
  · simp at h

/-! ### Examples -/

section Witness
open Fixture

/-- an account in another shard -/
def farAway : Addr := 1 :: List.replicate 30 0 ++ [7]
/-- send gas to another shard -/
def sendGas (gas : Int64) (k : Fixture.P) : Fixture.P := .store 0 farAway <| .call (.transferValueExecute 0 32 gas 64 0 0 0 0) fun _ => k
/-- 101 stores two values; 100 calls it once, twice, or after sending gas away -/
def workEnv : Env World EeiCall := envWith [
  ([1], mod [([1], callDest (addr 101) g 200 .ret), ([2], callDest (addr 101) g 200 <| callDest (addr 101) g 200 .ret),
             ([3], sendGas 10 <| callDest (addr 101) g 200 .ret)]),
  ([2], mod [(g, put [1] [2, 3, 4] <| put [2] [2, 3, 4] .ret)])]
def workNode : World := node [(addr 100, contract [1]), (addr 101, contract [2])]
def workTx (f : Bytes) : RunResult := (runTx workEnv 5 (callTx (addr 1) (addr 100) f 1000) (host workNode)).1

/-- two calls are charged twice as much as one -/
example : (match workTx [1], workTx [2] with
    | some (some o1), some (some o2) => decide (o1.returnCode = .ok ∧ o2.returnCode = .ok ∧
        usedBy o1 (addr 100) = 3 ∧ usedBy o1 (addr 101) = 10 ∧ usedBy o2 (addr 100) = 4 ∧ usedBy o2 (addr 101) = 20)
    | _, _ => false) = true := by decide +kernel
/-- the hypotheses of `c66_tx` -/
example : AtRest workEnv (host workNode) ∧ RunsAt workEnv (host workNode) (callTx (addr 1) (addr 100) [2] 1000) (addr 100) :=
  ⟨⟨.inl rfl, rfl, .inl rfl⟩, rfl⟩

/-- a call made by a contract that has been charged for an earlier call -/
def workCall : CallInput := { vm := { caller := addr 100, gasProvided := 200 }, recipient := addr 101, function := g }
def workState : St World EeiCall :=
  let s := runningOn workNode
  { s with met := { s.met with cur := { s.met.cur with gasUsedByAccounts := AMap.insert AMap.empty (addr 101) 7 } },
           out := { s.out with cur := { s.out.cur with accounts := AMap.insert AMap.empty (addr 101) {} } } }
example : workEnv.isBuiltin workCall.function = false ∧ (match (execN workEnv 3).dest workCall workState with
    | (.ok r, t) => decide (r.output.returnCode = .ok ∧ usedBy r.output (addr 101) = 10 ∧ chargedTo workState (addr 101) = 7 ∧
        chargedTo t (addr 101) = 17)
    | _ => false) = true := by decide +kernel
example : (match (execN workEnv 3).same workCall workState with
    | (.ok none, t) => decide (chargedTo t (addr 101) = 7 + 10)
    | _ => false) = true := by decide +kernel

/-- The gas that a contract has sent to another shard is charged to the contracts that it calls afterwards: the same call of 101
is reported as using 10 gas, or, after 100 has sent 10 gas to another shard, as using none. -/
theorem c66_neg : ∃ (E : Env World EeiCall) (s : St World EeiCall) (f f' : Bytes) (o o' : VMOutput),
    Outputs E 5 (callTx (addr 1) (addr 100) f 1000) s o ∧ Outputs E 5 (callTx (addr 1) (addr 100) f' 1000) s o' ∧
    o.returnCode = .ok ∧ o'.returnCode = .ok ∧
    (o.accounts.get? (addr 101)).map (fun x => x.storage.entries) = (o'.accounts.get? (addr 101)).map (fun x => x.storage.entries) ∧
    ((o'.accounts.get? farAway).map forwardedGas) = some 10 ∧
    usedBy o (addr 101) = 10 ∧ usedBy o' (addr 101) = 0 := by
  have h : (match workTx [1], workTx [3] with
    | some (some o1), some (some o2) => decide (o1.returnCode = .ok ∧ o2.returnCode = .ok ∧
        (o1.accounts.get? (addr 101)).map (fun x => x.storage.entries) = (o2.accounts.get? (addr 101)).map (fun x => x.storage.entries) ∧
        ((o2.accounts.get? farAway).map forwardedGas) = some 10 ∧ usedBy o1 (addr 101) = 10 ∧ usedBy o2 (addr 101) = 0)
    | _, _ => false) = true := by decide +kernel
  generalize h1 : workTx [1] = r1 at h
  generalize h2 : workTx [3] = r2 at h
  match r1, r2, h with
  | some (some o1), some (some o2), h =>
    exact ⟨workEnv, host workNode, [1], [3], o1, o2, h1, h2, of_decide_eq_true h⟩
end Witness

end Arwen.Props
