import Verif.Host.Gas
import Verif.Props.Deploy
import Verif.Spec.Payment
/-
C50: what contracts pay for the code that they deploy.
-/
namespace Arwen.Props
open Arwen Spec
variable {χ A : Type} {E : Env χ A}

/-- the initial cost, exactly -/
theorem deductInitialGas_exact {len : Nat} {base per : UInt64} {s t : St χ A} {r : Option Err}
    (hl : len < 2 ^ 64) (hg : s.rt.cur.vmInput.gasProvided.toNat < 2 ^ 64 - 1) (h : deductInitialGas len base per s = (.ok r, t)) :
    (s.rt.cur.vmInput.gasProvided.toNat < base.toNat + len * per.toNat ∧ r = some .notEnoughGas ∧ t = s) ∨
    (r = none ∧ t.met.cur.gasForExecution.toNat + (base.toNat + len * per.toNat) = s.rt.cur.vmInput.gasProvided.toNat ∧
      t.rt = s.rt) := by
  unfold deductInitialGas at h
  dsimp only at h
  have hc : (addU64 base (mulU64 (UInt64.ofNat len) per)).toNat = min (base.toNat + len * per.toNat) 18446744073709551615 := by
    have e : (UInt64.ofNat len).toNat = len := by simp; omega
    rw [addU64_toNat, mulU64_toNat, e]
    omega
  split at h
  · rename_i hx
    simp only [Prod.mk.injEq, Res.ok.injEq] at h
    simp only [gt_iff_lt, UInt64.lt_iff_toNat_lt] at hx
    exact .inl ⟨by omega, h.1.symm, h.2.symm⟩
  · rename_i hx
    simp only [Prod.mk.injEq, Res.ok.injEq] at h
    have hx := UInt64.not_lt.mp hx
    rw [← h.2]
    refine .inr ⟨h.1.symm, ?_, rfl⟩
    dsimp only
    rw [UInt64.toNat_sub_of_le _ _ hx]
    simp only [UInt64.le_iff_toNat_le] at hx
    omega

theorem getNonce_met (a : Addr) (s : St χ A) : (getNonce E a s).2.met = s.met ∧ (getNonce E a s).2.rt = s.rt := by
  unfold getNonce
  dsimp only
  repeat' split
  all_goals exact ⟨rfl, rfl⟩

/-- looking up the nonce of the creator does not touch the gas -/
theorem newAddress_met (a : Addr) (s : St χ A) : (newAddress E a s).2.met = s.met ∧ (newAddress E a s).2.rt = s.rt := by
  unfold newAddress
  have := getNonce_met (E := E) a s
  generalize getNonce E a s = q at this ⊢
  obtain ⟨r, t⟩ := q
  cases r <;> exact this

theorem increaseNonce_met (a : Addr) (s : St χ A) : (increaseNonce E a s).met = s.met := by
  unfold increaseNonce
  have := (getNonce_met (E := E) a s).1
  generalize getNonce E a s = q at this ⊢
  obtain ⟨r, t⟩ := q
  exact this

/-- C50, partial: a deployment by a contract whose compilation price exceeds the gas provided with the running call is refused and
changes nothing. After any other deployment, successful or not, the gas left, the gas spent while running and the price of the
code add up to the gas provided (or nothing is left).
Missing: what the running call paid before, at its start and for earlier deployments; the price is charged instead of that, not in
addition (`c50_neg`). -/
theorem c50_create_partial (n : Nat) (i : CreateInput) {s t : St χ A} {r : Except Err Addr}
    (hl : i.code.length < 2 ^ 64) (hg : s.rt.cur.vmInput.gasProvided.toNat < 2 ^ 64 - 1)
    (h : createNewContract E (execN E n) i s = (.ok r, t)) :
    (s.rt.cur.vmInput.gasProvided.toNat < compilePrice s.met.sched i.code ∧ r = .error .notEnoughGas ∧ t = s) ∨
    (compilePrice s.met.sched i.code ≤ s.rt.cur.vmInput.gasProvided.toNat ∧
      (t.gasLeft.toNat + t.pointsUsed.toNat + compilePrice s.met.sched i.code = s.rt.cur.vmInput.gasProvided.toNat ∨ t.gasLeft = 0)) := by
  have fin : ∀ t : St χ A, t.met.cur.gasForExecution.toNat + compilePrice s.met.sched i.code = s.rt.cur.vmInput.gasProvided.toNat →
      compilePrice s.met.sched i.code ≤ s.rt.cur.vmInput.gasProvided.toNat ∧
      (t.gasLeft.toNat + t.pointsUsed.toNat + compilePrice s.met.sched i.code = s.rt.cur.vmInput.gasProvided.toNat ∨ t.gasLeft = 0) := by
    intro t ht
    refine ⟨by omega, ?_⟩
    unfold St.gasLeft
    split
    · exact .inr rfl
    · rename_i hx
      have hx := UInt64.not_lt.mp hx
      left
      rw [UInt64.toNat_sub_of_le _ _ hx]
      simp only [UInt64.le_iff_toNat_le] at hx
      omega
  unfold createNewContract at h
  have hb := bind_ok h
  clear h
  rcases hb with ⟨e, s0, h1, h⟩ | ⟨_, h⟩ | ⟨_, h⟩
  · unfold deductForIndirectDeployment at h1
    rw [get_bind] at h1
    rcases deductInitialGas_exact hl hg h1 with ⟨h2, rfl, rfl⟩ | ⟨rfl, h2, h3⟩
    · simp only [M.pure_eq, M.pure, Prod.mk.injEq, Res.ok.injEq] at h
      refine .inl ⟨?_, h.1.symm, h.2.symm⟩
      unfold compilePrice
      simpa using h2
    · refine .inr (fin t ?_)
      unfold compilePrice
      suffices hm : t.met.cur.gasForExecution = s0.met.cur.gasForExecution by rw [hm]; simpa using h2
      dsimp only at h
      rw [get_bind] at h
      split at h
      · simp only [M.pure_eq, M.pure, Prod.mk.injEq, Res.ok.injEq] at h
        rw [← h.2]
      · rw [lift_bind] at h
        have hna := (newAddress_met (E := E) i.vm.caller s0).1
        generalize newAddress E i.vm.caller s0 = q at h hna
        obtain ⟨a, s1⟩ := q
        cases a with
        | error e =>
          simp only [M.pure_eq, M.pure, Prod.mk.injEq, Res.ok.injEq] at h
          rw [← h.2, hna]
        | ok addr =>
          dsimp only at h hna
          rw [get_bind] at h
          split at h
          · simp only [M.pure_eq, M.pure, Prod.mk.injEq, Res.ok.injEq] at h
            rw [← h.2, hna]
          · rw [modify_bind, modify_bind] at h
            rcases bind_ok h with ⟨d, u, h4, h⟩ | ⟨_, h⟩ | ⟨_, h⟩
            · have hk := ((metKept_execN n).dest _ _ _ _ h4).forExecution
              dsimp only at hk
              rw [hna] at hk
              rw [← hk]
              generalize d.err = x at h
              cases x with
              | some e =>
                dsimp only at h
                rw [modify_bind] at h
                simp only [M.pure_eq, M.pure, Prod.mk.injEq, Res.ok.injEq] at h
                rw [← h.2]
              | none =>
                dsimp only at h
                rw [modify_bind] at h
                simp only [M.pure_eq, M.pure, Prod.mk.injEq, Res.ok.injEq] at h
                rw [← h.2, increaseNonce_met]
            · simp at h
            · simp at h
  · simp at h
  · simp at h

/-! ### Upgrades -/

/-- the steps of an upgrade that succeeds: its price is taken from the gas provided, and nothing gives it back -/
theorem deploySteps_pays (hn : NoCreateApi E) {n : Nat} {d : CodeDeployInput} {s t : St χ A} (hfr : Fresh E s)
    (hl : d.code.length < 2 ^ 64) (hg : s.rt.cur.vmInput.gasProvided.toNat < 2 ^ 64 - 1)
    (h : deploySteps E (execN E n) d s = (.ok none, t)) :
    t.met.cur.gasForExecution.toNat + upgradePrice s.met.sched d.code = s.rt.cur.vmInput.gasProvided.toNat := by
  have hF := frameEx_execN E n
  unfold deploySteps at h
  have hb := bind_ok h
  clear h
  rcases hb with ⟨e, s0, h1, h⟩ | ⟨_, h⟩ | ⟨_, h⟩
  · have hfr := hfr.direct h1
    unfold deductForDirectDeployment at h1
    rw [get_bind] at h1
    rcases deductInitialGas_exact hl hg h1 with ⟨_, rfl, rfl⟩ | ⟨rfl, h2, h3⟩
    · dsimp only at h
      rw [modify_bind] at h
      simp [M.pure_eq, M.pure] at h
    · unfold upgradePrice compilePrice
      suffices hm : t.met.cur.gasForExecution = s0.met.cur.gasForExecution by rw [hm]; exact h2
      dsimp only at h
      rw [modify_bind, get_bind] at h
      rcases bind_ok h with ⟨r, u, h4, h⟩ | ⟨_, h⟩ | ⟨_, h⟩
      · have k1 := stepI_met ((sim_starting (E := E) (ex := execN E n) _ _ _ _ (by exact hfr) (.inl rfl)).ok h4)
        cases r with
        | some e => simp [M.pure_eq, M.pure] at h
        | none =>
          dsimp only at h
          rcases bind_ok h with ⟨r, w, h5, h⟩ | ⟨_, h⟩ | ⟨_, h⟩
          · have k2 := (metKept_run hn ((sim_callInit (E := E) hF.keeps u).ok h5)).forExecution
            cases r with
            | some e => simp [M.pure_eq, M.pure] at h
            | none =>
              dsimp only at h
              rw [modify_bind] at h
              simp only [M.pure_eq, M.pure, Prod.mk.injEq, Res.ok.injEq] at h
              rw [← h.2]
              exact k2.trans (by rw [k1])
          · simp at h
          · simp at h
      · simp at h
      · simp at h
  · simp at h
  · simp at h

theorem extractUpgrade_some {s t : St χ A} {c m : Bytes} (h : extractUpgrade s = (.ok (some (c, m)), t)) :
    (∃ rest, s.rt.cur.vmInput.args = c :: m :: rest) ∧ t.met = s.met ∧ t.rt.cur.vmInput.gasProvided = s.rt.cur.vmInput.gasProvided ∧
      t.rt.instance_ = s.rt.instance_ ∧ t.rt.instanceStack = s.rt.instanceStack := by
  unfold extractUpgrade at h
  split at h
  · rename_i code md rest hx
    simp only [Prod.mk.injEq, Res.ok.injEq, Option.some.injEq] at h
    obtain ⟨⟨rfl, rfl⟩, rfl⟩ := h
    exact ⟨⟨rest, hx⟩, rfl, rfl, rfl, rfl⟩
  · simp at h

theorem setPointsUsed_rest {g : UInt64} {s t : St χ A} {r : Unit} (h : setPointsUsed g s = (.ok r, t)) : t.rt = s.rt ∧ t.met = s.met := by
  unfold setPointsUsed at h
  split at h
  · simp at h
  · simp only [Prod.mk.injEq] at h; rw [← h.2]; exact ⟨rfl, rfl⟩

/-- a call that upgrades a contract and succeeds -/
theorem execute_pays (hn : NoCreateApi E) {n : Nat} {i : CallInput} {s t : St χ A} (hfr : Fresh E s) (hf : i.function = upgradeName)
    (hl : ∀ c ∈ s.rt.cur.vmInput.args, c.length < 2 ^ 64) (hg : s.rt.cur.vmInput.gasProvided.toNat < 2 ^ 64 - 1)
    (h : execute E (execN E n) i s = (.ok none, t)) :
    ∃ code metadata rest, s.rt.cur.vmInput.args = code :: metadata :: rest ∧
      t.met.cur.gasForExecution.toNat + upgradePrice s.met.sched code = s.rt.cur.vmInput.gasProvided.toNat := by
  unfold execute at h
  rw [get_bind] at h
  split at h
  · simp [M.pure_eq, M.pure] at h
  · rcases bind_ok h with ⟨_, u, h1, h⟩ | ⟨_, h⟩ | ⟨_, h⟩
    · unfold useGas at h1
      rw [get_bind] at h1
      obtain ⟨k1, k2⟩ := setPointsUsed_rest h1
      unfold executeUpgrade at h
      rw [get_bind] at h
      generalize checkUpgradePermission E u i = p at h
      cases p with
      | some e => simp [M.pure_eq, M.pure] at h
      | none =>
        rcases bind_ok h with ⟨r, v, h2, h⟩ | ⟨_, h⟩ | ⟨_, h⟩
        · cases r with
          | none => simp [M.pure_eq, M.pure] at h
          | some p =>
            obtain ⟨code, md⟩ := p
            obtain ⟨⟨rest, g1⟩, g2, g3, g4, g5⟩ := extractUpgrade_some h2
            dsimp only at h
            rcases bind_ok h with ⟨r, w, h3, h⟩ | ⟨_, h⟩ | ⟨_, h⟩
            · cases r with
              | some e => simp [M.pure_eq, M.pure] at h
              | none =>
                dsimp only at h
                rw [get_bind] at h
                have hw : t = w := by
                  split at h
                  · simp [M.pure_eq, M.pure] at h
                  · simp only [M.pure_eq, M.pure, Prod.mk.injEq] at h; exact h.2.symm
                subst hw
                rw [k1] at g1
                refine ⟨code, md, rest, g1, ?_⟩
                have h5 := deploySteps_pays hn (hfr.of_eq (by rw [g4, k1]) (by rw [g5, k1]))
                  (hl code (by rw [g1]; exact List.mem_cons_self ..)) (by rw [g3, k1]; exact hg) h3
                rw [g3, g2, k1, k2] at h5
                exact h5
            · simp at h
            · simp at h
        · simp at h
        · simp at h
    · simp at h
    · simp at h

theorem enterDest_gas (i : CallInput) (s : St χ A) : (enterDestState i s).rt.cur.vmInput.gasProvided = i.vm.gasProvided ∧
    (enterDestState i s).rt.cur.vmInput.args = i.vm.args ∧ (enterDestState i s).met.sched = s.met.sched := by
  have hc : ∀ t : St χ A, (copyTxHashes t i).vm.gasProvided = i.vm.gasProvided ∧ (copyTxHashes t i).vm.args = i.vm.args := by
    intro t; unfold copyTxHashes; split <;> exact ⟨rfl, rfl⟩
  exact ⟨(hc _).1, (hc _).2, rfl⟩

/-- C50, partial: a contract's call that upgrades another contract, and succeeds, has paid for creating a contract and for
compiling the new code out of the gas of the call; what it returns to the caller is at most the rest. Deployments by the upgraded
contract itself are excluded (`c50_neg`). -/
theorem c50_upgrade_partial (hn : NoCreateApi E) (n : Nat) (i : CallInput) (s t : St χ A) (r : DestResult)
    (hf : i.function = upgradeName) (hb : E.isBuiltin upgradeName = false)
    (hl : ∀ c ∈ i.vm.args, c.length < 2 ^ 64) (hg : i.vm.gasProvided.toNat < 2 ^ 64 - 1)
    (h : (execN E n).dest i s = (.ok r, t)) (hr : r.err = none) :
    ∃ code metadata rest, i.vm.args = code :: metadata :: rest ∧
      r.output.gasRemaining.toNat + upgradePrice s.met.sched code ≤ i.vm.gasProvided.toNat := by
  have hb : E.isBuiltin i.function = false := by rw [hf]; exact hb
  cases n with
  | zero => simp [execN, M.oof] at h
  | succ n =>
    have hF := frameEx_execN E n
    rcases execDest_any i s t _ h with ⟨a, ha, h⟩ | ⟨h, _⟩ | ⟨h, _⟩
    · simp only [Res.ok.injEq] at ha
      subst ha
      cases h with
      | failed u e hr' hc => rw [hb] at hc; simp at hc
      | builtin u o hr' hc => rw [hb] at hc; simp at hc
      | called u w v j info e r hr' hj hbd hfi =>
        obtain ⟨rfl, rfl⟩ := hj hb
        have hfr := fresh_enterDest (E := E) j (St.bcPush E s)
        have h1 := (sim_bodyDest (E := E) hF.keeps _ _ hfr).ok hbd
        obtain ⟨hleft, hiff, _⟩ := finDest_left e info j _ w v _ (h1.frame hF).1 hfi
        have hok : r.output.returnCode = .ok := Decidable.byContradiction fun hc => by
          have := hiff.mpr hc; rw [hr] at this; simp at this
        have he : e = none := by
          cases e with
          | none => rfl
          | some e => rw [hleft.out_eq] at hok; exact absurd hok (resolveReturnCode_ne e)
        subst he
        obtain ⟨_, k2, _, _⟩ := enterDestInput_keeps j (St.bcPush E s)
        obtain ⟨g1, g2, g3⟩ := enterDest_gas j (St.bcPush E s)
        have hm : ∃ code metadata rest, j.vm.args = code :: metadata :: rest ∧
            w.met.cur.gasForExecution.toNat + upgradePrice s.met.sched code = j.vm.gasProvided.toNat := by
          have g3' : (enterDestState j (St.bcPush E s)).met.sched = s.met.sched := g3
          generalize enterDestInput j (St.bcPush E s) = j' at k2 hbd
          generalize enterDestState j (St.bcPush E s) = s' at g1 g2 g3' hbd hfr
          unfold bodyDest at hbd
          have key : ∀ (x : Option Err) (v : St χ A), v.rt = s'.rt → v.met.sched = s'.met.sched → (match x with
              | some e => pure (none, some e)
              | none => do
                match (← execute E (execN E n) j') with
                | some e => pure (none, some e)
                | none => do
                  let s ← M.get
                  let (info, r) ← processAsyncInfo E (execN E n) s.rt.cur.asyncContextInfo
                  match r with
                  | .error e => pure (some info, some e)
                  | .ok _ => pure (some info, none) : M χ A (Option AsyncContextInfo × Option Err)) v = (.ok (info, none), w) →
              ∃ code metadata rest, j.vm.args = code :: metadata :: rest ∧
                w.met.cur.gasForExecution.toNat + upgradePrice s.met.sched code = j.vm.gasProvided.toNat := by
            intro x v hv hv' h
            cases x with
            | some e' => simp [M.pure_eq, M.pure] at h
            | none =>
              rcases bind_ok h with ⟨r, u, h1, h⟩ | ⟨_, h⟩ | ⟨_, h⟩
              · cases r with
                | some e' => simp [M.pure_eq, M.pure] at h
                | none =>
                  obtain ⟨code, md, rest, q1, q2⟩ := execute_pays hn (hfr.of_eq (by rw [hv]) (by rw [hv])) (by rw [k2, hf])
                    (by rw [hv, g2]; exact hl) (by rw [hv, g1]; exact hg) h1
                  rw [hv, g2] at q1
                  rw [hv, g1, hv', g3'] at q2
                  refine ⟨code, md, rest, q1, ?_⟩
                  dsimp only at h
                  rw [get_bind] at h
                  rcases bind_ok h with ⟨r, u', h3, h⟩ | ⟨_, h⟩ | ⟨_, h⟩
                  · have k := (metKept_run hn ((sim_processAsyncInfo (E := E) hF.keeps _ u).ok h3)).forExecution
                    have hw : w = u' := by
                      obtain ⟨info', r⟩ := r
                      cases r with
                      | error e => simp [M.pure_eq, M.pure] at h
                      | ok _ => simp only [M.pure_eq, M.pure, Prod.mk.injEq] at h; exact h.2.symm
                    rw [hw, k]; exact q2
                  · simp at h
                  · simp at h
              · simp at h
              · simp at h
          split at hbd
          · rw [lift_bind] at hbd
            exact key _ _ (transferValueOnly_rt ..) (((run_transferValueOnly (E := E) (ex := execN E n) (back := true) s' j'.recipient
              j'.vm.caller j'.vm.callValue false).mono (fun _ _ => StepB.a _ _)).frame hF).1.sched hbd
          · exact key none _ rfl rfl hbd
        obtain ⟨code, md, rest, q1, q2⟩ := hm
        refine ⟨code, md, rest, q1, ?_⟩
        rw [hleft.out_eq]
        have := gasLeft_le w
        rcases getVMOutput_gas (E := E) w with hgas | hgas
        · show (getVMOutput E w).1.gasRemaining.toNat + _ ≤ _
          rw [hgas]; omega
        · show (getVMOutput E w).1.gasRemaining.toNat + _ ≤ _
          rw [hgas]; simp; omega
    · simp at h
    · simp at h

/-! ### Examples and the negation -/

section
open Fixture

/-- contract 100 deploys a code of 20 bytes and then one of a single byte; contract 101 deploys the single byte only -/
def longCode : Bytes := List.replicate 20 9
def costMods : List (Bytes × WasmModule EeiCall) :=
  [([1], mod [(f, create longCode [7, 0] 0 10000 <| create [2] [7, 0] 0 10000 .ret), (g, create longCode [7, 0] 0 10000 .ret)]),
   ([2], mod [(initName, .ret), (f, .ret)]),
   (longCode, mod [(initName, .ret)])]
def costEnv : Env World EeiCall := Env.real { envWith costMods with hook := { goodHook with shardOf := fun _ _ => 0 } }
/-- compilation costs 1000 per byte -/
def costHost : St World EeiCall :=
  { host (node [(addr 100, contract [1])]) with met := { sched := { sched with compilePerByte := 1000 } } }

/-- C50 fails for two deployments in one call: the second price replaces the first one. A contract deploys two codes, both are
reported, and more gas is left than the total gas without the prices of both. -/
theorem c50_neg : ∃ (E : Env World EeiCall) (n : Nat) (tx : Tx) (s : St World EeiCall) (o : VMOutput) (a b : Addr),
    E.api = eei E ∧ AtRest E s ∧ Outputs E n tx s o ∧ o.returnCode = .ok ∧ a ≠ b ∧
    E.hook.userAccount s.world a = .ok none ∧ E.hook.userAccount s.world b = .ok none ∧
    reportedCode o a ≠ [] ∧ reportedCode o b ≠ [] ∧
    txGas tx < o.gasRemaining.toNat + compilePrice s.met.sched (reportedCode o a) + compilePrice s.met.sched (reportedCode o b) := by
  have h : checkOut (runTx costEnv 5 (callTx (addr 1) (addr 100) f) costHost) (fun o => decide (o.returnCode = .ok ∧
    reportedCode o depAddr = longCode ∧ reportedCode o (List.replicate 30 1 ++ [100, 101]) = [2] ∧ 90000 ≤ o.gasRemaining.toNat)) = true := by decide +kernel
  obtain ⟨o, h1, h2⟩ := checkOut_elim h
  obtain ⟨h2, h3, h4, h5⟩ := of_decide_eq_true h2
  refine ⟨costEnv, 5, _, costHost, o, depAddr, List.replicate 30 1 ++ [100, 101], rfl, ⟨.inl rfl, rfl, .inl rfl⟩, h1, h2, by decide,
    by decide +kernel, by decide +kernel, ?_, ?_, ?_⟩
  · rw [h3]; simp [longCode]
  · rw [h4]; simp
  · rw [h3, h4]
    have : txGas (callTx (addr 1) (addr 100) f) = 100000 := by decide +kernel
    have : compilePrice costHost.met.sched longCode = 20000 := by decide +kernel
    omega

/-- the state in which function `fn` of contract 100 starts -/
def costStart : St World EeiCall := (startInstance costEnv [1] 100000 false (txStart costEnv (callTx (addr 1) (addr 100) f) costHost)).2

/-- C50: a deployment that is paid for, and one that is refused -/
example : (match createNewContract costEnv (execN costEnv 4) (depInput longCode) costStart with
    | (.ok (.ok _), t) => decide (t.gasLeft.toNat + t.pointsUsed.toNat + compilePrice costStart.met.sched longCode =
        costStart.rt.cur.vmInput.gasProvided.toNat ∧ t.gasLeft ≠ 0) | _ => false) = true := by decide +kernel
example : (match createNewContract costEnv (execN costEnv 4) (depInput (List.replicate 101 9)) costStart with
    | (.ok (.error e), t) => decide (e = .notEnoughGas ∧ t.gasLeft = costStart.gasLeft) | _ => false) = true := by decide +kernel

/-- C50: an upgrade by a call that is paid for -/
def costUpgrade : CallInput :=
  { vm := { caller := addr 1, gasProvided := 30000, args := [longCode, [7, 0]] }, recipient := addr 100, function := upgradeName }
example : NoCreateApi (costEnv.without [.create]) := noCreate_without (by decide)
example : (match (execN (costEnv.without [.create]) 4).dest costUpgrade costStart with
    | (.ok r, _) => decide (r.err = none ∧ 0 < r.output.gasRemaining.toNat ∧ r.output.gasRemaining.toNat + 20001 ≤ 30000) | _ => false) = true := by
  decide +kernel
end

end Arwen.Props
