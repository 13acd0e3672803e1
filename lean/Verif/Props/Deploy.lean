import Verif.Host.AccInv
import Verif.Spec.Deploy
import Verif.Spec.Outcome
import Verif.Props.Calls
import Verif.Eei.Commands
import Verif.Fixture
import Verif.Props.Value
/-
Deployed code: C25, C26, C27.
-/
namespace Arwen.Props
open Arwen Arwen.Spec
variable {χ A : Type} {E : Env χ A}

/-! ### C25: validation -/

/-- C25. Exactly the valid names are accepted. -/
theorem c25_name (n : Bytes) : verifyName E n = none ↔ ValidName E n := by
  have ha : isAscii n = true ↔ ∀ b ∈ n, b.toNat ≤ 127 := by
    unfold isAscii
    rw [List.all_eq_true]
    refine forall_congr' fun b => imp_congr_right fun _ => ?_
    rw [decide_eq_true_eq, UInt8.lt_iff_toNat_lt]
    exact Nat.lt_succ_iff
  unfold verifyName
  constructor
  · intro h
    split at h
    · cases h
    · rename_i hn
      simp only [Bool.or_eq_true, decide_eq_true_eq, Bool.not_eq_true', not_or, isReservedName, Bool.not_eq_true,
        Bool.not_eq_false, Nat.not_le] at hn
      obtain ⟨⟨⟨h1, h2⟩, h3⟩, ⟨h4, h5⟩, h6⟩ := hn
      exact ⟨fun e => h1 (by rw [e]; rfl), by omega, ha.mp h3, h4, h5, h6⟩
  · intro h
    rw [if_neg]
    simp only [Bool.or_eq_true, decide_eq_true_eq, Bool.not_eq_true', not_or, isReservedName, Bool.not_eq_true, Bool.not_eq_false, Nat.not_le]
    have := h.short
    exact ⟨⟨⟨fun e => h.nonempty (List.length_eq_zero_iff.mp e), by omega⟩, ha.mpr h.ascii⟩, ⟨h.notBuiltin, h.notApi⟩, h.notUpgrade⟩

theorem verifyVoid_none (m : WasmModule A) (n : Bytes) : verifyVoid m n = none ↔ m.signature n = some (0, 0) := by
  unfold verifyVoid
  cases h : m.signature n with
  | none => simp
  | some p =>
    obtain ⟨i, o⟩ := p
    by_cases hc : i = 0 ∧ o = 0
    · simp [hc]
    · simp [hc]

theorem verifyFunctions_none (m : WasmModule A) (l : List Bytes) :
    verifyFunctions E m l = none ↔ ∀ n ∈ l, ValidName E n ∧ m.signature n = some (0, 0) := by
  induction l with
  | nil => simp [verifyFunctions]
  | cons n l ih =>
    simp only [verifyFunctions, List.forall_mem_cons]
    rw [← ih, ← c25_name, ← verifyVoid_none]
    cases verifyName E n with
    | some e => simp
    | none => cases verifyVoid m n <;> simp

/-- C25. The validation accepts exactly the modules that may be deployed; as long as the ESDT functions are not active, only those
that do not use them. -/
theorem c25_verify (esdt : Bool) (m : WasmModule A) : verifyModule E esdt m = none ↔
    ValidModule E m ∧ (esdt = true ∨ ∀ n ∈ esdtImports, m.imports n = false) := by
  have hf := verifyFunctions_none (E := E) m (m.exports.map Prod.fst)
  have hi : (!esdt && esdtImports.any m.imports) = false ↔ (esdt = true ∨ ∀ n ∈ esdtImports, m.imports n = false) := by
    cases esdt <;> simp
  rw [← hi]
  unfold verifyModule
  constructor
  · intro h
    split at h
    · cases h
    · rename_i hm
      split at h
      · cases h
      · rename_i hv
        have hv := hf.mp hv
        refine ⟨⟨by simpa using hm, fun p hp => (hv p.1 (List.mem_map_of_mem hp)).1, fun p hp => (hv p.1 (List.mem_map_of_mem hp)).2⟩, ?_⟩
        split at h
        · cases h
        · rename_i hn; simpa using hn
  · rintro ⟨⟨h1, h2, h3⟩, h4⟩
    have hv : verifyFunctions E m (m.exports.map Prod.fst) = none := hf.mpr (fun n hn => by
      obtain ⟨p, hp, rfl⟩ := List.mem_map.mp hn
      exact ⟨h2 p hp, h3 p hp⟩)
    rw [hv, h4]
    simp [h1]

theorem vetted_valid (hw : E.useWarm = false) {code : Bytes} (h : Vetted E code) : ValidCode E code := by
  rcases h with h | ⟨m, esdt, h1, h2⟩
  · rw [hw] at h; cases h
  · exact ⟨m, h1, ((c25_verify esdt m).mp h2).1⟩

theorem deploySteps_ok {ex : Executor χ A} {d : CodeDeployInput} {s t : St χ A} (h : deploySteps E ex d s = (.ok none, t)) :
    Vetted E d.code ∧ ∃ u, deployPrep E ex d s = (.ok none, u) ∧ t = { u with out := u.out.deployCode d } := by
  rw [deploySteps_run] at h
  generalize hq : deployPrep E ex d s = q at h
  obtain ⟨(_ | e) | _ | _, u⟩ := q
  · simp only [Prod.mk.injEq] at h
    exact ⟨deployPrep_vetted hq, u, rfl, h.2.symm⟩
  all_goals simp at h

/-- C25. The steps of a deployment or an upgrade, with any contracts running inside them, succeed for valid code only
(without warm instances). -/
theorem c25_deploy (hw : E.useWarm = false) {ex : Executor χ A} {d : CodeDeployInput} {s t : St χ A}
    (h : deploySteps E ex d s = (.ok none, t)) : ValidCode E d.code := vetted_valid hw (deploySteps_ok h).1

theorem performDeployment_ok {ex : Executor χ A} {d : CodeDeployInput} {s t : St χ A} {o : VMOutput}
    (h : (performDeployment E ex d >>= outputOf E) s = (.ok o, t)) (hc : o.returnCode = .ok) :
    ∃ u, deploySteps E ex d s = (.ok none, u) ∧ o = (getVMOutput E u).1 := by
  rcases bind_ok h with ⟨r, v, h1, h⟩ | ⟨_, h⟩ | ⟨_, h⟩
  · cases r with
    | error e =>
      simp only [outputOf, M.lift, Prod.mk.injEq, Res.ok.injEq] at h
      rw [← h.1] at hc
      exact absurd hc (onError_output e v).1
    | ok o' =>
      simp only [outputOf, M.pure_eq, M.pure, Prod.mk.injEq, Res.ok.injEq] at h
      obtain ⟨rfl, rfl⟩ := h
      unfold performDeployment at h1
      rcases bind_ok h1 with ⟨r, u, h2, h1⟩ | ⟨_, h1⟩ | ⟨_, h1⟩
      · cases r with
        | some e => simp [M.pure_eq, M.pure] at h1
        | none =>
          dsimp only at h1
          rw [lift_bind, modify_bind] at h1
          simp only [M.pure_eq, M.pure, Prod.mk.injEq, Res.ok.injEq, Except.ok.injEq] at h1
          exact ⟨u, h2, h1.1.symm⟩
      · simp at h1
      · simp at h1
  · simp at h
  · simp at h

/-- the code of a transaction that deploys or upgrades a contract itself -/
def _root_.Arwen.Tx.code? : Tx → Option Bytes
  | .create i => some i.code
  | .call i => if i.function = upgradeName then i.vm.args.head? else none

theorem createBody_ok {ex : Executor χ A} {i : CreateInput} {s t : St χ A} {o : VMOutput}
    (h : createBody E ex i s = (.ok o, t)) (hc : o.returnCode = .ok) :
    ∃ addr s1 u, (newAddress E i.vm.caller s).1 = .ok addr ∧
      deploySteps E ex { code := i.code, metadata := i.metadata, address := addr, deployer := i.vm.caller } s1 = (.ok none, u) ∧
      o = (getVMOutput E u).1 := by
  unfold createBody at h
  rw [lift_bind] at h
  cases hn : (newAddress E i.vm.caller s).1 with
  | error e =>
    rw [hn] at h
    simp only [M.lift, Prod.mk.injEq, Res.ok.injEq] at h
    rw [← h.1] at hc
    exact absurd hc (onError_output e _).1
  | ok addr =>
    rw [hn] at h
    dsimp only at h
    rw [modify_bind] at h
    rcases bind_ok h with ⟨r, v, _, h⟩ | ⟨_, h⟩ | ⟨_, h⟩
    · rw [modify_bind] at h
      obtain ⟨u, h1, h2⟩ := performDeployment_ok h hc
      exact ⟨addr, _, u, rfl, h1, h2⟩
    · simp at h
    · simp at h

theorem upgradeBody_ok {ex : Executor χ A} {i : CallInput} {s t : St χ A} {o : VMOutput}
    (h : upgradeBody E ex i s = (.ok o, t)) (hc : o.returnCode = .ok) :
    ∃ code metadata rest s1 u, i.vm.args = code :: metadata :: rest ∧
      deploySteps E ex { code := code, metadata := metadata, address := i.recipient, deployer := i.vm.caller } s1 = (.ok none, u) ∧
      o = (getVMOutput E u).1 := by
  rw [upgradeBody_run] at h
  have ha : (enterCallState i s).rt.cur.vmInput.args = i.vm.args := rfl
  unfold upgradeRest at h
  generalize enterCallState i s = s' at h ha
  rcases bind_ok h with ⟨r, v, h1, h⟩ | ⟨_, h⟩ | ⟨_, h⟩
  · unfold extractUpgrade at h1
    split at h1
    · rename_i code md rest hx
      simp only [Prod.mk.injEq, Res.ok.injEq] at h1
      rw [← h1.1] at h
      obtain ⟨u, h2, h3⟩ := performDeployment_ok h hc
      exact ⟨code, md, rest, _, u, by rw [← ha, hx], h2, h3⟩
    · simp only [Prod.mk.injEq, Res.ok.injEq] at h1
      rw [← h1.1] at h
      simp only [M.lift, Prod.mk.injEq, Res.ok.injEq] at h
      rw [← h.1] at hc
      exact absurd hc (onError_output _ _).1
  · simp at h
  · simp at h

/-- C25. A transaction that deploys or upgrades a contract itself succeeds for valid code only (without warm instances). -/
theorem c25_top (hw : E.useWarm = false) (n : Nat) (tx : Tx) {s : St χ A} {o : VMOutput} {code : Bytes} (ht : tx.code? = some code)
    (h : Outputs E n tx s o) (hc : o.returnCode = .ok) : ValidCode E code := by
  have hb : ∃ t, txBody E (execN E n) tx (hostInit E s) = (.ok o, t) := by
    have h1 := runTx_any (E := E) n tx s
    unfold Outputs at h
    rw [h] at h1
    generalize (runTx E n tx s).2 = t' at h1
    cases h1 with
    | ok o t h => exact ⟨t, h⟩
    | reset o t h _ => exact ⟨t, h⟩
  obtain ⟨t, hb⟩ := hb
  cases tx with
  | create i =>
    obtain ⟨addr, s1, u, _, h1, _⟩ := createBody_ok hb hc
    cases ht
    exact c25_deploy hw h1
  | call i =>
    simp only [Tx.code?] at ht
    split at ht
    · rename_i hu
      simp only [txBody, if_pos hu] at hb
      obtain ⟨code', md, rest, s1, u, h0, h1, _⟩ := upgradeBody_ok hb hc
      rw [h0] at ht
      cases ht
      exact c25_deploy hw h1
    · cases ht

/-- what the output may report as code: nothing, code on the chain, or valid code -/
def GoodCode (E : Env χ A) (w0 : χ) (a : Addr) (acc : OutAcc) : Prop :=
  acc.code = [] ∨ CodeOnChain E w0 a acc.code ∨ ValidCode E acc.code

theorem acctOf_some {s : St χ A} {a : Addr} {ua : UserAcct} (h : acctOf E s a = some ua) : E.hook.userAccount s.world a = .ok (some ua) := by
  unfold acctOf at h
  split at h
  · rename_i hu; cases h; exact hu
  · cases h

theorem mergeAcc_code (l r : OutAcc) : (mergeAcc l r).code = r.code ∨ (r.code = [] ∧ (mergeAcc l r).code = l.code) := by
  unfold mergeAcc
  dsimp only
  split
  · exact .inl rfl
  · rename_i h
    exact .inr ⟨List.length_eq_zero_iff.mp (by omega), rfl⟩

theorem goodCode_inv (hw : E.useWarm = false) (hn : NoCreateApi E) (hb : PlainBuiltins E) (w0 : χ) :
    AccInv E (fun s => Reached E w0 s.world) (GoodCode E w0) where
  unary := reached_unary w0
  blind _ _ _ h := h
  empty _ := .inl rfl
  move s b x y hJ hm hx acc hy := by
    cases hm with
    | same => exact hx acc hy
    | new => cases hy; exact .inl rfl
    | gasNew => cases hy; exact .inl rfl
    | code acc0 ua h1 h2 => cases hy; exact .inr (.inl ⟨s.world, ua, hJ, acctOf_some h2, rfl⟩)
    | strip => cases hy; exact .inl rfl
    | deploy _ d hb hd =>
      cases hy
      cases hd with
      | new i h _ _ _ => exact absurd h (hn i)
      | upgrade _ h => exact .inr (.inr (vetted_valid hw h))
    | _ => have h := hx _ rfl; cases hy; exact h
  builtin s i b0 a acc ts hJ h0 hg := .inl (hb _ _ _ _ _ h0 hg).1
  merge a l r hl hr := by
    unfold GoodCode
    rcases mergeAcc_code l r with h | ⟨_, h⟩ <;> rw [h]
    · exact hr
    · exact hl
  moves _ _ _ _ _ h := h

theorem accAll_start {P : Addr → OutAcc → Prop} (h0 : ∀ a n d, P a { nonce := n, balanceDelta := d }) (tx : Tx) (s : St χ A) :
    AccAll P (txStart E tx s).out.cur ∧ ∀ o ∈ (txStart E tx s).out.stack, AccAll P o := by
  refine ⟨fun a acc hg => ?_, by rw [txStart_stack]; intro o ho; cases ho⟩
  obtain ⟨m, d, rfl⟩ := (txStart_started (E := E) tx s).accounts a acc hg
  exact h0 a m d

/-- C25, partial: whatever contracts do, an account for which a transaction reports code has that code on the chain already, or
the code is valid. Missing: deployments by contracts, which are not validated (`c25_neg`), and warm instances
(`c25_warm_neg`); both are excluded here. -/
theorem c25_tx_partial (hw : E.useWarm = false) (hn : NoCreateApi E) (hb : PlainBuiltins E) (n : Nat) (tx : Tx) {s : St χ A}
    {o : VMOutput} (hr : AtRest E s) (h : Outputs E n tx s o) (a : Addr) : reportedCode o a = [] ∨
    CodeOnChain E s.world a (reportedCode o a) ∨ ValidCode E (reportedCode o a) := by
  have hP := accAll_start (E := E) (P := GoodCode E s.world) (fun _ _ _ => .inl rfl) tx s
  have h1 := (goodCode_inv hw hn hb s.world).inv.tx (fun s d _ hJ => hJ) (fun s d hJ hv hP b acc hg => by
      have e : (s.out.deployCode d).cur.accounts.get? b = (s.out.modAcc d.address (fun acc =>
        { acc with code := d.code, codeMetadata := d.metadata, deployer := some d.deployer })).cur.accounts.get? b := rfl
      rw [e, get_modAcc] at hg
      split at hg
      · cases hg; exact .inr (.inr (vetted_valid hw hv))
      · exact hP b acc hg) n tx hr ⟨by dsimp only; rw [txStart_world]; exact .start, hP⟩ h
  unfold reportedCode
  rcases h1 with ⟨e, w, rfl⟩ | h1
  · rw [(onError_output e w).2.1]; exact .inl rfl
  · cases hg : o.accounts.get? a with
    | none => exact .inl rfl
    | some acc => exact h1 a acc hg

/-! ### C26: upgrades -/

theorem permission_iff (s : St χ A) (i : CallInput) : checkUpgradePermission E s i = none ↔ Upgradeable E s.world i.recipient i.vm.caller := by
  unfold checkUpgradePermission Upgradeable
  cases E.hook.userAccount s.world i.recipient with
  | error e => simp
  | ok x =>
    cases x with
    | none => simp
    | some ua =>
      dsimp only
      constructor
      · intro h
        split at h
        · rename_i hc
          simp only [Bool.and_eq_true, decide_eq_true_eq] at hc
          exact ⟨ua, rfl, hc.1, hc.2.symm⟩
        · cases h
      · rintro ⟨ua', h1, h2, h3⟩
        simp only [Except.ok.injEq, Option.some.injEq] at h1
        subst h1
        rw [if_pos]
        simp [h2, h3]

theorem transferValueOnly_world (d snd : Addr) (v : Int) (c : Bool) (s : St χ A) : (transferValueOnly E d snd v c s).2.world = s.world := by
  have hb : (getBalance E snd s).2.world = s.world := by
    unfold getBalance
    dsimp only
    repeat' split
    all_goals rfl
  unfold transferValueOnly
  generalize getBalance E snd s = q at hb ⊢
  obtain ⟨b, t⟩ := q
  dsimp only at hb ⊢
  repeat' split
  all_goals first | rfl | exact hb

theorem setPointsUsed_world (g : UInt64) {s t : St χ A} {r : Unit} (h : setPointsUsed g s = (.ok r, t)) : t.world = s.world := by
  unfold setPointsUsed at h
  split at h
  · simp at h
  · simp only [Prod.mk.injEq] at h; rw [← h.2]; rfl

theorem execute_upgrade {ex : Executor χ A} {i : CallInput} {s t : St χ A} {r : Option Err} (hf : i.function = upgradeName)
    (hu : ¬ Upgradeable E s.world i.recipient i.vm.caller) (h : execute E ex i s = (.ok r, t)) : r ≠ none := by
  unfold execute at h
  rw [get_bind] at h
  split at h
  · simp only [M.pure_eq, M.pure, Prod.mk.injEq, Res.ok.injEq] at h; rw [← h.1]; simp
  · rcases bind_ok h with ⟨_, u, h1, h⟩ | ⟨_, h⟩ | ⟨_, h⟩
    · unfold useGas at h1
      rw [get_bind] at h1
      have hw := setPointsUsed_world _ h1
      unfold executeUpgrade at h
      rw [get_bind] at h
      cases hp : checkUpgradePermission E u i with
      | none => rw [permission_iff, hw] at hp; exact absurd hp hu
      | some e =>
        rw [hp] at h
        simp only [M.pure_eq, M.pure, Prod.mk.injEq, Res.ok.injEq] at h; rw [← h.1]; simp
    · simp at h
    · simp at h

theorem enterDestInput_keeps (i : CallInput) (s : St χ A) : (enterDestInput i s).recipient = i.recipient ∧
    (enterDestInput i s).function = i.function ∧ (enterDestInput i s).vm.caller = i.vm.caller ∧ (enterDestState i s).world = s.world := by
  have hc : ∀ t : St χ A, (copyTxHashes t i).recipient = i.recipient ∧ (copyTxHashes t i).function = i.function ∧
      (copyTxHashes t i).vm.caller = i.vm.caller := by
    intro t; unfold copyTxHashes; split <;> exact ⟨rfl, rfl, rfl⟩
  refine ⟨(hc _).1, (hc _).2.1, ?_, rfl⟩
  refine Eq.trans ?_ (hc { s with big := s.big.push.initState, out := s.out.push.censor }).2.2
  show (if _ then _ else _ : VMInput).caller = _
  split <;> rfl

theorem enterSameInput_keeps (i : CallInput) (s : St χ A) : (enterSameInput E i s).recipient = i.recipient ∧
    (enterSameInput E i s).function = i.function ∧ (enterSameInput E i s).vm.caller = i.vm.caller ∧ (enterSameState E i s).world = s.world := by
  have hc : ∀ t : St χ A, (copyTxHashes t i).recipient = i.recipient ∧ (copyTxHashes t i).function = i.function ∧
      (copyTxHashes t i).vm.caller = i.vm.caller := by
    intro t; unfold copyTxHashes; split <;> exact ⟨rfl, rfl, rfl⟩
  refine ⟨(hc _).1, (hc _).2.1, ?_, rfl⟩
  refine Eq.trans ?_ (hc { s with big := s.big.push, out := s.out.push }).2.2
  show (if _ then _ else _ : VMInput).caller = _
  split <;> rfl

/-- C26. A contract's request to upgrade another contract fails, and leaves no trace, unless the account is upgradeable and the
requester is its owner at that moment. -/
theorem c26_dest (n : Nat) (i : CallInput) (s t : St χ A) (r : DestResult) (hf : i.function = upgradeName)
    (hb : E.isBuiltin upgradeName = false) (hu : ¬ Upgradeable E s.world i.recipient i.vm.caller)
    (h : (execN E n).dest i s = (.ok r, t)) : r.err ≠ none ∧ NoTrace E s t := by
  have hb : E.isBuiltin i.function = false := by rw [hf]; exact hb
  have hr : r.err ≠ none := by
    cases n with
    | zero => simp [execN, M.oof] at h
    | succ n =>
      have hF := frameEx_execN E n
      rcases execDest_any i s t _ h with ⟨a, ha, h⟩ | ⟨h, _⟩ | ⟨h, _⟩
      · simp only [Res.ok.injEq] at ha
        subst ha
        cases h with
        | failed u e hr hc => rw [hb] at hc; simp at hc
        | builtin u o hr hc => rw [hb] at hc; simp at hc
        | called u w v j info e r hr hj hbd hfi =>
          obtain ⟨rfl, rfl⟩ := hj hb
          obtain ⟨k1, k2, k3, k4⟩ := enterDestInput_keeps j (St.bcPush E s)
          have he : e ≠ none := by
            generalize enterDestInput j (St.bcPush E s) = j' at k1 k2 k3 hbd
            generalize enterDestState j (St.bcPush E s) = s' at k4 hbd
            have hu' : ¬ Upgradeable E s'.world j'.recipient j'.vm.caller := by rw [k4, k1, k3]; exact hu
            have hf' : j'.function = upgradeName := by rw [k2, hf]
            unfold bodyDest at hbd
            have key : ∀ (x : Option Err) (v : St χ A), v.world = s'.world → (match x with
                | some e => pure (none, some e)
                | none => do
                  match (← execute E (execN E n) j') with
                  | some e => pure (none, some e)
                  | none => do
                    let s ← M.get
                    let (info, r) ← processAsyncInfo E (execN E n) s.rt.cur.asyncContextInfo
                    match r with
                    | .error e => pure (some info, some e)
                    | .ok _ => pure (some info, none) : M χ A (Option AsyncContextInfo × Option Err)) v = (.ok (info, e), w) → e ≠ none := by
              intro x v hw h
              cases x with
              | some e' =>
                simp only [M.pure_eq, M.pure, Prod.mk.injEq, Res.ok.injEq] at h; rw [← h.1.2]; simp
              | none =>
                rcases bind_ok h with ⟨r, u, h1, h⟩ | ⟨_, h⟩ | ⟨_, h⟩
                · have := execute_upgrade hf' (by rw [hw]; exact hu') h1
                  cases r with
                  | none => exact absurd rfl this
                  | some e' => simp only [M.pure_eq, M.pure, Prod.mk.injEq, Res.ok.injEq] at h; rw [← h.1.2]; simp
                · simp at h
                · simp at h
            split at hbd
            · rw [lift_bind] at hbd
              exact key _ _ (transferValueOnly_world ..) hbd
            · exact key none _ rfl hbd
          unfold finDest at hfi
          rcases bind_ok hfi with ⟨o, x, _, h2⟩ | ⟨_, h2⟩ | ⟨_, h2⟩
          · cases e with
            | none => exact absurd rfl he
            | some e' => simp only [M.pure_eq, M.pure, Prod.mk.injEq, Res.ok.injEq] at h2; rw [← h2.1]; simp
          · simp at h2
          · simp at h2
      · simp at h
      · simp at h
  exact ⟨hr, c17_dest_partial E n i s t r hb h (.inl hr)⟩

/-- C26. The same for a call on the requester's own context. -/
theorem c26_same (n : Nat) (i : CallInput) (s t : St χ A) (r : Option Err) (hf : i.function = upgradeName)
    (hu : ¬ Upgradeable E s.world i.recipient i.vm.caller)
    (h : (execN E n).same i s = (.ok r, t)) : r ≠ none ∧ NoTrace E s t := by
  have hr : r ≠ none := by
    cases n with
    | zero => simp [execN, M.oof] at h
    | succ n =>
      rcases execSame_any i s t _ h with ⟨h, _, _⟩ | ⟨_, ⟨e', u, h1, h2⟩ | ⟨h, _⟩ | ⟨h, _⟩⟩
      · cases h; simp
      · rcases h2 with ⟨h2, _⟩ | ⟨h2, _⟩
        · simp only [Res.ok.injEq] at h2
          subst h2
          obtain ⟨k1, k2, k3, k4⟩ := enterSameInput_keeps (E := E) i s
          unfold bodySame at h1
          rw [lift_bind] at h1
          cases hx : (transferValueOnly E (enterSameInput E i s).recipient (enterSameInput E i s).vm.caller
              (enterSameInput E i s).vm.callValue false (enterSameState E i s)).1 with
          | some e =>
            rw [hx] at h1
            simp only [M.pure_eq, M.pure, Prod.mk.injEq, Res.ok.injEq] at h1; rw [← h1.1]; simp
          | none =>
            rw [hx] at h1
            refine execute_upgrade (by rw [k2, hf]) ?_ h1
            rw [transferValueOnly_world, k4, k1, k3]
            exact hu
        · simp at h2
      · simp at h
      · simp at h
  cases r with
  | none => exact absurd rfl hr
  | some e => exact ⟨hr, c17_same_partial E n i s t e h⟩

/-- why an account of the output has its code and its deployer -/
def Justified (E : Env χ A) (w0 : χ) (a : Addr) (acc : OutAcc) : Prop :=
  (acc.deployer = none ∨ Deployable E w0 a ∨ ∃ o w, acc.deployer = some o ∧ Upgradeable E w a o) ∧
  (acc.code = [] ∨ CodeOnChain E w0 a acc.code ∨ acc.deployer ≠ none)

theorem justified_inv (hb : PlainBuiltins E) (w0 : χ) : AccInv E (fun s => Reached E w0 s.world) (Justified E w0) where
  unary := reached_unary w0
  blind _ _ _ h := h
  empty _ := ⟨.inl rfl, .inl rfl⟩
  move s b x y hJ hm hx acc hy := by
    cases hm with
    | same => exact hx acc hy
    | new => cases hy; exact ⟨.inl rfl, .inl rfl⟩
    | gasNew => cases hy; exact ⟨.inl rfl, .inl rfl⟩
    | code acc0 ua h1 h2 => cases hy; exact ⟨(hx _ rfl).1, .inr (.inl ⟨s.world, ua, hJ, acctOf_some h2, rfl⟩)⟩
    | strip => cases hy; exact ⟨.inl rfl, .inl rfl⟩
    | deploy _ d hb hd =>
      cases hy
      refine ⟨.inr ?_, .inr (.inr (by simp))⟩
      subst hb
      cases hd with
      | new i _ _ _ h => exact .inl (h.deployable hJ)
      | upgrade h _ =>
        obtain ⟨w, ua, h1, h2, h3⟩ := h
        exact .inr ⟨_, w, rfl, ua, h1, h2, h3⟩
    | _ => have h := hx _ rfl; cases hy; exact h
  builtin s i b0 a acc ts hJ h0 hg := ⟨.inl (hb _ _ _ _ _ h0 hg).2.2, .inl (hb _ _ _ _ _ h0 hg).1⟩
  merge a l r hl hr := by
    have hd : (mergeAcc l r).deployer = r.deployer ∨ (r.deployer = none ∧ (mergeAcc l r).deployer = l.deployer) := by
      unfold mergeAcc
      dsimp only
      cases r.deployer with
      | none => exact .inr ⟨rfl, rfl⟩
      | some d => exact .inl rfl
    have hm : l.deployer ≠ none ∨ r.deployer ≠ none → (mergeAcc l r).deployer ≠ none := by
      intro h
      rcases hd with h1 | ⟨h1, h2⟩
      · cases hr : r.deployer with
        | none =>
          rcases h with h | h
          · unfold mergeAcc; dsimp only; rw [hr]; exact h
          · exact absurd hr h
        | some d => rw [h1, hr]; simp
      · rw [h2]; rcases h with h | h
        · exact h
        · exact absurd h1 h
    refine ⟨?_, ?_⟩
    · rcases hd with h | ⟨_, h⟩ <;> rw [h]
      · exact hr.1
      · exact hl.1
    · rcases mergeAcc_code l r with h | ⟨_, h⟩ <;> rw [h]
      · rcases hr.2 with h | h | h
        · exact .inl h
        · exact .inr (.inl h)
        · exact .inr (.inr (hm (.inr h)))
      · rcases hl.2 with h | h | h
        · exact .inl h
        · exact .inr (.inl h)
        · exact .inr (.inr (hm (.inl h)))
  moves _ _ _ _ _ h := h

/-- C26, partial: whatever contracts do during a call, an account that the node would not hand out for a new contract, and whose
owner the node does not change meanwhile, is reported without code, or with its code on the chain, or as upgraded by its owner
(the reported deployer) while it is upgradeable. Missing: the request may be made by a contract that the owner called, in the
owner's name (`c26_neg`). -/
theorem c26_tx_partial (hb : PlainBuiltins E) (n : Nat) (i : CallInput) (hf : i.function ≠ upgradeName) {s : St χ A}
    {o : VMOutput} (hr : AtRest E s) (h : Outputs E n (.call i) s o) (a : Addr) (acc : OutAcc) (hd : ¬ Deployable E s.world a)
    (ho : FixedOwner E a) (ha : o.accounts.get? a = some acc) :
    acc.code = [] ∨ CodeOnChain E s.world a acc.code ∨ ∃ owner, acc.deployer = some owner ∧ Upgradeable E s.world a owner := by
  have hP := accAll_start (E := E) (P := Justified E s.world) (fun _ _ _ => ⟨.inl rfl, .inl rfl⟩) (.call i) s
  have h1 := (justified_inv hb s.world).inv.txCall n i hf hr ⟨by dsimp only; rw [txStart_world]; exact .start, hP⟩ h
  rcases h1 with ⟨e, w, rfl⟩ | h1
  · rw [(onError_output e w).2.1] at ha; cases ha
  · obtain ⟨g1, g2⟩ := h1 a acc ha
    rcases g2 with h | h | h
    · exact .inl h
    · exact .inr (.inl h)
    · rcases g1 with g | g | ⟨p, w, g, gw⟩
      · exact absurd g h
      · exact absurd g hd
      · exact .inr (.inr ⟨p, g, ho w s.world p gw⟩)

/-! ### C27: deployments by contracts -/

theorem deduct_only {c : Bytes} {s t : St χ A} {r : Option Err} (h : deductForIndirectDeployment c s = (.ok r, t)) :
    ∃ m, t = { s with met := m } := by
  unfold deductForIndirectDeployment at h
  rw [get_bind] at h
  unfold deductInitialGas at h
  dsimp only at h
  split at h
  · simp only [Prod.mk.injEq] at h; exact ⟨s.met, h.2.symm⟩
  · simp only [Prod.mk.injEq] at h; exact ⟨_, h.2.symm⟩

/-- the stages of a deployment by a contract -/
inductive Creation (E : Env χ A) (ex : Executor χ A) (i : CreateInput) (s : St χ A) : Except Err Addr → St χ A → Prop
  | early (m : MeterCtx) (e : Err) : Creation E ex i s (.error e) { s with met := m }
  | refused (m : MeterCtx) (e : Err) : Creation E ex i s (.error e) (newAddress E i.vm.caller { s with met := m }).2
  | ran (m : MeterCtx) (addr : Addr) (s1 u t : St χ A) (q : DestResult) (r : Except Err Addr) :
      newAddress E i.vm.caller { s with met := m } = (.ok addr, s1) → accountExists E s1 addr = false → s.rt.cur.readOnly = false →
      ex.dest { vm := i.vm, recipient := addr, function := initName, allowInit := true }
        { s1 with
          out := s1.out.deployCode { code := i.code, metadata := i.metadata, address := addr, deployer := i.vm.caller }
          rt := { s1.rt with verifyCode := true } } = (.ok q, u) →
      ((∃ e, q.err = some e ∧ r = .error e ∧ t = { u with out := u.out.deleteAcc addr }) ∨
       (q.err = none ∧ r = .ok addr ∧ t = increaseNonce E i.vm.caller u)) →
      Creation E ex i s r t

theorem createNewContract_stages {ex : Executor χ A} {i : CreateInput} {s t : St χ A} {r : Except Err Addr}
    (h : createNewContract E ex i s = (.ok r, t)) : Creation E ex i s r t := by
  unfold createNewContract at h
  rcases bind_ok h with ⟨e, s0, h1, h⟩ | ⟨_, h⟩ | ⟨_, h⟩
  · obtain ⟨m, rfl⟩ := deduct_only h1
    cases e with
    | some e =>
      simp only [M.pure_eq, M.pure, Prod.mk.injEq, Res.ok.injEq] at h
      rw [← h.1, ← h.2]; exact .early m e
    | none =>
      dsimp only at h
      rw [get_bind] at h
      split at h
      · simp only [M.pure_eq, M.pure, Prod.mk.injEq, Res.ok.injEq] at h
        rw [← h.1, ← h.2]; exact .early m _
      · rename_i hro
        have hro : s.rt.cur.readOnly = false := by simpa using hro
        rw [lift_bind] at h
        generalize hq : newAddress E i.vm.caller { s with met := m } = q at h
        obtain ⟨a, s1⟩ := q
        have hs1 : s1 = (newAddress E i.vm.caller { s with met := m }).2 := by rw [hq]
        cases a with
        | error e =>
          simp only [M.pure_eq, M.pure, Prod.mk.injEq, Res.ok.injEq] at h
          rw [← h.1, ← h.2, hs1]; exact .refused m e
        | ok addr =>
          dsimp only at h
          rw [get_bind] at h
          split at h
          · simp only [M.pure_eq, M.pure, Prod.mk.injEq, Res.ok.injEq] at h
            rw [← h.1, ← h.2, hs1]; exact .refused m _
          · rename_i hex
            rw [modify_bind, modify_bind] at h
            rcases bind_ok h with ⟨d, u, h2, h⟩ | ⟨_, h⟩ | ⟨_, h⟩
            · refine .ran m addr s1 u t d r hq (by simpa using hex) hro h2 ?_
              generalize d.err = x at h
              cases x with
              | some e =>
                dsimp only at h
                rw [modify_bind] at h
                simp only [M.pure_eq, M.pure, Prod.mk.injEq, Res.ok.injEq] at h
                exact .inl ⟨e, rfl, h.1.symm, h.2.symm⟩
              | none =>
                dsimp only at h
                rw [modify_bind] at h
                simp only [M.pure_eq, M.pure, Prod.mk.injEq, Res.ok.injEq] at h
                exact .inr ⟨rfl, h.1.symm, h.2.symm⟩
            · simp at h
            · simp at h
  · simp at h
  · simp at h

/-- looking up a nonce -/
theorem getNonce_spec (a : Addr) (s : St χ A) : (getNonce E a s).1 = nonceOf E s a ∧ (getNonce E a s).2.world = s.world ∧
    (getNonce E a s).2.flags = s.flags ∧ (getNonce E a s).2.out.codeUpdates = s.out.codeUpdates ∧
    ∃ n : UInt64, ∀ b, (getNonce E a s).2.out.cur.accounts.get? b =
      if a = b then some { (s.out.cur.accounts.get? a).getD {} with nonce := n } else s.out.cur.accounts.get? b := by
  unfold getNonce nonceOf nonceOf.chain OutCtx.getAcc
  cases hg : s.out.cur.accounts.get? a with
  | some acc =>
    have h0 : ∀ b, s.out.cur.accounts.get? b = if a = b then some { acc with nonce := acc.nonce } else s.out.cur.accounts.get? b := by
      intro b; split
      · rename_i h; rw [← h, hg]
      · rfl
    dsimp only
    by_cases hc : acc.nonce ≠ 0 ∨ s.flags.v3 = false
    · rw [if_pos hc, if_pos]
      · exact ⟨rfl, rfl, rfl, rfl, acc.nonce, h0⟩
      · rcases hc with hc | hc <;> simp [hc]
    · rw [if_neg hc, if_neg]
      · cases E.hook.userAccount s.world a with
        | error e => exact ⟨rfl, rfl, rfl, rfl, acc.nonce, h0⟩
        | ok x =>
          cases x with
          | none => exact ⟨rfl, rfl, rfl, rfl, acc.nonce, h0⟩
          | some ua => exact ⟨rfl, rfl, rfl, rfl, ua.nonce, fun b => AMap.get?_insert _ _ _ _⟩
      · have h1 : acc.nonce = 0 := Decidable.byContradiction fun h => hc (.inl h)
        have h2 : s.flags.v3 = true := by
          cases h : s.flags.v3 with
          | true => rfl
          | false => exact absurd (.inr h) hc
        simp [h1, h2]
  | none =>
    dsimp only
    have h0 : ∀ b, (s.out.cur.accounts.insert a ({} : OutAcc)).get? b = if a = b then some { ({} : OutAcc) with nonce := 0 } else s.out.cur.accounts.get? b :=
      fun b => AMap.get?_insert _ _ _ _
    rw [if_neg (by simp)]
    cases E.hook.userAccount s.world a with
    | error e => exact ⟨rfl, rfl, rfl, rfl, 0, h0⟩
    | ok x =>
      cases x with
      | none => exact ⟨rfl, rfl, rfl, rfl, 0, h0⟩
      | some ua =>
        refine ⟨rfl, rfl, rfl, rfl, ua.nonce, fun b => ?_⟩
        show ((s.out.cur.accounts.insert a ({} : OutAcc)).insert a _).get? b = _
        rw [AMap.get?_insert, h0 b]
        split <;> rfl

theorem newAddress_spec {creator addr : Addr} {s t : St χ A} (h : newAddress E creator s = (.ok addr, t)) :
    NextAddress E s creator addr ∧ t.world = s.world := by
  obtain ⟨h1, h2, h3, _, _⟩ := getNonce_spec (E := E) creator s
  unfold newAddress at h
  generalize getNonce E creator s = q at h h1 h2 h3
  obtain ⟨r, u⟩ := q
  dsimp only at h1 h2 h3 h
  cases r with
  | error e => simp at h
  | ok n =>
    simp only [Prod.mk.injEq] at h
    obtain ⟨h4, rfl⟩ := h
    refine ⟨⟨n, h1.symm, ?_⟩, h2⟩
    rw [← h4, h2, h3]
    congr 1
    have hn : (n > 0) ↔ ¬ n = 0 := by
      rw [← UInt64.toNat_inj]
      show 0 < n.toNat ↔ _
      show 0 < n.toNat ↔ ¬ n.toNat = 0
      omega
    by_cases hz : n = 0
    · have : ¬ n > 0 := fun h => hn.mp h hz
      simp [hz]
    · have : n > 0 := hn.mpr hz
      cases E.hook.isSmartContract s.world creator <;> cases s.flags.v3 <;> simp [hz, this]

/-- raising a nonce changes nothing else -/
theorem increaseNonce_spec (a : Addr) (s : St χ A) (b : Addr) : (increaseNonce E a s).out.cur.accounts.get? b =
    if a = b then some { (s.out.cur.accounts.get? a).getD {} with
      nonce := (match nonceOf E s a with | .ok n => n | .error _ => 0) + 1 }
    else s.out.cur.accounts.get? b := by
  obtain ⟨h1, h2, h3, h4, n, h5⟩ := getNonce_spec (E := E) a s
  unfold increaseNonce
  dsimp only
  rw [get_modAcc]
  rw [h1]
  by_cases hb : a = b
  · rw [if_pos hb, if_pos hb, h5 a, if_pos rfl]; rfl
  · rw [if_neg hb, if_neg hb, h5 b, if_neg hb]

/-- the code of the account at `addr` stays as it was installed -/
def SameCode (addr : Addr) (o o' : VMOutput) : Prop := ∀ acc, o.accounts.get? addr = some acc →
  ∃ acc', o'.accounts.get? addr = some acc' ∧ acc'.code = acc.code ∧ acc'.codeMetadata = acc.codeMetadata ∧ acc'.deployer = acc.deployer

theorem codeUpdated_unary (hn : NoCreateApi E) (addr : Addr) : Unary E (fun s => addr ∈ s.out.codeUpdates) where
  delete _ _ _ i h _ _ _ _ := absurd h (hn i)
  step s t h hI := by
    have hdep : ∀ d : CodeDeployInput, addr ∈ (s.out.deployCode d).codeUpdates := by
      intro d
      show addr ∈ (if _ then _ else _ : List Addr)
      split
      · exact hI
      · exact List.mem_cons_of_mem _ hI
    cases h with
    | a _ hs =>
      cases hs with
      | deploy d i _ _ _ _ => exact hdep d
      | dest _ i r he _ => exact (halt_dest he).elim
      | same _ i r he _ => exact (halt_same he).elim
      | undo _ i r a ci he => exact (halt_dest he).elim
      | _ => exact hI
    | deploy d _ _ => exact hdep d
    | finalize =>
      obtain ⟨o, m, ho⟩ := getVMOutput_only (E := E) s
      rw [ho]; exact hI
    | clean _ =>
      unfold St.cleanInstance
      split
      · exact hI
      · split <;> exact hI
    | failed c new m g h1 h2 h3 =>
      unfold St.cleanInstance
      split
      · exact hI
      · split <;> exact hI
    | _ => exact hI
  stepH s t h hI := by cases h <;> exact hI
  push s hI := hI
  bcPopSet s hI := by rw [(bcPopSet_rest (E := E) s).1]; exact hI
  bcPopDiscard s hI := hI
  onError e s hI := hI
  enterDest i s hI := hI
  enterSame i s hI := hI
  popDest b s hI := by
    unfold popDest
    dsimp only
    rw [(rtPopSet_keeps _).1]
    cases b
    · show addr ∈ s.out.popSet.codeUpdates
      unfold OutCtx.popSet; split <;> exact hI
    · show addr ∈ s.out.popMerge.codeUpdates
      unfold OutCtx.popMerge; split <;> exact hI
  popSameFail s hI := by
    unfold popSameFail
    rw [(bcPopSet_rest (E := E) _).1, (rtPopSet_keeps _).1]
    show addr ∈ s.out.popSet.codeUpdates
    unfold OutCtx.popSet; split <;> exact hI
  popSameOk s hI := by
    unfold popSameOk
    rw [(rtPopSet_keeps _).1]
    exact hI
  restore g s hI := by
    obtain ⟨r, ins, hr, _, _⟩ := restoreGas_only g s
    rw [hr]; exact hI

theorem mergeAcc_keepsCode (l r : OutAcc) (h1 : r.code = l.code ∨ r.code = []) (h2 : r.codeMetadata = l.codeMetadata ∨ r.codeMetadata = [])
    (h3 : r.deployer = l.deployer ∨ r.deployer = none) :
    (mergeAcc l r).code = l.code ∧ (mergeAcc l r).codeMetadata = l.codeMetadata ∧ (mergeAcc l r).deployer = l.deployer := by
  unfold mergeAcc
  dsimp only
  refine ⟨?_, ?_, ?_⟩
  · rcases h1 with h | h <;> rw [h]
    · split <;> rfl
    · rfl
  · rcases h2 with h | h <;> rw [h]
    · split <;> rfl
    · rfl
  · rcases h3 with h | h <;> rw [h]
    cases l.deployer <;> rfl

/-- As long as `addr` is noted as updated, no account exists there and contracts cannot deploy, its code stays. -/
theorem sameCode_rel (hn : NoCreateApi E) (hb : PlainBuiltins E) (addr : Addr) (hx : ∀ w ua, E.hook.userAccount w addr ≠ .ok (some ua)) :
    OutRel E (fun s => addr ∈ s.out.codeUpdates) (SameCode addr) where
  unary := codeUpdated_unary hn addr
  blind s o m h he := by show addr ∈ o.codeUpdates; rw [he]; exact h
  refl o acc h := ⟨acc, h, rfl, rfl, rfl⟩
  trans a b c h1 h2 acc h := by
    obtain ⟨x, g1, g2, g3, g4⟩ := h1 acc h
    obtain ⟨y, k1, k2, k3, k4⟩ := h2 x g1
    exact ⟨y, k1, k2.trans g2, k3.trans g3, k4.trans g4⟩
  move s o hJ hm := by
    have one : ∀ x y, AccMove E s addr x y → ∀ acc, x = some acc → ∃ acc', y = some acc' ∧ acc'.code = acc.code ∧
        acc'.codeMetadata = acc.codeMetadata ∧ acc'.deployer = acc.deployer := by
      intro x y hm acc hacc
      cases hm with
      | same => exact ⟨acc, hacc, rfl, rfl, rfl⟩
      | new => cases hacc
      | gasNew => cases hacc
      | code acc0 ua h1 h2 => exact absurd (acctOf_some h2) (hx _ _)
      | strip acc0 h => exact absurd hJ h
      | deploy _ d hd h =>
        cases h with
        | new i h _ _ _ => exact absurd h (hn i)
        | upgrade h _ =>
          obtain ⟨w, ua, h, _⟩ := h
          rw [← hd] at h
          exact absurd h (hx _ _)
      | _ => cases hacc; exact ⟨_, rfl, rfl, rfl, rfl⟩
    intro acc hacc
    obtain ⟨x, h1, h2⟩ := hm.acc addr
    obtain ⟨y, g1, g2, g3, g4⟩ := one _ _ h1 acc hacc
    obtain ⟨z, k1, k2, k3, k4⟩ := one _ _ h2 y g1
    exact ⟨z, k1, k2.trans g2, k3.trans g3, k4.trans g4⟩
  delete s c a i _ h _ := absurd h (hn i)
  builtin s c i b _ hbf acc hacc := by
    obtain ⟨b0, e0, hacc0⟩ := hbf.acc
    rw [get_addToActive, hacc]
    cases hgb : b.out.accounts.get? addr with
    | none => exact ⟨acc, rfl, rfl, rfl, rfl⟩
    | some ra =>
      have hra : ra.code = [] ∧ ra.codeMetadata = [] ∧ ra.deployer = none := by
        have h' := hacc0 addr
        rw [hgb] at h'
        cases h0 : b0.out.accounts.get? addr with
        | none => rw [h0] at h'; simp only [SameButTransfers] at h'; rw [h']; exact ⟨rfl, rfl, rfl⟩
        | some acc0 =>
          rw [h0] at h'
          simp only [SameButTransfers] at h'
          rw [h']
          have hh := hb _ _ _ _ _ e0 h0
          exact hh
      exact ⟨_, rfl, mergeAcc_keepsCode { acc with transfers := acc.transfers ++ ra.transfers }
        { ra with balanceDelta := ra.balanceDelta + acc.balanceDelta } (.inr hra.1) (.inr hra.2.1) (.inr hra.2.2)⟩
  nested c o h acc hacc := by
    obtain ⟨x, g1, g2, g3, g4⟩ := h acc hacc
    rw [get_mergeOut, g1, hacc]
    exact ⟨_, rfl, mergeAcc_keepsCode acc x (.inl g2) (.inl g3) (.inl g4)⟩

/-- C27, partial: a deployment that succeeds gives the address that the node makes from the creator and its nonce; there was no
account; and the output reports there the supplied code and metadata and the creator as deployer, whatever the `init` function
did. Missing: `init` functions that lead to another deployment (excluded here by `NoCreateApi`), which may be at the same address
(`c27_neg`). -/
theorem c27_success_partial (hn : NoCreateApi E) (hb : PlainBuiltins E) (n : Nat) (i : CreateInput)
    (s t : St χ A) (addr : Addr) (hx : ∀ w ua, E.hook.userAccount w addr ≠ .ok (some ua)) (h : createNewContract E (execN E n) i s = (.ok (.ok addr), t)) :
    NextAddress E s i.vm.caller addr ∧ (∀ ua, E.hook.userAccount s.world addr ≠ .ok (some ua)) ∧
    ∃ acc, (effects t).accounts.get? addr = some acc ∧ acc.code = i.code ∧ acc.codeMetadata = i.metadata ∧
      acc.deployer = some i.vm.caller := by
  cases createNewContract_stages h with
  | ran m a s1 u _ q _ h1 h2 _ h3 h4 =>
    rcases h4 with ⟨e, _, h4, _⟩ | ⟨_, h4, rfl⟩
    · cases h4
    · cases h4
      obtain ⟨g1, g2⟩ := newAddress_spec h1
      have hno : ∀ ua, E.hook.userAccount s.world addr ≠ .ok (some ua) := by
        intro ua hu
        have g2 : s1.world = s.world := g2
        rw [← g2] at hu
        simp [accountExists, acctOf, hu] at h2
      refine ⟨g1, hno, ?_⟩
      have hrel := (sameCode_rel hn hb addr hx).dest h3 (by
        show addr ∈ (if _ then _ else _ : List Addr)
        split
        · assumption
        · exact List.mem_cons_self ..)
      obtain ⟨acc, k1, k2, k3, k4⟩ := hrel { (s1.out.cur.accounts.get? addr).getD {} with
          code := i.code, codeMetadata := i.metadata, deployer := some i.vm.caller } (by
        refine Eq.trans (get_modAcc s1.out addr addr (fun acc =>
          { acc with code := i.code, codeMetadata := i.metadata, deployer := some i.vm.caller })) ?_
        rw [if_pos rfl])
      unfold Spec.effects
      rw [increaseNonce_spec]
      by_cases hc : i.vm.caller = addr
      · rw [if_pos hc, hc, k1]
        exact ⟨_, rfl, k2, k3, by rw [← hc]; exact k4⟩
      · rw [if_neg hc]
        exact ⟨acc, k1, k2, k3, k4⟩

/-- C27. A deployment that fails reports no code for its address: nothing changes, or the account that was made for the new
contract is removed and all others are as before. -/
theorem c27_failure (hi : E.isBuiltin initName = false) (n : Nat) (i : CreateInput)
    (s t : St χ A) (e : Err) (h : createNewContract E (execN E n) i s = (.ok (.error e), t)) :
    (∀ b, reportedCode (effects t) b = reportedCode (effects s) b) ∨
    ∃ addr, NextAddress E s i.vm.caller addr ∧ (∀ ua, E.hook.userAccount s.world addr ≠ .ok (some ua)) ∧
      (effects t).accounts.get? addr = none ∧ ∀ b, b ≠ addr → reportedCode (effects t) b = reportedCode (effects s) b := by
  have hna : ∀ m : MeterCtx, ∀ b, reportedCode (effects (newAddress E i.vm.caller { s with met := m }).2) b = reportedCode (effects s) b := by
    intro m b
    have hs : (newAddress E i.vm.caller { s with met := m }).2 = (getNonce E i.vm.caller { s with met := m }).2 := by
      unfold newAddress
      generalize getNonce E i.vm.caller { s with met := m } = q
      obtain ⟨r, q⟩ := q
      cases r <;> rfl
    obtain ⟨_, _, _, _, k, hk⟩ := getNonce_spec (E := E) i.vm.caller { s with met := m }
    unfold reportedCode Spec.effects
    rw [hs, hk b]
    split
    · rename_i hb
      subst hb
      show _ = (Option.map OutAcc.code (s.out.cur.accounts.get? i.vm.caller)).getD []
      cases s.out.cur.accounts.get? i.vm.caller <;> rfl
    · rfl
  cases createNewContract_stages h with
  | early m => exact .inl fun b => rfl
  | refused m => exact .inl (hna m)
  | ran m a s1 u _ q _ h1 h2 _ h3 h4 =>
    rcases h4 with ⟨e', h0, h4, rfl⟩ | ⟨_, h4, _⟩
    · obtain ⟨g1, g2⟩ := newAddress_spec h1
      have hno : ∀ ua, E.hook.userAccount s.world a ≠ .ok (some ua) := by
        intro ua hu
        have g2 : s1.world = s.world := g2
        rw [← g2] at hu
        simp [accountExists, acctOf, hu] at h2
      refine .inr ⟨a, g1, hno, ?_, fun b hb => ?_⟩
      · show (u.out.deleteAcc a).cur.accounts.get? a = none
        rw [get_deleteAcc, if_pos rfl]
      · have h5 := (c17_dest_partial E n _ _ _ q hi h3 (.inl (by rw [h0]; simp))).effects
        have h6 : reportedCode (effects ({ u with out := u.out.deleteAcc a } : St χ A)) b = reportedCode (effects u) b := by
          unfold reportedCode Spec.effects
          dsimp only
          rw [get_deleteAcc, if_neg (fun h => hb h.symm)]
        rw [h6, h5]
        have h7 := hna m b
        rw [h1] at h7
        rw [← h7]
        unfold reportedCode Spec.effects
        have h8 := get_modAcc s1.out a b (fun acc =>
          { acc with code := i.code, codeMetadata := i.metadata, deployer := some i.vm.caller })
        rw [if_neg (fun h => hb h.symm)] at h8
        exact congrArg (fun x => (Option.map OutAcc.code x).getD []) h8
    · cases h4

/-- the accounts of a final output: code is kept for the updated addresses -/
theorem finalize_keeps (s : St χ A) {b : Addr} {acc : OutAcc} (hb : b ∈ s.out.codeUpdates) (hg : s.out.cur.accounts.get? b = some acc) :
    ∃ g, (setGasUsed (updateSCGasUsed (readyState s))).2.out.cur.accounts.get? b = some { acc with gasUsed := g } := by
  have h1 : (readyState s).out.cur.accounts.get? b = some acc := by
    have h : (readyState s).out.cur.accounts.get? b = (s.out.cur.accounts.get? b).map
      (fun x => if b ∈ s.out.codeUpdates then x else { x with code := [], codeMetadata := [], deployer := none }) :=
      AMap.lookupL_mapKey (fun k (x : OutAcc) => if k ∈ s.out.codeUpdates then x else { x with code := [], codeMetadata := [], deployer := none }) _ b
    rw [h, hg, Option.map_some, if_pos hb]
  have h2 : (updateSCGasUsed (readyState s)).out.cur.accounts.get? b = some acc := by
    have : (updateSCGasUsed (readyState s)).out.cur = ((readyState s).out.getAcc s.rt.cur.scAddress).2.2.cur := rfl
    rw [this]
    unfold OutCtx.getAcc
    split
    · exact h1
    · rename_i hn
      show (AMap.insert _ _ _).get? b = _
      rw [AMap.get?_insert]
      split
      · rename_i hc; rw [hc] at hn; rw [hn] at h1; cases h1
      · exact h1
  generalize updateSCGasUsed (readyState s) = x at h2
  refine ⟨(x.met.cur.gasUsedByAccounts.get? b).getD 0, ?_⟩
  have h : (setGasUsed x).2.out.cur.accounts.get? b = (x.out.cur.accounts.get? b).map
      (fun y => { y with gasUsed := (x.met.cur.gasUsedByAccounts.get? b).getD 0 }) :=
      AMap.lookupL_mapKey (W := OutAcc) (fun k (y : OutAcc) => { y with gasUsed := (x.met.cur.gasUsedByAccounts.get? k).getD 0 }) x.out.cur.accounts.entries b
  rw [h, h2]; rfl

theorem deploySteps_reports {ex : Executor χ A} {d : CodeDeployInput} {s u : St χ A} (h : deploySteps E ex d s = (.ok none, u))
    (hc : (getVMOutput E u).1.returnCode = .ok) : ∃ acc, (getVMOutput E u).1.accounts.get? d.address = some acc ∧ acc.code = d.code ∧
      acc.codeMetadata = d.metadata ∧ acc.deployer = some d.deployer := by
  obtain ⟨_, v, _, rfl⟩ := deploySteps_ok h
  have hm : d.address ∈ (v.out.deployCode d).codeUpdates := by
    show d.address ∈ (if _ then _ else _ : List Addr)
    split
    · assumption
    · exact List.mem_cons_self ..
  have hg : (v.out.deployCode d).cur.accounts.get? d.address = some { (v.out.cur.accounts.get? d.address).getD {} with
      code := d.code, codeMetadata := d.metadata, deployer := some d.deployer } := by
    refine Eq.trans (get_modAcc v.out d.address d.address (fun acc =>
          { acc with code := d.code, codeMetadata := d.metadata, deployer := some d.deployer })) ?_
    rw [if_pos rfl]
  generalize hu : ({ v with out := v.out.deployCode d } : St χ A) = u at hc
  obtain ⟨g, h1⟩ := finalize_keeps u (b := d.address) (by rw [← hu]; exact hm) (by rw [← hu]; exact hg)
  rw [getVMOutput_run] at hc ⊢
  have hs := updateGasOnSuccess_state (readyState u)
  generalize updateGasOnSuccess (readyState u) = q at hc hs ⊢
  obtain ⟨r, t⟩ := q
  dsimp only at hs
  subst hs
  cases r with
  | some e => exact absurd hc (onError_output e _).1
  | none => exact ⟨_, h1, rfl, rfl, rfl⟩

/-- the body of a transaction that gave an output -/
theorem Outputs.body {n : Nat} {tx : Tx} {s : St χ A} {o : VMOutput} (h : Outputs E n tx s o) :
    ∃ t, txBody E (execN E n) tx (hostInit E s) = (.ok o, t) := by
  have h1 := runTx_any (E := E) n tx s
  unfold Spec.Outputs at h
  rw [h] at h1
  generalize (runTx E n tx s).2 = t' at h1
  cases h1 with
  | ok o t h => exact ⟨t, h⟩
  | reset o t h _ => exact ⟨t, h⟩

/-- C27. A transaction that deploys a contract and succeeds reports the supplied code and metadata and its sender as deployer, at
the address that the node makes from the sender and the nonce before the transaction. -/
theorem c27_create (n : Nat) (i : CreateInput) {s : St χ A} {o : VMOutput} (h : Outputs E n (.create i) s o) (hc : o.returnCode = .ok) :
    ∃ addr acc, NextAddress E (hostInit E s) i.vm.caller addr ∧ o.accounts.get? addr = some acc ∧ acc.code = i.code ∧
      acc.codeMetadata = i.metadata ∧ acc.deployer = some i.vm.caller := by
  obtain ⟨t, hb⟩ := Outputs.body h
  obtain ⟨addr, s1, u, h0, h1, h2⟩ := createBody_ok hb hc
  rw [h2] at hc
  obtain ⟨acc, g1, g2⟩ := deploySteps_reports h1 hc
  generalize hq : newAddress E i.vm.caller (hostInit E s) = q at h0
  obtain ⟨r, t'⟩ := q
  dsimp only at h0
  subst h0
  rw [h2]
  exact ⟨addr, acc, (newAddress_spec hq).1, g1, g2⟩

/-- C27. A transaction that upgrades a contract and succeeds reports the supplied code and metadata for the contract. -/
theorem c27_upgrade (n : Nat) (i : CallInput) (hf : i.function = upgradeName) {s : St χ A} {o : VMOutput} (h : Outputs E n (.call i) s o) (hc : o.returnCode = .ok) :
    ∃ code metadata rest acc, i.vm.args = code :: metadata :: rest ∧ o.accounts.get? i.recipient = some acc ∧ acc.code = code ∧
      acc.codeMetadata = metadata ∧ acc.deployer = some i.vm.caller := by
  obtain ⟨t, hb⟩ := Outputs.body h
  simp only [txBody, if_pos hf] at hb
  obtain ⟨code, md, rest, s1, u, h0, h1, h2⟩ := upgradeBody_ok hb hc
  rw [h2] at hc
  obtain ⟨acc, g1, g2⟩ := deploySteps_reports h1 hc
  rw [h2]
  exact ⟨code, md, rest, acc, h0, g1, g2⟩

/-! ### Examples and violations -/

section
open Fixture

/-- what a transaction sees -/
def checkOut {W : Type} (r : RunResult × St W EeiCall) (p : VMOutput → Bool) : Bool :=
  match r with
  | (some (some o), _) => p o
  | _ => false

theorem checkOut_elim {W : Type} {E : Env W EeiCall} {n : Nat} {tx : Tx} {s : St W EeiCall} {p : VMOutput → Bool}
    (h : checkOut (runTx E n tx s) p = true) : ∃ o, Outputs E n tx s o ∧ p o = true := by
  unfold checkOut at h
  unfold Outputs
  generalize runTx E n tx s = q at h ⊢
  obtain ⟨r, t⟩ := q
  match r with
  | some (some o) => exact ⟨o, rfl, h⟩
  | some none => cases h
  | none => cases h

/-- contract 100 deploys code [2] (valid), [3] (exports the name of a built-in function), or code [4], whose `init` calls contract
100 again, which deploys [2]; contract 101 asks in its caller's name for an upgrade of contract 100 to [2] -/
def depProg (code : Bytes) (gas : Int64 := 1000) : P := create code [7, 0] 0 gas .ret
def stealProg : P :=
  .store 0 (addr 100) <| .store 64 upgradeName <| .store 128 [1, 0, 0, 0, 2, 0, 0, 0] <| .store 192 [2, 7, 0] <|
    .call (.executeOnDestContextByCaller 5000 0 32 64 15 2 128 192) fun _ => .ret
def depMods : List (Bytes × WasmModule EeiCall) :=
  [([1], mod [(f, depProg [3]), (g, depProg [2]), ([104], depProg [4] 5000)]),
   ([2], mod [(initName, .ret), (f, .ret)]),
   ([3], mod [(initName, .ret), ([66, 73], .ret)]),
   ([4], mod [(initName, callDest (addr 100) g 3000 .ret)]),
   ([5], mod [(f, stealProg)])]
def depEnv : Env World EeiCall := Env.real { envWith depMods with hook := { goodHook with shardOf := fun _ _ => 0 } }
def depEnv' : Env World EeiCall := depEnv.without [.create]
def depHost : St World EeiCall := host (node [(addr 100, contract [1]), (addr 101, contract [5] 0 (addr 2))])
/-- the address of the first contract that contract 100 deploys -/
def depAddr : Addr := List.replicate 30 1 ++ [100, 100]

theorem dep_invalid : ¬ ValidCode depEnv [3] := by
  rintro ⟨m, h, hv⟩
  have h : m = mod [(initName, .ret), ([66, 73], .ret)] := by cases h; rfl
  subst h
  have := (hv.names ([66, 73], .ret) (.tail _ (.head _))).notBuiltin
  revert this
  decide +kernel

/-- the hypotheses of the theorems above -/
example : ValidName depEnv [102] := ⟨by decide, by decide, by decide, by decide +kernel, by decide +kernel, by decide⟩
theorem dep_plain : PlainBuiltins depEnv := by
  intro w i b a acc h hg
  cases h
  cases hg
example : PlainBuiltins depEnv' := dep_plain
example : NoCreateApi depEnv' := noCreate_without (by decide)
example : AtRest depEnv' depHost := ⟨.inl rfl, rfl, .inl rfl⟩
instance {ε α : Type} [DecidableEq ε] [DecidableEq α] : DecidableEq (Except ε α)
  | .ok a, .ok b => if h : a = b then isTrue (by rw [h]) else isFalse (fun e => by cases e; exact h rfl)
  | .error a, .error b => if h : a = b then isTrue (by rw [h]) else isFalse (fun e => by cases e; exact h rfl)
  | .ok _, .error _ => isFalse (fun h => by cases h)
  | .error _, .ok _ => isFalse (fun h => by cases h)
theorem dep_new (w0 : World) : NewStaysNew depEnv w0 where
  none := by
    rintro a ⟨w, c, n, _, h, _⟩ w' _ ua hu
    cases h
    have hu : (Except.ok (if (List.replicate 30 (1 : UInt8) ++ [_, _]).take 30 = List.replicate 30 1 then none else _) : Except Err (Option UserAcct)) = .ok (some ua) := hu
    simp at hu
  builtin := by
    intro w _ i b a acc h _ hg
    cases h
    cases hg
example : depEnv.isBuiltin initName = false ∧ depEnv.isBuiltin upgradeName = false := by decide +kernel

/-- C25, C27: a transaction that deploys valid code succeeds; one with invalid code does not. -/
def createTx (code : Bytes) : Tx := .create { vm := { caller := addr 1, gasProvided := 100000 }, code := code, metadata := [7, 0] }
example : checkOut (runTx depEnv 5 (createTx [2]) depHost) (fun o => decide (o.returnCode = .ok ∧
    reportedCode o (List.replicate 30 1 ++ [1, 100]) = [2])) = true := by decide +kernel
example : checkOut (runTx depEnv 5 (createTx [3]) depHost) (fun o => decide (o.returnCode = .contractInvalid)) = true := by decide +kernel

/-- C26: the owner upgrades contract 100 through a request; a stranger's request fails. -/
def upgradeInput (caller : Addr) : CallInput :=
  { vm := { caller := caller, gasProvided := 5000, args := [[2], [7, 0]] }, recipient := addr 100, function := upgradeName }
example : Upgradeable depEnv depHost.world (addr 100) (addr 1) ∧ ¬ Upgradeable depEnv depHost.world (addr 100) (addr 2) := by
  constructor
  · exact ⟨contract [1], by decide +kernel, by decide +kernel, rfl⟩
  · rintro ⟨ua, h, _, ho⟩
    have h2 : depEnv.hook.userAccount depHost.world (addr 100) = .ok (some (contract [1])) := by decide +kernel
    rw [h2] at h
    cases h
    revert ho
    decide

/-- the state in which function `fn` of contract 100 starts -/
def depStart (fn : Bytes) : St World EeiCall := (startInstance depEnv [1] 100000 false (txStart depEnv (callTx (addr 1) (addr 100) fn) depHost)).2
def depInput (code : Bytes) : CreateInput := { vm := { caller := addr 100, gasProvided := 5000 }, code := code, metadata := [7, 0] }

/-- nothing is on the chain at the address of the new contract -/
theorem dep_none (w : World) (ua : UserAcct) : depEnv.hook.userAccount w depAddr ≠ .ok (some ua) := by
  intro hu
  have hu : (Except.ok (if (List.replicate 30 (1 : UInt8) ++ [_, _]).take 30 = List.replicate 30 1 then none else _) : Except Err (Option UserAcct)) = .ok (some ua) := hu
  simp at hu

/-- C27: a deployment that succeeds and one that fails (there is no code [99]) -/
example : (match createNewContract depEnv' (execN depEnv' 4) (depInput [2]) (depStart f) with
    | (.ok (.ok a), t) => decide (a = depAddr ∧ reportedCode (effects t) a = [2]) | _ => false) = true := by decide +kernel
example : (match createNewContract depEnv (execN depEnv 4) (depInput [99]) (depStart f) with
    | (.ok (.error _), t) => decide ((effects t).accounts.get? depAddr = none) | _ => false) = true := by decide +kernel

/-- C25 fails for deployments made by contracts: they are not validated. A contract deploys code that exports the name of a
built-in function. -/
theorem c25_neg : ∃ (E : Env World EeiCall) (n : Nat) (tx : Tx) (s : St World EeiCall) (o : VMOutput) (a : Addr),
    E.api = eei E ∧ E.useWarm = false ∧ PlainBuiltins E ∧ AtRest E s ∧ Outputs E n tx s o ∧ o.returnCode = .ok ∧
    reportedCode o a ≠ [] ∧ (∀ w ua, E.hook.userAccount w a ≠ .ok (some ua)) ∧ ¬ ValidCode E (reportedCode o a) := by
  have h : checkOut (runTx depEnv 5 (callTx (addr 1) (addr 100) f) depHost) (fun o => decide (o.returnCode = .ok ∧
    reportedCode o depAddr = [3])) = true := by decide +kernel
  obtain ⟨o, h1, h2⟩ := checkOut_elim h
  obtain ⟨h2, h3⟩ := of_decide_eq_true h2
  refine ⟨depEnv, 5, _, depHost, o, depAddr, rfl, rfl, dep_plain, ⟨.inl rfl, rfl, .inl rfl⟩, h1, h2, ?_, ?_, ?_⟩
  · rw [h3]; simp
  · intro w ua
    exact dep_none w ua
  · rw [h3]; exact dep_invalid

/-- With warm instances even a transaction that upgrades a contract is not validated: after a call of the contract, its instance is
reused for the new code. -/
def warmEnv : Env World EeiCall := Env.real { envWith depMods true with hook := goodHook }
def warmHost : St World EeiCall := host (node [(addr 100, contract [2])])
def upgradeTx (code : Bytes) : Tx := callTx (addr 1) (addr 100) upgradeName 100000 0 [code, [7, 0]]

theorem c25_warm_neg : ∃ (E : Env World EeiCall) (n : Nat) (tx0 tx : Tx) (s : St World EeiCall) (o : VMOutput) (code : Bytes),
    E.api = eei E ∧ E.useWarm = true ∧ tx.code? = some code ∧ Outputs E n tx (runTx E n tx0 s).2 o ∧ o.returnCode = .ok ∧
    ¬ ValidCode E code := by
  have h : checkOut (runTx warmEnv 5 (upgradeTx [3]) (runTx warmEnv 5 (callTx (addr 1) (addr 100) f) warmHost).2)
      (fun o => decide (o.returnCode = .ok)) = true := by decide +kernel
  obtain ⟨o, h1, h2⟩ := checkOut_elim h
  refine ⟨warmEnv, 5, _, _, warmHost, o, [3], rfl, rfl, rfl, h1, of_decide_eq_true h2, ?_⟩
  rintro ⟨m, h, hv⟩
  have h : m = mod [(initName, .ret), ([66, 73], .ret)] := by cases h; rfl
  subst h
  have := (hv.names ([66, 73], .ret) (.tail _ (.head _))).notBuiltin
  revert this
  decide +kernel
/-- without the earlier call the same upgrade is refused -/
example : checkOut (runTx warmEnv 5 (upgradeTx [3]) warmHost) (fun o => decide (o.returnCode = .contractInvalid)) = true := by decide +kernel

/-- C26 fails in substance: a contract that does not own the target upgrades it when the owner calls it for any purpose, by a
request in the name of its caller. -/
theorem c26_neg : ∃ (E : Env World EeiCall) (n : Nat) (i : CallInput) (s : St World EeiCall) (o : VMOutput) (a : Addr),
    E.api = eei E ∧ AtRest E s ∧ i.function ≠ upgradeName ∧ Outputs E n (.call i) s o ∧ o.returnCode = .ok ∧
    (∃ acc, o.accounts.get? a = some acc ∧ acc.code = [2] ∧ acc.deployer.isSome) ∧
    (∃ ua, E.hook.userAccount s.world a = .ok (some ua) ∧ ua.code = [1] ∧ ua.owner ≠ i.recipient) := by
  have h : checkOut (runTx depEnv 5 (callTx (addr 1) (addr 101) f) depHost) (fun o => decide (o.returnCode = .ok ∧
    (o.accounts.get? (addr 100)).any (fun acc => decide (acc.code = [2] ∧ acc.deployer.isSome)) = true)) = true := by decide +kernel
  obtain ⟨o, h1, h2⟩ := checkOut_elim h
  obtain ⟨h2, h3⟩ := of_decide_eq_true h2
  refine ⟨depEnv, 5, _, depHost, o, addr 100, rfl, ⟨.inl rfl, rfl, .inl rfl⟩, ?_, h1, h2, ?_, contract [1], by decide +kernel, rfl, by decide +kernel⟩
  · decide
  · cases hg : o.accounts.get? (addr 100) with
    | none => rw [hg] at h3; cases h3
    | some acc =>
      rw [hg] at h3
      exact ⟨acc, rfl, of_decide_eq_true h3⟩

/-- C27 fails when `init` makes the creator deploy again: the nonce is raised at the end only, so that both contracts get the same
address, and the successful deployment reports other code than the supplied one. -/
theorem c27_neg : ∃ (E : Env World EeiCall) (n : Nat) (i : CreateInput) (s t : St World EeiCall) (addr : Addr),
    E.api = eei E ∧ PlainBuiltins E ∧ NewStaysNew E s.world ∧ createNewContract E (execN E n) i s = (.ok (.ok addr), t) ∧
    reportedCode (effects t) addr ≠ i.code := by
  have h : (match createNewContract depEnv (execN depEnv 5) (depInput [4]) (depStart [104]) with
    | (.ok (.ok a), t) => decide (reportedCode (effects t) a = [2]) | _ => false) = true := by decide +kernel
  generalize hq : createNewContract depEnv (execN depEnv 5) (depInput [4]) (depStart [104]) = q at h
  obtain ⟨r, t⟩ := q
  match r with
  | .ok (.ok a) =>
    refine ⟨depEnv, 5, depInput [4], _, t, a, rfl, dep_plain, dep_new _, hq, ?_⟩
    rw [of_decide_eq_true h]
    decide
  | .ok (.error e) => cases h
  | .panic => cases h
  | .oof => cases h
end

end Arwen.Props
