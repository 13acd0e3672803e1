import Verif.Spec.Cache
import Verif.Props.Deploy
import Verif.Props.Depth
/-
C47: instances made from compiled code run the code that is deployed.
-/
namespace Arwen.Props
open Arwen Arwen.Spec
variable {χ A : Type} {E : Env χ A}

theorem chainCode_of (s : St χ A) (a : Addr) : chainCode E s a = (chainCode? E s.world a).getD [] := by
  unfold chainCode chainCode? acctOf
  split <;> (split <;> simp_all)

theorem reached_code (hH : HonestCode E) {w0 w : χ} (h : Reached E w0 w) (a : Addr) : chainCode? E w a = chainCode? E w0 a := by
  induction h with
  | start => rfl
  | builtin i _ _ ih => rw [hH.builtinCode]; exact ih
  | revert n _ _ ih => rw [hH.revertCode]; exact ih
  | saveCompiled h c _ _ ih => rw [hH.saveCode]; exact ih

/-- code in the output is that of the account, if there is one -/
def Unchanged (E : Env χ A) (w0 : χ) (a : Addr) (acc : OutAcc) : Prop :=
  ∀ c, chainCode? E w0 a = some c → acc.code = [] ∨ acc.code = c

theorem unchanged_inv (hH : HonestCode E) (hu : ∀ d, ¬ UpgradeAllowed E d) (hb : PlainBuiltins E) (w0 : χ) :
    AccInv E (fun s => Reached E w0 s.world) (Unchanged E w0) where
  unary := reached_unary w0
  blind _ _ _ h := h
  empty _ _ _ := .inl rfl
  move s b x y hJ hm hx acc hy := by
    cases hm with
    | same => exact hx acc hy
    | new => cases hy; exact fun _ _ => .inl rfl
    | gasNew => cases hy; exact fun _ _ => .inl rfl
    | code acc0 ua h1 h2 =>
      cases hy
      intro c hc
      right
      have h3 := reached_code hH hJ b
      rw [hc] at h3
      simp only [chainCode?, acctOf_some h2, Option.some.injEq] at h3
      exact h3
    | strip => cases hy; exact fun _ _ => .inl rfl
    | deploy _ d hb hd =>
      cases hy
      cases hd with
      | new i h _ hn _ =>
        intro c hc
        rw [← reached_code hH hJ b] at hc
        unfold chainCode? at hc
        rw [← hb] at hn
        unfold accountExists acctOf at hn
        split at hc
        · rename_i ua hu; rw [hu] at hn; simp at hn
        · cases hc
      | upgrade h _ => exact absurd h (hu d)
    | _ => have h := hx _ rfl; cases hy; exact h
  builtin s i b0 a acc ts hJ h0 hg := fun _ _ => .inl (hb _ _ _ _ _ h0 hg).1
  merge a l r hl hr := by
    intro c hc
    rcases mergeAcc_code l r with h | ⟨_, h⟩ <;> rw [h]
    · exact hr c hc
    · exact hl c hc
  moves _ _ _ _ _ h := h

/-- the instances are there and run the same modules -/
structure Mods (s t : St χ A) : Prop where
  next : t.nextInst = s.nextInst
  inst : ∀ j, (t.insts j).mod = (s.insts j).mod ∧ (t.insts j).addr = (s.insts j).addr ∧ (t.insts j).newCode = (s.insts j).newCode

theorem Mods.refl (s : St χ A) : Mods s s := ⟨rfl, fun _ => ⟨rfl, rfl, rfl⟩⟩
theorem Mods.of_eq {s t : St χ A} (h1 : t.nextInst = s.nextInst) (h2 : t.insts = s.insts) : Mods s t :=
  ⟨h1, fun j => by rw [h2]; exact ⟨rfl, rfl, rfl⟩⟩
theorem Mods.trans {s t u : St χ A} (h1 : Mods s t) (h2 : Mods t u) : Mods s u :=
  ⟨h2.next.trans h1.next, fun j => ⟨(h2.inst j).1.trans (h1.inst j).1, (h2.inst j).2.1.trans (h1.inst j).2.1,
    (h2.inst j).2.2.trans (h1.inst j).2.2⟩⟩
theorem Mods.modInst (s : St χ A) (i : Nat) (f : Inst A → Inst A)
    (h : ∀ x, (f x).mod = x.mod ∧ (f x).addr = x.addr ∧ (f x).newCode = x.newCode) : Mods s (s.modInst i f) := by
  refine ⟨rfl, fun j => ?_⟩
  simp only [St.modInst]
  split
  · rename_i hj; rw [← hj]; exact h _
  · exact ⟨rfl, rfl, rfl⟩
theorem instStep_mod {back : Bool} {x y : Inst A} (h : InstStep back x y) : y.mod = x.mod ∧ y.addr = x.addr ∧ y.newCode = x.newCode := by
  cases h <;> exact ⟨rfl, rfl, rfl⟩
theorem mods_cleanInstance (s : St χ A) : Mods s s.cleanInstance := by
  unfold St.cleanInstance
  split
  · exact .refl s
  · rename_i i _
    split
    · exact .refl s
    · have := Mods.modInst s i Inst.clean (fun _ => ⟨rfl, rfl, rfl⟩)
      exact ⟨this.next, this.inst⟩
theorem mods_rtPopSet (s : St χ A) : Mods s s.rtPopSet := by
  have hi : ∀ s : St χ A, Mods s s.popInstance := by
    intro s
    unfold St.popInstance
    split
    · exact .refl s
    · dsimp only
      split
      · exact .of_eq rfl rfl
      · rename_i rest _ _
        have := mods_cleanInstance ({ s with rt := { s.rt with instanceStack := rest } } : St χ A)
        exact ⟨this.next, this.inst⟩
  unfold St.rtPopSet
  split
  · exact .refl s
  · rename_i p rest _
    have := hi ({ s with rt := { s.rt with cur := p, stack := rest } } : St χ A)
    exact ⟨this.next, this.inst⟩

/-- the invariant of a run without upgrades by contracts -/
structure CodeInv (E : Env χ A) (w0 : χ) (s : St χ A) : Prop where
  out : OutAll (fun s => Reached E w0 s.world) (AccAll (Unchanged E w0)) s
  cache : CacheOk E s.world
  runs : RunDeployed E s

theorem CodeInv.keep (hH : HonestCode E) {w0 : χ} {s t : St χ A} (h : CodeInv E w0 s)
    (ho : OutAll (fun s => Reached E w0 s.world) (AccAll (Unchanged E w0)) t)
    (hc : ∀ k cc, E.hook.compiledCode t.world k = some cc → E.hook.compiledCode s.world k = some cc) (hm : Mods s t) : CodeInv E w0 t where
  out := ho
  cache k cc m hk hcc := h.cache k cc m (hc k cc hk) hcc
  runs i hi hn c hcc := by
    rw [hm.next] at hi
    rw [(hm.inst i).2.2] at hn
    rw [(hm.inst i).2.1, reached_code hH ho.1, ← reached_code hH h.out.1] at hcc
    rw [(hm.inst i).1]
    exact h.runs i hi hn c hcc

theorem CodeInv.codeAt {w0 : χ} (hH : HonestCode E) {s : St χ A} (h : CodeInv E w0 s) {a : Addr} {c : Bytes}
    (hc : chainCode? E s.world a = some c) : codeAt E s a = c := by
  have h1 : chainCode E s a = c := by rw [chainCode_of, hc]; rfl
  unfold Arwen.codeAt
  split
  · rename_i acc hg
    split
    · rename_i hl
      rcases h.out.2.1 a acc hg c (by rw [← reached_code hH h.out.1]; exact hc) with h2 | h2
      · rw [h2] at hl; simp at hl
      · exact h2
    · exact h1
  · exact h1

theorem getCodeHash_some {s : St χ A} {a : Addr} (h : getCodeHash E s a ≠ []) :
    ∃ ua, E.hook.userAccount s.world a = .ok (some ua) ∧ ua.codeHash = getCodeHash E s a := by
  unfold getCodeHash at h ⊢
  cases ha : acctOf E s a with
  | none => rw [ha] at h; simp at h
  | some ua => exact ⟨ua, acctOf_some ha, rfl⟩

theorem codeInv_unary (hH : HonestCode E) (hu : ∀ d, ¬ UpgradeAllowed E d) (hb : PlainBuiltins E) (w0 : χ) : Unary E (CodeInv E w0) where
  delete s t a i hc hn hro h1 h2 :=
    h2.keep hH ((unchanged_inv hH hu hb w0).inv.all.delete s t a i hc hn hro h1.out h2.out) (fun _ _ h => h) (.of_eq rfl rfl)
  step s t hs hI := by
    have ho := (unchanged_inv hH hu hb w0).inv.all.step s t hs hI.out
    have hnew : ∀ (c : Bytes) (new : Bool) (m : WasmModule A) (g : UInt64), FromCode E c new s m → CodeInv E w0 (newInstance m g new s) := by
      intro c new m g hc
      refine ⟨hI.out, hI.cache, ?_⟩
      intro i hi hn c' hc'
      simp only [newInstance] at hi hn hc' ⊢
      by_cases hj : i = s.nextInst
      · simp only [hj, if_true] at hn hc' ⊢
        cases hc with
        | code hm hl =>
          rcases hl with hl | hl
          · rw [hl] at hn; cases hn
          · rw [hI.codeAt hH hc'] at hl
            rw [hl]; exact hm
        | kept cc _ hne hcc hm =>
          obtain ⟨ua, h1, h2⟩ := getCodeHash_some hne
          obtain ⟨c2, h3, h4⟩ := hI.cache _ cc m hcc hm
          have h5 := hH.hash _ _ ua h1 (by rw [h2]; exact hne)
          rw [h2] at h5
          have h6 : ua.code = c' := by
            simp only [chainCode?, h1, Option.some.injEq] at hc'
            exact hc'
          rw [← h6, ← hH.injective _ _ _ h3 h5]
          exact h4
      · simp only [hj, if_false] at hn hc' ⊢
        exact hI.runs i (by omega) hn c' hc'
    cases hs with
    | a _ h =>
      cases h with
      | inst i x _ hx =>
        refine hI.keep hH ho (fun _ _ h => h) ?_
        refine ⟨rfl, fun j => ?_⟩
        simp only [St.modInst]
        split
        · rename_i hj; rw [hj]; exact instStep_mod hx
        · exact ⟨rfl, rfl, rfl⟩
      | fail i rc m b _ _ =>
        refine hI.keep hH ho (fun _ _ h => h) ?_
        have := Mods.modInst s i (fun x => { x with bp := b }) (fun _ => ⟨rfl, rfl, rfl⟩)
        exact ⟨this.next, this.inst⟩
      | world w hw =>
        cases hw with
        | builtin i => exact hI.keep hH ho (hH.builtin _ i) (.of_eq rfl rfl)
        | revert n => exact hI.keep hH ho (hH.revert _ n) (.of_eq rfl rfl)
      | dest _ i r he _ => exact (halt_dest he).elim
      | same _ i r he _ => exact (halt_same he).elim
      | undo _ i r a ci he => exact (halt_dest he).elim
      | rt c hc => exact hI.keep hH ho (fun _ _ h => h) (.of_eq rfl rfl)
      | _ => exact hI.keep hH ho (fun _ _ h => h) (.of_eq rfl rfl)
    | newInst c new m g _ _ hc => exact hnew c new m g hc
    | warmStart i g _ _ _ _ =>
      refine hI.keep hH ho (fun _ _ h => h) ?_
      have := Mods.modInst s i (fun x => { x with points := 0, limit := g, bp := .none }) (fun _ => ⟨rfl, rfl, rfl⟩)
      exact ⟨this.next, this.inst⟩
    | clean _ =>
      refine hI.keep hH ho (fun k cc h => ?_) (mods_cleanInstance s)
      have : s.cleanInstance.world = s.world := by
        unfold St.cleanInstance
        split
        · rfl
        · split <;> rfl
      rw [this] at h; exact h
    | failed c new m g h1 h2 h3 =>
      refine (hnew c new m g h3).keep hH ho (fun k cc h => ?_) (mods_cleanInstance _)
      have : (newInstance m g new s).cleanInstance.world = (newInstance m g new s).world := by
        unfold St.cleanInstance
        split
        · rfl
        · split <;> rfl
      rw [this] at h; exact h
    | saveCompiled c new h cc hcc hs =>
      refine ⟨ho, ?_, ?_⟩
      · intro h' cc' m hk hm
        rcases hH.save _ _ _ _ _ hk with ⟨rfl, rfl⟩ | hk
        · have h1 := hH.compiled c _ m hcc hm
          rcases hs with hs | ⟨_, hc, hne, he⟩
          · exact ⟨c, hs, h1⟩
          · rw [he] at hne ⊢
            obtain ⟨ua, h2, h3⟩ := getCodeHash_some hne
            have h4 := hI.codeAt hH (a := s.rt.cur.scAddress) (c := ua.code) (by simp only [chainCode?, h2])
            rw [hc] at h4
            exact ⟨c, by rw [h4, ← h3]; exact hH.hash _ _ ua h2 (by rw [h3]; exact hne), h1⟩
        · exact hI.cache h' cc' m hk hm
      · intro i hi hn c' hc'
        rw [hH.saveCode] at hc'
        exact hI.runs i hi hn c' hc'
    | finalize =>
      obtain ⟨o, m, he⟩ := getVMOutput_only (E := E) s
      rw [he] at ho ⊢
      exact hI.keep hH ho (fun _ _ h => h) (.of_eq rfl rfl)
    | _ => exact hI.keep hH ho (fun _ _ h => h) (.of_eq rfl rfl)
  stepH s t hs hI := by
    have ho := (unchanged_inv hH hu hb w0).inv.all.stepH s t hs hI.out
    cases hs with
    | inst i g _ =>
      refine hI.keep hH ho (fun _ _ h => h) ?_
      exact Mods.modInst s i _ (fun _ => ⟨rfl, rfl, rfl⟩)
    | world i => exact hI.keep hH ho (hH.builtin _ i) (.of_eq rfl rfl)
    | merge i b _ => exact hI.keep hH ho (hH.builtin _ i) (.of_eq rfl rfl)
  push s hI := hI.keep hH ((unchanged_inv hH hu hb w0).inv.all.push s hI.out) (fun _ _ h => h) (.of_eq rfl rfl)
  bcPopSet s hI := by
    have ho := (unchanged_inv hH hu hb w0).inv.all.bcPopSet s hI.out
    obtain ⟨h1, h2, h3, h4, h5, h6, h7⟩ := bcPopSet_rest (E := E) s
    refine hI.keep hH ho (fun k cc h => ?_) (.of_eq h6 h5)
    unfold St.bcPopSet at h
    split at h
    · exact h
    · exact hH.revert _ _ _ _ h
  bcPopDiscard s hI := hI.keep hH ((unchanged_inv hH hu hb w0).inv.all.bcPopDiscard s hI.out) (fun _ _ h => h) (.of_eq rfl rfl)
  onError e s hI := by
    have ho := (unchanged_inv hH hu hb w0).inv.all.onError e s hI.out
    obtain ⟨o, m, h⟩ := outputOnError_only (E := E) s e
    rw [h] at ho ⊢
    exact hI.keep hH ho (fun _ _ h => h) (.of_eq rfl rfl)
  enterDest i s hI := hI.keep hH ((unchanged_inv hH hu hb w0).inv.all.enterDest i s hI.out) (fun _ _ h => h) (.of_eq rfl rfl)
  enterSame i s hI := hI.keep hH ((unchanged_inv hH hu hb w0).inv.all.enterSame i s hI.out) (fun _ _ h => h) (.of_eq rfl rfl)
  popDest b s hI := by
    have ho := (unchanged_inv hH hu hb w0).inv.all.popDest b s hI.out
    refine hI.keep hH ho (fun k cc h => ?_) ?_
    · unfold popDest at h
      dsimp only at h
      rw [(rtPopSet_keeps _).2.2] at h
      cases b <;> exact h
    · unfold popDest
      dsimp only
      refine Mods.trans ?_ (mods_rtPopSet _)
      cases b <;> exact .of_eq rfl rfl
  popSameFail s hI := by
    have ho := (unchanged_inv hH hu hb w0).inv.all.popSameFail s hI.out
    unfold popSameFail at ho ⊢
    have h0 : Mods s (St.rtPopSet ({ s with big := s.big.popSet, met := s.met.popSet, out := s.out.popSet } : St χ A)) :=
      Mods.trans (t := { s with big := s.big.popSet, met := s.met.popSet, out := s.out.popSet }) (.of_eq rfl rfl) (mods_rtPopSet _)
    have hw := (rtPopSet_keeps ({ s with big := s.big.popSet, met := s.met.popSet, out := s.out.popSet } : St χ A)).2.2
    generalize St.rtPopSet ({ s with big := s.big.popSet, met := s.met.popSet, out := s.out.popSet } : St χ A) = u at h0 hw ho ⊢
    obtain ⟨h1, h2, h3, h4, h5, h6, h7⟩ := bcPopSet_rest (E := E) u
    refine hI.keep hH ho (fun k cc h => ?_) (h0.trans (.of_eq h6 h5))
    unfold St.bcPopSet at h
    have hw : u.world = s.world := hw
    split at h
    · rw [hw] at h; exact h
    · rw [← hw]; exact hH.revert _ _ _ _ h
  popSameOk s hI := by
    have ho := (unchanged_inv hH hu hb w0).inv.all.popSameOk s hI.out
    refine hI.keep hH ho (fun k cc h => ?_) ?_
    · unfold popSameOk at h
      rw [(rtPopSet_keeps _).2.2] at h
      exact h
    · unfold popSameOk
      refine Mods.trans ?_ (mods_rtPopSet _)
      exact .of_eq rfl rfl
  restore g s hI := by
    have ho := (unchanged_inv hH hu hb w0).inv.all.restore g s hI.out
    obtain ⟨r, ins, h, _, hi⟩ := restoreGas_only g s
    rw [h] at ho ⊢
    refine hI.keep hH ho (fun _ _ h => h) ⟨rfl, fun j => ?_⟩
    rcases hi j with h | ⟨_, _, h⟩ <;> (show (ins j).mod = _ ∧ (ins j).addr = _ ∧ (ins j).newCode = _; rw [h]; exact ⟨rfl, rfl, rfl⟩)

/-- the instances a transaction starts with -/
theorem txStart_noInst (tx : Tx) {s : St χ A} (hi : s.idle = true) : (txStart E tx s).nextInst = 0 := by
  have h0 : (hostInit E s).nextInst = 0 := by
    unfold hostInit
    dsimp only
    exact if_pos hi
  cases tx with
  | call i => exact h0
  | create i =>
    unfold txStart
    dsimp only
    split
    · exact h0
    · rw [← h0]
      exact (newAddress_insts i.vm.caller (hostInit E s)).2

theorem codeInv_start (tx : Tx) {s : St χ A} (hi : s.idle = true) (hc : CacheOk E s.world) : CodeInv E s.world (txStart E tx s) where
  out := ⟨by dsimp only; rw [txStart_world]; exact .start, accAll_start (fun _ _ _ _ _ => .inl rfl) tx s⟩
  cache := by rw [txStart_world]; exact hc
  runs i h := by rw [txStart_noInst tx hi] at h; exact absurd h (Nat.not_lt_zero i)

theorem clean_world (t : St χ A) : (hostClean t).world = t.world := by
  unfold hostClean St.cleanInstance
  repeat' split
  all_goals rfl
theorem reset_world (t : St χ A) : t.resetWarm.world = t.world := by
  unfold St.resetWarm
  split <;> rfl

/-- the node after a transaction is the node after its body -/
theorem runTx_world {n : Nat} {tx : Tx} {s : St χ A} (h : (runTx E n tx s).1 ≠ none) :
    ∃ r t, txBody E (execN E n) tx (hostInit E s) = (r, t) ∧ r ≠ .oof ∧ (runTx E n tx s).2.world = t.world := by
  have h1 := runTx_any (E := E) n tx s
  generalize (runTx E n tx s).2 = v at h1 ⊢
  generalize (runTx E n tx s).1 = q at h1 h
  cases h1 with
  | ok o t hq => exact ⟨_, t, hq, by simp, clean_world t⟩
  | reset o t hq _ => exact ⟨_, t, hq, by simp, (reset_world _).trans (clean_world t)⟩
  | panic t hq => exact ⟨_, t, hq, by simp, clean_world t⟩
  | oof t _ => exact absurd rfl h

/-- the node after a deployment is the node before the code is installed -/
theorem performDeployment_world {ex : Executor χ A} {d : CodeDeployInput} {s t : St χ A} {r : Res VMOutput}
    (h : (performDeployment E ex d >>= outputOf E) s = (r, t)) (hr : r ≠ .oof) :
    ∃ r' u, deployPrep E ex d s = (r', u) ∧ r' ≠ .oof ∧ t.world = u.world := by
  have ho : ∀ (x : Except Err VMOutput) (u : St χ A), (outputOf E x u).2.world = u.world := by
    intro x u
    unfold outputOf
    cases x with
    | ok o => rfl
    | error e => rfl
  unfold performDeployment at h
  simp only [M.bind_eq, M.bind] at h
  rw [deploySteps_run] at h
  generalize deployPrep E ex d s = q at h ⊢
  obtain ⟨r', u⟩ := q
  refine ⟨r', u, rfl, ?_⟩
  cases r' with
  | panic => simp only [Prod.mk.injEq] at h; exact ⟨by simp, by rw [← h.2]⟩
  | oof => simp only [Prod.mk.injEq] at h; exact absurd h.1.symm hr
  | ok e =>
    refine ⟨by simp, ?_⟩
    cases e with
    | some e =>
      simp only [M.pure_eq, M.pure] at h
      have h2 := ho (.error e) u
      rw [h] at h2
      exact h2
    | none =>
      simp only [M.bind, M.lift, M.modify, M.pure_eq, M.pure] at h
      have h2 := ho (.ok (getVMOutput E { u with out := u.out.deployCode d }).1) (getVMOutput E { u with out := u.out.deployCode d }).2.cleanInstance
      rw [h] at h2
      refine h2.trans ?_
      obtain ⟨o, m, he⟩ := getVMOutput_only (E := E) { u with out := u.out.deployCode d }
      rw [he]
      unfold St.cleanInstance
      split
      · rfl
      · split <;> rfl

/-- C47, the compiled code that the node keeps: it stays right through every transaction - a call, a deployment or an upgrade,
successful or not - as long as contracts do not upgrade contracts. -/
theorem c47_cache_partial (hH : HonestCode E) (hu : ∀ d, ¬ UpgradeAllowed E d) (hb : PlainBuiltins E) (n : Nat) (tx : Tx) {s : St χ A}
    (hr : AtRest E s) (hi : s.idle = true) (hc : CacheOk E s.world) (h : (runTx E n tx s).1 ≠ none) :
    CacheOk E (runTx E n tx s).2.world := by
  obtain ⟨r, t, h1, h2, h3⟩ := runTx_world h
  rw [h3]
  have hU := codeInv_unary hH hu hb s.world
  have hk := hU.keeps n
  have hki := keepsInst_execN E n
  have hI := codeInv_start (E := E) tx hi hc
  have hfr := fresh_txStart tx hr
  have dep : ∀ (d : CodeDeployInput) (v w : St χ A) (x : Res VMOutput), CodeInv E s.world v → Fresh E v → x ≠ .oof →
      (performDeployment E (execN E n) d >>= outputOf E) v = (x, w) → CacheOk E w.world := by
    intro d v w x hv hf hx he
    obtain ⟨r', u, h4, h5, h6⟩ := performDeployment_world he hx
    rw [h6]
    exact (hU.simAt hk (sim_deployPrep hki d v hf) h4 h5 hv).cache
  cases tx with
  | create i =>
    simp only [txBody] at h1
    rw [createBody_run] at h1
    cases ha : (newAddress E i.vm.caller (hostInit E s)).1 with
    | error e =>
      rw [ha] at h1
      simp only [Prod.mk.injEq] at h1
      rw [← h1.2]
      have hw : (newAddress E i.vm.caller (hostInit E s)).2.world = s.world := by
        unfold newAddress
        have : (getNonce E i.vm.caller (hostInit E s)).2.world = s.world := by
          unfold getNonce
          dsimp only
          repeat' split
          all_goals rfl
        generalize getNonce E i.vm.caller (hostInit E s) = q at this ⊢
        obtain ⟨r, t⟩ := q
        cases r <;> exact this
      show CacheOk E (newAddress E i.vm.caller (hostInit E s)).2.world
      rw [hw]; exact hc
    | ok a =>
      rw [ha] at h1
      have e1 : txStart E (.create i) s = enterCreateState i a (newAddress E i.vm.caller (hostInit E s)).2 := by
        simp only [txStart, ha]
      rw [e1] at hI hfr
      exact dep _ _ _ _ hI hfr h2 h1
  | call i =>
    simp only [txBody] at h1
    split at h1
    · rw [upgradeBody_run] at h1
      unfold upgradeRest at h1
      rcases bind_ok h1 with ⟨p, u, h4, h5⟩ | ⟨h4, rfl⟩ | ⟨_, rfl⟩
      · have hIu := hU.simAt hk (sim_extractUpgrade _) h4 (by simp) hI
        have hfu : Fresh E u := by
          refine hfr.of_eq ?_ ?_ <;>
          · simp only [extractUpgrade] at h4
            split at h4 <;> · simp only [Prod.mk.injEq] at h4; rw [← h4.2]; rfl
        cases p with
        | none =>
          simp only [M.lift, Prod.mk.injEq] at h5
          rw [← h5.2]
          exact hIu.cache
        | some p => exact dep _ _ _ _ hIu hfu h2 h5
      · exact (hU.simAt hk (sim_extractUpgrade _) h4 (by simp) hI).cache
      · exact absurd rfl h2
    · rw [callBody_run] at h1
      exact (hU.simAt hk (sim_callRest (frameEx_execN E n) _ _ hfr ((txStart_rt (E := E) (.call i) s).1.trans hr.stack)) h1 h2 hI).cache

open Classical in
/-- C47, partial: whenever a contract calls an API function, at any depth of calls, every instance that was started in this
transaction runs the code deployed at its address, also if it was made from compiled code that the node keeps. (A host that
checks this at every API call behaves the same.) Missing: upgrades made by contracts, after which it is wrong (`c47_neg`), and warm
instances of earlier transactions (`c47_warm_neg`). -/
theorem c47_partial (hH : HonestCode E) (hu : ∀ d, ¬ UpgradeAllowed E d) (hb : PlainBuiltins E) (n : Nat) (tx : Tx) {s : St χ A}
    (hr : AtRest E s) (hi : s.idle = true) (hc : CacheOk E s.world) (h : (runTx E n tx s).1 ≠ none) :
    runTx (E.withApi (guardApi E (fun s => decide (RunDeployed E s)))) n tx s = runTx E n tx s :=
  runTx_guard (codeInv_unary hH hu hb s.world).invariant _ (fun _ hI => decide_eq_true hI.runs) n tx s hr (codeInv_start tx hi hc) h

/-! ### Witnesses -/

section
open Fixture

/-- a node that keeps compiled code also when it reverts, and whose accounts carry the hash of their code -/
def cacheHook (md : Option Bytes) : Hook World :=
  { hook with
    userAccount := fun w a => .ok (((World.cur w).accts.get? a).map fun u =>
      { u with codeHash := u.code ++ [1], codeMetadata := md.getD u.codeMetadata })
    revert := fun w _ => w }
/-- contract 101 owns contract 100 (code [1]); `f` of 101 upgrades 100 to code [3], calls it, and fails; `g` of 101 calls 100 -/
def cacheMods : List (Bytes × WasmModule EeiCall) :=
  [([1], mod [(f, .ret)]), ([3], mod [(initName, .ret), (f, signal)]),
   ([2], mod [(f, callDestArgs (addr 100) upgradeName [[3], [7, 0]] 3000 (callDest (addr 100) f 3000 signal)),
     (g, callDest (addr 100) f 3000 .ret)])]
def cacheEnv (md : Option Bytes := none) (warm : Bool := false) : Env World EeiCall :=
  Env.real { envWith cacheMods warm with hook := cacheHook md }
def cacheHost : St World EeiCall := host (node [(addr 100, contract [1] 0 (addr 101)), (addr 101, contract [2])])

theorem find_cacheMods {c : Bytes} {m : WasmModule EeiCall} (md : Option Bytes) (b : Bool) :
    (cacheEnv md b).wasm.fromCompiled c = .ok m ↔ (cacheEnv md b).wasm.compile c = .ok m := Iff.rfl

theorem cache_honest (md : Option Bytes) (b : Bool) : HonestCode (cacheEnv md b) where
  compiled c cc m h1 h2 := by cases h1; exact h2
  injective c c' h h1 h2 := by
    have h1 : (Except.ok (c ++ [1]) : Except Err Bytes) = .ok h := h1
    have h2 : (Except.ok (c' ++ [1]) : Except Err Bytes) = .ok h := h2
    cases h1
    simp only [Except.ok.injEq, List.append_cancel_right_eq] at h2
    exact h2.symm
  hash w a ua h _ := by
    have h : (Except.ok (((World.cur w).accts.get? a).map fun u =>
      { u with codeHash := u.code ++ [1], codeMetadata := md.getD u.codeMetadata }) : Except Err (Option UserAcct)) = .ok (some ua) := h
    simp only [Except.ok.injEq, Option.map_eq_some_iff] at h
    obtain ⟨u, _, rfl⟩ := h
    rfl
  save w h c h' cc h1 := by
    have h1 : ((World.cur w).compiled.insert h c).get? h' = some cc := h1
    rw [AMap.get?_insert] at h1
    split at h1
    · rename_i e; cases h1; exact .inl ⟨e.symm, rfl⟩
    · exact .inr h1
  builtin w i h cc h1 := h1
  revert w n h cc h1 := h1
  saveCode _ _ _ _ := rfl
  builtinCode _ _ _ := rfl
  revertCode _ _ _ := rfl

theorem cache_plain (md : Option Bytes) (b : Bool) : PlainBuiltins (cacheEnv md b) := by
  intro w i b a acc h hg
  cases h
  cases hg

theorem cache_empty (md : Option Bytes) (b : Bool) : CacheOk (cacheEnv md b) cacheHost.world := by
  intro h cc m h1
  have h1 : (AMap.empty : AMap Bytes Bytes).get? h = some cc := h1
  cases h1

/-- the hypotheses of `c47_partial` and `c47_cache_partial` are met by a node without upgradeable contracts -/
example : ∀ d, ¬ UpgradeAllowed (cacheEnv (some [0, 0])) d := by
  rintro d ⟨w, ua, h1, h2, _⟩
  have h1 : (Except.ok (((World.cur w).accts.get? d.address).map fun u =>
      { u with codeHash := u.code ++ [1], codeMetadata := [0, 0] }) : Except Err (Option UserAcct)) = .ok (some ua) := h1
  simp only [Except.ok.injEq, Option.map_eq_some_iff] at h1
  obtain ⟨u, _, rfl⟩ := h1
  exact absurd h2 (show ¬ metaUpgradeable [0, 0] = true by decide)
example : AtRest (cacheEnv (some [0, 0])) cacheHost ∧ cacheHost.idle = true := ⟨⟨.inl rfl, rfl, .inl rfl⟩, rfl⟩
example : codeOf (runTx (cacheEnv (some [0, 0])) 5 (callTx (addr 1) (addr 101) g) cacheHost) = some .ok := by decide +kernel

/-- If a contract upgrades another one and calls it, the compiled form of the new code is kept under the hash of the old code, even if
the transaction fails: later calls run code that was never deployed. -/
theorem c47_neg : ∃ (E : Env World EeiCall) (n : Nat) (tx tx' : Tx) (s t : St World EeiCall) (o o' o'' : VMOutput),
    E.api = eei E ∧ E.useWarm = false ∧ HonestCode E ∧ PlainBuiltins E ∧ AtRest E s ∧ s.idle = true ∧ CacheOk E s.world ∧
    Outputs E n tx' s o ∧ o.returnCode = .ok ∧
    Outputs E n tx s o' ∧ o'.returnCode ≠ .ok ∧ o'.accounts = AMap.empty ∧ t = (runTx E n tx s).2 ∧
    (∀ a, E.hook.userAccount t.world a = E.hook.userAccount s.world a) ∧ ¬ CacheOk E t.world ∧
    Outputs E n tx' t o'' ∧ o''.returnCode = .userError := by
  have h1 : checkOut (runTx cacheEnv 5 (callTx (addr 1) (addr 100) f) cacheHost) (fun o => decide (o.returnCode = .ok)) = true := by
    decide +kernel
  have h2 : checkOut (runTx cacheEnv 5 (callTx (addr 1) (addr 101) f) cacheHost)
      (fun o => decide (o.returnCode ≠ .ok ∧ o.accounts = AMap.empty)) = true := by decide +kernel
  have h3 : checkOut (runTx cacheEnv 5 (callTx (addr 1) (addr 100) f) (runTx cacheEnv 5 (callTx (addr 1) (addr 101) f) cacheHost).2)
      (fun o => decide (o.returnCode = .userError)) = true := by decide +kernel
  have h4 : (World.cur (runTx cacheEnv 5 (callTx (addr 1) (addr 101) f) cacheHost).2.world).accts = (World.cur cacheHost.world).accts ∧
      (World.cur (runTx cacheEnv 5 (callTx (addr 1) (addr 101) f) cacheHost).2.world).compiled.get? [1, 1] = some [3] := by decide +kernel
  obtain ⟨o1, h1, e1⟩ := checkOut_elim h1
  obtain ⟨o2, h2, e2⟩ := checkOut_elim h2
  obtain ⟨o3, h3, e3⟩ := checkOut_elim h3
  refine ⟨cacheEnv, 5, _, _, cacheHost, _, o1, o2, o3, rfl, rfl, cache_honest _ _, cache_plain _ _, ⟨.inl rfl, rfl, .inl rfl⟩, rfl,
    cache_empty _ _, h1, of_decide_eq_true e1, h2, (of_decide_eq_true e2).1, (of_decide_eq_true e2).2, rfl, ?_, ?_, h3, of_decide_eq_true e3⟩
  · intro a
    generalize (runTx cacheEnv 5 (callTx (addr 1) (addr 101) f) cacheHost).2.world = w at h4
    show Except.ok (((World.cur w).accts.get? a).map _) = Except.ok (((World.cur cacheHost.world).accts.get? a).map _)
    rw [h4.1]
  · intro hc
    generalize (runTx cacheEnv 5 (callTx (addr 1) (addr 101) f) cacheHost).2.world = w at h4 hc
    obtain ⟨c, h5, h6⟩ := hc [1, 1] [3] (mod [(initName, .ret), (f, signal)]) h4.2 rfl
    have h5 : (Except.ok (c ++ [1]) : Except Err Bytes) = .ok ([1] ++ [1]) := h5
    simp only [Except.ok.injEq, List.append_cancel_right_eq] at h5
    subst h5
    have h6 : (Except.ok (mod [(f, .ret)]) : Except Err (WasmModule EeiCall)) = .ok (mod [(initName, .ret), (f, signal)]) := h6
    simp only [Except.ok.injEq] at h6
    have := congrArg (fun m => m.exports.length) h6
    exact absurd this (by decide)

/-- With warm instances, a contract that was called and then upgraded by a transaction goes on to run its old code. -/
theorem c47_warm_neg : ∃ (E : Env World EeiCall) (n : Nat) (tx up : Tx) (s t t' : St World EeiCall) (w : World) (a : Addr) (acc : OutAcc)
    (o o' o'' : VMOutput), E.api = eei E ∧ E.useWarm = true ∧ HonestCode E ∧ PlainBuiltins E ∧ AtRest E s ∧ s.idle = true ∧
    CacheOk E s.world ∧ t = (runTx E n tx s).2 ∧
    Outputs E n up t o ∧ o.returnCode = .ok ∧ o.accounts.get? a = some acc ∧ t' = (runTx E n up t).2 ∧
    chainCode? E w a = some acc.code ∧
    Outputs E n tx { s with world := w } o' ∧ o'.returnCode = .userError ∧
    Outputs E n tx { t' with world := w } o'' ∧ o''.returnCode = .ok := by
  let E := cacheEnv none true
  let s := host (node [(addr 100, contract [1])])
  let w : World := node [(addr 100, contract [3])]
  let tx := callTx (addr 1) (addr 100) f
  let up := callTx (addr 1) (addr 100) upgradeName 100000 0 [[3], [7, 0]]
  have h1 : checkOut (runTx E 5 up (runTx E 5 tx s).2)
      (fun o => decide (o.returnCode = .ok ∧ (o.accounts.get? (addr 100)).map OutAcc.code = some [3])) = true := by decide +kernel
  have h2 : checkOut (runTx E 5 tx { s with world := w }) (fun o => decide (o.returnCode = .userError)) = true := by decide +kernel
  have h3 : checkOut (runTx E 5 tx { (runTx E 5 up (runTx E 5 tx s).2).2 with world := w })
      (fun o => decide (o.returnCode = .ok)) = true := by decide +kernel
  obtain ⟨o1, h1, e1⟩ := checkOut_elim h1
  obtain ⟨o2, h2, e2⟩ := checkOut_elim h2
  obtain ⟨o3, h3, e3⟩ := checkOut_elim h3
  obtain ⟨e1, e4⟩ := of_decide_eq_true e1
  simp only [Option.map_eq_some_iff] at e4
  obtain ⟨acc, e4, e5⟩ := e4
  refine ⟨E, 5, tx, up, s, _, _, w, addr 100, acc, o1, o2, o3, rfl, rfl, cache_honest _ _, cache_plain _ _, ⟨.inl rfl, rfl, .inl rfl⟩, rfl, ?_,
    rfl, h1, e1, e4, rfl, ?_, h2, of_decide_eq_true e2, h3, of_decide_eq_true e3⟩
  · intro h cc m h1
    have h1 : (AMap.empty : AMap Bytes Bytes).get? h = some cc := h1
    cases h1
  · rw [e5]; decide +kernel
end

end Arwen.Props
