import Verif.Host.TxOut
/-
Changes of the active output seen from one account.
-/
namespace Arwen
variable {χ A : Type} {E : Env χ A} {ex : Executor χ A}

theorem AMap.lookupL_mapKey {K V W : Type} [DecidableEq K] (f : K → V → W) (l : List (K × V)) (k : K) :
    AMap.lookupL k (l.map (fun p => (p.1, f p.1 p.2))) = (AMap.lookupL k l).map (f k) := by
  induction l with
  | nil => rfl
  | cons p l ih =>
    obtain ⟨a, b⟩ := p
    simp only [List.map_cons, AMap.lookupL]
    split
    · rename_i h; subst h; rfl
    · exact ih

/-- An account after a built-in function reported `ra` for it. -/
def builtinAcc (x : Option OutAcc) (ra : OutAcc) : OutAcc :=
  match x with
  | none => ra
  | some la => mergeAcc { la with transfers := la.transfers ++ ra.transfers } { ra with balanceDelta := ra.balanceDelta + la.balanceDelta }

/-- All changes of the account at address `b` other than by built-in functions, by failed deployments and by entering and leaving
nested calls, in state `s`. -/
inductive AccMove (E : Env χ A) (s : St χ A) (b : Addr) : Option OutAcc → Option OutAcc → Prop
  | same (x : Option OutAcc) : AccMove E s b x x
  | new : AccMove E s b none (some {})
  | bal (acc : OutAcc) (ua : UserAcct) : acc.balance = none → acctOf E s b = some ua →
      AccMove E s b (some acc) (some { acc with balance := some ua.balance })
  | nonce (acc : OutAcc) (ua : UserAcct) : acc.nonce = 0 → acctOf E s b = some ua →
      AccMove E s b (some acc) (some { acc with nonce := ua.nonce })
  | code (acc : OutAcc) (ua : UserAcct) : acc.code = [] → acctOf E s b = some ua →
      AccMove E s b (some acc) (some { acc with code := ua.code })
  | sto (acc : OutAcc) (k : Bytes) : acc.storage.get? k = none →
      AccMove E s b (some acc) (some { acc with storage := acc.storage.insert k (E.hook.storageData s.world b k) })
  | write (acc : OutAcc) (k v old : Bytes) : b = s.sto.addr → acc.storage.get? k = some old →
      s.rt.cur.readOnly = false → isReservedKey E k = false → (isProtectedKey k = true → s.sto.protect = false ∨ vmKey k) →
      AccMove E s b (some acc) (some { acc with storage := acc.storage.insert k v })
  | pay (acc : OutAcc) (v : Int) : 0 ≤ v → (match acc.balance with | some b => v ≤ b + acc.balanceDelta | none => v = 0) →
      AccMove E s b (some acc) (some { acc with balanceDelta := acc.balanceDelta - v })
  | get (acc : OutAcc) (v : Int) : 0 ≤ v → AccMove E s b (some acc) (some { acc with balanceDelta := acc.balanceDelta + v })
  | xfer (acc : OutAcc) (t : OutTransfer) : AccMove E s b (some acc) (some { acc with transfers := acc.transfers ++ [t] })
  | incNonce (acc : OutAcc) (i : CreateInput) : ApiRuns E (.createContract i) →
      (acc.nonce = 0 → s.flags.v3 = true → ∀ ua, acctOf E s b = some ua → ua.nonce = 0) →
      AccMove E s b (some acc) (some { acc with nonce := acc.nonce + 1 })
  | gas (acc : OutAcc) (g : UInt64) : AccMove E s b (some acc) (some { acc with gasUsed := g })
  | gasNew (g : UInt64) : AccMove E s b none (some { gasUsed := g })
  | deploy (x : Option OutAcc) (d : CodeDeployInput) : b = d.address → MayDeploy E s d →
      AccMove E s b x (some { x.getD {} with code := d.code, codeMetadata := d.metadata, deployer := some d.deployer })
  | strip (acc : OutAcc) : b ∉ s.out.codeUpdates → AccMove E s b (some acc) (some { acc with code := [], codeMetadata := [], deployer := none })

theorem get_put (o : VMOutput) (a b : Addr) (acc : OutAcc) :
    (o.put a acc).accounts.get? b = if a = b then some acc else o.accounts.get? b := AMap.get?_insert _ _ _ _

theorem getAcc_fst (c : OutCtx) (a : Addr) : (c.getAcc a).1 = (c.cur.accounts.get? a).getD {} := by
  unfold OutCtx.getAcc; split <;> (rename_i h; simp [h])

theorem get_modAcc (c : OutCtx) (a b : Addr) (f : OutAcc → OutAcc) :
    (c.modAcc a f).cur.accounts.get? b = if a = b then some (f ((c.cur.accounts.get? a).getD {})) else c.cur.accounts.get? b := by
  simp only [OutCtx.modAcc, OutCtx.setAcc, getAcc_fst]
  exact AMap.get?_insert _ _ _ _

theorem put_move {o : VMOutput} {a : Addr} {acc acc' : OutAcc} {s : St χ A} (hg : o.accounts.get? a = some acc) (b : Addr)
    (h : b = a → AccMove E s b (some acc) (some acc')) : AccMove E s b (o.accounts.get? b) ((o.put a acc').accounts.get? b) := by
  rw [get_put]
  by_cases hb : a = b
  · rw [if_pos hb, ← hb, hg, hb]; exact h hb.symm
  · rw [if_neg hb]; exact .same _

theorem get_addToActive (l : VMOutput) (bo : BuiltinOutput) (b : Addr) :
    (addToActive l bo).1.accounts.get? b =
      match bo.out.accounts.get? b with
      | none => l.accounts.get? b
      | some ra => some (builtinAcc (l.accounts.get? b) ra) := by
  have h1 : (addToActive l bo).1.accounts = AMap.mergeWith (fun la ra => mergeAcc (la.getD {}) ra)
      (⟨l.accounts.entries.map (fun p => (p.1,
        match bo.out.accounts.get? p.1 with
        | none => p.2
        | some ra => { p.2 with transfers := p.2.transfers ++ ra.transfers })), by simpa [List.map_map, Function.comp_def] using l.accounts.nodup⟩ : AMap Addr OutAcc)
      (⟨bo.out.accounts.entries.map (fun p => (p.1,
        match l.accounts.get? p.1 with
        | none => p.2
        | some la => { p.2 with balanceDelta := p.2.balanceDelta + la.balanceDelta })), by simpa [List.map_map, Function.comp_def] using bo.out.accounts.nodup⟩ : AMap Addr OutAcc) := rfl
  rw [h1, AMap.get?_mergeWith]
  have h2 := AMap.lookupL_mapKey (fun k (la : OutAcc) => match bo.out.accounts.get? k with
        | none => la
        | some ra => { la with transfers := la.transfers ++ ra.transfers }) l.accounts.entries b
  have h3 := AMap.lookupL_mapKey (fun k (ra : OutAcc) => match l.accounts.get? k with
        | none => ra
        | some la => { ra with balanceDelta := ra.balanceDelta + la.balanceDelta }) bo.out.accounts.entries b
  simp only [AMap.get?] at h2 h3 ⊢
  rw [h2, h3]
  cases hr : AMap.lookupL b bo.out.accounts.entries with
  | none => cases AMap.lookupL b l.accounts.entries <;> rfl
  | some ra =>
    cases hl : AMap.lookupL b l.accounts.entries with
    | none => simp only [Option.map_some, Option.map_none, Option.getD_none, builtinAcc, mergeAcc_empty]
    | some la => rfl

theorem deploy_acc (s : St χ A) (d : CodeDeployInput) (hd : MayDeploy E s d) (b : Addr) :
    AccMove E s b (s.out.cur.accounts.get? b) ((s.out.deployCode d).cur.accounts.get? b) := by
  have : (s.out.deployCode d).cur.accounts.get? b = (s.out.modAcc d.address (fun acc =>
    { acc with code := d.code, codeMetadata := d.metadata, deployer := some d.deployer })).cur.accounts.get? b := rfl
  rw [this, get_modAcc]
  by_cases hb : d.address = b
  · rw [if_pos hb, hb]; exact .deploy _ d hb.symm hd
  · rw [if_neg hb]; exact .same _

/-- Every change of the output changes each account in one of these ways; a payment to oneself is in two steps. -/
theorem OutMove.acc {s : St χ A} {o : VMOutput} (h : OutMove E s o) (b : Addr) :
    ∃ x, AccMove E s b (s.out.cur.accounts.get? b) x ∧ AccMove E s b x (o.accounts.get? b) := by
  have one : AccMove E s b (s.out.cur.accounts.get? b) (o.accounts.get? b) →
    ∃ x, AccMove E s b (s.out.cur.accounts.get? b) x ∧ AccMove E s b x (o.accounts.get? b) := fun h => ⟨_, h, .same _⟩
  cases h with
  | step _ h =>
    cases h with
    | touch a hn =>
      refine one ?_
      rw [get_put]
      by_cases hb : a = b
      · subst hb; rw [if_pos rfl, hn]; exact .new
      · rw [if_neg hb]; exact .same _
    | cacheBal a acc ua hg h1 h2 => exact one (put_move hg b (fun hb => by subst hb; exact .bal _ _ h1 h2))
    | cacheNonce a acc ua hg h1 h2 => exact one (put_move hg b (fun hb => by subst hb; exact .nonce _ _ h1 h2))
    | cacheCode a acc ua hg h1 h2 => exact one (put_move hg b (fun hb => by subst hb; exact .code _ _ h1 h2))
    | cacheSto a acc k hg h1 => exact one (put_move hg b (fun hb => by subst hb; exact .sto _ _ h1))
    | write acc k v old hg h1 h2 h3 h4 => exact one (put_move hg b (fun hb => .write _ _ _ _ hb h1 h2 h3 h4))
    | pay snd dst acc dacc v hs hd hv hc =>
      by_cases hb : snd = b
      · subst hb
        refine ⟨_, by rw [hs]; exact .pay acc v hv hc, ?_⟩
        rw [get_modAcc, get_modAcc, get_modAcc]
        by_cases hb' : dst = snd
        · subst hb'; simp only [if_true, hs, Option.getD_some]; exact .get _ v hv
        · simp only [if_neg hb', if_true, hs, Option.getD_some]; exact .same _
      · refine one ?_
        rw [get_modAcc, get_modAcc, get_modAcc]
        by_cases hb' : dst = b
        · subst hb'; simp only [if_true, if_neg hb, hd, Option.getD_some]; exact .get _ v hv
        · simp only [if_neg hb', if_neg hb]; exact .same _
    | xfer dst acc t hg => exact one (put_move hg b (fun _ => .xfer _ t))
    | incNonce a acc i hc hg hn => exact one (put_move hg b (fun hb => by subst hb; exact .incNonce _ i hc hn))
    | gasUsed acc hg => exact one (put_move hg b (fun _ => .gas _ _))
    | _ => exact one (.same _)
  | deploy d hd =>
    exact one (deploy_acc s d hd b)
  | strip =>
    refine one ?_
    have : s.out.removeNonUpdatedCode.cur.accounts.get? b = (s.out.cur.accounts.get? b).map
      (fun x => if b ∈ s.out.codeUpdates then x else { x with code := [], codeMetadata := [], deployer := none }) :=
      AMap.lookupL_mapKey (fun k (x : OutAcc) => if k ∈ s.out.codeUpdates then x else { x with code := [], codeMetadata := [], deployer := none }) _ b
    rw [this]
    cases s.out.cur.accounts.get? b with
    | none => exact .same _
    | some acc =>
      simp only [Option.map_some]
      split
      · exact .same _
      · rename_i hb; exact .strip acc hb
  | used =>
    refine one ?_
    have : (setGasUsed s).2.out.cur.accounts.get? b = (s.out.cur.accounts.get? b).map
      (fun x => { x with gasUsed := (s.met.cur.gasUsedByAccounts.get? b).getD 0 }) :=
      AMap.lookupL_mapKey (W := OutAcc) (fun k (x : OutAcc) => { x with gasUsed := (s.met.cur.gasUsedByAccounts.get? k).getD 0 }) s.out.cur.accounts.entries b
    rw [this]
    cases s.out.cur.accounts.get? b with
    | none => exact .same _
    | some acc => exact .gas acc _
  | failUsed =>
    refine one ?_
    simp only [updateGasOnFailure]
    rw [get_modAcc]
    by_cases hb : s.rt.cur.scAddress = b
    · rw [if_pos hb, hb]
      cases s.out.cur.accounts.get? b with
      | none => exact .gasNew _
      | some acc => exact .gas acc _
    · rw [if_neg hb]; exact .same _
  | _ => exact one (.same _)

/-- A step changes the output by some moves made in states that differ in output and gas records only. -/
theorem StepB.outPath {s t : St χ A} (h : StepB E Executor.halt s t) (P : VMOutput → Prop) (h0 : P s.out.cur)
    (hm : ∀ c m o, P c.cur → OutMove E { s with out := c, met := m } o → P o) :
    P t.out.cur := by
  have h1 : ∀ o, OutMove E s o → P o := fun o ho => hm s.out s.met o h0 ho
  cases h with
  | a _ hs =>
    cases hs with
    | out o ho => exact h1 _ (.step o ho)
    | fail i rc m b hi hb =>
      exact hm { s.out with cur := { s.out.cur with returnCode := rc } } s.met _ (h1 _ (.code rc)) (.step _ (.msg m))
    | failNone rc m hi hb =>
      exact hm { s.out with cur := { s.out.cur with returnCode := rc } } s.met _ (h1 _ (.code rc)) (.step _ (.msg m))
    | deploy d i g1 g2 g3 g4 => exact h1 _ (.deploy d (.new i g1 g2 g3 g4))
    | dest _ i r he _ => exact (halt_dest he).elim
    | same _ i r he _ => exact (halt_same he).elim
    | undo _ i r a ci he => exact (halt_dest he).elim
    | _ => exact h0
  | outOfGas => exact h1 _ (.code .outOfGas)
  | deploy d g1 g2 => exact h1 _ (.deploy d (.upgrade g1 g2))
  | finalize =>
    have g1 : P s.out.removeNonUpdatedCode.cur := h1 _ .strip
    have g2 : P (readyState s).out.cur := hm s.out.removeNonUpdatedCode s.met _ g1 (.left _)
    have e2 : readyState s = { s with out := (readyState s).out, met := s.met } := rfl
    have g3 : P (updateSCGasUsed (readyState s)).out.cur := by
      have : (updateSCGasUsed (readyState s)).out.cur = ((readyState s).out.getAcc s.rt.cur.scAddress).2.2.cur := rfl
      rw [this]
      unfold OutCtx.getAcc
      split
      · exact g2
      · rename_i hn; exact hm (readyState s).out s.met _ g2 (.step _ (.touch _ hn))
    have e3 : updateSCGasUsed (readyState s) =
      { s with out := (updateSCGasUsed (readyState s)).out, met := (updateSCGasUsed (readyState s)).met } := rfl
    have g4 : P (setGasUsed (updateSCGasUsed (readyState s))).2.out.cur := by
      generalize updateSCGasUsed (readyState s) = x at g3 e3
      rw [e3]
      exact hm x.out x.met _ g3 .used
    have e4 : (setGasUsed (updateSCGasUsed (readyState s))).2 =
      { s with out := (setGasUsed (updateSCGasUsed (readyState s))).2.out, met := (setGasUsed (updateSCGasUsed (readyState s))).2.met } := rfl
    rcases getVMOutput_cases (E := E) s with he | he <;> rw [he]
    · exact g4
    · generalize (setGasUsed (updateSCGasUsed (readyState s))).2 = x at g4 e4
      rw [e4]
      exact hm x.out x.met _ g4 .failUsed
  | clean _ =>
    unfold St.cleanInstance
    split
    · exact h0
    · split <;> exact h0
  | failed c new m g h1 h2 h3 =>
    unfold St.cleanInstance
    split
    · exact h0
    · split <;> exact h0
  | _ => exact h0

/-- The account at `b` changes by some moves. -/
theorem StepB.accPath {s t : St χ A} (h : StepB E Executor.halt s t) (b : Addr) (P : Option OutAcc → Prop)
    (h0 : P (s.out.cur.accounts.get? b))
    (hm : ∀ c m x y, P x → AccMove E { s with out := c, met := m } b x y → P y) :
    P (t.out.cur.accounts.get? b) := by
  refine h.outPath (fun o => P (o.accounts.get? b)) h0 (fun c m o hP ho => ?_)
  obtain ⟨x, h1, h2⟩ := ho.acc b
  exact hm c m _ _ (hm c m _ _ hP h1) h2

end Arwen
