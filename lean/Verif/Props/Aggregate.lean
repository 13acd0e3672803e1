import Verif.Spec.Aggregate
import Verif.Props.Nonce
import Verif.Props.Executor
/-
C49: the reported output accounts, applied to the world, give what contracts saw at the end.
-/
namespace Arwen.Props
open Arwen Arwen.Spec Arwen.Mock

/-! ### Code that was not updated -/

section
variable {χ A : Type} {E : Env χ A} {a : Addr} {c : Bytes}

/-- no code is noted for `a` but `c` -/
def CodeFine (a : Addr) (c : Bytes) (o : VMOutput) : Prop := ∀ acc, o.accounts.get? a = some acc → acc.code = [] ∨ acc.code = c

theorem CodeFine.put {o : VMOutput} (h : CodeFine a c o) {b : Addr} {acc acc' : OutAcc} (hg : o.accounts.get? b = some acc)
    (he : acc'.code = acc.code) : CodeFine a c (o.put b acc') := by
  intro x hx
  rw [get_put] at hx
  by_cases hb : b = a
  · rw [if_pos hb] at hx
    cases hx
    rw [he]
    exact h acc (by rw [← hb]; exact hg)
  · rw [if_neg hb] at hx; exact h x hx

theorem CodeFine.modAcc {x : OutCtx} (h : CodeFine a c x.cur) (b : Addr) (f : OutAcc → OutAcc) (hf : ∀ y, (f y).code = y.code) :
    CodeFine a c (x.modAcc b f).cur := by
  intro y hy
  rw [get_modAcc] at hy
  by_cases hb : b = a
  · rw [if_pos hb] at hy
    cases hy
    rw [hf]
    cases hg : x.cur.accounts.get? b with
    | none => exact .inl rfl
    | some z => exact h z (by rw [← hb]; exact hg)
  · rw [if_neg hb] at hy; exact h y hy

theorem CodeFine.map {o o' : VMOutput} (h : CodeFine a c o) (f : OutAcc → OutAcc) (hf : ∀ y, (f y).code = y.code ∨ (f y).code = [])
    (he : o'.accounts.get? a = (o.accounts.get? a).map f) : CodeFine a c o' := by
  intro y hy
  rw [he] at hy
  cases hg : o.accounts.get? a with
  | none => rw [hg] at hy; cases hy
  | some z =>
    rw [hg] at hy
    cases hy
    rcases hf z with h1 | h1 <;> rw [h1]
    · exact h z hg
    · exact .inl rfl

/-- what the final bookkeeping does to an account -/
theorem final_acc (s : St χ A) (b : Addr) : ∃ f : OutAcc → OutAcc,
    (∀ y, ∃ g, f y = if b ∈ s.out.codeUpdates then { y with gasUsed := g } else { y with gasUsed := g, code := [], codeMetadata := [], deployer := none }) ∧
    ((setGasUsed (updateSCGasUsed (readyState s))).2.out.cur.accounts.get? b = (s.out.cur.accounts.get? b).map f ∨
     (s.out.cur.accounts.get? b = none ∧ (setGasUsed (updateSCGasUsed (readyState s))).2.out.cur.accounts.get? b = some (f {}))) := by
  have h1 : (readyState s).out.cur.accounts.get? b = (s.out.cur.accounts.get? b).map
      (fun x => if b ∈ s.out.codeUpdates then x else { x with code := [], codeMetadata := [], deployer := none }) :=
    AMap.lookupL_mapKey (fun k (x : OutAcc) => if k ∈ s.out.codeUpdates then x else { x with code := [], codeMetadata := [], deployer := none }) _ b
  have h2 : (updateSCGasUsed (readyState s)).out.cur.accounts.get? b = (readyState s).out.cur.accounts.get? b ∨
      ((readyState s).out.cur.accounts.get? b = none ∧ (updateSCGasUsed (readyState s)).out.cur.accounts.get? b = some {}) := by
    have : (updateSCGasUsed (readyState s)).out.cur = ((readyState s).out.getAcc s.rt.cur.scAddress).2.2.cur := rfl
    rw [this]
    unfold OutCtx.getAcc
    split
    · exact .inl rfl
    · rename_i hn
      show (AMap.insert _ _ _).get? b = _ ∨ (_ ∧ (AMap.insert _ _ _).get? b = _)
      rw [AMap.get?_insert]
      by_cases hb : s.rt.cur.scAddress = b
      · rw [if_pos hb, ← hb]; exact .inr ⟨hn, rfl⟩
      · rw [if_neg hb]; exact .inl rfl
  generalize updateSCGasUsed (readyState s) = x at h2
  have h3 : (setGasUsed x).2.out.cur.accounts.get? b = (x.out.cur.accounts.get? b).map
      (fun y => { y with gasUsed := (x.met.cur.gasUsedByAccounts.get? b).getD 0 }) :=
    AMap.lookupL_mapKey (W := OutAcc) (fun k (y : OutAcc) => { y with gasUsed := (x.met.cur.gasUsedByAccounts.get? k).getD 0 }) x.out.cur.accounts.entries b
  refine ⟨fun y => if b ∈ s.out.codeUpdates then { y with gasUsed := (x.met.cur.gasUsedByAccounts.get? b).getD 0 }
    else { y with gasUsed := (x.met.cur.gasUsedByAccounts.get? b).getD 0, code := [], codeMetadata := [], deployer := none }, fun y => ⟨_, rfl⟩, ?_⟩
  rw [h3]
  rcases h2 with h2 | ⟨h2, h4⟩
  · left
    rw [h2, h1]
    cases s.out.cur.accounts.get? b with
    | none => rfl
    | some y => dsimp only [Option.map_some]; split <;> rfl
  · right
    rw [h1] at h2
    have h5 : s.out.cur.accounts.get? b = none := by
      cases hg : s.out.cur.accounts.get? b with
      | none => rfl
      | some y => rw [hg] at h2; cases h2
    refine ⟨h5, ?_⟩
    rw [h4]
    dsimp only [Option.map_some]
    split <;> rfl

theorem CodeFine.final {s : St χ A} (h : CodeFine a c s.out.cur) : CodeFine a c (getVMOutput E s).2.out.cur := by
  have h1 : CodeFine a c (setGasUsed (updateSCGasUsed (readyState s))).2.out.cur := by
    obtain ⟨f, hf, h2⟩ := final_acc s a
    have hf' : ∀ y, (f y).code = y.code ∨ (f y).code = [] := by
      intro y
      obtain ⟨g, hg⟩ := hf y
      rw [hg]
      split
      · exact .inl rfl
      · exact .inr rfl
    rcases h2 with h2 | ⟨_, h2⟩
    · exact h.map f hf' h2
    · intro y hy
      rw [h2] at hy
      cases hy
      rcases hf' {} with h3 | h3 <;> rw [h3] <;> exact .inl rfl
  rcases getVMOutput_cases (E := E) s with he | he <;> rw [he]
  · exact h1
  · generalize (setGasUsed (updateSCGasUsed (readyState s))).2 = x at h1
    simp only [updateGasOnFailure]
    exact h1.modAcc _ _ (by intro y; rfl)

/-- `a` is on the chain with code `c` in all states of the node that can be reached -/
def CodeOnChain (E : Env χ A) (w0 : χ) (a : Addr) (c : Bytes) : Prop :=
  ∀ w, Reached E w0 w → ∃ ua, E.hook.userAccount w a = .ok (some ua) ∧ ua.code = c

/-- the code of `a` was updated, or no code is noted but that on the chain -/
def CodeState (E : Env χ A) (w0 : χ) (a : Addr) (c : Bytes) (s : St χ A) : Prop :=
  Reached E w0 s.world ∧ (a ∈ s.out.codeUpdates ∨ (CodeFine a c s.out.cur ∧ ∀ o ∈ s.out.stack, CodeFine a c o))

theorem deployed_in (x : OutCtx) (d : CodeDeployInput) : d.address ∈ (x.deployCode d).codeUpdates := by
  show _ ∈ (if _ then _ else _ : List Addr)
  split
  · rename_i h; exact h
  · exact List.mem_cons_self ..

theorem deployed_mono (x : OutCtx) (d : CodeDeployInput) (h : a ∈ x.codeUpdates) : a ∈ (x.deployCode d).codeUpdates := by
  show a ∈ (if _ then _ else _ : List Addr)
  split
  · exact h
  · exact List.mem_cons_of_mem _ h

theorem codeState_deploy {x : OutCtx} (d : CodeDeployInput) (h : a ∈ x.codeUpdates ∨ (CodeFine a c x.cur ∧ ∀ o ∈ x.stack, CodeFine a c o)) :
    a ∈ (x.deployCode d).codeUpdates ∨ (CodeFine a c (x.deployCode d).cur ∧ ∀ o ∈ (x.deployCode d).stack, CodeFine a c o) := by
  rcases h with h | ⟨h1, h2⟩
  · exact .inl (deployed_mono _ _ h)
  · by_cases hd : d.address = a
    · exact .inl (hd ▸ deployed_in x d)
    · refine .inr ⟨fun y hy => ?_, h2⟩
      have hy : (x.modAcc d.address (fun acc => { acc with code := d.code, codeMetadata := d.metadata, deployer := some d.deployer })).cur.accounts.get? a = some y := hy
      rw [get_modAcc, if_neg hd] at hy
      exact h1 y hy

theorem codeFine_merge {l r : OutAcc} (hl : l.code = [] ∨ l.code = c) (hr : r.code = [] ∨ r.code = c) :
    (mergeAcc l r).code = [] ∨ (mergeAcc l r).code = c := by
  show (if r.code.length > 0 then r.code else l.code) = [] ∨ (if r.code.length > 0 then r.code else l.code) = c
  split
  · exact hr
  · exact hl

theorem codeState_unary
    (hb : ∀ w i b acc, (E.hook.processBuiltIn w i).1 = .ok b → b.out.accounts.get? a = some acc → acc.code = []) {w0 : χ} (hc : CodeOnChain E w0 a c) : Unary E (CodeState E w0 a c) where
  step s t h hI := by
    refine ⟨(reached_unary w0).step s t h hI.1, ?_⟩
    obtain ⟨hr, hI⟩ := hI
    obtain ⟨ua, hu, hcode⟩ := hc _ hr
    have hacct : acctOf E s a = some ua := by unfold acctOf; rw [hu]
    have cur : ∀ (o : VMOutput), (CodeFine a c s.out.cur → CodeFine a c o) →
        (a ∈ s.out.codeUpdates ∨ (CodeFine a c o ∧ ∀ x ∈ s.out.stack, CodeFine a c x)) :=
      fun o ho => hI.imp id (fun h => ⟨ho h.1, h.2⟩)
    cases h with
    | a _ hs =>
      cases hs with
      | out o ho =>
        refine cur o (fun hf => ?_)
        cases ho with
        | touch b h0 =>
          intro x hx
          rw [get_put] at hx
          by_cases hb : b = a
          · rw [if_pos hb] at hx; cases hx; exact .inl rfl
          · rw [if_neg hb] at hx; exact hf x hx
        | cacheBal b acc ua hg h1 h2 => exact hf.put hg rfl
        | cacheNonce b acc ub hg h1 h2 => exact hf.put hg rfl
        | cacheCode b acc ub hg h1 h2 =>
          intro x hx
          rw [get_put] at hx
          by_cases hb : b = a
          · rw [if_pos hb] at hx
            cases hx
            rw [hb, hacct] at h2
            cases h2
            exact .inr hcode
          · rw [if_neg hb] at hx; exact hf x hx
        | cacheSto b acc k hg h1 => exact hf.put hg rfl
        | write acc k v old hg h1 h2 h3 h4 => exact hf.put hg rfl
        | pay snd dst acc dacc v hs hd hv hc =>
          exact (hf.modAcc (x := s.out) snd _ (by intro _; rfl)).modAcc dst _ (by intro _; rfl)
        | xfer dst acc t hg => exact hf.put hg rfl
        | incNonce b acc i hc hg hz => exact hf.put hg rfl
        | gasUsed acc hg => exact hf.put hg rfl
        | _ => exact hf
      | fail i rc m b hi hb => exact cur _ (fun h => h)
      | failNone rc m hi hb => exact cur _ (fun h => h)
      | deploy d i _ _ _ _ => exact codeState_deploy d hI
      | dest _ i r he _ => exact (halt_dest he).elim
      | same _ i r he _ => exact (halt_same he).elim
      | undo _ i r a ci he => exact (halt_dest he).elim
      | _ => exact hI
    | outOfGas => exact cur _ (fun h => h)
    | deploy d _ _ => exact codeState_deploy d hI
    | finalize =>
      have h1 := fun h : CodeFine a c s.out.cur => h.final (E := E)
      have hst : (getVMOutput E s).2.out.stack = s.out.stack := ((StepB.finalize (E := E) (ex := Executor.halt) s).frame frameEx_halt).1.out
      have hcu : (getVMOutput E s).2.out.codeUpdates = s.out.codeUpdates := by
        obtain ⟨o, m, ho⟩ := getVMOutput_only (E := E) s
        rw [ho]
      rw [hst, hcu]
      exact cur _ h1
    | clean _ =>
      unfold St.cleanInstance
      split
      · exact hI
      · split <;> exact hI
    | failed c new m g h1 h2 h3 =>
      unfold St.cleanInstance
      split
      · exact hI
      · split <;> exact hI
    | _ => exact hI
  stepH s t h hI := by
    refine ⟨(reached_unary w0).stepH s t h hI.1, ?_⟩
    obtain ⟨hr, hI⟩ := hI
    cases h with
    | inst i g _ => exact hI
    | world i => exact hI
    | merge i b hbf =>
      refine hI.imp id (fun h => ⟨fun acc hg => ?_, h.2⟩)
      obtain ⟨b0, e0, hacc⟩ := hbf.acc
      have hg : (addToActive s.out.cur b).1.accounts.get? a = some acc := hg
      rw [get_addToActive] at hg
      cases hgb : b.out.accounts.get? a with
      | none => rw [hgb] at hg; exact h.1 acc hg
      | some ra =>
        have hra : ra.code = [] ∨ ra.code = c := by
          left
          have h' := hacc a
          rw [hgb] at h'
          cases h0 : b0.out.accounts.get? a with
          | none => rw [h0] at h'; simp only [SameButTransfers] at h'; rw [h']
          | some acc0 =>
            rw [h0] at h'; simp only [SameButTransfers] at h'; rw [h']
            exact hb _ _ b0 acc0 e0 h0
        rw [hgb] at hg
        have hg := Option.some.inj hg
        subst hg
        cases hgc : s.out.cur.accounts.get? a with
        | none => exact hra
        | some la => exact codeFine_merge (h.1 la hgc) hra
  delete s t b i _ hn _ hs ht := by
    refine ⟨ht.1, ?_⟩
    have hne : b ≠ a := by
      rintro rfl
      obtain ⟨ua, hu, _⟩ := hc _ hs.1
      exact hn.2 ua hu
    rcases ht.2 with h | ⟨h1, h2⟩
    · left
      show a ∈ t.out.codeUpdates.filter _
      rw [List.mem_filter]
      exact ⟨h, by simpa using fun h => hne h.symm⟩
    · refine .inr ⟨fun acc hg => ?_, h2⟩
      have hg : (t.out.deleteAcc b).cur.accounts.get? a = some acc := hg
      rw [get_deleteAcc, if_neg hne] at hg
      exact h1 acc hg
  push s hI := hI
  bcPopSet s hI := by
    refine ⟨(reached_unary w0).bcPopSet s hI.1, ?_⟩
    rw [(bcPopSet_rest (E := E) s).1]
    exact hI.2
  bcPopDiscard s hI := hI
  onError e s hI := ⟨hI.1, hI.2.imp id (fun h => ⟨by
    show CodeFine a c (updateGasOnFailure s).out.cur
    simp only [updateGasOnFailure]
    exact h.1.modAcc _ _ (by intro y; rfl), h.2⟩)⟩
  enterDest i s hI := by
    refine ⟨hI.1, hI.2.imp id (fun h => ⟨h.1, fun o ho => ?_⟩)⟩
    have e : (enterDestState i s).out.stack = mergeOut {} s.out.cur :: s.out.stack := rfl
    rw [e, mergeOut_empty] at ho
    rcases List.mem_cons.mp ho with rfl | ho
    · exact h.1
    · exact h.2 o ho
  enterSame i s hI := by
    refine ⟨hI.1, hI.2.imp id (fun h => ⟨h.1, fun o ho => ?_⟩)⟩
    have e : (enterSameState E i s).out.stack = mergeOut {} s.out.cur :: s.out.stack := rfl
    rw [e, mergeOut_empty] at ho
    rcases List.mem_cons.mp ho with rfl | ho
    · exact h.1
    · exact h.2 o ho
  popDest b s hI := by
    refine ⟨(reached_unary (E := E) w0).popDest b s hI.1, ?_⟩
    obtain ⟨_, hI⟩ := hI
    unfold popDest
    dsimp only
    rw [(rtPopSet_keeps _).1]
    cases hst : s.out.stack with
    | nil =>
      cases b <;> simp only [Bool.false_eq_true, if_false, if_true, OutCtx.popMerge, OutCtx.popSet, hst] <;> rw [← hst] <;> exact hI
    | cons p rest =>
      rw [hst] at hI
      cases b
      · simp only [Bool.false_eq_true, if_false, OutCtx.popSet, hst]
        exact hI.imp id (fun h => ⟨h.2 p (List.mem_cons_self ..), fun o ho => h.2 o (List.mem_cons_of_mem _ ho)⟩)
      · simp only [if_true, OutCtx.popMerge, hst, mergeOut_empty]
        refine hI.imp id (fun h => ⟨fun acc hg => ?_, fun o ho => h.2 o (List.mem_cons_of_mem _ ho)⟩)
        have h1 := h.2 p (List.mem_cons_self ..)
        rw [get_mergeOut] at hg
        cases hgc : s.out.cur.accounts.get? a with
        | none => rw [hgc] at hg; exact h1 acc hg
        | some ra =>
          rw [hgc] at hg
          have hg := Option.some.inj hg
          subst hg
          refine codeFine_merge ?_ (h.1 ra hgc)
          cases hgp : p.accounts.get? a with
          | none => exact .inl rfl
          | some la => exact h1 la hgp
  popSameFail s hI := by
    refine ⟨(reached_unary w0).popSameFail s hI.1, ?_⟩
    obtain ⟨_, hI⟩ := hI
    unfold popSameFail
    rw [(bcPopSet_rest (E := E) _).1, (rtPopSet_keeps _).1]
    dsimp only
    cases hst : s.out.stack with
    | nil => simp only [OutCtx.popSet, hst]; rw [← hst]; exact hI
    | cons p rest =>
      rw [hst] at hI
      simp only [OutCtx.popSet, hst]
      exact hI.imp id (fun h => ⟨h.2 p (List.mem_cons_self ..), fun o ho => h.2 o (List.mem_cons_of_mem _ ho)⟩)
  popSameOk s hI := by
    refine ⟨(reached_unary (E := E) w0).popSameOk s hI.1, ?_⟩
    unfold popSameOk
    rw [(rtPopSet_keeps _).1]
    exact hI.2.imp id (fun h => ⟨h.1, fun o ho => h.2 o (List.mem_of_mem_tail ho)⟩)
  restore g s hI := by
    obtain ⟨r, ins, hr, _, _⟩ := restoreGas_only g s
    rw [hr]
    exact hI

theorem codeState_top (w0 : χ) : TopOk E (CodeState E w0 a c) := fun _ d _ hI => ⟨hI.1, codeState_deploy d hI.2⟩

/-! ### Balances noted -/

/-- no balance is noted for `a` but `x` -/
def BalanceFine (a : Addr) (x : Int) (b : Addr) (acc : OutAcc) : Prop := b = a → acc.balance = none ∨ acc.balance = some x

theorem balanceFine_inv {w0 : χ} {x : Int} (hc : ∀ w, Reached E w0 w → ∃ ua, E.hook.userAccount w a = .ok (some ua) ∧ ua.balance = x)
    (hb : ∀ w i b acc, (E.hook.processBuiltIn w i).1 = .ok b → b.out.accounts.get? a = some acc → acc.balance = none) :
    AccInv E (fun s => Reached E w0 s.world) (BalanceFine a x) where
  unary := reached_unary w0
  blind _ _ _ h := h
  empty _ _ := .inl rfl
  move s b y z hJ hm hy acc hz := by
    cases hm with
    | same => exact hy acc hz
    | new => cases hz; exact fun _ => .inl rfl
    | gasNew => cases hz; exact fun _ => .inl rfl
    | bal acc0 ua h1 h2 =>
      cases hz
      intro he
      obtain ⟨ub, h3, h4⟩ := hc _ hJ
      rw [he] at h2
      have h5 := acctOf_some h2
      rw [h3] at h5
      cases h5
      exact .inr (congrArg some h4)
    | deploy y d hd h =>
      cases hz
      intro he
      cases y with
      | none => exact .inl rfl
      | some acc0 => exact hy acc0 rfl he
    | _ => cases hz; have h := hy _ rfl; exact h
  builtin s i b0 b acc ts hJ h0 h1 := by
    intro he
    subst he
    exact .inl (hb _ i b0 acc h0 h1)
  merge b l r hl hr := by
    intro he
    show (match r.balance with | some b => some b | none => l.balance) = none ∨ (match r.balance with | some b => some b | none => l.balance) = some x
    rcases hr he with h | h <;> rw [h]
    · exact hl he
    · exact .inr rfl
  moves _ _ _ _ _ h := h

end

/-! ### Applying the output accounts to the mock world -/

section
variable {A : Type} {E : Env MockWorld A} {L : Lib}

/-- the account after the update, if any -/
def applied (L : Lib) (acc : Option WAcc) (o : Option OutAcc) : Option WAcc :=
  match o with
  | some x => some (MockWorld.applyOutput L x (acc.getD { owner := x.deployer.getD [] }))
  | none => acc

theorem updateAccount_get (w : MockWorld) (b : Addr) (o : OutAcc) (a : Addr) :
    (w.updateAccount L b o).account a = if b = a then applied L (w.account a) (some o) else w.account a := by
  unfold MockWorld.updateAccount MockWorld.account MockWorld.put
  dsimp only
  rw [AMap.get?_insert]
  split
  · rename_i h; rw [h]; rfl
  · rfl

theorem updateList_get (es : List (Addr × OutAcc)) (hn : (es.map Prod.fst).Nodup) (w : MockWorld) (a : Addr) :
    (es.foldl (fun w p => w.updateAccount L p.1 p.2) w).account a = applied L (w.account a) (AMap.lookupL a es) := by
  induction es generalizing w with
  | nil => rfl
  | cons p rest ih =>
    rw [List.map_cons, List.nodup_cons] at hn
    rw [List.foldl_cons, ih hn.2, updateAccount_get]
    by_cases hp : p.1 = a
    · have h1 : AMap.lookupL a rest = none := by
        cases hl : AMap.lookupL a rest with
        | none => rfl
        | some x => exact absurd (List.mem_map.mpr ⟨(a, x), AMap.lookupL_some_mem hl, hp.symm⟩) hn.1
      have h2 : AMap.lookupL a (p :: rest) = some p.2 := by obtain ⟨k, v⟩ := p; exact if_pos hp
      rw [if_pos hp, h1, h2]
      rfl
    · have h2 : AMap.lookupL a (p :: rest) = AMap.lookupL a rest := by obtain ⟨k, v⟩ := p; exact if_neg hp
      rw [if_neg hp, h2]

theorem updateAccounts_get (w : MockWorld) (m : AMap Addr OutAcc) (a : Addr) :
    (w.updateAccounts L m).account a = applied L (w.account a) (m.get? a) := updateList_get m.entries m.nodup w a

theorem updateAccounts_err (w : MockWorld) (m : AMap Addr OutAcc) : (w.updateAccounts L m).err = w.err := by
  unfold MockWorld.updateAccounts
  generalize m.entries = es
  induction es generalizing w with
  | nil => rfl
  | cons p rest ih => rw [List.foldl_cons, ih]; rfl

theorem applyOutput_storage (o : OutAcc) (acc : WAcc) (k : Bytes) :
    (MockWorld.applyOutput L o acc).storageValue k = ((o.storage.get? k).getD (acc.storageValue k)) := by
  have h : (MockWorld.applyOutput L o acc).storage = AMap.mergeWith (fun _ x => x) acc.storage o.storage := by
    unfold MockWorld.applyOutput WAcc.setCodeAndMetadata
    dsimp only
    repeat' split
    all_goals rfl
  unfold WAcc.storageValue
  rw [h, AMap.get?_mergeWith]
  cases o.storage.get? k <;> rfl

theorem applyOutput_nonce (o : OutAcc) (acc : WAcc) :
    (MockWorld.applyOutput L o acc).nonce = if o.nonce > acc.nonce then o.nonce else acc.nonce := by
  unfold MockWorld.applyOutput WAcc.setCodeAndMetadata
  dsimp only
  by_cases h : o.nonce > acc.nonce
  · rw [if_pos h]
    repeat' split
    all_goals first | rfl | exact absurd h ‹_›
  · rw [if_neg h]
    repeat' split
    all_goals first | rfl | exact absurd ‹_› h

theorem applyOutput_code (o : OutAcc) (acc : WAcc) :
    (MockWorld.applyOutput L o acc).code = if o.code ≠ [] then o.code else acc.code := by
  unfold MockWorld.applyOutput WAcc.setCodeAndMetadata
  dsimp only
  by_cases h : o.code ≠ []
  · rw [if_pos h, if_pos h]
    repeat' split
    all_goals rfl
  · rw [if_neg h, if_neg h]
    repeat' split
    all_goals rfl

/-! ### The world during a transaction -/

theorem reached_core (hE : E.hook = MockWorld.hook L) (hL : SteadyBuiltins L) {w v : MockWorld} (h : Reached E w v) :
    v.err = w.err ∧ ∀ a, (v.account a).map coreOf = (w.account a).map coreOf := by
  induction h with
  | start => exact ⟨rfl, fun _ => rfl⟩
  | builtin v i _ ih =>
    rw [hE]
    have : ((MockWorld.hook L).processBuiltIn v i).2 = v ∨ ((MockWorld.hook L).processBuiltIn v i).2 = (L.builtin v i).2 := by
      show (match v.err with | some e => ((Except.error e : Except Err BuiltinOutput), v) | none => L.builtin v i).2 = v ∨
        (match v.err with | some e => ((Except.error e : Except Err BuiltinOutput), v) | none => L.builtin v i).2 = (L.builtin v i).2
      split
      · exact .inl rfl
      · exact .inr rfl
    rcases this with h | h <;> rw [h]
    · exact ih
    · exact ⟨(hL.err v i).trans ih.1, fun a => (hL.accounts v i a).trans (ih.2 a)⟩
  | revert v n _ ih =>
    rw [hE]
    refine ⟨Eq.trans ?_ ih.1, fun a => Eq.trans ?_ (ih.2 a)⟩
    · show (v.revert n).2.err = v.err
      unfold MockWorld.revert
      repeat' split
      all_goals rfl
    · rcases revert_accts v n a with h | ⟨acc, o, h1, _, h2⟩
      · exact congrArg _ h
      · show ((v.revert n).2.account a).map coreOf = _
        rw [h1, h2]; rfl
  | saveCompiled v x c _ ih => rw [hE]; exact ih

/-- an account on the chain stays there, with its balance, nonce and code -/
theorem reached_account (hE : E.hook = MockWorld.hook L) (hL : SteadyBuiltins L) {w v : MockWorld} (h : Reached E w v)
    (hw : w.err = none) {a : Addr} {acc : WAcc} (ha : w.account a = some acc) :
    ∃ acc' ua, v.account a = some acc' ∧ coreOf acc' = coreOf acc ∧ E.hook.userAccount v a = .ok (some ua) ∧
      ua.balance = acc.balance ∧ ua.nonce = acc.nonce ∧ ua.code = acc.code := by
  obtain ⟨h1, h2⟩ := reached_core hE hL h
  have h2 := h2 a
  rw [ha] at h2
  cases hv : v.account a with
  | none => rw [hv] at h2; cases h2
  | some acc' =>
    rw [hv] at h2
    have h3 : coreOf acc' = coreOf acc := Option.some.inj h2
    refine ⟨acc', { balance := acc'.balance, nonce := acc'.nonce, codeHash := acc'.codeHash, codeMetadata := acc'.codeMetadata,
                    owner := acc'.owner, code := acc'.code }, rfl, h3, ?_, ?_⟩
    · rw [hE]
      show v.userAccount a = _
      unfold MockWorld.userAccount
      rw [h1, hw, hv]
    · have h4 : acc'.balance = acc.balance ∧ acc'.nonce = acc.nonce ∧ acc'.code = acc.code := by
        simpa [coreOf] using h3
      exact h4

theorem builtin_changes (hE : E.hook = MockWorld.hook L) (hB : ChangesOnly L) {w : MockWorld} {i : CallInput} {b : BuiltinOutput}
    {a : Addr} {acc : OutAcc} (h : (E.hook.processBuiltIn w i).1 = .ok b) (hg : b.out.accounts.get? a = some acc) :
    acc.balance = none ∧ acc.nonce = 0 ∧ acc.code = [] := by
  rw [hE] at h
  have h : (match w.err with | some e => ((Except.error e : Except Err BuiltinOutput), w) | none => L.builtin w i).1 = .ok b := h
  split at h
  · cases h
  · exact hB w i b a acc h hg

/-! ### C49 -/

/-- the transaction ran, and the host made its output where the code ended -/
theorem endsIn_of_ok (n : Nat) (tx : Tx) {s : St MockWorld A} {o : VMOutput} (hr : AtRest E s) (h : Outputs E n tx s o)
    (hok : o.returnCode = .ok) : ∃ u, EndsIn E n tx s u o := by
  have key : ∀ t, txBody E (execN E n) tx (hostInit E s) = (.ok o, t) → (runTx E n tx s).2.world = t.world → ∃ u, EndsIn E n tx s u o := by
    intro t hb hw
    obtain ⟨u, h1, h2⟩ := txBody_ending (keepsInst_execN E n) tx hr hb
    cases h2 with
    | err e => exact absurd hok (onError_output e u).1
    | ok =>
      refine ⟨u, h1, rfl, ?_⟩
      rw [hw]
      have h3 : ∀ x : St MockWorld A, x.cleanInstance.world = x.world := by
        intro x
        unfold St.cleanInstance
        repeat' split
        all_goals rfl
      obtain ⟨o, m, ho⟩ := getVMOutput_only (E := E) u
      rw [h3, ho]
  have ha := runTx_any (E := E) n tx s
  have h : (runTx E n tx s).1 = some (some o) := h
  generalize hq : (runTx E n tx s).2 = q at ha key
  generalize (runTx E n tx s).1 = r at ha h
  subst h
  cases ha with
  | ok _ t hb => exact key t hb (hostClean_world t)
  | reset _ t hb _ => exact key t hb ((resetWarm_world _).trans (hostClean_world t))

/-- the accounts of the output of a transaction that succeeds -/
theorem output_acc {u : St MockWorld A} (hok : (getVMOutput E u).1.returnCode = .ok) (b : Addr) : ∃ f : OutAcc → OutAcc,
    (∀ y, ∃ g, f y = if b ∈ u.out.codeUpdates then { y with gasUsed := g } else { y with gasUsed := g, code := [], codeMetadata := [], deployer := none }) ∧
    ((getVMOutput E u).1.accounts.get? b = (u.out.cur.accounts.get? b).map f ∨
     (u.out.cur.accounts.get? b = none ∧ (getVMOutput E u).1.accounts.get? b = some (f {}))) := by
  rcases (Ending.ok (E := E) (u := u)).cases with ⟨e, w, h⟩ | ⟨h1, _, h2, _⟩
  · rw [h] at hok; exact absurd hok (onError_output e w).1
  · rw [h1, h2, updateGasOnSuccess_state]
    exact final_acc u b

/-- what the output notes of an account, but for its code -/
theorem output_noted {u : St MockWorld A} (hok : (getVMOutput E u).1.returnCode = .ok) (b : Addr) :
    ((getVMOutput E u).1.accounts.get? b = none ∧ u.out.cur.accounts.get? b = none) ∨
    ∃ x, (getVMOutput E u).1.accounts.get? b = some x ∧ x.storage = ((u.out.cur.accounts.get? b).getD {}).storage ∧
      x.balanceDelta = ((u.out.cur.accounts.get? b).getD {}).balanceDelta ∧ x.nonce = ((u.out.cur.accounts.get? b).getD {}).nonce ∧
      x.code = if b ∈ u.out.codeUpdates then ((u.out.cur.accounts.get? b).getD {}).code else [] := by
  obtain ⟨f, hf, h⟩ := output_acc hok b
  have fin : ∀ y, (f y).storage = y.storage ∧ (f y).balanceDelta = y.balanceDelta ∧ (f y).nonce = y.nonce ∧
      (f y).code = if b ∈ u.out.codeUpdates then y.code else [] := by
    intro y
    obtain ⟨g, hg⟩ := hf y
    rw [hg]
    split <;> exact ⟨rfl, rfl, rfl, rfl⟩
  rcases h with h | ⟨h0, h⟩
  · cases hg : u.out.cur.accounts.get? b with
    | none => rw [hg] at h; exact .inl ⟨h, rfl⟩
    | some y => rw [hg] at h; exact .inr ⟨f y, h, fin y⟩
  · rw [h0]; exact .inr ⟨f {}, h, fin {}⟩

/-- what contracts read from the chain and the output -/
theorem getCode_answer (a : Addr) (u : St MockWorld A) {ua : UserAcct} (hu : E.hook.userAccount u.world a = .ok (some ua)) (c : Bytes) :
    (getCode E a u).1 = .ok c ↔
      c = (if ((u.out.cur.accounts.get? a).getD {}).code ≠ [] then ((u.out.cur.accounts.get? a).getD {}).code else ua.code) ∧ c ≠ [] := by
  have hlen : ∀ l : Bytes, l.length = 0 ↔ l = [] := fun l => List.length_eq_zero_iff
  unfold getCode OutCtx.getAcc
  cases hg : u.out.cur.accounts.get? a with
  | none =>
    simp only [Bool.not_true, Bool.false_and, Bool.false_eq_true, if_false, hu, Option.getD_none, ne_eq, not_true_eq_false, hlen]
    by_cases h0 : ua.code = []
    · simp only [h0, if_true]
      exact ⟨(fun h => by cases h), fun h => absurd h.1 h.2⟩
    · simp only [h0, if_false, Except.ok.injEq]
      exact ⟨fun h => ⟨h.symm, h ▸ h0⟩, fun h => h.1.symm⟩
  | some acc =>
    simp only [Bool.not_false, Bool.true_and, hu, Option.getD_some, hlen, ne_eq, decide_eq_true_eq, gt_iff_lt, Nat.pos_iff_ne_zero]
    by_cases hc : acc.code = []
    · simp only [hc, not_true_eq_false, if_false]
      by_cases h0 : ua.code = []
      · simp only [h0, if_true]
        exact ⟨(fun h => by cases h), fun h => absurd h.1 h.2⟩
      · simp only [h0, if_false, Except.ok.injEq]
        exact ⟨fun h => ⟨h.symm, h ▸ h0⟩, fun h => h.1.symm⟩
    · simp only [hc, not_false_eq_true, if_true, Except.ok.injEq]
      exact ⟨fun h => ⟨h.symm, h ▸ hc⟩, fun h => h.1.symm⟩

variable {n : Nat} {tx : Tx} {s u : St MockWorld A} {o : VMOutput}

/-- **C49** for storage: after the reported accounts are applied, every account's storage is what contracts saw at the end. -/
theorem c49_storage (hE : E.hook = MockWorld.hook L) (hL : SteadyBuiltins L) (hw : s.world.err = none)
    (hu : EndsIn E n tx s u o) (hok : o.returnCode = .ok) (a : Addr) (k : Bytes) :
    ((u.world.updateAccounts L o.accounts).storageData a k) = view E u a k := by
  have hR : Reached E s.world u.world :=
    hu.run.inv ((reached_unary s.world).stepT (fun _ _ _ h => h) ((reached_unary s.world).keeps n)) (by rw [txStart_world]; exact .start)
  have he : u.world.err = none := (reached_core hE hL hR).1.trans hw
  have hsto : E.hook.storageData u.world a k = ((u.world.account a).map (fun acc => acc.storageValue k)).getD [] := by
    rw [hE]
    show u.world.storageData a k = _
    unfold MockWorld.storageData
    rw [he]
  unfold MockWorld.storageData
  rw [updateAccounts_err, he, updateAccounts_get]
  unfold view pending
  rw [hsto]
  subst_vars
  rw [hu.output] at hok ⊢
  rcases output_noted hok a with ⟨h1, h2⟩ | ⟨x, h1, h2, _⟩
  · rw [h1, h2]; rfl
  · rw [h1]
    show (MockWorld.applyOutput L x _).storageValue k = _
    rw [applyOutput_storage, h2]
    cases hg : u.out.cur.accounts.get? a with
    | none =>
      show ((AMap.empty.get? k : Option Bytes).getD _) = _
      rw [AMap.get?_empty]
      show WAcc.storageValue _ k = _
      cases u.world.account a <;> rfl
    | some y =>
      show (y.storage.get? k).getD _ = (y.storage.get? k).getD _
      congr 1
      cases u.world.account a <;> rfl

/-- **C49** for accounts on the chain: after the reported accounts are applied, the balance, the storage and the code of every account
that was on the chain are what contracts saw at the end. -/
theorem c49_account_partial (hE : E.hook = MockWorld.hook L) (hL : SteadyBuiltins L) (hB : ChangesOnly L) (hw : s.world.err = none)
    (hu : EndsIn E n tx s u o) (hok : o.returnCode = .ok) (a : Addr) (acc0 : WAcc) (ha : s.world.account a = some acc0) :
    ∃ acc, (u.world.updateAccounts L o.accounts).account a = some acc ∧ SeenAs E u a acc := by
  have hR : Reached E s.world u.world :=
    hu.run.inv ((reached_unary s.world).stepT (fun _ _ _ h => h) ((reached_unary s.world).keeps n)) (by rw [txStart_world]; exact .start)
  have he : u.world.err = none := (reached_core hE hL hR).1.trans hw
  have h0 : (txStart E tx s).out.cur.Started := txStart_started tx s
  -- the balance noted
  have hbal := (balanceFine_inv (E := E) (w0 := s.world) (x := acc0.balance) (a := a)
    (fun w hw' => by
      obtain ⟨_, ua, _, _, h1, h2, _⟩ := reached_account hE hL hw' hw ha
      exact ⟨ua, h1, h2⟩)
    (fun w i b acc h1 h2 => (builtin_changes hE hB h1 h2).1)).inv
  have hbal := hu.run.inv (hbal.all.stepT (fun s d _ hI => ⟨hI.1, by
      intro b acc hg hb
      have hg : (s.out.modAcc d.address (fun acc => { acc with code := d.code, codeMetadata := d.metadata, deployer := some d.deployer })).cur.accounts.get? b = some acc := hg
      rw [get_modAcc] at hg
      split at hg
      · rename_i hd
        cases hg
        cases hx : s.out.cur.accounts.get? d.address with
        | none => exact .inl rfl
        | some y => exact hI.2.1 d.address y hx (hd.trans hb)
      · exact hI.2.1 b acc hg hb, hI.2.2⟩) (hbal.all.keeps n)) ⟨by show Reached E s.world _; rw [txStart_world]; exact .start, fun b acc hg hb => by
        obtain ⟨_, d, h⟩ := h0.accounts b acc hg
        rw [h]; exact .inl rfl, fun x hx => by rw [txStart_stack] at hx; cases hx⟩
  -- the code noted
  have hcode := codeState_unary (E := E) (w0 := s.world) (c := acc0.code) (a := a)
    (fun w i b acc h1 h2 => (builtin_changes hE hB h1 h2).2.2)
    (fun w hw' => by
      obtain ⟨_, ua, _, _, h1, _, _, h2⟩ := reached_account hE hL hw' hw ha
      exact ⟨ua, h1, h2⟩)
  have hcode := hu.run.inv (hcode.stepT (codeState_top _) (hcode.keeps n)) ⟨by rw [txStart_world]; exact .start, .inr ⟨fun acc hg => by
        obtain ⟨_, d, h⟩ := h0.accounts a acc hg
        rw [h]; exact .inl rfl, fun x hx => by rw [txStart_stack] at hx; cases hx⟩⟩
  obtain ⟨acc1, ua, h1, h2, h3, h4, _, h5⟩ := reached_account hE hL hR hw ha
  have hacct : acctOf E u a = some ua := by unfold acctOf; rw [h3]
  have hcore : acc1.balance = acc0.balance ∧ acc1.nonce = acc0.nonce ∧ acc1.code = acc0.code := by simpa [coreOf] using h2
  have hsto := c49_storage hE hL hw hu hok a
  have hget := updateAccounts_get (L := L) u.world o.accounts a
  rw [h1] at hget
  have hst : ∀ acc, (u.world.updateAccounts L o.accounts).account a = some acc → ∀ k, view E u a k = acc.storageValue k := by
    intro acc hacc k
    rw [← hsto k]
    unfold MockWorld.storageData
    rw [updateAccounts_err, he, hacc]
    rfl
  have hbalance : (getBalance E a u).1 = acc0.balance + ((u.out.cur.accounts.get? a).getD {}).balanceDelta := by
    rw [getBalance_run]
    cases hg : u.out.cur.accounts.get? a with
    | none => rw [hacct]; show ua.balance = _ + (0 : Int); rw [h4]; omega
    | some x =>
      dsimp only [Option.getD_some]
      rcases hbal.2.1 a x hg rfl with hx | hx <;> rw [hx]
      · rw [hacct]; show ua.balance + _ = _; rw [h4]
  have hans : ∀ c, (getCode E a u).1 = .ok c ↔ c = (if a ∈ u.out.codeUpdates ∧ ((u.out.cur.accounts.get? a).getD {}).code ≠ []
      then ((u.out.cur.accounts.get? a).getD {}).code else acc0.code) ∧ c ≠ [] := by
    intro c
    rw [getCode_answer a u h3, h5]
    by_cases hup : a ∈ u.out.codeUpdates
    · simp only [hup, true_and]
    · simp only [hup, false_and, if_false]
      rcases hcode.2 with h | h
      · exact absurd h hup
      · have : (if ((u.out.cur.accounts.get? a).getD {}).code ≠ [] then ((u.out.cur.accounts.get? a).getD {}).code else acc0.code) = acc0.code := by
          cases hg : u.out.cur.accounts.get? a with
          | none => rfl
          | some x =>
            dsimp only [Option.getD_some]
            rcases h.1 x hg with hx | hx
            · simp [hx]
            · split
              · exact hx
              · rfl
        rw [this]
  rw [hu.output] at hok hget hst ⊢
  rcases output_noted hok a with ⟨g1, g2⟩ | ⟨x, g1, _, g3, _, g5⟩
  · rw [g1] at hget
    refine ⟨acc1, hget, ?_, hst acc1 hget, ?_⟩
    · rw [hbalance, g2, hcore.1]; show _ + (0 : Int) = _; omega
    · intro c
      rw [hans c, g2, hcore.2.2]
      simp
  · rw [g1] at hget
    refine ⟨_, hget, ?_, hst _ hget, ?_⟩
    · show _ = (MockWorld.applyOutput L x acc1).balance
      rw [applyOutput_balance, hbalance, hcore.1, g3]
    · intro c
      show _ ↔ c = (MockWorld.applyOutput L x acc1).code ∧ _
      rw [applyOutput_code, hans c, g5, hcore.2.2]
      by_cases hup : a ∈ u.out.codeUpdates
      · simp only [hup, true_and, if_true]
      · simp [hup]

/-- **C49** for nonces of accounts on the chain: when the account made `k` deployments in the transaction, and that makes the nonce
not overflow, the nonce that results is the one that the host used at the end. -/
theorem c49_nonce_partial (hE : E.hook = MockWorld.hook L) (hL : SteadyBuiltins L) (hB : ChangesOnly L) (hw : s.world.err = none)
    (hv : (hostInit E s).flags.v3 = true) (hu : EndsIn E n tx s u o) (hok : o.returnCode = .ok) (a : Addr) (acc0 : WAcc)
    (ha : s.world.account a = some acc0) :
    ∃ acc k, (u.world.updateAccounts L o.accounts).account a = some acc ∧
      Deployments E s.world a acc0.nonce (txStart E tx s).out.cur k u.out.cur ∧
      (acc0.nonce.toNat + k < 2 ^ 64 → (getNonce E a u).1 = .ok acc.nonce ∧ acc.nonce.toNat = acc0.nonce.toNat + k) := by
  have hK : KnownNonce E s.world a acc0.nonce :=
    ⟨fun w hw' => by
      obtain ⟨_, ua, _, _, h1, _, h2, _⟩ := reached_account hE hL hw' hw ha
      exact ⟨ua, h1, h2⟩, fun w _ i b acc h1 h2 => (builtin_changes hE hB h1 h2).2.1⟩
  obtain ⟨h0, hJ⟩ := txStart_nonce hK hv tx
  obtain ⟨hJu, k, hk⟩ := (deployments_rel hK).binary.runT (fun s d hv hJ => ⟨hJ, 0, .same (noted_deploy _ _ _)⟩) hu.run hJ
  obtain ⟨acc1, ua, h1, h2, h3, h4, _, h5⟩ := reached_account hE hL hJu.1 hw ha
  have hcore : acc1.balance = acc0.balance ∧ acc1.nonce = acc0.nonce ∧ acc1.code = acc0.code := by simpa [coreOf] using h2
  have hget := updateAccounts_get (L := L) u.world o.accounts a
  rw [h1] at hget
  have hnow : acc0.nonce.toNat + k < 2 ^ 64 → (nonceNow acc0.nonce u.out.cur a).toNat = acc0.nonce.toNat + k := by
    intro hlt
    have := (hk.count hK (by rw [h0]; exact hlt)).1
    rw [h0] at this
    exact this
  have htold : (getNonce E a u).1 = .ok (nonceNow acc0.nonce u.out.cur a) := c19_told hK hJu.1 hJu.2
  rw [hu.output] at hok hget ⊢
  rcases output_noted hok a with ⟨g1, g2⟩ | ⟨x, g1, _, _, g4, _⟩
  · rw [g1] at hget
    refine ⟨acc1, k, hget, hk, fun hlt => ?_⟩
    have h6 : nonceNow acc0.nonce u.out.cur a = acc0.nonce := by unfold nonceNow notedNonce; rw [g2]; rfl
    rw [htold, hcore.2.1, ← hnow hlt, h6]
    exact ⟨rfl, rfl⟩
  · rw [g1] at hget
    refine ⟨_, k, hget, hk, fun hlt => ?_⟩
    have h6 : (MockWorld.applyOutput L x acc1).nonce = nonceNow acc0.nonce u.out.cur a := by
      have hn := hnow hlt
      rw [applyOutput_nonce, hcore.2.1, g4]
      have h7 : notedNonce u.out.cur a = ((u.out.cur.accounts.get? a).getD {}).nonce := by
        unfold notedNonce
        cases u.out.cur.accounts.get? a <;> rfl
      rw [← h7]
      unfold nonceNow at hn ⊢
      by_cases hz : notedNonce u.out.cur a = 0
      · rw [if_pos hz, hz, if_neg]
        rw [gt_iff_lt, UInt64.lt_iff_toNat_lt]
        exact Nat.not_lt_zero _
      · rw [if_neg hz] at hn ⊢
        split
        · rfl
        · rename_i hng
          rw [gt_iff_lt, UInt64.lt_iff_toNat_lt] at hng
          rw [← UInt64.toNat_inj]
          omega
    show _ = Except.ok (MockWorld.applyOutput L x acc1).nonce ∧ (MockWorld.applyOutput L x acc1).nonce.toNat = _
    rw [h6, htold]
    exact ⟨rfl, hnow hlt⟩

/-- **C49** for transactions: there is a state in which the code of the transaction ended, and the world after the reported accounts are
applied shows what contracts saw there. Missing: the balances, nonces and code of accounts that were not on the chain
(`c49_neg`). -/
theorem c49_tx_partial (hE : E.hook = MockWorld.hook L) (hL : SteadyBuiltins L) (hB : ChangesOnly L) (hw : s.world.err = none)
    (hr : AtRest E s) (hv : (hostInit E s).flags.v3 = true) (h : Outputs E n tx s o) (hok : o.returnCode = .ok) :
    ∃ u, EndsIn E n tx s u o ∧
      (∀ a k, ((runTx E n tx s).2.world.updateAccounts L o.accounts).storageData a k = view E u a k) ∧
      ∀ a acc0, s.world.account a = some acc0 → ∃ acc k,
        ((runTx E n tx s).2.world.updateAccounts L o.accounts).account a = some acc ∧ SeenAs E u a acc ∧
        Deployments E s.world a acc0.nonce (txStart E tx s).out.cur k u.out.cur ∧
        (acc0.nonce.toNat + k < 2 ^ 64 → (getNonce E a u).1 = .ok acc.nonce ∧ acc.nonce.toNat = acc0.nonce.toNat + k) := by
  obtain ⟨u, hu⟩ := endsIn_of_ok n tx hr h hok
  rw [hu.world]
  refine ⟨u, hu, c49_storage hE hL hw hu hok, fun a acc0 ha => ?_⟩
  obtain ⟨acc, h1, h2⟩ := c49_account_partial hE hL hB hw hu hok a acc0 ha
  obtain ⟨acc', k, h3, h4, h5⟩ := c49_nonce_partial hE hL hB hw hv hu hok a acc0 ha
  rw [h1] at h3
  cases h3
  exact ⟨acc, k, h1, h2, h4, h5⟩

/-- When the node's built-in functions leave the world alone it makes no difference whether the reported accounts are applied to
the world after the transaction or to the one before. -/
theorem c49_prestate (hE : E.hook = MockWorld.hook L) (hL : StillBuiltins L) (ha : Agree s.world) (hr : AtRest E s)
    (h : Outputs E n tx s o) (a : Addr) :
    (s.world.updateAccounts L o.accounts).account a = ((runTx E n tx s).2.world.updateAccounts L o.accounts).account a := by
  have h1 := reached_tx n tx hr (by rw [show (runTx E n tx s).1 = some (some o) from h]; exact fun h => by cases h)
  rw [updateAccounts_get, updateAccounts_get, (reached_accounts hE hL ha h1).1 a]

/-! ### Examples and violations -/

section
open Fixture

/-- finish with the balance of an address -/
def tellBalance (a : Addr) : P :=
  .store 0 a <| .call (.bigIntGetExternalBalance 0 0) fun _ => .call (.bigIntFinish false 0) fun _ => .ret

/-- pays another contract or an unknown user, and tells its balance then; stores something; deploys -/
def aggMods : List (Bytes × WasmModule EeiCall) :=
  [([1], mod [(f, send (addr 101) 7 <| put [1] [2] <| tellBalance (addr 101)), (g, send (user 9) 7 <| tellBalance (user 9)),
     ([104], create [2] [0, 0] 0 1000 .ret)]), ([2], mod [(initName, .ret)])]

def aggEnv : Env MockWorld EeiCall := mockEnv stillLib aggMods

theorem stillLib_steady : SteadyBuiltins stillLib := ⟨fun _ _ _ => rfl, fun _ _ => rfl⟩
theorem stillLib_changes : ChangesOnly stillLib := by
  intro w i b a acc h hg
  cases h
  cases hg
/-- built-in functions that keep tokens in storage -/
example : SteadyBuiltins tokenLib := by
  refine ⟨fun w i a => ?_, fun w i => ?_⟩
  · show ((w.saveKeyValue i.recipient _ _).account a).map coreOf = _
    unfold MockWorld.saveKeyValue
    cases h : w.account i.recipient with
    | none => rfl
    | some acc =>
      show ((w.accts.insert _ _).get? a).map coreOf = (w.accts.get? a).map coreOf
      rw [AMap.get?_insert]
      split
      · rename_i he
        rw [← he, show w.accts.get? i.recipient = some acc from h]
        rfl
      · rfl
  · show (w.saveKeyValue i.recipient _ _).err = _
    unfold MockWorld.saveKeyValue
    cases w.account i.recipient <;> rfl
example : payWorld.err = none := rfl
example : Agree payWorld := fun m hm => by cases hm
example : (hostInit aggEnv (mockHost payWorld)).flags.v3 = true := rfl

/-- the contract pays another one, is told that it has 12 then, and stores something: so it is after the output was applied -/
example : checkOut (runTx aggEnv 5 (callTx (user 1) (addr 100) f) (mockHost payWorld)) (fun o =>
    decide (o.returnCode = .ok ∧ o.returnData = [[12]] ∧
      ((payWorld.updateAccounts stillLib o.accounts).account (addr 101)).map WAcc.balance = some 12 ∧
      (payWorld.updateAccounts stillLib o.accounts).storageData (addr 100) [1] = [2])) = true := by decide +kernel
/-- a deployment: the nonce of the contract goes up -/
example : checkOut (runTx aggEnv 5 (callTx (user 1) (addr 100) [104]) (mockHost payWorld)) (fun o =>
    decide (o.returnCode = .ok ∧ ((payWorld.updateAccounts stillLib o.accounts).account (addr 100)).map WAcc.nonce = some 1 ∧
      ((payWorld.updateAccounts stillLib o.accounts).account (MockWorld.generateAddress (addr 100) 0)).map WAcc.code = some [2])) = true := by
  decide +kernel

/-- An account that was not on the chain is paid. At the end of the transaction contracts are told that it has nothing; it has 7
after the output is applied. -/
theorem c49_neg : ∃ (s : St MockWorld EeiCall) (tx : Tx) (o : VMOutput), AtRest aggEnv s ∧ Outputs aggEnv 5 tx s o ∧ o.returnCode = .ok ∧
    o.returnData = [[]] ∧ ((s.world.updateAccounts stillLib o.accounts).account (user 9)).map WAcc.balance = some 7 := by
  have h : checkOut (runTx aggEnv 5 (callTx (user 1) (addr 100) g) (mockHost payWorld)) (fun o =>
      decide (o.returnCode = .ok ∧ o.returnData = [[]] ∧
        ((payWorld.updateAccounts stillLib o.accounts).account (user 9)).map WAcc.balance = some 7)) = true := by decide +kernel
  obtain ⟨o, h1, h2⟩ := checkOut_elim h
  exact ⟨mockHost payWorld, callTx (user 1) (addr 100) g, o, mockHost_rest _ _, h1, of_decide_eq_true h2⟩

end
end
end Arwen.Props
