import Verif.Spec.Nonce
import Verif.Props.Deploy
/-
C19: the nonce of an account only grows, by one for every successful deployment by that account.
-/
namespace Arwen.Props
open Arwen Arwen.Spec
variable {χ A : Type} {E : Env χ A} {a : Addr} {c : UInt64}

/-- the node is in a state that a run starting in `w0` can lead to, and nonces are read from the chain -/
def NonceState (E : Env χ A) (w0 : χ) (s : St χ A) : Prop := Reached E w0 s.world ∧ s.flags.v3 = true

theorem rtPopSet_flags (s : St χ A) : s.rtPopSet.flags = s.flags := by
  unfold St.rtPopSet
  split
  · rfl
  · unfold St.popInstance
    split
    · rfl
    · dsimp only
      split
      · rfl
      · dsimp only
        unfold St.cleanInstance
        repeat' split
        all_goals rfl

theorem v3_unary : Unary E (fun s => s.flags.v3 = true) where
  delete _ _ _ _ _ _ _ _ h := h
  step s t h hI := by
    cases h with
    | a _ hs =>
      cases hs with
      | dest _ i r he _ => exact (halt_dest he).elim
      | same _ i r he _ => exact (halt_same he).elim
      | undo _ i r a ci he => exact (halt_dest he).elim
      | _ => exact hI
    | finalize =>
      obtain ⟨o, m, ho⟩ := getVMOutput_only (E := E) s
      rw [ho]; exact hI
    | clean _ =>
      unfold St.cleanInstance
      split
      · exact hI
      · split <;> exact hI
    | failed c new m g h1 h2 h3 =>
      unfold St.cleanInstance
      split
      · exact hI
      · split <;> exact hI
    | _ => exact hI
  stepH s t h hI := by cases h <;> exact hI
  push s hI := hI
  bcPopSet s hI := by
    unfold St.bcPopSet
    split <;> exact hI
  bcPopDiscard s hI := hI
  onError e s hI := hI
  enterDest i s hI := hI
  enterSame i s hI := hI
  popDest b s hI := by
    unfold popDest
    dsimp only
    rw [rtPopSet_flags]
    cases b <;> exact hI
  popSameFail s hI := by
    unfold popSameFail St.bcPopSet
    split
    · rw [rtPopSet_flags]; exact hI
    · dsimp only; rw [rtPopSet_flags]; exact hI
  popSameOk s hI := by
    unfold popSameOk
    rw [rtPopSet_flags]
    exact hI
  restore g s hI := by
    obtain ⟨r, ins, hr, _, _⟩ := restoreGas_only g s
    rw [hr]; exact hI

theorem nonceState_unary (w0 : χ) : Unary E (NonceState E w0) where
  delete _ _ _ _ _ _ _ _ h := h
  step s t h hI := ⟨(reached_unary w0).step s t h hI.1, v3_unary.step s t h hI.2⟩
  stepH s t h hI := ⟨(reached_unary w0).stepH s t h hI.1, v3_unary.stepH s t h hI.2⟩
  push s hI := ⟨(reached_unary w0).push s hI.1, v3_unary.push s hI.2⟩
  bcPopSet s hI := ⟨(reached_unary w0).bcPopSet s hI.1, v3_unary.bcPopSet s hI.2⟩
  bcPopDiscard s hI := ⟨(reached_unary (E := E) w0).bcPopDiscard s hI.1, (v3_unary (E := E)).bcPopDiscard s hI.2⟩
  onError e s hI := ⟨(reached_unary w0).onError e s hI.1, v3_unary.onError e s hI.2⟩
  enterDest i s hI := ⟨(reached_unary (E := E) w0).enterDest i s hI.1, (v3_unary (E := E)).enterDest i s hI.2⟩
  enterSame i s hI := ⟨(reached_unary w0).enterSame i s hI.1, v3_unary.enterSame i s hI.2⟩
  popDest b s hI := ⟨(reached_unary (E := E) w0).popDest b s hI.1, (v3_unary (E := E)).popDest b s hI.2⟩
  popSameFail s hI := ⟨(reached_unary w0).popSameFail s hI.1, v3_unary.popSameFail s hI.2⟩
  popSameOk s hI := ⟨(reached_unary (E := E) w0).popSameOk s hI.1, (v3_unary (E := E)).popSameOk s hI.2⟩
  restore g s hI := ⟨(reached_unary (E := E) w0).restore g s hI.1, (v3_unary (E := E)).restore g s hI.2⟩

/-! ### Counting -/

theorem _root_.Arwen.Spec.Deployments.same {w0 : χ} {o o' : VMOutput} (h : notedNonce o' a = notedNonce o a) : Deployments E w0 a c o 0 o' :=
  .keep o o' (by unfold nonceNow; rw [h]) (by rw [h]; exact fun h => h)

theorem known_nonce {w0 : χ} (hK : KnownNonce E w0 a c) {s : St χ A} (hJ : NonceState E w0 s) :
    nonceOf E s a = .ok (nonceNow c s.out.cur a) := by
  obtain ⟨ua, hu, hn⟩ := hK.onChain s.world hJ.1
  have hch : nonceOf.chain E s a = .ok c := by unfold nonceOf.chain; rw [hu, ← hn]
  unfold nonceOf nonceNow notedNonce
  cases hg : s.out.cur.accounts.get? a with
  | none => simp [hch]
  | some acc =>
    by_cases hz : acc.nonce = 0
    · simp [hz, hJ.2, hch]
    · simp [hz]

/-- **C19**: the nonce that a contract or the host is told is the one noted in the output, or else the one on the chain. -/
theorem c19_told {w0 : χ} (hK : KnownNonce E w0 a c) {s : St χ A} (hr : Reached E w0 s.world) (hv : s.flags.v3 = true) :
    (getNonce E a s).1 = .ok (nonceNow c s.out.cur a) := by
  rw [(getNonce_spec a s).1, known_nonce hK ⟨hr, hv⟩]

theorem noted_increase {w0 : χ} (hK : KnownNonce E w0 a c) {s : St χ A} (hJ : NonceState E w0 s) :
    notedNonce (increaseNonce E a s).out.cur a = nonceNow c s.out.cur a + 1 := by
  unfold notedNonce
  rw [increaseNonce_spec, if_pos rfl, known_nonce hK hJ]

theorem u64_succ {x : UInt64} (h : x.toNat + 1 < 2 ^ 64) : (x + 1).toNat = x.toNat + 1 ∧ x + 1 ≠ 0 := by
  have h1 : (x + 1).toNat = x.toNat + 1 := by
    rw [UInt64.toNat_add]
    exact Nat.mod_eq_of_lt h
  refine ⟨h1, fun h0 => ?_⟩
  rw [h0] at h1
  simp at h1

/-- the number of deployments, unless the nonce overflows -/
theorem _root_.Arwen.Spec.Deployments.count {w0 : χ} (hK : KnownNonce E w0 a c) {o o' : VMOutput} {k : Nat} (h : Deployments E w0 a c o k o') :
    (nonceNow c o a).toNat + k < 2 ^ 64 → (nonceNow c o' a).toNat = (nonceNow c o a).toNat + k ∧
      (notedNonce o a ≠ 0 → notedNonce o' a ≠ 0) := by
  induction h with
  | keep o o' h1 h2 => intro _; rw [h1]; exact ⟨rfl, h2⟩
  | deployed s o' hr hv h =>
    intro hlt
    have h1 : notedNonce o' a = nonceNow c s.out.cur a + 1 := by
      rw [← noted_increase hK ⟨hr, hv⟩]
      unfold notedNonce
      rw [h]
    obtain ⟨h2, h3⟩ := u64_succ hlt
    rw [← h1] at h2 h3
    refine ⟨?_, fun _ => h3⟩
    rw [nonceNow, if_neg h3, h2]
  | andThen o o1 o2 k l _ _ ih1 ih2 =>
    intro hlt
    obtain ⟨h1, h2⟩ := ih1 (by omega)
    obtain ⟨h3, h4⟩ := ih2 (by omega)
    exact ⟨by omega, fun h => h4 (h2 h)⟩
  | nested o o' k _ ih =>
    intro hlt
    obtain ⟨h1, h2⟩ := ih hlt
    have e1 : notedNonce o.censored a = notedNonce o a := rfl
    have e2 : nonceNow c o.censored a = nonceNow c o a := rfl
    rw [e1] at h2
    rw [e2] at h1
    have hm : notedNonce (mergeOut o o') a = if notedNonce o' a > notedNonce o a then notedNonce o' a else notedNonce o a := by
      unfold notedNonce
      rw [get_mergeOut]
      unfold nestedAcc
      cases o'.accounts.get? a with
      | none =>
        cases o.accounts.get? a with
        | none => rfl
        | some x =>
          dsimp only
          rw [if_neg]
          rw [gt_iff_lt, UInt64.lt_iff_toNat_lt]
          exact Nat.not_lt_zero _
      | some y => cases o.accounts.get? a <;> rfl
    by_cases hz : notedNonce o a = 0
    · have : notedNonce (mergeOut o o') a = notedNonce o' a := by
        rw [hm, hz]
        split
        · rfl
        · rename_i hng
          rw [gt_iff_lt, UInt64.lt_iff_toNat_lt] at hng
          have h0 : (0 : UInt64).toNat = 0 := rfl
          rw [← UInt64.toNat_inj]
          omega
      refine ⟨?_, fun h => absurd hz h⟩
      rw [← h1]
      unfold nonceNow
      rw [this]
    · have hz' := h2 hz
      have e3 : nonceNow c o' a = notedNonce o' a := if_neg hz'
      have e4 : nonceNow c o a = notedNonce o a := if_neg hz
      rw [e3, e4] at h1
      have : notedNonce (mergeOut o o') a = notedNonce o' a := by
        rw [hm]
        split
        · rfl
        · rename_i hng
          rw [gt_iff_lt, UInt64.lt_iff_toNat_lt] at hng
          rw [← UInt64.toNat_inj]
          omega
      rw [this]
      refine ⟨?_, fun _ => hz'⟩
      rw [e4, ← h1, nonceNow, this, if_neg hz']

/-! ### All changes of the output -/

theorem noted_put {o : VMOutput} {b : Addr} {acc acc' : OutAcc} (hg : o.accounts.get? b = some acc) (he : acc'.nonce = acc.nonce) (a : Addr) :
    notedNonce (o.put b acc') a = notedNonce o a := by
  unfold notedNonce
  rw [get_put]
  by_cases h : b = a
  · subst h; rw [if_pos rfl, hg]; exact he
  · rw [if_neg h]

theorem noted_put_other {o : VMOutput} {b : Addr} {acc' : OutAcc} {a : Addr} (h : b ≠ a) : notedNonce (o.put b acc') a = notedNonce o a := by
  unfold notedNonce
  rw [get_put, if_neg h]

theorem noted_modAcc (x : OutCtx) (b a : Addr) (f : OutAcc → OutAcc) (hf : ∀ x, (f x).nonce = x.nonce) :
    notedNonce (x.modAcc b f).cur a = notedNonce x.cur a := by
  unfold notedNonce
  rw [get_modAcc]
  by_cases h : b = a
  · subst h
    rw [if_pos rfl]
    dsimp only
    rw [hf]
    cases x.cur.accounts.get? b <;> rfl
  · rw [if_neg h]

theorem noted_map {o o' : VMOutput} (f : OutAcc → OutAcc) (hf : ∀ x, (f x).nonce = x.nonce)
    (h : o'.accounts.get? a = (o.accounts.get? a).map f) : notedNonce o' a = notedNonce o a := by
  unfold notedNonce
  rw [h]
  cases o.accounts.get? a with
  | none => rfl
  | some x => exact hf x

theorem noted_deploy (x : OutCtx) (d : CodeDeployInput) (a : Addr) : notedNonce (x.deployCode d).cur a = notedNonce x.cur a :=
  noted_modAcc x d.address a (fun acc => { acc with code := d.code, codeMetadata := d.metadata, deployer := some d.deployer }) (fun _ => rfl)

theorem deployments_move {w0 : χ} (hK : KnownNonce E w0 a c) {s : St χ A} (hJ : NonceState E w0 s) {o : VMOutput} (h : OutMove E s o) :
    ∃ k, Deployments E w0 a c s.out.cur k o := by
  obtain ⟨ua, hu, hn⟩ := hK.onChain s.world hJ.1
  have hacct : acctOf E s a = some ua := by unfold acctOf; rw [hu]
  cases h with
  | step _ h =>
    cases h with
    | touch b h0 =>
      refine ⟨0, .same ?_⟩
      unfold notedNonce
      rw [get_put]
      by_cases h : b = a
      · subst h; rw [if_pos rfl, h0]
      · rw [if_neg h]
    | cacheBal b acc ua hg h1 h2 => exact ⟨0, .same (noted_put hg (by rfl) a)⟩
    | cacheNonce b acc ub hg h1 h2 =>
      by_cases hb : b = a
      · subst hb
        rw [hacct] at h2
        cases h2
        have e0 : notedNonce s.out.cur b = 0 := by unfold notedNonce; rw [hg]; exact h1
        have e1 : notedNonce (s.out.cur.put b { acc with nonce := ua.nonce }) b = c := by
          unfold notedNonce; rw [get_put, if_pos rfl]; exact hn
        refine ⟨0, .keep _ _ ?_ (fun h => absurd e0 h)⟩
        unfold nonceNow
        rw [e0, e1, if_pos rfl]
        split
        · rfl
        · rfl
      · exact ⟨0, .same (noted_put_other hb)⟩
    | cacheCode b acc ua hg h1 h2 => exact ⟨0, .same (noted_put hg (by rfl) a)⟩
    | cacheSto b acc k hg h1 => exact ⟨0, .same (noted_put hg (by rfl) a)⟩
    | write acc k v old hg h1 h2 h3 h4 => exact ⟨0, .same (noted_put hg (by rfl) a)⟩
    | pay snd dst acc dacc v hs hd hv hc =>
      refine ⟨0, .same ?_⟩
      exact (noted_modAcc _ dst a _ (by intro _; rfl)).trans (noted_modAcc _ snd a _ (by intro _; rfl))
    | xfer dst acc t hg => exact ⟨0, .same (noted_put hg (by rfl) a)⟩
    | incNonce b acc i hc hg hz =>
      by_cases hb : b = a
      · subst hb
        refine ⟨1, .deployed s _ hJ.1 hJ.2 ?_⟩
        rw [get_put, if_pos rfl, increaseNonce_spec, if_pos rfl, known_nonce hK hJ, hg]
        have : acc.nonce = nonceNow c s.out.cur b := by
          unfold nonceNow notedNonce
          rw [hg]
          dsimp only
          by_cases h0 : acc.nonce = 0
          · rw [if_pos h0, h0, ← hn, hz h0 hJ.2 ua hacct]
          · rw [if_neg h0]
        dsimp only [Option.getD_some]
        rw [this]
      · exact ⟨0, .same (noted_put_other hb)⟩
    | gasUsed acc hg => exact ⟨0, .same (noted_put hg (by rfl) a)⟩
    | _ => exact ⟨0, .same rfl⟩
  | deploy d hd => exact ⟨0, .same (noted_deploy _ _ _)⟩
  | strip =>
    refine ⟨0, .same (noted_map (fun x => if a ∈ s.out.codeUpdates then x else { x with code := [], codeMetadata := [], deployer := none }) ?_ ?_)⟩
    · intro x; split <;> rfl
    · exact AMap.lookupL_mapKey (fun k (x : OutAcc) => if k ∈ s.out.codeUpdates then x else { x with code := [], codeMetadata := [], deployer := none }) _ a
  | used =>
    refine ⟨0, .same (noted_map (fun x => { x with gasUsed := (s.met.cur.gasUsedByAccounts.get? a).getD 0 }) (fun _ => rfl) ?_)⟩
    exact AMap.lookupL_mapKey (W := OutAcc) (fun k (x : OutAcc) => { x with gasUsed := (s.met.cur.gasUsedByAccounts.get? k).getD 0 }) s.out.cur.accounts.entries a
  | failUsed =>
    refine ⟨0, .same ?_⟩
    simp only [updateGasOnFailure]
    exact noted_modAcc _ _ a _ (by intro x; rfl)
  | _ => exact ⟨0, .same rfl⟩

theorem deployments_rel {w0 : χ} (hK : KnownNonce E w0 a c) :
    OutRel E (NonceState E w0) (fun o o' => ∃ k, Deployments E w0 a c o k o') where
  unary := nonceState_unary w0
  blind s o m hJ _ := hJ
  refl o := ⟨0, .same rfl⟩
  trans o o1 o2 h1 h2 := by
    obtain ⟨k, h1⟩ := h1
    obtain ⟨l, h2⟩ := h2
    exact ⟨k + l, .andThen o o1 o2 k l h1 h2⟩
  move s o hJ h := deployments_move hK hJ h
  delete s x b i hJ _ hd := by
    refine ⟨0, .same ?_⟩
    unfold notedNonce
    rw [get_deleteAcc, if_neg]
    rintro rfl
    obtain ⟨ua, hu, _⟩ := hK.onChain _ hJ.1
    exact hd.2 ua hu
  builtin s x i b hJ hb := by
    obtain ⟨b0, e0, hacc⟩ := hb.acc
    refine ⟨0, .same ?_⟩
    unfold notedNonce
    rw [get_addToActive]
    have h' := hacc a
    cases hgb : b.out.accounts.get? a with
    | none => rfl
    | some ra =>
      have hz : ra.nonce = 0 := by
        rw [hgb] at h'
        cases h0 : b0.out.accounts.get? a with
        | none => rw [h0] at h'; simp only [SameButTransfers] at h'; rw [h']
        | some acc0 =>
          rw [h0] at h'; simp only [SameButTransfers] at h'; rw [h']
          exact hK.builtin _ hJ.1 i b0 acc0 e0 h0
      cases x.accounts.get? a with
      | none => exact hz
      | some la =>
        show (if ra.nonce > la.nonce then ra.nonce else la.nonce) = la.nonce
        rw [if_neg]
        rw [hz, gt_iff_lt, UInt64.lt_iff_toNat_lt]
        exact Nat.not_lt_zero _
  nested x o h := by
    obtain ⟨k, h⟩ := h
    exact ⟨k, .nested x o k h⟩

/-- what `k` deployments mean for the nonce -/
def Raised (c : UInt64) (a : Addr) (o : VMOutput) (k : Nat) (o' : VMOutput) : Prop :=
  (nonceNow c o a).toNat + k < 2 ^ 64 → (nonceNow c o' a).toNat = (nonceNow c o a).toNat + k

/-- **C19** for code that runs, with all its nested calls: the nonce goes up by the number of deployments. -/
theorem c19_run_partial {w0 : χ} (hK : KnownNonce E w0 a c) (n : Nat) {s t : St χ A} (hr : Reached E w0 s.world) (hv : s.flags.v3 = true)
    (h : Run (StepB E (execN E n)) s t) : ∃ k, Deployments E w0 a c s.out.cur k t.out.cur ∧ Raised c a s.out.cur k t.out.cur := by
  obtain ⟨k, hk⟩ := (deployments_rel hK).run h ⟨hr, hv⟩
  exact ⟨k, hk, fun hlt => (hk.count hK hlt).1⟩

/-- **C19** for nested calls -/
theorem c19_dest_partial {w0 : χ} (hK : KnownNonce E w0 a c) (n : Nat) {s t : St χ A} (hr : Reached E w0 s.world) (hv : s.flags.v3 = true)
    {i : CallInput} {r : DestResult} (h : (execN E n).dest i s = (.ok r, t)) :
    ∃ k, Deployments E w0 a c s.out.cur k t.out.cur ∧ Raised c a s.out.cur k t.out.cur := by
  obtain ⟨k, hk⟩ := (deployments_rel hK).dest h ⟨hr, hv⟩
  exact ⟨k, hk, fun hlt => (hk.count hK hlt).1⟩

theorem c19_same_partial {w0 : χ} (hK : KnownNonce E w0 a c) (n : Nat) {s t : St χ A} (hr : Reached E w0 s.world) (hv : s.flags.v3 = true)
    {i : CallInput} {r : Option Err} (h : (execN E n).same i s = (.ok r, t)) :
    ∃ k, Deployments E w0 a c s.out.cur k t.out.cur ∧ Raised c a s.out.cur k t.out.cur := by
  obtain ⟨k, hk⟩ := (deployments_rel hK).same h ⟨hr, hv⟩
  exact ⟨k, hk, fun hlt => (hk.count hK hlt).1⟩

theorem newAddress_noted (s : St χ A) (b : Addr) : (newAddress E b s).2 = (getNonce E b s).2 := by
  unfold newAddress
  generalize getNonce E b s = q
  obtain ⟨r, t⟩ := q
  cases r <;> rfl

theorem getNonce_keeps {w0 : χ} (hK : KnownNonce E w0 a c) {s : St χ A} (hJ : NonceState E w0 s) (b : Addr) :
    Deployments E w0 a c s.out.cur 0 (getNonce E b s).2.out.cur := by
  by_cases hb : b = a
  · subst hb
    obtain ⟨acc, h1, h2⟩ := getNonce_acc (E := E) s b
    rw [(getNonce_spec b s).1, known_nonce hK hJ] at h2
    have h3 : notedNonce (getNonce E b s).2.out.cur b = nonceNow c s.out.cur b := by
      unfold notedNonce; rw [h1]; exact h2
    refine .keep _ _ ?_ (fun h => ?_)
    · rw [nonceNow, h3]
      by_cases h0 : nonceNow c s.out.cur b = 0
      · rw [if_pos h0, h0]
        unfold nonceNow at h0
        split at h0
        · exact h0
        · rename_i hne; exact absurd h0 hne
      · rw [if_neg h0]
    · rw [h3, nonceNow, if_neg h]; exact h
  · obtain ⟨_, _, _, _, n, h⟩ := getNonce_spec (E := E) b s
    refine .same ?_
    unfold notedNonce
    rw [h a, if_neg hb]

/-- **C19** for a deployment by a contract: when it succeeds it counts once for the account that deploys, for other accounts and
when it fails only the deployments made by the new contract's own code count. -/
theorem c19_create_partial {w0 : χ} (hK : KnownNonce E w0 a c) (n : Nat) {s t : St χ A} (hr : Reached E w0 s.world) (hv : s.flags.v3 = true)
    {i : CreateInput} {r : Except Err Addr} (h : createNewContract E (execN E n) i s = (.ok r, t)) :
    ∃ (u : VMOutput) (k : Nat), Deployments E w0 a c s.out.cur k u ∧ Raised c a s.out.cur k u ∧
      (r.isOk = true → i.vm.caller = a → nonceNow c u a ≠ 0xFFFFFFFFFFFFFFFF → nonceNow c t.out.cur a = nonceNow c u a + 1) ∧
      (r.isOk = false ∨ i.vm.caller ≠ a → nonceNow c t.out.cur a = nonceNow c u a) := by
  have fin : ∀ (u : VMOutput), (∃ k, Deployments E w0 a c s.out.cur k u) →
      (r.isOk = true → i.vm.caller = a → nonceNow c u a ≠ 0xFFFFFFFFFFFFFFFF → nonceNow c t.out.cur a = nonceNow c u a + 1) ∧
      (r.isOk = false ∨ i.vm.caller ≠ a → nonceNow c t.out.cur a = nonceNow c u a) →
      ∃ (u : VMOutput) (k : Nat), Deployments E w0 a c s.out.cur k u ∧ Raised c a s.out.cur k u ∧
      (r.isOk = true → i.vm.caller = a → nonceNow c u a ≠ 0xFFFFFFFFFFFFFFFF → nonceNow c t.out.cur a = nonceNow c u a + 1) ∧
      (r.isOk = false ∨ i.vm.caller ≠ a → nonceNow c t.out.cur a = nonceNow c u a) := by
    rintro u ⟨k, hk⟩ h
    exact ⟨u, k, hk, fun hlt => (hk.count hK hlt).1, h⟩
  cases createNewContract_stages h with
  | early m e => exact fin s.out.cur ⟨0, .same rfl⟩ ⟨fun h => (by cases h), fun _ => rfl⟩
  | refused m e =>
    refine fin _ ?_ ⟨fun h => (by cases h), fun _ => rfl⟩
    rw [newAddress_noted]
    exact ⟨0, getNonce_keeps hK (s := { s with met := m }) ⟨hr, hv⟩ _⟩
  | ran m addr s1 u _ q _ hn hex hro hd hend =>
    have hs1 : s1 = (getNonce E i.vm.caller { s with met := m }).2 := by
      rw [← newAddress_noted, hn]
    have hk1 := getNonce_keeps hK (s := { s with met := m }) ⟨hr, hv⟩ i.vm.caller
    have hJ1 : NonceState E w0 s1 := by
      obtain ⟨_, h2, h3, _⟩ := getNonce_spec (E := E) i.vm.caller { s with met := m }
      rw [← hs1] at h2 h3
      exact ⟨by rw [h2]; exact hr, by rw [h3]; exact hv⟩
    rw [← hs1] at hk1
    have hk2 : Deployments E w0 a c s.out.cur (0 + 0)
        (s1.out.deployCode { code := i.code, metadata := i.metadata, address := addr, deployer := i.vm.caller }).cur :=
      .andThen _ _ _ _ _ hk1 (.same (noted_deploy _ _ _))
    have hR := ((deployments_rel hK).binary.nested n).dest _ _ _ _ hd hJ1
    obtain ⟨hJu, k3, hk3⟩ := hR
    have hk := Deployments.andThen _ _ _ _ _ hk2 hk3
    rcases hend with ⟨e, _, rfl, rfl⟩ | ⟨_, rfl, rfl⟩
    · refine fin u.out.cur ⟨_, hk⟩ ⟨fun h => (by cases h), fun _ => ?_⟩
      have hne : addr ≠ a := by
        rintro rfl
        obtain ⟨ua, hu, _⟩ := hK.onChain s1.world hJ1.1
        unfold accountExists acctOf at hex
        rw [hu] at hex
        cases hex
      show nonceNow c (u.out.deleteAcc addr).cur a = _
      unfold nonceNow notedNonce
      rw [get_deleteAcc, if_neg hne]
    · refine fin u.out.cur ⟨_, hk⟩ ⟨fun _ hca hmax => ?_, fun h => ?_⟩
      · have h1 := noted_increase hK hJu
        rw [← hca] at h1 hmax ⊢
        have h2 : (nonceNow c u.out.cur i.vm.caller).toNat + 1 < 2 ^ 64 := by
          have h3 := (nonceNow c u.out.cur i.vm.caller).toNat_lt
          have h4 : (nonceNow c u.out.cur i.vm.caller).toNat ≠ 0xFFFFFFFFFFFFFFFF := fun h => hmax (UInt64.toNat_inj.mp h)
          omega
        rw [nonceNow, h1, if_neg (u64_succ h2).2]
      · rcases h with h | h
        · cases h
        · unfold nonceNow notedNonce
          rw [increaseNonce_spec, if_neg h]

/-! ### Transactions -/

theorem noted_addTxValue (x : OutCtx) (b : Addr) (v : Int) : notedNonce (x.addTxValue b v).cur a = notedNonce x.cur a :=
  noted_modAcc x b a _ (by intro _; rfl)

theorem nonceNow_congr {o o' : VMOutput} (h : notedNonce o' a = notedNonce o a) : nonceNow c o' a = nonceNow c o a := by
  unfold nonceNow; rw [h]

theorem txStart_nonce {s : St χ A} (hK : KnownNonce E s.world a c) (hv : (hostInit E s).flags.v3 = true) (tx : Tx) :
    nonceNow c (txStart E tx s).out.cur a = c ∧ NonceState E s.world (txStart E tx s) := by
  have hJ : NonceState E s.world (hostInit E s) := ⟨.start, hv⟩
  have h0 : nonceNow c (hostInit E s).out.cur a = c := by
    have : notedNonce (hostInit E s).out.cur a = 0 := rfl
    rw [nonceNow, if_pos this]
  cases tx with
  | call i =>
    refine ⟨?_, ⟨.start, hv⟩⟩
    show nonceNow c (enterCallState i (hostInit E s)).out.cur a = c
    have : (enterCallState i (hostInit E s)).out = (hostInit E s).out.addTxValue i.recipient i.vm.callValue := rfl
    rw [this]
    exact (nonceNow_congr (noted_addTxValue _ _ _)).trans h0
  | create i =>
    unfold txStart
    dsimp only
    cases (newAddress E i.vm.caller (hostInit E s)).1 with
    | error e => exact ⟨h0, hJ⟩
    | ok b =>
      dsimp only
      rw [newAddress_noted]
      obtain ⟨_, h2, h3, _⟩ := getNonce_spec (E := E) i.vm.caller (hostInit E s)
      have hk := (getNonce_keeps hK hJ i.vm.caller).count hK (by
        have := (nonceNow c (hostInit E s).out.cur a).toNat_lt
        omega)
      refine ⟨?_, ⟨?_, ?_⟩⟩
      · have : (enterCreateState i b (getNonce E i.vm.caller (hostInit E s)).2).out =
          (getNonce E i.vm.caller (hostInit E s)).2.out.addTxValue b i.vm.callValue := rfl
        rw [this]
        have h4 := UInt64.toNat_inj.mp hk.1
        rw [h0] at h4
        exact (nonceNow_congr (noted_addTxValue _ _ _)).trans h4
      · show Reached E s.world (getNonce E i.vm.caller (hostInit E s)).2.world
        rw [h2]; exact .start
      · show (getNonce E i.vm.caller (hostInit E s)).2.flags.v3 = true
        rw [h3]; exact hv

/-- **C19** for transactions: the nonce reported for an account is its nonce on the chain plus the number of its deployments (or
none is reported). It is thus never smaller than on the chain. -/
theorem c19_tx_partial (n : Nat) (tx : Tx) {s : St χ A} {o : VMOutput} (hr : AtRest E s) (hK : KnownNonce E s.world a c)
    (hv : (hostInit E s).flags.v3 = true) (h : Outputs E n tx s o) :
    ∃ (o0 : VMOutput) (k : Nat), nonceNow c o0 a = c ∧ Deployments E s.world a c o0 k o ∧ (c.toNat + k < 2 ^ 64 →
      ∀ acc, o.accounts.get? a = some acc → acc.nonce = 0 ∨ acc.nonce.toNat = c.toNat + k) := by
  obtain ⟨h0, hJ⟩ := txStart_nonce hK hv tx
  rcases (deployments_rel hK).tx (fun s d _ hI => hI) (fun s d _ _ => ⟨0, .same (noted_deploy _ _ _)⟩) n tx hr hJ h with ⟨e, w, rfl⟩ | ⟨k, hk⟩
  · refine ⟨_, 0, ?_, .same rfl, fun _ acc hg => ?_⟩
    · unfold nonceNow notedNonce
      rw [(onError_output e w).2.1]; rfl
    · rw [(onError_output e w).2.1] at hg; cases hg
  · refine ⟨_, k, h0, hk, fun hlt acc hg => ?_⟩
    have h1 := (hk.count hK (by rw [h0]; exact hlt)).1
    rw [h0] at h1
    by_cases hz : acc.nonce = 0
    · exact .inl hz
    · refine .inr ?_
      rw [← h1]
      unfold nonceNow notedNonce
      rw [hg]
      dsimp only
      rw [if_neg hz]

/-! ### Examples and violations -/

section
open Fixture

/-- deploys code [2], and writes a log when that succeeds -/
def loggedDep (k : P) : P :=
  .store 32 (List.replicate 32 0) <| .store 128 [2] <| .store 120 [7, 0] <|
    .call (.createContract 500 32 128 120 1 300 0 0 0) fun r => if r = 0 then log [1] k else k

/-- contract 100: `f` deploys three times, the second deployment fails; `h` deploys [4], whose `init` deploys [2] and then calls `k`
of contract 100, which fails to deploy [99] and deploys [5], whose `init` deploys [2] -/
def nonceMods : List (Bytes × WasmModule EeiCall) :=
  [([1], mod [(f, loggedDep <| create [99] [7, 0] 0 1000 <| loggedDep .ret), ([104], create [4] [7, 0] 0 30000 .ret),
      ([107], create [99] [7, 0] 0 1000 <| create [5] [7, 0] 0 5000 .ret)]),
   ([2], mod [(initName, .ret)]),
   ([4], mod [(initName, loggedDep <| callDest (addr 100) [107] 20000 .ret)]),
   ([5], mod [(initName, loggedDep .ret)])]
/-- contract 100 is on the chain with nonce 7 -/
def nonceHook : Hook World :=
  { goodHook with shardOf := fun _ _ => 0, userAccount := fun w a => if a = addr 100 then .ok (some { contract [1] with nonce := 7 }) else goodHook.userAccount w a }
def nonceEnv (v3 : Nat := 0) : Env World EeiCall := Env.real { envWith nonceMods with hook := nonceHook, v3Epoch := UInt32.ofNat v3 }
def nonceHost : St World EeiCall := host (node [])
/-- the contract that contract 100 deploys first -/
def nonceAddr : Addr := List.replicate 30 1 ++ [100, 107]

theorem nonce_chain (v3 : Nat) (w : World) : (nonceEnv v3).hook.userAccount w (addr 100) = .ok (some { contract [1] with nonce := 7 }) := by
  simp [nonceEnv, nonceHook, Env.real]

/-- the hypotheses of the theorems above -/
theorem nonce_known : KnownNonce (nonceEnv) nonceHost.world (addr 100) 7 where
  onChain w _ := ⟨{ contract [1] with nonce := 7 }, nonce_chain 0 w, rfl⟩
  builtin w _ i b acc h hg := by cases h; cases hg
example : AtRest nonceEnv nonceHost := ⟨.inl rfl, rfl, .inl rfl⟩
example : (hostInit nonceEnv nonceHost).flags.v3 = true := by decide +kernel

/-- two deployments of contract 100 succeed, one fails: its nonce goes from 7 to 9 -/
example : checkOut (runTx nonceEnv 5 (callTx (addr 1) (addr 100) f) nonceHost) (fun o => decide (o.returnCode = .ok ∧
    o.logs.length = 2 ∧ (o.accounts.get? (addr 100)).map OutAcc.nonce = some 9)) = true := by decide +kernel

/-- **C19** fails before version 3 is enabled: when an account is in the output already, its nonce on the chain is not looked up.
A contract with nonce 7 deploys two contracts, and its nonce is reported as 2. -/
theorem c19_neg : ∃ (E : Env World EeiCall) (n : Nat) (tx : Tx) (s : St World EeiCall) (o : VMOutput) (a : Addr) (ua : UserAcct) (acc : OutAcc),
    E.api = eei E ∧ AtRest E s ∧ Outputs E n tx s o ∧ o.returnCode = .ok ∧ (∀ w, E.hook.userAccount w a = .ok (some ua)) ∧
    o.accounts.get? a = some acc ∧ acc.nonce ≠ 0 ∧ acc.nonce < ua.nonce := by
  have h : checkOut (runTx (nonceEnv 5) 5 (callTx (addr 1) (addr 100) f) nonceHost) (fun o => decide (o.returnCode = .ok ∧
    (o.accounts.get? (addr 100)).any (fun acc => decide (acc.nonce = 2)) = true)) = true := by decide +kernel
  obtain ⟨o, h1, h2⟩ := checkOut_elim h
  obtain ⟨h2, h3⟩ := of_decide_eq_true h2
  cases hg : o.accounts.get? (addr 100) with
  | none => rw [hg] at h3; cases h3
  | some acc =>
    rw [hg] at h3
    have h4 : acc.nonce = 2 := of_decide_eq_true h3
    refine ⟨nonceEnv 5, 5, _, nonceHost, o, addr 100, { contract [1] with nonce := 7 }, acc, rfl, ⟨.inl rfl, rfl, .inl rfl⟩, h1, h2,
      nonce_chain 5, hg, ?_, ?_⟩
    · rw [h4]; decide
    · rw [h4]; decide

/-- **C19** fails for new contracts, also with version 3: a failing deployment by its creator takes away what is known about a new
contract. The account writes a log after each successful deployment, there are two, but its nonce is reported as 1. -/
theorem c19_new_neg : ∃ (E : Env World EeiCall) (n : Nat) (tx : Tx) (s : St World EeiCall) (o : VMOutput) (a : Addr) (acc : OutAcc),
    E.api = eei E ∧ AtRest E s ∧ (hostInit E s).flags.v3 = true ∧ Outputs E n tx s o ∧ o.returnCode = .ok ∧
    (o.logs.map LogEntry.address = [a, a]) ∧ o.accounts.get? a = some acc ∧ acc.nonce = 1 := by
  have h : checkOut (runTx (nonceEnv) 9 (callTx (addr 1) (addr 100) [104]) nonceHost) (fun o => decide (o.returnCode = .ok ∧
    o.logs.map LogEntry.address = [nonceAddr, nonceAddr] ∧
    (o.accounts.get? nonceAddr).any (fun acc => decide (acc.nonce = 1)) = true)) = true := by decide +kernel
  obtain ⟨o, h1, h2⟩ := checkOut_elim h
  obtain ⟨h2, h3, h4⟩ := of_decide_eq_true h2
  cases hg : o.accounts.get? nonceAddr with
  | none => rw [hg] at h4; cases h4
  | some acc =>
    rw [hg] at h4
    exact ⟨nonceEnv, 9, _, nonceHost, o, nonceAddr, acc, rfl, ⟨.inl rfl, rfl, .inl rfl⟩, by decide +kernel, h1, h2, h3, hg, of_decide_eq_true h4⟩
end

end Arwen.Props
