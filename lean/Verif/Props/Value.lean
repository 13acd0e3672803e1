import Verif.Host.AccInv
import Verif.Spec.Outcome
import Verif.Fixture
import Verif.Props.Gas
import Verif.Eei.Commands
/-
C15 (value is neither created nor destroyed), C16 (no account spends more than it has).
-/
namespace Arwen.Props
open Arwen Spec
variable {χ A : Type} {E : Env χ A}

/-! ### C15: single transfers -/

theorem change_getAcc (c : OutCtx) (a b : Addr) : change (c.getAcc a).2.2.cur b = change c.cur b := by
  unfold OutCtx.getAcc
  split
  · rfl
  · rename_i hn
    have := change_put c.cur a b {}
    unfold VMOutput.put at this
    rw [this]
    split
    · rename_i h; subst h; unfold change; rw [hn]; rfl
    · rfl

theorem getBalance_change (a b : Addr) (s : St χ A) : change (getBalance E a s).2.out.cur b = change s.out.cur b := by
  have h0 := change_getAcc s.out a b
  unfold getBalance
  have hacc := getAcc_fst s.out a
  have hg : (s.out.getAcc a).2.2.cur.accounts.get? a = some (s.out.getAcc a).1 := by
    unfold OutCtx.getAcc
    split
    · assumption
    · simp
  generalize s.out.getAcc a = q at h0 hg
  obtain ⟨acc, isNew, out'⟩ := q
  dsimp only at h0 hg ⊢
  split
  · exact h0
  · split
    · exact h0
    · rename_i ua _
      have := change_put out'.cur a b { acc with balance := some ua.balance }
      refine (Eq.trans ?_ this).trans ?_
      · rfl
      · split
        · rename_i h; subst h; rw [← h0]; unfold change; rw [hg]; rfl
        · exact h0

/-- A transfer that succeeds moves exactly its value from the sender to the receiver; one that fails moves nothing. -/
theorem c15_transfer (dst snd : Addr) (v : Int) (p : Bool) (s : St χ A) (b : Addr) :
    change (transferValueOnly E dst snd v p s).2.out.cur b =
      if (transferValueOnly E dst snd v p s).1 = none
      then change s.out.cur b - (if b = snd then v else 0) + (if b = dst then v else 0)
      else change s.out.cur b := by
  have hb := getBalance_change (E := E) snd b s
  unfold transferValueOnly
  split
  · rfl
  · generalize getBalance E snd s = q at hb
    obtain ⟨bal, t⟩ := q
    dsimp only at hb ⊢
    split
    · exact hb
    · split
      · exact hb
      · split
        · exact hb
        · dsimp only
          rw [if_pos rfl, change_modAcc _ dst b _ (fun d => d + v) (fun _ => rfl), change_modAcc _ snd b _ (fun d => d - v) (fun _ => rfl),
            change_getAcc, change_getAcc, hb]
          by_cases h1 : snd = b <;> by_cases h2 : dst = b
          · rw [if_pos h1, if_pos h2, if_pos h1.symm, if_pos h2.symm]
          · rw [if_pos h1, if_neg h2, if_pos h1.symm, if_neg (fun h => h2 h.symm)]; omega
          · rw [if_neg h1, if_pos h2, if_neg (fun h => h1 h.symm), if_pos h2.symm]; omega
          · rw [if_neg h1, if_neg h2, if_neg (fun h => h1 h.symm), if_neg (fun h => h2 h.symm)]; omega

/-! ### C15: whole transactions -/

/-- all accounts stay, and the total of changes is the same -/
def Conserved (c o : VMOutput) : Prop := KeysKept c o ∧ totalChange o = totalChange c

theorem payment_total {c o : VMOutput} {snd dst : Addr} {v : Int} (hk : KeysKept c o) (h : Payment c o snd dst v) :
    totalChange o = totalChange c := by
  obtain ⟨L, hL, hc⟩ := exists_cover o.accounts.keys
  have hcc : ∀ k ∈ c.accounts.keys, k ∈ L := fun k hk' => hc k (mem_keys.mpr (hk k (mem_keys.mp hk')))
  rw [total_cover o L hL hc, total_cover c L hL hcc, sumOver_congr L _ _ (fun k _ => h.change k), sumOver_add, sumOver_sub,
    sumOver_single L hL snd (hcc _ (mem_keys.mpr h.payer)), sumOver_single L hL dst (hcc _ (mem_keys.mpr h.payee))]
  omega

theorem move_total {s : St χ A} {o : VMOutput} (h : OutMove E s o) : totalChange o = totalChange s.out.cur := by
  rcases h.change with h1 | ⟨snd, dst, v, h1⟩
  · exact total_congr h1
  · exact payment_total h.keys h1

theorem total_addToActive (l : VMOutput) (b : BuiltinOutput) : totalChange (addToActive l b).1 = totalChange l + totalChange b.out := by
  obtain ⟨L, hL, hc⟩ := exists_cover ((addToActive l b).1.accounts.keys ++ (l.accounts.keys ++ b.out.accounts.keys))
  simp only [List.mem_append] at hc
  rw [total_cover _ L hL (fun k hk => hc k (.inl hk)), total_cover l L hL (fun k hk => hc k (.inr (.inl hk))),
    total_cover b.out L hL (fun k hk => hc k (.inr (.inr hk))), ← sumOver_add]
  exact sumOver_congr L _ _ (fun k _ => change_addToActive l b k)

theorem total_mergeOut {c o : VMOutput} (h : KeysKept c o) : totalChange (mergeOut c o) = totalChange o := by
  refine total_congr fun a => ?_
  rw [change_mergeOut]
  split
  · rfl
  · rename_i hn
    rw [change_absent hn, change_absent (fun hc => hn (h a hc))]

theorem deploy_change (c : OutCtx) (d : CodeDeployInput) (b : Addr) : change (c.deployCode d).cur b = change c.cur b :=
  change_modAcc_same c d.address b (fun acc => { acc with code := d.code, codeMetadata := d.metadata, deployer := some d.deployer })
    (fun _ => rfl)
theorem deploy_keys (c : OutCtx) (d : CodeDeployInput) : KeysKept c.cur (c.deployCode d).cur := by
  intro b hb
  have : (c.deployCode d).cur.accounts.get? b = (c.modAcc d.address (fun acc =>
    { acc with code := d.code, codeMetadata := d.metadata, deployer := some d.deployer })).cur.accounts.get? b := rfl
  rw [this, get_modAcc]
  split
  · rfl
  · exact hb

theorem conserved_rel (hB : FairBuiltins E) (hC : NoCreateApi E) : OutRel E (fun _ => True) Conserved where
  unary := unary_true
  blind _ _ _ _ _ := trivial
  refl o := ⟨fun _ h => h, rfl⟩
  trans a b c h1 h2 := ⟨h1.1.trans h2.1, h2.2.trans h1.2⟩
  move s o _ h := ⟨h.keys, move_total h⟩
  delete s c a i _ h _ := absurd h (hC i)
  builtin s c i b _ hb := by
    exact ⟨keys_addToActive c b, by rw [total_addToActive, hb.total hB]; omega⟩
  nested c o h := by
    have hk : KeysKept c o := h.1
    exact ⟨(keys_mergeOut c o).1, (total_mergeOut hk).trans h.2⟩

theorem total_empty : totalChange ({} : VMOutput) = 0 := rfl

theorem total_addTxValue (c : OutCtx) (a : Addr) (v : Int) : totalChange (c.addTxValue a v).cur = totalChange c.cur + v := by
  have hk : KeysKept c.cur (c.addTxValue a v).cur := by
    intro b hb
    unfold OutCtx.addTxValue
    rw [get_modAcc]
    split
    · rfl
    · exact hb
  have ha : ((c.addTxValue a v).cur.accounts.get? a).isSome := by
    unfold OutCtx.addTxValue
    rw [get_modAcc, if_pos rfl]; rfl
  obtain ⟨L, hL, hc⟩ := exists_cover (c.addTxValue a v).cur.accounts.keys
  have hcc : ∀ k ∈ c.cur.accounts.keys, k ∈ L := fun k hk' => hc k (mem_keys.mpr (hk k (mem_keys.mp hk')))
  rw [total_cover _ L hL hc, total_cover c.cur L hL hcc]
  conv => rhs; rw [← sumOver_single L hL a (hc _ (mem_keys.mpr ha)) v]
  rw [← sumOver_add]
  refine sumOver_congr L _ _ fun k _ => ?_
  unfold OutCtx.addTxValue
  rw [change_modAcc _ a k _ (fun d => d + v) (fun _ => rfl)]
  by_cases hk : a = k
  · rw [if_pos hk, if_pos hk.symm]
  · rw [if_neg hk, if_neg (fun h => hk h.symm)]; omega

theorem getNonce_change (a b : Addr) (s : St χ A) : change (getNonce E a s).2.out.cur b = change s.out.cur b := by
  have h0 := change_getAcc s.out a b
  have hg : (s.out.getAcc a).2.2.cur.accounts.get? a = some (s.out.getAcc a).1 := by
    unfold OutCtx.getAcc
    split
    · assumption
    · simp
  unfold getNonce
  generalize s.out.getAcc a = q at h0 hg
  obtain ⟨acc, isNew, out'⟩ := q
  dsimp only at h0 hg ⊢
  split
  · exact h0
  · split
    · exact h0
    · exact h0
    · rename_i ua _
      have := change_put out'.cur a b { acc with nonce := ua.nonce }
      refine (Eq.trans ?_ this).trans ?_
      · rfl
      · split
        · rename_i h; subst h; rw [← h0]; unfold change; rw [hg]; rfl
        · exact h0

theorem newAddress_change (a b : Addr) (s : St χ A) : change (newAddress E a s).2.out.cur b = change s.out.cur b := by
  have h0 := getNonce_change (E := E) a b s
  unfold newAddress
  generalize getNonce E a s = q at h0
  obtain ⟨r, t⟩ := q
  cases r <;> exact h0

/-- when a transaction starts, no change is negative -/
theorem txStart_nonneg (tx : Tx) (s : St χ A) (hv : 0 ≤ txValue tx) (b : Addr) : 0 ≤ change (txStart E tx s).out.cur b := by
  have key : ∀ (c : OutCtx) (a : Addr), (∀ b, change c.cur b = 0) → 0 ≤ change (c.addTxValue a (txValue tx)).cur b := by
    intro c a h
    unfold OutCtx.addTxValue
    rw [change_modAcc _ a b _ (fun d => d + txValue tx) (fun _ => rfl), h b]
    split <;> omega
  cases tx with
  | call i => exact key (hostInit E s).out i.recipient (fun _ => rfl)
  | create i =>
    have h1 : ∀ b, change (newAddress E i.vm.caller (hostInit E s)).2.out.cur b = 0 := fun b => newAddress_change i.vm.caller b (hostInit E s)
    unfold txStart
    dsimp only
    split
    · exact Int.le_refl _
    · rename_i a _
      exact key (newAddress E i.vm.caller (hostInit E s)).2.out a h1

/-- when a transaction starts, the only change is the value that comes with it -/
theorem txStart_total (tx : Tx) (s : St χ A) (hc : HasAddress E tx s) : totalChange (txStart E tx s).out.cur = txValue tx := by
  have h0 : totalChange (hostInit E s).out.cur = 0 := rfl
  cases tx with
  | call i =>
    have : totalChange (txStart E (.call i) s).out.cur = totalChange (hostInit E s).out.cur + i.vm.callValue := total_addTxValue _ _ _
    rw [this, h0]; simp [txValue]
  | create i =>
    obtain ⟨a, ha⟩ := hc i rfl
    have h1 : totalChange (newAddress E i.vm.caller (hostInit E s)).2.out.cur = 0 :=
      (total_congr (newAddress_change i.vm.caller · (hostInit E s))).trans h0
    simp only [txStart, ha]
    generalize (newAddress E i.vm.caller (hostInit E s)).2 = w at h1
    have : totalChange (enterCreateState i a w).out.cur = totalChange w.out.cur + i.vm.callValue := total_addTxValue _ _ _
    rw [this, h1]; simp [txValue]

theorem hasAddress_of_ok {n : Nat} {tx : Tx} {s : St χ A} {o : VMOutput} (h : Outputs E n tx s o) (hok : o.returnCode = .ok) :
    HasAddress E tx s := by
  intro i hi
  subst hi
  cases hn : (newAddress E i.vm.caller (hostInit E s)).1 with
  | ok a => exact ⟨a, rfl⟩
  | error e =>
    obtain ⟨e, w, rfl⟩ := create_error hn h
    exact absurd hok (onError_output e w).1

/-- **C15**, without deployments by contracts: when a transaction succeeds, the balance changes add up to the value that came
with it, whatever transfers and nested calls were made. (A failed transaction reports no changes: C14.) -/
theorem c15_tx_partial (hB : FairBuiltins E) (hC : NoCreateApi E) (n : Nat) (tx : Tx) {s : St χ A} {o : VMOutput} (hr : AtRest E s)
    (h : Outputs E n tx s o) (hok : o.returnCode = .ok) : totalChange o = txValue tx := by
  rcases (conserved_rel hB hC).tx (fun _ _ _ _ => trivial) (fun s d _ _ => ⟨deploy_keys s.out d, total_congr (deploy_change s.out d)⟩) n tx hr trivial h with ⟨e, w, rfl⟩ | h1
  · exact absurd hok (onError_output e w).1
  · rw [h1.2, txStart_total tx s (hasAddress_of_ok h hok)]

/-! ### C15 with deployments: value is never created -/

section
variable {w0 : χ}

/-- nothing is known to be owned at new addresses, and nothing was taken from there -/
def NewUnspent (E : Env χ A) (w0 : χ) (c : VMOutput) : Prop :=
  ∀ a acc, Deployable E w0 a → c.accounts.get? a = some acc → acc.balance = none ∧ 0 ≤ acc.balanceDelta

open Classical in
/-- the change of an account; at a new address the larger one of the changes before and after -/
noncomputable def worth (E : Env χ A) (w0 : χ) (c o : VMOutput) (k : Addr) : Int :=
  if Deployable E w0 k then max (change c k) (change o k) else change o k

/-- Nothing is created between two outputs: even if what is lost at new addresses reappears. -/
def NothingCreated (E : Env χ A) (w0 : χ) (c o : VMOutput) : Prop :=
  NewUnspent E w0 c → NewUnspent E w0 o ∧ (∀ b, ¬ Deployable E w0 b → (c.accounts.get? b).isSome → (o.accounts.get? b).isSome) ∧
    ∃ L0 : List Addr, ∀ L : List Addr, L.Nodup → (∀ k ∈ L0, k ∈ L) → sumOver L (worth E w0 c o) ≤ sumOver L (change c)

theorem NewUnspent.nonneg {c : VMOutput} (h : NewUnspent E w0 c) {a : Addr} (ha : Deployable E w0 a) : 0 ≤ change c a := by
  unfold change
  cases hg : c.accounts.get? a with
  | none => exact Int.le_refl _
  | some acc => exact (h a acc ha hg).2

theorem newUnspent_move (hN : NewStaysNew E w0) {s : St χ A} {o : VMOutput} (hJ : Reached E w0 s.world) (h : OutMove E s o)
    (hP : NewUnspent E w0 s.out.cur) :
    NewUnspent E w0 o := by
  intro a acc ha hg
  obtain ⟨x, h1, h2⟩ := h.acc a
  rw [hg] at h2
  have hno : acctOf E s a = none := by
    unfold acctOf
    split
    · rename_i ua hu; exact absurd hu (hN.none a ha s.world hJ ua)
    · rfl
  have key : ∀ x y, AccMove E s a x y → (∀ acc, x = some acc → acc.balance = none ∧ 0 ≤ acc.balanceDelta) →
      ∀ acc, y = some acc → acc.balance = none ∧ 0 ≤ acc.balanceDelta := by
    intro x y hm hx acc hy
    cases hm with
    | same => exact hx acc hy
    | new => cases hy; exact ⟨rfl, Int.le_refl _⟩
    | gasNew => cases hy; exact ⟨rfl, Int.le_refl _⟩
    | bal _ ua _ hc => rw [hno] at hc; cases hc
    | pay acc' v hv hc =>
      cases hy
      obtain ⟨h3, h4⟩ := hx acc' rfl
      rw [h3] at hc
      have hc : v = 0 := hc
      refine ⟨h3, ?_⟩
      subst hc
      show 0 ≤ acc'.balanceDelta - 0
      omega
    | get acc' v hv =>
      cases hy
      obtain ⟨h3, h4⟩ := hx acc' rfl
      refine ⟨h3, ?_⟩
      show 0 ≤ acc'.balanceDelta + v
      omega
    | deploy x d hd _ =>
      cases hy
      cases x with
      | none => exact ⟨rfl, Int.le_refl _⟩
      | some acc' => exact hx acc' rfl
    | _ => cases hy; have := hx _ rfl; exact this
  exact key _ _ h2 (key _ _ h1 (fun acc h => hP a acc ha h)) acc rfl

theorem deploy_unspent (s : St χ A) (d : CodeDeployInput) (hP : NewUnspent E w0 s.out.cur) : NewUnspent E w0 (s.out.deployCode d).cur := by
  intro a acc ha hg
  have : (s.out.deployCode d).cur.accounts.get? a = (s.out.modAcc d.address (fun acc =>
    { acc with code := d.code, codeMetadata := d.metadata, deployer := some d.deployer })).cur.accounts.get? a := rfl
  rw [this, get_modAcc] at hg
  split at hg
  · rename_i hd
    subst hd
    cases hg
    cases hx : s.out.cur.accounts.get? d.address with
    | none => exact ⟨rfl, Int.le_refl _⟩
    | some acc => exact hP _ acc ha hx
  · exact hP a acc ha hg

theorem worth_same {c o : VMOutput} (h : ∀ b, change o b = change c b) : worth E w0 c o = change c := by
  funext k
  unfold worth
  rw [h]
  split
  · omega
  · rfl

theorem worth_trans (a b c : VMOutput) (k : Addr) : worth E w0 a c k ≤ worth E w0 b c k + (worth E w0 a b k - change b k) := by
  unfold worth
  split <;> omega

theorem nothingCreated_rel (hB : FairBuiltins E) (hN : NewStaysNew E w0) : OutRel E (fun s => Reached E w0 s.world) (NothingCreated E w0) where
  unary := reached_unary w0
  blind _ _ _ h _ := h
  refl o hP := ⟨hP, fun _ _ h => h, [], fun L _ _ => by rw [worth_same (fun _ => rfl)]; exact Int.le_refl _⟩
  trans a b c h1 h2 hP := by
    obtain ⟨hb, k1, L1, h1⟩ := h1 hP
    obtain ⟨hc, k2, L2, h2⟩ := h2 hb
    refine ⟨hc, fun x hx h => k2 x hx (k1 x hx h), L1 ++ L2, fun L hL hk => ?_⟩
    have g1 := h1 L hL (fun k h => hk k (List.mem_append_left _ h))
    have g2 := h2 L hL (fun k h => hk k (List.mem_append_right _ h))
    have g3 := sumOver_le L _ _ (fun k _ => worth_trans (E := E) (w0 := w0) a b c k)
    rw [sumOver_add, sumOver_sub] at g3
    omega
  move s o hJ h hP := by
    refine ⟨newUnspent_move hN hJ h hP, fun b _ hb => h.keys b hb, o.accounts.keys, fun L hL hk => ?_⟩
    rcases h.change with h1 | ⟨snd, dst, v, h1⟩
    · rw [worth_same h1]; exact Int.le_refl _
    · have hcc : ∀ k ∈ s.out.cur.accounts.keys, k ∈ L := fun k hk' => hk k (mem_keys.mpr (h.keys k (mem_keys.mp hk')))
      have ht := payment_total h.keys h1
      rw [total_cover o L hL hk, total_cover _ L hL hcc] at ht
      rw [← ht]
      refine sumOver_le L _ _ fun k _ => ?_
      unfold worth
      split
      · rename_i hd
        have h2 := h1.change k
        have hv := h1.nonneg
        have h3 : k = snd → v = 0 := by
          intro hks
          subst hks
          cases hg : s.out.cur.accounts.get? k with
          | none => have := h1.payer; rw [hg] at this; cases this
          | some acc =>
            have h4 := h1.cover
            rw [hg] at h4
            simp only [Option.bind_some, (hP k acc hd hg).1] at h4
            exact h4
        by_cases hs : k = snd
        · rw [h3 hs] at h2; simp only [ite_self] at h2; omega
        · rw [if_neg hs] at h2
          split at h2 <;> omega
      · exact Int.le_refl _
  delete s c a i hJ _ ha hP := by
    have ha := ha.deployable hJ
    have hch : ∀ b, change (c.deleteAcc a).cur b = if a = b then 0 else change c.cur b := by
      intro b
      unfold change OutCtx.deleteAcc
      dsimp only
      rw [AMap.get?_erase]
      split <;> rfl
    have hget : ∀ b, (c.deleteAcc a).cur.accounts.get? b = if a = b then none else c.cur.accounts.get? b := fun b => AMap.get?_erase _ _ _
    refine ⟨fun b acc hb hg => ?_, fun b hb hg => ?_, [], fun L _ _ => ?_⟩
    · rw [hget] at hg
      split at hg
      · cases hg
      · exact hP b acc hb hg
    · rw [hget, if_neg (fun h : a = b => hb (h ▸ ha))]; exact hg
    · refine sumOver_le L _ _ fun k _ => ?_
      unfold worth
      rw [hch]
      split
      · rename_i hd
        have := hP.nonneg hd
        split <;> omega
      · rename_i hd
        rw [if_neg (fun h : a = k => hd (h ▸ ha))]; exact Int.le_refl _
  builtin s c i b hJ hb hP := by
    have ht := hb.total hB
    obtain ⟨b0, e0, hacc⟩ := hb.acc
    have hnn : ∀ a acc, Deployable E w0 a → b.out.accounts.get? a = some acc → acc.balance = none ∧ 0 ≤ acc.balanceDelta := by
      intro a acc ha hg
      have h := hacc a
      rw [hg] at h
      cases h0 : b0.out.accounts.get? a with
      | none => rw [h0] at h; simp only [SameButTransfers] at h; rw [h]; exact ⟨rfl, Int.le_refl _⟩
      | some acc0 =>
        rw [h0] at h
        simp only [SameButTransfers] at h
        rw [h]
        exact hN.builtin s.world hJ i b0 a acc0 e0 ha h0
    refine ⟨fun a acc ha hg => ?_, fun k _ hk => keys_addToActive c b k hk, (addToActive c b).1.accounts.keys ++
      (c.accounts.keys ++ b.out.accounts.keys), fun L hL hk => ?_⟩
    · rw [get_addToActive] at hg
      cases hgb : b.out.accounts.get? a with
      | none => rw [hgb] at hg; exact hP a acc ha hg
      | some ra =>
        rw [hgb] at hg
        obtain ⟨h1, h2⟩ := hnn a ra ha hgb
        have hg := Option.some.inj hg
        subst hg
        cases hgc : c.accounts.get? a with
        | none => exact ⟨h1, h2⟩
        | some la =>
          obtain ⟨h3, h4⟩ := hP a la ha hgc
          refine ⟨?_, ?_⟩
          · simp [builtinAcc, mergeAcc, h1, h3]
          · simp only [builtinAcc, mergeAcc]; omega
    · simp only [List.mem_append] at hk
      have e := total_addToActive c b
      rw [ht, total_cover _ L hL (fun k h => hk k (.inl h)), total_cover c L hL (fun k h => hk k (.inr (.inl h)))] at e
      have : sumOver L (worth E w0 c (addToActive c b).1) ≤ sumOver L (change (addToActive c b).1) := by
        refine sumOver_le L _ _ fun k _ => ?_
        unfold worth
        rw [change_addToActive]
        split
        · rename_i hd
          have : 0 ≤ change b.out k := by
            unfold change
            cases hg : b.out.accounts.get? k with
            | none => exact Int.le_refl _
            | some acc => exact (hnn k acc hd hg).2
          omega
        · exact Int.le_refl _
      omega
  nested c o h hP := by
    obtain ⟨h1, h2, L0, h3⟩ := h hP
    refine ⟨fun a acc ha hg => ?_, fun b _ hb => (keys_mergeOut c o).1 b hb, L0, fun L hL hk => ?_⟩
    · rw [get_mergeOut] at hg
      cases ho : o.accounts.get? a with
      | none => rw [ho] at hg; exact hP a acc ha hg
      | some x =>
        rw [ho] at hg
        have hg := Option.some.inj hg
        subst hg
        obtain ⟨g1, g2⟩ := h1 a x ha ho
        refine ⟨?_, g2⟩
        simp only [mergeAcc, g1]
        cases hc : c.accounts.get? a with
        | none => rfl
        | some y => exact (hP a y ha hc).1
    · refine Int.le_trans (sumOver_le L _ _ fun k _ => ?_) (h3 L hL hk)
      have ec : change c.censored k = change c k := rfl
      unfold worth
      rw [change_mergeOut, ec]
      split
      · rename_i hd
        split
        · exact Int.le_refl _
        · omega
      · rename_i hd
        split
        · exact Int.le_refl _
        · rename_i hn
          have : ¬ (c.accounts.get? k).isSome := fun hc => hn (h2 k hd hc)
          rw [change_absent this, change_absent hn]
          exact Int.le_refl _

end

/-- **C15**, with deployments: the balance changes reported by a successful transaction never add up to more than the value that
came with it. -/
theorem c15_no_creation {s : St χ A} (hB : FairBuiltins E) (hN : NewStaysNew E s.world) (n : Nat) (tx : Tx) {o : VMOutput} (hr : AtRest E s)
    (hv : 0 ≤ txValue tx) (h : Outputs E n tx s o) (hok : o.returnCode = .ok) : totalChange o ≤ txValue tx := by
  rcases (nothingCreated_rel hB hN).tx (fun _ _ _ h => h) (fun s d _ _ hP => ⟨deploy_unspent s d hP, fun b _ hb => deploy_keys s.out d b hb, [],
    fun L _ _ => by rw [worth_same (deploy_change s.out d)]; exact Int.le_refl _⟩) n tx hr (by rw [txStart_world]; exact .start) h with ⟨e, w, rfl⟩ | h1
  · exact absurd hok (onError_output e w).1
  · have h0 : NewUnspent E s.world (txStart E tx s).out.cur := by
      intro a acc _ hg
      have h2 := txStart_nonneg (E := E) tx s hv a
      obtain ⟨m, d, rfl⟩ := (txStart_started (E := E) tx s).accounts a acc hg
      unfold change at h2
      rw [hg] at h2
      exact ⟨rfl, h2⟩
    obtain ⟨_, _, L0, h2⟩ := h1 h0
    obtain ⟨L, hL, hc⟩ := exists_cover (L0 ++ (o.accounts.keys ++ (txStart E tx s).out.cur.accounts.keys))
    simp only [List.mem_append] at hc
    have h3 := h2 L hL (fun k hk => hc k (.inl hk))
    rw [← txStart_total tx s (hasAddress_of_ok h hok), total_cover o L hL (fun k hk => hc k (.inr (.inl hk))),
      total_cover _ L hL (fun k hk => hc k (.inr (.inr hk)))]
    refine Int.le_trans (sumOver_le L _ _ fun k _ => ?_) h3
    unfold worth
    split <;> omega

/-! ### C16 -/

theorem getBalance_run (a : Addr) (s : St χ A) : getBalance E a s =
    match s.out.cur.accounts.get? a with
    | none => (match acctOf E s a with
      | none => (0, { s with out := (s.out.getAcc a).2.2 })
      | some ua => (ua.balance, { s with out := (s.out.getAcc a).2.2.setAcc a { balance := some ua.balance } }))
    | some acc => (match acc.balance with
      | some b => (b + acc.balanceDelta, s)
      | none => (match acctOf E s a with
        | none => (0, s)
        | some ua => (ua.balance + acc.balanceDelta, { s with out := s.out.setAcc a { acc with balance := some ua.balance } }))) := by
  unfold getBalance OutCtx.getAcc
  cases hg : s.out.cur.accounts.get? a with
  | none => cases acctOf E s a <;> rfl
  | some acc =>
    simp only [Bool.false_eq_true, if_false]
    cases hb : acc.balance with
    | some b => rfl
    | none => cases acctOf E s a <;> rfl

theorem known_eq (s : St χ A) (a : Addr) : known E s a =
    match (s.out.cur.accounts.get? a).bind OutAcc.balance with
    | some b => some b
    | none => (acctOf E s a).map UserAcct.balance := by
  unfold known acctOf
  cases (s.out.cur.accounts.get? a).bind OutAcc.balance with
  | some b => rfl
  | none =>
    cases E.hook.userAccount s.world a with
    | error e => rfl
    | ok x => cases x <;> rfl

/-- what is known stays known when an account is noted with its balance on the chain, or without one -/
theorem known_put {s t : St χ A} {a : Addr} {acc : OutAcc} (hw : t.world = s.world) (hc : t.out.cur = s.out.cur.put a acc)
    (hb : match acc.balance with
      | some b => known E s a = some b
      | none => (s.out.cur.accounts.get? a).bind OutAcc.balance = none) (b : Addr) : known E t b = known E s b := by
  have ha : acctOf E t b = acctOf E s b := by unfold acctOf; rw [hw]
  rw [known_eq t, known_eq s b, ha, hc, get_put]
  by_cases hab : a = b
  · subst hab
    rw [if_pos rfl]
    simp only [Option.bind_some]
    cases hx : acc.balance with
    | none => rw [hx] at hb; rw [show (s.out.cur.accounts.get? a).bind OutAcc.balance = none from hb]
    | some v => rw [hx] at hb; rw [← known_eq]; exact hb.symm
  · rw [if_neg hab]

/-- The balance read by contracts is the specified one, and reading it changes no balance. -/
theorem c16_balance (a : Addr) (s : St χ A) : (getBalance E a s).1 = balance E s a ∧
    ∀ b, balance E (getBalance E a s).2 b = balance E s b := by
  have key : ∀ t : St χ A, getBalance E a s = (balance E s a, t) → (∀ b, known E t b = known E s b) →
      (getBalance E a s).1 = balance E s a ∧ ∀ b, balance E (getBalance E a s).2 b = balance E s b := by
    intro t h1 h2
    refine ⟨by rw [h1], fun b => ?_⟩
    unfold balance
    rw [getBalance_change]
    rw [h1]
    dsimp only
    rw [h2]
  have hk := known_eq (E := E) s a
  have hr := getBalance_run (E := E) a s
  cases hg : s.out.cur.accounts.get? a with
  | none =>
    have hch : change s.out.cur a = 0 := by unfold change; rw [hg]; rfl
    have e1 : (s.out.getAcc a).2.2.cur = s.out.cur.put a {} := by unfold OutCtx.getAcc; rw [hg]; rfl
    rw [hg] at hk hr
    cases ha : acctOf E s a with
    | none =>
      rw [ha] at hk hr
      have hk : known E s a = none := hk
      have hr' : getBalance E a s = (balance E s a, { s with out := (s.out.getAcc a).2.2 }) := by unfold balance; rw [hk]; exact hr
      refine key _ hr' (known_put (acc := {}) rfl e1 ?_)
      simp only [hg]
      rfl
    | some ua =>
      rw [ha] at hk hr
      have hk : known E s a = some ua.balance := hk
      have hr' : getBalance E a s = (balance E s a, { s with out := (s.out.getAcc a).2.2.setAcc a { balance := some ua.balance } }) := by
        unfold balance; rw [hk, hch]; simpa using hr
      refine key _ hr' (known_put (a := a) (acc := { balance := some ua.balance }) rfl ?_ ?_)
      · unfold OutCtx.setAcc
        dsimp only
        rw [e1]
        unfold VMOutput.put
        simp only [AMap.insert_insert]
      · exact hk
  | some acc =>
    have hch : change s.out.cur a = acc.balanceDelta := by unfold change; rw [hg]; rfl
    rw [hg] at hk hr
    cases hb : acc.balance with
    | some b =>
      simp only [hb, Option.bind_some] at hk hr
      exact key _ (by unfold balance; rw [hk, hch]; exact hr) (fun _ => rfl)
    | none =>
      simp only [hb, Option.bind_some] at hk hr
      cases ha : acctOf E s a with
      | none =>
        rw [ha] at hk hr
        have hk : known E s a = none := hk
        exact key _ (by unfold balance; rw [hk]; exact hr) (fun _ => rfl)
      | some ua =>
        rw [ha] at hk hr
        have hk : known E s a = some ua.balance := hk
        have hr' : getBalance E a s = (balance E s a, { s with out := s.out.setAcc a { acc with balance := some ua.balance } }) := by
          unfold balance; rw [hk, hch]; exact hr
        exact key _ hr' (known_put (acc := { acc with balance := some ua.balance }) rfl rfl hk)

/-- **C16**, single transfers: a transfer succeeds only if the sender's balance, with all earlier changes, covers it. -/
theorem c16_transfer (dst snd : Addr) (v : Int) (p : Bool) (s : St χ A)
    (h : (transferValueOnly E dst snd v p s).1 = none) : 0 ≤ v ∧ v ≤ balance E s snd := by
  rw [← (c16_balance (E := E) snd s).1]
  unfold transferValueOnly at h
  split at h
  · cases h
  · rename_i hv
    generalize getBalance E snd s = q at h
    obtain ⟨bal, t⟩ := q
    dsimp only at h ⊢
    split at h
    · cases h
    · omega

/-- an account that owes nothing -/
def _root_.Arwen.OutAcc.Covered (acc : OutAcc) : Prop :=
  match acc.balance with
  | some b => 0 ≤ b ∧ 0 ≤ b + acc.balanceDelta
  | none => 0 ≤ acc.balanceDelta
/-- no account owes anything -/
def Covered (c : VMOutput) : Prop := ∀ a acc, c.accounts.get? a = some acc → acc.Covered

theorem covered_move (hS : Solvent E) {s : St χ A} {b : Addr} {x y : Option OutAcc} (h : AccMove E s b x y)
    (hx : ∀ acc, x = some acc → acc.Covered) : ∀ acc, y = some acc → acc.Covered := by
  intro acc hy
  cases h with
  | same => exact hx acc hy
  | new => cases hy; exact Int.le_refl _
  | gasNew => cases hy; exact Int.le_refl _
  | bal acc' ua hn hc =>
    cases hy
    have h1 := hx acc' rfl
    unfold OutAcc.Covered at h1 ⊢
    rw [hn] at h1
    have h1 : 0 ≤ acc'.balanceDelta := h1
    have h2 : 0 ≤ ua.balance := by
      unfold acctOf at hc
      split at hc
      · rename_i ua' hu; cases hc; exact hS.chain _ _ _ hu
      · cases hc
    exact ⟨h2, by show 0 ≤ ua.balance + acc'.balanceDelta; omega⟩
  | pay acc' v hv hc =>
    cases hy
    have h1 := hx acc' rfl
    unfold OutAcc.Covered at h1 ⊢
    dsimp only
    split at h1
    · rename_i bal hb
      rw [hb] at hc
      have hc : v ≤ bal + acc'.balanceDelta := hc
      exact ⟨h1.1, by omega⟩
    · rename_i hb
      rw [hb] at hc
      have hc : v = 0 := hc
      omega
  | get acc' v hv =>
    cases hy
    have h1 := hx acc' rfl
    unfold OutAcc.Covered at h1 ⊢
    dsimp only
    split at h1
    · exact ⟨h1.1, by omega⟩
    · omega
  | deploy x d hd _ =>
    cases hy
    cases x with
    | none => exact Int.le_refl _
    | some acc' => exact hx acc' rfl
  | _ => cases hy; have := hx _ rfl; exact this

theorem covered_merge {l r : OutAcc} (hl : l.Covered) (hr : r.Covered) : (mergeAcc l r).Covered := by
  unfold OutAcc.Covered at *
  simp only [mergeAcc]
  cases hb : r.balance with
  | some b => rw [hb] at hr; exact hr
  | none =>
    rw [hb] at hr
    have hr : 0 ≤ r.balanceDelta := hr
    dsimp only
    split
    · rename_i b h
      rw [h] at hl
      have := hl.1
      exact ⟨this, by omega⟩
    · exact hr

theorem deploy_covered (s : St χ A) (d : CodeDeployInput) (hP : Covered s.out.cur) : Covered (s.out.deployCode d).cur := by
  intro a acc hg
  have : (s.out.deployCode d).cur.accounts.get? a = (s.out.modAcc d.address (fun acc =>
    { acc with code := d.code, codeMetadata := d.metadata, deployer := some d.deployer })).cur.accounts.get? a := rfl
  rw [this, get_modAcc] at hg
  split at hg
  · rename_i hd
    subst hd
    cases hg
    cases hx : s.out.cur.accounts.get? d.address with
    | none => exact Int.le_refl _
    | some acc => exact hP _ acc hx
  · exact hP a acc hg

theorem covered_inv (hS : Solvent E) : OutInv E (fun _ => True) Covered where
  unary := unary_true
  step s t _ h hP a acc hg := by
    exact h.accPath a (fun x => ∀ acc, x = some acc → acc.Covered) (fun acc h => hP a acc h)
      (fun c m x y hx hm => covered_move hS hm hx) acc hg
  delete s c a' i _ _ _ hP a acc hg := by
    rw [get_deleteAcc] at hg
    split at hg
    · cases hg
    · exact hP a acc hg
  builtin s i b _ hb hP a acc hg := by
    obtain ⟨b0, e0, hacc⟩ := hb.acc
    rw [get_addToActive] at hg
    cases hgb : b.out.accounts.get? a with
    | none => rw [hgb] at hg; exact hP a acc hg
    | some ra =>
      have hra : ra.balance = none ∧ 0 ≤ ra.balanceDelta := by
        have h := hacc a
        rw [hgb] at h
        cases h0 : b0.out.accounts.get? a with
        | none => rw [h0] at h; simp only [SameButTransfers] at h; rw [h]; exact ⟨rfl, Int.le_refl _⟩
        | some acc0 =>
          rw [h0] at h
          simp only [SameButTransfers] at h
          rw [h]
          exact hS.builtin _ i b0 a acc0 e0 h0
      rw [hgb] at hg
      have hg := Option.some.inj hg
      subst hg
      cases hgc : s.out.cur.accounts.get? a with
      | none => unfold OutAcc.Covered; simp only [builtinAcc, hra.1]; exact hra.2
      | some la =>
        have h1 := hP a la hgc
        have h2 := hra.2
        unfold OutAcc.Covered at h1 ⊢
        simp only [builtinAcc, mergeAcc, hra.1]
        split
        · rename_i bal h; rw [h] at h1; exact ⟨h1.1, by have := h1.2; omega⟩
        · rename_i h; rw [h] at h1; have h1 : 0 ≤ la.balanceDelta := h1; omega
  fail s hP a acc hg := by
    obtain ⟨x, h1, h2⟩ := (OutMove.failUsed (E := E) (s := s)).acc a
    exact covered_move hS h2 (covered_move hS h1 (fun acc h => hP a acc h)) acc hg
  censored o hP := hP
  nested p c hp hc a acc hg := by
    rw [get_mergeOut] at hg
    cases hgc : c.accounts.get? a with
    | none => rw [hgc] at hg; exact hp a acc hg
    | some ra =>
      rw [hgc] at hg
      have hg := Option.some.inj hg
      subst hg
      refine covered_merge ?_ (hc a ra hgc)
      cases hgp : p.accounts.get? a with
      | none => exact Int.le_refl _
      | some la => exact hp a la hgp

theorem covered_start (tx : Tx) (s : St χ A) (hv : 0 ≤ txValue tx) : OutAll (fun _ => True) Covered (txStart E tx s) := by
  refine ⟨trivial, fun a acc hg => ?_, by rw [txStart_stack]; intro o ho; cases ho⟩
  have h2 := txStart_nonneg (E := E) tx s hv a
  obtain ⟨m, d, rfl⟩ := (txStart_started (E := E) tx s).accounts a acc hg
  unfold change at h2
  rw [hg] at h2
  exact h2

theorem Covered.balance (hS : Solvent E) {s : St χ A} (h : Covered s.out.cur) (a : Addr) : 0 ≤ balance E s a := by
  have hk := known_eq (E := E) s a
  have hchain : ∀ ua, acctOf E s a = some ua → 0 ≤ ua.balance := by
    intro ua hc
    unfold acctOf at hc
    split at hc
    · rename_i ua' hu; cases hc; exact hS.chain _ _ _ hu
    · cases hc
  unfold Spec.balance
  cases hg : s.out.cur.accounts.get? a with
  | none =>
    have hch : change s.out.cur a = 0 := by unfold change; rw [hg]; rfl
    rw [hg] at hk
    rw [hch]
    cases ha : acctOf E s a with
    | none => rw [ha] at hk; rw [show known E s a = none from hk]; exact Int.le_refl _
    | some ua =>
      rw [ha] at hk
      rw [show known E s a = some ua.balance from hk]
      have := hchain ua ha
      simpa using this
  | some acc =>
    have hch : change s.out.cur a = acc.balanceDelta := by unfold change; rw [hg]; rfl
    have h1 := h a acc hg
    unfold OutAcc.Covered at h1
    rw [hg] at hk
    rw [hch]
    cases hb : acc.balance with
    | some b =>
      rw [hb] at h1
      simp only [hb, Option.bind_some] at hk
      rw [hk]
      exact h1.2
    | none =>
      rw [hb] at h1
      simp only [hb, Option.bind_some] at hk
      have h1 : 0 ≤ acc.balanceDelta := h1
      cases ha : acctOf E s a with
      | none => rw [ha] at hk; rw [show known E s a = none from hk]; exact Int.le_refl _
      | some ua =>
        rw [ha] at hk
        rw [show known E s a = some ua.balance from hk]
        have := hchain ua ha
        dsimp only
        omega

open Classical in
/-- **C16**, whole transactions: a host in which every call of an API function first checks that no balance is negative does the
same as the host without the check: no contract, at any depth and at any time, sees a negative balance. -/
theorem c16_tx (hS : Solvent E) (n : Nat) (tx : Tx) {s : St χ A} (hr : AtRest E s) (hv : 0 ≤ txValue tx)
    (hn : (runTx E n tx s).1 ≠ none) :
    runTx (E.withApi (guardApi E (fun t => decide (∀ a, 0 ≤ balance E t a)))) n tx s = runTx E n tx s :=
  runTx_guard (covered_inv hS).all.invariant _ (fun _ h => decide_eq_true (h.2.1.balance hS)) n tx s hr (covered_start tx s hv) hn

/-- **C16**, reported changes: no account ends below zero; an account whose balance was never looked at loses nothing. -/
theorem c16_output (hS : Solvent E) (n : Nat) (tx : Tx) {s : St χ A} {o : VMOutput} (hr : AtRest E s) (hv : 0 ≤ txValue tx)
    (h : Outputs E n tx s o) (a : Addr) (acc : OutAcc) (ha : o.accounts.get? a = some acc) :
    0 ≤ acc.balance.getD 0 + acc.balanceDelta := by
  rcases (covered_inv hS).tx (fun _ _ _ _ => trivial) (fun s d _ _ hP => deploy_covered s d hP) n tx hr (covered_start tx s hv) h with ⟨e, w, rfl⟩ | h1
  · rw [(onError_output e w).2.1] at ha; cases ha
  · have h2 := h1 a acc ha
    unfold OutAcc.Covered at h2
    split at h2
    · rename_i b hb; rw [hb]; exact h2.2
    · rename_i hb; rw [hb]; simpa using h2

/-! ### Examples -/

section
open Fixture

/-- a node with no debts and no accounts at the addresses of new contracts -/
def goodHook : Hook World :=
  { hook with userAccount := fun w a => .ok (if a.take 30 = List.replicate 30 1 then none else
      ((World.cur w).accts.get? a).map fun u => { u with balance := max 0 u.balance }) }

/-- pays 7, calls 101 paying 5, calls 102 paying 3 and survives its failure -/
def payProg : P :=
  send (addr 2) 7 <| payDest (addr 101) g 5 1000 <|
  .store 0 (addr 102) <| .store 32 (List.replicate 31 0 ++ [3]) <| .store 64 g <|
    .call (.transferValueExecute 0 32 1000 64 1 0 0 0) fun _ => .ret

/-- sends 7 to the address of the contract that it then fails to deploy -/
def burnProg : P :=
  send (List.replicate 30 1 ++ [100, 100]) 7 <| create [99] [0, 0] 0 1000 .ret

def payMods : List (Bytes × WasmModule EeiCall) :=
  [([1], mod [(f, payProg), (g, burnProg)]), ([2], mod [(g, send (addr 2) 4 .ret)]), ([3], mod [(g, send (addr 2) 1 signal)])]

/-- the real API over this node, and the same without deployments -/
def payEnv : Env World EeiCall := Env.real { envWith payMods with hook := goodHook }
def payEnv' : Env World EeiCall := payEnv.without [.create]
def payHost : St World EeiCall := host (node [(addr 100, contract [1] 50), (addr 101, contract [2]), (addr 102, contract [3])])
def payTx (fn : Bytes) : Tx := callTx (addr 1) (addr 100) fn 100000 20

/-- the hypotheses of `c15_tx_partial`, `c15_no_creation`, `c16_tx` and `c16_output` -/
theorem payEnv_fair : FairBuiltins payEnv := fun _ _ _ h => by cases h; rfl
theorem payEnv'_fair : FairBuiltins payEnv' := fun _ _ _ h => by cases h; rfl
example : NoCreateApi payEnv' := noCreate_without (by decide)
theorem payEnv_new (w0 : World) : NewStaysNew payEnv w0 where
  none := by
    rintro a ⟨w, c, n, _, h, _⟩ w' _ ua hu
    cases h
    have hu : (Except.ok (if (List.replicate 30 (1 : UInt8) ++ [_, _]).take 30 = List.replicate 30 1 then none else _) : Except Err (Option UserAcct)) = .ok (some ua) := hu
    simp at hu
  builtin := by
    intro w _ i b a acc h _ hg
    cases h
    cases hg
theorem payEnv_solvent : Solvent payEnv where
  chain := by
    intro w a ua h
    have h : (Except.ok (if a.take 30 = List.replicate 30 1 then none else
      ((World.cur w).accts.get? a).map fun u => { u with balance := max 0 u.balance }) : Except Err (Option UserAcct)) = .ok (some ua) := h
    split at h
    · cases h
    · cases hg : (World.cur w).accts.get? a with
      | none => rw [hg] at h; cases h
      | some u =>
        rw [hg] at h
        simp only [Option.map_some, Except.ok.injEq, Option.some.injEq] at h
        rw [← h]
        exact Int.le_max_left _ _
  builtin := by
    intro w i b a acc h hg
    cases h
    cases hg
example : AtRest payEnv payHost := ⟨.inl rfl, rfl, .inl rfl⟩

/-- The transaction brings 20; 7 go to account 2, 5 to contract 101 which passes 4 on to account 2; the failed call leaves nothing. -/
example : (match (runTx payEnv' 5 (payTx f) payHost).1 with
    | some (some o) => decide (o.returnCode = .ok ∧ totalChange o = 20 ∧ change o (addr 100) = 8 ∧ change o (addr 2) = 11 ∧
        change o (addr 101) = 1 ∧ change o (addr 102) = 0)
    | _ => false) = true := by decide +kernel

/-- Value can be destroyed: a contract sends 7 to the address at which it then deploys a contract; the deployment fails and the
host drops the record of that account, with the 7. -/
theorem c15_neg : ∃ (E : Env World EeiCall) (n : Nat) (tx : Tx) (s : St World EeiCall) (o : VMOutput),
    E.api = eei E ∧ FairBuiltins E ∧ NewStaysNew E s.world ∧ AtRest E s ∧ Outputs E n tx s o ∧ o.returnCode = .ok ∧
    totalChange o + 7 = txValue tx := by
  have h : (match runTx payEnv 5 (payTx g) payHost with
      | (some (some o), _) => decide (o.returnCode = .ok ∧ totalChange o + 7 = 20) | _ => false) = true := by decide +kernel
  generalize hq : runTx payEnv 5 (payTx g) payHost = q at h
  obtain ⟨r, t⟩ := q
  match r with
  | some (some o) =>
    have hc := of_decide_eq_true h
    exact ⟨payEnv, 5, payTx g, payHost, o, rfl, payEnv_fair, payEnv_new _, ⟨.inl rfl, rfl, .inl rfl⟩, by unfold Outputs; rw [hq], hc.1, hc.2⟩
  | some none => cases h
  | none => cases h

/-- C16: with 70, a transfer of 71 fails and one of 70 succeeds. -/
example : let s := txStart payEnv (payTx f) payHost
    (transferValueOnly payEnv (addr 2) (addr 100) 71 false s).1 = some .transferInsufficientFunds ∧
    (transferValueOnly payEnv (addr 2) (addr 100) 70 false s).1 = none := by decide +kernel
end

end Arwen.Props
