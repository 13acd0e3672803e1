import Verif.Host.OutInv
import Verif.Host.Accounts
import Verif.Spec.Value
/-
Balance changes: sums over accounts, and what each change of the output does to them.
-/
namespace Arwen
open Spec
variable {χ A : Type} {E : Env χ A}

/-! ### Sums over sets of keys -/

/-- a list without repetitions that contains a given one -/
theorem exists_cover {α : Type} [DecidableEq α] (l : List α) : ∃ L : List α, L.Nodup ∧ ∀ k ∈ l, k ∈ L := by
  induction l with
  | nil => exact ⟨[], List.nodup_nil, by simp⟩
  | cons a l ih =>
    obtain ⟨L, h1, h2⟩ := ih
    by_cases ha : a ∈ L
    · exact ⟨L, h1, fun k hk => by
        rcases List.mem_cons.mp hk with rfl | hk
        · exact ha
        · exact h2 k hk⟩
    · refine ⟨a :: L, List.nodup_cons.mpr ⟨ha, h1⟩, fun k hk => ?_⟩
      rcases List.mem_cons.mp hk with rfl | hk
      · exact List.mem_cons_self ..
      · exact List.mem_cons_of_mem _ (h2 k hk)

/-- the sum of a function over a list of keys -/
def sumOver {α : Type} (L : List α) (f : α → Int) : Int := (L.map f).sum

theorem sumOver_add {α : Type} (L : List α) (f g : α → Int) : sumOver L (fun k => f k + g k) = sumOver L f + sumOver L g := by
  unfold sumOver
  induction L with
  | nil => rfl
  | cons a L ih => simp only [List.map_cons, List.sum_cons, ih]; omega
theorem sumOver_sub {α : Type} (L : List α) (f g : α → Int) : sumOver L (fun k => f k - g k) = sumOver L f - sumOver L g := by
  unfold sumOver
  induction L with
  | nil => rfl
  | cons a L ih => simp only [List.map_cons, List.sum_cons, ih]; omega
theorem sumOver_le {α : Type} (L : List α) (f g : α → Int) (h : ∀ k ∈ L, f k ≤ g k) : sumOver L f ≤ sumOver L g := by
  unfold sumOver
  induction L with
  | nil => exact Int.le_refl _
  | cons a L ih =>
    simp only [List.map_cons, List.sum_cons]
    have h1 := h a (List.mem_cons_self ..)
    have h2 := ih (fun k hk => h k (List.mem_cons_of_mem _ hk))
    omega
theorem sumOver_congr {α : Type} (L : List α) (f g : α → Int) (h : ∀ k ∈ L, f k = g k) : sumOver L f = sumOver L g := by
  unfold sumOver; rw [List.map_congr_left h]
theorem sumOver_zero {α : Type} (L : List α) (f : α → Int) (h : ∀ k ∈ L, f k = 0) : sumOver L f = 0 := by
  rw [sumOver_congr L f (fun _ => 0) h]
  unfold sumOver
  induction L with
  | nil => rfl
  | cons a L ih => simp only [List.map_cons, List.sum_cons, ih (fun k hk => h k (List.mem_cons_of_mem _ hk))]; rfl

/-- a function that is zero except at one key -/
theorem sumOver_single {α : Type} [DecidableEq α] (L : List α) (hL : L.Nodup) (a : α) (ha : a ∈ L) (v : Int) :
    sumOver L (fun k => if k = a then v else 0) = v := by
  induction L with
  | nil => cases ha
  | cons b L ih =>
    obtain ⟨h1, h2⟩ := List.nodup_cons.mp hL
    have e : sumOver (b :: L) (fun k => if k = a then v else 0) = (if b = a then v else 0) + sumOver L (fun k => if k = a then v else 0) := rfl
    rw [e]
    by_cases hb : b = a
    · rw [if_pos hb, sumOver_zero L _ (fun k hk => if_neg (fun h => h1 (by rw [hb, ← h]; exact hk)))]
      omega
    · rcases List.mem_cons.mp ha with h | h
      · exact absurd h.symm hb
      · rw [if_neg hb, ih h2 h]; omega

theorem sumL_cover (L : List Addr) (es : List (Addr × OutAcc)) : L.Nodup → (es.map Prod.fst).Nodup → (∀ k ∈ es.map Prod.fst, k ∈ L) →
    sumOver L (fun k => ((AMap.lookupL k es).map OutAcc.balanceDelta).getD 0) = (es.map fun p => p.2.balanceDelta).sum := by
  induction es with
  | nil => intro _ _ _; exact sumOver_zero L _ (fun _ _ => rfl)
  | cons p es ih =>
    intro hL hn hc
    obtain ⟨a, x⟩ := p
    simp only [List.map_cons, List.nodup_cons] at hn
    have h1 := ih hL hn.2 (fun k hk => hc k (List.mem_cons_of_mem _ hk))
    have h2 := sumOver_single L hL a (hc a (List.mem_cons_self ..)) x.balanceDelta
    simp only [List.map_cons, List.sum_cons]
    rw [← h1, ← h2, ← sumOver_add]
    refine sumOver_congr L _ _ fun k _ => ?_
    simp only [AMap.lookupL]
    by_cases hk : a = k
    · subst hk
      have : AMap.lookupL a es = none := AMap.lookupL_none_iff.mpr hn.1
      simp [this]
    · rw [if_neg hk, if_neg (fun h => hk h.symm)]; omega

/-- the total is the sum over any set of keys that has all accounts -/
theorem total_cover (o : VMOutput) (L : List Addr) (hL : L.Nodup) (hc : ∀ k ∈ o.accounts.keys, k ∈ L) :
    totalChange o = sumOver L (change o) := (sumL_cover L o.accounts.entries hL o.accounts.nodup hc).symm

/-! ### Changes of the output -/

/-- All accounts stay. -/
def KeysKept (c o : VMOutput) : Prop := ∀ b, (c.accounts.get? b).isSome → (o.accounts.get? b).isSome

theorem KeysKept.trans {a b c : VMOutput} (h1 : KeysKept a b) (h2 : KeysKept b c) : KeysKept a c := fun k h => h2 k (h1 k h)

theorem OutMove.keys {s : St χ A} {o : VMOutput} (h : OutMove E s o) : KeysKept s.out.cur o := by
  intro b hb
  obtain ⟨x, h1, h2⟩ := h.acc b
  have step : ∀ x y, AccMove E s b x y → x.isSome → y.isSome := by
    intro x y h hx
    cases h <;> first | exact hx | rfl
  exact step _ _ h2 (step _ _ h1 hb)

/-- a payment: what the payer must have, and the changes -/
structure Payment (c o : VMOutput) (snd dst : Addr) (v : Int) : Prop where
  nonneg : 0 ≤ v
  payer : (c.accounts.get? snd).isSome
  payee : (c.accounts.get? dst).isSome
  cover : match (c.accounts.get? snd).bind OutAcc.balance with | some b => v ≤ b + change c snd | none => v = 0
  change : ∀ b, change o b = change c b - (if b = snd then v else 0) + (if b = dst then v else 0)

theorem change_put (o : VMOutput) (a b : Addr) (acc : OutAcc) :
    change (o.put a acc) b = if a = b then acc.balanceDelta else change o b := by
  unfold change
  rw [get_put]
  split <;> rfl

theorem change_modAcc (c : OutCtx) (a b : Addr) (f : OutAcc → OutAcc) (d : Int → Int)
    (hf : ∀ x, (f x).balanceDelta = d x.balanceDelta) :
    change (c.modAcc a f).cur b = if a = b then d (change c.cur b) else change c.cur b := by
  unfold change
  rw [get_modAcc]
  split
  · rename_i h
    subst h
    simp only [Option.map_some, Option.getD_some, hf]
    cases c.cur.accounts.get? a <;> rfl
  · rfl

theorem change_modAcc_same (c : OutCtx) (a b : Addr) (f : OutAcc → OutAcc) (hf : ∀ x, (f x).balanceDelta = x.balanceDelta) :
    change (c.modAcc a f).cur b = change c.cur b := by
  rw [change_modAcc c a b f (fun d => d) hf]
  split <;> rfl

/-- Every change of the output leaves all balance changes as they are, or is a payment. -/
theorem OutMove.change {s : St χ A} {o : VMOutput} (h : OutMove E s o) :
    (∀ b, change o b = change s.out.cur b) ∨ ∃ snd dst v, Payment s.out.cur o snd dst v := by
  have put : ∀ {a : Addr} {acc acc' : OutAcc}, s.out.cur.accounts.get? a = some acc → acc'.balanceDelta = acc.balanceDelta →
      ∀ b, Spec.change (s.out.cur.put a acc') b = Spec.change s.out.cur b := by
    intro a acc acc' hg he b
    rw [change_put]
    split
    · rename_i h; subst h; unfold Spec.change; rw [hg, he]; rfl
    · rfl
  have acc : ∀ f : Addr → OutAcc → OutAcc, (∀ k x, (f k x).balanceDelta = x.balanceDelta) → ∀ (o' : VMOutput),
      (∀ b, o'.accounts.get? b = (s.out.cur.accounts.get? b).map (f b)) → ∀ b, Spec.change o' b = Spec.change s.out.cur b := by
    intro f hf o' ho b
    unfold Spec.change
    rw [ho]
    cases s.out.cur.accounts.get? b with
    | none => rfl
    | some x => simp [hf]
  cases h with
  | step _ h =>
    cases h with
    | touch a hn =>
      refine .inl fun b => ?_
      rw [change_put]
      split
      · rename_i h; subst h; unfold Spec.change; rw [hn]; rfl
      · rfl
    | cacheBal a acc ua hg h1 h2 => exact .inl (put hg rfl)
    | cacheNonce a acc ua hg h1 h2 => exact .inl (put hg rfl)
    | cacheCode a acc ua hg h1 h2 => exact .inl (put hg rfl)
    | cacheSto a acc k hg h1 => exact .inl (put hg rfl)
    | write acc k v old hg h1 h2 h3 h4 => exact .inl (put hg rfl)
    | pay snd dst acc dacc v hs hd hv hc =>
      refine .inr ⟨snd, dst, v, hv, by rw [hs]; rfl, by rw [hd]; rfl, ?_, fun b => ?_⟩
      · have hch : Spec.change s.out.cur snd = acc.balanceDelta := by unfold Spec.change; rw [hs]; rfl
        rw [hs, hch]
        exact hc
      · rw [change_modAcc _ dst b _ (fun d => d + v) (fun _ => rfl), change_modAcc _ snd b _ (fun d => d - v) (fun _ => rfl)]
        by_cases h1 : snd = b <;> by_cases h2 : dst = b
        · rw [if_pos h1, if_pos h2, if_pos h1.symm, if_pos h2.symm]
        · rw [if_pos h1, if_neg h2, if_pos h1.symm, if_neg (fun h => h2 h.symm)]; omega
        · rw [if_neg h1, if_pos h2, if_neg (fun h => h1 h.symm), if_pos h2.symm]; omega
        · rw [if_neg h1, if_neg h2, if_neg (fun h => h1 h.symm), if_neg (fun h => h2 h.symm)]; omega
    | xfer dst acc t hg => exact .inl (put hg rfl)
    | incNonce a acc i hc hg _ => exact .inl (put hg rfl)
    | gasUsed acc hg => exact .inl (put hg rfl)
    | _ => exact .inl fun _ => rfl
  | deploy d _ =>
    refine .inl fun b => ?_
    exact change_modAcc_same s.out d.address b (fun acc =>
      { acc with code := d.code, codeMetadata := d.metadata, deployer := some d.deployer }) (fun _ => rfl)
  | strip =>
    refine .inl (acc (fun k x => if k ∈ s.out.codeUpdates then x else { x with code := [], codeMetadata := [], deployer := none }) ?_ _ ?_)
    · intro k x; split <;> rfl
    · exact fun b => AMap.lookupL_mapKey (fun k (x : OutAcc) => if k ∈ s.out.codeUpdates then x else { x with code := [], codeMetadata := [], deployer := none }) _ b
  | used =>
    refine .inl (acc (fun k x => { x with gasUsed := (s.met.cur.gasUsedByAccounts.get? k).getD 0 }) (fun _ _ => rfl) _ ?_)
    exact fun b => AMap.lookupL_mapKey (W := OutAcc) (fun k (x : OutAcc) => { x with gasUsed := (s.met.cur.gasUsedByAccounts.get? k).getD 0 }) s.out.cur.accounts.entries b
  | failUsed =>
    refine .inl fun b => ?_
    simp only [updateGasOnFailure]
    exact change_modAcc_same _ _ b _ (by intro x; rfl)
  | _ => exact .inl fun _ => rfl

/-! ### Merging -/

/-- an account after merging the output of a nested call -/
def nestedAcc (x y : Option OutAcc) : Option OutAcc :=
  match y with
  | none => x
  | some ra => some (mergeAcc (x.getD {}) ra)

theorem get_mergeOut (l r : VMOutput) (b : Addr) :
    (mergeOut l r).accounts.get? b = nestedAcc (l.accounts.get? b) (r.accounts.get? b) := by
  unfold mergeOut nestedAcc
  dsimp only
  rw [AMap.get?_mergeWith]
  cases r.accounts.get? b <;> rfl

theorem change_mergeOut (l r : VMOutput) (b : Addr) :
    change (mergeOut l r) b = if (r.accounts.get? b).isSome then change r b else change l b := by
  unfold change mergeOut
  dsimp only
  rw [AMap.get?_mergeWith]
  cases r.accounts.get? b with
  | none => rfl
  | some x => rfl

theorem keys_mergeOut (l r : VMOutput) : KeysKept l (mergeOut l r) ∧ KeysKept r (mergeOut l r) := by
  refine ⟨fun b hb => ?_, fun b hb => ?_⟩ <;>
  · unfold mergeOut
    dsimp only
    rw [AMap.get?_mergeWith]
    cases h : r.accounts.get? b with
    | none => first | exact hb | (rw [h] at hb; cases hb)
    | some x => rfl

theorem change_addToActive (l : VMOutput) (bo : BuiltinOutput) (b : Addr) :
    change (addToActive l bo).1 b = change l b + change bo.out b := by
  unfold change
  rw [get_addToActive]
  cases h : bo.out.accounts.get? b with
  | none => simp
  | some ra =>
    cases l.accounts.get? b with
    | none => simp [builtinAcc]
    | some la => simp [builtinAcc, mergeAcc]; omega

theorem keys_addToActive (l : VMOutput) (bo : BuiltinOutput) : KeysKept l (addToActive l bo).1 := by
  intro b hb
  rw [get_addToActive]
  cases bo.out.accounts.get? b with
  | none => exact hb
  | some ra => rfl

theorem mem_keys {o : VMOutput} {b : Addr} : b ∈ o.accounts.keys ↔ (o.accounts.get? b).isSome := by
  cases h : o.accounts.get? b with
  | none => simp only [Option.isSome_none, Bool.false_eq_true, iff_false]; exact (AMap.get?_none_iff _ _).mp h
  | some x =>
    simp only [Option.isSome_some, iff_true]
    refine Decidable.byContradiction fun hn => ?_
    rw [(AMap.get?_none_iff _ _).mpr hn] at h
    cases h

theorem change_absent {o : VMOutput} {b : Addr} (h : ¬ (o.accounts.get? b).isSome) : change o b = 0 := by
  unfold change
  cases hx : o.accounts.get? b with
  | none => rfl
  | some x => rw [hx] at h; exact absurd rfl h

/-! ### Outputs of built-in functions -/

/-- an account like another one, up to its transfers -/
def SameButTransfers (x y : Option OutAcc) : Prop :=
  match x, y with
  | some x, some y => y = { x with transfers := y.transfers }
  | none, some y => y = { transfers := y.transfers }
  | none, none => True
  | some _, none => False

theorem SameButTransfers.refl (x : Option OutAcc) : SameButTransfers x x := by
  cases x
  · exact trivial
  · rfl
theorem SameButTransfers.trans {x y z : Option OutAcc} (h1 : SameButTransfers x y) (h2 : SameButTransfers y z) : SameButTransfers x z := by
  cases x <;> cases y <;> cases z <;> simp only [SameButTransfers] at h1 h2 ⊢
  · exact h2
  · rw [h2, h1]
  · rw [h2, h1]

theorem addTransferToOutput_acc (f : Bytes) (args : List Bytes) (snd dst : Addr) (ct : CallType) (o : VMOutput) (a : Addr) :
    SameButTransfers (o.accounts.get? a) ((addTransferToOutput f args snd dst ct o).accounts.get? a) := by
  unfold addTransferToOutput
  dsimp only
  rw [AMap.get?_insert]
  split
  · rename_i h
    subst h
    cases o.accounts.get? dst <;> rfl
  · exact .refl _

theorem addEsdtTransfer_acc (s : St χ A) (i : CallInput) (o : VMOutput) (a : Addr) :
    SameButTransfers (o.accounts.get? a) ((addEsdtTransfer E s i o).accounts.get? a) := by
  unfold addEsdtTransfer
  repeat' split
  all_goals first | exact .refl _ | exact addTransferToOutput_acc ..

theorem clearTransfers_acc (o : VMOutput) (a : Addr) : SameButTransfers (o.accounts.get? a) ((clearTransfers o).accounts.get? a) := by
  have : (clearTransfers o).accounts.get? a = (o.accounts.get? a).map (fun x => { x with transfers := [] }) :=
    AMap.lookupL_map (W := OutAcc) (fun x : OutAcc => { x with transfers := [] }) o.accounts.entries a
  rw [this]
  cases o.accounts.get? a
  · exact trivial
  · rfl

/-- The host changes the transfers in the output of a built-in function only. -/
theorem BuiltinFrom.acc {w : χ} {i : CallInput} {b : BuiltinOutput} (h : BuiltinFrom E w i b) :
    ∃ b0, (E.hook.processBuiltIn w i).1 = .ok b0 ∧ ∀ a, SameButTransfers (b0.out.accounts.get? a) (b.out.accounts.get? a) := by
  obtain ⟨b0, p, s, h1, rfl⟩ := h
  refine ⟨b0, h1, fun a => SameButTransfers.trans ?_ (addEsdtTransfer_acc s i _ a)⟩
  split
  · exact clearTransfers_acc _ a
  · exact .refl _

theorem SameButTransfers.change {o p : VMOutput} {a : Addr} (h : SameButTransfers (o.accounts.get? a) (p.accounts.get? a)) :
    change p a = change o a := by
  unfold Spec.change
  cases h1 : o.accounts.get? a <;> cases h2 : p.accounts.get? a <;> rw [h1, h2] at h <;> simp only [SameButTransfers] at h
  · rw [h]; rfl
  · rw [h]; rfl

/-- sums are determined by the changes -/
theorem total_congr {o p : VMOutput} (h : ∀ a, change p a = change o a) : totalChange p = totalChange o := by
  obtain ⟨L, hL, hc⟩ := exists_cover (o.accounts.keys ++ p.accounts.keys)
  rw [total_cover p L hL (fun k hk => hc k (List.mem_append_right _ hk)), total_cover o L hL (fun k hk => hc k (List.mem_append_left _ hk))]
  exact sumOver_congr L _ _ (fun k _ => h k)

theorem BuiltinFrom.total (hB : FairBuiltins E) {w : χ} {i : CallInput} {b : BuiltinOutput} (h : BuiltinFrom E w i b) :
    totalChange b.out = 0 := by
  obtain ⟨b0, h1, h2⟩ := h.acc
  rw [total_congr (fun a => (h2 a).change), hB w i b0 h1]

theorem unary_true : Unary E (fun _ => True) := by constructor <;> intros <;> trivial

end Arwen
