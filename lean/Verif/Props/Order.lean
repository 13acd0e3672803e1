import Verif.Spec.Order
import Verif.Props.Async
import Verif.Host.Accounts
/-
C34 (results do not depend on the order of map iteration).
-/
namespace Arwen.Props
open Arwen Spec
variable {χ A : Type} {E : Env χ A}

/-- The specification speaks about reordering: two maps are the same exactly if their entries are permutations of each other. -/
theorem c34_same {K V : Type} [DecidableEq K] (a b : AMap K V) : SameMap a b ↔ a.entries.Perm b.entries := by
  refine ⟨AMap.perm_of_get?_eq, fun h k => ?_⟩
  cases hb : b.get? k with
  | none =>
    cases ha : a.get? k with
    | none => rfl
    | some v =>
      have : (k, v) ∈ b.entries := h.subset ((AMap.mem_entries_iff _ _ _).mpr ha)
      rw [AMap.mem_entries_iff, hb] at this
      cases this
  | some v =>
    have : (k, v) ∈ a.entries := h.symm.subset ((AMap.mem_entries_iff _ _ _).mpr hb)
    exact (AMap.mem_entries_iff _ _ _).mp this

theorem _root_.Arwen.Spec.SameAcc.refl (a : OutAcc) : SameAcc a a := ⟨fun _ => rfl, rfl⟩
theorem _root_.Arwen.Spec.SameAcc.with {a b : OutAcc} (h : SameAcc a b) (f : OutAcc → OutAcc) (hs : ∀ x, (f x).storage = x.storage)
    (hf : ∀ x, { f x with storage := AMap.empty } = f { x with storage := AMap.empty }) : SameAcc (f a) (f b) := by
  refine ⟨fun k => ?_, ?_⟩
  · rw [hs, hs]; exact h.storage k
  · rw [hf, hf, h.rest]

/-! ### Sums -/

theorem foldl_addU64 {α : Type} (f : α → UInt64) : ∀ (l : List α) (acc : UInt64),
    (l.foldl (fun g x => addU64 g (f x)) acc).toNat = min (acc.toNat + (l.map fun x => (f x).toNat).sum) 18446744073709551615 := by
  intro l
  induction l with
  | nil => intro acc; have := toNat_lt acc; simp; omega
  | cons x l ih =>
    intro acc
    rw [List.foldl_cons, ih, addU64_toNat, List.map_cons, List.sum_cons]
    omega

theorem foldl_addU64_two {α : Type} (f f' : α → UInt64) (l : List α) (acc : UInt64) :
    (l.foldl (fun g x => addU64 (addU64 g (f x)) (f' x)) acc).toNat =
      min (acc.toNat + (l.map fun x => (f x).toNat + (f' x).toNat).sum) 18446744073709551615 := by
  induction l generalizing acc with
  | nil => have := toNat_lt acc; simp; omega
  | cons x l ih =>
    rw [List.foldl_cons, ih, addU64_toNat, addU64_toNat, List.map_cons, List.sum_cons]
    omega

theorem foldl_subU64 {α : Type} (f : α → UInt64) : ∀ (l : List α) (acc : UInt64),
    (l.foldl (fun g x => subU64 g (f x)) acc).toNat = acc.toNat - (l.map fun x => (f x).toNat).sum := by
  intro l
  induction l with
  | nil => intro acc; simp
  | cons x l ih =>
    intro acc
    rw [List.foldl_cons, ih, subU64_toNat, List.map_cons, List.sum_cons]
    omega

/-- what is computed from the entries of the same map is the same up to order -/
theorem entries_perm {K V W : Type} [DecidableEq K] (f g : K → V → W) {a b : AMap K V}
    (h : ∀ k, (a.get? k).map (f k) = (b.get? k).map (g k)) :
    (a.entries.map fun p => f p.1 p.2).Perm (b.entries.map fun p => g p.1 p.2) := by
  let a' : AMap K W := ⟨a.entries.map (fun p => (p.1, f p.1 p.2)), by simpa [List.map_map, Function.comp_def] using a.nodup⟩
  let b' : AMap K W := ⟨b.entries.map (fun p => (p.1, g p.1 p.2)), by simpa [List.map_map, Function.comp_def] using b.nodup⟩
  have h' : a'.entries.Perm b'.entries := AMap.perm_of_get?_eq (fun k => by
    show AMap.lookupL k (a.entries.map _) = AMap.lookupL k (b.entries.map _)
    rw [AMap.lookupL_mapKey f, AMap.lookupL_mapKey g]; exact h k)
  have := h'.map Prod.snd
  simpa [a', b', List.map_map, Function.comp_def] using this

theorem perm_sum {l l' : List Nat} (h : l.Perm l') : l.sum = l'.sum := by
  induction h with
  | nil => rfl
  | cons _ _ ih => simp [ih]
  | swap => simp; omega
  | trans _ _ h1 h2 => exact h1.trans h2

theorem _root_.Arwen.Spec.SameAcc.gasTransferred {a b : OutAcc} (h : SameAcc a b) : gasTransferred a = gasTransferred b := by
  have : a.transfers = b.transfers := by have := congrArg OutAcc.transfers h.rest; exact this
  unfold Arwen.gasTransferred; rw [this]
theorem _root_.Arwen.Spec.SameAcc.gasUsed {a b : OutAcc} (h : SameAcc a b) : a.gasUsed = b.gasUsed := by
  have := congrArg OutAcc.gasUsed h.rest; exact this

theorem _root_.Arwen.Spec.SameAccs.map {W : Type} {a b : AMap Addr OutAcc} (h : SameAccs a b) (f : OutAcc → W) (hf : ∀ x y, SameAcc x y → f x = f y) (k : Addr) :
    (a.get? k).map f = (b.get? k).map f := by
  have h := h k
  generalize a.get? k = x at h ⊢
  generalize b.get? k = y at h ⊢
  cases h with
  | none => rfl
  | some h => simp [hf _ _ h]

/-- C34. The gas used by the other accounts and carried away by transfers. -/
theorem c34_others (cur : Addr) {u u' : AMap Addr UInt64} {a a' : AMap Addr OutAcc} (hu : SameMap u u') (ha : SameAccs a a') :
    gasUsedByOthers cur u a = gasUsedByOthers cur u' a' := by
  rw [← UInt64.toNat_inj]
  unfold gasUsedByOthers
  rw [foldl_addU64_two (fun p : Addr × OutAcc => if p.1 ≠ cur then (u.get? p.1).getD 0 else 0),
    foldl_addU64_two (fun p : Addr × OutAcc => if p.1 ≠ cur then (u'.get? p.1).getD 0 else 0)]
  congr 2
  refine perm_sum (entries_perm (fun k (v : OutAcc) => (if k ≠ cur then (u.get? k).getD 0 else 0).toNat + (gasTransferred v).toNat)
    (fun k (v : OutAcc) => (if k ≠ cur then (u'.get? k).getD 0 else 0).toNat + (gasTransferred v).toNat) (fun k => ?_))
  rw [hu k]
  exact ha.map _ (fun x y h => by rw [h.gasTransferred]) k

/-- C34. The gas used by all accounts. -/
theorem c34_total {a a' : AMap Addr OutAcc} (ha : SameAccs a a') : totalUsedGas a = totalUsedGas a' := by
  rw [← UInt64.toNat_inj]
  unfold totalUsedGas
  rw [foldl_addU64_two (fun p : Addr × OutAcc => p.2.gasUsed), foldl_addU64_two (fun p : Addr × OutAcc => p.2.gasUsed)]
  congr 2
  exact perm_sum (entries_perm (fun _ (v : OutAcc) => v.gasUsed.toNat + (gasTransferred v).toNat) (fun _ v => v.gasUsed.toNat + (gasTransferred v).toNat)
    (ha.map _ (fun x y h => by rw [h.gasTransferred, h.gasUsed])))

/-! ### Merges -/

/-- C34. Merging the storage updates of an account. -/
theorem c34_acc {l l' r r' : OutAcc} (hl : SameAcc l l') (hr : SameAcc r r') : SameAcc (mergeAcc l r) (mergeAcc l' r') := by
  refine ⟨fun k => ?_, ?_⟩
  · simp only [mergeAcc, AMap.get?_mergeWith, hr.storage k, hl.storage k]
  · obtain ⟨_, h1⟩ := hl
    obtain ⟨_, h2⟩ := hr
    cases l; cases l'; cases r; cases r'
    simp only [OutAcc.mk.injEq, true_and, and_true] at h1 h2
    obtain ⟨rfl, rfl, rfl, rfl, rfl, rfl, rfl, rfl⟩ := h1
    obtain ⟨rfl, rfl, rfl, rfl, rfl, rfl, rfl, rfl⟩ := h2
    rfl

/-- C34. Merging the output of a nested call into the output of its caller. -/
theorem c34_merge {l l' r r' : VMOutput} (hl : SameOut l l') (hr : SameOut r r') : SameOut (mergeOut l r) (mergeOut l' r') := by
  refine ⟨fun k => ?_, ?_⟩
  · simp only [mergeOut, AMap.get?_mergeWith]
    have h1 := hl.accounts k
    have h2 := hr.accounts k
    generalize l.accounts.get? k = x at h1 ⊢
    generalize l'.accounts.get? k = x' at h1 ⊢
    generalize r.accounts.get? k = y at h2 ⊢
    generalize r'.accounts.get? k = y' at h2 ⊢
    cases h2 with
    | none => exact h1
    | some h2 =>
      refine .some (c34_acc ?_ h2)
      cases h1 with
      | none => exact .refl _
      | some h1 => exact h1
  · obtain ⟨_, h1⟩ := hl
    obtain ⟨_, h2⟩ := hr
    cases l; cases l'; cases r; cases r'
    simp only [VMOutput.mk.injEq, true_and, and_true] at h1 h2
    obtain ⟨rfl, rfl, rfl, rfl, rfl, rfl⟩ := h1
    obtain ⟨rfl, rfl, rfl, rfl, rfl, rfl⟩ := h2
    rfl

/-- an account with more transfers -/
def withTransfers (t : List OutTransfer) (a : OutAcc) : OutAcc := { a with transfers := a.transfers ++ t }
/-- an account with a further change of its balance -/
def withDelta (d : Int) (a : OutAcc) : OutAcc := { a with balanceDelta := a.balanceDelta + d }

/-- C34. Merging the output of a built-in function. -/
theorem c34_builtin {l l' : VMOutput} {b b' : BuiltinOutput} (hl : SameOut l l') (hb : SameOut b.out b'.out) (hn : b.refundNil = b'.refundNil) :
    SameOut (addToActive l b).1 (addToActive l' b').1 := by
  refine ⟨fun k => ?_, ?_⟩
  · rw [get_addToActive, get_addToActive]
    have h1 := hl.accounts k
    have h2 := hb.accounts k
    generalize l.accounts.get? k = x at h1 ⊢
    generalize l'.accounts.get? k = x' at h1 ⊢
    generalize b.out.accounts.get? k = y at h2 ⊢
    generalize b'.out.accounts.get? k = y' at h2 ⊢
    cases h2 with
    | none => exact h1
    | @some r r' h2 =>
      refine .some ?_
      cases h1 with
      | none => exact h2
      | @some a a' h1 =>
        have e1 : r.transfers = r'.transfers := by have := congrArg OutAcc.transfers h2.rest; exact this
        have e2 : a.balanceDelta = a'.balanceDelta := by have := congrArg OutAcc.balanceDelta h1.rest; exact this
        show SameAcc (mergeAcc (withTransfers r.transfers a) (withDelta a.balanceDelta r))
          (mergeAcc (withTransfers r'.transfers a') (withDelta a'.balanceDelta r'))
        rw [e1, e2]
        exact c34_acc (h1.with _ (fun _ => rfl) (fun _ => rfl)) (h2.with _ (fun _ => rfl) (fun _ => rfl))
  · have h1 := hl.rest
    have h2 := hb.rest
    have key : ∀ (l : VMOutput) (b : BuiltinOutput), { (addToActive l b).1 with accounts := AMap.empty } =
        { b.out with
          accounts := AMap.empty, logs := l.logs ++ b.out.logs, returnData := l.returnData ++ b.out.returnData
          gasRefund := if b.refundNil then 0 else b.out.gasRefund + l.gasRefund } := fun _ _ => rfl
    rw [key, key, hn]
    simp only [VMOutput.mk.injEq] at h1 h2
    simp only [true_and, and_true] at h1 h2
    have ⟨h1, _, _, _, h5, h6⟩ := h1
    have ⟨g1, g2, g3, g4, g5, g6⟩ := h2
    dsimp only
    rw [h1, h5, h6, g1, g2, g3, g4, g5, g6]

/-! ### The totals written into the output -/

/-- C34. Writing the gas used by each account into the output. -/
theorem c34_setGas {s t : St χ A} (ho : SameOut s.out.cur t.out.cur) (hu : SameMap s.met.cur.gasUsedByAccounts t.met.cur.gasUsedByAccounts) :
    (setGasUsed s).1 = (setGasUsed t).1 ∧ SameOut (setGasUsed s).2.out.cur (setGasUsed t).2.out.cur := by
  have key : ∀ (s : St χ A) k, (setGasUsed s).2.out.cur.accounts.get? k = (s.out.cur.accounts.get? k).map
      (fun x => { x with gasUsed := (s.met.cur.gasUsedByAccounts.get? k).getD 0 }) := fun s k =>
    AMap.lookupL_mapKey (W := OutAcc) (fun k (x : OutAcc) => { x with gasUsed := (s.met.cur.gasUsedByAccounts.get? k).getD 0 }) s.out.cur.accounts.entries k
  have hacc : SameAccs (setGasUsed s).2.out.cur.accounts (setGasUsed t).2.out.cur.accounts := fun k => by
    rw [key, key, hu k]
    have h := ho.accounts k
    generalize s.out.cur.accounts.get? k = x at h ⊢
    generalize t.out.cur.accounts.get? k = y at h ⊢
    cases h with
    | none => exact .none
    | some h => exact .some (h.with (fun a => { a with gasUsed := (t.met.cur.gasUsedByAccounts.get? k).getD 0 }) (fun _ => rfl) (fun _ => rfl))
  refine ⟨?_, hacc, ?_⟩
  · have hp := AMap.perm_of_get?_eq hu
    have hc : ∀ k, (setGasUsed s).2.out.cur.accounts.contains k = (setGasUsed t).2.out.cur.accounts.contains k := fun k => by
      unfold AMap.contains
      have h := hacc k
      generalize (setGasUsed s).2.out.cur.accounts.get? k = x at h ⊢
      generalize (setGasUsed t).2.out.cur.accounts.get? k = y at h ⊢
      cases h <;> rfl
    have : (s.met.cur.gasUsedByAccounts.entries.all fun p => (setGasUsed s).2.out.cur.accounts.contains p.1) =
        (t.met.cur.gasUsedByAccounts.entries.all fun p => (setGasUsed t).2.out.cur.accounts.contains p.1) := by
      simp only [hc]
      exact hp.all_eq
    show (if s.met.cur.gasUsedByAccounts.entries.all (fun p => (setGasUsed s).2.out.cur.accounts.contains p.1) then none else some errMissingAccount)
      = (if t.met.cur.gasUsedByAccounts.entries.all (fun p => (setGasUsed t).2.out.cur.accounts.contains p.1) then none else some errMissingAccount)
    rw [this]
  · exact ho.rest

/-- the gas carried by the transfers of an account -/
def limitsOf (a : OutAcc) : Nat := (a.transfers.map fun t => t.gasLimit.toNat).sum

theorem foldl_transfers (l : List (Addr × OutAcc)) (g : UInt64) :
    (l.foldl (fun g p => p.2.transfers.foldl (fun g t => subU64 g t.gasLimit) g) g).toNat = g.toNat - (l.map fun p => limitsOf p.2).sum := by
  induction l generalizing g with
  | nil => simp
  | cons p l ih =>
    rw [List.foldl_cons, ih, foldl_subU64 (fun t : OutTransfer => t.gasLimit), List.map_cons, List.sum_cons]
    unfold limitsOf
    omega

/-- C34. The gas consumed by a token transfer: what was provided less what came back and what the transfers carry. -/
theorem c34_consumed {a a' : AMap Addr OutAcc} (h : SameAccs a a') (g : UInt64) :
    a.entries.foldl (fun g p => p.2.transfers.foldl (fun g t => subU64 g t.gasLimit) g) g =
    a'.entries.foldl (fun g p => p.2.transfers.foldl (fun g t => subU64 g t.gasLimit) g) g := by
  rw [← UInt64.toNat_inj, foldl_transfers, foldl_transfers]
  congr 1
  exact perm_sum (entries_perm (fun _ v => limitsOf v) (fun _ v => limitsOf v) (h.map _ (fun x y h => by
    have e : x.transfers = y.transfers := by have := congrArg OutAcc.transfers h.rest; exact this
    unfold limitsOf; rw [e])))

/-! ### Asynchronous calls -/

theorem perm_calls {a b : AsyncContextInfo} (h : SameInfo a b) : (allCalls a).Perm (allCalls b) :=
  (AMap.perm_of_get?_eq h.contexts).flatMap_right _

theorem perm_requested {l l' : List AsyncGeneratedCall} (h : l.Perm l') : requestedGas l = requestedGas l' := by
  unfold requestedGas
  exact perm_sum (h.map _)

theorem perm_open {l l' : List AsyncGeneratedCall} (h : l.Perm l') : openCalls l = openCalls l' := by
  unfold openCalls
  exact (h.filter _).length_eq

theorem fairLimit_perm {l l' : List AsyncGeneratedCall} (h : l.Perm l') (g : Nat) (c : AsyncGeneratedCall) :
    fairLimit g l c = fairLimit g l' c := by
  unfold fairLimit
  rw [perm_requested h, perm_open h]

/-- C34. Assigning gas to the calls fails in every order or in none, and gives the same limits. -/
theorem c34_setup (gas : UInt64) {a b : AsyncContextInfo} (h : SameInfo a b) (hn : (allCalls a).length < 2 ^ 64) :
    (∃ e e', setupCallsGas gas a = .error e ∧ setupCallsGas gas b = .error e') ∨
    (∃ a' b', setupCallsGas gas a = .ok a' ∧ setupCallsGas gas b = .ok b' ∧ SameInfo a' b') := by
  have hp := perm_calls h
  have ha := c31_assign gas a hn
  have hb := c31_assign gas b (by rw [← hp.length_eq]; exact hn)
  rw [← perm_requested hp, ← perm_open hp] at hb
  split at ha
  · rename_i hc
    rw [if_pos hc] at hb
    obtain ⟨a', h1, h2, h3, h4⟩ := ha
    obtain ⟨b', g1, g2, g3, g4⟩ := hb
    refine .inr ⟨a', b', h1, g1, fun k => ?_, by rw [h2, g2, h.caller], by rw [h3, g3, h.returnData]⟩
    show AMap.lookupL k a'.contexts.entries = AMap.lookupL k b'.contexts.entries
    rw [h4, g4]
    have e : ∀ c, fairLimit gas.toNat (allCalls b) c = fairLimit gas.toNat (allCalls a) c := fun c => (fairLimit_perm hp _ _).symm
    simp only [e]
    have key := AMap.lookupL_map (K := Bytes) (W := AsyncContext) (fun p : AsyncContext => { p with calls := p.calls.map fun c =>
        { c with gasLimit := UInt64.ofNat (fairLimit gas.toNat (allCalls a) c) } })
    rw [key, key]
    have := h.contexts k
    simp only [AMap.get?] at this
    rw [this]
  · rename_i hc
    rw [if_neg hc] at hb
    obtain ⟨e, h1⟩ := ha
    obtain ⟨e', g1⟩ := hb
    exact .inl ⟨e, e', h1, g1⟩

theorem get_pending_fold (es : List (Bytes × AsyncContext)) (hn : (es.map Prod.fst).Nodup) (m : AMap Bytes AsyncContext) (k : Bytes) :
    (es.foldl (fun m p =>
      let calls := p.2.calls.filter (fun c => c.status = .pending)
      if calls = [] then m else m.insert p.1 { callback := p.2.callback, calls := calls }) m).get? k =
    match AMap.lookupL k es with
    | none => m.get? k
    | some c => if c.calls.filter (fun c => c.status = .pending) = [] then m.get? k
      else some { callback := c.callback, calls := c.calls.filter (fun c => c.status = .pending) } := by
  induction es generalizing m with
  | nil => rfl
  | cons p es ih =>
    obtain ⟨q, c⟩ := p
    rw [List.map_cons, List.nodup_cons] at hn
    rw [List.foldl_cons, ih hn.2]
    simp only [AMap.lookupL]
    by_cases hq : q = k
    · subst hq
      rw [AMap.lookupL_none_iff.mpr hn.1]
      simp only [if_pos]
      split <;> simp
    · rw [if_neg hq]
      split
      · split
        · rfl
        · rw [AMap.get?_insert, if_neg hq]
      · split
        · split
          · rfl
          · rw [AMap.get?_insert, if_neg hq]
        · rfl

/-- C34. Which calls are pending. -/
theorem c34_pending {a b : AsyncContextInfo} (h : SameInfo a b) : SameInfo (pendingCalls a) (pendingCalls b) := by
  refine ⟨fun k => ?_, h.caller, h.returnData⟩
  unfold pendingCalls
  rw [get_pending_fold _ a.contexts.nodup, get_pending_fold _ b.contexts.nodup]
  have := h.contexts k
  simp only [AMap.get?] at this
  rw [this]

/-! ### What does depend on the order -/

/-- a call asking for some gas -/
def asking (g : UInt64) (cb : Bytes) : AsyncGeneratedCall := { destination := Fixture.addr 2, providedGas := g, successCallback := cb, errorCallback := [], data := [], valueBytes := [] }
/-- two groups, in this order -/
def twoGroups (x y : Bytes × AsyncContext) (h : x.1 ≠ y.1) : AsyncContextInfo :=
  { contexts := ⟨[x, y], by simpa using h⟩ }

theorem sameTwo (x y : Bytes × AsyncContext) (h : x.1 ≠ y.1) : SameInfo (twoGroups x y h) (twoGroups y x h.symm) :=
  ⟨(c34_same _ _).mpr (.swap _ _ _), rfl, rfl⟩

/-- The kind of error depends on the order: an overflow is noticed only if the large request comes last. -/
theorem c34_error_neg : ∃ (gas : UInt64) (a b : AsyncContextInfo), SameInfo a b ∧
    setupCallsGas gas a = .error errAddOverflow ∧ setupCallsGas gas b = .error .notEnoughGas :=
  ⟨10, _, _, sameTwo ([1], { calls := [asking 1 []] }) ([2], { calls := [asking 18446744073709551615 []] }) (by decide), rfl, rfl⟩

/-- Which callback answers a call depends on the order: two groups that call the same contract. (No contract
of this version can make groups of calls: see C81.) -/
theorem c34_callback_neg : ∃ (caller : Addr) (a b : AsyncContextInfo), SameInfo a b ∧
    ∃ c c', findCall caller a = some c ∧ findCall caller b = some c' ∧ c.successCallback ≠ c'.successCallback :=
  ⟨Fixture.addr 2, _, _, sameTwo ([1], { calls := [asking 1 [5]] }) ([2], { calls := [asking 1 [6]] }) (by decide),
    asking 1 [5], asking 1 [6], rfl, rfl, by decide⟩

/-! ### Examples -/

/-- two accounts, listed in both orders, one with storage updates in both orders -/
def acctA (swap : Bool) : OutAcc :=
  { nonce := 3, gasUsed := 7, storage := if swap then ⟨[([1], [1]), ([2], [2])], by decide⟩ else ⟨[([2], [2]), ([1], [1])], by decide⟩ }
def acctB : OutAcc := { gasUsed := 4, transfers := [{ value := 1, gasLimit := 10, gasLocked := 5 }] }
def accts (swap : Bool) : AMap Addr OutAcc :=
  if swap then ⟨[(Fixture.addr 1, acctA true), (Fixture.addr 2, acctB)], by decide⟩ else ⟨[(Fixture.addr 2, acctB), (Fixture.addr 1, acctA false)], by decide⟩

example : SameAccs (accts true) (accts false) ∧ accts true ≠ accts false ∧ totalUsedGas (accts true) = 26 := by
  refine ⟨fun k => ?_, fun h => ?_, by decide +kernel⟩
  · show SameOpt _ (AMap.lookupL k [(Fixture.addr 1, acctA true), (Fixture.addr 2, acctB)]) (AMap.lookupL k [(Fixture.addr 2, acctB), (Fixture.addr 1, acctA false)])
    have hne : Fixture.addr 1 ≠ Fixture.addr 2 := by decide
    simp only [AMap.lookupL]
    by_cases h1 : Fixture.addr 1 = k
    · subst h1
      rw [if_pos rfl, if_neg hne.symm, if_pos rfl]
      refine .some ⟨(c34_same _ _).mpr (.swap _ _ _), rfl⟩
    · rw [if_neg h1]
      by_cases h2 : Fixture.addr 2 = k
      · rw [if_pos h2, if_pos h2]; exact .some (.refl _)
      · rw [if_neg h2, if_neg h2, if_neg h1]; exact .none
  · have := congrArg (fun m : AMap Addr OutAcc => m.keys.head?) h
    revert this
    decide

example : (allCalls (twoGroups ([1], { calls := [asking 1 [5]] }) ([2], { calls := [asking 0 [6]] }) (by decide))).length < 2 ^ 64 := by decide

end Arwen.Props
