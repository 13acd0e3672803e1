import Verif.Spec.Tokens
import Verif.Props.Async
import Verif.Props.ApiGas
/-
C59 (tokens sent by a contract).
-/
namespace Arwen.Props
open Arwen Spec
variable {χ A : Type} {E : Env χ A}

theorem tokenName : "ESDTTransfer".toUTF8.data.toList = esdtTransferName := by decide +kernel
theorem tokenNftName : "ESDTNFTTransfer".toUTF8.data.toList = esdtNFTTransferName := by decide +kernel

theorem callText_eq (f : Bytes) (args : List Bytes) : callText f args = buildCallData f args := rfl
theorem buildCallData_append (f : Bytes) (xs ys : List Bytes) : buildCallData (buildCallData f xs) ys = buildCallData f (xs ++ ys) := by
  simp [buildCallData, List.append_assoc]

theorem subU64_nat (a b : UInt64) : (subU64 a b).toNat = a.toNat - b.toNat := by
  unfold subU64
  split
  · rename_i h; rw [UInt64.lt_iff_toNat_lt] at h; simp; omega
  · rename_i h
    rw [UInt64.not_lt] at h
    rw [UInt64.toNat_sub_of_le _ _ h]

theorem deducted_transfers (ts : List OutTransfer) : ∀ g : UInt64,
    (ts.foldl (fun g t => subU64 g t.gasLimit) g).toNat = g.toNat - (ts.map fun t => t.gasLimit.toNat).sum := by
  induction ts with
  | nil => intro g; simp
  | cons t ts ih => intro g; simp only [List.foldl_cons, List.map_cons, List.sum_cons, ih, subU64_nat]; omega

theorem deducted (l : List (Addr × OutAcc)) : ∀ g : UInt64,
    (l.foldl (fun g p => p.2.transfers.foldl (fun g t => subU64 g t.gasLimit) g) g).toNat =
      g.toNat - (l.map fun p => (p.2.transfers.map fun t => t.gasLimit.toNat).sum).sum := by
  induction l with
  | nil => intro g; simp
  | cons p l ih => intro g; simp only [List.foldl_cons, List.map_cons, List.sum_cons, ih, deducted_transfers]; omega

/-- the request that is made -/
theorem executeEsdtTransfer_ok {dest sender : Addr} {token : Bytes} {nonce : UInt64} {value : Int} {runs : Bool} {s u : St χ A}
    {r : Except Err (VMOutput × UInt64)} (h : executeEsdtTransfer E dest sender token nonce value
      (if runs = true then .esdtTransferAndExecute else .directCall) s = (.ok r, u)) :
    (∃ e, r = .error e ∧ u.out = s.out ∧ u.rt = s.rt) ∨
    ∃ b w' used, E.hook.processBuiltIn s.world (tokenRequest s dest sender token nonce value runs) = (.ok b, w') ∧ b.out.returnCode = .ok ∧
      r = .ok (b.out, used) ∧ used.toNat = tokenPrice s.gasLeft.toNat b.out ∧ used.toNat ≤ s.gasLeft.toNat ∧
      u = ({ s with world := w' } : St χ A).spend used ∧ ∃ i, s.rt.instance_ = some i := by
  unfold executeEsdtTransfer at h
  rw [get_bind] at h
  dsimp only at h
  have hin : (if nonce > 0 then
      ({ vm := { caller := sender, args := [token, natToBytes nonce.toNat, natToBytes value.natAbs, dest], callValue := 0, callType := if runs = true then .esdtTransferAndExecute else .directCall, gasPrice := s.rt.cur.vmInput.gasPrice, gasProvided := s.gasLeft, gasLocked := 0 }, recipient := sender, function := esdtNFTTransferName } : CallInput)
    else { vm := { caller := sender, args := [token, natToBytes value.natAbs], callValue := 0, callType := if runs = true then .esdtTransferAndExecute else .directCall, gasPrice := s.rt.cur.vmInput.gasPrice, gasProvided := s.gasLeft, gasLocked := 0 }, recipient := dest, function := esdtTransferName }) =
      tokenRequest s dest sender token nonce value runs := by
    unfold tokenRequest
    rw [tokenName, tokenNftName]
    by_cases hn : nonce = 0
    · subst hn; simp
    · have : nonce > 0 := by
        rw [gt_iff_lt, UInt64.lt_iff_toNat_lt]
        have : nonce.toNat ≠ 0 := fun h => hn (UInt64.toNat_inj.mp h)
        simp; omega
      simp [hn, this]
  rw [hin] at h
  generalize tokenRequest s dest sender token nonce value runs = q at h ⊢
  unfold processBuiltin at h
  rcases bind_ok h with ⟨x, v, h1, h⟩ | ⟨_, h⟩ | ⟨_, h⟩
  · simp only [M.lift, Prod.mk.injEq, Res.ok.injEq] at h1
    obtain ⟨h1, hv⟩ := h1
    have hv' : v.out = s.out ∧ v.rt = s.rt := by rw [← hv]; exact ⟨rfl, rfl⟩
    cases x with
    | error e => cases h; exact .inl ⟨e, rfl, hv'⟩
    | ok b =>
      dsimp only at h
      split at h
      · cases h; exact .inl ⟨_, rfl, hv'⟩
      · rename_i hrc
        have hct : (if runs = true then CallType.esdtTransferAndExecute else .directCall) ≠ .asynchronousCallBack := by
          split <;> simp
        rw [if_pos hct, get_bind] at h
        have hgl : v.gasLeft = s.gasLeft := by rw [← hv]; rfl
        split at h
        · cases h; exact .inl ⟨_, rfl, hv'⟩
        · rename_i hlt
          rcases bind_ok h with ⟨_, w, h2, h⟩ | ⟨_, h⟩ | ⟨_, h⟩
          · obtain ⟨hw, hi⟩ := useGas_ok h2
            cases h
            refine .inr ⟨b, v.world, _, ?_, Decidable.byContradiction hrc, rfl, ?_, ?_, ?_, ?_⟩
            · rw [← h1, ← hv]
            · rw [deducted, subU64_nat]; rfl
            · rw [UInt64.not_lt, UInt64.le_iff_toNat_le, hgl] at hlt; exact hlt
            · rw [hw, ← hv]
            · rw [← hv] at hi; exact hi
          · cases h
          · cases h
  · cases h
  · cases h

/-- the gas given to the call -/
def tokenGas (ci : Option CallInput) : UInt64 := match ci with | some i => i.vm.gasProvided | none => 0

/-- `transferESDT` after the request -/
def afterTokens (dest sender : Addr) (token : Bytes) (nonce : UInt64) (value : Int) (ci : Option CallInput) (isExec same : Bool) (out : VMOutput)
    (consumed : UInt64) : M χ A (Except Err UInt64) :=
  if isExec && consumed > tokenGas ci then pure (.error .notEnoughGas)
  else do
    let remaining : UInt64 := if isExec then tokenGas ci - consumed else 0
    let s ← M.get
    if isExec && remaining > s.gasLeft then pure (.error .notEnoughGas)
    else do
      if isExec && !same then useGas remaining else pure ()
      M.modify (addTransfer dest { value := 0, gasLimit := if same then 0 else remaining, gasLocked := 0,
                                   data := tokenMessage dest token nonce value ci same out, callType := .directCall, sender := sender })
      M.modify (fun s => { s with out := { s.out with cur := { s.out.cur with logs := s.out.cur.logs ++ out.logs } } })
      pure (.ok remaining)

theorem transferESDT_eq (dest sender : Addr) (token : Bytes) (nonce : UInt64) (value : Int) (ci : Option CallInput) (s : St χ A) :
    transferESDT E dest sender token nonce value ci s = (do
      let r ← executeEsdtTransfer E dest sender token nonce value
        (if (E.hook.isSmartContract s.world dest && ci.isSome) = true then .esdtTransferAndExecute else .directCall)
      match r with
      | .error e => pure (.error e)
      | .ok (out, consumed) =>
        afterTokens dest sender token nonce value ci (E.hook.isSmartContract s.world dest && ci.isSome) (sameShard E s sender dest) out consumed
      : M χ A (Except Err UInt64)) s := by
  have hd : ∀ f : Bytes, ∀ xs : List Bytes, buildCallData f xs ++ atSign :: hexEncode dest = buildCallData f (xs ++ [dest]) := by
    intro f xs; simp [buildCallData, List.append_assoc]
  have hnil : ∀ f : Bytes, buildCallData f [] = f := by intro f; simp [buildCallData]
  have hmsg : ∀ same out, tokenMessage dest token nonce value ci same out =
      let data : Bytes :=
          if nonce > 0 then
            let base := buildCallData esdtNFTTransferName [token, natToBytes nonce.toNat, natToBytes value.natAbs]
            if same then base ++ atSign :: hexEncode dest
            else match (out.accounts.get? dest).map OutAcc.transfers with
              | some [t] => t.data
              | _ => base
          else buildCallData esdtTransferName [token, natToBytes value.natAbs]
      match ci with
          | none => data
          | some i => buildCallData data (i.function :: i.vm.args) := by
    intro same o
    unfold tokenMessage
    simp only [callText_eq, tokenName, tokenNftName, hd, ← buildCallData_append]
    by_cases hn : nonce = 0
    · subst hn
      cases ci <;> simp [hnil]
    · have : nonce > 0 := by
        rw [gt_iff_lt, UInt64.lt_iff_toNat_lt]
        have : nonce.toNat ≠ 0 := fun h => hn (UInt64.toNat_inj.mp h)
        simp; omega
      simp only [hn, this, if_true, if_false]
      cases same with
      | true => cases ci <;> simp [buildCallData]
      | false =>
        simp only [Bool.false_eq_true, if_false]
        generalize (o.accounts.get? dest).map OutAcc.transfers = q
        match q with
        | none | some [] | some [_] | some (_ :: _ :: _) => cases ci <;> simp [buildCallData]
  unfold afterTokens
  simp only [hmsg]
  unfold transferESDT tokenGas
  rw [get_bind]
  cases ci <;> rfl

/-- **C59**. A contract that sends tokens makes exactly one request to the chain, for these tokens and this receiver. If it is granted,
the chain's state is what the request left, the output has one more transfer and the logs of the request, and the gas is accounted for to the
unit: the contract pays the price of the transfer and, if the tokens leave the shard together with a call, the gas of the call. -/
theorem c59_sent {dest sender : Addr} {token : Bytes} {nonce : UInt64} {value : Int} {ci : Option CallInput} {s t : St χ A} {rem : UInt64}
    (hg : s.met.cur.gasForExecution.toNat < 2 ^ 63) (h : transferESDT E dest sender token nonce value ci s = (.ok (.ok rem), t))
    {runs same : Bool} (hruns : runs = (E.hook.isSmartContract s.world dest && ci.isSome)) (hsame : same = sameShard E s sender dest) :
    ∃ b w', E.hook.processBuiltIn s.world (tokenRequest s dest sender token nonce value runs) = (.ok b, w') ∧ b.out.returnCode = .ok ∧
      t.world = w' ∧ t.rt = s.rt ∧ t.sto = s.sto ∧ t.big = s.big ∧
      OneTransfer s.out.cur t.out.cur dest
        { value := 0, gasLimit := if same then 0 else rem, gasLocked := 0, data := tokenMessage dest token nonce value ci same b.out,
          callType := .directCall, sender := sender } b.out.logs ∧
      (∀ i, ci = some i → runs = true → rem.toNat + tokenPrice s.gasLeft.toNat b.out = i.vm.gasProvided.toNat) ∧ (runs = false → rem = 0) ∧
      t.gasLeft.toNat + tokenPrice s.gasLeft.toNat b.out + (if same then 0 else rem.toNat) = s.gasLeft.toNat ∧
      (same = true → rem.toNat ≤ t.gasLeft.toNat) := by
  rw [transferESDT_eq, ← hruns, ← hsame] at h
  rcases bind_ok h with ⟨r, u, h1, h⟩ | ⟨_, h⟩ | ⟨_, h⟩
  · rcases executeEsdtTransfer_ok h1 with ⟨e, rfl, _⟩ | ⟨b, w', used, hb, hrc, rfl, hp, hle, hu, i, hi⟩
    · cases h
    · have hgl : u.gasLeft.toNat = s.gasLeft.toNat - used.toNat := by
        rw [hu]; exact gasLeft_spend (s := ({ s with world := w' } : St χ A)) hi hg used
      dsimp only at h
      unfold afterTokens at h
      split at h
      · cases h
      rename_i h2
      rw [get_bind] at h
      dsimp only at h
      generalize hR : (if runs = true then tokenGas ci - used else 0 : UInt64) = R at h
      split at h
      · cases h
      rename_i h3
      refine ⟨b, w', hb, hrc, ?_⟩
      have hrem : ∀ i, ci = some i → runs = true → (i.vm.gasProvided - used).toNat + used.toNat = i.vm.gasProvided.toNat := by
        intro i hci hr
        subst hci
        rw [hr] at h2
        simp only [Bool.true_and, decide_eq_true_eq, gt_iff_lt, UInt64.not_lt] at h2
        unfold tokenGas at h2
        dsimp only at h2
        rw [UInt64.toNat_sub_of_le _ _ h2]
        rw [UInt64.le_iff_toNat_le] at h2
        omega
      have hrs : runs = true → ∃ i, ci = some i := by
        intro hr
        rw [hr] at hruns
        have := hruns.symm
        simp only [Bool.and_eq_true] at this
        exact Option.isSome_iff_exists.mp this.2
      have hRr : ∀ i, ci = some i → runs = true → R.toNat + used.toNat = i.vm.gasProvided.toNat := by
        intro i hci hr
        have := hrem i hci hr
        subst hci
        rw [if_pos hr] at hR
        rw [← hR]; exact this
      have hR0 : runs = false → R = 0 := by
        intro hr; rw [hr] at hR; simpa using hR.symm
      have hRle : R.toNat ≤ u.gasLeft.toNat := by
        cases runs with
        | false => rw [hR0 rfl]; simp
        | true =>
          simp only [Bool.true_and, decide_eq_true_eq, gt_iff_lt, UInt64.not_lt] at h3
          exact UInt64.le_iff_toNat_le.mp h3
      have fin : ∀ v : St χ A, v.out = s.out → ∀ x : OutTransfer,
          OneTransfer s.out.cur ({ (addTransfer dest x v) with out := { (addTransfer dest x v).out with cur := { (addTransfer dest x v).out.cur with logs := (addTransfer dest x v).out.cur.logs ++ b.out.logs } } } : St χ A).out.cur dest x b.out.logs := by
        intro v hv x
        refine ⟨?_, ?_⟩
        · simp only [addTransfer, OutCtx.modAcc, OutCtx.setAcc, hv]
        · intro a
          simp only [addTransfer, OutCtx.modAcc, OutCtx.setAcc, hv, AMap.get?_insert, OutCtx.getAcc]
          by_cases ha : dest = a
          · subst ha
            rw [if_pos rfl, if_pos rfl]
            cases s.out.cur.accounts.get? dest <;> rfl
          · rw [if_neg ha, if_neg (fun h => ha h.symm)]
      by_cases hcross : (runs && !same) = true
      · rw [if_pos hcross] at h
        rcases bind_ok h with ⟨_, v, h4, h⟩ | ⟨_, h⟩ | ⟨_, h⟩
        · obtain ⟨hv, _⟩ := useGas_ok h4
          cases h
          simp only [Bool.and_eq_true, Bool.not_eq_true'] at hcross
          have hui : u.rt.instance_ = some i := by rw [hu]; exact hi
          have hug : u.met.cur.gasForExecution.toNat < 2 ^ 63 := by rw [hu]; exact hg
          have h5 := gasLeft_spend hui hug rem
          rw [← hv] at h5
          refine ⟨?_, ?_, ?_, ?_, fin v (by rw [hv, hu]; rfl) _, ?_, hR0, ?_, ?_⟩
          · show v.world = w'
            rw [hv, hu]; rfl
          · show v.rt = s.rt
            rw [hv, hu]; rfl
          · show v.sto = s.sto
            rw [hv, hu]; rfl
          · show v.big = s.big
            rw [hv, hu]; rfl
          · rw [← hp]; exact hRr
          · show v.gasLeft.toNat + _ + _ = _
            rw [hcross.2, ← hp]
            simp only [Bool.false_eq_true, if_false]
            omega
          · rw [hcross.2]; simp
        · cases h
        · cases h
      · rw [if_neg hcross] at h
        cases h
        refine ⟨?_, ?_, ?_, ?_, fin u (by rw [hu]; rfl) _, ?_, hR0, ?_, ?_⟩
        · show u.world = w'
          rw [hu]; rfl
        · show u.rt = s.rt
          rw [hu]; rfl
        · show u.sto = s.sto
          rw [hu]; rfl
        · show u.big = s.big
          rw [hu]; rfl
        · rw [← hp]; exact hRr
        · show u.gasLeft.toNat + _ + _ = _
          rw [← hp]
          cases same with
          | true => simp; omega
          | false =>
            simp only [Bool.not_false, Bool.and_true, Bool.not_eq_true] at hcross
            rw [hR0 hcross]; simp; omega
        · intro _; exact hRle
  · cases h
  · cases h

/-- **C59**, refusals: then no transfer, log or other result is recorded. -/
theorem c59_refused {dest sender : Addr} {token : Bytes} {nonce : UInt64} {value : Int} {ci : Option CallInput} {s t : St χ A} {e : Err}
    (h : transferESDT E dest sender token nonce value ci s = (.ok (.error e), t)) : t.out = s.out := by
  rw [transferESDT_eq] at h
  generalize (E.hook.isSmartContract s.world dest && ci.isSome) = runs at h
  generalize sameShard E s sender dest = same at h
  rcases bind_ok h with ⟨r, u, h1, h⟩ | ⟨_, h⟩ | ⟨_, h⟩
  · rcases executeEsdtTransfer_ok h1 with ⟨e, rfl, ho⟩ | ⟨b, w', used, hb, hrc, rfl, hp, hle, hu, i, hi⟩
    · cases h; exact ho.1
    · have ho : u.out = s.out := by rw [hu]; rfl
      dsimp only at h
      unfold afterTokens at h
      split at h
      · cases h; exact ho
      rw [get_bind] at h
      dsimp only at h
      generalize (if runs = true then tokenGas ci - used else 0 : UInt64) = R at h
      split at h
      · cases h; exact ho
      split at h
      · rcases bind_ok h with ⟨_, v, _, h⟩ | ⟨_, h⟩ | ⟨_, h⟩
        · cases h
        · cases h
        · cases h
      · cases h
  · cases h
  · cases h

theorem transferESDT_refused {dest sender : Addr} {token : Bytes} {nonce : UInt64} {value : Int} {ci : Option CallInput} {s t : St χ A} {e : Err}
    (h : transferESDT E dest sender token nonce value ci s = (.ok (.error e), t)) : t.rt = s.rt := by
  rw [transferESDT_eq] at h
  generalize (E.hook.isSmartContract s.world dest && ci.isSome) = runs at h
  generalize sameShard E s sender dest = same at h
  rcases bind_ok h with ⟨r, u, h1, h⟩ | ⟨_, h⟩ | ⟨_, h⟩
  · rcases executeEsdtTransfer_ok h1 with ⟨e, rfl, ho⟩ | ⟨b, w', used, hb, hrc, rfl, hp, hle, hu, i, hi⟩
    · cases h; exact ho.2
    · have ho : u.rt = s.rt := by rw [hu]; rfl
      dsimp only at h
      unfold afterTokens at h
      split at h
      · cases h; exact ho
      rw [get_bind] at h
      dsimp only at h
      generalize (if runs = true then tokenGas ci - used else 0 : UInt64) = R at h
      split at h
      · cases h; exact ho
      split at h
      · rcases bind_ok h with ⟨_, v, _, h⟩ | ⟨_, h⟩ | ⟨_, h⟩
        · cases h
        · cases h
        · cases h
      · cases h
  · cases h
  · cases h

/-! ### Calls of the built-in functions -/

theorem afterBuiltin_iff {i : CallInput} {o : VMOutput} {s : St χ A} {post : Option CallInput} (h : (afterBuiltin E i o s).1 = .ok (.ok post)) (j : CallInput) :
    post = some j ↔ Follows E s.world i o j := by
  unfold afterBuiltin at h
  by_cases hrc : o.returnCode ≠ .ok
  · rw [if_pos hrc] at h
    cases h
    exact ⟨(fun h => by cases h), fun h => absurd h.granted hrc⟩
  rw [if_neg hrc] at h
  have hok : o.returnCode = .ok := Decidable.byContradiction hrc
  have hrecv : (if i.function = esdtNFTTransferName ∧ i.vm.caller = i.recipient then i.vm.args[3]? else some i.recipient) = receiver i := by
    unfold receiver; rw [tokenNftName]
  rw [hrecv] at h
  cases hr : receiver i with
  | none => rw [hr] at h; cases h
  | some d =>
    rw [hr] at h
    dsimp only at h
    rw [get_bind] at h
    by_cases h1 : sameShard E s i.vm.caller d = true
    · have h1' : E.hook.shardOf s.world i.vm.caller = E.hook.shardOf s.world d := by simpa [sameShard] using h1
      rw [h1] at h
      simp only [Bool.not_true, Bool.false_eq_true, if_false] at h
      by_cases h2 : E.hook.isSmartContract s.world d = true
      · rw [h2] at h
        simp only [Bool.not_true, Bool.false_eq_true, if_false] at h
        by_cases h3 : ∃ acc x, o.accounts.get? d = some acc ∧ acc.transfers = [x]
        · obtain ⟨acc, x, ha, hx⟩ := h3
          rw [ha, Option.map_some, hx] at h
          dsimp only at h
          cases hp : parseCallData x.data with
          | none => rw [hp] at h; cases h
          | some fa =>
            obtain ⟨f, args⟩ := fa
            rw [hp] at h
            dsimp only at h
            have hf : ∀ new : CallInput, new.vm.esdt = [] → ∀ y, fillEsdt i new = some y → y = { new with vm := { new.vm with esdt := tokensOf i } } := by
              intro new hnew y hy
              unfold fillEsdt at hy
              unfold tokensOf
              rw [tokenName, tokenNftName]
              split at hy
              · rename_i hfn
                rw [if_pos hfn]
                split at hy
                · rename_i heq; rw [heq]; cases hy; rfl
                · cases hy
              · rename_i hfn
                rw [if_neg hfn]
                split at hy
                · rename_i hfn2
                  rw [if_pos hfn2]
                  split at hy
                  · rename_i heq; rw [heq]; cases hy; rfl
                  · cases hy
                · rename_i hfn2
                  rw [if_neg hfn2]
                  cases hy
                  rw [← hnew]
            generalize hy : fillEsdt i _ = y' at h
            match y', hy, h with
            | none, _, h => cases h
            | some y, hy, h =>
              cases h
              have := hf _ rfl y hy
              subst this
              refine ⟨fun h => ?_, fun h => ?_⟩
              · cases h
                exact ⟨hok, hr, h1', h2, ⟨acc, x, ha, hx, hp, rfl, rfl⟩, rfl, rfl⟩
              · have hd : d = j.recipient := by have := h.receiver; rw [hr] at this; exact Option.some.inj this
                obtain ⟨acc', x', ha', hx', hp', hg, hl⟩ := h.message
                rw [← hd, ha] at ha'
                cases ha'
                rw [hx] at hx'
                cases hx'
                rw [hp] at hp'
                have hi := h.input
                have hpl := h.plain
                obtain ⟨jv, jr, jf, ja⟩ := j
                simp only [Option.some.injEq, Prod.mk.injEq] at hp' hd hpl hg hl hi ⊢
                rw [hi, hg, hl, ← hp'.1, ← hp'.2, hd, hpl]
        · have hnone : post = none := by
            generalize hq : (o.accounts.get? d).map OutAcc.transfers = q at h
            match q, h, hq with
            | some [x], h, hq =>
              rw [Option.map_eq_some_iff] at hq
              obtain ⟨acc, h4, h5⟩ := hq
              exact absurd ⟨acc, x, h4, h5⟩ h3
            | none, h, _ => cases h; rfl
            | some [], h, _ => cases h; rfl
            | some (_ :: _ :: _), h, _ => cases h; rfl
          rw [hnone]
          refine ⟨(fun h => by cases h), fun h => ?_⟩
          have hd : d = j.recipient := by have := h.receiver; rw [hr] at this; exact Option.some.inj this
          obtain ⟨acc', x', ha', hx', _⟩ := h.message
          rw [← hd] at ha'
          exact absurd ⟨acc', x', ha', hx'⟩ h3
      · have h2' : E.hook.isSmartContract s.world d = false := by simpa using h2
        rw [h2'] at h
        cases h
        refine ⟨(fun h => by cases h), fun h => ?_⟩
        have hd : d = j.recipient := by have := h.receiver; rw [hr] at this; exact Option.some.inj this
        have := h.contract
        rw [← hd, h2'] at this
        cases this
    · have h1' : sameShard E s i.vm.caller d = false := by simpa using h1
      rw [h1'] at h
      cases h
      refine ⟨(fun h => by cases h), fun h => ?_⟩
      have hd : d = j.recipient := by have := h.receiver; rw [hr] at this; exact Option.some.inj this
      have := h.here
      rw [← hd] at this
      simp [sameShard, this] at h1'

theorem addEsdtTransfer_eq (s : St χ A) (i : CallInput) (o : VMOutput) (hok : o.returnCode = .ok)
    (hs : E.hook.shardOf s.world i.vm.caller = E.hook.shardOf s.world i.recipient) {d : Addr} (hd : shownAt i = some d) :
    addEsdtTransfer E s i o = { o with
      accounts := o.accounts.insert d (let acc := (o.accounts.get? d).getD {}; { acc with transfers := acc.transfers ++ [shownTransfer i] }) } := by
  unfold shownAt at hd
  rw [tokenName, tokenNftName] at hd
  unfold addEsdtTransfer
  rw [if_neg (fun h => h hok)]
  have : sameShard E s i.recipient i.vm.caller = true := by simp [sameShard, hs]
  rw [this]
  simp only [Bool.not_true, Bool.false_eq_true, if_false]
  split at hd
  · rename_i hf
    cases hd
    rw [if_pos hf]
    rfl
  · rename_i hf
    rw [if_neg hf]
    split at hd
    · rename_i hf2
      rw [if_pos hf2.1]
      match ha : i.vm.args, hf2.2 with
      | [a, b, c, d'], _ =>
        rw [ha] at hd
        cases hd
        dsimp only
        rw [← ha]
        rfl
    · cases hd

theorem addEsdtTransfer_same (s : St χ A) (i : CallInput) (o : VMOutput)
    (hs : o.returnCode ≠ .ok ∨ E.hook.shardOf s.world i.vm.caller ≠ E.hook.shardOf s.world i.recipient ∨ shownAt i = none) :
    addEsdtTransfer E s i o = o := by
  unfold addEsdtTransfer
  split
  · rfl
  · rename_i hok
    split
    · rfl
    · rename_i hsh
      have hsh : E.hook.shardOf s.world i.recipient = E.hook.shardOf s.world i.vm.caller := by simpa [sameShard] using hsh
      rcases hs with hs | hs | hs
      · exact absurd hs hok
      · exact absurd hsh.symm hs
      · unfold shownAt at hs
        rw [tokenName, tokenNftName] at hs
        split at hs
        · cases hs
        · rename_i hf
          rw [if_neg hf]
          split at hs
          · rename_i hf2
            match ha : i.vm.args, hf2.2 with
            | [a, b, c, d'], _ => rw [ha] at hs; cases hs
          · rename_i hf2
            split
            · rename_i hf3
              split
              · rename_i ha
                exact absurd ⟨hf3, by rw [ha]; rfl⟩ hf2
              · rfl
            · rfl

/-- **C59**, calls of the chain's built-in functions. The request is passed on unchanged and the chain's new state is kept. Exactly if a
contract call is due (`Follows`) it is handed on, and then the messages, which that call replaces, are dropped. A transfer of tokens in the
shard is recorded once, with its sender, at who receives the tokens; nothing else is added. -/
theorem c59_builtin {i : CallInput} {s t : St χ A} {post : Option CallInput} {b : BuiltinOutput} (h : callBuiltin E i s = (.ok (.ok (post, b)), t)) :
    ∃ b0 w', E.hook.processBuiltIn s.world i = (.ok b0, w') ∧ t.world = w' ∧ t.out = s.out ∧ t.sto = s.sto ∧ t.rt = s.rt ∧
      (∀ j, post = some j ↔ Follows E w' i b0.out j) ∧
      b.out = { b0.out with accounts := b.out.accounts } ∧
      ∀ a, b.out.accounts.get? a =
        let kept := (b0.out.accounts.get? a).map fun acc => if post.isSome then { acc with transfers := [] } else acc
        if b0.out.returnCode = .ok ∧ E.hook.shardOf w' i.vm.caller = E.hook.shardOf w' i.recipient ∧ shownAt i = some a then
          some { kept.getD {} with transfers := (kept.getD {}).transfers ++ [shownTransfer i] }
        else kept := by
  unfold callBuiltin processBuiltin at h
  rcases bind_ok h with ⟨x, v, h1, h⟩ | ⟨_, h⟩ | ⟨_, h⟩
  · simp only [M.lift, Prod.mk.injEq, Res.ok.injEq] at h1
    obtain ⟨h1, hv⟩ := h1
    cases x with
    | error e =>
      dsimp only at h
      rcases bind_ok h with ⟨_, _, _, h⟩ | ⟨_, h⟩ | ⟨_, h⟩
      · cases h
      · cases h
      · cases h
    | ok b0 =>
      dsimp only at h
      rcases bind_ok h with ⟨y, v', h2, h⟩ | ⟨_, h⟩ | ⟨_, h⟩
      · have hv' : v' = v := by rw [← afterBuiltin_state (E := E) i b0.out v, h2]
        subst hv'
        cases y with
        | error e =>
          dsimp only at h
          rcases bind_ok h with ⟨_, _, _, h⟩ | ⟨_, h⟩ | ⟨_, h⟩
          · cases h
          · cases h
          · cases h
        | ok p =>
          dsimp only at h
          rcases bind_ok h with ⟨_, z, h3, h⟩ | ⟨_, h⟩ | ⟨_, h⟩
          · rw [get_bind] at h
            unfold trackBuiltinGas at h3
            obtain ⟨hz, _⟩ := useGas_ok h3
            cases h
            have hw : t.world = v'.world := by rw [hz]; rfl
            have hiff := afterBuiltin_iff (congrArg Prod.fst h2)
            have hget : ∀ a, (if post.isSome = true then clearTransfers b0.out else b0.out).accounts.get? a =
                (b0.out.accounts.get? a).map fun acc => if post.isSome then { acc with transfers := [] } else acc := by
              intro a
              cases post with
              | none => simp
              | some j =>
                simp only [Option.isSome_some, if_true]
                exact AMap.get?_mapVal (fun acc : OutAcc => { acc with transfers := [] }) b0.out.accounts a
            have hcl : (if post.isSome = true then clearTransfers b0.out else b0.out) =
                { b0.out with accounts := (if post.isSome = true then clearTransfers b0.out else b0.out).accounts } := by
              split <;> rfl
            generalize (if post.isSome = true then clearTransfers b0.out else b0.out) = o at hget hcl
            have hrc : o.returnCode = b0.out.returnCode := by rw [hcl]
            refine ⟨b0, v'.world, ?_, hw, ?_, ?_, ?_, hiff, ?_, ?_⟩
            · rw [← h1, ← hv]
            · rw [hz, ← hv]; rfl
            · rw [hz, ← hv]; rfl
            · rw [hz, ← hv]; rfl
            · show addEsdtTransfer E t i o = { b0.out with accounts := (addEsdtTransfer E t i o).accounts }
              by_cases hs : o.returnCode = .ok ∧ E.hook.shardOf t.world i.vm.caller = E.hook.shardOf t.world i.recipient ∧ ∃ d, shownAt i = some d
              · obtain ⟨hs1, hs2, d, hs3⟩ := hs
                rw [addEsdtTransfer_eq t i o hs1 hs2 hs3, hcl]
              · rw [addEsdtTransfer_same t i o, hcl]
                by_cases h5 : o.returnCode = .ok
                · by_cases h6 : E.hook.shardOf t.world i.vm.caller = E.hook.shardOf t.world i.recipient
                  · cases h7 : shownAt i with
                    | none => exact .inr (.inr rfl)
                    | some d => exact absurd ⟨h5, h6, d, h7⟩ hs
                  · exact .inr (.inl h6)
                · exact .inl h5
            · intro a
              show (addEsdtTransfer E t i o).accounts.get? a = _
              rw [← hw, ← hrc]
              dsimp only
              rw [← hget a]
              by_cases h5 : o.returnCode = .ok
              · by_cases h6 : E.hook.shardOf t.world i.vm.caller = E.hook.shardOf t.world i.recipient
                · cases h7 : shownAt i with
                  | none => rw [if_neg (by simp), addEsdtTransfer_same t i o (.inr (.inr h7))]
                  | some d =>
                    rw [addEsdtTransfer_eq t i o h5 h6 h7]
                    dsimp only
                    rw [AMap.get?_insert]
                    by_cases hd : d = a
                    · subst hd
                      rw [if_pos rfl, if_pos ⟨h5, h6, rfl⟩]
                    · rw [if_neg hd, if_neg (fun h => hd (Option.some.inj h.2.2))]
                · rw [if_neg (fun h => h6 h.2.1), addEsdtTransfer_same t i o (.inr (.inl h6))]
              · rw [if_neg (fun h => h5 h.1), addEsdtTransfer_same t i o (.inl h5)]
          · cases h
          · cases h
      · cases h
      · cases h
  · cases h
  · cases h

theorem c59_builtin_gas {i : CallInput} {s t : St χ A} (hg : s.met.cur.gasForExecution.toNat < 2 ^ 63) {r : Except Err (Option CallInput × BuiltinOutput)}
    (h : callBuiltin E i s = (.ok r, t)) :
    t.gasLeft.toNat = s.gasLeft.toNat - match r with
      | .error _ => i.vm.gasProvided.toNat
      | .ok (post, b) => i.vm.gasProvided.toNat - b.out.gasRemaining.toNat - (match post with | none => 0 | some j => j.vm.gasProvided.toNat) := by
  unfold callBuiltin processBuiltin at h
  rcases bind_ok h with ⟨x, v, h1, h⟩ | ⟨_, h⟩ | ⟨_, h⟩
  · simp only [M.lift, Prod.mk.injEq, Res.ok.injEq] at h1
    obtain ⟨h1, hv⟩ := h1
    have hsp : ∀ (g : UInt64) (u : St χ A), useGas g v = (.ok (), u) → u.gasLeft.toNat = s.gasLeft.toNat - g.toNat := by
      intro g u hu
      obtain ⟨hu, j, hj⟩ := useGas_ok hu
      have := gasLeft_spend hj (by rw [← hv]; exact hg) g
      rw [hu, this, ← hv]
      rfl
    cases x with
    | error e =>
      dsimp only at h
      rcases bind_ok h with ⟨_, u, h2, h⟩ | ⟨_, h⟩ | ⟨_, h⟩
      · cases h; exact hsp _ _ h2
      · cases h
      · cases h
    | ok b0 =>
      dsimp only at h
      rcases bind_ok h with ⟨y, v', h2, h⟩ | ⟨_, h⟩ | ⟨_, h⟩
      · have hv' : v' = v := by rw [← afterBuiltin_state (E := E) i b0.out v, h2]
        subst hv'
        cases y with
        | error e =>
          dsimp only at h
          rcases bind_ok h with ⟨_, u, h2, h⟩ | ⟨_, h⟩ | ⟨_, h⟩
          · cases h; exact hsp _ _ h2
          · cases h
          · cases h
        | ok p =>
          dsimp only at h
          rcases bind_ok h with ⟨_, z, h3, h⟩ | ⟨_, h⟩ | ⟨_, h⟩
          · rw [get_bind] at h
            unfold trackBuiltinGas at h3
            have h4 := hsp _ _ h3
            cases h
            rw [h4]
            have hrem : ∀ o : VMOutput, (addEsdtTransfer E t i o).gasRemaining = o.gasRemaining := by
              intro o
              unfold addEsdtTransfer addTransferToOutput
              split
              · rfl
              · split
                · rfl
                · split
                  · rfl
                  · split
                    · split <;> rfl
                    · rfl
            dsimp only
            rw [hrem]
            cases p with
            | none => simp [subU64_nat]
            | some j => simp [subU64_nat, clearTransfers]
          · cases h
          · cases h
      · cases h
      · cases h
  · cases h
  · cases h

/-! ### Examples -/

section
open Fixture
/-- a node that takes 100 gas for a transfer and logs it -/
def tokenHook : Hook World := { hook with processBuiltIn := fun w i =>
  (.ok { out := { gasRemaining := i.vm.gasProvided - 100, logs := [{ identifier := [8], address := i.vm.caller, topics := [], data := [] }] } },
    { World.cur w with log := i :: (World.cur w).log } :: w) }
def tokenEnv : Env World EeiCall := { env0 with hook := tokenHook }
/-- another shard -/
def farAddr : Addr := 9 :: (addr 101).tail
def tokenCall (d : Addr) : CallInput := { vm := { caller := addr 100, gasProvided := 500, args := [[1]] }, recipient := d, function := f }

/-- to a contract of the shard, with a call -/
example : (match transferESDT tokenEnv (addr 101) (addr 100) [0xaa] 0 7 (some (tokenCall (addr 101))) (running) with
    | (.ok (.ok rem), t) => decide (rem = 400 ∧ t.gasLeft = 900 ∧ t.out.cur.logs.length = 1 ∧
        (transfers t.out.cur (addr 101)).map (fun x => (x.gasLimit, x.sender)) = [(0, addr 100)] ∧
        t.world.cur.log.map (fun i => (i.function, i.recipient, i.vm.args)) = [(esdtTransferName, addr 101, [[0xaa], [7]])])
    | _ => false) = true := by decide +kernel
/-- to a contract of another shard, with a call: its gas is paid as well -/
example : (match transferESDT tokenEnv farAddr (addr 100) [0xaa] 3 7 (some (tokenCall farAddr)) (running) with
    | (.ok (.ok rem), t) => decide (rem = 400 ∧ t.gasLeft = 500 ∧ (transfers t.out.cur farAddr).map (fun x => x.gasLimit) = [400] ∧
        t.world.cur.log.map (fun i => (i.function, i.recipient, i.vm.args)) = [(esdtNFTTransferName, addr 100, [[0xaa], [3], [7], farAddr])])
    | _ => false) = true := by decide +kernel
/-- too little gas for the price -/
example : (match transferESDT tokenEnv (addr 101) (addr 100) [0xaa] 0 7 (some { tokenCall (addr 101) with vm := { (tokenCall (addr 101)).vm with gasProvided := 99 } }) (running) with
    | (.ok (.error e), t) => decide (e = .notEnoughGas ∧ transfers t.out.cur (addr 101) = [])
    | _ => false) = true := by decide +kernel
/-- the built-in function called by a contract: recorded at the recipient, from the caller -/
example : (match callBuiltin tokenEnv { vm := { caller := addr 100, gasProvided := 500, args := [[0xaa], [7]] }, recipient := addr 2, function := esdtTransferName } (running) with
    | (.ok (.ok (none, b)), t) => decide (t.gasLeft = 900 ∧ (transfers b.out (addr 2)).map (fun x => (x.sender, x.data)) =
        [(addr 100, buildCallData esdtTransferName [[0xaa], [7]])])
    | _ => false) = true := by decide +kernel
/-- a node whose transfers carry a message: the contract call is due -/
def msgHook : Hook World := { hook with processBuiltIn := fun w i =>
  (.ok { out := { gasRemaining := 0, accounts := AMap.empty.insert i.recipient { transfers := [{ data := f, gasLimit := 300 }] } } }, w) }
example : (match callBuiltin { env0 with hook := msgHook }
      { vm := { caller := addr 100, gasProvided := 500, args := [[0xaa], [7], f] }, recipient := addr 101, function := esdtTransferName } (running) with
    | (.ok (.ok (some j, b)), t) => decide (t.gasLeft = 800 ∧ j.function = f ∧ j.vm.gasProvided = 300 ∧ j.vm.esdt = [{ value := 7, name := [0xaa] }] ∧
        (transfers b.out (addr 101)).length = 1)
    | _ => false) = true := by decide +kernel
end

end Arwen.Props
