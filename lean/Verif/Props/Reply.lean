import Verif.Spec.Reply
import Verif.Props.Callback
import Verif.Props.Groups
/-
C29 for calls that came from another shard.
-/
namespace Arwen.Props
open Arwen Arwen.Spec
variable {χ A : Type} {E : Env χ A}

theorem reply_sent {s t : St χ A} (h : sendCallbackToCaller E s = (.ok none, t)) : Answered E s t := by
  unfold sendCallbackToCaller at h
  rw [get_bind, lift_bind] at h
  have hb := transfers_transferValueOnly (E := E) s.rt.cur.vmInput.caller s.rt.cur.scAddress s.rt.cur.vmInput.callValue
    (s.gasLeft > 0 && CallType.asynchronousCallBack ≠ .asynchronousCallBack) s
  have hr := transferValueOnly_rt (E := E) s.rt.cur.vmInput.caller s.rt.cur.scAddress s.rt.cur.vmInput.callValue
    (s.gasLeft > 0 && CallType.asynchronousCallBack ≠ .asynchronousCallBack) s
  have hw := transferValueOnly_world (E := E) s.rt.cur.vmInput.caller s.rt.cur.scAddress s.rt.cur.vmInput.callValue
    (s.gasLeft > 0 && CallType.asynchronousCallBack ≠ .asynchronousCallBack) s
  have hm := transferValueOnly_met (E := E) s.rt.cur.vmInput.caller s.rt.cur.scAddress s.rt.cur.vmInput.callValue
    (s.gasLeft > 0 && CallType.asynchronousCallBack ≠ .asynchronousCallBack) s
  unfold transfer at h
  generalize transferValueOnly E s.rt.cur.vmInput.caller s.rt.cur.scAddress s.rt.cur.vmInput.callValue
    (s.gasLeft > 0 && CallType.asynchronousCallBack ≠ .asynchronousCallBack) s = q at h hb hr hw hm
  obtain ⟨e, u⟩ := q
  dsimp only at h hb hr hw hm
  cases e with
  | some e =>
    dsimp only at h
    rcases bind_ok h with ⟨_, _, _, h⟩ | ⟨_, h⟩ | ⟨_, h⟩ <;> cases h
  | none =>
    dsimp only at h
    rw [get_bind] at h
    rcases bind_ok h with ⟨_, v, h1, h⟩ | ⟨_, h⟩ | ⟨_, h⟩
    · cases h
      obtain ⟨rfl, i, hi⟩ := useGas_ok h1
      refine ⟨?_, fun a ha => ?_, ?_, hw⟩
      · show transfers (u.out.modAcc _ _).cur _ = _
        rw [← hb]
        unfold transfers
        rw [get_modAcc, if_pos rfl]
        cases u.out.cur.accounts.get? s.rt.cur.vmInput.caller <;> rfl
      · show transfers (u.out.modAcc _ _).cur a = _
        rw [← hb]
        unfold transfers
        rw [get_modAcc, if_neg (fun h => ha h.symm)]
      · intro hg
        have := gasLeft_spend (s := addTransfer s.rt.cur.vmInput.caller { value := s.rt.cur.vmInput.callValue, gasLimit := s.gasLeft, gasLocked := 0, data := buildCallData [] (E.retCodeText s.out.cur.returnCode :: s.out.cur.returnData), callType := .asynchronousCallBack, sender := s.rt.cur.scAddress } u) hi (by show u.met.cur.gasForExecution.toNat < _; rw [hm]; exact hg)
          (addTransfer s.rt.cur.vmInput.caller { value := s.rt.cur.vmInput.callValue, gasLimit := s.gasLeft, gasLocked := 0, data := buildCallData [] (E.retCodeText s.out.cur.returnCode :: s.out.cur.returnData), callType := .asynchronousCallBack, sender := s.rt.cur.scAddress } u).gasLeft
        rw [Nat.sub_self] at this
        exact UInt64.toNat_inj.mp this
    · cases h
    · cases h

theorem setupCallsGas_size {g : UInt64} {info info1 : AsyncContextInfo} (h : setupCallsGas g info = .ok info1) :
    info1.contexts.size = info.contexts.size := by
  unfold setupCallsGas at h
  dsimp only at h
  split at h
  · cases h
  · split at h
    · cases h
    · cases h
      unfold AMap.size AMap.mapVal
      simp

theorem processed {ex : Executor χ A} {w u : St χ A} {info' pending : AsyncContextInfo}
    (h : processAsyncInfo E ex w.rt.cur.asyncContextInfo w = (.ok (info', .ok pending), u)) :
    ∃ calls, Processed E ex w u calls ∧ (pending.contexts.size = 0 ↔ ∀ c ∈ calls, c.status ≠ .pending) := by
  by_cases hz : w.rt.cur.asyncContextInfo.contexts.size = 0
  · have h' := h
    unfold processAsyncInfo at h'
    rw [if_pos hz] at h'
    cases h'
    exact ⟨[], .inl ⟨hz, rfl, rfl⟩, by simp [hz]⟩
  · refine ⟨allCalls info', .inr ⟨info', pending, hz, rfl, h⟩, fun hp => ?_, fun hp => ?_⟩
    · unfold processAsyncInfo at h
      rw [if_neg hz, get_bind] at h
      generalize setupCallsGas w.gasLeft w.rt.cur.asyncContextInfo = g at h
      cases g with
      | error e => cases h
      | ok info1 =>
        rcases bind_ok h with ⟨⟨info2, e⟩, u, h2, h⟩ | ⟨_, h⟩ | ⟨_, h⟩
        · cases e with
          | some e => cases h
          | none =>
            dsimp only at h
            split at h
            · cases h; exact (pendingCalls_none _).mp hp
            · rename_i hpz
              rcases bind_ok h with ⟨e, v, h3, h⟩ | ⟨_, h⟩ | ⟨_, h⟩
              · cases e with
                | some e => cases h
                | none =>
                  dsimp only at h
                  rw [get_bind] at h
                  generalize h1 : setupCallsGas v.gasLeft (pendingCalls info2) = g at h
                  cases g with
                  | error e => cases h
                  | ok p =>
                    rcases bind_ok h with ⟨e, v, h3, h⟩ | ⟨_, h⟩ | ⟨_, h⟩
                    · cases e with
                      | some e => cases h
                      | none =>
                        cases h
                        refine absurd ?_ hpz
                        rw [← setupCallsGas_size h1]; exact hp
                    · cases h
                    · cases h
              · cases h
              · cases h
        · cases h
        · cases h
    · obtain ⟨_, _, _, _, _, h1⟩ := c29_group ex hz h
      exact (h1 hp).2

/-- **C29**, calls from other shards: when the function asked for by an asynchronous call has ended without an error and the calls that it
registered itself were processed, the contract that called is answered, once, unless there are calls that are still to be answered; in that case nobody is. -/
theorem c29_reply (ex : Executor χ A) {s t : St χ A} (hc : s.rt.cur.vmInput.callType = .asynchronousCall)
    (h : callMethod E ex s = (.ok none, t)) :
    ∃ w u calls, FunctionEnded E ex s w ∧ Processed E ex w u calls ∧
      ((∀ c ∈ calls, c.status ≠ .pending) → Answered E u t) ∧ ((∃ c ∈ calls, c.status = .pending) → t = u) := by
  unfold callMethod at h
  rw [get_bind] at h
  generalize verifyAllowed s = va at h
  cases va with
  | some e => cases h
  | none =>
    dsimp only at h
    rcases bind_ok h with ⟨r, s1, h1, h⟩ | ⟨_, h⟩ | ⟨_, h⟩
    · cases r with
      | error e =>
        dsimp only at h
        rw [if_neg (by rw [hc]; simp)] at h
        cases h
      | ok f =>
        cases f with
        | none => cases h
        | some f =>
          dsimp only at h
          rcases bind_ok h with ⟨r, w, h2, h⟩ | ⟨_, h⟩ | ⟨_, h⟩
          · cases r with
            | some e => cases h
            | none =>
              dsimp only at h
              rcases bind_ok h with ⟨r, w', h3, h⟩ | ⟨_, h⟩ | ⟨_, h⟩
              · cases h3
                generalize checkFinalGas w = cg at h
                cases cg with
                | some e => cases h
                | none =>
                  dsimp only at h
                  unfold afterMethod at h
                  rw [get_bind, hc] at h
                  dsimp only at h
                  rcases bind_ok h with ⟨⟨info', r⟩, u, h4, h⟩ | ⟨_, h⟩ | ⟨_, h⟩
                  · cases r with
                    | error e => cases h
                    | ok pending =>
                      dsimp only at h
                      obtain ⟨calls, h5, h6⟩ := processed h4
                      refine ⟨w, u, calls, ⟨f, s1, h1, h2⟩, h5, fun hn => ?_, fun ⟨c, hm, hp⟩ => ?_⟩
                      · rw [if_pos (h6.mpr hn)] at h
                        exact reply_sent h
                      · rw [if_neg (fun hz => h6.mp hz c hm hp)] at h
                        cases h; rfl
                  · cases h
                  · cases h
              · cases h
              · cases h
          · cases h
          · cases h
    · cases h
    · cases h

/-! ### Examples -/

section
open Fixture

/-- an asynchronous call that arrives from another shard -/
def fromFar (dst : Addr) (f : Bytes) : Tx :=
  .call { vm := { caller := addr 7, gasProvided := 100000, callType := .asynchronousCall }, recipient := dst, function := f }
/-- a contract whose function `g` registers a call to a contract of another shard -/
def waitEnv : Env World EeiCall := envWith [([1], twoMod), ([2], mod [(Fixture.g, .store 300 [77] <| .call (.finish 300 1) fun _ => .ret)])]
def waitHost (l : List (Addr × UserAcct)) : St World EeiCall := hostLock (node ((addr 100, contract [1] 50) :: l))

/-- the contract answers: one message to the contract that called, with the name of the code and the result -/
example : (match (runTx waitEnv 5 (fromFar (addr 101) Fixture.g) (waitHost [(addr 101, contract [2] 50)])).1 with
    | some (some o) => decide (o.returnCode = .ok ∧ (transfers o (addr 7)).map (·.data) = [callText [] [waitEnv.retCodeText .ok, [77]]] ∧ o.gasRemaining = 0)
    | _ => false) = true := by decide +kernel
/-- it answers after its own call was answered -/
example : (match (runTx waitEnv 5 (fromFar (addr 100) Fixture.g) (waitHost [(addr 101, contract [2] 50)])).1 with
    | some (some o) => decide (o.returnCode = .ok ∧ (transfers o (addr 7)).length = 1)
    | _ => false) = true := by decide +kernel
/-- it does not answer while its own call, which was sent to another shard, is not answered -/
example : (match (runTx waitEnv 5 (fromFar (addr 100) Fixture.g) (waitHost [])).1 with
    | some (some o) => decide (o.returnCode = .ok ∧ transfers o (addr 7) = [] ∧ (transfers o (addr 101)).length = 1)
    | _ => false) = true := by decide +kernel
end

end Arwen.Props
