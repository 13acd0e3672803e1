import Verif.Spec.Async
import Verif.Spec.Tokens
/-
How an asynchronous call that came from another shard is answered.
-/
namespace Arwen.Spec
variable {χ A : Type}

/-- The message that carries the outcome back to the calling contract: the name of the code and then the results, each in hexadecimal after a `@`;
with the value of the call and all the gas that is left. -/
def replyTo (E : Env χ A) (s : St χ A) : OutTransfer where
  value := s.rt.cur.vmInput.callValue
  gasLimit := s.gasLeft
  gasLocked := 0
  data := callText [] (E.retCodeText s.out.cur.returnCode :: s.out.cur.returnData)
  callType := .asynchronousCallBack
  sender := s.rt.cur.scAddress

/-- The contract that called is answered, once, and nothing else is sent; all gas has gone with the answer. -/
structure Answered (E : Env χ A) (s t : St χ A) : Prop where
  sent : transfers t.out.cur s.rt.cur.vmInput.caller = transfers s.out.cur s.rt.cur.vmInput.caller ++ [replyTo E s]
  others : ∀ a, a ≠ s.rt.cur.vmInput.caller → transfers t.out.cur a = transfers s.out.cur a
  gas : s.met.cur.gasForExecution.toNat < 2 ^ 63 → t.gasLeft = 0
  world : t.world = s.world

/-- the function that was asked for has ended in state `w` -/
def FunctionEnded (E : Env χ A) (ex : Executor χ A) (s w : St χ A) : Prop :=
  ∃ f s1, functionByCallType E s.rt.cur.vmInput.callType s = (.ok (.ok (some f)), s1) ∧ callFunction E ex f s1 = (.ok none, w)

/-- the calls that the contract registered were processed, with this result -/
def Processed (E : Env χ A) (ex : Executor χ A) (w u : St χ A) (calls : List AsyncGeneratedCall) : Prop :=
  (w.rt.cur.asyncContextInfo.contexts.size = 0 ∧ calls = [] ∧ u = w) ∨
  ∃ info' pending, w.rt.cur.asyncContextInfo.contexts.size ≠ 0 ∧ calls = allCalls info' ∧
    processAsyncInfo E ex w.rt.cur.asyncContextInfo w = (.ok (info', .ok pending), u)

end Arwen.Spec
