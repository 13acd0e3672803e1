import Verif.Spec.Storage
import Verif.Spec.Effects
import Verif.Spec.Async
import Verif.Spec.Calls
/-
The calls to other shards that a transaction waits for, and the callbacks that answer them.
-/
namespace Arwen.Spec
variable {χ A : Type}

/-- the key of the record of the pending calls of a transaction: the hash of the transaction and then `ARWEN@ASYNC` -/
def recordKey (txHash : Bytes) : Bytes := txHash ++ "ARWEN@ASYNC".toUTF8.data.toList

/-- the record of the pending calls, as stored by the running contract -/
def record (E : Env χ A) (s : St χ A) : Bytes := view E s s.sto.addr (recordKey s.rt.cur.vmInput.originalTxHash)

/-- some named group of calls has a call to `a` -/
def Awaits (info : AsyncContextInfo) (a : Addr) : Prop :=
  ∃ p ∈ info.contexts.entries, p.1 ≠ [] ∧ ∃ c ∈ p.2.calls, c.destination = a

/-- storage and transfers are the same in both states -/
structure Undisturbed (E : Env χ A) (s t : St χ A) : Prop where
  storage : ∀ a k, view E t a k = view E s a k
  transfers : ∀ a, transfers (effects t) a = transfers (effects s) a

/-- the message to the original caller that all calls were answered -/
def notice (s : St χ A) (info : AsyncContextInfo) (gas : UInt64) : OutTransfer where
  value := s.rt.cur.vmInput.callValue
  gasLimit := gas
  gasLocked := 0
  data := info.returnData
  callType := .asynchronousCallBack
  sender := s.rt.cur.scAddress

/-- The record is removed and the original caller is told, once; nothing else is stored or sent. -/
structure Concluded (E : Env χ A) (s t : St χ A) (info : AsyncContextInfo) : Prop where
  cleared : record E t = []
  storage : ∀ a k, ¬ (a = s.sto.addr ∧ k = recordKey s.rt.cur.vmInput.originalTxHash) → view E t a k = view E s a k
  told : ∃ g, transfers (effects t) info.caller = transfers (effects s) info.caller ++ [notice s info g]
  others : ∀ a, a ≠ info.caller → transfers (effects t) a = transfers (effects s) a

end Arwen.Spec
