import Verif.State.Machine
/-
What a contract can see of its own call, and what the host keeps for the calls below it.
-/
namespace Arwen.Spec
open Arwen

/-- The call a contract is executing, and how many calls are below it in each context. -/
structure CallerView where
  address : Addr
  caller : Addr
  arguments : List Bytes
  function : Bytes
  value : Int
  storageAddress : Addr
  runningInstance : Option Nat
  bigIntHeight : Nat
  storageHeight : Nat
  outputHeight : Nat
  meteringHeight : Nat
  runtimeHeight : Nat
  instanceHeight : Nat
  snapshotHeight : Nat
  deriving DecidableEq

def callerView {χ A : Type} (s : St χ A) : CallerView where
  address := s.rt.cur.scAddress
  caller := s.rt.cur.vmInput.caller
  arguments := s.rt.cur.vmInput.args
  function := s.rt.cur.callFunction
  value := s.rt.cur.vmInput.callValue
  storageAddress := s.sto.addr
  runningInstance := s.rt.instance_
  bigIntHeight := s.big.stack.length
  storageHeight := s.sto.stack.length
  outputHeight := s.out.stack.length
  meteringHeight := s.met.stack.length
  runtimeHeight := s.rt.stack.length
  instanceHeight := s.rt.instanceStack.length
  snapshotHeight := s.bcStack.length

/-- the value behind a big-integer handle of the executing contract, if the handle exists -/
def bigInt {χ A : Type} (s : St χ A) (h : Int32) : Option Int := s.big.vals.get? h

/-- Everything the executing transaction has produced so far: accounts with balances, nonces, storage, code and transfers;
logs, return data, refund and return code. -/
def effects {χ A : Type} (s : St χ A) : VMOutput := s.out.cur

end Arwen.Spec
