import Verif.Host.Exec
/-
Go maps have no order. Two model maps stand for the same Go map if every key has the same value; the order in which
the entries are listed (and so the order of Go's `range`) may differ.
-/
namespace Arwen.Spec

/-- the same Go map -/
def SameMap {K V : Type} [DecidableEq K] (a b : AMap K V) : Prop := ∀ k, a.get? k = b.get? k

/-- the same account: the storage updates may be listed in another order -/
structure SameAcc (a b : OutAcc) : Prop where
  storage : SameMap a.storage b.storage
  rest : { a with storage := AMap.empty } = { b with storage := AMap.empty }

/-- both present and related, or both absent -/
inductive SameOpt {V : Type} (R : V → V → Prop) : Option V → Option V → Prop
  | none : SameOpt R none none
  | some {a b : V} (h : R a b) : SameOpt R (some a) (some b)

/-- the same accounts -/
def SameAccs (a b : AMap Addr OutAcc) : Prop := ∀ k, SameOpt SameAcc (a.get? k) (b.get? k)

/-- the same output: accounts and storage updates may be listed in another order -/
structure SameOut (a b : VMOutput) : Prop where
  accounts : SameAccs a.accounts b.accounts
  rest : { a with accounts := AMap.empty } = { b with accounts := AMap.empty }

/-- the same groups of asynchronous calls (within a group the calls are a list) -/
structure SameInfo (a b : AsyncContextInfo) : Prop where
  contexts : SameMap a.contexts b.contexts
  caller : a.caller = b.caller
  returnData : a.returnData = b.returnData

end Arwen.Spec
