import Verif.Spec.Storage
import Verif.Spec.Getters
/-
Storage, as contracts use it.
-/
namespace Arwen.Spec
variable {χ A : Type}

/-- bytes in the memory, with their number -/
structure BytesAt (mem : Bytes) (off len : Int32) (data : Bytes) : Prop where
  len : len.toInt = data.length
  data : Holds mem off data

/-- Contracts may write under this key: it is not one of the protocol's and not one of the host's. -/
def OwnKey (E : Env χ A) (s : St χ A) (k : Bytes) : Prop := ¬ E.elrondPrefix <+: k ∧ ¬ (arwenPrefix <+: k ∧ s.sto.protect = true)

/-- what the output says about an account -/
def noted (o : OutCtx) (a : Addr) : OutAcc := (o.cur.accounts.get? a).getD {}

/-- The outputs differ in entries of storages at most, and in the refund. -/
structure OnlyEntries (o o' : OutCtx) : Prop where
  rest : o' = { o with cur := { o.cur with accounts := o'.cur.accounts, gasRefund := o'.cur.gasRefund } }
  accounts : ∀ a, { noted o' a with storage := AMap.empty } = { noted o a with storage := AMap.empty }

/-- After `t`: the price has been paid, the running contract has the value under the key, and nothing else has changed. The bytes
that have been released are refunded. -/
structure Stored (E : Env χ A) (s t : St χ A) (i price : Nat) (k v : Bytes) (refund : Nat) : Prop where
  paid : OnlyPaid s { t with out := s.out } i price
  entries : ∀ a l, view E t a l = if a = s.sto.addr ∧ l = k then v else view E s a l
  out : OnlyEntries s.out t.out
  refund : 0 ≤ s.out.cur.gasRefund → s.out.cur.gasRefund + refund < 2 ^ 63 → t.out.cur.gasRefund = s.out.cur.gasRefund + refund

/-- No value in a storage has changed, and the output is the same. (That an entry has been read may be noted.) -/
structure Unstored (E : Env χ A) (s t : St χ A) : Prop where
  entries : ∀ a l, view E t a l = view E s a l
  out : OnlyEntries s.out t.out
  refund : t.out.cur.gasRefund = s.out.cur.gasRefund

/-- The function reads from a storage: it puts the value into the memory and answers `r`, whenever there is room, and otherwise may
also fail the execution. -/
structure Reads (E : Env χ A) (ex : Executor χ A) (p : Free χ A Int64) (s : St χ A) (i price : Nat) (off : Int32) (data : Bytes) (r : Int64) :
    Prop where
  room : Fits s i off data → ∃ t, interp E ex p s = (.ok r, t) ∧ Wrote s { t with out := s.out } i price off data ∧ Unstored E s t
  always : ∃ r' t, interp E ex p s = (.ok r', t) ∧
    (r' = r ∧ Wrote s { t with out := s.out } i price off data ∧ Unstored E s t ∨ t.curBp = .executionFailed)

/-- The function pays its price and answers a number; no value in a storage changes, and nothing else does. -/
def TellsEntry (E : Env χ A) (ex : Executor χ A) (p : Free χ A Int64) (s : St χ A) (i price : Nat) (r : Int64) : Prop :=
  ∃ t, interp E ex p s = (.ok r, t) ∧ OnlyPaid s { t with out := s.out } i price ∧ Unstored E s t

/-- the answer to a store -/
def storeAnswer (old new : Bytes) : Int64 :=
  if old = new then 0 else if old = [] then 2 else if new = [] then 3 else 1

/-- price of reading an entry, besides the price of the function -/
def readCost (g : GasSchedule) (k v : Bytes) : Nat := keyCost g k + g.dataCopyPerByte.toNat * v.length

/-- Contracts may read this storage: it is the running contract's own, or that of an account whose owner allows it. -/
def MayRead (E : Env χ A) (s : St χ A) (a : Addr) : Prop :=
  a = s.sto.addr ∨ ∃ ua, E.hook.userAccount s.world a = .ok (some ua) ∧ ∃ x y : UInt8, ua.codeMetadata = [x, y] ∧ x &&& 4 ≠ 0

/-- the shortest bytes that stand for the number -/
structure Encodes (signed : Bool) (v : Int) (b : Bytes) : Prop where
  value : argValue signed b = v
  shortest : ∀ c, argValue signed c = v → b.length ≤ c.length

/-- the key of the time lock of a key -/
def lockKey (k : Bytes) : Bytes := k ++ "ARWEN@TIMELOCK".toUTF8.data.toList

/-- the number behind a handle; 0 if there is none -/
def handleValue (s : St χ A) (h : Int32) : Int := (s.big.vals.get? h).getD 0

/-- the same numbers behind the handles -/
def SameHandles (s t : St χ A) : Prop := t.big.stack = s.big.stack ∧ ∀ h, handleValue t h = handleValue s h

end Arwen.Spec
