import Verif.Spec.Storage
import Verif.Eei.Commands
/-
Gas refunds for released storage, added up along the run of a contract function.
-/
namespace Arwen.Spec
variable {χ A : Type} (E : Env χ A)

/-- the refund for storing `v` under `k`: for the bytes released, if the store is allowed -/
def refundOfStore (s : St χ A) (k v : Bytes) (byHost : Bool) : Nat :=
  if s.rt.cur.readOnly = true ∨ E.elrondPrefix <+: k ∨ (arwenPrefix <+: k ∧ s.sto.protect = true ∧ byHost = false) then 0
  else storeRefund s.met.sched (view E s s.sto.addr k) v

/-- the refund due for a command of an API function -/
def refundDue (s : St χ A) : Cmd → Nat
  | .setStorage k v => refundOfStore E s k v false
  | .setTimeLock k v => refundOfStore E s (customStorageKey timelockPrefix k) v true
  | _ => 0

/-- the refunds due for an API function: for each of its commands in turn -/
def refundsOfApi (ex : Executor χ A) {α : Type} : Free χ A α → St χ A → Nat
  | .pure _, _ => 0
  | .ask k, s => refundsOfApi ex (k s) s
  | .op c k, s => refundDue E s c +
    match runCmd E ex c s with
    | (.ok r, t) => refundsOfApi ex (k r) t
    | _ => 0
  | .panic, _ => 0

/-- The refunds due for a contract function: for each API function it calls in turn. The states in between are those after running
one instruction at a time. -/
def refundsOf (ex : Executor χ A) (i : Nat) : Prog A → St χ A → Nat
  | .ret, _ => 0
  | .trap, _ => 0
  | .burn n k, s =>
    match runProg E ex i (.burn n .ret) s with
    | (.ok true, t) => refundsOf ex i k t
    | _ => 0
  | .call a k, s => refundsOfApi E ex (E.api a) s +
    match interp E ex (E.api a) s with
    | (.ok r, t) => if (t.insts i).bp = .none then refundsOf ex i (k r) t else 0
    | _ => 0
  | .load off len k, s =>
    if off + len ≤ (s.insts i).mem.length then refundsOf ex i (k (((s.insts i).mem.drop off).take len)) s else 0
  | .store off bs k, s =>
    match runProg E ex i (.store off bs .ret) s with
    | (.ok true, t) => refundsOf ex i k t
    | _ => 0

/-- the API runs no other contracts: neither by calls nor by deployments -/
def NoNestedApi : Prop := ∀ c, ApiRuns E c → c.power ≠ some .call ∧ c.power ≠ some .readOnly ∧ c.power ≠ some .create

end Arwen.Spec
