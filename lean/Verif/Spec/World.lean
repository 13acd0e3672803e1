import Verif.World.Mock
/-
The mock world's snapshots, as a test author sees them.
-/
namespace Arwen.Spec
open Arwen.Mock

/-- everything about every account is the same: which accounts there are, their balances, nonces, storage and code -/
def SameAccounts (w v : MockWorld) : Prop := ∀ a, w.account a = v.account a

/-- the stored value of a key of an account, nothing for a missing account -/
def stored (w : MockWorld) (a : Addr) (k : Bytes) : Option Bytes := (w.account a).bind (fun acc => acc.storage.get? k)

/-- two accounts that differ at most in their storage -/
def SameButStorage (x y : WAcc) : Prop := { x with storage := y.storage } = y

/-- an operation that leaves the snapshot number `i` in place: anything but a commit, or going back to that snapshot or an earlier one -/
def LeavesSnapshot {L : Lib} (i : Int) : Op L → Prop
  | .commit => False
  | .revert j => ¬ (0 ≤ j ∧ j ≤ i)
  | _ => True

/-- the full statement of C42: going back to a snapshot restores all accounts as they were when it was taken -/
def SnapshotsRestore (L : Lib) : Prop :=
  ∀ (w : MockWorld) (ops : List (Op L)), (∀ op ∈ ops, LeavesSnapshot w.backup.snapshot op) →
    ((runOps w.backup ops).revert w.backup.snapshot).1 = true ∧
    SameAccounts ((runOps w.backup ops).revert w.backup.snapshot).2 w

/-- an operation that neither makes nor removes accounts, nor changes stored values without taking a snapshot -/
def QuietOp {L : Lib} : Op L → Prop
  | .change _ f => ∀ acc, (f acc).storage = acc.storage
  | .saveKeyValue .. | .updateBalance .. | .updateBalanceWithDelta .. | .updateBefore .. | .backup | .saveCompiled .. => True
  | _ => False

end Arwen.Spec
