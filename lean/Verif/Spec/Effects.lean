import Verif.Spec.Storage
import Verif.Spec.Value
import Verif.Host.Exec
import Verif.Spec.Memory
/-
What an output reports, and what it means that reported effects are kept.
-/
namespace Arwen.Spec
variable {χ A : Type}

/-- the transfers reported for an account, in order -/
def transfers (o : VMOutput) (a : Addr) : List OutTransfer := ((o.accounts.get? a).map OutAcc.transfers).getD []

/-- The effects reported by `o` for account `a` are still reported by `o'`: the transfers are the first ones, in the same order,
and every key with an update has one. -/
structure Kept (o o' : VMOutput) (a : Addr) : Prop where
  transfers : transfers o a <+: transfers o' a
  updates : ∀ k, (pending o a k).isSome → (pending o' a k).isSome

/-- contracts cannot deploy at this address, in a run starting in `w0` -/
def NotForNew (E : Env χ A) (w0 : χ) (a : Addr) : Prop := ∀ i, ApiRuns E (.createContract i) → ¬ Deployable E w0 a

/-- two outputs report the same effects: logs, returned data, and for each account transfers, balance change and storage updates -/
structure SameEffects (o o' : VMOutput) : Prop where
  logs : o'.logs = o.logs
  data : o'.returnData = o.returnData
  transfers : ∀ a, Spec.transfers o' a = Spec.transfers o a
  change : ∀ a, Spec.change o' a = Spec.change o a
  updates : ∀ a k, pending o' a k = pending o a k

/-- A contract function `p` that is started in state `s` on instance `i` gets to the point where it calls API function `a` in
state `t`, with `k` to follow. -/
inductive Gets (E : Env χ A) (ex : Executor χ A) (i : Nat) : Prog A → St χ A → A → (Int64 → Prog A) → St χ A → Prop
  | here (a : A) (k : Int64 → Prog A) (s : St χ A) : Gets E ex i (.call a k) s a k s
  | burn (n : UInt64) (p : Prog A) (s t : St χ A) (a : A) (k : Int64 → Prog A) :
      Gets E ex i p (s.modInst i (fun x => { x with points := addU64 (s.insts i).points n })) a k t → Gets E ex i (.burn n p) s a k t
  | call (a' : A) (k' : Int64 → Prog A) (s u t : St χ A) (r : Int64) (a : A) (k : Int64 → Prog A) :
      interp E ex (E.api a') s = (.ok r, u) → Gets E ex i (k' r) u a k t → Gets E ex i (.call a' k') s a k t
  | load (off len : Nat) (k' : Bytes → Prog A) (s t : St χ A) (a : A) (k : Int64 → Prog A) :
      Gets E ex i (k' (((s.insts i).mem.drop off).take len)) s a k t → Gets E ex i (.load off len k') s a k t
  | store (off : Nat) (bs : Bytes) (p : Prog A) (s t : St χ A) (a : A) (k : Int64 → Prog A) :
      Gets E ex i p (s.modInst i (fun x => { x with mem := overwrite x.mem off bs })) a k t → Gets E ex i (.store off bs p) s a k t

/-! ### Logs -/

/-- the entry that a contract at address `a` emits: the first topic is the identifier -/
def entry (a : Addr) (topics : List Bytes) (data : Bytes) : LogEntry :=
  { identifier := topics.headD [], address := a, topics := topics.tail, data := data }

/-- the number in four bytes of memory, least significant byte first -/
def le32At (mem : Bytes) (o : Nat) : Nat :=
  (byteAt mem o).toNat + 256 * (byteAt mem (o + 1)).toNat + 65536 * (byteAt mem (o + 2)).toNat + 16777216 * (byteAt mem (o + 3)).toNat

/-- consecutive pieces of memory of the given lengths -/
def pieces (mem : Bytes) : Nat → List Nat → List Bytes
  | _, [] => []
  | o, n :: ns => bytesFrom mem o n :: pieces mem (o + n) ns

end Arwen.Spec
