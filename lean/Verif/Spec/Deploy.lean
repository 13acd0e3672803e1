import Verif.Host.Trace
import Verif.Spec.Storage
/-
Deployed code, as a user sees it: which code is acceptable, what an output reports about the code of an account, and who may
ask for an upgrade.
-/
namespace Arwen.Spec
variable {χ A : Type}

/-- A name that an exported function of a contract may have. -/
structure ValidName (E : Env χ A) (name : Bytes) : Prop where
  nonempty : name ≠ []
  short : name.length ≤ 255
  ascii : ∀ b ∈ name, b.toNat ≤ 127
  notBuiltin : E.isBuiltin name = false
  notApi : E.apiNames name = false
  notUpgrade : name ≠ upgradeName

/-- A module that may be deployed: its memory is declared, and all exported functions have valid names, no parameters and no
results. -/
structure ValidModule (E : Env χ A) (m : WasmModule A) : Prop where
  memory : m.hasMemory = true
  names : ∀ p ∈ m.exports, ValidName E p.1
  void : ∀ p ∈ m.exports, m.signature p.1 = some (0, 0)

/-- Code that compiles to a module that may be deployed. -/
def ValidCode (E : Env χ A) (code : Bytes) : Prop := ∃ m, E.wasm.compile code = .ok m ∧ ValidModule E m

/-- the code reported for an account; empty if there is none -/
def reportedCode (o : VMOutput) (a : Addr) : Bytes := ((o.accounts.get? a).map OutAcc.code).getD []

/-- the account has this code on the chain, in a state of the node that a run starting in `w0` can lead to -/
def CodeOnChain (E : Env χ A) (w0 : χ) (a : Addr) (code : Bytes) : Prop :=
  ∃ w ua, Reached E w0 w ∧ E.hook.userAccount w a = .ok (some ua) ∧ ua.code = code

/-- the node's built-in functions report no code -/
def PlainBuiltins (E : Env χ A) : Prop := ∀ w i b a acc, (E.hook.processBuiltIn w i).1 = .ok b →
  b.out.accounts.get? a = some acc → acc.code = [] ∧ acc.codeMetadata = [] ∧ acc.deployer = none

/-- the account is a contract that may be upgraded, and `owner` owns it, in this state of the node -/
def Upgradeable (E : Env χ A) (w : χ) (a owner : Addr) : Prop :=
  ∃ ua, E.hook.userAccount w a = .ok (some ua) ∧ metaUpgradeable ua.codeMetadata = true ∧ ua.owner = owner

/-- whether the account may be upgraded, and by whom, is the same in all states of the node -/
def FixedOwner (E : Env χ A) (a : Addr) : Prop := ∀ w w' owner, Upgradeable E w a owner → Upgradeable E w' a owner

/-- the nonce of an account that contracts see: as noted in the output if it is not zero, else on the chain -/
def nonceOf (E : Env χ A) (s : St χ A) (a : Addr) : Except Err UInt64 :=
  match s.out.cur.accounts.get? a with
  | some acc => if acc.nonce ≠ 0 ∨ s.flags.v3 = false then .ok acc.nonce else chain
  | none => chain
where
  /-- the nonce on the chain, 0 if there is no account -/
  chain : Except Err UInt64 :=
    match E.hook.userAccount s.world a with
    | .error e => .error e
    | .ok none => .ok 0
    | .ok (some ua) => .ok ua.nonce

/-- The address that the node makes for the next contract of `creator`: from its nonce if the creator is a contract; the nonce of
a user was raised by the transaction already, so one less. -/
def NextAddress (E : Env χ A) (s : St χ A) (creator addr : Addr) : Prop :=
  ∃ n, nonceOf E s creator = .ok n ∧
    E.hook.newAddress s.world creator
      (if E.hook.isSmartContract s.world creator = true ∧ s.flags.v3 = true ∨ n = 0 then n else n - 1) E.vmType = .ok addr

end Arwen.Spec
