import Verif.Host.SimCall
import Verif.Spec.Deploy
/-
Which code a contract instance runs, and the compiled code that the node keeps by hash.
-/
namespace Arwen.Spec
variable {χ A : Type}

/-- the code of an account on the chain, if there is an account -/
def chainCode? (E : Env χ A) (w : χ) (a : Addr) : Option Bytes :=
  match E.hook.userAccount w a with
  | .ok (some ua) => some ua.code
  | _ => none

/-- The compiled code kept under a hash is that of code with this hash. -/
def CacheOk (E : Env χ A) (w : χ) : Prop := ∀ h cc m, E.hook.compiledCode w h = some cc → E.wasm.fromCompiled cc = .ok m →
  ∃ c, E.crypto.sha256 c = .ok h ∧ E.wasm.compile c = .ok m

/-- Every instance that was started for an account on the chain runs the code of this account (instances for code that is just
being deployed are left out). -/
def RunDeployed (E : Env χ A) (s : St χ A) : Prop := ∀ i, i < s.nextInst → (s.insts i).newCode = false →
  ∀ c, chainCode? E s.world (s.insts i).addr = some c → E.wasm.compile c = .ok (s.insts i).mod

/-- What is assumed about the compiler, the hash function and the node: the compiled form stands for the code, hashes do not
collide, accounts carry the hash of their code, compiled code is found only where it was saved, and the code of accounts does not
change while a transaction runs. -/
structure HonestCode (E : Env χ A) : Prop where
  compiled : ∀ c cc m, E.wasm.cacheOf c = .ok cc → E.wasm.fromCompiled cc = .ok m → E.wasm.compile c = .ok m
  injective : ∀ c c' h, E.crypto.sha256 c = .ok h → E.crypto.sha256 c' = .ok h → c = c'
  hash : ∀ w a ua, E.hook.userAccount w a = .ok (some ua) → ua.codeHash ≠ [] → E.crypto.sha256 ua.code = .ok ua.codeHash
  save : ∀ w h c h' cc, E.hook.compiledCode (E.hook.saveCompiled w h c) h' = some cc →
    (h' = h ∧ cc = c) ∨ E.hook.compiledCode w h' = some cc
  builtin : ∀ w i h cc, E.hook.compiledCode (E.hook.processBuiltIn w i).2 h = some cc → E.hook.compiledCode w h = some cc
  revert : ∀ w n h cc, E.hook.compiledCode (E.hook.revert w n) h = some cc → E.hook.compiledCode w h = some cc
  saveCode : ∀ w h c a, chainCode? E (E.hook.saveCompiled w h c) a = chainCode? E w a
  builtinCode : ∀ w i a, chainCode? E (E.hook.processBuiltIn w i).2 a = chainCode? E w a
  revertCode : ∀ w n a, chainCode? E (E.hook.revert w n) a = chainCode? E w a

end Arwen.Spec
