import Verif.Eei.Base
/-
Model of `arwen/cryptoapi/cryptoei.go`.
-/
namespace Arwen
namespace Eei
variable {χ A : Type} (E : Env χ A)

/-- the three hash functions -/
inductive HashFn
  | sha256 | keccak256 | ripemd160
  deriving DecidableEq, Repr

def HashFn.cost : HashFn → ApiCost
  | sha256 => .sha256 | keccak256 => .keccak256 | ripemd160 => .ripemd160

def HashFn.run (c : CryptoFns) : HashFn → Bytes → Except Err Bytes
  | sha256 => c.sha256 | keccak256 => c.keccak256 | ripemd160 => c.ripemd160

/-- `cryptoei.go` 70-151 -/
def hash (h : HashFn) (dataOff len off : Int32) : P χ A :=
  useK (fun s => addU64 (s.met.sched.api h.cost) (mulU64 s.met.sched.dataCopyPerByte (len64 len))) <|
  loadK dataOff len 1 fun data =>
  match h.run E.crypto data with
  | .error _ => .pure 1
  | .ok r => storeK off r 1 (.pure 0)

/-- answer of a signature check -/
def sigRes (ok : Bool) : Int64 := if ok then 0 else -1

/-- `cryptoei.go` 154-192 (keys of 96 bytes, signatures of 48) -/
def verifyBLS (keyOff msgOff msgLen sigOff : Int32) : P χ A :=
  gasK .verifyBLS <| loadK keyOff 96 1 fun key => copyK (len64 msgLen) <| loadK msgOff msgLen 1 fun msg =>
  loadK sigOff 48 1 fun sig => .pure (sigRes (E.crypto.verifyBLS key msg sig))

/-- `cryptoei.go` 195-233 (keys of 32 bytes, signatures of 64) -/
def verifyEd25519 (keyOff msgOff msgLen sigOff : Int32) : P χ A :=
  gasK .verifyEd25519 <| loadK keyOff 32 1 fun key => copyK (len64 msgLen) <| loadK msgOff msgLen 1 fun msg =>
  loadK sigOff 64 1 fun sig => .pure (sigRes (E.crypto.verifyEd25519 key msg sig))

/-- `cryptoei.go` 236-291 (keys of 33 or 65 bytes; the second byte of the signature is its remaining length) -/
def verifySecp256k1 (keyOff keyLen msgOff msgLen sigOff : Int32) : P χ A :=
  gasK .verifySecp256k1 <|
  if keyLen ≠ 33 ∧ keyLen ≠ 65 then faultK .invalidPublicKeySize 1
  else loadK keyOff keyLen 1 fun key => copyK (len64 msgLen) <| loadK msgOff msgLen 1 fun msg =>
    loadK sigOff 2 1 fun header =>
    match header[1]? with
    | none => .panic
    | some n => loadK sigOff (n.toUInt32.toInt32 + 2) 1 fun sig => .pure (sigRes (E.crypto.verifySecp256k1 key msg sig))

end Eei
end Arwen
