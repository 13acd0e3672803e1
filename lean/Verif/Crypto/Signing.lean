import Verif.State.Machine
/-
Model of `crypto`: the hashes and the checks of signatures that the virtual machine gives to contracts. The libraries (Go's SHA-256 and
Ed25519, `golang.org/x/crypto`, `btcec` and `herumi/bls-go-binary`) are parameters.
-/
namespace Arwen.Crypto

/-- the libraries that `crypto` uses -/
structure Libs where
  sha256 : Bytes → Bytes
  keccak256 : Bytes → Bytes
  ripemd160 : Bytes → Bytes
  /-- Go's `ed25519.Verify`; it panics if the key is not of 32 bytes -/
  edVerify : Bytes → Bytes → Bytes → Bool
  SecKey : Type
  SecSig : Type
  /-- `btcec.ParsePubKey`, `btcec.ParseSignature`, `Signature.Verify` (with the hash) -/
  secKey : Bytes → Option SecKey
  secSig : Bytes → Option SecSig
  secVerify : SecSig → Bytes → SecKey → Bool
  /-- the groups of BLS12-381: signatures are points of the first, keys of the second -/
  Fr : Type
  G1 : Type
  G2 : Type
  GT : Type
  sameGT : DecidableEq GT
  frRead : Bytes → Option Fr
  frZero : Fr → Bool
  frValid : Fr → Bool
  g1Read : Bytes → Option G1
  g1Write : G1 → Bytes
  g1Zero : G1 → Bool
  g1Order : G1 → Bool
  g1Valid : G1 → Bool
  g1Mul : Fr → G1 → G1
  /-- `GetG2ByteSize` -/
  g2Size : Nat
  g2Read : Bytes → Option G2
  g2Write : G2 → Bytes
  g2Zero : G2 → Bool
  g2Order : G2 → Bool
  g2Valid : G2 → Bool
  g2Mul : Fr → G2 → G2
  /-- the generator (`suiteBLS12_381.go` 38-47) -/
  g2Base : G2
  /-- the point of a message, the pairing -/
  toG1 : Bytes → G1
  pairing : G1 → G2 → GT

/-- errors: `crypto/errors.go`, `crypto/signing/errors.go`; `library`: whatever a library says -/
inductive SigErr
  | invalidPublicKey | invalidSignature | invalidParam | nilMessage | nilSignature | nilPublicKeyPoint | blsInvalidSignature | sigNotValid
  | invalidPrivateKey | invalidPoint | library
  deriving DecidableEq, Repr

variable (L : Libs)

/-- what the library does with a key of another length: it panics (`none`) -/
def libEd25519 (key msg sig : Bytes) : Option Bool := if key.length ≠ 32 then none else some (L.edVerify key msg sig)

/-- `signing/ed25519/ed25519.go` 16-27; `none`: a panic -/
def verifyEd25519 (key msg sig : Bytes) : Option (Except SigErr Unit) :=
  if key.length ≠ 32 then some (.error .invalidPublicKey)
  else match libEd25519 L key msg sig with
    | none => none
    | some false => some (.error .invalidSignature)
    | some true => some (.ok ())

/-- `signing/secp256k1/secp256k1.go` 16-35 (`DoubleHashB`: SHA-256 twice) -/
def verifySecp256k1 (key msg sig : Bytes) : Except SigErr Unit :=
  match L.secKey key with
  | none => .error .library
  | some k => match L.secSig sig with
    | none => .error .library
    | some s => if L.secVerify s (L.sha256 (L.sha256 msg)) k then .ok () else .error .invalidSignature

/-- `signing/key.go` 71-86: a public key (its point; `none`: a nil point); the point made first is the generator
(`signing/mcl/pointG2.go` 17-29), it is overwritten (`pointG2.go` 186-188) -/
def publicKeyFromByteArray (b : Bytes) : Except SigErr (Option L.G2) :=
  if b.length ≠ L.g2Size then .error .invalidParam
  else match L.g2Read b with
    | none => .error .library
    | some p => .ok (some p)

/-- `signing/key.go` 54-68: a private key -/
def privateKeyFromByteArray (b : Bytes) : Except SigErr L.Fr :=
  if b.length = 0 then .error .invalidParam
  else match L.frRead b with
    | none => .error .library
    | some k => .ok k

/-- `signing/key.go` 119-126, `signing/mcl/suiteBLS12_381.go` 91-107, `signing/mcl/g2.go` 37-42: the public key of a private one; the error
for a scalar that is zero or not valid is dropped, then the point is nil -/
def generatePublic (k : L.Fr) : Option L.G2 :=
  if L.frZero k || !L.frValid k then none else some (L.g2Mul k L.g2Base)

/-- `signing/mcl/singlesig/bls.go` 88-90 -/
def isPubKeyPointValid (p : L.G2) : Bool := !L.g2Zero p && L.g2Order p && L.g2Valid p

/-- `signing/mcl/singlesig/bls.go` 93-96 -/
def isSigValidPoint (p : L.G1) : Bool := !L.g1Zero p && L.g1Order p && L.g1Valid p

/-- `signing/mcl/singlesig/bls.go` 99-101 -/
def isSecretKeyValid (k : L.Fr) : Bool := !L.frZero k && L.frValid k

/-- the library's check of a BLS signature -/
def blsLibVerify (s : L.G1) (k : L.G2) (msg : Bytes) : Bool :=
  have := L.sameGT
  decide (L.pairing s L.g2Base = L.pairing (L.toG1 msg) k)

/-- `signing/mcl/singlesig/bls.go` 22-44 -/
def blsSign (k : L.Fr) (msg : Bytes) : Except SigErr Bytes :=
  if msg.length = 0 then .error .nilMessage
  else if !isSecretKeyValid L k then .error .invalidPrivateKey
  else .ok (L.g1Write (L.g1Mul k (L.toG1 msg)))

/-- `signing/mcl/singlesig/bls.go` 47-85 -/
def blsCheck (key : Option L.G2) (msg sig : Bytes) : Except SigErr Unit :=
  if msg.length = 0 then .error .nilMessage
  else if sig.length = 0 then .error .nilSignature
  else match key with
    | none => .error .nilPublicKeyPoint
    | some p =>
      if !isPubKeyPointValid L p then .error .invalidPublicKey
      else match L.g1Read sig with
        | none => .error .library
        | some s =>
          if !isSigValidPoint L s then .error .blsInvalidSignature
          else if blsLibVerify L s p msg then .ok () else .error .sigNotValid

/-- `signing/bls/bls.go` 24-31 -/
def verifyBls (key msg sig : Bytes) : Except SigErr Unit :=
  match publicKeyFromByteArray L key with
  | .error e => .error e
  | .ok k => blsCheck L k msg sig

/-- `signing/key.go` 89-91, `signing/mcl/suiteBLS12_381.go` 137-154 -/
def checkPublicKeyValid (b : Bytes) : Except SigErr Unit :=
  if b.length ≠ L.g2Size then .error .invalidParam
  else match L.g2Read b with
    | none => .error .library
    | some p => if !L.g2Valid p || !L.g2Order p || L.g2Zero p then .error .invalidPoint else .ok ()

/-- no error -/
def accepted : Except SigErr Unit → Bool
  | .ok _ => true
  | .error _ => false

/-- `factory/cryptovm.go` 12-24, `hashing/hasher.go` (writing into a hash never fails); the callers only look whether there is an error
(`arwen/cryptoapi/cryptoei.go` 186-191, 227-232, 285-290) -/
def newVMCrypto : CryptoFns where
  sha256 d := .ok (L.sha256 d)
  keccak256 d := .ok (L.keccak256 d)
  ripemd160 d := .ok (L.ripemd160 d)
  verifyBLS key msg sig := accepted (verifyBls L key msg sig)
  verifyEd25519 key msg sig := match verifyEd25519 L key msg sig with
    | none => false
    | some r => accepted r
  verifySecp256k1 key msg sig := accepted (verifySecp256k1 L key msg sig)

end Arwen.Crypto
