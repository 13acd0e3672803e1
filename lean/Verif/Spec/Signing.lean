import Verif.Crypto.Signing
import Verif.Spec.Numbers
/-
What it is to be a signature: the schemes, over the libraries' arithmetic.
-/
namespace Arwen.Spec
open Arwen.Crypto
variable (L : Libs)

/-- a point of the first group that can be a signature: on the curve, in the group, not its zero -/
structure ProperG1 (p : L.G1) : Prop where
  valid : L.g1Valid p = true
  order : L.g1Order p = true
  nonzero : L.g1Zero p = false

/-- a point of the second group that can be a key -/
structure ProperG2 (p : L.G2) : Prop where
  valid : L.g2Valid p = true
  order : L.g2Order p = true
  nonzero : L.g2Zero p = false

/-- a scalar that can be a private key -/
structure ProperFr (k : L.Fr) : Prop where
  valid : L.frValid k = true
  nonzero : L.frZero k = false

/-- the scheme of Boneh, Lynn and Shacham: the signature and the generator pair like the message and the key -/
def BlsSigned (key msg sig : Bytes) : Prop :=
  key.length = L.g2Size ∧ ∃ k s, L.g2Read key = some k ∧ L.g1Read sig = some s ∧ ProperG2 L k ∧ ProperG1 L s ∧
    L.pairing s L.g2Base = L.pairing (L.toG1 msg) k

/-- Ed25519, for keys of 32 bytes -/
def EdSigned (key msg sig : Bytes) : Prop := key.length = 32 ∧ L.edVerify key msg sig = true

/-- ECDSA on Secp256k1, of the hash of the hash of the message -/
def SecpSigned (key msg sig : Bytes) : Prop :=
  ∃ k s, L.secKey key = some k ∧ L.secSig sig = some s ∧ L.secVerify s (L.sha256 (L.sha256 msg)) k = true

/-- what is known of the groups: encodings can be read back, multiples of proper points by proper scalars are proper, the pairing is linear
in both arguments, and tells proper points of the first group apart -/
structure PairingLaws : Prop where
  read1 : ∀ p, L.g1Write p ≠ [] ∧ L.g1Read (L.g1Write p) = some p
  read2 : ∀ p, (L.g2Write p).length = L.g2Size ∧ L.g2Read (L.g2Write p) = some p
  base : ProperG2 L L.g2Base
  point : ∀ m, ProperG1 L (L.toG1 m)
  mul1 : ∀ k p, ProperFr L k → ProperG1 L p → ProperG1 L (L.g1Mul k p)
  mul2 : ∀ k p, ProperFr L k → ProperG2 L p → ProperG2 L (L.g2Mul k p)
  linear : ∀ k p q, L.pairing (L.g1Mul k p) q = L.pairing p (L.g2Mul k q)
  apart : ∀ p q, ProperG1 L p → ProperG1 L q → L.pairing p L.g2Base = L.pairing q L.g2Base → p = q

/-- the answer to a contract: 0 for a signature, −1 for anything else -/
def AnswersSigned {χ A : Type} (E : Env χ A) (ex : Executor χ A) (p : Free χ A Int64) (s : St χ A) (i price : Nat) (signed : Prop) : Prop :=
  ∃ r, Tells E ex p s i price r ∧ (signed → r = 0) ∧ (¬ signed → r = -1)

end Arwen.Spec
