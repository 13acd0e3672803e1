import Verif.Spec.Signing
import Verif.Props.Numbers
/-
C80: what the checks of signatures accept.
-/
namespace Arwen.Props
open Arwen.Crypto Arwen.Spec Arwen.Eei

section schemes
variable (L : Libs)

theorem blsCheck_iff (p : L.G2) (msg sig : Bytes) :
    accepted (blsCheck L (some p) msg sig) = true ↔ msg ≠ [] ∧ sig ≠ [] ∧ ∃ s, L.g1Read sig = some s ∧ ProperG2 L p ∧ ProperG1 L s ∧
      L.pairing s L.g2Base = L.pairing (L.toG1 msg) p := by
  unfold blsCheck
  by_cases hm : msg = []
  · simp [hm, accepted]
  rw [if_neg (by simpa using hm)]
  by_cases hs : sig = []
  · simp [hs, accepted]
  rw [if_neg (by simpa using hs)]
  have hP : isPubKeyPointValid L p = true ↔ ProperG2 L p := by
    simp only [isPubKeyPointValid, Bool.and_eq_true, Bool.not_eq_true']
    exact ⟨fun h => ⟨h.2, h.1.2, h.1.1⟩, fun h => ⟨⟨h.nonzero, h.order⟩, h.valid⟩⟩
  by_cases hp : ProperG2 L p
  · simp only [hP.mpr hp, Bool.not_true, Bool.false_eq_true, if_false]
    cases hr : L.g1Read sig with
    | none => simp [accepted]
    | some s =>
      have hS : isSigValidPoint L s = true ↔ ProperG1 L s := by
        simp only [isSigValidPoint, Bool.and_eq_true, Bool.not_eq_true']
        exact ⟨fun h => ⟨h.2, h.1.2, h.1.1⟩, fun h => ⟨⟨h.nonzero, h.order⟩, h.valid⟩⟩
      by_cases hq : ProperG1 L s
      · simp only [hS.mpr hq, Bool.not_true, Bool.false_eq_true, if_false]
        by_cases he : L.pairing s L.g2Base = L.pairing (L.toG1 msg) p
        · simp [blsLibVerify, he, accepted, hm, hs, hp, hq]
        · simp [blsLibVerify, he, accepted]
      · have : isSigValidPoint L s = false := by rw [← Bool.not_eq_true, hS]; exact hq
        simp only [this, Bool.not_false, if_true, accepted]
        constructor
        · intro h; cases h
        · rintro ⟨_, _, s', hs', _, hq', _⟩
          cases hs'
          exact absurd hq' hq
  · have : isPubKeyPointValid L p = false := by rw [← Bool.not_eq_true, hP]; exact hp
    simp only [this, Bool.not_false, if_true, accepted]
    constructor
    · intro h; cases h
    · rintro ⟨_, _, s', _, hp', _⟩
      exact absurd hp' hp

/-- **C80**, BLS: accepted are exactly the signatures of the scheme on messages that are not empty. (The empty signature is none that a
library would read.) -/
theorem c80_bls_partial (key msg sig : Bytes) (hsig : sig ≠ []) :
    (newVMCrypto L).verifyBLS key msg sig = true ↔ msg ≠ [] ∧ BlsSigned L key msg sig := by
  show accepted (verifyBls L key msg sig) = true ↔ _
  unfold verifyBls publicKeyFromByteArray BlsSigned
  by_cases hk : key.length = L.g2Size
  · rw [if_neg (by simpa using hk)]
    cases hr : L.g2Read key with
    | none => simp [accepted]
    | some p =>
      simp only [blsCheck_iff]
      constructor
      · rintro ⟨hm, _, s, h1, h2, h3, h4⟩
        exact ⟨hm, hk, p, s, rfl, h1, h2, h3, h4⟩
      · rintro ⟨hm, _, p', s, hp, h1, h2, h3, h4⟩
        cases hp
        exact ⟨hm, hsig, s, h1, h2, h3, h4⟩
  · rw [if_pos hk]
    simp [accepted, hk]

/-- **C80**, Ed25519: exactly the signatures of the scheme; the library is never asked about a key that it would panic on. -/
theorem c80_ed25519 (key msg sig : Bytes) :
    ((newVMCrypto L).verifyEd25519 key msg sig = true ↔ EdSigned L key msg sig) ∧ Crypto.verifyEd25519 L key msg sig ≠ none := by
  show ((match Crypto.verifyEd25519 L key msg sig with | none => false | some r => accepted r) = true ↔ _) ∧ _
  unfold Crypto.verifyEd25519 libEd25519 EdSigned
  by_cases hk : key.length = 32
  · cases h : L.edVerify key msg sig <;> simp [hk, accepted]
  · simp [hk, accepted]

/-- **C80**, Secp256k1: exactly the signatures of the scheme. -/
theorem c80_secp256k1 (key msg sig : Bytes) : (newVMCrypto L).verifySecp256k1 key msg sig = true ↔ SecpSigned L key msg sig := by
  show accepted (Crypto.verifySecp256k1 L key msg sig) = true ↔ _
  unfold Crypto.verifySecp256k1 SecpSigned
  cases h1 : L.secKey key with
  | none => simp [accepted]
  | some k =>
    cases h2 : L.secSig sig with
    | none => simp [accepted]
    | some s => cases h3 : L.secVerify s (L.sha256 (L.sha256 msg)) k <;> simp [h3, accepted]

/-- **C80**: a public key passes the check of keys exactly if it is a proper point, so that it can have signatures. -/
theorem c80_key (key : Bytes) :
    accepted (checkPublicKeyValid L key) = true ↔ key.length = L.g2Size ∧ ∃ p, L.g2Read key = some p ∧ ProperG2 L p := by
  unfold checkPublicKeyValid
  by_cases hk : key.length = L.g2Size
  · rw [if_neg (by simpa using hk)]
    cases hr : L.g2Read key with
    | none => simp [accepted]
    | some p =>
      cases h1 : L.g2Valid p <;> cases h2 : L.g2Order p <;> cases h3 : L.g2Zero p <;> simp [accepted, hk, h1, h2, h3] <;>
        first
        | exact ⟨h1, h2, h3⟩
        | (intro h; first | (have := h.valid; simp_all; done) | (have := h.order; simp_all; done) | (have := h.nonzero; simp_all; done))
  · rw [if_pos hk]
    simp [accepted, hk]

variable {L} (H : PairingLaws L)
include H

/-- **C80**: what is signed with a private key is accepted for its public key; the signer refuses exactly improper keys and the empty
message. -/
theorem c80_signed (k : L.Fr) (msg : Bytes) :
    (∀ sig, blsSign L k msg = .ok sig →
      ∃ p, generatePublic L k = some p ∧ (newVMCrypto L).verifyBLS (L.g2Write p) msg sig = true) ∧
    ((∃ sig, blsSign L k msg = .ok sig) ↔ ProperFr L k ∧ msg ≠ []) := by
  have hK : isSecretKeyValid L k = true ↔ ProperFr L k := by
    simp only [isSecretKeyValid, Bool.and_eq_true, Bool.not_eq_true']
    exact ⟨fun h => ⟨h.2, h.1⟩, fun h => ⟨h.nonzero, h.valid⟩⟩
  have hiff : ∀ sig, blsSign L k msg = .ok sig ↔ ProperFr L k ∧ msg ≠ [] ∧ sig = L.g1Write (L.g1Mul k (L.toG1 msg)) := by
    intro sig
    unfold blsSign
    by_cases hm : msg = []
    · simp [hm]
    rw [if_neg (by simpa using hm)]
    by_cases hk : ProperFr L k
    · simp [hK.mpr hk, hk, hm, eq_comm]
    · have : isSecretKeyValid L k = false := by rw [← Bool.not_eq_true, hK]; exact hk
      simp [this, hk]
  refine ⟨fun sig h => ?_, ?_⟩
  · obtain ⟨hk, hm, rfl⟩ := (hiff sig).mp h
    refine ⟨L.g2Mul k L.g2Base, by simp [generatePublic, hk.valid, hk.nonzero], ?_⟩
    rw [c80_bls_partial L _ _ _ (H.read1 _).1]
    exact ⟨hm, (H.read2 _).1, _, _, (H.read2 _).2, (H.read1 _).2, H.mul2 _ _ hk H.base, H.mul1 _ _ hk (H.point msg), H.linear _ _ _⟩
  · constructor
    · rintro ⟨sig, h⟩
      exact ⟨((hiff sig).mp h).1, ((hiff sig).mp h).2.1⟩
    · rintro ⟨hk, hm⟩
      exact ⟨_, (hiff _).mpr ⟨hk, hm, rfl⟩⟩

/-- **C80**: no second BLS signature: two that are accepted for a key and a message are the same point. -/
theorem c80_unique (key msg sig sig' : Bytes) (h0 : sig ≠ []) (h0' : sig' ≠ []) (h : (newVMCrypto L).verifyBLS key msg sig = true)
    (h' : (newVMCrypto L).verifyBLS key msg sig' = true) : L.g1Read sig = L.g1Read sig' := by
  obtain ⟨_, _, k, s, hk, hs, _, hp, he⟩ := (c80_bls_partial L _ _ _ h0).mp h
  obtain ⟨_, _, k', s', hk', hs', _, hp', he'⟩ := (c80_bls_partial L _ _ _ h0').mp h'
  rw [hk] at hk'
  cases hk'
  rw [hs, hs', H.apart s s' hp hp' (he.trans he'.symm)]

end schemes

/-! ### As contracts use them -/

section api
variable {χ : Type} {E : Env χ EeiCall} {ex : Executor χ EeiCall} {L : Libs} (hL : E.crypto = newVMCrypto L)
  {s : St χ EeiCall} {i : Nat} (hi : s.rt.instance_ = some i) (hm : (s.insts i).mem.length + 65537 < 2 ^ 31)

omit hL hi hm in
theorem answers_signed {p : Free χ EeiCall Int64} {price : Nat} {b : Bool} {signed : Prop} (h : Tells E ex p s i price (checked b))
    (hb : b = true ↔ signed) : AnswersSigned E ex p s i price signed := by
  refine ⟨_, h, fun hs => ?_, fun hs => ?_⟩
  · rw [hb.mpr hs]; rfl
  · have : b = false := by rw [← Bool.not_eq_true, hb]; exact hs
    rw [this]; rfl

include hL hi hm

/-- **C80**: a contract that checks a BLS signature is answered 0 exactly if it is one, for the bytes in its memory. -/
theorem c80_contract_bls_partial {keyOff msgOff msgLen sigOff : Int32} {key msg sig : Bytes} (hk : key.length = 96)
    (hkey : Holds (s.insts i).mem keyOff key) (hmsg : BytesAt (s.insts i).mem msgOff msgLen msg) (hs : sig.length = 48)
    (hsig : Holds (s.insts i).mem sigOff sig) :
    AnswersSigned E ex (eei E (.verifyBLS keyOff msgOff msgLen sigOff)) s i
      ((s.met.sched.api .verifyBLS).toNat + s.met.sched.dataCopyPerByte.toNat * msg.length) (msg ≠ [] ∧ BlsSigned L key msg sig) :=
  answers_signed (c65_bls hi hm hk hkey hmsg hs hsig) (by
    rw [hL]
    exact c80_bls_partial L _ _ _ (by rintro rfl; simp at hs))

/-- **C80**: the same for Ed25519. -/
theorem c80_contract_ed25519 {keyOff msgOff msgLen sigOff : Int32} {key msg sig : Bytes} (hk : key.length = 32)
    (hkey : Holds (s.insts i).mem keyOff key) (hmsg : BytesAt (s.insts i).mem msgOff msgLen msg) (hs : sig.length = 64)
    (hsig : Holds (s.insts i).mem sigOff sig) :
    AnswersSigned E ex (eei E (.verifyEd25519 keyOff msgOff msgLen sigOff)) s i
      ((s.met.sched.api .verifyEd25519).toNat + s.met.sched.dataCopyPerByte.toNat * msg.length) (EdSigned L key msg sig) :=
  answers_signed (c65_ed25519 hi hm hk hkey hmsg hs hsig) (by
    rw [hL]
    exact (c80_ed25519 L _ _ _).1)

/-- **C80**: the same for Secp256k1. -/
theorem c80_contract_secp256k1 {keyOff keyLen msgOff msgLen sigOff : Int32} {key msg : Bytes} {c n : UInt8} {sig : Bytes}
    (hkey : BytesAt (s.insts i).mem keyOff keyLen key) (hk : key.length = 33 ∨ key.length = 65)
    (hmsg : BytesAt (s.insts i).mem msgOff msgLen msg) (hs : sig.length = n.toNat) (hsig : Holds (s.insts i).mem sigOff (c :: n :: sig)) :
    AnswersSigned E ex (eei E (.verifySecp256k1 keyOff keyLen msgOff msgLen sigOff)) s i
      ((s.met.sched.api .verifySecp256k1).toNat + s.met.sched.dataCopyPerByte.toNat * msg.length) (SecpSigned L key msg (c :: n :: sig)) :=
  answers_signed ((c65_secp256k1 hi hm hkey hmsg hs hsig).1 hk) (by
    rw [hL]
    exact c80_secp256k1 L _ _ _)

/-- **C80**: hashing never fails: the memory gets the hash of the bytes. -/
theorem c80_contract_hash (h : HashFn) {dataOff len : Int32} (off : Int32) {d : Bytes} (hd : BytesAt (s.insts i).mem dataOff len d)
    (r : Bytes) (hr : r = match h with | .sha256 => L.sha256 d | .keccak256 => L.keccak256 d | .ripemd160 => L.ripemd160 d) (hl : r.length ≤ 32) :
    Gives E ex (eei E (.hash h dataOff len off)) s i (hashPrice s.met.sched h + s.met.sched.dataCopyPerByte.toNat * d.length) off r 0 :=
  (c65_hash hi hm h off hd).1 r (by rw [hL, hr]; cases h <;> rfl) (by omega)

end api

/-! ### The hypotheses can be met; what may surprise -/

/-- the numbers modulo 5, with the product as pairing -/
def fiveLibs : Libs where
  sha256 d := [UInt8.ofNat d.length]
  keccak256 d := [UInt8.ofNat d.length]
  ripemd160 d := [UInt8.ofNat d.length]
  edVerify k m s := k.take 1 ++ m == s
  SecKey := Bytes
  SecSig := Bytes
  secKey b := if b.length = 33 then some b else none
  secSig b := some (b.drop 2)
  secVerify s h k := s == k.take 1 ++ h
  Fr := Fin 5
  G1 := Fin 5
  G2 := Fin 5
  GT := Fin 5
  sameGT := inferInstance
  frRead b := match b with | [x] => some (Fin.ofNat 5 x.toNat) | _ => none
  frZero k := k == 0
  frValid _ := true
  g1Read b := match b with | x :: _ => if h : x.toNat < 5 then some ⟨x.toNat, h⟩ else none | _ => none
  g1Write p := UInt8.ofNat p.val :: List.replicate 47 0
  g1Zero p := p == 0
  g1Order _ := true
  g1Valid _ := true
  g1Mul k p := k * p
  g2Size := 96
  g2Read b := match b with | x :: _ => if h : x.toNat < 5 then some ⟨x.toNat, h⟩ else none | _ => none
  g2Write p := UInt8.ofNat p.val :: List.replicate 95 0
  g2Zero p := p == 0
  g2Order _ := true
  g2Valid _ := true
  g2Mul k p := k * p
  g2Base := 2
  toG1 m := if m.length % 2 = 0 then 3 else 4
  pairing p q := p * q

theorem five_read : ∀ p : Fin 5, (match UInt8.ofNat p.val :: List.replicate 47 0 with
    | x :: _ => if h : x.toNat < 5 then some (⟨x.toNat, h⟩ : Fin 5) else none | _ => none) = some p := by decide +kernel

theorem five_mul : ∀ k p : Fin 5, (k == 0) = false → (p == 0) = false → (k * p == 0) = false := by decide +kernel

theorem five_half : ∀ p q : Fin 5, p * 2 = q * 2 → p = q := by decide +kernel

theorem five_assoc : ∀ k p q : Fin 5, (k * p) * q = p * (k * q) := by decide +kernel

theorem fiveLaws : PairingLaws fiveLibs where
  read1 p := ⟨by simp [fiveLibs], five_read p⟩
  read2 p := ⟨by simp [fiveLibs], five_read p⟩
  base := ⟨rfl, rfl, rfl⟩
  point m := by
    refine ⟨rfl, rfl, ?_⟩
    show ((if m.length % 2 = 0 then 3 else 4 : Fin 5) == 0) = false
    split <;> rfl
  mul1 k p hk hp := ⟨rfl, rfl, five_mul k p hk.nonzero hp.nonzero⟩
  mul2 k p hk hp := ⟨rfl, rfl, five_mul k p hk.nonzero hp.nonzero⟩
  linear := five_assoc
  apart p q _ _ := five_half p q

/-- the private key 3 signs a message, and its public key 3 · 2 = 1 accepts it, but no other one -/
example : blsSign fiveLibs (3 : Fin 5) [7] = .ok (2 :: List.replicate 47 0) ∧ generatePublic fiveLibs (3 : Fin 5) = some (1 : Fin 5) ∧
    (newVMCrypto fiveLibs).verifyBLS (1 :: List.replicate 95 0) [7] (2 :: List.replicate 47 0) = true ∧ (newVMCrypto fiveLibs).verifyBLS (1 :: List.replicate 95 0) [7] (3 :: List.replicate 47 0) = false ∧
    (newVMCrypto fiveLibs).verifyBLS (0 :: List.replicate 95 0) [7] (0 :: List.replicate 47 0) = false := ⟨rfl, rfl, by decide +kernel, by decide +kernel, by decide +kernel⟩

/-- a contract with a key, a message and two signatures in its memory -/
def signedMem : Bytes := (1 :: List.replicate 95 0) ++ [7] ++ (2 :: List.replicate 47 0) ++ (3 :: List.replicate 47 0)

def fiveEnv : Env Fixture.World EeiCall := Env.real { Fixture.env0 with crypto := newVMCrypto fiveLibs }

/-- the contract is told that the first one is a signature, and that the second is none; the hypotheses of the theorems hold -/
example : fiveEnv.crypto = newVMCrypto fiveLibs ∧ ((Fixture.running signedMem).insts 0).mem = signedMem ∧
    (Fixture.running signedMem).rt.instance_ = some 0 ∧ Holds signedMem 0 (1 :: List.replicate 95 0) ∧ BytesAt signedMem 96 1 [7] ∧
    Holds signedMem 97 (2 :: List.replicate 47 0) ∧ Holds signedMem 145 (3 :: List.replicate 47 0) ∧
    (interp fiveEnv (execN fiveEnv 3) (eei fiveEnv (.verifyBLS 0 96 1 97)) (Fixture.running signedMem)).1 = .ok 0 ∧
    (interp fiveEnv (execN fiveEnv 3) (eei fiveEnv (.verifyBLS 0 96 1 145)) (Fixture.running signedMem)).1 = .ok (-1) :=
  ⟨rfl, rfl, rfl, .inr ⟨by decide +kernel, by decide +kernel, by decide +kernel⟩, ⟨rfl, .inr ⟨by decide +kernel, by decide +kernel, by decide +kernel⟩⟩,
    .inr ⟨by decide +kernel, by decide +kernel, by decide +kernel⟩, .inr ⟨by decide +kernel, by decide +kernel, by decide +kernel⟩,
    by decide +kernel, by decide +kernel⟩

/-- **The empty message cannot be signed with BLS**: it has a signature in the scheme, but the signer refuses to make it and the check
refuses to accept it. -/
theorem c80_empty_neg : ∃ L : Libs, PairingLaws L ∧ ∃ key sig, sig ≠ [] ∧ BlsSigned L key [] sig ∧ (newVMCrypto L).verifyBLS key [] sig = false :=
  ⟨fiveLibs, fiveLaws, 1 :: List.replicate 95 0, 4 :: List.replicate 47 0, by simp, ⟨rfl, (1 : Fin 5), (4 : Fin 5), rfl, rfl, ⟨rfl, rfl, rfl⟩, ⟨rfl, rfl, rfl⟩,
    rfl⟩, by decide +kernel⟩

/-- Without the checks for zero there would be a signature for every message: the zero key and the zero signature always pair. -/
example (msg : Bytes) : fiveLibs.pairing (0 : Fin 5) fiveLibs.g2Base = fiveLibs.pairing (fiveLibs.toG1 msg) (0 : Fin 5) := by
  show (0 : Fin 5) * 2 = (if msg.length % 2 = 0 then 3 else 4 : Fin 5) * 0
  split <;> decide

end Arwen.Props
