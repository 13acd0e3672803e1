import Verif.World.Convert
import Verif.Spec.Check
/-
Properties C55 (a world that was set is found by a check for the same content) and C56 (tokens do not share entries of the storage).
-/
namespace Arwen.Spec
open Mock

/-- what is trusted about the encodings of the library: decoding gives back what was encoded, and only the empty list of roles may have
the empty encoding -/
structure Faithful (C : TokenCodec) : Prop where
  token : ∀ t, C.untoken (C.token t) = some t
  token_ne : ∀ t, C.token t ≠ []
  roles : ∀ l, C.unroles (C.roles l) = some l
  roles_ne : ∀ l, l ≠ [] → C.roles l ≠ []

/-- a check for exactly a value -/
def exactBytes (x : Bytes) : CheckBytes := { value := x }
def exactInt (x : Int) : CheckInt := { value := x }
def exactU64 (x : UInt64) : CheckU64 := { value := x }

/-- the check for an instance with the content it was set with -/
def sameInstance (i : TokenInit) : CheckInstance :=
  { nonce := exactU64 i.nonce, balance := exactInt i.balance, creator := exactBytes i.creator, royalties := exactU64 i.royalties,
    hash := exactBytes i.hash, uri := exactBytes i.uri, attributes := exactBytes i.attributes }

def sameToken (t : TokenSet) : CheckToken :=
  { name := t.name, instances := t.instances.map sameInstance, lastNonce := exactU64 t.lastNonce, roles := t.roles,
    frozen := exactU64 t.frozen }

/-- the check for an account with the content it was set with -/
def sameAccount (a : AccountInit) : CheckAccount :=
  { address := a.address, nonce := exactU64 a.nonce, balance := exactInt a.balance, username := exactBytes a.username,
    storage := a.storage.map (fun p => (p.1, exactBytes p.2)), code := exactBytes a.code, owner := exactBytes a.owner,
    asyncCallData := exactBytes a.asyncCallData, tokens := a.tokens.map sameToken }

/-- The tokens of the description do not get in each other's way: two instances with the same entry in the storage are the same, as are
two tokens with the same name. -/
def Unambiguous (a : AccountInit) : Prop :=
  (∀ t ∈ a.tokens, ∀ t' ∈ a.tokens, t.name = t'.name → t = t') ∧
  (∀ t ∈ a.tokens, ∀ t' ∈ a.tokens, ∀ i ∈ t.instances, ∀ i' ∈ t'.instances,
    makeTokenKey t.name i.nonce = makeTokenKey t'.name i'.nonce → t = t' ∧ i = i')

/-- What a description must avoid for the round trip: reserved keys among the storage; last nonces of tokens without instances;
instances of which there is nothing; royalties that do not fit in 32 bits; and details of instances with nonce 0. -/
structure Plain (a : AccountInit) : Prop where
  storage : ∀ p ∈ a.storage, ¬ ReservedKey p.1
  lastNonce : ∀ t ∈ a.tokens, t.instances = [] → t.lastNonce = 0
  balance : ∀ t ∈ a.tokens, ∀ i ∈ t.instances, i.balance > 0
  royalties : ∀ t ∈ a.tokens, ∀ i ∈ t.instances, i.royalties.toNat < 2 ^ 32
  fungible : ∀ t ∈ a.tokens, ∀ i ∈ t.instances, i.nonce = 0 →
    i.creator = [] ∧ i.royalties = 0 ∧ i.hash = [] ∧ i.uri = [] ∧ i.attributes = []

/-! ### Token identifiers -/

/-- the bytes `A`…`Z` and `0`…`9` -/
def tickerByte (b : UInt8) : Prop := (65 ≤ b ∧ b ≤ 90) ∨ (48 ≤ b ∧ b ≤ 57)

/-- token identifiers as the network issues them: a ticker, a dash and six further bytes -/
def TokenId (name : Bytes) : Prop := ∃ ticker suffix, name = ticker ++ 45 :: suffix ∧ (∀ b ∈ ticker, tickerByte b) ∧ suffix.length = 6

end Arwen.Spec
