import Verif.Mandos.ScenarioModel
import Verif.Spec.Json
/-!
What C62 says: the scenarios that survive being written and read again, part by part. Everything that is not mentioned survives always.
-/
namespace Arwen.Spec
open Arwen.Mandos

/-- a transferred token: the empty text must not stand for the amount zero -/
def KeptTxToken (x : JTxToken) : Prop := x.value.original = [] → x.value.value = none

/-- an instance of a token that is written with its fields: the empty text must not stand for the balance zero, and an empty URI is
left out -/
structure KeptInstance (x : JInstance) : Prop where
  balance : x.balance.original = [] → x.balance.value = none
  uri : x.uri.value = [] → x.uri.original = none

/-- a token with a single instance without nonce, without roles and without a frozen flag: only its balance is written -/
def PlainAmount (x : JToken) : Prop := ∃ i, x.instances = [i] ∧ i.nonce.original = [] ∧ x.roles = [] ∧ x.frozen.original = []

/-- a token of an account: if it is a plain amount then nothing but the balance is given, and otherwise a single instance has some field -/
structure KeptToken (x : JToken) : Prop where
  plain : PlainAmount x → x.lastNonce = {} ∧ ∀ i ∈ x.instances, i = { balance := i.balance } ∧ i.balance.value ≠ none
  full : ¬ PlainAmount x → x.instances ≠ [{}] ∧ ∀ i ∈ x.instances, KeptInstance i

/-- an account: without a shard, and names and owners are not expressions for nothing -/
structure KeptAccount (x : JAccount) : Prop where
  shard : x.shard = {}
  username : x.username.value = [] → x.username.original = []
  owner : x.owner.value = [] → x.owner.original = []
  tokens : ∀ t ∈ x.tokens, KeptToken t

/-- a check of bytes in an instance: missing, or for something that is not empty; so it is not `*` -/
def KeptBytes (x : ChkBytes) : Prop := x = .missing ∨ x.value ≠ []

/-- a checked instance that is written with its fields: no field is given as the empty text, and there is no check of the URI -/
structure KeptChkInstance (x : JChkInstance) : Prop where
  nonce : x.nonce.original = [] → x.nonce = .missing
  balance : x.balance.original = [] → x.balance = .missing
  creator : KeptBytes x.creator
  royalties : x.royalties.original = [] → x.royalties = .missing
  hash : KeptBytes x.hash
  uri : x.uri = .missing
  attributes : KeptBytes x.attributes

/-- a checked token with a single instance without nonce, without roles and without a frozen flag: only its balance is written -/
def PlainChkAmount (x : JChkToken) : Prop := ∃ i, x.instances = [i] ∧ i.nonce.original = [] ∧ x.roles = [] ∧ x.frozen.original = []

/-- a checked token: if it is a plain amount then it was given as one, and otherwise a single instance has some field -/
structure KeptChkToken (x : JChkToken) : Prop where
  plain : PlainChkAmount x → x.lastNonce = {} ∧ ∀ i ∈ x.instances, i = { balance := i.balance } ∧ i.balance ≠ .missing
  full : ¬ PlainChkAmount x → x.instances ≠ [.fresh] ∧ ∀ i ∈ x.instances, KeptChkInstance i

/-- a checked account: other tokens are allowed only beside listed ones -/
structure KeptChkAccount (x : JChkAccount) : Prop where
  more : x.moreTokens = true → x.tokens ≠ []
  tokens : ∀ t ∈ x.tokens, KeptChkToken t

/-- a transaction: without a nonce, with sender and receiver if its kind has them, with code only if it is a deployment, and without
arguments if it is a reward -/
structure KeptTx (x : JTx) : Prop where
  nonce : x.nonce = {}
  sender : x.kind.hasSender → x.sender.original ≠ []
  to : x.kind.hasReceiver → x.to.original ≠ []
  code : x.kind ≠ .scDeploy → x.code.original = []
  args : x.kind = .validatorReward → x.args = []
  token : ∀ t, x.token = some t → KeptTxToken t

/-- a log entry: all three of address, identifier and data are given -/
structure KeptLog (x : JLog) : Prop where
  address : x.address.original ≠ none
  identifier : x.identifier.original ≠ none
  data : x.data.original ≠ none

/-- a step: addresses of new contracts are complete, `checkState` has accounts, transaction steps have their transaction -/
def KeptStep : JStep → Prop
  | .external _ _ => True
  | .setState x => (∀ a ∈ x.accounts, KeptAccount a) ∧ ∀ a ∈ x.newAddresses, a.creator.original ≠ [] ∧ a.new.original ≠ []
  | .checkState _ accounts => ∃ c, accounts = some c ∧ ∀ a ∈ c.accounts, KeptChkAccount a
  | .dumpState _ => True
  | .tx x => (∃ t, x.tx = some t ∧ KeptTx t) ∧ ∀ r, x.expect = some r → ∀ l ∈ r.logs, KeptLog l

/-- a scenario -/
def KeptScenario (x : JScenario) : Prop := ∀ s ∈ x.steps, KeptStep s

end Arwen.Spec
