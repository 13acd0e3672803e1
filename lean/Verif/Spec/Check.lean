import Verif.World.Check
/-
When a `checkState` step and the expected result of a transaction are met (properties C53 and C54), said without the loops of the
checker: what the scenario's author wrote down about each part of the world, and what the world holds.
-/
namespace Arwen.Spec
open Mock

/-- what was written down about a value: `*` (anything), or the value itself -/
def MeetsBytes (c : CheckBytes) (x : Bytes) : Prop := c.star = true ∨ c.value = x
def MeetsInt (c : CheckInt) (x : Int) : Prop := c.star = true ∨ c.value = x
def MeetsU64 (c : CheckU64) (x : UInt64) : Prop := c.star = true ∨ c.value = x

/-- the last element with a property: of two expectations about the same thing, the one written last counts -/
def lastWith {α : Type} (p : α → Bool) (l : List α) : Option α := l.reverse.find? p

/-- keys that begin with `ELROND` belong to the protocol -/
def ReservedKey (k : Bytes) : Prop := ∃ rest, k = elrondPrefix ++ rest

/-- The storage is as described: of the keys that are not reserved, the ones written down have the values written down; the others are
empty, unless the author allowed more (`"+"`) or anything (`"*"` for the whole storage). -/
def StorageAs (e : CheckAccount) (acc : WAcc) : Prop :=
  e.ignoreStorage = true ∨ ∀ k, ¬ ReservedKey k →
    match lastWith (fun p => decide (p.1 = k)) e.storage with
    | some (_, c) => MeetsBytes c (acc.storageValue k)
    | none => e.moreStorage = true ∨ acc.storageValue k = []

/-! ### Tokens of an account, read off its storage -/

/-- amount and description of instance `n` of a token, if there is some of it; instances with nonce 0 have no description -/
def holding (C : TokenCodec) (st : Store) (name : Bytes) (n : UInt64) : Option (Int × TokenMeta) :=
  match st.get? (makeTokenKey name n) with
  | none => none
  | some v =>
    if v = [] then none
    else match C.untoken v with
      | none => none
      | some t =>
        if 0 < t.value ∧ t.nonce = n then some (t.value, if n = 0 then { name := name } else t.metadata.getD {}) else none

/-- the roles for a token -/
def rolesFor (C : TokenCodec) (st : Store) (name : Bytes) : List Bytes :=
  match st.get? (makeRolesKey name) with
  | none => []
  | some v => if v = [] then [] else (C.unroles v).getD []

/-- the last nonce given to an instance of a token -/
def lastNonceFor (st : Store) (name : Bytes) : UInt64 :=
  match st.get? (makeLastNonceKey name) with
  | none => 0
  | some v => UInt64.ofNat (bytesToNat v)

/-- the entries of the storage about tokens can be read: each is empty or the encoding of a token whose nonce is the one in the key -/
def ReadableTokens (C : TokenCodec) (st : Store) : Prop :=
  ∀ k v, st.get? k = some v → v ≠ [] →
    (isTokenKey k = true → ∃ t name, C.untoken v = some t ∧ k = makeTokenKey name t.nonce) ∧
    (isRoleKey k = true → ∃ l, C.unroles v = some l)

/-- one instance of a token is as described: the amount always counts, the rest only if it was written down; more than one URI is never
accepted -/
def InstanceAs (x : CheckInstance) (value : Int) (m : TokenMeta) : Prop :=
  MeetsInt x.balance value ∧
  (x.creator.unspecified = false → MeetsBytes x.creator m.creator) ∧
  (x.royalties.unspecified = false → MeetsU64 x.royalties (UInt64.ofNat m.royalties.toNat)) ∧
  (x.hash.unspecified = false → MeetsBytes x.hash m.hash) ∧
  m.uris.length ≤ 1 ∧
  (x.uri.unspecified = false → MeetsBytes x.uri (m.uris.headD [])) ∧
  (x.attributes.unspecified = false → MeetsBytes x.attributes m.attributes)

/-- one token is as described: every instance written down is as described (an instance that is not there counts as amount 0 without
description), there are no others, the last nonce is as written down and the roles are exactly those written down -/
def TokenAs (C : TokenCodec) (name : Bytes) (x : CheckToken) (st : Store) : Prop :=
  (∀ n, match lastWith (fun i => decide (i.nonce.value = n)) x.instances with
    | some i => match holding C st name n with
      | some (value, m) => InstanceAs i value m
      | none => InstanceAs i 0 {}
    | none => holding C st name n = none) ∧
  MeetsU64 x.lastNonce (lastNonceFor st name) ∧
  ∀ r, r ∈ x.roles ↔ r ∈ rolesFor C st name

/-- The tokens are as described: those written down are, and of the others the account has nothing: no instance, no last nonce, no role.
The author can ask to ignore all tokens (`"*"`). -/
def TokensAs (C : TokenCodec) (e : CheckAccount) (st : Store) : Prop :=
  e.ignoreTokens = true ∨ (ReadableTokens C st ∧
    ∀ name, TokenAs C name ((lastWith (fun x => decide (x.name = name)) e.tokens).getD {}) st)

/-- An account is as described. Omitted values count as 0 or empty, except for the data of asynchronous calls. -/
def AccountAs (C : TokenCodec) (e : CheckAccount) (acc : WAcc) : Prop :=
  MeetsU64 e.nonce acc.nonce ∧ MeetsInt e.balance acc.balance ∧ MeetsBytes e.username acc.username ∧ MeetsBytes e.code acc.code ∧
  (e.asyncCallData.unspecified = false → MeetsBytes e.asyncCallData acc.asyncCallData) ∧
  StorageAs e acc ∧ TokensAs C e acc.storage

/-- The world is as described: every account written down is there and as described; there are no others, unless the author allowed
more. -/
def WorldAs (C : TokenCodec) (c : CheckAccounts) (w : MockWorld) : Prop :=
  (∀ e ∈ c.accounts, ∃ acc, w.account e.address = some acc ∧ AccountAs C e acc) ∧
  (c.moreAccounts = true ∨ ∀ a acc, w.account a = some acc → ∃ e ∈ c.accounts, e.address = a)

/-! Some of what can be written down is not looked at: the owner, expectations about reserved keys, and `"+"` among the tokens, which
should allow others. With all of it counting: -/

def OwnerAs (e : CheckAccount) (acc : WAcc) : Prop := e.owner.unspecified = false → MeetsBytes e.owner acc.owner

def ReservedAs (e : CheckAccount) (acc : WAcc) : Prop :=
  e.ignoreStorage = true ∨ ∀ k, ReservedKey k → ∀ q, lastWith (fun p => decide (p.1 = k)) e.storage = some q →
    MeetsBytes q.2 (acc.storageValue k)

def TokensAsWritten (C : TokenCodec) (e : CheckAccount) (st : Store) : Prop :=
  e.ignoreTokens = true ∨ (ReadableTokens C st ∧
    ∀ name, match lastWith (fun x => decide (x.name = name)) e.tokens with
      | some x => TokenAs C name x st
      | none => e.moreTokens = true ∨ TokenAs C name {} st)

def AccountAsWritten (C : TokenCodec) (e : CheckAccount) (acc : WAcc) : Prop :=
  MeetsU64 e.nonce acc.nonce ∧ MeetsInt e.balance acc.balance ∧ MeetsBytes e.username acc.username ∧ MeetsBytes e.code acc.code ∧
  OwnerAs e acc ∧ (e.asyncCallData.unspecified = false → MeetsBytes e.asyncCallData acc.asyncCallData) ∧
  StorageAs e acc ∧ ReservedAs e acc ∧ TokensAsWritten C e acc.storage

/-- the world is as the author of the scenario wrote it down -/
def WorldAsWritten (C : TokenCodec) (c : CheckAccounts) (w : MockWorld) : Prop :=
  (∀ e ∈ c.accounts, ∃ acc, w.account e.address = some acc ∧ AccountAsWritten C e acc) ∧
  (c.moreAccounts = true ∨ ∀ a acc, w.account a = some acc → ∃ e ∈ c.accounts, e.address = a)

/-- nothing is written down that is not looked at -/
def OnlyChecked (e : CheckAccount) : Prop :=
  e.owner.unspecified = true ∧ (∀ p ∈ e.storage, ¬ ReservedKey p.1) ∧ e.moreTokens = false

/-! ### Results of transactions -/

/-- two lists of the same length, related element by element -/
def ListAs {α β : Type} (R : α → β → Prop) (l : List α) (r : List β) : Prop :=
  l.length = r.length ∧ ∀ (i : Nat) (a : α) (b : β), l[i]? = some a → r[i]? = some b → R a b

/-- an entry of the log is as described -/
def LogAs (c : CheckLog) (l : LogEntry) : Prop :=
  MeetsBytes c.address l.address ∧ MeetsBytes c.identifier l.identifier ∧ ListAs MeetsBytes c.topics l.topics ∧ MeetsBytes c.data l.data

/-- the result of a transaction is as described -/
def ResultAs (checkGas : Bool) (c : TxExpect) (o : VMOutput) : Prop :=
  MeetsInt c.status (o.returnCode.toNat : Int) ∧ MeetsBytes c.message o.returnMessage ∧ ListAs MeetsBytes c.out o.returnData ∧
  MeetsInt c.refund o.gasRefund ∧ (checkGas = true → c.gas.unspecified = false → MeetsU64 c.gas o.gasRemaining) ∧
  (c.logsStar = true ∨ ListAs LogAs c.logs o.logs)

end Arwen.Spec
