import Verif.World.Mock
/-
Tokens of the accounts of the mock world (`mock/world/mockESDTAccount.go`): they are kept in the account's storage, under keys of the
protocol. Slices are values here; that `append` to the package variables with the prefixes could write to shared memory is not
modelled (all callers use a key before they make the next one).
-/
namespace Arwen.Mock

/-- `esdt.MetaData` of `elrond-vm-common/data/esdt` -/
structure TokenMeta where
  nonce : UInt64 := 0
  name : Bytes := []
  creator : Bytes := []
  royalties : UInt32 := 0
  hash : Bytes := []
  uris : List Bytes := []
  attributes : Bytes := []
  deriving DecidableEq, Repr, Inhabited

/-- `esdt.ESDigitalToken` of `elrond-vm-common/data/esdt`. The pointer `Value` is not nil. -/
structure TokenRec where
  value : Int := 0
  tokenType : UInt32 := 0
  properties : Bytes := []
  metadata : Option TokenMeta := none
  deriving DecidableEq, Repr, Inhabited

/-- The protobuf encodings of tokens and of roles (`WorldMarshalizer`), which are generated code of a library; `none` is an error. -/
structure TokenCodec where
  token : TokenRec → Bytes
  untoken : Bytes → Option TokenRec
  roles : List Bytes → Bytes
  unroles : Bytes → Option (List Bytes)

/-- `vmcommon.ElrondProtectedKeyPrefix`: `ELROND` -/
def elrondPrefix : Bytes := [69, 76, 82, 79, 78, 68]
/-- `ESDTTokenKeyPrefix`, `mock/world/mockESDT.go` 12: `ELRONDesdt` -/
def tokenPrefix : Bytes := elrondPrefix ++ [101, 115, 100, 116]
/-- `ESDTRoleKeyPrefix`, `mock/world/mockESDT.go` 15: `ELRONDroleesdt` -/
def rolePrefix : Bytes := elrondPrefix ++ [114, 111, 108, 101, 101, 115, 100, 116]
/-- `ESDTNonceKeyPrefix`, `mock/world/mockESDT.go` 18: `ELRONDnonce` -/
def noncePrefix : Bytes := elrondPrefix ++ [110, 111, 110, 99, 101]

/-- `MakeTokenKey`, `mock/world/mockESDTAccount.go` 16-21 -/
def makeTokenKey (name : Bytes) (nonce : UInt64) : Bytes := tokenPrefix ++ name ++ natToBytes nonce.toNat
/-- `MakeTokenRolesKey`, `mock/world/mockESDTAccount.go` 25-28 -/
def makeRolesKey (name : Bytes) : Bytes := rolePrefix ++ name
/-- `MakeLastNonceKey`, `mock/world/mockESDTAccount.go` 32-35 -/
def makeLastNonceKey (name : Bytes) : Bytes := noncePrefix ++ name

/-- `IsTokenKey`, `mock/world/mockESDTAccount.go` 43-45 -/
def isTokenKey (key : Bytes) : Bool := tokenPrefix.isPrefixOf key
/-- `IsRoleKey`, `mock/world/mockESDTAccount.go` 48-50 -/
def isRoleKey (key : Bytes) : Bool := rolePrefix.isPrefixOf key
/-- `IsNonceKey`, `mock/world/mockESDTAccount.go` 53-55 -/
def isNonceKey (key : Bytes) : Bool := noncePrefix.isPrefixOf key
/-- `IsESDTKey`, `mock/world/mockESDTAccount.go` 38-40 -/
def isEsdtKey (key : Bytes) : Bool := isTokenKey key || isRoleKey key || isNonceKey key

/-- `GetTokenNameFromKey`, `mock/world/mockESDTAccount.go` 59-61 -/
def nameFromKey (key : Bytes) : Bytes := key.drop tokenPrefix.length

/-- the storage of an account -/
abbrev Store := AMap Bytes Bytes

section
variable (C : TokenCodec)

/-- `GetTokenData`, `mock/world/mockESDTAccount.go` 125-146; `none` for an error. `Unmarshal` resets the record first
(`mock/world/gogoProtoMarshalizer.go` 42-47). -/
def getTokenData (st : Store) (key : Bytes) : Option TokenRec :=
  match st.get? key with
  | none => some { metadata := some { name := nameFromKey key } }
  | some v => if v = [] then some { metadata := some { name := nameFromKey key } } else C.untoken v

/-- `SetTokenData`, `mock/world/mockESDTAccount.go` 149-156 -/
def setTokenData (st : Store) (key : Bytes) (t : TokenRec) : Store := st.insert key (C.token t)

/-- `GetTokenBalance`, `mock/world/mockESDTAccount.go` 72-79 -/
def getTokenBalance (st : Store) (key : Bytes) : Option Int := (getTokenData C st key).map TokenRec.value

/-- `SetTokenBalance`, `mock/world/mockESDTAccount.go` 83-95; `none` for an error -/
def setTokenBalance (st : Store) (key : Bytes) (balance : Int) : Option Store :=
  match getTokenData C st key with
  | none => none
  | some t => if balance < 0 then none else some (setTokenData C st key { t with value := balance })

/-- `SetTokenRoles`, `mock/world/mockESDTAccount.go` 159-172, and `SetTokenRolesAsStrings`, 175-182 -/
def setRoles (st : Store) (name : Bytes) (roles : List Bytes) : Store := st.insert (makeRolesKey name) (C.roles roles)

/-- `GetTokenRoles`, `mock/world/mockESDTAccount.go` 205-223 -/
def getRoles (st : Store) (name : Bytes) : Option (List Bytes) :=
  match st.get? (makeRolesKey name) with
  | none => some []
  | some v => if v = [] then some [] else C.unroles v

/-- `SetLastNonce`, `mock/world/mockESDTAccount.go` 185-190 -/
def setLastNonce (st : Store) (name : Bytes) (n : UInt64) : Store := st.insert (makeLastNonceKey name) (natToBytes n.toNat)

/-- `MockESDTData`, `mock/world/mockESDTAccount.go` 238-243; the token identifier is the key in the map -/
structure TokenState where
  instances : List TokenRec := []
  lastNonce : UInt64 := 0
  roles : List Bytes := []
  deriving DecidableEq, Repr, Inhabited

/-- `loadMockESDTDataInstance`, `mock/world/mockESDTAccount.go` 278-306: the name of the token and the instance, which has metadata
then. `none` for an error, also for the panic when the nonce has more bytes than the rest of the key. -/
def loadInstance (st : Store) (key : Bytes) : Option (Bytes × TokenRec) :=
  match getTokenData C st key with
  | none => none
  | some t =>
    let rest := nameFromKey key
    let nonce := (t.metadata.map TokenMeta.nonce).getD 0
    if nonce = 0 then some (rest, { t with metadata := some { name := rest } })
    else
      let nb := natToBytes nonce.toNat
      if rest.length < nb.length then none
      else if nb ≠ rest.drop (rest.length - nb.length) then none
      else some (rest.take (rest.length - nb.length), t)

/-- one entry of the storage in `GetFullMockESDTData`, `mock/world/mockESDTAccount.go` 248-272, with `getOrCreateMockESDTData`, 308-320 -/
def addEntry (st : Store) (m : AMap Bytes TokenState) (p : Bytes × Bytes) : Option (AMap Bytes TokenState) :=
  if isTokenKey p.1 then
    match loadInstance C st p.1 with
    | none => none
    | some (name, t) =>
      if t.value > 0 then
        let old := (m.get? name).getD {}
        some (m.insert name { old with instances := old.instances ++ [t] })
      else some m
  else if isNonceKey p.1 then
    let name := p.1.drop noncePrefix.length
    let old := (m.get? name).getD {}
    some (m.insert name { old with lastNonce := UInt64.ofNat (bytesToNat p.2) })
  else if isRoleKey p.1 then
    let name := p.1.drop rolePrefix.length
    match getRoles C st name with
    | none => none
    | some roles =>
      let old := (m.get? name).getD {}
      some (m.insert name { old with roles := roles })
  else some m

/-- the loop of `GetFullMockESDTData` -/
def addEntries (st : Store) : List (Bytes × Bytes) → AMap Bytes TokenState → Option (AMap Bytes TokenState)
  | [], m => some m
  | p :: l, m => match addEntry C st m p with
    | none => none
    | some m => addEntries st l m

/-- `GetFullMockESDTData`, `mock/world/mockESDTAccount.go` 246-275 -/
def fullTokens (st : Store) : Option (AMap Bytes TokenState) := addEntries C st st.entries AMap.empty

end

end Arwen.Mock
