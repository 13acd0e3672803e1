import Verif.World.Esdt
import Verif.Mandos.Reconstruct
import Verif.Mandos.ScenarioWrite
/-
The dump of the mock world that a `dumpState` step prints (`arwenmandos/stepDumpWorld.go`).

Simplifications: the field `Address` of an account is the key under which it is found; the accounts are printed in the order of the
list that stands for the map, which is not determined in Go (the theorems hold for any order).
-/
namespace Arwen.Mock
open Arwen.Mandos

section
variable (quoted : Bytes → Bytes)

/-- a value with the text that is made of it -/
def shownBytes (v : Bytes) (hint : Hint) : BytesS := ⟨v, reconstruct quoted v hint⟩

/-- the same, or nothing for an empty value (e.g. `arwenmandos/stepDumpWorld.go` 65-71) -/
def shownIfAny (v : Bytes) (hint : Hint) : BytesS := if v.length > 0 then shownBytes quoted v hint else {}

/-- a number with `ReconstructFromUint64` (`reconstructor.go` 57-59) -/
def shownU64 (n : UInt64) : U64 := ⟨n, reconstruct quoted (natToBytes n.toNat) .number⟩

/-- a number with `ReconstructFromBigInt` (`reconstructor.go` 53-55): `Bytes` is of the absolute value -/
def shownInt (n : Int) : BigI := ⟨some n, reconstruct quoted (natToBytes n.natAbs) .number⟩

/-- a value with its text in a tree -/
def shownTree (v : Bytes) : BytesT := ⟨v, some (.str (reconstruct quoted v .none))⟩

/-- the storage (`arwenmandos/stepDumpWorld.go` 19-41) -/
def shownStorage (st : Store) : List (BytesS × BytesT) :=
  ((sortByKey st.entries).filter (fun p => !elrondPrefix.isPrefixOf p.1 && decide (p.2.length > 0))).map
    (fun p => (shownBytes quoted p.1 .none, shownTree quoted p.2))

/-- an instance of a token (`arwenmandos/stepDumpWorld.go` 63-115). Instances that were loaded have metadata. -/
def shownInstance (t : TokenRec) : JInstance :=
  let m := t.metadata.getD {}
  { nonce := shownU64 quoted m.nonce
    balance := shownInt quoted t.value
    creator := shownIfAny quoted m.creator .address
    royalties := if m.royalties > 0 then shownU64 quoted m.royalties.toUInt64 else {}
    hash := shownIfAny quoted m.hash .none
    uri := match m.uris with
      | [] => {}
      | u :: _ => shownTree quoted u
    attributes := shownIfAny quoted m.attributes .none }

/-- a token (`arwenmandos/stepDumpWorld.go` 53-128) -/
def shownToken (name : Bytes) (t : TokenState) : JToken :=
  { name := shownBytes quoted name .str
    instances := t.instances.map (shownInstance quoted)
    lastNonce := shownU64 quoted t.lastNonce
    roles := t.roles }

/-- `convertMockAccountToMandosFormat` (`arwenmandos/stepDumpWorld.go` 18-146); `none` for an error -/
def shownAccount (C : TokenCodec) (a : Addr) (acc : WAcc) : Option JAccount :=
  match fullTokens C acc.storage with
  | none => none
  | some ts => some
    { address := shownBytes quoted a .address
      nonce := shownU64 quoted acc.nonce
      balance := shownInt quoted acc.balance
      storage := shownStorage quoted acc.storage
      tokens := (sortByKey ts.entries).map (fun p => shownToken quoted p.1 p.2) }

/-- the loop of `DumpWorld` (`arwenmandos/stepDumpWorld.go` 153-159), ended by the first error -/
def shownAccounts (C : TokenCodec) : List (Addr × WAcc) → Option (List JAccount)
  | [] => some []
  | p :: l =>
    match shownAccount quoted C p.1 p.2 with
    | none => none
    | some x => (shownAccounts C l).map (x :: ·)

/-- the tree that `DumpWorld` makes (`arwenmandos/stepDumpWorld.go` 148-161), `none` for an error -/
def dumpTree (C : TokenCodec) (w : MockWorld) : Option Json :=
  match shownAccounts quoted C w.accts.entries with
  | none => none
  | some l => accountsJson l

/-- `DumpWorld` (`arwenmandos/stepDumpWorld.go` 148-166): the text that is printed after the heading, or `none` for an error -/
def dumpWorld (C : TokenCodec) (w : MockWorld) : Option Bytes := (dumpTree quoted C w).map jsonString

end
end Arwen.Mock
