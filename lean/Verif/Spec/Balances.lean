import Verif.Spec.Requests
import Verif.Spec.Numbers
import Verif.Spec.Entries
/-
What contracts learn about balances and tokens.
-/
namespace Arwen.Spec
variable {χ A : Type}

/-- Balances of accounts may have been looked up and noted; the output is the same otherwise, and so are all balances. -/
structure Inquired (E : Env χ A) (s t : St χ A) : Prop where
  rest : t.out = { s.out with cur := { s.out.cur with accounts := t.out.cur.accounts } }
  accounts : ∀ a, { noted t.out a with balance := none } = { noted s.out a with balance := none }
  known : ∀ a, known E t a = known E s a
  balance : ∀ a, balance E t a = balance E s a

/-- After `t`: the price has been paid and the number stands behind the handle; nothing else has changed. -/
def SetTo (s t : St χ A) (i price : Nat) (d : Int32) (v : Int) : Prop :=
  ∃ u, OnlyPaid s u i price ∧ t = { u with big := t.big } ∧ t.big.stack = s.big.stack ∧
    ∀ k, (t.big.vals.get? k).getD 0 = if k = d then v else (s.big.vals.get? k).getD 0

/-- these data stand in the memory, each at its place -/
def AllAt (mem : Bytes) (l : List (Int32 × Bytes)) : Prop := ∀ x ∈ l, Holds mem x.1 x.2

/-- position `j` belongs to the data -/
def Within (x : Int32 × Bytes) (j : Nat) : Prop := x.1.toInt.toNat ≤ j ∧ j < x.1.toInt.toNat + x.2.length

/-- no place for one of the data meets another -/
def Apart (l : List (Int32 × Bytes)) : Prop := l.Pairwise fun x y => ∀ j, ¬ (Within x j ∧ Within y j)

/-- The data have been put into a memory that was `old`; the rest of it is as before, and so is its size. -/
structure Laid (old mem : Bytes) (l : List (Int32 × Bytes)) : Prop where
  size : mem.length = old.length
  data : Apart l → AllAt mem l
  rest : ∀ j, (∀ x ∈ l, ¬ Within x j) → byteAt mem j = byteAt old j

/-- what `getESDTTokenData` puts into the memory -/
def tokenParts (r : Eei.EsdtDest) (t : EsdtToken) : List (Int32 × Bytes) :=
  (r.properties, t.properties) :: match t.tokenMeta with
    | none => []
    | some m => [(r.hash, m.hash), (r.name, m.name), (r.attributes, m.attributes), (r.creator, m.creator)] ++ (m.uris.head?.map fun u => (r.uris, u)).toList

/-- the number behind handle `k` after `getESDTTokenData`: the amount of tokens, and the royalties if the token has any data -/
def tokenNumbers (r : Eei.EsdtDest) (t : EsdtToken) (old : Int32 → Int) (k : Int32) : Int :=
  match t.tokenMeta with
  | none => if k = r.value then t.value else old k
  | some m => if k = r.royalties then m.royalties.toNat else if k = r.value then t.value else old k

/-- the length of a part of the data of a token; 0 if there are no data -/
def partLength (t : EsdtToken) (f : EsdtMeta → Bytes) : Int64 := asResult ((t.tokenMeta.map fun m => (f m).length).getD 0)

/-- the first URI; none counts as an empty one -/
def firstUri (m : EsdtMeta) : Bytes := m.uris.head?.getD []

/-- the last nonce of a token as the node has it; 0 if the account does not let others read its storage -/
noncomputable def lastNonce (E : Env χ A) (s : St χ A) (a : Addr) (tok : Bytes) : UInt64 :=
  open Classical in if MayRead E s a then UInt64.ofNat (bytesToNat (E.hook.storageData s.world a (E.nftNoncePrefix ++ tok))) else 0

end Arwen.Spec
