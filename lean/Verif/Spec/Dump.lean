import Verif.Spec.Check
import Verif.Spec.Expr
import Verif.Mandos.ScenarioModel
/-
What a dump of the world has to show. Only the trees are described; how trees are printed is another matter.
-/
namespace Arwen.Spec
open Arwen.Mandos Arwen.Mock

/-- bytes are shown in hexadecimal, with a note for people -/
def ShowsBytes (v t : Bytes) : Prop :=
  (v = [] ∧ t = []) ∨ (v ≠ [] ∧ ∃ note, t = ascii ['0', 'x'] ++ hexEncode v ++ ascii [' ', '('] ++ note ++ ascii [')'])

/-- numbers are shown in decimal -/
def ShowsNat (n : Nat) (t : Bytes) : Prop := Digits 10 t n

/-- addresses that the syntax of scenarios has a name for: they have 32 bytes, none of the first 31 is a `|` or a `#`, and those of
contracts do not end with a byte below 16 -/
def NamedAddress (a : Bytes) : Prop :=
  a.length = 32 ∧ (∀ c ∈ a.take 31, c ≠ 124 ∧ c ≠ 35) ∧ (a.take 8 = List.replicate 8 0 → 16 ≤ a.getD 31 0)

/-- a text under some key, put there if there is something to show -/
def ShowsField (w : Word) (present : Prop) (P : Bytes → Prop) (ps : List (Bytes × Json)) : Prop :=
  (present → ∃ t, P t ∧ ps = [(w.text, .str t)]) ∧ (¬ present → ps = [])

/-- the storage: all values that are not empty, except under the keys of the protocol, in the order of the keys -/
def ShowsStorage (st : Store) (ps : List (Bytes × Json)) : Prop :=
  ∃ es : List (Bytes × Bytes), es.Pairwise (fun a b => Before a.1 b.1) ∧
    (∀ k v, (k, v) ∈ es ↔ st.get? k = some v ∧ v ≠ [] ∧ ¬ elrondPrefix <+: k) ∧
    es.length = ps.length ∧
    ∀ e p, (e, p) ∈ es.zip ps → ShowsBytes e.1 p.1 ∧ ∃ t, p.2 = .str t ∧ ShowsBytes e.2 t

/-- an instance of a token: of the URIs only the first -/
def ShowsInstance (n : UInt64) (value : Int) (m : TokenMeta) (ps : List (Bytes × Json)) : Prop :=
  ∃ nonce balance creator royalties hash uri attributes,
    ps = nonce ++ balance ++ creator ++ royalties ++ hash ++ uri ++ attributes ∧
    ShowsField .nonce True (ShowsNat n.toNat) nonce ∧
    ShowsField .balance True (ShowsNat value.toNat) balance ∧
    ShowsField .creator (m.creator ≠ []) (fun t => (m.creator.length ≠ 32 → ShowsBytes m.creator t) ∧
      ∀ I, NamedAddress m.creator → interpretString I t = .ok m.creator) creator ∧
    ShowsField .royalties (m.royalties ≠ 0) (ShowsNat m.royalties.toNat) royalties ∧
    ShowsField .hash (m.hash ≠ []) (ShowsBytes m.hash) hash ∧
    ShowsField .uri (m.uris.headD [] ≠ []) (ShowsBytes (m.uris.headD [])) uri ∧
    ShowsField .attributes (m.attributes ≠ []) (ShowsBytes m.attributes) attributes

/-- a token: its instances, each once, the last nonce, and the roles if there are any. A single instance is not in a list. -/
def ShowsToken (C : TokenCodec) (st : Store) (name : Bytes) (j : Json) : Prop :=
  ∃ (hs : List (UInt64 × Int × TokenMeta)) (is : List (List (Bytes × Json))) (first last roles : List (Bytes × Json)),
    j = .map (first ++ last ++ roles) ∧
    (hs.map fun h => h.1).Nodup ∧ (∀ n v m, (n, v, m) ∈ hs ↔ holding C st name n = some (v, m)) ∧
    hs.length = is.length ∧ (∀ h i, (h, i) ∈ hs.zip is → ShowsInstance h.1 h.2.1 h.2.2 i) ∧
    (is = [first] ∨ is.length ≠ 1 ∧ first = [(Word.instances.text, .list (is.map Json.map))]) ∧
    ShowsField .lastNonce True (ShowsNat (lastNonceFor st name).toNat) last ∧
    roles = if rolesFor C st name = [] then [] else [(Word.roles.text, .list ((rolesFor C st name).map Json.str))]

/-- the tokens, in the order of their names: those of which the account has something, and perhaps others, all as they are -/
def ShowsTokens (C : TokenCodec) (st : Store) (ps : List (Bytes × Json)) : Prop :=
  ∃ names : List Bytes, names.Pairwise Before ∧
    (∀ name, (∃ n h, holding C st name n = some h) ∨ lastNonceFor st name ≠ 0 ∨ rolesFor C st name ≠ [] → name ∈ names) ∧
    names.length = ps.length ∧
    ∀ name p, (name, p) ∈ names.zip ps → p.1 = ascii ['s', 't', 'r', ':'] ++ name ∧ ShowsToken C st name p.2

/-- an account: its nonce, its balance, its tokens if there are any, its storage and, whatever its code is, no code -/
def ShowsAccount (C : TokenCodec) (nonce : UInt64) (balance : Int) (st : Store) (j : Json) : Prop :=
  ∃ n b s ts, ShowsNat nonce.toNat n ∧ ShowsNat balance.natAbs b ∧ ShowsStorage st s ∧ ShowsTokens C st ts ∧
    j = .map ([(Word.nonce.text, .str n), (Word.balance.text, .str b)] ++ (if ts = [] then [] else [(Word.esdt.text, .map ts)]) ++
      [(Word.storage.text, .map s), (Word.code.text, .str [])])

/-- an address: by its name, if it has one, and if it has not 32 bytes in hexadecimal -/
def ShowsAddress (a t : Bytes) : Prop :=
  (∀ I, NamedAddress a → interpretString I t = .ok a) ∧ (a.length ≠ 32 → ShowsBytes a t)

end Arwen.Spec
