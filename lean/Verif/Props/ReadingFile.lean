import Verif.Props.ReadingSteps
import Verif.Props.Rewrite
/-!
C73: scenario files are read as they are written down, or rejected.
-/
namespace Arwen.Props
open Arwen.Mandos Arwen.Spec

variable {I : Interpreter}

/-- **C73.** A file is accepted exactly if it is an object that says what a scenario says, key by key (`SaysScenario`): no key is unknown or of
another kind of step, every value is exactly the one beside its key, numbers fit into their types, addresses and seeds have their lengths, and
a missing key gives the default. There is one such scenario at most, and it is the one that is read. -/
theorem c73_read (I : Interpreter) (input : Bytes) (x : JScenario) :
    parseScenarioFile I input = .ok x ↔ ∃ l, parseOrderedJson input = .ok (some (.map l)) ∧ SaysScenario I l x := by
  unfold parseScenarioFile
  split
  · rename_i j hj
    obtain ⟨j', e, hp⟩ := c39_parsed input _ hj
    cases e
    rw [scenario_iff hp, hj]
    constructor
    · rintro ⟨l, rfl, h⟩
      exact ⟨l, rfl, h⟩
    · rintro ⟨l, e, h⟩
      cases e
      exact ⟨l, rfl, h⟩
  · rename_i hn
    constructor
    · intro h
      cases h
    · rintro ⟨l, h, _⟩
      exact absurd h (hn _)

/-- **C73, one meaning.** What a file says is not ambiguous. -/
theorem c73_one (I : Interpreter) (input : Bytes) (l : List (Bytes × Json)) (x y : JScenario) (hl : parseOrderedJson input = .ok (some (.map l)))
    (hx : SaysScenario I l x) (hy : SaysScenario I l y) : x = y := by
  have h1 := (c73_read I input x).mpr ⟨l, hl, hx⟩
  have h2 := (c73_read I input y).mpr ⟨l, hl, hy⟩
  rw [h1] at h2
  cases h2
  rfl

/-! ### The order of keys -/

theorem valueAt_mem {l : List (Bytes × Json)} (hn : (l.map Prod.fst).Nodup) {k : Bytes} {v : Json} : valueAt l k = some v ↔ (k, v) ∈ l := by
  induction l with
  | nil => simp [valueAt]
  | cons p l ih =>
    obtain ⟨n, u⟩ := p
    rw [List.map_cons, List.nodup_cons] at hn
    rw [valueAt]
    by_cases h : n = k
    · subst h
      rw [if_pos rfl, List.mem_cons]
      constructor
      · intro e
        cases e
        exact .inl rfl
      · rintro (e | e)
        · cases e
          rfl
        · exact absurd (List.mem_map_of_mem (f := Prod.fst) e) hn.1
    · rw [if_neg h, ih hn.2, List.mem_cons]
      constructor
      · exact .inr
      · rintro (e | e)
        · cases e
          exact absurd rfl h
        · exact e

section
variable {l m : List (Bytes × Json)} (hn : (l.map Prod.fst).Nodup) (hp : l.Perm m)
include hn hp

theorem valueAt_perm (k : Bytes) : valueAt l k = valueAt m k := by
  have hm : (m.map Prod.fst).Nodup := (hp.map Prod.fst).nodup_iff.mp hn
  refine Option.ext fun v => ?_
  rw [valueAt_mem hn, valueAt_mem hm]
  exact hp.mem_iff

theorem atKey_perm {α : Type} {w : Word} {says : Json → α → Prop} {d x : α} : AtKey l w says d x ↔ AtKey m w says d x := by
  unfold AtKey
  rw [valueAt_perm hn hp]

theorem onlyKeys_perm {ws : List Word} : OnlyKeys l ws ↔ OnlyKeys m ws :=
  ⟨fun h p q => h p (hp.mem_iff.mpr q), fun h p q => h p (hp.mem_iff.mp q)⟩

end

/-- **C73, order.** The order of the keys does not matter, in scenarios, in `setState` steps, transactions, expected results, blocks, new addresses,
accounts and checked accounts. -/
theorem c73_order (I : Interpreter) (l m : List (Bytes × Json)) (hl : Printable (.map l)) (hp : l.Perm m) :
    (∀ x, SaysScenario I l x ↔ SaysScenario I m x) ∧ (∀ x, SaysSetState I l x ↔ SaysSetState I m x) ∧
    (∀ kind x, SaysTx I kind l x ↔ SaysTx I kind m x) ∧ (∀ x, SaysResult I l x ↔ SaysResult I m x) ∧
    (∀ x, SaysLog I l x ↔ SaysLog I m x) ∧ (∀ x, SaysBlockInfo I l x ↔ SaysBlockInfo I m x) ∧
    (∀ x, SaysNewAddress I l x ↔ SaysNewAddress I m x) ∧ (∀ k x, SaysAccount I k l x ↔ SaysAccount I k m x) ∧
    (∀ k x, SaysChkAccount I k l x ↔ SaysChkAccount I k m x) ∧ (∀ x, SaysTxToken I l x ↔ SaysTxToken I m x) := by
  have hn : (l.map Prod.fst).Nodup := by cases hl with | map _ hn _ => exact hn
  have ha : ∀ {α : Type} (w : Word) (says : Json → α → Prop) (d x : α), AtKey l w says d x = AtKey m w says d x :=
    fun _ _ _ _ => propext (atKey_perm hn hp)
  have ho : ∀ ws, OnlyKeys l ws = OnlyKeys m ws := fun _ => propext (onlyKeys_perm hn hp)
  and_intros
  · exact fun x => ⟨fun ⟨a, b, c, d, e, f⟩ => by constructor <;> first | (rw [← ha]; assumption) | (rw [← ho]; assumption),
      fun ⟨a, b, c, d, e, f⟩ => by constructor <;> first | (rw [ha]; assumption) | (rw [ho]; assumption)⟩
  · exact fun x => ⟨fun ⟨a, b, c, d, e, f, g⟩ => by constructor <;> first | (rw [← ha]; assumption) | (rw [← ho]; assumption),
      fun ⟨a, b, c, d, e, f, g⟩ => by constructor <;> first | (rw [ha]; assumption) | (rw [ho]; assumption)⟩
  · exact fun kind x => ⟨fun ⟨a, b, c, d, e, f, g, h, i, j, k, l⟩ => by
        constructor <;> first | assumption | (rw [← ha]; assumption) | (rw [← ho]; assumption),
      fun ⟨a, b, c, d, e, f, g, h, i, j, k, l⟩ => by constructor <;> first | assumption | (rw [ha]; assumption) | (rw [ho]; assumption)⟩
  · exact fun x => ⟨fun ⟨a, b, c, d, e, f, g⟩ => by constructor <;> first | (rw [← ha]; assumption) | (rw [← ho]; assumption),
      fun ⟨a, b, c, d, e, f, g⟩ => by constructor <;> first | (rw [ha]; assumption) | (rw [ho]; assumption)⟩
  · exact fun x => ⟨fun ⟨a, b, c, d, e⟩ => by constructor <;> first | (rw [← ha]; assumption) | (rw [← ho]; assumption),
      fun ⟨a, b, c, d, e⟩ => by constructor <;> first | (rw [ha]; assumption) | (rw [ho]; assumption)⟩
  · exact fun x => ⟨fun ⟨a, b, c, d, e, f⟩ => by constructor <;> first | (rw [← ha]; assumption) | (rw [← ho]; assumption),
      fun ⟨a, b, c, d, e, f⟩ => by constructor <;> first | (rw [ha]; assumption) | (rw [ho]; assumption)⟩
  · exact fun x => ⟨fun ⟨a, b, c, d⟩ => by constructor <;> first | (rw [← ha]; assumption) | (rw [← ho]; assumption),
      fun ⟨a, b, c, d⟩ => by constructor <;> first | (rw [ha]; assumption) | (rw [ho]; assumption)⟩
  · exact fun k x => ⟨fun ⟨a, b, c, d, e, f, g, h, i, j, k, l⟩ => by
        constructor <;> first | assumption | (rw [← ha]; assumption) | (rw [← ho]; assumption),
      fun ⟨a, b, c, d, e, f, g, h, i, j, k, l⟩ => by constructor <;> first | assumption | (rw [ha]; assumption) | (rw [ho]; assumption)⟩
  · exact fun k x => ⟨fun ⟨a, b, c, d, e, f, g, h, i, j, k⟩ => by
        constructor <;> first | assumption | (rw [← ha]; assumption) | (rw [← ho]; assumption),
      fun ⟨a, b, c, d, e, f, g, h, i, j, k⟩ => by constructor <;> first | assumption | (rw [ha]; assumption) | (rw [ho]; assumption)⟩
  · exact fun x => ⟨fun ⟨a, b, c, d⟩ => by constructor <;> first | (rw [← ha]; assumption) | (rw [← ho]; assumption),
      fun ⟨a, b, c, d⟩ => by constructor <;> first | (rw [ha]; assumption) | (rw [ho]; assumption)⟩

/-! ### The words -/

/-- **C73, words.** The keys, the types of steps and the gas schedules are spelled like this. -/
theorem c73_words : ([
    (.name, bytes% "name"), (.comment, bytes% "comment"), (.checkGas, bytes% "checkGas"), (.gasSchedule, bytes% "gasSchedule"),
    (.steps, bytes% "steps"), (.step, bytes% "step"), (.default, bytes% "default"), (.dummy, bytes% "dummy"), (.v1, bytes% "v1"),
    (.v2, bytes% "v2"), (.v3, bytes% "v3"), (.externalSteps, bytes% "externalSteps"), (.setState, bytes% "setState"),
    (.checkState, bytes% "checkState"), (.dumpState, bytes% "dumpState"), (.scCall, bytes% "scCall"), (.scDeploy, bytes% "scDeploy"),
    (.scQuery, bytes% "scQuery"), (.transfer, bytes% "transfer"), (.validatorReward, bytes% "validatorReward"), (.path, bytes% "path"),
    (.accounts, bytes% "accounts"), (.newAddresses, bytes% "newAddresses"), (.previousBlockInfo, bytes% "previousBlockInfo"),
    (.currentBlockInfo, bytes% "currentBlockInfo"), (.blockHashes, bytes% "blockHashes"), (.txId, bytes% "txId"), (.tx, bytes% "tx"),
    (.expect, bytes% "expect"), (.creatorAddress, bytes% "creatorAddress"), (.creatorNonce, bytes% "creatorNonce"),
    (.newAddress, bytes% "newAddress"), (.blockTimestamp, bytes% "blockTimestamp"), (.blockNonce, bytes% "blockNonce"),
    (.blockRound, bytes% "blockRound"), (.blockEpoch, bytes% "blockEpoch"), (.blockRandomSeed, bytes% "blockRandomSeed"),
    (.shard, bytes% "shard"), (.nonce, bytes% "nonce"), (.balance, bytes% "balance"), (.esdt, bytes% "esdt"), (.username, bytes% "username"),
    (.storage, bytes% "storage"), (.code, bytes% "code"), (.owner, bytes% "owner"), (.asyncCallData, bytes% "asyncCallData"),
    (.instances, bytes% "instances"), (.lastNonce, bytes% "lastNonce"), (.roles, bytes% "roles"), (.frozen, bytes% "frozen"),
    (.creator, bytes% "creator"), (.royalties, bytes% "royalties"), (.hash, bytes% "hash"), (.uri, bytes% "uri"),
    (.attributes, bytes% "attributes"), (.from, bytes% "from"), (.to, bytes% "to"), (.function, bytes% "function"), (.value, bytes% "value"),
    (.arguments, bytes% "arguments"), (.contractCode, bytes% "contractCode"), (.gasPrice, bytes% "gasPrice"), (.gasLimit, bytes% "gasLimit"),
    (.tokenIdentifier, bytes% "tokenIdentifier"), (.out, bytes% "out"), (.status, bytes% "status"), (.message, bytes% "message"),
    (.logs, bytes% "logs"), (.gas, bytes% "gas"), (.refund, bytes% "refund"), (.address, bytes% "address"),
    (.identifier, bytes% "identifier"), (.topics, bytes% "topics"), (.data, bytes% "data")] : List (Word × Bytes)).all
      (fun p => p.1.text = p.2) ∧ starText = bytes% "*" ∧ plusText = bytes% "+" := by decide +kernel

/-! ### What is not rejected, and what is not told apart -/

/-- a file whose scenario is the one that is read, by computation -/
theorem read_ok {input : Bytes} {P : JScenario → Bool} (h : (match parseScenarioFile noFiles input with | .ok x => P x | .error _ => false) = true) :
    ∃ x, parseScenarioFile noFiles input = .ok x ∧ P x = true := by
  split at h
  · rename_i x hx
    exact ⟨x, hx, h⟩
  · cases h

/-- the order of keys does matter in steps with transactions: the same step is read if the result comes after the transaction, and crashes the
reader if it comes before -/
theorem c73_expect_neg : ∃ I input input' x, parseScenarioFile I input = .ok x ∧ parseScenarioFile I input' = .error .panic ∧
    input = bytes% r#"{"steps":[{"step":"scCall","tx":{"from":"address:a","to":"sc:c","function":"f"},"expect":{}}]}"# ∧
    input' = bytes% r#"{"steps":[{"step":"scCall","expect":{},"tx":{"from":"address:a","to":"sc:c","function":"f"}}]}"# := by
  obtain ⟨x, hx, _⟩ := read_ok (P := fun _ => true)
    (input := bytes% r#"{"steps":[{"step":"scCall","tx":{"from":"address:a","to":"sc:c","function":"f"},"expect":{}}]}"#) (by decide +kernel)
  refine ⟨noFiles, _, _, x, hx, ?_, rfl, rfl⟩
  have h : (match parseScenarioFile noFiles
      (bytes% r#"{"steps":[{"step":"scCall","expect":{},"tx":{"from":"address:a","to":"sc:c","function":"f"}}]}"#) with
    | .error .panic => true
    | _ => false) = true := by decide +kernel
  split at h
  · rename_i hx
    exact hx
  · cases h

/-- nothing is required: a call without a sender, a receiver, a function or gas is accepted, and so is a step without its transaction -/
theorem c73_missing_neg : ∃ I input x, parseScenarioFile I input = .ok x ∧
    input = bytes% r#"{"steps":[{"step":"scCall","tx":{}},{"step":"scCall"}]}"# ∧ x.steps.length = 2 := by
  obtain ⟨x, hx, h⟩ := read_ok (P := fun x => decide (x.steps.length = 2))
    (input := bytes% r#"{"steps":[{"step":"scCall","tx":{}},{"step":"scCall"}]}"#) (by decide +kernel)
  exact ⟨noFiles, _, x, hx, rfl, of_decide_eq_true h⟩

/-! ### Cases -/

/-- a file with every kind of step says something -/
example : ∃ l x, parseOrderedJson sampleFile = .ok (some (.map l)) ∧ SaysScenario noFiles l x ∧ x.steps.length = 9 := by
  obtain ⟨x, hx, h⟩ := read_ok (P := fun x => decide (x.steps.length = 9)) (input := sampleFile) (by decide +kernel)
  obtain ⟨l, hl, hs⟩ := (c73_read noFiles sampleFile x).mp hx
  exact ⟨l, x, hl, hs, of_decide_eq_true h⟩

/-- files that are rejected: an unknown key, a key of another kind of step, a number that does not fit, an address that is too short, a wrong type -/
example : ([bytes% r#"{"steps":[],"chekGas":true}"#, bytes% r#"{"steps":[{"step":"scQuery","tx":{"value":"1"}}]}"#,
    bytes% r#"{"steps":[{"step":"scCall","tx":{"gasLimit":"18446744073709551616"}}]}"#,
    bytes% r#"{"steps":[{"step":"setState","accounts":{"0x01":{}}}]}"#, bytes% r#"{"steps":{}}"#, bytes% r#"{"steps":[{}]}"#].all fun input =>
      match parseScenarioFile noFiles input with | .error .rejected => true | _ => false) = true := by decide +kernel

end Arwen.Props
