import Verif.Props.Command
import Verif.Props.FilesCases
/-!
For C75: cases, and what is not reported.
-/
namespace Arwen.Props
open Arwen.Spec Arwen.Mandos Arwen.Mock

/-- files of tests in the old format, besides those of C74; the first has two tests -/
def oldFiles : List (Bytes × Bytes) := [
  (bytes% "t/p.test.json", bytes% r#"{"one":{"pre":{
      "0x0101010101010101010101010101010101010101010101010101010101010101":{"balance":"1000"},
      "0x0000000000000000000000000000000000000000000000000000000000000064":{"balance":"50","code":"file:lib/one.wasm"},
      "0x0000000000000000000000000000000000000000000000000000000000000065":{"balance":"5","code":"0x02"}},
    "blocks":[{"results":[{"status":"0","gas":"497"}],"transactions":[{"from":"0x0101010101010101010101010101010101010101010101010101010101010101",
      "to":"0x0000000000000000000000000000000000000000000000000000000000000064","value":"20","function":"f","gasLimit":"500","gasPrice":"1"}],
      "blockHeader":{"timestamp":"0"}}],
    "postState":{"0x0101010101010101010101010101010101010101010101010101010101010101":{"nonce":"1","balance":"480"},"+":""}},
    "two":{"blockHashes":["0x01"],"network":"Arwen","checkGas":false,"postState":{}}}"#),
  (bytes% "t/q.test.json", bytes% r#"{"one":{"pre":{
      "0x0101010101010101010101010101010101010101010101010101010101010101":{"balance":"1000"},
      "0x0000000000000000000000000000000000000000000000000000000000000064":{"balance":"50","code":"file:lib/one.wasm"},
      "0x0000000000000000000000000000000000000000000000000000000000000065":{"balance":"5","code":"0x02"}},
    "blocks":[{"results":[{"status":"0","gas":"497"}],"transactions":[{"from":"0x0101010101010101010101010101010101010101010101010101010101010101",
      "to":"0x0000000000000000000000000000000000000000000000000000000000000064","value":"20","function":"f","gasLimit":"500","gasPrice":"1"}],
      "blockHeader":{"timestamp":"7"}}],
    "postState":{"0x0101010101010101010101010101010101010101010101010101010101010101":{"nonce":"1","balance":"480"},"+":""}},
    "two":{"blockHashes":["0x01"],"network":"Arwen","checkGas":false,"postState":{}}}"#),
  (bytes% "t/r.test.json", bytes% r#"{"one":{"postState":{}},"two":{"pre":{
      "0x0101010101010101010101010101010101010101010101010101010101010101":{"balance":"1000"}},"postState":{}}}"#),
  (bytes% "t/s.test.json", bytes% r#"{"one":{"pre":{}}}"#)]

/-- a file system with all of them; `link` is a symbolic link to the directory `t` -/
def oldSystem : FileSystem where
  abs := some
  read p :=
    let p := if (bytes% "link/").isPrefixOf p then bytes% "t/" ++ p.drop 5 else p
    ((someFiles ++ oldFiles).find? fun f => f.1 = p).map Prod.snd
  join a b := if b = [] then a else if a = [46] then b else a ++ 47 :: b
  dir := upTo
  glob e p := some (decide (e = p))
  keccak := id

/-- a machine with it; in the directory there are two scenarios, the second of which fails -/
def oldMachine (args : List Bytes) : Machine where
  args := args
  cwd := some [46]
  stat p := if p = bytes% "t" ∨ p = bytes% "link" then .dir else if (oldSystem.read p).isSome then .file else .missing
  tree p := if p = bytes% "t" then .dir [(bytes% "a.scen.json", .leaf), (bytes% "b.scen.json", .leaf), (bytes% "p.test.json", .leaf)] else .leaf

def exitOf (args : List Bytes) : Exit := runCommand oldSystem scEnv stillLib 20 Toy.codec scLoad 5 (oldMachine args) (some scFresh)

/-- scenarios, tests and directories pass or fail -/
theorem exit_a : exitOf [bytes% "t/a.scen.json"] = .success := by decide +kernel
theorem exit_p : exitOf [bytes% "t/p.test.json"] = .success := by decide +kernel
example : exitOf [bytes% "t/b.scen.json"] = .failure ∧ exitOf [bytes% "t/r.test.json"] = .failure ∧ exitOf [bytes% "t/s.test.json"] = .panic ∧
    exitOf [bytes% "t"] = .failure ∧ exitOf [bytes% "none"] = .failure ∧ exitOf [] = .panic := by and_intros <;> decide +kernel

/-- C75: a file that stands for tests -/
example : ∃ l, TestFileIs oldSystem AMap.empty (bytes% "t/p.test.json") l ∧ l.length = 2 := by
  have h : (execTestFile oldSystem scEnv stillLib 20 Toy.codec (bytes% "t/p.test.json") {} scFresh).1 = .passed := by decide +kernel
  have hx : ∃ l, TestFileIs oldSystem AMap.empty (bytes% "t/p.test.json") l := by
    cases hq : execTestFile oldSystem scEnv stillLib 20 Toy.codec (bytes% "t/p.test.json") {} scFresh with
    | mk v y =>
      rw [hq] at h
      cases h
      obtain ⟨l, u, h1, -, -⟩ := (c75_tests _ _ _ _).mp hq
      exact ⟨l, h1⟩
  obtain ⟨l, h1⟩ := hx
  refine ⟨l, h1, ?_⟩
  obtain ⟨file, content, o, j, k1, k2, k3, k4, k5⟩ := h1
  have hp := (c75_read _ _ _).mpr ⟨o, k3, k4⟩
  have hl : ∀ {α β : Type} {R : α → β → Prop} {l : List α} {r : List β}, Each R l r → l.length = r.length := by
    intro α β R l r h
    induction h with
    | nil => rfl
    | cons _ _ ih => simp [ih]
  rw [← hl k5]
  have e : (match oldSystem.read (bytes% "t/p.test.json") with
      | none => false
      | some content => match parseTestFile (within oldSystem AMap.empty (bytes% "t/p.test.json")) content with
        | .ok x => decide (x.length = 2)
        | .error _ => false) = true := by decide +kernel
  cases k1
  rw [k2] at e
  dsimp only at e
  have hp : parseTestFile (within oldSystem AMap.empty (bytes% "t/p.test.json")) content = .ok j := hp
  rw [hp] at e
  exact of_decide_eq_true e

/-- C75: directories of tests, in which nothing is reset between files -/
def testDirVerdict (names : List Bytes) : DirVerdict :=
  (execTestDir oldSystem scEnv stillLib 20 Toy.codec [46] (bytes% "t") (bytes% ".test.json") [] {} (.dir (names.map (·, .leaf))) scFresh).1
example : testDirVerdict [bytes% "p.test.json", bytes% "q.test.json", bytes% "a.scen.json"] = .done { passed := 2 } ∧
    testDirVerdict [bytes% "p.test.json", bytes% "r.test.json", bytes% "q.test.json"] = .done { passed := 2, failed := 1 } := by and_intros <;> decide +kernel

/-- the hypotheses of `c75_each_partial` about the machine are met -/
example : ({ } : MockWorld).clear = { ({ } : MockWorld) with current := none } ∧ (oldMachine []).cwd ≠ none ∧ (oldMachine []).stat (bytes% "t") = .dir ∧
    ∀ p ∈ ((oldMachine []).tree (oldSystem.join (bytes% "t") [])).walk oldSystem (oldSystem.join (bytes% "t") []),
      scenSuffix.isSuffixOf p = true → (oldMachine []).stat p = .file := by
  refine ⟨rfl, by decide, by decide +kernel, by decide +kernel⟩

/-- The command succeeds for a symbolic link to a directory without running anything, even if it fails for a scenario in that directory, and for the
directory itself. -/
theorem c75_link_neg : (oldMachine []).stat (bytes% "link") = .dir ∧ exitOf [bytes% "link"] = .success ∧
    (oldMachine []).stat (bytes% "link/b.scen.json") = .file ∧ exitOf [bytes% "link/b.scen.json"] = .failure ∧ exitOf [bytes% "t"] = .failure := by
  and_intros <;> decide +kernel

/-- The header of a block has no effect: its time, number and gas limit are read and then not used. Two files that differ in the time both pass. -/
theorem c75_header_neg : (∀ x h y, TestBlockAs x y → TestBlockAs { x with header := h } y) ∧
    exitOf [bytes% "t/p.test.json"] = .success ∧ exitOf [bytes% "t/q.test.json"] = .success ∧
    ∃ start rest, (oldFiles.map Prod.snd).take 2 = [start ++ bytes% r#""timestamp":"0""# ++ rest, start ++ bytes% r#""timestamp":"7""# ++ rest] := by
  refine ⟨fun x h y hx => ⟨hx.txs, hx.results⟩, by decide +kernel, by decide +kernel, (oldFiles[0].2).take 650, (oldFiles[0].2).drop 665, by decide +kernel⟩

end Arwen.Props
