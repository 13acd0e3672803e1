import Verif.Props.Files
/-!
For C74: cases, and what is not reported.
-/
namespace Arwen.Props
open Arwen.Spec Arwen.Mandos Arwen.Mock

/-- some files -/
def someFiles : List (Bytes × Bytes) := [
  (bytes% "t/a.scen.json", bytes% r#"{"gasSchedule":"dummy","steps":[{"step":"externalSteps","path":"lib/init.steps.json"},
    {"step":"scCall","txId":"0","tx":{"from":"0x0101010101010101010101010101010101010101010101010101010101010101",
      "to":"0x0000000000000000000000000000000000000000000000000000000000000064","value":"20","function":"f","gasLimit":"500","gasPrice":"1"},
      "expect":{"status":"0","gas":"497"}},
    {"step":"checkState","accounts":{
      "0x0101010101010101010101010101010101010101010101010101010101010101":{"nonce":"1","balance":"480"},
      "0x0000000000000000000000000000000000000000000000000000000000000064":{"balance":"63","code":"file:lib/one.wasm"},
      "+":""}}]}"#),
  (bytes% "t/lib/init.steps.json", bytes% r#"{"gasSchedule":"dummy","steps":[{"step":"setState","accounts":{
      "0x0101010101010101010101010101010101010101010101010101010101010101":{"balance":"1000"},
      "0x0000000000000000000000000000000000000000000000000000000000000064":{"balance":"50","code":"file:one.wasm"},
      "0x0000000000000000000000000000000000000000000000000000000000000065":{"balance":"5","code":"0x02"}}}]}"#),
  (bytes% "t/lib/one.wasm", [1]),
  (bytes% "t/b.scen.json", bytes% r#"{"gasSchedule":"dummy","steps":[{"step":"checkState","accounts":{"0x0101010101010101010101010101010101010101010101010101010101010101":{}}}]}"#),
  (bytes% "t/c.scen.json", bytes% r#"{"gasSchedule":"dummy","steps":[{"step":"checkState"}]}"#),
  (bytes% "t/d.scen.json", bytes% r#"{"gasSchedule":"dummy","steps":[{"step":"externalSteps","path":"lib/init.steps.json"},
    {"step":"scCall","txId":"0","tx":{"from":"0x0101010101010101010101010101010101010101010101010101010101010101",
      "to":"0x0000000000000000000000000000000000000000000000000000000000000064","value":"20","function":"f","gasLimit":"500","gasPrice":"1"},
      "expect":{"status":"0","gas":"497","logs":"0x00"}}]}"#),
  (bytes% "t/e.scen.json", bytes% r#"{"gasSchedule":"dummy","steps":[{"step":"externalSteps","path":"lib/init.steps.json"},
    {"step":"scCall","txId":"0","tx":{"from":"0x0101010101010101010101010101010101010101010101010101010101010101",
      "to":"0x0000000000000000000000000000000000000000000000000000000000000064","value":"20","function":"f","gasLimit":"500","gasPrice":"1"},
      "expect":{"status":"0","gas":"497","logs":"0x01"}}]}"#),
  (bytes% "t/f.scen.json", bytes% r#"{"gasSchedule":"dummy","steps":[{"step":"setState","accounts":{
      "0x0101010101010101010101010101010101010101010101010101010101010101":{"balance":"1000"},
      "0x0000000000000000000000000000000000000000000000000000000000000064":{"balance":"50","code":"file:lib/one.wasm"},
      "0x0000000000000000000000000000000000000000000000000000000000000065":{"balance":"5","code":"0x02"}}},
    {"step":"scCall","tx":{"from":"0x0101010101010101010101010101010101010101010101010101010101010101",
      "to":"0x0000000000000000000000000000000000000000000000000000000000000064","value":"20","function":"f","gasLimit":"500","gasPrice":"1"},
      "expect":{"status":"0","gas":"497"}}]}"#),
  (bytes% "t/x.scen.json", bytes% r#"{"gasSchedule":"dummy","steps":[{"step":"externalSteps","path":"x.scen.json"}]}"#)]

/-- the part of a path before the last slash -/
def upTo (p : Bytes) : Bytes := ((p.reverse.dropWhile fun b => b ≠ 47).drop 1).reverse

/-- a file system that has them; patterns are paths -/
def someSystem : FileSystem where
  abs := some
  read p := (someFiles.find? fun f => f.1 = p).map Prod.snd
  join a b := if a = [46] then b else a ++ 47 :: b
  dir := upTo
  glob e p := some (decide (e = p))
  keccak := id

def fileVerdict (p : Bytes) : FileVerdict :=
  (execFile someSystem scEnv stillLib 20 Toy.codec scLoad 5 p {} { run := scFresh }).1
/-- the files of a directory -/
def dirVerdict (excluded names : List Bytes) : DirVerdict :=
  (execDir someSystem scEnv stillLib 20 Toy.codec scLoad 5 [46] (bytes% "t") (bytes% ".scen.json") excluded {}
    (.dir (names.map (·, .leaf))) { run := scFresh }).1

/-- a file passes that refers to another, which refers to a third one -/
theorem cases_a : fileVerdict (bytes% "t/a.scen.json") = .passed := by decide +kernel
/-- others fail, crash, or never end -/
example : fileVerdict (bytes% "t/b.scen.json") = .failed .checkState ∧ fileVerdict (bytes% "t/c.scen.json") = .crashed ∧
    fileVerdict (bytes% "t/none.scen.json") = .failed .file ∧ fileVerdict (bytes% "t/x.scen.json") = .unknown := by and_intros <;> decide +kernel

/-- C74: a file that stands for something -/
example : ∃ sc, FileIs someSystem AMap.empty (bytes% "t/a.scen.json") sc := by
  have h := cases_a
  unfold fileVerdict at h
  cases hq : execFile someSystem scEnv stillLib 20 Toy.codec scLoad 5 (bytes% "t/a.scen.json") {} { run := scFresh } with
  | mk v y =>
    rw [hq] at h
    cases h
    obtain ⟨sc, h, -⟩ := file_sound _ _ _ _ _ hq
    exact ⟨sc, h⟩

/-- one file passes, one fails, one is excluded, one is none of a scenario -/
example : dirVerdict [bytes% "t/c.scen.json"] [bytes% "a.scen.json", bytes% "b.scen.json", bytes% "c.scen.json", bytes% "notes"] =
    .done { passed := 1, failed := 1, skipped := 1 } := by decide +kernel

/-- a file that crashes takes the whole directory with it: there is no verdict about the files before and after it -/
theorem c74_crash_neg : dirVerdict [] [bytes% "a.scen.json", bytes% "d.scen.json"] = .done { passed := 2 } ∧
    dirVerdict [] [bytes% "a.scen.json", bytes% "c.scen.json", bytes% "d.scen.json"] = .crashed ∧
    (someFiles.find? fun f => f.1 = bytes% "t/c.scen.json").map Prod.snd = some (bytes% r#"{"gasSchedule":"dummy","steps":[{"step":"checkState"}]}"#) := by
  and_intros <;> decide +kernel

/-- the hash of the log that a file may give is not checked: two files pass that are the same but for the hash -/
theorem c74_hash_neg : fileVerdict (bytes% "t/d.scen.json") = .passed ∧ fileVerdict (bytes% "t/e.scen.json") = .passed ∧
    ∃ start rest, (someFiles.find? fun f => f.1 = bytes% "t/d.scen.json").map Prod.snd = some (start ++ bytes% r#""logs":"0x00""# ++ rest) ∧
      (someFiles.find? fun f => f.1 = bytes% "t/e.scen.json").map Prod.snd = some (start ++ bytes% r#""logs":"0x01""# ++ rest) := by
  refine ⟨by decide +kernel, by decide +kernel, (someFiles[5].2).take 385, (someFiles[5].2).drop 398, by decide +kernel, by decide +kernel⟩

/-! ### The hypotheses about directories -/

/-- a step that refers to no other file, and neither deploys nor upgrades a contract -/
def plainJ : JStep → Bool
  | .external _ _ => false
  | .tx t => match t.tx with
    | none => true
    | some t => decide (t.kind ≠ .scDeploy) && decide (t.function ≠ "upgradeContract".toUTF8.data.toList)
  | _ => true

theorem plain_steps {D : FileSystem} {swaps : AMap Bytes Bytes} {file : Bytes} {l : List JStep} {l' : List Step} (h : StepsAre D swaps file l l') (b : Bool) :
    l.all plainJ = true → PlainSteps l' ∧ EvenSteps b l' := by
  induction h with
  | nil => exact fun _ => ⟨trivial, trivial⟩
  | external => intro h; simp [plainJ] at h
  | setState _ _ ih => intro h; simp only [List.all_cons, plainJ, Bool.true_and] at h; exact ⟨⟨trivial, (ih h).1⟩, ⟨trivial, (ih h).2⟩⟩
  | checkState _ _ ih => intro h; simp only [List.all_cons, plainJ, Bool.true_and] at h; exact ⟨⟨trivial, (ih h).1⟩, ⟨trivial, (ih h).2⟩⟩
  | dump _ ih => intro h; simp only [List.all_cons, plainJ, Bool.true_and] at h; exact ⟨⟨trivial, (ih h).1⟩, ⟨trivial, (ih h).2⟩⟩
  | @tx _ x y _ _ hs _ ih =>
    intro h
    simp only [List.all_cons, Bool.and_eq_true] at h
    obtain ⟨h, h'⟩ := h
    refine ⟨⟨?_, (ih h').1⟩, ⟨trivial, (ih h').2⟩⟩
    obtain ⟨-, ⟨t, e, ht⟩, -⟩ := hs
    simp only [plainJ, e, Bool.and_eq_true, decide_eq_true_eq] at h
    refine ⟨fun k => h.1 ?_, fun k => h.2 ?_⟩
    · have := (kind_as _ _).mpr ht.kind
      rw [k] at this
      cases hk : t.kind <;> rw [hk] at this <;> first | rfl | cases this
    · rw [← ht.function]; exact k

/-- a directory with one scenario, which meets the hypotheses of `c74_alone_partial` and `c74_meaning_partial`, and passes -/
theorem plain_dir : (∀ p, Beneath someSystem (bytes% "t") (.dir [(bytes% "f.scen.json", .leaf)]) p →
      IsScenarioPath someSystem [46] (bytes% ".scen.json") [] p → ∀ sc, FileIs someSystem AMap.empty p sc →
      sc.gas = .dummy ∧ PlainSteps sc.steps ∧ EvenSteps sc.checkGas sc.steps) ∧ GoodPatterns someSystem [46] [] ∧
    dirVerdict [] [bytes% "f.scen.json"] = .done { passed := 1 } := by
  refine ⟨?_, (fun _ h => by cases h), by decide +kernel⟩
  intro p hp hr sc ⟨file, x, hf, hc, hgas, hsteps⟩
  have hpath : p = bytes% "t/f.scen.json" := by
    rw [← c74_walk] at hp
    have e : (DirTree.dir [(bytes% "f.scen.json", .leaf)]).walk someSystem (bytes% "t") = [bytes% "t", bytes% "t/f.scen.json"] := by decide +kernel
    rw [e] at hp
    simp only [List.mem_cons, List.not_mem_nil, or_false] at hp
    rcases hp with rfl | h
    · exact absurd hr.1 (by rw [← suffix_path]; decide +kernel)
    · exact h
  subst hpath
  obtain ⟨h1, content, h2, h3⟩ := (file_says {} _ _ _).mp hf
  cases h1
  have h : (match someSystem.read (bytes% "t/f.scen.json") with
      | none => false
      | some content => match parseScenarioFile (({ context := bytes% "t/f.scen.json" } : Resolver).interpreter someSystem) content with
        | .ok x => decide (x.gas = .dummy) && x.steps.all plainJ
        | .error _ => false) = true := by decide +kernel
  rw [h2] at h
  dsimp only at h
  rw [h3] at h
  simp only [Bool.and_eq_true, decide_eq_true_eq] at h
  refine ⟨?_, plain_steps hsteps _ h.2⟩
  rw [← (gas_as _ _).mpr hgas, h.1]
  rfl

end Arwen.Props
