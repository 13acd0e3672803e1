import Verif.World.Schedules
/-
What a text of a gas schedule says, and which text a scenario asks for.
-/
namespace Arwen.Spec
open Arwen.Config

/-- the cost that a tree gives for an operation -/
def WrittenCost (t : Mock.TomlTree) (sec op : String) (v : Int64) : Prop := ∃ l, (sec, .table l) ∈ t ∧ (op, .int v) ∈ l

/-- no name twice: the library refuses such texts -/
def NamesOnce (t : Mock.TomlTree) : Prop := (t.map Prod.fst).Nodup ∧ ∀ sec l, (sec, .table l) ∈ t → (l.map Prod.fst).Nodup

/-- a section that is not a table, or a cost that is not an integer -/
def NotCosts (t : Mock.TomlTree) : Prop := (∃ sec, (sec, .other) ∈ t) ∨ ∃ sec l op, (sec, .table l) ∈ t ∧ (op, .other) ∈ l

/-- the number that the text of a schedule has for an operation -/
def InText (x : ScheduleText) (sec op : String) (n : Nat) : Prop := ∃ l, (sec, l) ∈ x ∧ (op, n) ∈ l

/-- The cost that a kind of schedule promises for an operation of the virtual machine: the number in the text of that version, the
newest by default; the dummy costs 1 for everything, only the gas that an asynchronous call keeps for its callback is 100000. -/
inductive Promised : Mock.GasKind → Section → String → Nat → Prop
  | newest {s f n} : InText scheduleV3 s.key f n → Promised .default s f n
  | first {s f n} : InText scheduleV1 s.key f n → Promised .v1 s f n
  | second {s f n} : InText scheduleV2 s.key f n → Promised .v2 s f n
  | third {s f n} : InText scheduleV3 s.key f n → Promised .v3 s f n
  | one {s f} : ¬ (s = .api ∧ f = "AsyncCallbackGasLock") → Promised .dummy s f 1
  | lock : Promised .dummy .api "AsyncCallbackGasLock" 100000

end Arwen.Spec
