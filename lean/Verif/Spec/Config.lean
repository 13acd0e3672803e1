import Verif.Config.Schedule
/-!
What C43 says about gas schedules.
-/
namespace Arwen.Spec
open Arwen.Config

/-- the costs that a schedule must give -/
def Required (s : Section) (field : String) : Prop := field ∈ s.fields

/-- The schedule gives the value `v` for a cost: under its name, or under a name that differs only in case if its own is missing. -/
def Given (D : Decoder) (m : ScheduleMap) (s : Section) (field : String) (v : UInt64) : Prop :=
  ∃ t, m.get? s.key = some t ∧
    (t.get? field = some v ∨ t.get? field = none ∧ ∃ k, D.sameFold k field = true ∧ t.get? k = some v)

/-- what a given value is charged as: opcodes have only 32 bits -/
def charged (s : Section) (v : UInt64) : Nat := if s = .opcode then v.toNat % 2 ^ 32 else v.toNat

/-- No entry for the cost. -/
def Missing (D : Decoder) (m : ScheduleMap) (s : Section) (field : String) : Prop := ∀ v, ¬ Given D m s field v

end Arwen.Spec
