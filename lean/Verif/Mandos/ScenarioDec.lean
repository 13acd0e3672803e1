import Verif.Mandos.ScenarioParse
import Verif.Mandos.ScenarioWrite
/-!
Equality of scenarios is decidable. Used only to evaluate examples.
-/
namespace Arwen.Mandos

mutual
/-- whether two JSON values are the same -/
def jsonEq : Json → Json → Bool
  | .str a, .str b => a = b
  | .bool a, .bool b => a = b
  | .list a, .list b => jsonsEq a b
  | .map a, .map b => pairsEq a b
  | _, _ => false
/-- whether two lists of JSON values are the same -/
def jsonsEq : List Json → List Json → Bool
  | [], [] => true
  | a :: l, b :: m => jsonEq a b && jsonsEq l m
  | _, _ => false
/-- whether two lists of pairs are the same -/
def pairsEq : List (Bytes × Json) → List (Bytes × Json) → Bool
  | [], [] => true
  | (k, a) :: l, (k', b) :: m => k = k' && jsonEq a b && pairsEq l m
  | _, _ => false
end

mutual
theorem jsonEq_iff : ∀ a b : Json, jsonEq a b = true ↔ a = b
  | .str a, b => by cases b <;> simp [jsonEq]
  | .bool a, b => by cases b <;> simp [jsonEq]
  | .list a, b => by
    cases b with
    | list b => rw [jsonEq, jsonsEq_iff a b]; simp
    | _ => simp [jsonEq]
  | .map a, b => by
    cases b with
    | map b => rw [jsonEq, pairsEq_iff a b]; simp
    | _ => simp [jsonEq]
theorem jsonsEq_iff : ∀ a b : List Json, jsonsEq a b = true ↔ a = b
  | [], b => by cases b <;> simp [jsonsEq]
  | a :: l, b => by
    cases b with
    | nil => simp [jsonsEq]
    | cons b m => rw [jsonsEq, Bool.and_eq_true, jsonEq_iff a b, jsonsEq_iff l m, List.cons.injEq]
theorem pairsEq_iff : ∀ a b : List (Bytes × Json), pairsEq a b = true ↔ a = b
  | [], b => by cases b <;> simp [pairsEq]
  | (k, a) :: l, b => by
    cases b with
    | nil => simp [pairsEq]
    | cons q m =>
      obtain ⟨k', b⟩ := q
      rw [pairsEq, Bool.and_eq_true, Bool.and_eq_true, jsonEq_iff a b, pairsEq_iff l m, List.cons.injEq, Prod.mk.injEq]
      simp
end

instance : DecidableEq Json := fun a b => decidable_of_iff (jsonEq a b = true) (jsonEq_iff a b)

deriving instance DecidableEq for BytesT, ChkBytes, JInstance, JToken, JChkInstance, JChkToken, JAccount, JChkAccount, JChkAccounts, JTx,
  JLog, JResult, JBlockInfo, JSetState, JTxStep, JStep, JScenario

/-- read, write and read again: the two scenarios -/
def rewritten (I : Interpreter) (input : Bytes) : Option (JScenario × JScenario) :=
  match parseScenarioFile I input with
  | .error _ => none
  | .ok x =>
    match scenarioToJsonString x with
    | none => none
    | some output =>
      match parseScenarioFile I output with
      | .error _ => none
      | .ok y => some (x, y)

theorem rewritten_ok {I : Interpreter} {input : Bytes} {P : JScenario → JScenario → Bool}
    (h : (rewritten I input).any (fun p => P p.1 p.2) = true) :
    ∃ x output y, parseScenarioFile I input = .ok x ∧ scenarioToJsonString x = some output ∧ parseScenarioFile I output = .ok y ∧ P x y = true := by
  unfold rewritten at h
  split at h
  · cases h
  · rename_i x hx
    split at h
    · cases h
    · rename_i output ho
      split at h
      · cases h
      · rename_i y hy
        exact ⟨x, output, y, hx, ho, hy, h⟩

/-- read, write and read again: whether the first two succeed and the last fails -/
def unreadable (I : Interpreter) (input : Bytes) : Bool :=
  match parseScenarioFile I input with
  | .error _ => false
  | .ok x =>
    match scenarioToJsonString x with
    | none => false
    | some output =>
      match parseScenarioFile I output with
      | .error _ => true
      | .ok _ => false

theorem unreadable_ok {I : Interpreter} {input : Bytes} (h : unreadable I input = true) :
    ∃ x output e, parseScenarioFile I input = .ok x ∧ scenarioToJsonString x = some output ∧ parseScenarioFile I output = .error e := by
  unfold unreadable at h
  split at h
  · cases h
  · rename_i x hx
    split at h
    · cases h
    · rename_i output ho
      split at h
      · rename_i e he
        exact ⟨x, output, e, hx, ho, he⟩
      · cases h

/-- read and write: whether writing fails -/
def unwritable (I : Interpreter) (input : Bytes) : Bool :=
  match parseScenarioFile I input with
  | .error _ => false
  | .ok x => (scenarioToJsonString x).isNone

theorem unwritable_ok {I : Interpreter} {input : Bytes} (h : unwritable I input = true) :
    ∃ x, parseScenarioFile I input = .ok x ∧ scenarioToJsonString x = none := by
  unfold unwritable at h
  split at h
  · cases h
  · rename_i x hx
    exact ⟨x, hx, by simpa using h⟩

end Arwen.Mandos
