import Verif.Spec.Path
/-
C88: the driver starts the right program as the Arwen process.
-/
namespace Arwen.Props
open Arwen.Spec Arwen.Ipc

theorem slash_arwenIn (d : Bytes) : (47 : UInt8) ∈ arwenIn d := by
  unfold arwenIn
  simp

theorem arwenOf_iff (d p : Bytes) : ArwenOf d p ↔ p = arwenIn d := by
  unfold arwenIn
  constructor
  · rintro (_ | ⟨_, h⟩)
    · rfl
    · rw [if_neg h]
  · rintro rfl
    split
    · rename_i h; subst h; exact .root
    · rename_i h; exact .other d h

theorem current_known {M : Place} (h : PlainPlace M) (d : Bytes) (hd : M.cwd = some d) : M.stat (arwenIn d) ≠ .failed :=
  h.current d _ hd ((arwenOf_iff _ _).2 rfl)

/-- **C88 (right program).** What is started is the program in the current directory if there is one, and otherwise the one that the
environment names; and it is started if there is one. -/
theorem c88_right_partial (M : Place) (h : PlainPlace M) (p : Bytes) : M.program = .at p ↔ RightProgram M p := by
  have hc := current_known h
  have he := h.environment
  have hs := h.slash
  unfold Place.program Place.arwenPath Place.inCurrent Place.inEnvironment Place.fileExists RightProgram Beside NamedByEnv
  simp only [arwenOf_iff]
  cases hd : M.cwd with
  | none => cases hv : M.stat M.env <;> simp_all <;> grind
  | some d =>
    have := slash_arwenIn d
    cases hx : M.stat (arwenIn d) <;> cases hv : M.stat M.env <;> simp_all <;> grind

/-- **C88 (none).** If neither is there, an error is reported and nothing is started. -/
theorem c88_none_partial (M : Place) (h : PlainPlace M) : M.program = .notFound ↔ ∀ p, ¬ RightProgram M p := by
  constructor
  · intro e p hr
    rw [(c88_right_partial M h p).2 hr] at e
    cases e
  · intro hr
    have key := fun p e => hr p ((c88_right_partial M h p).1 e)
    cases e : M.program with
    | notFound => rfl
    | «at» p => exact absurd e (key p)
    | panics =>
      exfalso
      have hc := current_known h
      have he := h.environment
      unfold Place.program Place.arwenPath Place.inCurrent Place.inEnvironment Place.fileExists at e
      cases hd : M.cwd with
      | none => cases hv : M.stat M.env <;> simp_all <;> grind
      | some d => cases hx : M.stat (arwenIn d) <;> cases hv : M.stat M.env <;> simp_all <;> grind

/-- **C88 (any computer).** Without any assumption: a program that is started is one of the two, or one of `PATH` with the name that the
environment gives, in which case there is a file of that name in the current directory. -/
theorem c88_started (M : Place) (p : Bytes) (h : M.program = .at p) :
    RightProgram M p ∨ ((47 : UInt8) ∉ M.env ∧ M.stat M.env = .file ∧ M.look M.env = some p) := by
  unfold Place.program Place.arwenPath Place.inCurrent Place.inEnvironment Place.fileExists at h
  unfold RightProgram Beside NamedByEnv
  simp only [arwenOf_iff]
  cases hd : M.cwd with
  | none => cases hv : M.stat M.env <;> simp_all <;> grind
  | some d =>
    have := slash_arwenIn d
    cases hx : M.stat (arwenIn d) <;> cases hv : M.stat M.env <;> simp_all <;> grind

/-- **C88 (panics).** The node panics exactly if it may not look at the name in the current directory, or there is no program in the
current directory and it may not look at the one in the environment. -/
theorem c88_panics (M : Place) : M.program = .panics ↔
    (∃ d p, M.cwd = some d ∧ ArwenOf d p ∧ M.stat p = .failed) ∨ ((∀ p, ¬ Beside M p) ∧ M.stat M.env = .failed) := by
  unfold Place.program Place.arwenPath Place.inCurrent Place.inEnvironment Place.fileExists Beside
  simp only [arwenOf_iff]
  cases hd : M.cwd with
  | none => cases hv : M.stat M.env <;> simp_all <;> grind
  | some d =>
    have := slash_arwenIn d
    cases hx : M.stat (arwenIn d) <;> cases hv : M.stat M.env <;> simp_all <;> grind

/-- a computer with the current directory `/a`, and a file that the environment names -/
def shop (env : Bytes) (current : FileStat) : Place :=
  { cwd := some [47, 97], env := env, stat := fun p => if p = arwenIn [47, 97] then current else if p = env then .file else .missing,
    look := fun p => if p = [120] then some [47, 98, 47, 120] else none }

/-- **The node panics instead of taking the program that the environment names,** if it may not look into the current directory
(`arwenPath.go` 48-53 looks at information that is not there). -/
theorem c88_panic_neg : NamedByEnv (shop [47, 120] .failed) [47, 120] ∧ (shop [47, 120] .failed).program = .panics := by
  constructor
  · exact ⟨rfl, by decide⟩
  · decide

/-- **Another program is started than the one that was found.** The environment names the file `x`, which is there in the current
directory; what is started is the `x` of a directory of `PATH`. -/
theorem c88_search_neg : RightProgram (shop [120] .missing) [120] ∧ (shop [120] .missing).program = .at [47, 98, 47, 120] := by
  refine ⟨.inr ⟨?_, rfl, by decide⟩, by decide⟩
  rintro q ⟨d, hd, ho, hq⟩
  rw [arwenOf_iff] at ho
  subst ho
  cases hd
  revert hq
  decide

/-! ### Examples -/

-- both are there: that of the current directory; a directory of this name does not count
example : (shop [47, 120] .file).program = .at (arwenIn [47, 97]) ∧ (shop [47, 120] .dir).program = .at [47, 120] := by decide
example : arwenIn [47, 97] = "/a/arwen".toUTF8.toList ∧ arwenIn [47] = "/arwen".toUTF8.toList := by decide +kernel

-- a computer that meets the assumptions
example : PlainPlace (shop [47, 120] .file) := by
  refine ⟨?_, by decide, fun _ => by decide⟩
  intro d p hd ho
  rw [arwenOf_iff] at ho
  subst ho
  cases hd
  decide

end Arwen.Props
