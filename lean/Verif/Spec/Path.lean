import Verif.Ipc.Path
/-
Specification for C88: which program is to be started as the Arwen process.
-/
namespace Arwen.Spec
open Arwen.Ipc

/-- the full name of the file `arwen` in a directory: in the root directory it is `/arwen`, and elsewhere the directory comes before it -/
inductive ArwenOf : Bytes → Bytes → Prop
  | root : ArwenOf [47] [47, 97, 114, 119, 101, 110]
  | other (d : Bytes) (h : d ≠ [47]) : ArwenOf d (d ++ [47, 97, 114, 119, 101, 110])

/-- the program of the current directory -/
def Beside (M : Place) (p : Bytes) : Prop := ∃ d, M.cwd = some d ∧ ArwenOf d p ∧ M.stat p = .file

/-- the program that the environment names -/
def NamedByEnv (M : Place) (p : Bytes) : Prop := p = M.env ∧ M.stat p = .file

/-- the right program: that of the current directory, and if there is none, that which the environment names -/
def RightProgram (M : Place) (p : Bytes) : Prop := Beside M p ∨ ((∀ q, ¬ Beside M q) ∧ NamedByEnv M p)

/-- the computer tells of the two names what they are, and the name in the environment, if any, says where the program is -/
structure PlainPlace (M : Place) : Prop where
  current : ∀ d p, M.cwd = some d → ArwenOf d p → M.stat p ≠ .failed
  environment : M.stat M.env ≠ .failed
  slash : M.stat M.env = .file → (47 : UInt8) ∈ M.env

end Arwen.Spec
