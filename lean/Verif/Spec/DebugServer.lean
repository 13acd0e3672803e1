import Verif.World.DebugServer
import Verif.Spec.Debug
/-
The server of the debugger, as its users see it.
-/
namespace Arwen.Spec
open Arwen.Mock Arwen.Debug

/-- two requests are for the same world: the same folder, perhaps written in a different way, and the same name -/
def SameWorld (r r' : Req) : Prop := clean (folderOf r) = clean (folderOf r') ∧ nameOf r = nameOf r'

/-- two requests keep their outcomes in the same file -/
def SameOutcome (r r' : Req) : Prop := clean (folderOf r) = clean (folderOf r') ∧ r.outcome = r'.outcome ∧ r.outcome ≠ []

/-- two requests do not get in each other's way: if they are for the same world both are queries, and they do not keep their outcomes
under the same name -/
def OutOfTheWay (r r' : Req) : Prop := (SameWorld r r' → IsQuery r ∧ IsQuery r') ∧ ¬ SameOutcome r r'

/-- the requests in progress do not get in each other's way -/
def AllOutOfTheWay (s : Server) : Prop :=
  ∀ (i j : Nat) (t t' : Thread), s.threads[i]? = some t → s.threads[j]? = some t' → i ≠ j → t.stage.open? = true → t'.stage.open? = true → OutOfTheWay t.req t'.req

/-- the files that a request writes: that of its world, unless it is a query, and that of its outcome, if it is to be kept -/
def Writes (r : Req) (p : Path) : Prop :=
  (¬ IsQuery r ∧ p = worldFile (folderOf r) (nameOf r)) ∨ (r.outcome ≠ [] ∧ p = outcomeFile (folderOf r) r.outcome)

/-- a request in progress writes this file -/
def BeingWritten (s : Server) (p : Path) : Prop := ∃ t ∈ s.threads, t.stage.open? = true ∧ Writes t.req p

/-- the requests that come -/
def coming : List Move → List Req
  | [] => []
  | .comes r :: rest => r :: coming rest
  | .goes _ :: rest => coming rest

/-- at no time do the requests in progress get in each other's way -/
def NeverInTheWay {A : Type} (E : Env MockWorld A) (L : Lib) (n : Nat) (boot : MockWorld → St MockWorld A) (readCode : Bytes → Option Bytes)
    (ms : List Move) (s : Server) : Prop :=
  ∀ k s', moves E L n boot readCode (ms.take k) s = some s' → AllOutOfTheWay s'

/-- the answered requests, one after the other and none interrupted -/
def inTurn (s : Server) : List (Req × Option Stop) := s.answered.map fun x => (x.1, none)

end Arwen.Spec
