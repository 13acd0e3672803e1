import Verif.Host.Parallel
/-
What C70 says about requests that come in parallel.
-/
namespace Arwen.Spec
open Arwen Config
variable {σ R χ A : Type}

/-- the request has the lock and has not finished -/
def Working (s : Par σ R) (i : Nat) : Prop := ∃ a, (s.requests i).phase = .inside a

/-- the request has finished, with this result -/
def Finished (s : Par σ R) (i : Nat) (r : R) : Prop := (s.requests i).phase = .finished r

/-- As the scheduler picks `is`, no two requests that only took the lock for reading are ever at work at the same time. -/
def NoOverlap (s : Par σ R) (is : List Nat) : Prop :=
  ∀ pre, pre <+: is → ∀ i j, (s.requests i).guard = .reading → (s.requests j).guard = .reading →
    Working (s.picks pre) i → Working (s.picks pre) j → i = j

/-- requests one after the other: their results and the state at the end -/
def oneByOne (f : Nat → σ → R × σ) : List Nat → σ → List (Nat × R) × σ
  | [], s => ([], s)
  | i :: is, s => let q := oneByOne f is (f i s).2; ((i, (f i s).1) :: q.1, q.2)

/-- None of the steps of a request touches a part of the state. -/
def Leaves {γ : Type} (part : σ → γ) : Act σ R → Prop
  | .done _ => True
  | .step g k => (∀ s, part (g s) = part s) ∧ ∀ s, Leaves part (k s)

/-- The steps in which the operations are carried out: whatever they are, an operation that is alone does the same in these steps as
at once; and executions do not touch the gas schedule. -/
structure Divides (E : List UInt64 → Env χ A) (n : Nat) (D : Decoder) (ops : Nat → HostOp)
    (work : Nat → Act (Host χ A) (Option RunResult)) : Prop where
  same : ∀ i h, (work i).run h = (ops i).apply E n D h
  leaves : ∀ i tx, ops i = .run tx → Leaves Host.gas (work i)

/-- the operations of a host, before the first of them begins -/
def serving (ops : Nat → HostOp) (work : Nat → Act (Host χ A) (Option RunResult)) (h : Host χ A) : Par (Host χ A) (Option RunResult) :=
  .start h (fun i => (ops i).guard) work

/-- the schedules given by those of some operations that change it -/
def schedules (ops : Nat → HostOp) (is : List Nat) : List ScheduleMap :=
  is.filterMap fun i => match ops i with | .change m => some m | .run _ => none

end Arwen.Spec
