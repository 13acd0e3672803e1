import Verif.Mandos.Json
/-!
What C39 says about ordered JSON.
-/
namespace Arwen.Spec
open Arwen.Mandos

/-- A string that can stand between quotes: every quote in it comes right after a backslash, and it does not end with a backslash. -/
def Quotable (s : Bytes) : Prop :=
  (∀ a b, s = a ++ quote :: b → ∃ a', a = a' ++ [backslash]) ∧ ¬ ∃ a, s = a ++ [backslash]

/-- a tree whose strings and keys can stand between quotes and whose maps have each key once -/
inductive Printable : Json → Prop
  | str {v : Bytes} (h : Quotable v) : Printable (.str v)
  | bool (b : Bool) : Printable (.bool b)
  | list {l : List Json} (h : ∀ x ∈ l, Printable x) : Printable (.list l)
  | map {l : List (Bytes × Json)} (hk : ∀ p ∈ l, Quotable p.1) (hn : (l.map Prod.fst).Nodup) (hv : ∀ p ∈ l, Printable p.2) :
      Printable (.map l)

end Arwen.Spec
