import Verif.Mandos.Kast
import Verif.Spec.Json
/-
Terms of the K framework as text, and the term of a test.
-/
namespace Arwen.Spec
open Arwen.Mandos

/-- a term: a token with its text and its sort, or a label with arguments -/
inductive KTerm
  | token (text sort : Bytes)
  | app (label : Bytes) (args : List KTerm)

/-- a text between quotes, with a backslash before every quote and every backslash -/
def literal (s : Bytes) : Bytes := 34 :: s.flatMap (fun c => if c = 34 ∨ c = 92 then [92, c] else [c]) ++ [34]

mutual
/-- `#token("…","…")`, or the label between backquotes and the arguments with commas between them, `.KList` if there are none -/
def KTerm.text : KTerm → Bytes
  | .token t s => [35, 116, 111, 107, 101, 110, 40] ++ literal t ++ [44] ++ literal s ++ [41]
  | .app l args => [96] ++ l ++ [96, 40] ++ argsText args ++ [41]
def argsText : List KTerm → Bytes
  | [] => [46, 75, 76, 105, 115, 116]
  | [t] => t.text
  | t :: u :: l => t.text ++ [44] ++ argsText (u :: l)
end

/-- `".List{"_,__IELE-DATA"}"` -/
def nilLabel : Bytes := [46, 76, 105, 115, 116, 123, 34, 95, 44, 95, 95, 73, 69, 76, 69, 45, 68, 65, 84, 65, 34, 125]
/-- `"_,__IELE-DATA"` -/
def consLabel : Bytes := [95, 44, 95, 95, 73, 69, 76, 69, 45, 68, 65, 84, 65]
/-- `"_:__IELE-DATA"` -/
def pairLabel : Bytes := [95, 58, 95, 95, 73, 69, 76, 69, 45, 68, 65, 84, 65]
/-- `"{_}_IELE-DATA"` -/
def mapLabel : Bytes := [123, 95, 125, 95, 73, 69, 76, 69, 45, 68, 65, 84, 65]
/-- `"[_]_IELE-DATA"` -/
def listLabel : Bytes := [91, 95, 93, 95, 73, 69, 76, 69, 45, 68, 65, 84, 65]

/-- a list of terms -/
def listTerm : List KTerm → KTerm
  | [] => .app nilLabel []
  | t :: l => .app consLabel [t, listTerm l]

/-- the token of a text: as it is written in the document, quotes included, of sort `String` -/
def stringTerm (v : Bytes) : KTerm := .token (34 :: v ++ [34]) [83, 116, 114, 105, 110, 103]

mutual
/-- the term of a document -/
def termOf : Json → KTerm
  | .str v => stringTerm v
  | .bool true => .token [116, 114, 117, 101] [66, 111, 111, 108]
  | .bool false => .token [102, 97, 108, 115, 101] [66, 111, 111, 108]
  | .list l => .app listLabel [listTerm (termsOf l)]
  | .map l => .app mapLabel [listTerm (pairTerms l)]
def termsOf : List Json → List KTerm
  | [] => []
  | x :: l => termOf x :: termsOf l
def pairTerms : List (Bytes × Json) → List KTerm
  | [] => []
  | (k, v) :: l => .app pairLabel [stringTerm k, termOf v] :: pairTerms l
end

/-- no text or key of the document has a quote or a backslash in it -/
inductive Unescaped : Json → Prop
  | str {v : Bytes} (h : quote ∉ v ∧ backslash ∉ v) : Unescaped (.str v)
  | bool (b : Bool) : Unescaped (.bool b)
  | list {l : List Json} (h : ∀ x ∈ l, Unescaped x) : Unescaped (.list l)
  | map {l : List (Bytes × Json)} (hk : ∀ p ∈ l, quote ∉ p.1 ∧ backslash ∉ p.1) (hv : ∀ p ∈ l, Unescaped p.2) : Unescaped (.map l)

/-- code stands under this key of this map: under `code`, and under `contractCode` if there is an empty text under `to` -/
def CodeAt (l : List (Bytes × Json)) (k : Bytes) : Prop :=
  k = [99, 111, 100, 101] ∨
  (k = [99, 111, 110, 116, 114, 97, 99, 116, 67, 111, 100, 101] ∧ ([116, 111], Json.str []) ∈ l)

/-- two documents that are the same, but that a text that stands for code in the one is what `f` makes of it in the other -/
inductive Assembled (f : Bytes → Bytes) : Json → Json → Prop
  | str (v : Bytes) : Assembled f (.str v) (.str v)
  | bool (b : Bool) : Assembled f (.bool b) (.bool b)
  | list {l l' : List Json} (hn : l.length = l'.length) (h : ∀ (i : Nat) (x x' : Json), l[i]? = some x → l'[i]? = some x' → Assembled f x x') :
      Assembled f (.list l) (.list l')
  | map {l l' : List (Bytes × Json)} (hk : l.map Prod.fst = l'.map Prod.fst)
      (hc : ∀ (i : Nat) (k : Bytes) (v : Json) (k' : Bytes) (v' : Json), l[i]? = some (k, v) → l'[i]? = some (k', v') → CodeAt l k →
        (∃ s, v = .str s ∧ v' = .str (f s)) ∨ ((∀ s, v ≠ .str s) ∧ v' = v))
      (hv : ∀ (i : Nat) (k : Bytes) (v : Json) (k' : Bytes) (v' : Json), l[i]? = some (k, v) → l'[i]? = some (k', v') → ¬ CodeAt l k → Assembled f v v') :
      Assembled f (.map l) (.map l')

end Arwen.Spec
