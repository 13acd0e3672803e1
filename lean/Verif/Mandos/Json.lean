import Verif.Basic.Bytes
/-!
Ordered JSON of the scenario tests: `mandos-go/orderedjson/{ojModel,ojParse,ojToJson}.go`.
-/
namespace Arwen.Mandos

/-- `OJsonObject` (`ojModel.go` 9-35). Strings hold the bytes between the quotes, escapes included. A map is the list of its pairs;
its `KeySet` is the set of their keys (so it is left out), as long as pairs are added by `Put` only. A pair with a nil value, which
the parser never makes, is left out. -/
inductive Json
  | str (v : Bytes)
  | bool (b : Bool)
  | list (l : List Json)
  | map (l : List (Bytes × Json))

/-- `Put` (`ojModel.go` 44-51). -/
def putKey (l : List (Bytes × Json)) (k : Bytes) (v : Json) : List (Bytes × Json) :=
  if l.any (fun p => p.1 == k) then l else l ++ [(k, v)]

def quote : UInt8 := 0x22
def backslash : UInt8 := 0x5c
def comma : UInt8 := 0x2c
def colon : UInt8 := 0x3a
def newline : UInt8 := 0x0a
def space : UInt8 := 0x20
def openList : UInt8 := 0x5b
def closeList : UInt8 := 0x5d
def openMap : UInt8 := 0x7b
def closeMap : UInt8 := 0x7d
def trueText : Bytes := [0x74, 0x72, 0x75, 0x65]
def falseText : Bytes := [0x66, 0x61, 0x6c, 0x73, 0x65]

/-! ### Writing -/

/-- `addIndent` (`ojToJson.go` 15-19). -/
def addIndent : Nat → Bytes
  | 0 => []
  | n + 1 => space :: space :: space :: space :: addIndent n

mutual
/-- `writeJSON` (`ojToJson.go` 21-73). -/
def writeJson (indent : Nat) : Json → Bytes
  | .str v => quote :: v ++ [quote]
  | .bool true => trueText
  | .bool false => falseText
  | .list [] => [openList, closeList]
  | .list (x :: l) => openList :: (newline :: addIndent (indent + 1) ++ writeJson (indent + 1) x) ++ writeItems indent l
  | .map [] => [openMap, closeMap]
  | .map ((k, v) :: l) =>
    openMap :: (newline :: addIndent (indent + 1) ++ quote :: k ++ [quote, colon, space] ++ writeJson (indent + 1) v) ++
      writePairs indent l
/-- the elements after the first, with the comma before each, and the end of the list (`ojToJson.go` 52-64) -/
def writeItems (indent : Nat) : List Json → Bytes
  | [] => newline :: addIndent indent ++ [closeList]
  | x :: l => comma :: newline :: addIndent (indent + 1) ++ writeJson (indent + 1) x ++ writeItems indent l
/-- the pairs after the first, with the comma before each, and the end of the map (`ojToJson.go` 28-43) -/
def writePairs (indent : Nat) : List (Bytes × Json) → Bytes
  | [] => newline :: addIndent indent ++ [closeMap]
  | (k, v) :: l =>
    comma :: newline :: addIndent (indent + 1) ++ quote :: k ++ [quote, colon, space] ++ writeJson (indent + 1) v ++
      writePairs indent l
end

/-- `JSONString` (`ojToJson.go` 9-13). -/
def jsonString (j : Json) : Bytes := writeJson 0 j

/-! ### Parsing -/

/-- `isWhitespace` (`ojParse.go` 35-37). -/
def isWhitespace (c : UInt8) : Bool := c == space || c == newline || c == 0x0d || c == 0x09

/-- the phase of a pair: its key, the colon, its value (`ojParse.go` 25) -/
inductive Phase | key | colon | value
  deriving DecidableEq

/-- the states of the parser (`ojParse.go` 9-33) -/
inductive PState
  | any
  | single (buffer : Bytes) (stringEscape : Bool)
  | list (l : List Json)
  | map (l : List (Bytes × Json))
  | pair (key : Bytes) (phase : Phase)

/-- the stack of states, top first, and the finished value that waits to be put into the state below (`ojParse.go` 41-43) -/
structure PMachine where
  stack : List PState
  pending : Option Json

inductive PErr
  | trailing | invalidState | misplaced | invalidValue (s : Bytes) | mapState | keyQuote | colonExpected | missingValue | keyEnclosed
  | noMap | unfinished
  deriving DecidableEq

/-- `finalize` (`ojParse.go` 191-206). -/
def finalize (buffer : Bytes) : Except PErr Json :=
  if buffer.head? = some quote ∧ buffer.getLast? = some quote then .ok (.str (buffer.drop 1).dropLast)
  else if buffer = trueText then .ok (.bool true)
  else if buffer = falseText then .ok (.bool false)
  else .error (.invalidValue buffer)

/-- how a round of the inner loop ends: the character is done with, or is looked at again -/
inductive Round
  | next (m : PMachine)
  | again (m : PMachine)
  | fail (e : PErr)

/-- One round of the inner loop of `ParseOrderedJSON` (`ojParse.go` 47-181) for the character `c`, with `prev` the character before
it. `key[1:len(key)-1]` would panic if the key were a single quote, which cannot be (a key ends at a later quote). -/
def round (prev c : UInt8) (m : PMachine) : Round :=
  match m.stack with
  | [] => if isWhitespace c then .next m else .fail .trailing
  | .any :: rest =>
    if m.pending.isSome then .fail .invalidState
    else if isWhitespace c then .next m
    else if c == openMap then .next { m with stack := .map [] :: rest }
    else if c == openList then .next { m with stack := .list [] :: rest }
    else if c == closeList || c == closeMap || c == comma then .fail .misplaced
    else .again { m with stack := .single [] false :: rest }
  | .single buffer escape :: rest =>
    if buffer.length == 0 then .next { m with stack := .single (buffer ++ [c]) (c == quote) :: rest }
    else if escape then
      if c == quote && prev != backslash then
        match finalize (buffer ++ [c]) with
        | .error e => .fail e
        | .ok j => .next { stack := rest, pending := some j }
      else .next { m with stack := .single (buffer ++ [c]) escape :: rest }
    else if c == closeList || c == closeMap || c == comma || isWhitespace c then
      match finalize buffer with
      | .error e => .fail e
      | .ok j => .again { stack := rest, pending := some j }
    else .next { m with stack := .single (buffer ++ [c]) escape :: rest }
  | .list l :: rest =>
    let l := match m.pending with
      | some j => l ++ [j]
      | none => l
    if isWhitespace c then .next { stack := .list l :: rest, pending := none }
    else if c == closeList then .next { stack := rest, pending := some (.list l) }
    else if l.length == 0 then .again { stack := .any :: .list l :: rest, pending := none }
    else if c == comma then .next { stack := .any :: .list l :: rest, pending := none }
    else .next { stack := .list l :: rest, pending := none }
  | .map l :: rest =>
    if isWhitespace c then .next m
    else if c == closeMap then .next { stack := rest, pending := some (.map l) }
    else if c == comma then .next { m with stack := .pair [] .key :: .map l :: rest }
    else if l.length == 0 then .again { m with stack := .pair [] .key :: .map l :: rest }
    else .fail .mapState
  | .pair key .key :: rest =>
    if key.length == 0 then
      if isWhitespace c then .next m
      else if c != quote then .fail .keyQuote
      else .next { m with stack := .pair (key ++ [c]) .key :: rest }
    else if c == quote && prev != backslash then .next { m with stack := .pair (key ++ [c]) .colon :: rest }
    else .next { m with stack := .pair (key ++ [c]) .key :: rest }
  | .pair key .colon :: rest =>
    if isWhitespace c then .next m
    else if c == colon then .next { m with stack := .any :: .pair key .value :: rest }
    else .fail .colonExpected
  | .pair key .value :: rest =>
    match m.pending with
    | none => .fail .missingValue
    | some v =>
      if key.head? = some quote ∧ key.getLast? = some quote then
        match rest with
        | .map l :: below => .again { stack := .map (putKey l (key.drop 1).dropLast v) :: below, pending := none }
        | _ => .fail .noMap
      else .fail .keyEnclosed

/-- The inner loop (`ojParse.go` 45-182), with a bound on its rounds; `none` if the bound is too small. -/
def rounds : Nat → UInt8 → UInt8 → PMachine → Option (Except PErr PMachine)
  | 0, _, _, _ => none
  | n + 1, prev, c, m =>
    match round prev c m with
    | .next m => some (.ok m)
    | .fail e => some (.error e)
    | .again m => rounds n prev c m

/-- The machine after the character `c`. The rounds are always enough (`feed_round` in `Props/Json.lean`). -/
def feed (prev c : UInt8) (m : PMachine) : Except PErr PMachine :=
  (rounds (m.stack.length + 4) prev c m).getD (.error .invalidState)

/-- the outer loop (`ojParse.go` 44-183) -/
def feedAll (prev : UInt8) : Bytes → PMachine → Except PErr PMachine
  | [], m => .ok m
  | c :: input, m =>
    match feed prev c m with
    | .error e => .error e
    | .ok m => feedAll c input m

/-- `ParseOrderedJSON` (`ojParse.go` 40-189). The previous character is never asked for at the first one. `none` stands for a nil
object. -/
def parseOrderedJson (input : Bytes) : Except PErr (Option Json) :=
  match feedAll 0 input { stack := [.any], pending := none } with
  | .error e => .error e
  | .ok m => if m.stack.length != 0 then .error .unfinished else .ok m.pending

end Arwen.Mandos
