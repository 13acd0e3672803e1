import Verif.Mandos.Json
/-
Tests written as terms of the K framework: `mandos-go/orderedjson2kast`.
-/
namespace Arwen.Mandos

def keyTo : Bytes := [116, 111]
def keyCode : Bytes := [99, 111, 100, 101]
def keyContractCode : Bytes := [99, 111, 110, 116, 114, 97, 99, 116, 67, 111, 100, 101]

/-- a map with an empty text under `to` is a transaction that makes a contract (`ojProcessCode.go` 10-20) -/
def isCreateTx (l : List (Bytes × Json)) : Bool :=
  l.any fun p => p.1 == keyTo && match p.2 with
    | .str v => v == []
    | _ => false

/-- is the code under this key to be assembled (`ojProcessCode.go` 23-24) -/
def codeKey (create : Bool) (k : Bytes) : Bool := k == keyCode || (k == keyContractCode && create)

mutual
/-- `processTestCode` (`ojProcessCode.go` 7-38); the callback, with the path of the test, is `f`. The tree is made anew, where the code
overwrites texts. -/
def processTestCode (f : Bytes → Bytes) : Json → Json
  | .map l => .map (processPairs f (isCreateTx l) l)
  | .list l => .list (processItems f l)
  | .str v => .str v
  | .bool b => .bool b
/-- the elements of a list (`ojProcessCode.go` 32-35) -/
def processItems (f : Bytes → Bytes) : List Json → List Json
  | [] => []
  | x :: l => processTestCode f x :: processItems f l
/-- the pairs of a map (`ojProcessCode.go` 22-31) -/
def processPairs (f : Bytes → Bytes) (create : Bool) : List (Bytes × Json) → List (Bytes × Json)
  | [] => []
  | (k, v) :: l =>
    (k, if codeKey create k then
          match v with
          | .str s => .str (f s)
          | v => v
        else processTestCode f v) :: processPairs f create l
end

/-! The texts of `writeKast` (`ojToKast.go` 16-58): around a string, around a truth value, at the start of a map, of a list, of an entry,
of a pair, and at the end of the entries. -/

def strOpen : Bytes := [35, 116, 111, 107, 101, 110, 40, 34, 92, 34]
def strClose : Bytes := [92, 34, 34, 44, 34, 83, 116, 114, 105, 110, 103, 34, 41]
def boolOpen : Bytes := [35, 116, 111, 107, 101, 110, 40, 34]
def boolClose : Bytes := [34, 44, 34, 66, 111, 111, 108, 34, 41]
def mapOpen : Bytes := [96, 123, 95, 125, 95, 73, 69, 76, 69, 45, 68, 65, 84, 65, 96, 40]
def listOpen : Bytes := [96, 91, 95, 93, 95, 73, 69, 76, 69, 45, 68, 65, 84, 65, 96, 40]
def consOpen : Bytes := [96, 95, 44, 95, 95, 73, 69, 76, 69, 45, 68, 65, 84, 65, 96, 40]
def pairOpen : Bytes := [96, 95, 58, 95, 95, 73, 69, 76, 69, 45, 68, 65, 84, 65, 96, 40]
def kNil : Bytes :=
  [96, 46, 76, 105, 115, 116, 123, 34, 95, 44, 95, 95, 73, 69, 76, 69, 45, 68, 65, 84, 65, 34, 125, 96, 40, 46, 75, 76, 105, 115, 116, 41]
def closing : UInt8 := 41

/-- `writeStringKast` (`ojToKast.go` 16-18) -/
def writeStringKast (v : Bytes) : Bytes := strOpen ++ v ++ strClose

mutual
/-- `writeKast` (`ojToKast.go` 20-58) -/
def writeKast : Json → Bytes
  | .str v => writeStringKast v
  | .bool true => boolOpen ++ trueText ++ boolClose
  | .bool false => boolOpen ++ falseText ++ boolClose
  | .list l => listOpen ++ kastItems l ++ [closing]
  | .map l => mapOpen ++ kastPairs l ++ [closing]
/-- the elements of a list (`ojToKast.go` 39-48); the parentheses that close them are written here one by one, by the code in a loop
afterwards, which gives the same text -/
def kastItems : List Json → Bytes
  | [] => kNil
  | x :: l => consOpen ++ writeKast x ++ comma :: kastItems l ++ [closing]
/-- the pairs of a map (`ojToKast.go` 23-34) -/
def kastPairs : List (Bytes × Json) → Bytes
  | [] => kNil
  | (k, v) :: l => consOpen ++ pairOpen ++ writeStringKast k ++ comma :: writeKast v ++ closing :: comma :: kastPairs l ++ [closing]
end

/-- `ConvertOrderedJSONToKast` (`ojMain.go` 15-25); `none`: a panic, for a nil object -/
def convertToKast (f : Bytes → Bytes) (input : Bytes) : Except PErr (Option Bytes) :=
  match parseOrderedJson input with
  | .error e => .error e
  | .ok none => .ok none
  | .ok (some j) => .ok (some (writeKast (processTestCode f j)))

end Arwen.Mandos
