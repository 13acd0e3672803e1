import Verif.Mandos.Expr
/-!
From bytes back to expressions: `mandos-go/expression/reconstructor/reconstructor.go`.
-/
namespace Arwen.Mandos

/-- `ExprReconstructorHint` (`reconstructor.go` 14-31) -/
inductive Hint | none | number | address | str | code
  deriving DecidableEq

/-- the decimal digits of a number, as `%d` prints them -/
def decimal (n : Nat) : Bytes :=
  if n < 10 then [UInt8.ofNat (48 + n)] else decimal (n / 10) ++ [UInt8.ofNat (48 + n % 10)]
termination_by n

/-- a byte in hexadecimal without leading zero, as `%x` prints it -/
def hexByte (b : UInt8) : Bytes := if b < 16 then [hexDigit b] else hexEncode [b]

/-- `strings.TrimRight(s, "_")` -/
def trimRight : Bytes → Bytes
  | [] => []
  | c :: cs =>
    match trimRight cs with
    | [] => if c = 95 then [] else [c]
    | t => c :: t

/-- `canInterpretAsString` (`reconstructor.go` 116-126). -/
def isReadable (bs : Bytes) : Bool := !bs.isEmpty && bs.all (fun b => 32 ≤ b && b ≤ 126)

/-- `unknownByteArrayPretty` (`reconstructor.go` 61-79). The parameter is `strconv.Quote`. -/
def unknownPretty (quoted : Bytes → Bytes) (bs : Bytes) : Bytes :=
  if bs = [] then []
  else if isReadable bs then ascii ['0', 'x'] ++ hexEncode bs ++ ascii [' ', '('] ++ strPrefix ++ bs ++ ascii [')']
  else if bs.length < 15 then ascii ['0', 'x'] ++ hexEncode bs ++ ascii [' ', '('] ++ decimal (bytesToNat bs) ++ ascii [')']
  else ascii ['0', 'x'] ++ hexEncode bs ++ ascii [' ', '('] ++ strPrefix ++ quoted bs ++ ascii [')']

/-- `addressPretty` (`reconstructor.go` 81-114). -/
def addressPretty (quoted : Bytes → Bytes) (value : Bytes) : Bytes :=
  if value.length ≠ 32 then unknownPretty quoted value
  else
    let last := value.getD 31 0
    if value.take scZeros = List.replicate scZeros 0 then
      if last = 95 then scPrefix ++ trimRight (value.drop scZeros)
      else scPrefix ++ trimRight ((value.take 31).drop scZeros) ++ [35] ++ hexByte last
    else if last = 95 then addrPrefix ++ trimRight value
    else addrPrefix ++ trimRight (value.take 31) ++ [35] ++ hexEncode [last]

/-- `codePretty` (`reconstructor.go` 128-139). -/
def codePretty (bs : Bytes) : Bytes :=
  if bs = [] then []
  else if 20 < (hexEncode bs).length then ascii ['0', 'x'] ++ (hexEncode bs).take 20 ++ ascii ['.', '.', '.']
  else ascii ['0', 'x'] ++ hexEncode bs

/-- `Reconstruct` (`reconstructor.go` 38-51). -/
def reconstruct (quoted : Bytes → Bytes) (value : Bytes) : Hint → Bytes
  | .number => decimal (bytesToNat value)
  | .str => strPrefix ++ value
  | .address => addressPretty quoted value
  | .code => codePretty value
  | .none => unknownPretty quoted value

end Arwen.Mandos
