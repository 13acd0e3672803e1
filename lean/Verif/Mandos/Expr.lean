import Verif.Mandos.Json
import Verif.BigInt.TwosComplement
/-!
Value expressions of the scenario tests: `mandos-go/expression/interpreter/{interpreter,functions}.go`.
Go strings are byte strings. The file resolver and the Keccak hash are parameters.
-/
namespace Arwen.Mandos

/-- a text given by its characters, all of them ASCII -/
def ascii (cs : List Char) : Bytes := cs.map (fun c => UInt8.ofNat c.toNat)

/-- What can go wrong: a returned error (the texts of the errors are left out), or an index panic. -/
inductive ExprErr | rejected | panic
  deriving DecidableEq

/-- `ExprInterpreter` (`interpreter.go` 37-40) and the hash `Keccak256` (`functions.go` 14-21), which never fails. The resolver may
be missing; it answers `none` when the file cannot be read. -/
structure Interpreter where
  resolver : Option (Bytes → Option Bytes)
  keccak : Bytes → Bytes

/-! ### The libraries used -/

/-- `strings.Split` at one character: never empty -/
def splitOn (sep : UInt8) : Bytes → List Bytes
  | [] => [[]]
  | c :: cs =>
    if c = sep then [] :: splitOn sep cs
    else match splitOn sep cs with
      | [] => [[c]]
      | t :: ts => (c :: t) :: ts

/-- a digit of the given base, at most ten -/
def digitOf (base : Nat) (c : UInt8) : Option Nat :=
  if 48 ≤ c.toNat ∧ c.toNat < 48 + base then some (c.toNat - 48) else none

/-- a run of digits after the number `n` -/
def scanDigits (base : Nat) : Nat → Bytes → Option Nat
  | n, [] => some n
  | n, c :: cs =>
    match digitOf base c with
    | some d => scanDigits base (n * base + d) cs
    | none => none

/-- `nat.scan` of `math/big`: at least one digit and nothing else -/
def scanNat (base : Nat) (s : Bytes) : Option Nat := if s = [] then none else scanDigits base 0 s

/-- `big.Int.SetString` for the bases 2 and 10: an optional sign and at least one digit -/
def setString (base : Nat) : Bytes → Option Int
  | [] => none
  | c :: cs =>
    if c = 45 then (scanNat base cs).map (fun n => - (n : Int))
    else if c = 43 then (scanNat base cs).map (fun n => (n : Int))
    else (scanNat base (c :: cs)).map (fun n => (n : Int))

/-- `twos.CopyAlignRight` of `big-int-util`: padded or cut on the left to the given length -/
def copyAlignRight (bs : Bytes) (len : Nat) : Bytes :=
  List.replicate (len - bs.length) 0 ++ bs.drop (bs.length - len)

/-- `twos.ToBytesOfLength` of `big-int-util`: the two's complement form of the given length, or an error if it does not fit -/
def twosOfLength (z : Int) (len : Nat) : Except ExprErr Bytes :=
  let bs := twosToBytes z
  if len < bs.length then .error .rejected
  else .ok (List.replicate (len - bs.length) (if z < 0 then 255 else 0) ++ bs)

/-! ### Addresses -/

/-- `SCAddressNumLeadingZeros` (`functions.go` 12) -/
def scZeros : Nat := 8

/-- `decodeShardId` (`functions.go` 23-32). -/
def decodeShardId (s : Bytes) : Except ExprErr UInt8 :=
  match hexDecode s with
  | some [b] => .ok b
  | _ => .error .rejected

/-- `createAddressFromPrefix` (`functions.go` 34-43) with end index 32; the start index is 0 or 8. -/
def addressFromPrefix (pre : Bytes) (start : Nat) : Bytes :=
  List.replicate start 0 ++ pre.take (32 - start) ++ List.replicate (32 - (pre.length + start)) 95

/-- `createAddressOptionalShardId` (`functions.go` 45-62). -/
def addressOptionalShard (input : Bytes) (start : Nat) : Except ExprErr Bytes :=
  match splitOn 35 input with
  | [t] => .ok (addressFromPrefix t start)
  | [t, s] => (decodeShardId s).map (fun b => (addressFromPrefix t start).set 31 b)
  | _ => .error .rejected

/-! ### Numbers -/

/-- `interpretUnsignedNumber` (`interpreter.go` 210-248). Only the decimal and the binary form lose their underscores and commas. -/
def unsignedNumber (s : Bytes) : Except ExprErr Bytes :=
  let str := s.filter (fun c => c != 95 && c != 44)
  if (ascii ['0', 'x']).isPrefixOf s || (ascii ['0', 'X']).isPrefixOf s then
    let h := s.drop 2
    match hexDecode (if h.length % 2 = 1 then 48 :: h else h) with
    | some bs => .ok bs
    | none => .error .rejected
  else if (ascii ['0', 'b']).isPrefixOf s || (ascii ['0', 'B']).isPrefixOf s then
    match setString 2 (str.drop 2) with
    | some z => .ok (natToBytes z.natAbs)
    | none => .error .rejected
  else
    match setString 10 str with
    | some z => if z < 0 then .error .rejected else .ok (natToBytes z.natAbs)
    | none => .error .rejected

/-- `interpretUnsignedNumberFixedWidth` (`interpreter.go` 250-263). -/
def unsignedFixed (s : Bytes) (width : Nat) : Except ExprErr Bytes :=
  match unsignedNumber s with
  | .error e => .error e
  | .ok bs =>
    if width = 0 then .ok bs
    else if width < bs.length then .error .rejected
    else .ok (copyAlignRight bs width)

/-- `interpretNumber` (`interpreter.go` 182-208). The first character is read without a length check (line 185). -/
def number (s : Bytes) (width : Nat) : Except ExprErr Bytes :=
  match s with
  | [] => .error .panic
  | c :: cs =>
    if c = 45 ∨ c = 43 then
      match unsignedNumber cs with
      | .error e => .error e
      | .ok bs =>
        let z : Int := if c = 45 then - (bytesToNat bs : Int) else bytesToNat bs
        if width = 0 then .ok (twosToBytes z) else twosOfLength z width
    else if width = 0 then unsignedNumber s
    else unsignedFixed s width

/-- the length of a value in four bytes, then the value (`interpreter.go` 300-304, 307-311) -/
def withLength (bs : Bytes) : Bytes := copyAlignRight (natToBytes bs.length) 4 ++ bs

/-! ### Expressions -/

def filePrefix : Bytes := ascii ['f', 'i', 'l', 'e', ':']
def keccakPrefix : Bytes := ascii ['k', 'e', 'c', 'c', 'a', 'k', '2', '5', '6', ':']
def strPrefix : Bytes := ascii ['s', 't', 'r', ':']
def addrPrefix : Bytes := ascii ['a', 'd', 'd', 'r', 'e', 's', 's', ':']
def scPrefix : Bytes := ascii ['s', 'c', ':']
def u64Prefix : Bytes := ascii ['u', '6', '4', ':']
def u32Prefix : Bytes := ascii ['u', '3', '2', ':']
def u16Prefix : Bytes := ascii ['u', '1', '6', ':']
def u8Prefix : Bytes := ascii ['u', '8', ':']
def i64Prefix : Bytes := ascii ['i', '6', '4', ':']
def i32Prefix : Bytes := ascii ['i', '3', '2', ':']
def i16Prefix : Bytes := ascii ['i', '1', '6', ':']
def i8Prefix : Bytes := ascii ['i', '8', ':']
def biguintPrefix : Bytes := ascii ['b', 'i', 'g', 'u', 'i', 'n', 't', ':']
def nestedPrefix : Bytes := ascii ['n', 'e', 's', 't', 'e', 'd', ':']

/-- `|` -/
def bar : UInt8 := 124

/-- one value after another, up to the first that fails (`interpreter.go` 126-135, 50-57, 67-74) -/
def concatAll : List (Except ExprErr Bytes) → Except ExprErr Bytes
  | [] => .ok []
  | .error e :: _ => .error e
  | .ok bs :: l => (concatAll l).map (fun r => bs ++ r)

/-- The rules for a text without `|`, but for `nested:` (`interpreter.go` 138-179, 265-304); `none` if the text is `nested:…`. -/
def simpleExpr (s : Bytes) : Option (Except ExprErr Bytes) :=
  if s = falseText then some (.ok [])
  else if s = trueText then some (.ok [1])
  else if strPrefix.isPrefixOf s then some (.ok (s.drop strPrefix.length))
  else if (ascii ['`', '`']).isPrefixOf s then some (.ok (s.drop 2))
  else if (ascii ['\'', '\'']).isPrefixOf s then some (.ok (s.drop 2))
  else if addrPrefix.isPrefixOf s then some (addressOptionalShard (s.drop addrPrefix.length) 0)
  else if scPrefix.isPrefixOf s then some (addressOptionalShard (s.drop scPrefix.length) scZeros)
  else if u64Prefix.isPrefixOf s then some (unsignedFixed (s.drop u64Prefix.length) 8)
  else if u32Prefix.isPrefixOf s then some (unsignedFixed (s.drop u32Prefix.length) 4)
  else if u16Prefix.isPrefixOf s then some (unsignedFixed (s.drop u16Prefix.length) 2)
  else if u8Prefix.isPrefixOf s then some (unsignedFixed (s.drop u8Prefix.length) 1)
  else if i64Prefix.isPrefixOf s then some (number (s.drop i64Prefix.length) 8)
  else if i32Prefix.isPrefixOf s then some (number (s.drop i32Prefix.length) 4)
  else if i16Prefix.isPrefixOf s then some (number (s.drop i16Prefix.length) 2)
  else if i8Prefix.isPrefixOf s then some (number (s.drop i8Prefix.length) 1)
  else if biguintPrefix.isPrefixOf s then some ((unsignedNumber (s.drop biguintPrefix.length)).map withLength)
  else if nestedPrefix.isPrefixOf s then none
  else some (number s 0)

/-- the pieces of a split text together with the separators make up the text -/
theorem splitOn_total (sep : UInt8) (s : Bytes) :
    (splitOn sep s).foldr (fun t n => t.length + 1 + n) 0 = s.length + 1 := by
  induction s with
  | nil => rfl
  | cons c cs ih =>
    simp only [splitOn]
    split
    · simp only [List.foldr_cons, ih, List.length_nil, List.length_cons]; omega
    · cases h : splitOn sep cs with
      | nil => rw [h] at ih; simp at ih
      | cons t ts =>
        rw [h] at ih
        simp only [List.foldr_cons, List.length_cons] at ih ⊢
        omega

theorem splitOn_piece_lt {sep : UInt8} {s t : Bytes} (h : t ∈ splitOn sep s) (hl : 1 < (splitOn sep s).length) :
    t.length < s.length := by
  have ht := splitOn_total sep s
  have key : ∀ (l : List Bytes), t ∈ l → t.length + l.length ≤ l.foldr (fun t n => t.length + 1 + n) 0 := by
    intro l hm
    induction l with
    | nil => cases hm
    | cons a l ih =>
      have hge : ∀ l : List Bytes, l.length ≤ l.foldr (fun t n => t.length + 1 + n) 0 := by
        intro l
        induction l with
        | nil => exact Nat.le_refl _
        | cons a l ih => simp only [List.foldr_cons, List.length_cons]; omega
      simp only [List.foldr_cons, List.length_cons]
      cases hm with
      | head => have := hge l; omega
      | tail _ hm => have := ih hm; omega
  have := key _ h
  omega

/-- `InterpretString` (`interpreter.go` 95-180). -/
def interpretString (I : Interpreter) (s : Bytes) : Except ExprErr Bytes :=
  if h0 : s = [] then .ok []
  else if filePrefix.isPrefixOf s then
    match I.resolver with
    | none => .error .rejected
    | some r =>
      match r (s.drop filePrefix.length) with
      | some bs => .ok bs
      | none => .error .rejected
  else if keccakPrefix.isPrefixOf s then (interpretString I (s.drop keccakPrefix.length)).map I.keccak
  else if hb : 1 < (splitOn bar s).length then
    concatAll ((splitOn bar s).attach.map (fun p => interpretString I p.1))
  else
    match simpleExpr s with
    | some r => r
    | none => (interpretString I (s.drop nestedPrefix.length)).map withLength
termination_by s.length
decreasing_by
  · have := List.length_pos_iff.2 h0
    simp only [List.length_drop, keccakPrefix, ascii, List.length_map, List.length_cons, List.length_nil]; omega
  · exact splitOn_piece_lt p.2 hb
  · have := List.length_pos_iff.2 h0
    simp only [List.length_drop, nestedPrefix, ascii, List.length_map, List.length_cons, List.length_nil]; omega

/-! ### Trees -/

/-- Go's order of strings: byte by byte -/
def bytesLe : Bytes → Bytes → Bool
  | [], _ => true
  | _ :: _, [] => false
  | a :: as, b :: bs => if a = b then bytesLe as bs else decide (a.toNat < b.toNat)

/-- one pair put at its place -/
def insertKey (p : Bytes × α) : List (Bytes × α) → List (Bytes × α)
  | [] => [p]
  | q :: l => if bytesLe p.1 q.1 then p :: q :: l else q :: insertKey p l

/-- `KeyValuePairsSortedByKey` (`ojModel.go` 66-72); the keys differ, so any sorting gives the same list. -/
def sortByKey : List (Bytes × α) → List (Bytes × α)
  | [] => []
  | p :: l => insertKey p (sortByKey l)

mutual
/-- `InterpretSubTree` (`interpreter.go` 42-81). The values of a map are computed in the order of their keys; here their outcomes
are sorted, and only those up to the first failure count. -/
def interpretTree (I : Interpreter) : Json → Except ExprErr Bytes
  | .str v => interpretString I v
  | .bool _ => .error .rejected
  | .list l => concatAll (interpretTrees I l)
  | .map l => concatAll ((sortByKey (interpretPairs I l)).map Prod.snd)
def interpretTrees (I : Interpreter) : List Json → List (Except ExprErr Bytes)
  | [] => []
  | j :: l => interpretTree I j :: interpretTrees I l
def interpretPairs (I : Interpreter) : List (Bytes × Json) → List (Bytes × Except ExprErr Bytes)
  | [] => []
  | (k, v) :: l => (k, interpretTree I v) :: interpretPairs I l
end

end Arwen.Mandos
