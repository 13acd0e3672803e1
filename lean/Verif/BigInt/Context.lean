import Verif.State.Machine
/-
Model of `arwen/contexts/bigint.go`.
-/
namespace Arwen
namespace BigCtx

/-- `bigint.go` 26-28. -/
def initState (c : BigCtx) : BigCtx := { c with vals := AMap.empty }
/-- `bigint.go` 31-34, 63-69 (the clone copies every value; values are immutable here). -/
def push (c : BigCtx) : BigCtx := { c with stack := c.vals :: c.stack }
/-- `bigint.go` 37-47. -/
def popSet (c : BigCtx) : BigCtx :=
  match c.stack with
  | [] => c
  | v :: rest => { vals := v, stack := rest }
/-- `bigint.go` 50-57. -/
def popDiscard (c : BigCtx) : BigCtx := { c with stack := c.stack.tail }
/-- `bigint.go` 60-62. -/
def clearStack (c : BigCtx) : BigCtx := { c with stack := [] }

/-- The probing loop of `Put` (`bigint.go` 73-79): `h, h+1, ...` (wrapping) until a free handle.
`fuel` bounds the number of probes; `size + 1` probes always suffice when fewer than 2^32 handles are in use. -/
def probe (vals : AMap Int32 Int) : Nat → Int32 → Int32
  | 0, h => h
  | fuel + 1, h => if (vals.get? h).isSome then probe vals fuel (h + 1) else h

/-- `int32(len(values))`, the first handle tried (`bigint.go` 73). -/
def firstHandle (vals : AMap Int32 Int) : Int32 := Int32.ofNat vals.size

/-- `Put` (`bigint.go` 72-84). -/
def put (c : BigCtx) (v : Int64) : Int32 × BigCtx :=
  let h := probe c.vals (c.vals.size + 1) (firstHandle c.vals)
  (h, { c with vals := c.vals.insert h v.toInt })

/-- `GetOne` (`bigint.go` 87-93): the value under the handle; a missing handle is created with value 0. -/
def getOne (c : BigCtx) (h : Int32) : Int × BigCtx :=
  match c.vals.get? h with
  | some v => (v, c)
  | none => (0, { c with vals := c.vals.insert h 0 })

/-- Writing through the pointer returned by `GetOne`. -/
def setVal (c : BigCtx) (h : Int32) (v : Int) : BigCtx := { c with vals := c.vals.insert h v }

end BigCtx
end Arwen
