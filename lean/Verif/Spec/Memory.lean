import Verif.Basic.Bytes
/-
Independent specification of contract memory: bytes by position, 0 outside.
-/
namespace Arwen.Spec

/-- the byte at a position; 0 past the end -/
def byteAt (mem : Bytes) (j : Nat) : UInt8 := mem.getD j 0

/-- the `n` bytes from position `o`, zero-filled past the end -/
def bytesFrom (mem : Bytes) (o n : Nat) : Bytes := (List.range n).map (fun j => byteAt mem (o + j))

end Arwen.Spec
