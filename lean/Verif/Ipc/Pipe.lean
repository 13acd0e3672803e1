import Verif.Basic.Bytes
/-
Model of the framing of messages on the pipes between the node and the Arwen process: `ipc/common/sender.go`,
`ipc/common/receiver.go`. The pipe itself is the operating system's: bytes arrive in order, in pieces of any size.
-/
namespace Arwen.Ipc

/-- `binary.LittleEndian.PutUint32`. -/
def putLe32 (n : UInt32) : Bytes :=
  [n.toUInt8, (n >>> 8).toUInt8, (n >>> 16).toUInt8, (n >>> 24).toUInt8]

/-- `binary.LittleEndian.Uint32` of the first four bytes. -/
def le32 : Bytes → UInt32
  | a :: b :: c :: d :: _ => a.toUInt32 ||| (b.toUInt32 <<< 8) ||| (c.toUInt32 <<< 16) ||| (d.toUInt32 <<< 24)
  | _ => 0

/-- `sendMessageLengthAndKind` (`sender.go` 45-51): `uint32(length)` keeps the low 32 bits. -/
def header (length : Nat) (kind : UInt32) : Bytes := putLe32 (UInt32.ofNat length) ++ putLe32 kind

/-- The bytes that `Send` (`sender.go` 25-43) writes for a message of this kind with these marshalled bytes: two writes, of the
header and of the data. -/
def frame (kind : UInt32) (payload : Bytes) : Bytes := header payload.length kind ++ payload

/-- What a reader can still read: the pieces in which the bytes will arrive; then the pipe is closed. -/
abbrev Stream := List Bytes

/-- `io.ReadFull` on a buffer of `n` bytes: read pieces until the buffer is full; `none` if the pipe ends before. -/
def readFull : Nat → Stream → Option (Bytes × Stream)
  | n, [] => if n = 0 then some ([], []) else none
  | n, c :: cs =>
    if n = 0 then some ([], c :: cs)
    else if c.length ≤ n then (readFull (n - c.length) cs).map fun (b, cs) => (c ++ b, cs)
    else some (c.take n, c.drop n :: cs)

/-- The reading part of `Receive` (`receiver.go` 27-86): header, then as many bytes as the header says. -/
def receiveFrame (cs : Stream) : Option ((UInt32 × Bytes) × Stream) :=
  match readFull 8 cs with
  | none => none
  | some (h, cs) =>
    match readFull (le32 (h.take 4)).toNat cs with
    | none => none
    | some (payload, cs) => some ((le32 (h.drop 4), payload), cs)

/-- `n` calls of `Receive`, ended by the first error: what was received and whether all calls succeeded -/
def receiveMany : Nat → Stream → List (UInt32 × Bytes) × Option Stream
  | 0, cs => ([], some cs)
  | n + 1, cs =>
    match receiveFrame cs with
    | none => ([], none)
    | some (m, cs) => ((m :: (receiveMany n cs).1), (receiveMany n cs).2)

end Arwen.Ipc
