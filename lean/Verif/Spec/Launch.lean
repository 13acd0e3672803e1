import Verif.Ipc.Launch
import Verif.Spec.Debug
/-
Specification for C77: the settings of the Arwen process.
-/
namespace Arwen.Spec
open Arwen.Ipc

/-- the price of an operation in a gas schedule -/
def priceIn (g : AMap Bytes (AMap Bytes UInt64)) (group operation : Bytes) : Option UInt64 :=
  (g.get? group).bind (·.get? operation)

/-- the names in a gas schedule are texts -/
structure TextSchedule (g : AMap Bytes (AMap Bytes UInt64)) : Prop where
  group : ∀ k m, g.get? k = some m → IsText k
  operation : ∀ k m o p, g.get? k = some m → m.get? o = some p → IsText o

/-- the same settings, but for the built-in functions -/
structure SameSettings (a b : Settings) : Prop where
  vmType : b.vmType = a.vmType
  blockGasLimit : b.blockGasLimit = a.blockGasLimit
  groups : ∀ k, (b.gas.get? k).isSome = (a.gas.get? k).isSome
  prices : ∀ k o, priceIn b.gas k o = priceIn a.gas k o
  protectedPrefix : b.protectedPrefix = a.protectedPrefix
  v2Epoch : b.v2Epoch = a.v2Epoch
  aotEpoch : b.aotEpoch = a.aotEpoch
  dynLockEpoch : b.dynLockEpoch = a.dynLockEpoch
  v3Epoch : b.v3Epoch = a.v3Epoch
  esdtEpoch : b.esdtEpoch = a.esdtEpoch
  warm : b.warm = a.warm
  logs : b.logs = a.logs
  messages : b.messages = a.messages

/-- what a driver returns when an operation got no answer: a critical error, no version, or nothing for operations that never return
anything -/
def NoAnswer : Returned → Prop
  | .ran (.critical _) | .critical | .panic | .nothing => True
  | .version v => v = []
  | _ => False

end Arwen.Spec
