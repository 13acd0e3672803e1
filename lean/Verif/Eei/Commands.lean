import Verif.Eei.Api
import Verif.Host.Trace
/-
Which commands the API functions may issue.
-/
namespace Arwen
namespace Eei
variable {χ A : Type}

/-- every command issued on any path of the program satisfies `Q`, together with what follows it -/
def Only {α : Type} (Q : (c : Cmd) → (c.Resp → Free χ A α) → Prop) : Free χ A α → Prop
  | .pure _ => True
  | .panic => True
  | .ask k => ∀ s, Only Q (k s)
  | .op c k => Q c k ∧ ∀ r, Only Q (k r)

theorem Only.not_mayRun {α : Type} {Q : (c : Cmd) → (c.Resp → Free χ A α) → Prop} {c : Cmd} (hc : ∀ k, ¬ Q c k) :
    ∀ {p : Free χ A α}, Only Q p → ¬ MayRun c p
  | .pure _, _, h => h
  | .panic, _, h => h
  | .ask _, ho, ⟨s, h⟩ => Only.not_mayRun hc (ho s) h
  | .op _ _, ho, h => by
    rcases h with h | ⟨r, h⟩
    · subst h; exact hc _ ho.1
    · exact Only.not_mayRun hc (ho.2 r) h

theorem only_pure {α : Type} {Q : (c : Cmd) → (c.Resp → Free χ A α) → Prop} {a : α} : Only (χ := χ) (A := A) Q (.pure a) := trivial
theorem only_panic {α : Type} {Q : (c : Cmd) → (c.Resp → Free χ A α) → Prop} : Only (χ := χ) (A := A) (α := α) Q .panic := trivial
theorem only_ask {α : Type} {Q : (c : Cmd) → (c.Resp → Free χ A α) → Prop} {k : St χ A → Free χ A α} (h : ∀ s, Only Q (k s)) : Only Q (.ask k) := h
theorem only_op {α : Type} {Q : (c : Cmd) → (c.Resp → Free χ A α) → Prop} {c : Cmd} {k : c.Resp → Free χ A α} (hc : Q c k) (h : ∀ r, Only Q (k r)) :
    Only Q (.op c k) := ⟨hc, h⟩

variable {Q : (c : Cmd) → (c.Resp → P χ A) → Prop} (hg : ∀ n k, Q (.useGas n) k)
  (hf : ∀ e r, Q (.failExecution e) (fun _ => .pure r)) (hm : ∀ o d k, Q (.memStore o d) k)
include hg

theorem only_useK {g : St χ A → UInt64} {k : P χ A} (h : Only Q k) : Only Q (useK g k) := fun _ => ⟨hg _ _, fun _ => h⟩
theorem only_gasK {c : ApiCost} {k : P χ A} (h : Only Q k) : Only Q (gasK c k) := only_useK hg h
theorem only_copyK {n : UInt64} {k : P χ A} (h : Only Q k) : Only Q (copyK n k) := only_useK hg h
theorem only_persistK {n : UInt64} {k : P χ A} (h : Only Q k) : Only Q (persistK n k) := only_useK hg h
theorem only_extraK {l : List Int} {k : P χ A} (h : Only Q k) : Only Q (extraK l k) := by
  induction l with
  | nil => exact h
  | cons v vs ih =>
    unfold extraK
    split
    · exact only_useK hg ih
    · exact ih

include hf
theorem only_faultK {e : Err} {r : Int64} : Only Q (faultK (χ := χ) (A := A) e r) :=
  fun _ => ⟨hg _ _, fun _ => ⟨hf _ _, fun _ => trivial⟩⟩
theorem only_orFaultK {e : Option Err} {r : Int64} {k : P χ A} (h : Only Q k) : Only Q (orFaultK e r k) := by
  cases e with
  | some e => exact only_faultK hg hf
  | none => exact h
theorem only_statusK {r : StorageStatus × Option Err} : Only Q (statusK (χ := χ) (A := A) r) := only_orFaultK hg hf trivial
omit hg hf in
theorem only_loadEK {off len : Int32} {k : Except Err Bytes → P χ A} (h : ∀ r, Only Q (k r)) : Only Q (loadEK off len k) := by
  intro s
  dsimp only
  split
  · exact h _
  · trivial
theorem only_loadK {off len : Int32} {ret : Int64} {k : Bytes → P χ A} (h : ∀ r, Only Q (k r)) : Only Q (loadK off len ret k) :=
  only_loadEK fun r => match r with
    | .error _ => only_faultK hg hf
    | .ok b => h b
omit hg hf in
theorem only_argsEK {num lo o : Int32} {k : Except Err (List Bytes × Int32) → P χ A} (h : ∀ r, Only Q (k r)) :
    Only Q (argsEK num lo o k) := by
  intro s
  dsimp only
  split
  · exact h _
  · trivial
theorem only_argsGasK {num lo o : Int32} {ret : Int64} {k : List Bytes → P χ A} (h : ∀ r, Only Q (k r)) :
    Only Q (argsGasK num lo o ret k) :=
  only_argsEK fun r => match r with
    | .error _ => only_copyK hg (only_faultK hg hf)
    | .ok (a, _) => only_copyK hg (h a)
theorem only_extractK {d : Int32} {v : Option Int32} {fo fl num lo o : Int32} {k : CallArgs → P χ A} (h : ∀ r, Only Q (k r)) :
    Only Q (extractK d v fo fl num lo o k) := by
  unfold extractK
  apply only_loadK hg hf
  intro dest
  have rest : ∀ value : Int, Only Q (loadK (χ := χ) (A := A) fo fl 1 fun f =>
      argsEK num lo o fun r =>
        match r with
        | .error _ => copyK 0 (k ⟨dest, value, f, [], 0⟩)
        | .ok (args, n) => copyK (len64 n) (k ⟨dest, value, f, args, n⟩)) := by
    intro value
    apply only_loadK hg hf
    intro f
    apply only_argsEK
    intro r
    match r with
    | .error _ => exact only_copyK hg (h _)
    | .ok (a, n) => exact only_copyK hg (h _)
  cases v with
  | none => exact rest 0
  | some v =>
    apply only_loadK hg hf
    intro vb
    exact rest _
include hm
theorem only_storeK {off : Int32} {d : Bytes} {ret : Int64} {k : P χ A} (h : Only Q k) : Only Q (storeK off d ret k) :=
  ⟨hm _ _ _, fun _ => only_orFaultK hg hf h⟩
theorem only_storeEndK {off : Int32} {d : Bytes} : Only Q (storeEndK (χ := χ) (A := A) off d) := only_storeK hg hf hm trivial
omit hg hf hm

end Eei

/-- What a command can do beyond spending gas, writing the caller's memory and failing the execution. -/
inductive Power
  | userError | async | group | readChain | readStorage | writeStorage | output | transfer | bigInt | call | readOnly | create | revert
  deriving DecidableEq, Repr

/-- the power used by a command -/
def Cmd.power : Cmd → Option Power
  | .useGas _ => none
  | .memStore _ _ => none
  | .failExecution _ => none
  | .outOfGas => none
  | .signalUserError _ => some .userError
  | .executeAsyncCall _ _ _ => some .async
  | .addAsyncContextCall _ _ => some .group
  | .setAsyncContextCallback _ _ => some .group
  | .getBalance _ => some .readChain
  | .getCode _ => some .readChain
  | .getStorage _ => some .readStorage
  | .getStorageUnmetered _ => some .readStorage
  | .getStorageFromAddress _ _ => some .readStorage
  | .setStorage _ _ => some .writeStorage
  | .setTimeLock _ _ => some .writeStorage
  | .finish _ => some .output
  | .writeLog _ _ _ => some .output
  | .transfer .. => some .transfer
  | .transferESDT .. => some .transfer
  | .bigGet _ => some .bigInt
  | .bigSet _ _ => some .bigInt
  | .bigPut _ => some .bigInt
  | .executeOnDest _ => some .call
  | .executeOnSame _ => some .call
  | .executeReadOnly _ => some .readOnly
  | .createContract _ => some .create
  | .revertSnapshot _ => some .revert

/-- the powers of the API functions -/
def EeiCall.powers : EeiCall → List Power
  | .signalError _ _ => [.userError]
  | .getExternalBalance _ _ => [.readChain]
  | .getESDTTokenData _ _ _ _ _ => [.bigInt]
  | .transferValue _ _ _ _ => [.transfer]
  | .transferValueExecute _ _ _ _ _ _ _ _ => [.transfer, .call]
  | .transferESDTExecute _ _ _ _ _ _ _ _ _ _ => [.transfer, .call, .revert]
  | .transferESDTNFTExecute _ _ _ _ _ _ _ _ _ _ _ => [.transfer, .call, .revert]
  | .createAsyncCall _ _ _ _ _ _ _ _ _ _ _ => [.group]
  | .setAsyncContextCallback _ _ _ _ => [.group]
  | .upgradeContract _ _ _ _ _ _ _ _ _ => [.async]
  | .upgradeFromSourceContract _ _ _ _ _ _ _ _ => [.async, .readChain]
  | .asyncCall _ _ _ _ => [.async]
  | .storageStore _ _ _ _ => [.writeStorage]
  | .storageLoadLength _ _ => [.readStorage]
  | .storageLoadFromAddress _ _ _ _ => [.readStorage]
  | .storageLoad _ _ _ => [.readStorage]
  | .setStorageLock _ _ _ => [.writeStorage]
  | .getStorageLock _ _ => [.readStorage]
  | .isStorageLocked _ _ => [.readStorage]
  | .clearStorageLock _ _ => [.writeStorage]
  | .getCurrentESDTNFTNonce _ _ _ => [.readStorage]
  | .writeLog _ _ _ _ => [.output]
  | .writeEventLog _ _ _ _ _ => [.output]
  | .finish _ _ => [.output]
  | .executeOnSameContext _ _ _ _ _ _ _ _ => [.call]
  | .executeOnDestContext _ _ _ _ _ _ _ _ => [.call]
  | .executeOnDestContextByCaller _ _ _ _ _ _ _ _ => [.call]
  | .delegateExecution _ _ _ _ _ _ _ => [.call]
  | .executeReadOnly _ _ _ _ _ _ _ => [.readOnly]
  | .createContract _ _ _ _ _ _ _ _ _ => [.create]
  | .deployFromSourceContract _ _ _ _ _ _ _ _ => [.create, .readChain]
  | .bigIntNew _ => [.bigInt]
  | .bigIntByteLength _ _ => [.bigInt]
  | .bigIntGetBytes _ _ _ => [.bigInt]
  | .bigIntSetBytes _ _ _ _ => [.bigInt]
  | .bigIntIsInt64 _ => [.bigInt]
  | .bigIntGetInt64 _ => [.bigInt]
  | .bigIntSetInt64 _ _ => [.bigInt]
  | .bigIntBin _ _ _ _ => [.bigInt]
  | .bigIntUn _ _ _ => [.bigInt]
  | .bigIntShift _ _ _ _ => [.bigInt]
  | .bigIntSign _ => [.bigInt]
  | .bigIntCmp _ _ => [.bigInt]
  | .bigIntFinish _ _ => [.bigInt, .output]
  | .bigIntGetArgument _ _ _ => [.bigInt]
  | .bigIntStorageStoreUnsigned _ _ _ => [.bigInt, .writeStorage]
  | .bigIntStorageLoadUnsigned _ _ _ => [.bigInt, .readStorage]
  | .bigIntGetCallValue _ => [.bigInt]
  | .bigIntGetESDTCallValue _ => [.bigInt]
  | .bigIntGetExternalBalance _ _ => [.bigInt, .readChain]
  | .bigIntGetESDTExternalBalance _ _ _ _ _ => [.bigInt]
  | .smallIntFinish _ _ => [.output]
  | .smallIntStorageStore _ _ _ _ => [.writeStorage]
  | .smallIntStorageLoad _ _ _ => [.readStorage]
  | .int64finish _ => [.output]
  | .int64storageStore _ _ _ => [.writeStorage]
  | .int64storageLoad _ _ => [.readStorage]
  | _ => []

/-- the command uses no power, or one of the list -/
def Cmd.Within (l : List Power) (c : Cmd) : Prop := ∀ p, c.power = some p → p ∈ l

namespace Eei

/-- commands that fail the execution -/
def _root_.Arwen.Cmd.fails : Cmd → Bool
  | .failExecution _ => true
  | .signalUserError _ => true
  | .outOfGas => true
  | _ => false

/-- calls that do not allow a constructor to be run -/
def _root_.Arwen.Cmd.noInit : Cmd → Bool
  | .executeOnDest i => !i.allowInit
  | .executeOnSame i => !i.allowInit
  | .executeReadOnly i => !i.allowInit
  | _ => true

/-- the command only charges gas -/
def Charge (c : Cmd) (_ : c.Resp → P χ A) : Prop := ∃ n, c = .useGas n

/-- the program uses no other powers, never allows a constructor to be run, and only charges gas after it has failed the execution -/
def Proper (l : List Power) (c : Cmd) (k : c.Resp → P χ A) : Prop :=
  c.Within l ∧ (c.fails = true → ∀ r, Only Charge (k r)) ∧ c.noInit = true

theorem within_none {l : List Power} {c : Cmd} (h : c.power = none) : c.Within l := by
  intro p hp; rw [h] at hp; cases hp
theorem within_some {l : List Power} {c : Cmd} {p : Power} (h : c.power = some p) (hl : p ∈ l) : c.Within l := by
  intro q hq; rw [h] at hq; cases hq; exact hl

theorem proper_none {l : List Power} {c : Cmd} {k : c.Resp → P χ A} (h : c.power = none) (hf : c.fails = false)
    (hn : c.noInit = true := by rfl) : Proper l c k :=
  ⟨within_none h, fun h => by (rw [hf] at h; cases h), hn⟩
theorem proper_some {l : List Power} {c : Cmd} {k : c.Resp → P χ A} {p : Power} (h : c.power = some p) (hl : p ∈ l)
    (hf : c.fails = false) (hn : c.noInit = true := by rfl) : Proper l c k :=
  ⟨within_some h hl, fun h => by (rw [hf] at h; cases h), hn⟩
theorem proper_gas {l : List Power} {n : UInt64} {k : (Cmd.useGas n).Resp → P χ A} : Proper l (.useGas n) k := proper_none rfl rfl
theorem proper_mem {l : List Power} {o : Int32} {d : Bytes} {k : (Cmd.memStore o d).Resp → P χ A} : Proper l (.memStore o d) k :=
  proper_none rfl rfl
theorem proper_fail {l : List Power} {e : Err} {a : Int64} : Proper (χ := χ) (A := A) l (.failExecution e) (fun _ => .pure a) :=
  ⟨within_none rfl, fun _ _ => trivial, rfl⟩
theorem proper_locked {l : List Power} {e : Err} {c : ApiCost} {f : St χ A → Int64} :
    Proper l (.failExecution e) (fun _ => gasK c (.ask fun s => .pure (f s))) :=
  ⟨within_none rfl, fun _ _ => only_gasK (fun n _ => ⟨n, rfl⟩) (fun _ => trivial), rfl⟩
theorem proper_outOfGas {l : List Power} {a : Int64} : Proper (χ := χ) (A := A) l .outOfGas (fun _ => .pure a) :=
  ⟨within_none rfl, fun _ _ => trivial, rfl⟩
theorem proper_signal {l : List Power} {m : Bytes} {a : Int64} (h : .userError ∈ l) :
    Proper (χ := χ) (A := A) l (.signalUserError m) (fun _ => .pure a) := ⟨within_some rfl h, fun _ _ => trivial, rfl⟩

theorem only_topicsK {l : List Power} {n : Nat} {off : Int32} {k : List Bytes → P χ A} (h : ∀ ts, Only (Proper l) (k ts)) :
    Only (Proper l) (topicsK n off k) := by
  induction n generalizing off k with
  | zero => exact h []
  | succ n ih =>
    exact only_loadK (fun _ _ => proper_gas) (fun _ _ => proper_fail) fun t => ih fun ts => h (t :: ts)

macro "only_step" : tactic => `(tactic| first
  | with_reducible exact only_pure
  | with_reducible exact only_panic
  | with_reducible apply only_ask
  | with_reducible apply only_op
  | exact proper_none rfl rfl
  | exact proper_some rfl (by decide) rfl
  | exact proper_outOfGas
  | exact proper_locked
  | exact proper_signal (by decide)
  | with_reducible apply only_gasK (fun _ _ => proper_gas)
  | with_reducible apply only_copyK (fun _ _ => proper_gas)
  | with_reducible apply only_persistK (fun _ _ => proper_gas)
  | with_reducible apply only_extraK (fun _ _ => proper_gas)
  | with_reducible apply only_useK (fun _ _ => proper_gas)
  | with_reducible apply only_faultK (fun _ _ => proper_gas) (fun _ _ => proper_fail)
  | with_reducible apply only_orFaultK (fun _ _ => proper_gas) (fun _ _ => proper_fail)
  | with_reducible apply only_loadK (fun _ _ => proper_gas) (fun _ _ => proper_fail)
  | with_reducible apply only_loadEK
  | with_reducible apply only_argsEK
  | with_reducible apply only_argsGasK (fun _ _ => proper_gas) (fun _ _ => proper_fail)
  | with_reducible apply only_extractK (fun _ _ => proper_gas) (fun _ _ => proper_fail)
  | with_reducible apply only_storeK (fun _ _ => proper_gas) (fun _ _ => proper_fail) (fun _ _ _ => proper_mem)
  | with_reducible apply only_storeEndK (fun _ _ => proper_gas) (fun _ _ => proper_fail) (fun _ _ _ => proper_mem)
  | with_reducible apply only_topicsK
  | split
  | (intro _; try dsimp only)
  | refine only_op ?_ ?_
  | apply only_statusK (fun _ _ => proper_gas) (fun _ _ => proper_fail)
  | apply only_orFaultK (fun _ _ => proper_gas) (fun _ _ => proper_fail))

theorem proper_smallStorageLoad {signed : Bool} {k kl : Int32} :
    Only (Proper [.readStorage]) (smallStorageLoad (χ := χ) (A := A) signed k kl) := by
  unfold smallStorageLoad
  repeat' only_step

set_option maxHeartbeats 2000000 in
/-- Every API function issues only commands within its powers, never allows a constructor to be run, and only charges gas
once it has failed the execution. -/
theorem eei_proper (E : Env χ A) (a : EeiCall) : Only (Proper a.powers) (eei E a) := by
  cases a <;> dsimp only [eei, EeiCall.powers,
    getGasLeft, getSCAddress, getOwnerAddress, getShardOfAddress, isSmartContract, signalError, getExternalBalance,
    getBlockHash, esdtDataK, getESDTBalance, getESDTNFTNameLength, getESDTNFTAttributeLength, getESDTNFTURILength,
    getESDTTokenData, transferValue, transferValueExecute, transferESDTOld, transferESDTNFTExecute, createAsyncCall,
    setAsyncContextCallback, upgradeAsyncK, upgradeContract, upgradeFromSourceContract, asyncCall, getArgumentLength,
    getArgument, getFunction, getNumArguments, storageStore, storageLoadLength, storageLoadFromAddress,
    storageLoad, setStorageLock, getStorageLockK, getStorageLock, isStorageLocked, getCaller, checkNoPayment,
    getCallValue, getESDTValue, getESDTTokenName, getESDTTokenNonce, getCurrentESDTNFTNonce, getESDTTokenType,
    getCallValueTokenName, writeEventLog, finish, blockTimestamp, blockNonce, blockRound, blockEpoch, blockRandomSeed,
    stateRootHash, prevBlockTimestamp, prevBlockNonce, prevBlockRound, prevBlockEpoch, prevBlockRandomSeed,
    originalTxHash,  execTyped, exec, createK, createContract, deployFromSourceContract, getNumReturnData,
    getReturnDataSize, getReturnData, binK, unK, shiftK, bigSign, bigCmp, putK, bigGetArgument, bigStorageStore,
    bigStorageLoad, bigGetCallValue, bigGetESDTCallValue, bigGetExternalBalance, bigGetESDTExternalBalance, bigNew,
    bigByteLength, bigGetBytes, bigSetBytes, bigIsInt64, bigGetInt64, bigSetInt64, bigFinish, smallGetArgument,
    smallFinish, smallStorageStore, hash, writeLog, verifyBLS, verifyEd25519, verifySecp256k1, ExecKind.run,
    ExecKind.cost] <;>
    first | exact proper_smallStorageLoad | (repeat' only_step)

end Eei
end Arwen

namespace Arwen
variable {χ : Type}

/-- The environment whose API offers only the functions without any of the given powers (the others trap). -/
def Env.without (E : Env χ EeiCall) (l : List Power) : Env χ EeiCall :=
  { E with api := fun a => if a.powers.any (fun p => l.contains p) then .panic else eei E a }

theorem not_runs_without {E : Env χ EeiCall} {l : List Power} {c : Cmd} {p : Power} (hp : c.power = some p) (hl : p ∈ l) :
    ¬ ApiRuns (E.without l) c := by
  rintro ⟨a, h⟩
  have h : MayRun c (if a.powers.any (fun p => l.contains p) then .panic else eei E a) := h
  split at h
  · exact h
  · rename_i hn
    refine Eei.Only.not_mayRun ?_ (Eei.eei_proper E a) h
    intro _ ⟨hw, _, _⟩
    exact hn (List.any_eq_true.mpr ⟨p, hw p hp, by simpa using hl⟩)

theorem noCreate_without {E : Env χ EeiCall} {l : List Power} (hl : .create ∈ l) : NoCreateApi (E.without l) :=
  fun _ => not_runs_without rfl hl
theorem noReadOnly_without {E : Env χ EeiCall} {l : List Power} (hl : .readOnly ∈ l) : NoReadOnlyApi (E.without l) :=
  fun _ => not_runs_without rfl hl
theorem noGroups_without {E : Env χ EeiCall} {l : List Power} (hl : .group ∈ l) : NoGroupApi (E.without l) := by
  rintro ⟨_, ⟨_, h⟩ | ⟨_, h⟩⟩ <;> exact not_runs_without rfl hl h

end Arwen
