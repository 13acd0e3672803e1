import Verif.Host.SimCall
/-
Contract storage, as a user thinks of it.
-/
namespace Arwen.Spec
variable {χ A : Type}

/-- the update pending in an output, if any -/
def pending (o : VMOutput) (a : Addr) (k : Bytes) : Option Bytes := (o.accounts.get? a).bind (fun acc => acc.storage.get? k)

/-- The value stored at address `a` under key `k`: the pending update of this execution, or else the value on the chain. -/
def view (E : Env χ A) (s : St χ A) (a : Addr) (k : Bytes) : Bytes := (pending s.out.cur a k).getD (E.hook.storageData s.world a k)

/-! ### A store with nested transactions -/

/-- the contents of the storage of all contracts -/
abbrev Contents := Addr → Bytes → Bytes

/-- one entry replaced -/
def Contents.set (m : Contents) (a : Addr) (k v : Bytes) : Contents := fun a' k' => if a' = a ∧ k' = k then v else m a' k'

/-- A store with nested transactions: contents and executing contract, and for each open call those of its caller. -/
structure TStore where
  contents : Contents
  addr : Addr
  callers : List (Contents × Addr) := []

/-- what a contract does to storage and sees of it -/
inductive Event
  /-- a load answered `v` -/
  | load (k v : Bytes)
  /-- a load from another contract's storage answered `v` -/
  | loadFrom (a : Addr) (k v : Bytes)
  | store (k v : Bytes)
  /-- a store that was refused -/
  | refused (k v : Bytes)
  /-- a call of another contract -/
  | call (a : Addr)
  /-- the called contract returns, successfully or not -/
  | ret (ok : Bool)

/-- One event on the store: loads must be answered with the contents, a failed call undoes what it stored. -/
def TStore.Step (t : TStore) : Event → TStore → Prop
  | .load k v, t' => v = t.contents t.addr k ∧ t' = t
  | .loadFrom a k v, t' => v = t.contents a k ∧ t' = t
  | .store k v, t' => t' = { t with contents := t.contents.set t.addr k v }
  | .refused _ _, t' => t' = t
  | .call a, t' => t' = { contents := t.contents, addr := a, callers := (t.contents, t.addr) :: t.callers }
  | .ret ok, t' =>
    match t.callers with
    | [] => False
    | (m, a) :: rest => t' = { contents := if ok then t.contents else m, addr := a, callers := rest }

/-- a sequence of events on the store -/
def TStore.Steps : TStore → List Event → TStore → Prop
  | t, [], t' => t' = t
  | t, e :: es, t' => ∃ u, t.Step e u ∧ u.Steps es t'

/-! ### What happens in the host -/

/-- the chain holds the same storage in both states of the node -/
def SameChain (E : Env χ A) (s t : St χ A) : Prop := ∀ a k, E.hook.storageData t.world a k = E.hook.storageData s.world a k

/-- What happens to storage while contracts run, with the open calls: `true` for a call on the destination's own context,
`false` for one on the caller's context. Built-in functions of the node are left out: they change the chain. -/
inductive Happens (E : Env χ A) : List Bool → St χ A → Option Event → List Bool → St χ A → Prop
  | load (ks : List Bool) (s t : St χ A) (k v : Bytes) : getStorage E k s = (.ok v, t) → Happens E ks s (some (.load k v)) ks t
  | loadFrom (ks : List Bool) (s t : St χ A) (a : Addr) (k v : Bytes) : storageReadable E s a = true → isReservedKey E k = false →
      getStorageFromAddress E a k s = (.ok v, t) → Happens E ks s (some (.loadFrom a k v)) ks t
  /-- loads that are not allowed, or that go straight to the chain -/
  | blocked (ks : List Bool) (s t : St χ A) (a : Addr) (k v : Bytes) : storageReadable E s a = false ∨ isReservedKey E k = true →
      getStorageFromAddress E a k s = (.ok v, t) → Happens E ks s none ks t
  | store (ks : List Bool) (s t : St χ A) (k v : Bytes) (st : StorageStatus) : s.rt.cur.readOnly = false →
      setStorage E k v s = (.ok (st, none), t) → Happens E ks s (some (.store k v)) ks t
  /-- a store with an error or in read-only mode -/
  | refused (ks : List Bool) (s t : St χ A) (k v : Bytes) (st : StorageStatus) (e : Option Err) :
      s.rt.cur.readOnly = true ∨ e ≠ none → setStorage E k v s = (.ok (st, e), t) → Happens E ks s (some (.refused k v)) ks t
  /-- a store by the host itself -/
  | lock (ks : List Bool) (s t : St χ A) (k v : Bytes) (st : StorageStatus) : s.rt.cur.readOnly = false → s.sto.protect = true →
      setProtectedStorage E k v s = (.ok (st, none), t) → Happens E ks s (some (.store k v)) ks t
  | call (ks : List Bool) (s t : St χ A) (i i' : CallInput) : enterDest i s = (.ok i', t) →
      Happens E ks s (some (.call i.recipient)) (true :: ks) t
  | callSame (ks : List Bool) (s t : St χ A) (i i' : CallInput) : enterSame E i s = (.ok i', t) →
      Happens E ks s (some (.call s.sto.addr)) (false :: ks) t
  | ret (ks : List Bool) (s t : St χ A) (e : Option Err) (out : VMOutput) : finishDest E e s = (.ok out, t) →
      Happens E (true :: ks) s (some (.ret (out.returnCode = .ok))) ks t
  | retSame (ks : List Bool) (s t : St χ A) (e : Option Err) : finishSame E e s = (.ok (), t) → SameChain E s t →
      Happens E (false :: ks) s (some (.ret (s.out.cur.returnCode = .ok ∧ e = none))) ks t
  /-- a small step of the host that is a store to the executing contract's storage -/
  | write (ks : List Bool) (s t : St χ A) (k v : Bytes) : StepB E Executor.halt s t → t.world = s.world →
      (∀ a l, pending t.out.cur a l = if a = s.sto.addr ∧ l = k then some v else pending s.out.cur a l) →
      Happens E ks s (some (.store k v)) ks t
  /-- a change elsewhere: of the node other than of its storage, of gas records, of snapshots -/
  | elsewhere (ks : List Bool) (s t : St χ A) : t.sto.addr = s.sto.addr → t.sto.stack = s.sto.stack → t.out.stack = s.out.stack →
      (∀ a k, pending t.out.cur a k = pending s.out.cur a k) → SameChain E s t → Happens E ks s none ks t
  /-- any other step of the host that does not store for the executing contract, drops no update and leaves the chain alone -/
  | other (ks : List Bool) (s t : St χ A) : StepB E Executor.halt s t → SameChain E s t →
      (∀ a k, (pending s.out.cur a k).isSome → (pending t.out.cur a k).isSome) →
      (∀ k, view E t s.sto.addr k = view E s s.sto.addr k) → Happens E ks s none ks t

/-- sequences of what happens, with the storage events in order -/
inductive Hist (E : Env χ A) : List Bool → St χ A → List Event → List Bool → St χ A → Prop
  | nil (ks : List Bool) (s : St χ A) : Hist E ks s [] ks s
  | cons {ks ks1 ks2 : List Bool} {s t u : St χ A} {e : Option Event} {es : List Event} : Happens E ks s e ks1 t →
      Hist E ks1 t es ks2 u → Hist E ks s (e.toList ++ es) ks2 u

/-- A node that does not touch contract storage while a transaction runs, and an API without deployments. -/
structure QuietNode (E : Env χ A) : Prop where
  builtin : ∀ w i a k, E.hook.storageData (E.hook.processBuiltIn w i).2 a k = E.hook.storageData w a k
  revert : ∀ w n a k, E.hook.storageData (E.hook.revert w n) a k = E.hook.storageData w a k
  saveCompiled : ∀ w h c a k, E.hook.storageData (E.hook.saveCompiled w h c) a k = E.hook.storageData w a k
  noUpdates : ∀ w i b, (E.hook.processBuiltIn w i).1 = .ok b → ∀ a k, pending b.out a k = none
  noCreate : NoCreateApi E

/-! ### Prices of a store -/

/-- the reported status -/
def storeStatus (old new : Bytes) : StorageStatus :=
  if old = new then .unchanged else if old = [] then .added else if new = [] then .deleted else .modified

/-- price of a key: the bytes beyond the length of an address are copied -/
def keyCost (g : GasSchedule) (key : Bytes) : Nat := g.dataCopyPerByte.toNat * (key.length - 32)

/-- price of replacing `old` by `new` -/
def storeCost (g : GasSchedule) (old new : Bytes) : Nat :=
  if old = new then g.dataCopyPerByte.toNat * new.length
  else if old = [] then g.storePerByte.toNat * new.length
  else if new = [] then 0
  else if old.length < new.length then g.persistPerByte.toNat * old.length + g.storePerByte.toNat * (new.length - old.length)
  else if new.length < old.length then g.persistPerByte.toNat * new.length
  else 0

/-- refund for the bytes released -/
def storeRefund (g : GasSchedule) (old new : Bytes) : Nat :=
  if old = new then 0 else g.releasePerByte.toNat * (old.length - new.length)

/-! ### Values of the node -/

/-- states of the node that a run can lead to: by its built-in functions, by going back to a snapshot, by keeping compiled code -/
inductive Reached (E : Env χ A) (w0 : χ) : χ → Prop
  | start : Reached E w0 w0
  | builtin (w : χ) (i : CallInput) : Reached E w0 w → Reached E w0 (E.hook.processBuiltIn w i).2
  | revert (w : χ) (n : Int) : Reached E w0 w → Reached E w0 (E.hook.revert w n)
  | saveCompiled (w : χ) (h c : Bytes) : Reached E w0 w → Reached E w0 (E.hook.saveCompiled w h c)

/-- an address that the node may hand out for a new contract during a run starting in `w0`, although no account exists there -/
def Deployable (E : Env χ A) (w0 : χ) (a : Addr) : Prop :=
  ∃ w c n, Reached E w0 w ∧ E.hook.newAddress w c n E.vmType = .ok a ∧ ∀ ua, E.hook.userAccount w a ≠ .ok (some ua)

/-- The value comes from the node: it is on the chain in a state that a run starting in `w0` can lead to, or one of the node's
built-in functions reported it there. -/
def FromNode (E : Env χ A) (w0 : χ) (a : Addr) (k v : Bytes) : Prop :=
  (∃ w, Reached E w0 w ∧ v = E.hook.storageData w a k) ∨
  (∃ w i b, Reached E w0 w ∧ (E.hook.processBuiltIn w i).1 = .ok b ∧ pending b.out a k = some v)

/-- the bytes `ARWEN@` -/
def arwenPrefix : Bytes := "ARWEN@".toUTF8.data.toList
/-- the name of a time lock or of a list of pending asynchronous calls: the bytes `ARWEN@TIMELOCK` or `ARWEN@ASYNC` at its end -/
def IsHostKey (k : Bytes) : Prop := ∃ a, k = a ++ "ARWEN@TIMELOCK".toUTF8.data.toList ∨ k = a ++ "ARWEN@ASYNC".toUTF8.data.toList

/-- Keys that contracts must not write: with the prefix of the protocol, or with the prefix `ARWEN@` unless the host itself keeps
its locks and lists there. -/
def Guarded (E : Env χ A) (k : Bytes) : Prop := E.elrondPrefix <+: k ∨ (arwenPrefix <+: k ∧ ¬ IsHostKey k)

end Arwen.Spec
