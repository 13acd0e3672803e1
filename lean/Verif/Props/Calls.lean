import Verif.Host.Calls
import Verif.Spec.Calls
import Verif.Fixture
/-
C05, C17, C23: nested calls and the context of the caller.
-/
namespace Arwen.Props
open Arwen Arwen.Spec
variable {χ A : Type}

/-! ### C23 -/

theorem callerView_of_frame {s t : St χ A} (h : FrameOk s t) : callerView t = callerView s := by
  simp only [callerView, h.cur, h.inst, h.bc, h.big, h.stoStack, h.stoAddr, h.out, h.met, h.rt, h.insts]

/-- C23. A call on the context of the called contract: whatever the called contract does and however it ends, the caller's
context is back afterwards. -/
theorem c23_dest (E : Env χ A) (n : Nat) (i : CallInput) (s t : St χ A) (r : DestResult)
    (h : (execN E n).dest i s = (.ok r, t)) : callerView t = callerView s :=
  callerView_of_frame ((frameEx_execN E n).dest i s r t h)

/-- C23. A call on the context of the calling contract. -/
theorem c23_same (E : Env χ A) (n : Nat) (i : CallInput) (s t : St χ A) (r : Option Err)
    (h : (execN E n).same i s = (.ok r, t)) : callerView t = callerView s :=
  callerView_of_frame ((frameEx_execN E n).same i s r t h)

/-- the arguments and the function of the running call are kept by the steps of a contract -/
theorem stepA_input {E : Env χ A} {ex : Executor χ A} (hF : FrameEx ex) {s t : St χ A} (h : StepA E ex s t) :
    callerView t = callerView s := by
  have hf := h.frame hF
  have hi := h.inst_eq
  have hx : t.rt.cur.vmInput.args = s.rt.cur.vmInput.args ∧ t.rt.cur.callFunction = s.rt.cur.callFunction := by
    cases h with
    | dest _ i r h _ => rw [(hF.dest i _ r _ h).cur]; exact ⟨rfl, rfl⟩
    | same _ i r h _ => rw [(hF.same i _ r _ h).cur]; exact ⟨rfl, rfl⟩
    | undo u i r a ci h => have := (hF.dest i _ r _ h).cur; exact ⟨by show u.rt.cur.vmInput.args = _; rw [this], by show u.rt.cur.callFunction = _; rw [this]⟩
    | rt c hc => cases hc <;> exact ⟨rfl, rfl⟩
    | _ => exact ⟨rfl, rfl⟩
  simp only [callerView, hx, hi, hf.1.big, hf.1.stoStack, hf.1.stoAddr, hf.1.out, hf.1.met, hf.1.rt, hf.1.insts, hf.2.addr,
    hf.2.caller, hf.2.callValue, hf.2.bc]

/-- C23. Every function of the contract API, whatever nested calls, deployments or upgrades it makes, returns with the
context of the contract that called it. -/
theorem c23_api (E : Env χ A) (n : Nat) (a : A) (s t : St χ A) (r : Int64)
    (h : interp E (execN E n) (E.api a) s = (.ok r, t)) : callerView t = callerView s := by
  have hF := frameEx_execN E n
  exact ((sim_interp (E := E) hF.keeps (E.api a) (fun _ h => ⟨a, h⟩) s).ok h).rel (R := fun s t => callerView t = callerView s)
    (fun _ => rfl) (fun _ _ _ h1 h2 => h2.trans h1) (fun _ _ h => stepA_input hF h)

/-- C23. Running a whole contract function, with the asynchronous calls it has registered. -/
theorem c23_function (E : Env χ A) (n : Nat) (p : Prog A) (s t : St χ A) (r : Option Err)
    (h : callFunction E (execN E n) p s = (.ok r, t)) : callerView t = callerView s := by
  have hF := frameEx_execN E n
  exact ((sim_callFunction (E := E) hF.keeps p s).ok h).rel (R := fun s t => callerView t = callerView s)
    (fun _ => rfl) (fun _ _ _ h1 h2 => h2.trans h1) (fun _ _ h => stepA_input hF h)

/-- C23. Even when a nested call panics, the deferred clean-up gives back all stacks except the stack of snapshots. -/
theorem c23_panic (E : Env χ A) (n : Nat) (i : CallInput) (s t : St χ A) (h : (execN E n).dest i s = (.panic, t)) :
    t.sto.addr = s.sto.addr ∧ t.big.stack = s.big.stack ∧ t.sto.stack = s.sto.stack ∧ t.out.stack = s.out.stack ∧
    t.met.stack = s.met.stack ∧ t.rt.stack = s.rt.stack ∧ t.rt.instanceStack = s.rt.instanceStack := by
  have := (frameEx_execN E n).destPanic i s t h
  exact ⟨this.stoAddr, this.big, this.stoStack, this.out, this.met, this.rt, this.insts⟩

/-! ### C05 -/

theorem runH_big {E : Env χ A} {s t : St χ A} (h : Run (StepH E) s t) : t.big = s.big :=
  h.rel (R := fun s t => t.big = s.big) (fun _ => rfl) (fun _ _ _ h1 h2 => h2.trans h1) (fun _ _ h => by cases h <;> rfl)

theorem destOk_big {E : Env χ A} {ex : Executor χ A} (hF : FrameEx ex) {i : CallInput} {s t : St χ A} {r : DestResult}
    (h : DestOk E ex i s r t) : t.big = s.big := by
  cases h with
  | failed u e hr _ =>
    obtain ⟨o, m, ho⟩ := outputOnError_only (E := E) (St.bcPopSet E u) e
    rw [ho]
    show (St.bcPopSet E u).big = _
    rw [(bcPopSet_rest (E := E) u).2.2.1, runH_big hr]; rfl
  | builtin u o hr _ => show u.big = _; rw [runH_big hr]; rfl
  | called u w v j info e r hr hj hb hf =>
    have h1 := (finDest_left e info j u w v _ (bodyDest_frame hF hb).1 hf).1.big
    split
    · rw [(bcPopSet_rest (E := E) v).2.2.1, h1, runH_big hr]; rfl
    · show v.big = _; rw [h1, runH_big hr]; rfl

/-- C05. After a call on the context of another contract every handle of the caller has the value it had before. -/
theorem c05_values (E : Env χ A) (n : Nat) (i : CallInput) (s t : St χ A) (r : DestResult)
    (h : (execN E n).dest i s = (.ok r, t)) (k : Int32) : bigInt t k = bigInt s k := by
  cases n with
  | zero => simp [execN, M.oof] at h
  | succ n =>
    rcases execDest_any i s t _ h with ⟨a, ha, h⟩ | ⟨h, _⟩ | ⟨h, _⟩
    · unfold bigInt; rw [destOk_big (frameEx_execN E n) h]
    · simp at h
    · simp at h

/-- C05. The called contract starts without handles. -/
theorem c05_start (i : CallInput) (s : St χ A) (k : Int32) : bigInt (enterDestState i s) k = none := rfl

/-! ### C17 -/

/-- What a failed call must leave as it was: everything the transaction has produced so far, the caller's big integers, the
gas record of the caller, and (told to the node) the node's state. -/
structure NoTrace (E : Env χ A) (s t : St χ A) : Prop where
  effects : effects t = effects s
  bigInts : ∀ k, bigInt t k = bigInt s k
  gasRecord : t.met.cur = s.met.cur
  node : t.world = s.world ∨ ∃ w, t.world = E.hook.revert w (E.hook.snapshot s.world)

/-- C17, partial: a failed call of a contract on its own context leaves no trace. Missing: calls of built-in functions
(see `c17_builtin_neg`) and the set of updated codes kept outside the output (see `c17_code_neg`). -/
theorem c17_dest_partial (E : Env χ A) (n : Nat) (i : CallInput) (s t : St χ A) (r : DestResult) (hb : E.isBuiltin i.function = false)
    (h : (execN E n).dest i s = (.ok r, t)) (hfail : r.err ≠ none ∨ r.output.returnCode ≠ .ok) : NoTrace E s t := by
  cases n with
  | zero => simp [execN, M.oof] at h
  | succ n =>
    have hF := frameEx_execN E n
    rcases execDest_any i s t _ h with ⟨a, ha, h⟩ | ⟨h, _⟩ | ⟨h, _⟩
    · simp only [Res.ok.injEq] at ha
      subst ha
      have hbig := destOk_big hF h
      cases h with
      | failed u e hr hc => rw [hb] at hc; simp at hc
      | builtin u o hr hc => rw [hb] at hc; simp at hc
      | called u w v j info e r hr hj hbd hf =>
        obtain ⟨hl, hiff, _⟩ := finDest_left e info j u w v _ (bodyDest_frame hF hbd).1 hf
        obtain ⟨rfl, rfl⟩ := hj hb
        have hne : r.output.returnCode ≠ .ok := by
          rcases hfail with h | h
          · exact hiff.1 (by cases hx : r.err with | none => exact absurd hx h | some _ => rfl)
          · exact h
        rw [if_pos (hiff.2 hne)] at hbig ⊢
        obtain ⟨h1, h2⟩ := hl.failed hne
        refine ⟨?_, fun k => by unfold bigInt; rw [hbig], ?_, ?_⟩
        · unfold Spec.effects; rw [(bcPopSet_rest (E := E) v).1, h1]; rfl
        · rw [(bcPopSet_rest (E := E) v).2.1, h2]; rfl
        · have h5 := finDest_state e info w v _ hf
          obtain ⟨r', h5⟩ := h5
          have hbc : v.bcStack = E.hook.snapshot s.world :: s.bcStack := by
            rw [(finishDest_frame e j _ w v r' (bodyDest_frame hF hbd).1 h5).2.2.2.1, (bodyDest_frame hF hbd).2.bc]; rfl
          unfold St.bcPopSet
          rw [hbc]
          exact .inr ⟨_, rfl⟩
    · simp at h
    · simp at h

/-- C17, partial: a failed call on the caller's own context leaves no trace (with the same exception for updated codes). -/
theorem c17_same_partial (E : Env χ A) (n : Nat) (i : CallInput) (s t : St χ A) (e : Err)
    (h : (execN E n).same i s = (.ok (some e), t)) : NoTrace E s t := by
  cases n with
  | zero => simp [execN, M.oof] at h
  | succ n =>
    have hF := frameEx_execN E n
    rcases execSame_any i s t _ h with ⟨_, h, _⟩ | ⟨_, ⟨e', u, h1, h2⟩ | ⟨h, _⟩ | ⟨h, _⟩⟩
    · subst h; exact ⟨rfl, fun _ => rfl, rfl, .inl rfl⟩
    · rcases h2 with ⟨h2, h3⟩ | ⟨h2, _⟩
      · simp only [Res.ok.injEq] at h2
        subst h2
        have hb := ((sim_bodySame (E := E) hF.keeps _ _ (fresh_enterSame _ _)).ok h1).frame hF
        rw [finishSame_fail _ u (.inr rfl)] at h3
        simp only [Prod.mk.injEq, true_and] at h3
        subst h3
        have hbig := (popSame_frame i s u hb.1).1.2.2.2.2
        have hout : u.out.stack = s.out.cur :: s.out.stack := by
          have : u.out.stack = mergeOut {} s.out.cur :: s.out.stack := hb.1.out
          rw [this, mergeOut_empty]
        have hmet : u.met.stack = s.met.cur :: s.met.stack := hb.1.met
        have hrt : u.rt.stack = s.rt.cur :: s.rt.stack := hb.1.rt
        have hins : u.rt.instanceStack = s.rt.instance_ :: s.rt.instanceStack := hb.1.insts
        have hbc : u.bcStack = E.hook.snapshot s.world :: s.bcStack := by rw [hb.2.bc]; rfl
        obtain ⟨ins, he, _⟩ := rtPopSet_eq ({ u with big := u.big.popSet, met := u.met.popSet, out := u.out.popSet })
          s.rt.cur s.rt.stack s.rt.instance_ s.rt.instanceStack hrt hins
        refine ⟨?_, fun k => by unfold bigInt; rw [hbig], ?_, ?_⟩
        · unfold popSameFail Spec.effects
          rw [(bcPopSet_rest (E := E) _).1, he]
          simp only [OutCtx.popSet, hout]
        · unfold popSameFail
          rw [(bcPopSet_rest (E := E) _).2.1, he]
          simp only [MeterCtx.popSet, hmet]
        · unfold popSameFail
          rw [he]
          unfold St.bcPopSet
          dsimp only
          rw [hbc]
          exact .inr ⟨_, rfl⟩
      · simp at h2
    · simp at h
    · simp at h

/-! ### Examples and witnesses -/

section Witness
open Fixture

/-- 100 calls 101, which stores, logs, pays and fails, asynchronously; then the callback ends the transaction -/
def failEnv : Env World EeiCall := envWith [
  ([1], mod [(f, .call (.bigIntNew 7) fun _ => async (addr 101) f), (callbackName, log [9] .ret)]),
  ([2], mod [(f, put [1] [2] <| send (addr 1) 5 <| log [4] <| signal)])]
def failNode : World := node [(addr 100, contract [1]), (addr 101, contract [2] 50)]

/-- the failed call leaves no storage, balance or log behind, and the callback's log is there -/
example : codeOf (runTx failEnv 5 (callTx (addr 1) (addr 100) f) (hostLock failNode)) = some .ok ∧
    (Fixture.outputOf (runTx failEnv 5 (callTx (addr 1) (addr 100) f) (hostLock failNode))).logs.map LogEntry.data = [[9]] ∧
    ((Fixture.outputOf (runTx failEnv 5 (callTx (addr 1) (addr 100) f) (hostLock failNode))).accounts.get? (addr 101)).map
      (fun a => (a.storage.entries, a.balanceDelta)) = some ([], 0) := by decide +kernel

/-- a call in a running contract: it fails after storing, paying and logging -/
def failCall : CallInput := { vm := { caller := addr 100, gasProvided := 10000 }, recipient := addr 101, function := f }
def runningOn (w : World) : St World EeiCall := { running (gas := 100000) with world := w }

/-- the hypotheses of `c17_dest_partial`, `c23_dest` and `c05_values` are met by a failing call that did something -/
example : failEnv.isBuiltin failCall.function = false ∧
    (match (execN failEnv 3).dest failCall (runningOn failNode) with
     | (.ok r, _) => decide (r.err = some .signalError)
     | _ => false) = true := by decide +kernel
/-- and of `c17_same_partial` -/
example : (match (execN failEnv 3).same failCall (runningOn failNode) with
     | (.ok (some e), _) => decide (e = .transferInsufficientFunds ∨ e = .signalError)
     | _ => false) = true := by decide +kernel

/-- 100 calls 101 asynchronously; 101 upgrades 102 and fails; the callback then calls 102 -/
def codeEnv : Env World EeiCall := envWith [
  ([1], mod [(f, async (addr 101) f), (callbackName, callDest (addr 102) g 5000 .ret), (g, callDest (addr 102) g 5000 .ret)]),
  ([2], mod [(f, callDestArgs (addr 102) upgradeName [[4], [7, 0]] 2000 signal)]),
  ([3], mod [(g, .ret)]),
  ([4], mod [(initName, .ret), (g, .ret)])]
def codeNode : World := node [(addr 100, contract [1]), (addr 101, contract [2]), (addr 102, contract [3] 0 (addr 101))]

/-- C17 fails for the set of updated codes. The only upgrade of 102 is in a call that fails; still the output reports
code for 102 (its old code, with empty metadata and no deployer), while without that call it reports none. -/
theorem c17_code_neg :
    ((Fixture.outputOf (runTx codeEnv 5 (callTx (addr 1) (addr 100) f) (hostLock codeNode))).accounts.get? (addr 102)).map
      (fun a => (a.code, a.codeMetadata, a.deployer)) = some ([3], [], none) ∧
    ((Fixture.outputOf (runTx codeEnv 5 (callTx (addr 1) (addr 100) g) (hostLock codeNode))).accounts.get? (addr 102)).map
      (fun a => (a.code, a.codeMetadata, a.deployer)) = some ([], [], none) ∧
    codeOf (runTx codeEnv 5 (callTx (addr 1) (addr 100) f) (hostLock codeNode)) = some .ok ∧
    codeOf (runTx codeEnv 5 (callTx (addr 1) (addr 100) g) (hostLock codeNode)) = some .ok := by decide +kernel

/-- a node whose built-in function logs and asks for `f` to be run on the recipient -/
def builtinEnv : Env World EeiCall := { failEnv with hook := { hook with processBuiltIn := fun w i =>
  (.ok { out := {
    logs := [{ identifier := [8], address := i.vm.caller, topics := [], data := [] }]
    accounts := AMap.empty.insert i.recipient { transfers := [{ data := f, gasLimit := 5000 }] } } }, w) } }
def builtinCall : CallInput := { vm := { caller := addr 100, gasProvided := 10000 }, recipient := addr 101, function := [66, 73] }

/-- C17 fails for built-in functions: the call fails (the contract run after the built-in function signals an error), the
node is told to go back, but the log of the built-in function stays in the effects of the caller's transaction. -/
theorem c17_builtin_neg : ∃ (E : Env World EeiCall) (n : Nat) (i : CallInput) (s t : St World EeiCall) (r : DestResult),
    (execN E n).dest i s = (.ok r, t) ∧ r.err = some .signalError ∧ (Spec.effects s).logs = [] ∧
    (Spec.effects t).logs = [{ identifier := [8], address := addr 100, topics := [], data := [] }] := by
  have h : (match (execN builtinEnv 3).dest builtinCall (runningOn failNode) with
     | (.ok r, t) => decide (r.err = some .signalError ∧
        t.out.cur.logs = [{ identifier := [8], address := addr 100, topics := [], data := [] }])
     | _ => false) = true := by decide +kernel
  generalize hq : (execN builtinEnv 3).dest builtinCall (runningOn failNode) = q at h
  obtain ⟨r, t⟩ := q
  cases r with
  | ok r => exact ⟨_, _, _, _, t, r, hq, (of_decide_eq_true h).1, rfl, (of_decide_eq_true h).2⟩
  | panic => simp at h
  | oof => simp at h
end Witness

end Arwen.Props
