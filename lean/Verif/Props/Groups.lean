import Verif.Props.Async
/-
C29 for groups of asynchronous calls.
-/
namespace Arwen.Props
open Arwen Arwen.Spec
variable {χ A : Type} {E : Env χ A}

theorem fold_pending (l : List (Bytes × AsyncContext)) (m : AMap Bytes AsyncContext) :
    (l.foldl (fun m p =>
      let calls := p.2.calls.filter (fun c => c.status = .pending)
      if calls = [] then m else m.insert p.1 { callback := p.2.callback, calls := calls }) m).size = 0 ↔
    m.size = 0 ∧ ∀ p ∈ l, ∀ x ∈ p.2.calls, x.status ≠ .pending := by
  induction l generalizing m with
  | nil => simp
  | cons p l ih =>
    rw [List.foldl_cons, ih]
    dsimp only
    by_cases h : p.2.calls.filter (fun c => c.status = .pending) = []
    · rw [if_pos h]
      have : ∀ x ∈ p.2.calls, x.status ≠ .pending := by simpa [List.filter_eq_nil_iff] using h
      simp only [List.mem_cons, forall_eq_or_imp]
      exact ⟨fun ⟨a, b⟩ => ⟨a, this, b⟩, fun ⟨a, _, b⟩ => ⟨a, b⟩⟩
    · rw [if_neg h]
      refine ⟨fun ⟨a, _⟩ => ?_, fun ⟨_, b⟩ => ?_⟩
      · exfalso
        unfold AMap.size AMap.insert at a
        have := (AMap.insertL_keys p.1 { callback := p.2.callback, calls := p.2.calls.filter (fun c => c.status = .pending) } m.entries p.1).mpr (.inl rfl)
        have a := List.length_eq_zero_iff.mp a
        dsimp only at a
        rw [a] at this
        simp at this
      · exact absurd (by simpa [List.filter_eq_nil_iff] using b p (.head _)) h

theorem pendingCalls_none (info : AsyncContextInfo) :
    (pendingCalls info).contexts.size = 0 ↔ ∀ x ∈ allCalls info, x.status ≠ .pending := by
  unfold pendingCalls allCalls
  rw [fold_pending]
  constructor
  · rintro ⟨_, h⟩ x hx
    obtain ⟨p, hp, hx⟩ := List.mem_flatMap.mp hx
    exact h p hp x hx
  · intro h
    exact ⟨rfl, fun p hp x hx => h x (List.mem_flatMap.mpr ⟨p, hp, hx⟩)⟩

theorem callbackInput_tells {s : St χ A} {o : VMOutput} {dst : Addr} {cb : Bytes} {e : Option Err} {i : CallInput}
    (h : callbackInput s 0 o dst cb e = .ok i) : TellsOutcome s o e dst cb i := by
  have ha := callbackArgs_eq o e
  have ht := fun f targs (ht : esdtReturn o e = some (f, targs)) => c29_tokens s 0 o dst cb e i ht h
  have hg : ∀ g use : UInt64, ¬ g ≤ use → (g - use).toNat ≤ g.toNat := by
    intro g use hn
    rw [UInt64.le_iff_toNat_le] at hn
    have : use.toNat ≤ g.toNat := by omega
    rw [UInt64.toNat_sub_of_le _ _ (UInt64.le_iff_toNat_le.mpr this)]
    omega
  have h0 : o.gasRemaining + 0 = o.gasRemaining := UInt64.add_zero _
  unfold callbackInput at h
  rw [h0] at h
  generalize callbackArgs o e = q at h ha
  obtain ⟨args, failed⟩ := q
  dsimp only at h ha
  split at h
  · cases h
  · rename_i hn
    have hn := hg _ _ hn
    split at h <;> cases h
    · rename_i he
      exact ⟨rfl, rfl, rfl, hn, fun _ => ⟨rfl, ha⟩, fun f targs ht => by rw [he] at ht; cases ht⟩
    · rename_i f targs he
      exact ⟨rfl, rfl, rfl, hn, fun hh => (by rw [he] at hh; cases hh), fun f' t' hh => ⟨(ht f' t' hh).1, (ht f' t' hh).2.1⟩⟩

/-- **C29**, one call of a group: see `CallRound`. -/
theorem c29_one (ex : Executor χ A) {c c' : AsyncGeneratedCall} {s t : St χ A} (h : processAsyncCall E ex c s = (.ok (c', none), t)) :
    CallRound E ex c s c' t := by
  unfold processAsyncCall at h
  rw [get_bind] at h
  cases hd : destinationInput s c.view with
  | none => rw [hd] at h; cases h
  | some d =>
    rw [hd] at h
    rcases bind_ok h with ⟨r, u, h1, h⟩ | ⟨_, h⟩ | ⟨_, h⟩
    · cases hm : r.asyncInfo with
      | none => rw [hm] at h; cases h
      | some m =>
        rw [hm] at h
        dsimp only at h
        have hd' : d.recipient = c.destination ∧ parseCallData c.data = some (d.function, d.vm.args) ∧ d.vm.caller = s.rt.cur.scAddress ∧
            d.vm.callValue = (bytesToNat c.valueBytes : Int) ∧ d.vm.callType = .asynchronousCall ∧ d.vm.gasProvided = s.gasLeft := by
          obtain ⟨p, hp, hd⟩ := Option.map_eq_some_iff.mp hd
          subst hd
          exact ⟨rfl, hp, rfl, rfl, rfl, rfl⟩
        obtain ⟨d1, d2, d3, d4, d5, d6⟩ := hd'
        refine ⟨d, r, u, m, d1, d2, d3, d4, d5, d6, h1, hm, ?_⟩
        by_cases hz : (pendingCalls m).contexts.size = 0
        · rw [if_pos hz] at h
          refine .inl ⟨(pendingCalls_none m).mp hz, ?_⟩
          unfold callbackAsync at h
          rw [get_bind] at h
          generalize hi : callbackInput u 0 r.output c.destination (if r.output.returnCode = .ok then c.successCallback else c.errorCallback) r.err = ci at h
          cases ci with
          | error e => cases h
          | ok i =>
            rcases bind_ok h with ⟨cr, v, h2, h⟩ | ⟨_, h⟩ | ⟨_, h⟩
            · rcases bind_ok h with ⟨_, w, h3, h⟩ | ⟨_, h⟩ | ⟨_, h⟩
              · cases h
                exact ⟨rfl, i, cr, v, callbackInput_tells hi, h2, callback_ended h3⟩
              · cases h
              · cases h
            · cases h
            · cases h
        · rw [if_neg hz] at h
          rw [pendingCalls_none] at hz
          cases h' : r.err with
          | some e => rw [h'] at h; cases h
          | none =>
            rw [h'] at h
            cases h
            refine .inr ⟨?_, rfl, rfl, rfl⟩
            simpa using hz
    · cases h
    · cases h

theorem served_calls (ex : Executor χ A) (l : List AsyncGeneratedCall) {l' : List AsyncGeneratedCall} {s t : St χ A}
    (h : processCalls E ex l s = (.ok (l', none), t)) : Served E ex l s l' t := by
  induction l generalizing l' s t with
  | nil => cases h; exact .nil _
  | cons c l ih =>
    unfold processCalls at h
    obtain ⟨b, o, h1, h2, _, h4⟩ := canExecSync_run (E := E) c.destination s
    rw [M.bind_eq, M.bind, h1] at h
    dsimp only at h
    cases b with
    | true =>
      rw [if_pos rfl] at h
      rcases bind_ok h with ⟨⟨c', e⟩, u, h5, h⟩ | ⟨_, h⟩ | ⟨_, h⟩
      · dsimp only at h
        cases e with
        | some e => cases h
        | none =>
          rcases bind_ok h with ⟨⟨l2, e⟩, v, h6, h⟩ | ⟨_, h⟩ | ⟨_, h⟩
          · cases h
            exact .here (h4.mp rfl) ⟨o, rfl, h2⟩ (c29_one ex h5) (ih h6)
          · cases h
          · cases h
      · cases h
      · cases h
    | false =>
      rw [if_neg (by simp)] at h
      rcases bind_ok h with ⟨⟨l2, e⟩, v, h6, h⟩ | ⟨_, h⟩ | ⟨_, h⟩
      · cases h
        exact .elsewhere (fun hc => by have := h4.mpr hc; cases this) ⟨o, rfl, h2⟩ (ih h6)
      · cases h
      · cases h

theorem _root_.Arwen.Spec.Served.append {ex : Executor χ A} {l l' m m' : List AsyncGeneratedCall} {s u t : St χ A}
    (h : Served E ex l s l' u) (h' : Served E ex m u m' t) : Served E ex (l ++ m) s (l' ++ m') t := by
  induction h with
  | nil _ => exact h'
  | elsewhere a b _ ih => exact .elsewhere a b (ih h')
  | here a b c _ ih => exact .here a b c (ih h')

theorem insertL_append {K V : Type} [DecidableEq K] (k : K) (v w : V) (pre suf : List (K × V)) (h : k ∉ pre.map Prod.fst) :
    AMap.insertL k v (pre ++ (k, w) :: suf) = pre ++ (k, v) :: suf := by
  induction pre with
  | nil => simp [AMap.insertL]
  | cons p pre ih =>
    obtain ⟨a, b⟩ := p
    simp only [List.map_cons, List.mem_cons, not_or] at h
    simp only [List.cons_append, AMap.insertL]
    rw [if_neg (fun he => h.1 he.symm), ih h.2]

theorem lookupL_append {K V : Type} [DecidableEq K] (k : K) (w : V) (pre suf : List (K × V)) (h : k ∉ pre.map Prod.fst) :
    AMap.lookupL k (pre ++ (k, w) :: suf) = some w := by
  induction pre with
  | nil => simp [AMap.lookupL]
  | cons p pre ih =>
    obtain ⟨a, b⟩ := p
    simp only [List.map_cons, List.mem_cons, not_or] at h
    simp only [List.cons_append, AMap.lookupL]
    rw [if_neg (fun he => h.1 he.symm), ih h.2]

theorem served_contexts (ex : Executor χ A) (suf pre : List (Bytes × AsyncContext)) {info info' : AsyncContextInfo} {s t : St χ A}
    (he : info.contexts.entries = pre ++ suf) (h : processContexts E ex (suf.map Prod.fst) info s = (.ok (info', none), t)) :
    ∃ suf', info'.contexts.entries = pre ++ suf' ∧ info'.caller = info.caller ∧ info'.returnData = info.returnData ∧
      suf'.map Prod.fst = suf.map Prod.fst ∧ suf'.map (fun p => p.2.callback) = suf.map (fun p => p.2.callback) ∧
      Served E ex (suf.flatMap fun p => p.2.calls) s (suf'.flatMap fun p => p.2.calls) t := by
  induction suf generalizing pre info s with
  | nil => cases h; exact ⟨[], he, rfl, rfl, rfl, rfl, .nil _⟩
  | cons p suf ih =>
    obtain ⟨id, ctx⟩ := p
    have hnd := info.contexts.nodup
    rw [he] at hnd
    have hid : id ∉ pre.map Prod.fst := by
      simp only [List.map_append, List.map_cons] at hnd
      intro hm
      exact (List.nodup_append.mp hnd).2.2 _ hm _ (.head _) rfl
    simp only [List.map_cons] at h
    unfold processContexts at h
    have hget : info.contexts.get? id = some ctx := by
      unfold AMap.get?; rw [he]; exact lookupL_append id ctx pre suf hid
    rw [hget] at h
    dsimp only [Option.getD_some] at h
    rcases bind_ok h with ⟨⟨calls, e⟩, u, h1, h⟩ | ⟨_, h⟩ | ⟨_, h⟩
    · dsimp only at h
      cases e with
      | some e => cases h
      | none =>
        dsimp only at h
        obtain ⟨suf', a1, a2, a3, a4, a5, a6⟩ := ih (pre ++ [(id, { ctx with calls := calls })]) (s := u)
          (info := { info with contexts := info.contexts.insert id { ctx with calls := calls } }) (by
            show AMap.insertL id _ info.contexts.entries = _
            rw [he, insertL_append _ _ _ _ _ hid]; simp) h
        refine ⟨(id, { ctx with calls := calls }) :: suf', by simpa using a1, a2, a3, by simp [a4], by simp [a5], ?_⟩
        simp only [List.flatMap_cons]
        exact (served_calls ex _ h1).append a6
    · cases h
    · cases h

/-- **C29**, groups of calls: when a contract that registered groups of calls ends and they are processed without an error, every call whose
destination is a known contract had its round, in the order of the groups and of the calls in each: the destination ran once, and then the
callback named for its outcome, once, with that outcome. Nothing is left to wait for only if every call was answered. -/
theorem c29_group (ex : Executor χ A) {info info' pending : AsyncContextInfo} {s t : St χ A} (hne : info.contexts.size ≠ 0)
    (h : processAsyncInfo E ex info s = (.ok (info', .ok pending), t)) :
    ∃ info1 u, setupCallsGas s.gasLeft info = .ok info1 ∧ Served E ex (allCalls info1) s (allCalls info') u ∧
      info'.contexts.keys = info.contexts.keys ∧
      ((∀ x ∈ allCalls info', x.status ≠ .pending) → t = u ∧ pending.contexts.size = 0) := by
  unfold processAsyncInfo at h
  rw [if_neg hne, get_bind] at h
  generalize h1 : setupCallsGas s.gasLeft info = g at h
  cases g with
  | error e => cases h
  | ok info1 =>
    rcases bind_ok h with ⟨⟨info2, e⟩, u, h2, h⟩ | ⟨_, h⟩ | ⟨_, h⟩
    · dsimp only at h
      cases e with
      | some e => cases h
      | none =>
        obtain ⟨suf', a1, a2, a3, a4, a5, a6⟩ := served_contexts ex info1.contexts.entries [] rfl h2
        have hk : info1.contexts.keys = info.contexts.keys := by
          unfold setupCallsGas at h1
          dsimp only at h1
          split at h1
          · cases h1
          · split at h1
            · cases h1
            · cases h1
              unfold AMap.keys AMap.mapVal
              simp
        have hall : allCalls info2 = suf'.flatMap fun p => p.2.calls := by
          unfold allCalls; rw [a1]; rfl
        have key : ∀ {i3 : AsyncContextInfo} {p3 : AsyncContextInfo} {t : St χ A}, info' = info2 →
            (((∀ x ∈ allCalls info2, x.status ≠ .pending) → t = u ∧ p3.contexts.size = 0)) →
            ∃ info1 u, setupCallsGas s.gasLeft info = .ok info1 ∧ Served E ex (allCalls info1) s (allCalls info') u ∧
              info'.contexts.keys = info.contexts.keys ∧ ((∀ x ∈ allCalls info', x.status ≠ .pending) → t = u ∧ p3.contexts.size = 0) := by
          rintro _ p3 t rfl hh
          refine ⟨info1, u, h1, ?_, ?_, hh⟩
          · rw [hall]; exact a6
          · rw [← hk]; unfold AMap.keys; rw [a1]; exact a4
        dsimp only at h
        split at h
        · rename_i hz
          cases h
          rw [← h1]
          exact key (i3 := info) rfl fun _ => ⟨rfl, hz⟩
        · rename_i hz
          rw [pendingCalls_none] at hz
          rcases bind_ok h with ⟨e, v, h3, h⟩ | ⟨_, h⟩ | ⟨_, h⟩
          · cases e with
            | some e => cases h
            | none =>
              dsimp only at h
              rw [get_bind] at h
              generalize setupCallsGas v.gasLeft (pendingCalls info2) = g at h
              cases g with
              | error e => cases h
              | ok p =>
                rcases bind_ok h with ⟨e, v, h3, h⟩ | ⟨_, h⟩ | ⟨_, h⟩
                · cases e with
                  | some e => cases h
                  | none => cases h; rw [← h1]; exact key (i3 := info) rfl fun hh => absurd hh hz
                · cases h
                · cases h
          · cases h
          · cases h
    · cases h
    · cases h

/-! ### Examples -/

section
open Fixture

/-- a contract that registers a call of the function `fn` of 101, with the callbacks `x` and `y` -/
def register (fn : Bytes) : P :=
  .store 10 [9] <| .store 64 (addr 101) <| .store 128 fn <| .store 140 [120, 121] <|
    .call (.createAsyncCall 10 1 64 200 128 (Int32.ofNat fn.length) 140 1 141 1 0) fun _ => .ret
/-- a contract with two callbacks: `x` returns 1 and the first result, `y` returns 2 and the code -/
def twoMod : WasmModule EeiCall := mod
  [([120], .store 400 [1] <| .call (.finish 400 1) fun _ => .call (.getArgument 1 300) fun n => .call (.finish 300 n.toInt32) fun _ => .ret),
   ([121], .store 400 [2] <| .call (.finish 400 1) fun _ => .call (.getArgument 0 300) fun n => .call (.finish 300 n.toInt32) fun _ => .ret),
   (Fixture.f, register Fixture.f), (Fixture.g, register Fixture.g)]
def twoMods : List (Bytes × WasmModule EeiCall) :=
  [([1], twoMod), ([2], mod [(Fixture.g, .store 300 [77] <| .call (.finish 300 1) fun _ => .ret), (Fixture.f, signal)])]
def twoEnv : Env World EeiCall := envWith twoMods
def twoHost : St World EeiCall := hostLock (node [(addr 100, contract [1] 50), (addr 101, contract [2] 50)])
def twoRunning : St World EeiCall := { cbRunning with insts := fun _ => { mod := twoMod, mem := List.replicate 512 0, limit := 100000, addr := addr 100 } }
def oneOf (dst : Addr) (f : Bytes) : AsyncGeneratedCall :=
  { destination := dst, data := f, valueBytes := [], successCallback := [120], errorCallback := [121], providedGas := 0 }
/-- two calls, the first executed here and the second elsewhere -/
def twoInfo : AsyncContextInfo :=
  { caller := addr 1, returnData := [], contexts := AMap.empty.insert [9] { calls := [oneOf (addr 101) Fixture.g, oneOf (addr 5) Fixture.f] } }

/-- the hypotheses of `c29_group` are met; the results are those of the destination and of the callback, in order -/
example : (match processAsyncInfo twoEnv (execN twoEnv 3) twoInfo twoRunning with
    | (.ok (info', .ok pending), t) => decide ((allCalls info').map (·.status) = [.resolved, .pending] ∧
        (allCalls pending).map (·.destination) = [addr 5] ∧ (transfers t.out.cur (addr 5)).length = 1 ∧ t.out.cur.returnData = [[77], [1], [77]])
    | _ => false) = true := by decide +kernel

/-- C29 fails for groups when the destination fails: no callback runs at all. The destination's failed execution has no record of calls of its own,
and looking it up panics: the transaction of the caller ends without any output, instead of calling the callback named for failures. The same transaction
with a destination that succeeds calls back. (No contract
of this version can make groups of calls: see C81.) -/
theorem c29_group_neg : (∃ o, Spec.Outputs twoEnv 5 (callTx (addr 1) (addr 100) Fixture.g) twoHost o ∧
      o.returnCode = .ok ∧ o.returnData = [[77], [1], [77]]) ∧
    (runTx twoEnv 5 (callTx (addr 1) (addr 100) Fixture.f) twoHost).1 = some none := by
  have h : (match (runTx twoEnv 5 (callTx (addr 1) (addr 100) Fixture.g) twoHost).1, (runTx twoEnv 5 (callTx (addr 1) (addr 100) Fixture.f) twoHost).1 with
    | some (some o), some none => decide (o.returnCode = .ok ∧ o.returnData = [[77], [1], [77]])
    | _, _ => false) = true := by decide +kernel
  unfold Spec.Outputs
  generalize (runTx twoEnv 5 (callTx (addr 1) (addr 100) Fixture.g) twoHost).1 = q at h
  generalize (runTx twoEnv 5 (callTx (addr 1) (addr 100) Fixture.f) twoHost).1 = q' at h
  match q, q' with
  | some (some o), some none => exact ⟨⟨o, rfl, of_decide_eq_true h⟩, rfl⟩
  | some (some _), some (some _) | some (some _), none | some none, _ | none, _ => cases h
end

end Arwen.Props
