import Verif.Host.Effects
import Verif.Spec.Outcome
import Verif.Spec.Calls
import Verif.Props.Memory
import Verif.Props.Value
/-
C18 (effects of successful calls are kept), C33 (logs).
-/
namespace Arwen.Props
open Arwen Spec Eei
variable {χ A : Type} {E : Env χ A}

/-! ### C18 -/

/-- C18. While a contract function runs, with all its nested calls and asynchronous calls, logs are only appended to, and the
reported effects on every account at which contracts cannot deploy are kept. -/
theorem c18_function (E : Env χ A) (n : Nat) (p : Prog A) (s t : St χ A) (r : Option Err)
    (h : callFunction E (execN E n) p s = (.ok r, t)) :
    (effects s).logs <+: (effects t).logs ∧ ∀ a, NotForNew E s.world a → Kept (effects s) (effects t) a := by
  have hr := ((sim_callFunction (E := E) (frameEx_execN E n).keeps p s).ok h).mono (fun s t h => StepB.a s t h)
  exact ⟨logs_rel.run hr trivial, fun a ha => (kept_iff _ _ _).mpr ((kept_rel _ a ha).run hr .start)⟩

/-- C18. The same for one call of an API function. -/
theorem c18_api (E : Env χ A) (n : Nat) (a : A) (s t : St χ A) (r : Int64) (h : interp E (execN E n) (E.api a) s = (.ok r, t)) :
    (effects s).logs <+: (effects t).logs ∧ ∀ a, NotForNew E s.world a → Kept (effects s) (effects t) a := by
  have hr := ((sim_interp (E := E) (frameEx_execN E n).keeps (E.api a) (fun _ h => ⟨a, h⟩) s).ok h).mono (fun s t h => StepB.a s t h)
  exact ⟨logs_rel.run hr trivial, fun a ha => (kept_iff _ _ _).mpr ((kept_rel _ a ha).run hr .start)⟩

/-- C18. A successful call of a contract on its own context: everything that it reports is in the caller's output. The logs and
the returned data come after the caller's; the balance changes are those that the called contract left, which include the caller's;
the transfers are those that it left, of which the caller's are the first. -/
theorem c18_dest (E : Env χ A) (n : Nat) (i : CallInput) (s t : St χ A) (r : DestResult) (hb : E.isBuiltin i.function = false)
    (h : (execN E n).dest i s = (.ok r, t)) (hc : r.output.returnCode = .ok) :
    (effects t).logs = (effects s).logs ++ r.output.logs ∧
    (effects t).returnData = (effects s).returnData ++ r.output.returnData ∧
    (∀ a acc, r.output.accounts.get? a = some acc → change (effects t) a = acc.balanceDelta) ∧
    (∀ a k v, pending r.output a k = some v → pending (effects t) a k = some v) ∧
    (∀ a, NotForNew E s.world a → transfers (effects t) a = transfers r.output a ∧ Kept (effects s) (effects t) a) := by
  cases n with
  | zero => simp [execN, M.oof] at h
  | succ n =>
    have hF := frameEx_execN E n
    have hkept : ∀ a, NotForNew E s.world a → Kept (effects s) (effects t) a := fun a ha => (kept_iff _ _ _).mpr ((kept_rel _ a ha).dest h .start)
    rcases execDest_any i s t _ h with ⟨a, ha, h⟩ | ⟨h, _⟩ | ⟨h, _⟩
    · simp only [Res.ok.injEq] at ha
      subst ha
      cases h with
      | failed u e hr hx => rw [hb] at hx; simp at hx
      | builtin u o hr hx => rw [hb] at hx; simp at hx
      | called u w v j info e r hr hj hbd hf =>
        obtain ⟨hl, hiff, _⟩ := finDest_left e info j u w v _ (bodyDest_frame hF hbd).1 hf
        obtain ⟨rfl, rfl⟩ := hj hb
        have hrun := (sim_bodyDest (E := E) hF.keeps _ _ (fresh_enterDest _ _)).ok hbd
        -- the reported output is the active one
        have hout : r.output = (destOutput E e w).2.out.cur := by
          cases e with
          | some e =>
            exfalso
            have h1 := hl.out_eq
            rw [h1] at hc
            exact (onError_output (E := E) e w).1 hc
          | none =>
            have h1 := hl.out_eq
            rw [h1] at hc ⊢
            rcases (Ending.ok (E := E) (u := w)).cases with ⟨e, w', h2⟩ | ⟨h2, _⟩
            · exfalso
              have h3 : (getVMOutput E w).1.returnCode = .ok := hc
              rw [h2] at h3
              exact (onError_output (E := E) e w').1 h3
            · exact h2
        have hen : (if r.err.isSome then St.bcPopSet E v else St.bcPopDiscard v).out.cur = mergeOut s.out.cur r.output := by
          have h1 := (hl.ok hc).1
          rw [← hout] at h1
          split
          · rw [(bcPopSet_rest (E := E) v).1, h1]; rfl
          · exact h1
        have het : effects (if r.err.isSome then St.bcPopSet E v else St.bcPopDiscard v) = mergeOut s.out.cur r.output := hen
        refine ⟨by rw [het]; rfl, by rw [het]; rfl, ?_, ?_, ?_⟩
        · intro a acc hg
          rw [het, change_mergeOut, hg]
          unfold change
          rw [hg]; rfl
        · intro a k v hp
          rw [het]
          unfold pending at hp ⊢
          rw [get_mergeOut]
          cases hg : r.output.accounts.get? a with
          | none => rw [hg] at hp; cases hp
          | some ra =>
            rw [hg] at hp
            simp only [Option.bind_some] at hp
            simp only [nestedAcc, Option.bind_some, storage_mergeAcc, hp]
        · intro a ha
          refine ⟨?_, hkept a ha⟩
          have hk : AccKept (s.out.cur.accounts.get? a) (r.output.accounts.get? a) := by
            have h1 := (kept_rel _ a ha).run hrun .start
            have hJ := ((kept_rel _ a ha).binary.runN hrun .start).1
            rw [hout]
            refine AccKept.trans h1 ?_
            cases e with
            | some e => exact (kept_rel _ a ha).move w _ hJ .failUsed
            | none => exact (kept_rel _ a ha).finalize w hJ
          rw [het]
          unfold transfers
          rw [get_mergeOut]
          cases hg : r.output.accounts.get? a with
          | some ra =>
            rw [hg] at hk
            simp only [nestedAcc, Option.map_some, Option.getD_some]
            refine transfers_mergeAcc ?_
            cases hs : s.out.cur.accounts.get? a with
            | none => exact List.nil_prefix
            | some la => rw [hs] at hk; exact hk.1
          | none =>
            rw [hg] at hk
            have := List.prefix_nil.mp hk.1
            simp only [nestedAcc, Option.map_none, Option.getD_none]
            exact this
    · simp at h
    · simp at h

/-- what follows a point that is reached decides how the function ends -/
theorem gets_rest {ex : Executor χ A} {i : Nat} {p : Prog A} {s t : St χ A} {a : A} {k : Int64 → Prog A} (hg : Gets E ex i p s a k t) :
    ∀ {u : St χ A}, runProg E ex i p s = (.ok true, u) → runProg E ex i (.call a k) t = (.ok true, u) := by
  induction hg with
  | here => exact id
  | burn n p s t a k _ ih =>
    intro u h
    refine ih ?_
    simp only [runProg] at h
    rw [get_bind, modify_bind] at h
    split at h
    · rw [modify_bind] at h; simp [M.pure_eq, M.pure] at h
    · exact h
  | call a' k' s u' t r a k h1 _ ih =>
    intro u h
    refine ih ?_
    simp only [runProg] at h
    rcases bind_ok h with ⟨r', u2, h2, h⟩ | ⟨_, h⟩ | ⟨_, h⟩
    · rw [h1] at h2
      simp only [Prod.mk.injEq, Res.ok.injEq] at h2
      obtain ⟨rfl, rfl⟩ := h2
      rw [get_bind] at h
      split at h
      · simp [M.pure_eq, M.pure] at h
      · exact h
    · simp at h
    · simp at h
  | load off len k' s t a k _ ih =>
    intro u h
    refine ih ?_
    simp only [runProg] at h
    rw [get_bind] at h
    split at h
    · exact h
    · simp [M.pure_eq, M.pure] at h
  | store off bs p s t a k _ ih =>
    intro u h
    refine ih ?_
    simp only [runProg] at h
    rw [get_bind] at h
    split at h
    · exact h
    · simp [M.pure_eq, M.pure] at h

/-- C18. Whatever a function has made by the time it calls an API function, and whatever that call makes, is there when the
function ends. -/
theorem c18_point (E : Env χ A) (n : Nat) {i : Nat} {p : Prog A} {s t v u : St χ A} {a : A} {k : Int64 → Prog A} {r : Int64}
    (hi : t.rt.instance_ = some i) (hg : Gets E (execN E n) i p s a k t) (hv : interp E (execN E n) (E.api a) t = (.ok r, v))
    (h : runProg E (execN E n) i p s = (.ok true, u)) :
    (effects t).logs <+: (effects v).logs ∧ (effects v).logs <+: (effects u).logs ∧
    ∀ b, NotForNew E t.world b → Kept (effects t) (effects v) b ∧ Kept (effects v) (effects u) b := by
  have h1 := gets_rest hg h
  simp only [runProg] at h1
  have hkeep := (frameEx_execN E n).keeps
  have hiv : v.rt.instance_ = some i := by
    have := ((sim_interp (E := E) (back := true) hkeep (E.api a) (fun _ h => ⟨a, h⟩) t).ok hv).rel
      (R := fun s t => t.rt.instance_ = s.rt.instance_) (fun _ => rfl) (fun _ _ _ h1 h2 => h2.trans h1) (fun _ _ h => h.inst_eq)
    rw [this, hi]
  rcases bind_ok h1 with ⟨r', u2, h2, h3⟩ | ⟨_, h⟩ | ⟨_, h⟩
  · rw [hv] at h2
    simp only [Prod.mk.injEq, Res.ok.injEq] at h2
    obtain ⟨rfl, rfl⟩ := h2
    rw [get_bind] at h3
    split at h3
    · simp [M.pure_eq, M.pure] at h3
    · have hr := ((sim_runProg (E := E) hkeep i (k r) v hiv).ok h3).mono (fun s t h => StepB.a s t h)
      have ha := c18_api E n a t v r hv
      have hJ : ∀ b, NotForNew E t.world b → Reached E t.world v.world := fun b hb => ((kept_rel _ b hb).binary.runN
        (((sim_interp (E := E) hkeep (E.api a) (fun _ h => ⟨a, h⟩) t).ok hv).mono (fun s t h => StepB.a s t h)) .start).1
      exact ⟨ha.1, logs_rel.run hr trivial, fun b hb => ⟨ha.2 b hb, (kept_iff _ _ _).mpr ((kept_rel _ b hb).run hr (hJ b hb))⟩⟩
  · simp at h
  · simp at h

/-- the final bookkeeping of a successful execution changes gas and code records only -/
theorem finalize_same (u : St χ A) (h : (updateGasOnSuccess (readyState u)).1 = none) : SameEffects (effects u) (getVMOutput E u).1 := by
  have h0 : (getVMOutput E u).1 = (setGasUsed (updateSCGasUsed (readyState u))).2.out.cur := by
    rw [getVMOutput_run, h]
    show (updateGasOnSuccess (readyState u)).2.out.cur = _
    rw [updateGasOnSuccess_state]
  have hl : (getVMOutput E u).1.logs = u.out.cur.logs ∧ (getVMOutput E u).1.returnData = u.out.cur.returnData := by
    rw [h0]
    simp only [setGasUsed, updateSCGasUsed, OutCtx.getAcc]
    split <;> exact ⟨rfl, rfl⟩
  have key : ∀ a, (((getVMOutput E u).1.accounts.get? a).map fun x => (x.transfers, x.balanceDelta, x.storage)).getD ([], 0, AMap.empty) =
      ((u.out.cur.accounts.get? a).map fun x => (x.transfers, x.balanceDelta, x.storage)).getD ([], 0, AMap.empty) := by
    intro a
    rw [h0]
    have h1 : (setGasUsed (updateSCGasUsed (readyState u))).2.out.cur.accounts.get? a =
        ((updateSCGasUsed (readyState u)).out.cur.accounts.get? a).map (fun x =>
          { x with gasUsed := ((updateSCGasUsed (readyState u)).met.cur.gasUsedByAccounts.get? a).getD 0 }) :=
      AMap.lookupL_mapKey (W := OutAcc) (fun k (x : OutAcc) =>
        { x with gasUsed := ((updateSCGasUsed (readyState u)).met.cur.gasUsedByAccounts.get? k).getD 0 }) _ a
    have h2 : (readyState u).out.cur.accounts.get? a = (u.out.cur.accounts.get? a).map (fun x =>
        if a ∈ u.out.codeUpdates then x else { x with code := [], codeMetadata := [], deployer := none }) :=
      AMap.lookupL_mapKey (fun k (x : OutAcc) => if k ∈ u.out.codeUpdates then x else { x with code := [], codeMetadata := [], deployer := none }) _ a
    have h3 : (updateSCGasUsed (readyState u)).out.cur.accounts.get? a = (readyState u).out.cur.accounts.get? a ∨
        ((readyState u).out.cur.accounts.get? a = none ∧ (updateSCGasUsed (readyState u)).out.cur.accounts.get? a = some {}) := by
      simp only [updateSCGasUsed, OutCtx.getAcc]
      split
      · exact .inl rfl
      · rename_i hn
        dsimp only
        rw [AMap.get?_insert]
        split
        · rename_i he; rw [← he]; exact .inr ⟨hn, rfl⟩
        · exact .inl rfl
    rw [h1]
    rcases h3 with h3 | ⟨h3, h4⟩
    · rw [h3, h2]
      cases u.out.cur.accounts.get? a with
      | none => rfl
      | some x => simp only [Option.map_some, Option.getD_some]; split <;> rfl
    · rw [h4]
      rw [h2] at h3
      cases hx : u.out.cur.accounts.get? a with
      | none => rfl
      | some x => rw [hx] at h3; cases h3
  refine ⟨hl.1, hl.2, fun a => ?_, fun a => ?_, fun a k => ?_⟩
  · have := congrArg Prod.fst (key a)
    unfold transfers
    unfold effects
    cases h1 : (getVMOutput E u).1.accounts.get? a <;> cases h2 : u.out.cur.accounts.get? a <;> rw [h1, h2] at this <;> exact this
  · have := congrArg (fun q => q.2.1) (key a)
    unfold change
    unfold effects
    cases h1 : (getVMOutput E u).1.accounts.get? a <;> cases h2 : u.out.cur.accounts.get? a <;> rw [h1, h2] at this <;> exact this
  · have := congrArg (fun q => q.2.2.get? k) (key a)
    unfold pending
    unfold effects
    cases h1 : (getVMOutput E u).1.accounts.get? a <;> cases h2 : u.out.cur.accounts.get? a <;> rw [h1, h2] at this <;> exact this

/-- C18. A call on the caller's own context that succeeds: the caller goes on with the output of the called contract. -/
theorem c18_same (E : Env χ A) (n : Nat) (i : CallInput) (s t : St χ A) (r : Option Err) (h : (execN E n).same i s = (.ok r, t)) :
    (effects s).logs <+: (effects t).logs ∧ ∀ a, NotForNew E s.world a → Kept (effects s) (effects t) a :=
  ⟨logs_rel.same h trivial, fun a ha => (kept_iff _ _ _).mpr ((kept_rel _ a ha).same h .start)⟩

/-- C18. The output of a successful transaction reports exactly the effects that were there when the contract had finished; these
contain, in order, everything that was there at the start. -/
theorem c18_tx (n : Nat) (tx : Tx) {s : St χ A} {o : VMOutput} (hr : AtRest E s) (h : Outputs E n tx s o) (hc : o.returnCode = .ok) :
    ∃ u, Run (StepT E (execN E n)) (txStart E tx s) u ∧ SameEffects (effects u) o := by
  obtain ⟨u, t, h1, h2⟩ := runTx_ending n tx hr h
  refine ⟨u, h1, ?_⟩
  cases h2 with
  | err e => exact absurd hc (onError_output (E := E) e u).1
  | ok =>
    cases hx : (updateGasOnSuccess (readyState u)).1 with
    | none => exact finalize_same u hx
    | some e =>
      rw [getVMOutput_run, hx] at hc
      exact absurd hc (onError_output (E := E) e _).1

/-! ### C33 -/

section
variable (E : Env χ A) (ex : Executor χ A)

theorem load_in (s : St χ A) (o n : Int32) {i : Nat} (h : s.rt.instance_ = some i) (hm : (s.insts i).mem.length < 2 ^ 31)
    (h0 : 0 ≤ o.toInt) (h1 : o.toInt ≤ (s.insts i).mem.length) (hn : 0 ≤ n.toInt) :
    memLoad s o n = .ok (.ok (bytesFrom (s.insts i).mem o.toInt.toNat n.toInt.toNat)) := by
  rw [c21_host_load s o n h hm]
  split
  · rename_i hz; rw [hz]; rfl
  · rw [if_neg (by omega), if_neg (by omega)]

theorem interp_loadK (o n : Int32) (ret : Int64) (k : Bytes → P χ A) (s : St χ A) {i : Nat} (h : s.rt.instance_ = some i)
    (hm : (s.insts i).mem.length < 2 ^ 31) (h0 : 0 ≤ o.toInt) (h1 : o.toInt ≤ (s.insts i).mem.length) (hn : 0 ≤ n.toInt) :
    interp E ex (loadK o n ret k) s = interp E ex (k (bytesFrom (s.insts i).mem o.toInt.toNat n.toInt.toNat)) s := by
  unfold loadK loadEK
  rw [interp_ask, load_in s o n h hm h0 h1 hn]

/-- a load that does not panic faults or goes on in the same state -/
theorem interp_loadK_cases (o n : Int32) (ret : Int64) (k : Bytes → P χ A) (s t : St χ A) (r : Int64) {i : Nat} (h : s.rt.instance_ = some i)
    (hr : interp E ex (loadK o n ret k) s = (.ok r, t)) :
    (∃ e, t = s.faulted E e) ∨ ∃ b, interp E ex (k b) s = (.ok r, t) := by
  unfold loadK loadEK at hr
  rw [interp_ask] at hr
  cases hl : memLoad s o n with
  | ok q =>
    rw [hl] at hr
    cases q with
    | error e =>
      dsimp only at hr
      rw [interp_faultK E ex e ret s h] at hr
      exact .inl ⟨e, (Prod.mk.inj hr).2.symm⟩
    | ok b => exact .inr ⟨b, hr⟩
  | panic => rw [hl] at hr; simp at hr
  | oof => rw [hl] at hr; simp at hr

theorem i32_add (a b : Int32) (h1 : 0 ≤ a.toInt + b.toInt) (h2 : a.toInt + b.toInt < 2 ^ 31) : (a + b).toInt = a.toInt + b.toInt := by
  rw [Int32.toInt_add, Int.bmod_def]; omega

/-- the topics of 32 bytes at consecutive offsets -/
theorem interp_topicsK : ∀ (n : Nat) (off : Int32) (k : List Bytes → P χ A) (s : St χ A) {i : Nat} (_ : s.rt.instance_ = some i)
    (_ : (s.insts i).mem.length < 2 ^ 31) (_ : 0 ≤ off.toInt) (_ : off.toInt + 32 * (n : Int) ≤ (s.insts i).mem.length),
    interp E ex (topicsK n off k) s =
      interp E ex (k ((List.range n).map fun j => bytesFrom (s.insts i).mem (off.toInt.toNat + 32 * j) 32)) s
  | 0, _, _, _, _, _, _, _, _ => rfl
  | n + 1, off, k, s, i, h, hm, h0, h1 => by
    unfold topicsK
    rw [interp_loadK E ex off 32 0 _ s h hm h0 (by omega) (by decide)]
    have h32 : (32 : Int32).toInt = 32 := rfl
    have hadd : (off + 32).toInt = off.toInt + 32 := by rw [i32_add off 32 (by omega) (by omega), h32]
    rw [interp_topicsK n (off + 32) _ s h hm (by omega) (by omega)]
    congr 2
    rw [List.range_succ_eq_map, List.map_cons, List.map_map]
    congr 1
    refine List.map_congr_left fun j _ => ?_
    simp only [Function.comp]
    congr 1
    omega

theorem interp_topicsK_cases : ∀ (n : Nat) (off : Int32) (k : List Bytes → P χ A) (s t : St χ A) (r : Int64) {i : Nat} (_ : s.rt.instance_ = some i)
    (_ : interp E ex (topicsK n off k) s = (.ok r, t)), (∃ e, t = s.faulted E e) ∨ ∃ ts, interp E ex (k ts) s = (.ok r, t)
  | 0, _, _, _, _, _, _, _, hr => .inr ⟨[], hr⟩
  | n + 1, off, k, s, t, r, i, h, hr => by
    unfold topicsK at hr
    rcases interp_loadK_cases E ex _ _ _ _ s t r h hr with h1 | ⟨b, h1⟩
    · exact .inl h1
    · rcases interp_topicsK_cases n _ _ s t r h h1 with h2 | ⟨ts, h2⟩
      · exact .inl h2
      · exact .inr ⟨b :: ts, h2⟩

theorem writeLog_logs (c : OutCtx) (ro : Bool) (a : Addr) (ts : List Bytes) (d : Bytes) :
    (c.writeLog ro a ts d).cur.logs = if ro then c.cur.logs else c.cur.logs ++ [entry a ts d] := by
  unfold OutCtx.writeLog entry
  cases ro
  · cases ts <;> rfl
  · rfl

theorem interp_writeLog (a : Addr) (ts : List Bytes) (d : Bytes) (s : St χ A) :
    interp E ex (.op (.writeLog a ts d) fun _ => .pure 0 : P χ A) s = (.ok 0, { s with out := s.out.writeLog s.rt.cur.readOnly a ts d }) := rfl

/-- C33. `writeLog` with data and topics inside the memory: outside read-only mode one entry is appended, with the address of the
executing contract, the first topic as identifier, the other topics in order, and the data; in read-only mode none is. -/
theorem c33_writeLog (d dl t n : Int32) (s : St χ A) {i : Nat} (h : s.rt.instance_ = some i)
    (hm : (s.insts i).mem.length < 2 ^ 31) (hd : 0 ≤ d.toInt ∧ d.toInt ≤ (s.insts i).mem.length) (hdl : 0 ≤ dl.toInt) (hn : 0 ≤ n.toInt)
    (ht : 0 ≤ t.toInt ∧ t.toInt + 32 * n.toInt ≤ (s.insts i).mem.length) :
    ∃ u, interp E ex (Eei.writeLog d dl t n) s = (.ok 0, u) ∧
      (effects u).logs = if s.rt.cur.readOnly then (effects s).logs else (effects s).logs ++ [entry s.rt.cur.scAddress
        ((List.range n.toInt.toNat).map fun j => bytesFrom (s.insts i).mem (t.toInt.toNat + 32 * j) 32)
        (bytesFrom (s.insts i).mem d.toInt.toNat dl.toInt.toNat)] := by
  unfold Eei.writeLog
  rw [interp_useK E ex _ _ s h]
  generalize hg : addU64 (s.met.sched.api .log) (mulU64 s.met.sched.persistPerByte (len64 (n * 32 + dl))) = g
  have hmem := spend_mem s g i
  rw [interp_loadK E ex d dl 0 _ (s.spend g) h (by rw [hmem]; exact hm) hd.1 (by rw [hmem]; exact hd.2) hdl]
  have hneg : ¬ n < 0 := by rw [Int32.lt_iff_toInt_lt]; exact Int.not_lt.mpr hn
  rw [if_neg hneg]
  have e : n.toNatClampNeg = n.toInt.toNat := rfl
  rw [interp_topicsK E ex n.toNatClampNeg t _ (s.spend g) h (by rw [hmem]; exact hm) ht.1 (by rw [hmem, e]; omega)]
  rw [interp_ask]
  refine ⟨_, interp_writeLog E ex _ _ _ _, ?_⟩
  show (OutCtx.writeLog _ _ _ _ _).cur.logs = _
  rw [writeLog_logs]
  simp only [hmem, e]
  rfl

/-- `getArgumentsFromMemory`: the lengths, as little-endian numbers -/
theorem int32LE_eq (a b c d : UInt8) (h : d.toNat < 128) :
    (int32LE [a, b, c, d]).toInt = a.toNat + 256 * b.toNat + 65536 * c.toNat + 16777216 * d.toNat := by
  have ha := a.toNat_lt; have hb := b.toNat_lt; have hc := c.toNat_lt
  simp only [int32LE]
  have h2 : a.toNat + 256 * b.toNat + 65536 * c.toNat + 16777216 * d.toNat < 2 ^ 31 := by omega
  have h3 : ((a.toNat + 256 * b.toNat + 65536 * c.toNat + 16777216 * d.toNat : Nat) : Int) =
    a.toNat + 256 * b.toNat + 65536 * c.toNat + 16777216 * d.toNat := by omega
  rw [← h3]
  generalize a.toNat + 256 * b.toNat + 65536 * c.toNat + 16777216 * d.toNat = x at h2 ⊢
  show (Int32.ofNat x).toInt = _
  rw [Int32.toInt_ofNat', show Int32.size = 4294967296 from rfl, Int.bmod_def]
  split <;> omega

theorem bytesFrom_length (mem : Bytes) (o n : Nat) : (bytesFrom mem o n).length = n := by simp [bytesFrom]
theorem bytesFrom_four (mem : Bytes) (o : Nat) : bytesFrom mem o 4 = [byteAt mem o, byteAt mem (o + 1), byteAt mem (o + 2), byteAt mem (o + 3)] := rfl
theorem bytesFrom_add (mem : Bytes) (o n m : Nat) : bytesFrom mem o (n + m) = bytesFrom mem o n ++ bytesFrom mem (o + n) m := by
  unfold bytesFrom
  rw [List.range_add, List.map_append, List.map_map]
  congr 1
  refine List.map_congr_left fun j _ => ?_
  simp [Nat.add_assoc]

theorem le32_lt (mem : Bytes) (o : Nat) (h : le32At mem o < 2 ^ 31) : (byteAt mem (o + 3)).toNat < 128 := by
  unfold le32At at h; omega

/-- the lengths read from memory -/
theorem int32Array_eq (mem : Bytes) : ∀ (n o : Nat), (∀ j < n, le32At mem (o + 4 * j) < 2 ^ 31) →
    (int32Array (bytesFrom mem o (4 * n)) n).map Int32.toInt = (List.range n).map fun j => (le32At mem (o + 4 * j) : Int)
  | 0, _, _ => rfl
  | n + 1, o, h => by
    have h1 : bytesFrom mem o (4 * (n + 1)) = bytesFrom mem o 4 ++ bytesFrom mem (o + 4) (4 * n) := by
      rw [show 4 * (n + 1) = 4 + 4 * n by omega, bytesFrom_add]
    unfold int32Array
    rw [h1, List.take_left' (bytesFrom_length ..), List.drop_left' (bytesFrom_length ..), List.map_cons, bytesFrom_four,
      int32LE_eq _ _ _ _ (le32_lt mem o (h 0 (by omega))), int32Array_eq mem n (o + 4) (fun j hj => by
        have := h (j + 1) (by omega); rw [show o + 4 * (j + 1) = o + 4 + 4 * j by omega] at this; exact this),
      List.range_succ_eq_map, List.map_cons, List.map_map]
    have e : ∀ (x y : Int) (l m : List Int), x = y → l = m → x :: l = y :: m := by rintro _ _ _ _ rfl rfl; rfl
    refine e _ _ _ _ ?_ ?_
    · show _ = ((le32At mem o : Nat) : Int); unfold le32At; omega
    · refine List.map_congr_left fun j _ => ?_
      simp only [Function.comp]
      rw [show o + 4 + 4 * j = o + 4 * (j + 1) by omega]

/-- the pieces read from memory -/
theorem memLoadMultiple_eq (s : St χ A) {i : Nat} (h : s.rt.instance_ = some i) (hm : (s.insts i).mem.length < 2 ^ 31) :
    ∀ (lens : List Int32) (ns : List Nat) (off : Int32), lens.map Int32.toInt = ns.map Int.ofNat → 0 ≤ off.toInt →
    off.toInt + ns.sum ≤ (s.insts i).mem.length →
    memLoadMultiple s off lens = .ok (.ok (pieces (s.insts i).mem off.toInt.toNat ns))
  | [], [], _, _, _, _ => rfl
  | [], _ :: _, _, h, _, _ => by simp at h
  | _ :: _, [], _, h, _, _ => by simp at h
  | l :: lens, n :: ns, off, he, h0, h1 => by
    simp only [List.map_cons, List.cons.injEq, List.sum_cons] at he h1
    unfold memLoadMultiple
    have he1 : l.toInt = (n : Int) := he.1
    have h1' : off.toInt + ((n : Int) + (ns.sum : Nat)) ≤ (s.insts i).mem.length := by omega
    rw [load_in s off l h hm h0 (by omega) (by omega)]
    have hadd : (off + l).toInt = off.toInt + n := by rw [i32_add off l (by omega) (by omega), he1]
    dsimp only
    rw [memLoadMultiple_eq s h hm lens ns (off + l) he.2 (by omega) (by omega)]
    dsimp only
    have e1 : (off + l).toInt.toNat = off.toInt.toNat + n := by omega
    rw [he1, e1]
    rfl

/-- Reading arguments from memory: the lengths are little-endian numbers of four bytes, the arguments follow each other. -/
theorem argsFromMem_eq (s : St χ A) (num lo off : Int32) {i : Nat} (h : s.rt.instance_ = some i) (hm : (s.insts i).mem.length < 2 ^ 31)
    (hn : 0 ≤ num.toInt) (hlo : 0 ≤ lo.toInt ∧ lo.toInt + 4 * num.toInt ≤ (s.insts i).mem.length) (ns : List Nat)
    (hns : ns = (List.range num.toInt.toNat).map fun j => le32At (s.insts i).mem (lo.toInt.toNat + 4 * j))
    (ho : 0 ≤ off.toInt ∧ off.toInt + ns.sum ≤ (s.insts i).mem.length) :
    ∃ tot, argsFromMem s num lo off = .ok (.ok (pieces (s.insts i).mem off.toInt.toNat ns, tot)) := by
  unfold argsFromMem
  have hneg : ¬ num < 0 := by rw [Int32.lt_iff_toInt_lt]; exact Int.not_lt.mpr hn
  have h4 : (num * 4).toInt = 4 * num.toInt := by
    rw [Int32.toInt_mul, show (4 : Int32).toInt = 4 from rfl, Int.bmod_def]
    omega
  have hsmall : ∀ j < num.toInt.toNat, le32At (s.insts i).mem (lo.toInt.toNat + 4 * j) < 2 ^ 31 := by
    intro j hj
    have hmem : le32At (s.insts i).mem (lo.toInt.toNat + 4 * j) ∈ ns := by
      rw [hns]; exact List.mem_map.mpr ⟨j, List.mem_range.mpr hj, rfl⟩
    have hle : ∀ (l : List Nat) (x : Nat), x ∈ l → x ≤ l.sum := by
      intro l
      induction l with
      | nil => intro x hx; cases hx
      | cons a l ih =>
        intro x hx
        rw [List.sum_cons]
        rcases List.mem_cons.mp hx with rfl | hx
        · omega
        · have := ih x hx; omega
    have := hle ns _ hmem
    omega
  rw [if_neg hneg, load_in s lo (num * 4) h hm hlo.1 (by omega) (by omega)]
  dsimp only
  have e1 : (num * 4).toInt.toNat = 4 * num.toInt.toNat := by omega
  have e2 : num.toNatClampNeg = num.toInt.toNat := rfl
  rw [e1, e2, memLoadMultiple_eq s h hm _ ns off (by rw [int32Array_eq _ _ _ hsmall, hns, List.map_map]; rfl) ho.1 ho.2]
  exact ⟨_, rfl⟩

/-- C33. `writeEventLog` with lengths, topics and data inside the memory. -/
theorem c33_writeEventLog (num lo t d dl : Int32) (s : St χ A) {i : Nat} (h : s.rt.instance_ = some i)
    (hm : (s.insts i).mem.length < 2 ^ 31) (hd : 0 ≤ d.toInt ∧ d.toInt ≤ (s.insts i).mem.length) (hdl : 0 ≤ dl.toInt) (hn : 0 ≤ num.toInt)
    (hlo : 0 ≤ lo.toInt ∧ lo.toInt + 4 * num.toInt ≤ (s.insts i).mem.length) (ns : List Nat)
    (hns : ns = (List.range num.toInt.toNat).map fun j => le32At (s.insts i).mem (lo.toInt.toNat + 4 * j))
    (ht : 0 ≤ t.toInt ∧ t.toInt + ns.sum ≤ (s.insts i).mem.length) :
    ∃ u, interp E ex (Eei.writeEventLog num lo t d dl) s = (.ok 0, u) ∧
      (effects u).logs = if s.rt.cur.readOnly then (effects s).logs else (effects s).logs ++ [entry s.rt.cur.scAddress
        (pieces (s.insts i).mem t.toInt.toNat ns) (bytesFrom (s.insts i).mem d.toInt.toNat dl.toInt.toNat)] := by
  unfold Eei.writeEventLog argsEK
  obtain ⟨tot, ha⟩ := argsFromMem_eq s num lo t h hm hn hlo ns hns ht
  rw [interp_ask, ha]
  dsimp only
  rw [interp_loadK E ex d dl 0 _ s h hm hd.1 hd.2 hdl, interp_useK E ex _ _ s h, interp_ask]
  refine ⟨_, interp_writeLog E ex _ _ _ _, ?_⟩
  show (OutCtx.writeLog _ _ _ _ _).cur.logs = _
  rw [writeLog_logs]
  rfl

theorem faulted_logs (s : St χ A) (e : Err) : (s.faulted E e).out.cur.logs = s.out.cur.logs := rfl

/-- C33. With any arguments a log call appends at most one entry, only outside read-only mode and only with the address of the
executing contract. -/
theorem c33_atMost (a : Addr) (s t : St χ A) (r : Int64) {i : Nat} (h : s.rt.instance_ = some i) (ha : s.rt.cur.scAddress = a)
    (d dl tp n lo : Int32)
    (hr : interp E ex (Eei.writeLog d dl tp n) s = (.ok r, t) ∨ interp E ex (Eei.writeEventLog n lo tp d dl) s = (.ok r, t)) :
    (effects t).logs = (effects s).logs ∨
    (s.rt.cur.readOnly = false ∧ ∃ ts data, (effects t).logs = (effects s).logs ++ [entry a ts data]) := by
  have key : ∀ (s' : St χ A) ts data, s'.out = s.out → s'.rt = s.rt →
      interp E ex (.ask fun s => .op (.writeLog s.rt.cur.scAddress ts data) fun _ => .pure 0) s' = (.ok r, t) →
      (effects t).logs = (effects s).logs ∨
      (s.rt.cur.readOnly = false ∧ ∃ ts data, (effects t).logs = (effects s).logs ++ [entry a ts data]) := by
    intro s' ts data ho hrt hr
    rw [interp_ask] at hr
    have he := (Prod.mk.inj ((interp_writeLog E ex _ _ _ _).symm.trans hr)).2
    have hl : (effects t).logs = (s'.out.writeLog s'.rt.cur.readOnly s'.rt.cur.scAddress ts data).cur.logs := by rw [← he]; rfl
    rw [writeLog_logs, ho, hrt, ha] at hl
    cases hro : s.rt.cur.readOnly
    · rw [hro] at hl; exact .inr ⟨rfl, ts, data, hl⟩
    · rw [hro] at hl; exact .inl hl
  rcases hr with hr | hr
  · unfold Eei.writeLog at hr
    rw [interp_useK E ex _ _ s h] at hr
    rcases interp_loadK_cases E ex _ _ _ _ _ t r (i := i) (by exact h) hr with ⟨e, h1⟩ | ⟨b, h1⟩
    · rw [h1]; exact .inl rfl
    · split at h1
      · rw [interp_faultK E ex _ _ _ (i := i) (by exact h)] at h1
        rw [← (Prod.mk.inj h1).2]; exact .inl rfl
      · rcases interp_topicsK_cases E ex _ _ _ _ t r (i := i) (by exact h) h1 with ⟨e, h2⟩ | ⟨ts, h2⟩
        · rw [h2]; exact .inl rfl
        · exact key (s.spend _) ts b rfl rfl h2
  · unfold Eei.writeEventLog argsEK at hr
    rw [interp_ask] at hr
    cases hq : argsFromMem s n lo tp with
    | ok q =>
      rw [hq] at hr
      cases q with
      | error e =>
        dsimp only at hr
        rw [interp_faultK E ex _ _ s h] at hr
        rw [← (Prod.mk.inj hr).2]; exact .inl rfl
      | ok q =>
        obtain ⟨ts, m⟩ := q
        dsimp only at hr
        rcases interp_loadK_cases E ex _ _ _ _ _ t r h hr with ⟨e, h1⟩ | ⟨b, h1⟩
        · rw [h1]; exact .inl rfl
        · rw [interp_useK E ex _ _ s h] at h1
          exact key (s.spend _) ts b rfl rfl h1
    | panic => rw [hq] at hr; simp at hr
    | oof => rw [hq] at hr; simp at hr
end

/-- C33. Entries never change and never disappear while a contract function runs, nor at the end of a successful transaction. -/
theorem c33_kept (E : Env χ A) (n : Nat) (p : Prog A) (s t : St χ A) (r : Option Err)
    (h : callFunction E (execN E n) p s = (.ok r, t)) : (effects s).logs <+: (effects t).logs := (c18_function E n p s t r h).1

/-! ### Examples -/

section
open Fixture

/-- logs, stores and pays; calls 101 which does the same -/
def effProg : P := log [1] <| put [7] [8] <| payDest (addr 101) Fixture.g 5 1000 <| log [3] .ret
def effMods : List (Bytes × WasmModule EeiCall) :=
  [([1], mod [(Fixture.f, effProg)]), ([2], mod [(Fixture.g, log [2] <| put [9] [6] <| send (addr 2) 4 .ret)])]
def effEnv : Env World EeiCall := Env.real { envWith effMods with hook := goodHook }
def effHost : St World EeiCall := host (node [(addr 100, contract [1] 50), (addr 101, contract [2] 50)])

/-- an ordinary account is not an address for new contracts -/
theorem addr_notNew (w0 : World) (k : UInt8) : NotForNew effEnv w0 (addr k) := by
  rintro i _ ⟨w, c, n, _, h, _⟩
  have h' : List.replicate 30 (1 : UInt8) ++ [c.getLast?.getD 0, 100 + n.toUInt8] = List.replicate 31 0 ++ [k] := Except.ok.inj h
  have := congrArg (fun l => l.head?) h'
  simp [List.replicate] at this

/-- the logs in order, the updates of both contracts, the transfer made by the called contract -/
example : (match (runTx effEnv 5 (callTx (addr 1) (addr 100) Fixture.f) effHost).1 with
    | some (some o) => decide (o.returnCode = .ok ∧ o.logs.map LogEntry.data = [[1], [2], [3]] ∧
        o.logs.map LogEntry.address = [addr 100, addr 101, addr 100] ∧ pending o (addr 100) [7] = some [8] ∧
        pending o (addr 101) [9] = some [6] ∧ (transfers o (addr 2)).map OutTransfer.value = [4])
    | _ => false) = true := by decide +kernel

/-- a state in which a transfer to the address of the next contract is reported -/
def lostState : St World EeiCall :=
  let s := running (List.replicate 512 0) 100000
  let accs : AMap Addr OutAcc := AMap.insert AMap.empty (List.replicate 30 1 ++ [100, 100]) { transfers := [{ value := 7 }], balanceDelta := 7 }
  { s with world := node [(addr 100, contract [1] 50)]
           rt := { s.rt with cur := { s.rt.cur with vmInput := { s.rt.cur.vmInput with gasProvided := 100000 } } }
           out := { s.out with cur := { s.out.cur with accounts := accs } } }

/-- Effects can get lost: a deployment that fails drops the record of the account at the new address, with the transfers and
balance changes reported for it before. -/
theorem c18_neg : ∃ (E : Env World EeiCall) (n : Nat) (a : EeiCall) (s t : St World EeiCall) (r : Int64) (b : Addr),
    E.api = eei E ∧ interp E (execN E n) (E.api a) s = (.ok r, t) ∧ t.curBp = .none ∧
    transfers (effects s) b = [{ value := 7 }] ∧ transfers (effects t) b = [] := by
  let a : EeiCall := .createContract 100 0 0 0 1 300 0 0 0
  have h : (match interp effEnv (execN effEnv 3) (effEnv.api a) lostState with
      | (.ok _, t) => decide (t.curBp = .none ∧ transfers (effects lostState) (List.replicate 30 1 ++ [100, 100]) = [{ value := 7 }] ∧
          transfers (effects t) (List.replicate 30 1 ++ [100, 100]) = [])
      | _ => false) = true := by decide +kernel
  generalize hq : interp effEnv (execN effEnv 3) (effEnv.api a) lostState = q at h
  obtain ⟨r, t⟩ := q
  match r with
  | .ok r => exact ⟨effEnv, 3, a, lostState, t, r, _, rfl, hq, of_decide_eq_true h⟩
  | .panic => cases h
  | .oof => cases h

/-- C33: the hypotheses of `c33_writeLog` and `c33_writeEventLog` are met by a running contract -/
def logMem : Bytes := [9, 8, 7, 2, 0, 0, 0, 1, 0, 0, 0, 65, 66, 67] ++ List.replicate 60 5
example : ∃ u, interp effEnv (execN effEnv 1) (Eei.writeLog 0 3 8 2) (running logMem) = (.ok 0, u) ∧
    (effects u).logs = [entry (addr 100) [[0, 0, 0, 65, 66, 67] ++ List.replicate 26 5, List.replicate 32 5] [9, 8, 7]] := by
  obtain ⟨u, h1, h2⟩ := c33_writeLog effEnv (execN effEnv 1) 0 3 8 2 (running logMem) (i := 0) rfl (by decide) (by decide) (by decide) (by decide) (by decide)
  exact ⟨u, h1, h2.trans (by decide)⟩
example : ∃ u, interp effEnv (execN effEnv 1) (Eei.writeEventLog 2 3 11 0 3) (running logMem) = (.ok 0, u) ∧
    (effects u).logs = [entry (addr 100) [[65, 66], [67]] [9, 8, 7]] := by
  obtain ⟨u, h1, h2⟩ := c33_writeEventLog effEnv (execN effEnv 1) 2 3 11 0 3 (running logMem) (i := 0) rfl (by decide) (by decide) (by decide) (by decide) (by decide)
    [2, 1] (by decide) (by decide)
  exact ⟨u, h1, h2.trans (by decide)⟩
end

end Arwen.Props
