import Verif.Spec.Callback
import Verif.Props.Async
import Verif.Props.Deploy
/-
C30: pending asynchronous calls and the callbacks that answer them.
-/
namespace Arwen.Props
open Arwen Arwen.Spec
variable {χ A : Type} {E : Env χ A}

theorem asyncKey_eq (s : St χ A) : asyncKey s = recordKey s.rt.cur.vmInput.originalTxHash := by
  unfold asyncKey customStorageKey recordKey
  rw [show asyncPrefix = "ARWEN@ASYNC".toUTF8.data.toList by decide +kernel]

/-- nothing of interest changed, and the rest of the context neither -/
structure Calm (E : Env χ A) (s t : St χ A) : Prop extends Undisturbed E s t where
  rt : t.rt = s.rt
  sto : t.sto = s.sto
  world : t.world = s.world

theorem Calm.trans {s t u : St χ A} (h : Calm E s t) (h' : Calm E t u) : Calm E s u where
  storage a k := (h'.storage a k).trans (h.storage a k)
  transfers a := (h'.transfers a).trans (h.transfers a)
  rt := h'.rt.trans h.rt
  sto := h'.sto.trans h.sto
  world := h'.world.trans h.world

theorem transfers_read (a b : Addr) (k : Bytes) (s : St χ A) :
    transfers (effects (readStorage E a k s).2) b = transfers (effects s) b := by
  have h0 := transfers_getAcc s.out a b
  have h1 := getAcc_fst s.out a
  have h2 : (s.out.getAcc a).1.transfers = transfers s.out.cur a := by
    rw [h1]; unfold transfers; cases s.out.cur.accounts.get? a <;> rfl
  have h3 := transfers_getAcc s.out a a
  unfold readStorage
  generalize s.out.getAcc a = q at *
  obtain ⟨acc, isNew, out'⟩ := q
  dsimp only at h0 h1 h2 h3 ⊢
  split
  · exact h0
  · refine (transfers_setAcc out' a b _ ?_).trans h0
    exact h2.trans h3.symm

theorem calm_read (a : Addr) (k : Bytes) (s : St χ A) : Calm E s (readStorage E a k s).2 where
  storage := (readStorage_view a k s).2
  transfers b := transfers_read a b k s
  rt := (readStorage_frame a k s).rt
  sto := (readStorage_frame a k s).sto
  world := (readStorage_frame a k s).world

theorem calm_getCode (a : Addr) (s : St χ A) : Calm E s (getCode E a s).2 := by
  have h0 := transfers_getAcc s.out a
  have h1 := getAcc_fst s.out a
  have h2 : (s.out.getAcc a).1.transfers = transfers s.out.cur a := by
    rw [h1]; unfold transfers; cases s.out.cur.accounts.get? a <;> rfl
  obtain ⟨p1, p2, p3⟩ := getAcc_pending s.out a
  have base : ∀ o : OutCtx, (∀ b k, pending o.cur b k = pending s.out.cur b k) → (∀ b, transfers o.cur b = transfers s.out.cur b) →
      Calm E s { s with out := o } := fun o h h' => ⟨⟨fun b k => by simp only [view, h], fun b => h' b⟩, rfl, rfl, rfl⟩
  unfold getCode
  generalize s.out.getAcc a = q at *
  obtain ⟨acc, isNew, out'⟩ := q
  dsimp only at h0 h1 h2 p1 p2 p3 ⊢
  split
  · exact base _ p1 h0
  · split
    · exact base _ p1 h0
    · exact base _ p1 h0
    · split
      · exact base _ p1 h0
      · refine base _ (fun b k => ?_) (fun b => ?_)
        · rw [pending_setAcc]
          split
          · rename_i hb; subst hb; exact p2 k
          · exact p1 b k
        · refine (transfers_setAcc out' a b _ ?_).trans (h0 b)
          exact h2.trans (h0 a).symm

/-- a store by the host itself sends nothing -/
theorem transfers_untouched {g : UInt64} {s t : St χ A} {u : Unit} (h : useGas g s = (.ok u, t)) : t.out = s.out := by
  simp only [useGas, M.bind_eq, M.bind, M.get, setPointsUsed] at h
  split at h
  · simp at h
  · simp only [Prod.mk.injEq, true_and] at h; rw [← h]; rfl

theorem transfers_storageGas {old v : Bytes} {s t : St χ A} {st : StorageStatus} (h : storageGas old v s = (.ok st, t)) (b : Addr) :
    transfers (effects t) b = transfers (effects s) b := by
  unfold storageGas at h
  rw [get_bind] at h
  have ug : ∀ {g : UInt64} {x y : St χ A}, useGas g x = (.ok (), y) → transfers (effects y) b = transfers (effects x) b := by
    intro g x y h; unfold effects; rw [transfers_untouched h]
  have fg : ∀ {g : UInt64} {x y : St χ A}, freeGas g x = (.ok (), y) → transfers (effects y) b = transfers (effects x) b := by
    intro g x y h
    simp only [freeGas, M.modify, Prod.mk.injEq, true_and] at h
    rw [← h]; rfl
  have fin : ∀ {m : M χ A Unit} {x y : St χ A} {r q : StorageStatus}, (m >>= fun _ => pure r) x = (.ok q, y) →
      (∀ y, m x = (.ok (), y) → transfers (effects y) b = transfers (effects x) b) → transfers (effects y) b = transfers (effects x) b := by
    intro m x y r q h hm
    rcases bind_ok h with ⟨_, w, h1, h2⟩ | ⟨_, h2⟩ | ⟨_, h2⟩
    · simp only [M.pure_eq, M.pure, Prod.mk.injEq] at h2; rw [← h2.2]; exact hm w h1
    · simp at h2
    · simp at h2
  split at h
  · exact fin h (fun _ h => ug h)
  · split at h
    · exact fin h (fun _ h => fg h)
    · split at h
      · exact fin h (fun _ h => ug h)
      · split at h
        · rcases bind_ok h with ⟨_, w, h1, h2⟩ | ⟨_, h2⟩ | ⟨_, h2⟩
          · exact (fin h2 (fun _ h => fg h)).trans (ug h1)
          · simp at h2
          · simp at h2
        · simp only [M.pure_eq, M.pure, Prod.mk.injEq] at h; rw [← h.2]

theorem transfers_setCore {k v : Bytes} {s t : St χ A} {r : StorageStatus × Option Err} (h : setStorageCore E k v s = (.ok r, t)) (b : Addr) :
    transfers (effects t) b = transfers (effects s) b := by
  unfold setStorageCore at h
  rcases bind_ok h with ⟨_, s1, h1, h⟩ | ⟨_, h⟩ | ⟨_, h⟩
  · have e1 : transfers (effects s1) b = transfers (effects s) b := by
      unfold useKeyGas at h1
      rw [get_bind] at h1
      split at h1
      · unfold effects; rw [transfers_untouched h1]
      · simp only [M.pure_eq, M.pure, Prod.mk.injEq, true_and] at h1; rw [h1]
    rcases bind_ok h with ⟨old, s2, h2, h⟩ | ⟨_, h⟩ | ⟨_, h⟩
    · simp only [getStorageUnmetered, M.lift, Prod.mk.injEq, Res.ok.injEq] at h2
      have e2 := transfers_read (E := E) s1.sto.addr b k s1
      rw [h2.2] at e2
      split at h
      · rw [get_bind] at h
        rcases bind_ok h with ⟨_, s3, h4, h⟩ | ⟨_, h⟩ | ⟨_, h⟩
        · simp only [M.pure_eq, M.pure, Prod.mk.injEq, Res.ok.injEq] at h
          rw [← h.2, ← e1, ← e2]; unfold effects; rw [transfers_untouched h4]
        · simp at h
        · simp at h
      · rw [modify_bind] at h
        rcases bind_ok h with ⟨q, s3, h4, h⟩ | ⟨_, h⟩ | ⟨_, h⟩
        · have e3 := transfers_storageGas h4 b
          simp only [M.pure_eq, M.pure, Prod.mk.injEq, Res.ok.injEq] at h
          rw [← h.2, e3, ← e1, ← e2]
          exact transfers_modAcc _ _ _ _ (fun _ => rfl)
        · simp at h
        · simp at h
    · simp at h
    · simp at h
  · simp at h
  · simp at h

theorem transfers_setProtected {k v : Bytes} {s t : St χ A} {r : StorageStatus × Option Err}
    (h : setProtectedStorage E k v s = (.ok r, t)) (b : Addr) : transfers (effects t) b = transfers (effects s) b := by
  rw [setProtectedStorage_run] at h
  split at h
  · simp only [Prod.mk.injEq] at h; rw [← h.2]; rfl
  · split at h
    · simp only [Prod.mk.injEq] at h; rw [← h.2]; rfl
    · generalize hq : setStorageCore E k v s = q at h
      obtain ⟨r', u⟩ := q
      cases r' with
      | ok a =>
        simp only [Prod.mk.injEq] at h; rw [← h.2]
        exact transfers_setCore hq b
      | panic => simp at h
      | oof => simp at h

theorem findContext_none {caller : Addr} {info : AsyncContextInfo} : findContext caller info = none ↔ ¬ Awaits info caller := by
  unfold findContext Awaits
  rw [List.find?_eq_none]
  simp only [ne_eq, Bool.and_eq_true, decide_eq_true_eq, List.any_eq_true, not_and, not_exists]
  constructor
  · intro h p hp hn c hc he; exact h p hp hn c hc he.symm
  · intro h p hp hn c hc he; exact h p hp hn c hc he.symm

/-- what an answer does, in general -/
theorem callback_cases {s t : St χ A} {r : Res (Option Err)} {info : AsyncContextInfo} (hd : E.decodeAsync (record E s) = .ok info)
    (hne : record E s ≠ []) (h : processCallbackStack E s = (r, t)) :
    ∃ u, Calm E s u ∧
    ((¬ Awaits info s.rt.cur.vmInput.caller ∧ r = .ok (some .callBackFuncNotExpected) ∧ t = u) ∨
     ∃ p, findContext s.rt.cur.vmInput.caller info = some p ∧
      let contexts := if p.2.calls.length ≤ 1 then info.contexts.erase p.1 else info.contexts
      (contexts.size > 0 ∧ r = .ok none ∧ t = u ∨
       contexts.size = 0 ∧ (do
          let (_, e) ← setProtectedStorage E (asyncKey s) []
          match e with
          | some e => pure (some e)
          | none => do
            if (← canExecSync E info.caller) then do
              let _ ← M.lift (getVMOutput E)
              M.panic
            else sendStorageCallback E info.caller info.returnData) u = (r, t))) := by
  have hv := readStorage_view (E := E) s.sto.addr (asyncKey s) s
  have hc := calm_read (E := E) s.sto.addr (asyncKey s) s
  refine ⟨(readStorage E s.sto.addr (asyncKey s) s).2, hc, ?_⟩
  unfold processCallbackStack at h
  rw [get_bind] at h
  have hg : getStorageUnmetered E (asyncKey s) s = (.ok (record E s), (readStorage E s.sto.addr (asyncKey s) s).2) := by
    unfold getStorageUnmetered M.lift
    rw [hv.1]
    unfold record
    rw [asyncKey_eq]
  simp only [M.bind_eq, M.bind, hg] at h
  rw [if_neg hne, hd] at h
  dsimp only at h
  cases hf : findContext s.rt.cur.vmInput.caller info with
  | none =>
    rw [hf] at h
    simp only [M.pure_eq, M.pure, Prod.mk.injEq] at h
    exact .inl ⟨findContext_none.mp hf, h.1.symm, h.2.symm⟩
  | some p =>
    rw [hf] at h
    obtain ⟨id, ctx⟩ := p
    dsimp only at h
    refine .inr ⟨_, rfl, ?_⟩
    dsimp only
    generalize (if ctx.calls.length ≤ 1 then info.contexts.erase id else info.contexts) = contexts at h ⊢
    split at h
    · rename_i hz
      simp only [M.pure_eq, M.pure, Prod.mk.injEq] at h
      exact .inl ⟨hz, h.1.symm, h.2.symm⟩
    · rename_i hz
      exact .inr ⟨by omega, h⟩

/-- C30: A callback from a contract that was not called is refused, and nothing is stored or sent. -/
theorem c30_unexpected {s t : St χ A} {r : Res (Option Err)} {info : AsyncContextInfo} (hd : E.decodeAsync (record E s) = .ok info)
    (hne : record E s ≠ []) (hw : ¬ Awaits info s.rt.cur.vmInput.caller) (h : processCallbackStack E s = (r, t)) :
    r = .ok (some .callBackFuncNotExpected) ∧ Undisturbed E s t := by
  obtain ⟨u, hu, ⟨_, h1, rfl⟩ | ⟨p, hp, _⟩⟩ := callback_cases hd hne h
  · exact ⟨h1, hu.toUndisturbed⟩
  · rw [findContext_none.mpr hw] at hp; cases hp

theorem findContext_mem {caller : Addr} {info : AsyncContextInfo} {p : Bytes × AsyncContext} (h : findContext caller info = some p) :
    p ∈ info.contexts.entries := List.mem_of_find?_eq_some h

/-- C30 is violated: A callback that is not the last one leaves the record as it is - its call is not removed, so the record of two or
more calls is never removed and the original caller never told, whatever callbacks arrive. -/
theorem c30_more {s t : St χ A} {r : Res (Option Err)} {info : AsyncContextInfo} (hd : E.decodeAsync (record E s) = .ok info)
    (hne : record E s ≠ []) (hw : Awaits info s.rt.cur.vmInput.caller) (h2 : 2 ≤ (allCalls info).length)
    (h : processCallbackStack E s = (r, t)) : r = .ok none ∧ Undisturbed E s t ∧ record E t = record E s := by
  obtain ⟨u, hu, ⟨h1, _⟩ | ⟨p, hp, hc⟩⟩ := callback_cases hd hne h
  · exact absurd hw h1
  · rcases hc with ⟨_, h3, rfl⟩ | ⟨h3, _⟩
    · refine ⟨h3, hu.toUndisturbed, ?_⟩
      unfold record
      rw [hu.rt, hu.sto, hu.storage]
    · exfalso
      have hm := findContext_mem hp
      split at h3
      · rename_i hl
        have h4 : ∀ q ∈ info.contexts.entries, q.1 = p.1 := by
          intro q hq
          have h5 : info.contexts.entries.filter (fun q => q.1 ≠ p.1) = [] := List.eq_nil_of_length_eq_zero h3
          rw [List.filter_eq_nil_iff] at h5
          simpa using h5 q hq
        have h6 : info.contexts.entries = [p] := by
          have hn := info.contexts.nodup
          generalize info.contexts.entries = l at h4 hm hn
          match l with
          | [] => cases hm
          | [q] => simp only [List.mem_singleton] at hm; rw [hm]
          | q :: q' :: l =>
            simp only [List.map_cons, List.nodup_cons, List.mem_cons] at hn
            exact absurd (.inl ((h4 q (by simp)).trans (h4 q' (by simp)).symm)) hn.1
        unfold allCalls at h2
        rw [h6] at h2
        simp at h2
        omega
      · have : info.contexts.entries = [] := List.eq_nil_of_length_eq_zero h3
        rw [this] at hm
        cases hm

/-- the record of a single call has one group -/
theorem single_entry {info : AsyncContextInfo} {c : AsyncGeneratedCall} (h : allCalls info = [c])
    (hn : ∀ p ∈ info.contexts.entries, p.2.calls ≠ []) : ∃ p, info.contexts.entries = [p] ∧ p.2.calls = [c] := by
  unfold allCalls at h
  generalize info.contexts.entries = l at h hn
  match l with
  | [] => cases h
  | p :: l =>
    have hp := hn p (by simp)
    simp only [List.flatMap_cons] at h
    match hc : p.2.calls with
    | [] => exact absurd hc hp
    | c' :: cs =>
      rw [hc] at h
      simp only [List.cons_append, List.cons.injEq, List.append_eq_nil_iff] at h
      obtain ⟨rfl, rfl, h⟩ := h
      match l with
      | [] => exact ⟨p, rfl, hc⟩
      | q :: l =>
        simp only [List.flatMap_cons, List.append_eq_nil_iff] at h
        exact absurd h.1 (hn q (by simp))

theorem single_erased {info : AsyncContextInfo} {c : AsyncGeneratedCall} {caller : Addr} (h : allCalls info = [c])
    (hn : ∀ p ∈ info.contexts.entries, p.2.calls ≠ []) (p : Bytes × AsyncContext) (hp : findContext caller info = some p) :
    p.2.calls.length ≤ 1 ∧ (info.contexts.erase p.1).size = 0 := by
  obtain ⟨q, h1, h2⟩ := single_entry h hn
  have hm := findContext_mem hp
  rw [h1, List.mem_singleton] at hm
  subst hm
  refine ⟨by rw [h2]; simp, ?_⟩
  show (info.contexts.entries.filter (fun q => q.1 ≠ p.1)).length = 0
  rw [h1]
  simp

theorem canExecSync_calm {a : Addr} {s t : St χ A} {r : Res Bool} (h : canExecSync E a s = (r, t)) : Calm E s t := by
  unfold canExecSync at h
  rw [lift_bind] at h
  have := calm_getCode (E := E) a s
  generalize getCode E a s = q at h this
  obtain ⟨r', u⟩ := q
  cases r' <;> · simp only [M.pure_eq, M.pure, Prod.mk.injEq] at h; rw [← h.2]; exact this

theorem view_getBalance (a : Addr) (s : St χ A) :
    (∀ b k, pending (getBalance E a s).2.out.cur b k = pending s.out.cur b k) ∧ (getBalance E a s).2.sto = s.sto := by
  obtain ⟨p1, p2, p3⟩ := getAcc_pending s.out a
  unfold getBalance
  generalize s.out.getAcc a = q at *
  obtain ⟨acc, isNew, out'⟩ := q
  dsimp only at p1 p2 p3 ⊢
  split
  · exact ⟨p1, rfl⟩
  · split
    · exact ⟨p1, rfl⟩
    · refine ⟨fun b k => ?_, rfl⟩
      dsimp only
      rw [pending_setAcc]
      split
      · rename_i hb; subst hb; exact p2 k
      · exact p1 b k

theorem view_transferValueOnly (dst snd : Addr) (v : Int) (p : Bool) (s : St χ A) :
    (∀ b k, view E (transferValueOnly E dst snd v p s).2 b k = view E s b k) ∧ (transferValueOnly E dst snd v p s).2.sto = s.sto := by
  have hw := transferValueOnly_world (E := E) dst snd v p s
  suffices h : (∀ b k, pending (transferValueOnly E dst snd v p s).2.out.cur b k = pending s.out.cur b k) ∧
      (transferValueOnly E dst snd v p s).2.sto = s.sto from ⟨fun b k => by simp only [view, h.1, hw], h.2⟩
  have hb := view_getBalance (E := E) snd s
  unfold transferValueOnly
  split
  · exact ⟨fun _ _ => rfl, rfl⟩
  · generalize getBalance E snd s = q at hb
    obtain ⟨bal, t⟩ := q
    dsimp only at hb ⊢
    split
    · exact hb
    · split
      · exact hb
      · split
        · exact hb
        · refine ⟨fun b k => ?_, hb.2⟩
          dsimp only
          rw [modAcc_pending, modAcc_pending, (getAcc_pending _ _).1, (getAcc_pending _ _).1, hb.1]
          · exact fun _ => rfl
          · exact fun _ => rfl

theorem notice_sent {s t : St χ A} {a : Addr} {d : Bytes} (h : sendStorageCallback E a d s = (.ok none, t)) :
    (∀ b k, view E t b k = view E s b k) ∧ t.rt = s.rt ∧ t.sto = s.sto ∧
    (∃ g, transfers (effects t) a = transfers (effects s) a ++ [notice s { returnData := d } g]) ∧
    (∀ b, b ≠ a → transfers (effects t) b = transfers (effects s) b) := by
  unfold sendStorageCallback at h
  rw [get_bind, lift_bind] at h
  have hb := transfers_transferValueOnly (E := E) a s.rt.cur.scAddress s.rt.cur.vmInput.callValue
    (s.gasLeft > 0 && CallType.asynchronousCallBack ≠ .asynchronousCallBack) s
  have hr := transferValueOnly_rt (E := E) a s.rt.cur.scAddress s.rt.cur.vmInput.callValue
    (s.gasLeft > 0 && CallType.asynchronousCallBack ≠ .asynchronousCallBack) s
  have hv := view_transferValueOnly (E := E) a s.rt.cur.scAddress s.rt.cur.vmInput.callValue
    (s.gasLeft > 0 && CallType.asynchronousCallBack ≠ .asynchronousCallBack) s
  unfold transfer at h
  generalize transferValueOnly E a s.rt.cur.scAddress s.rt.cur.vmInput.callValue
    (s.gasLeft > 0 && CallType.asynchronousCallBack ≠ .asynchronousCallBack) s = q at h hb hr hv
  obtain ⟨e, u⟩ := q
  dsimp only at h hb hr hv
  cases e with
  | some e =>
    dsimp only at h
    rcases bind_ok h with ⟨_, _, _, h⟩ | ⟨_, h⟩ | ⟨_, h⟩ <;> cases h
  | none =>
    dsimp only at h
    simp only [M.pure_eq, M.pure, Prod.mk.injEq, true_and] at h
    subst h
    refine ⟨fun b k => ?_, hr, hv.2, ⟨s.gasLeft, ?_⟩, fun b hne => ?_⟩
    · rw [← hv.1 b k]
      unfold view addTransfer
      dsimp only
      rw [modAcc_pending]
      exact fun _ => rfl
    · show transfers (u.out.modAcc _ _).cur a = _
      rw [show transfers (effects s) a = transfers u.out.cur a from (hb _).symm]
      unfold transfers
      rw [get_modAcc, if_pos rfl]
      cases u.out.cur.accounts.get? a <;> rfl
    · show transfers (u.out.modAcc _ _).cur b = _
      rw [show transfers (effects s) b = transfers u.out.cur b from (hb _).symm]
      unfold transfers
      rw [get_modAcc, if_neg (fun h => hne h.symm)]

/-- C30, for a record of one call: its callback, if it ends without an error, removes the record and tells the original caller, once. -/
theorem c30_single_partial {s t : St χ A} {info : AsyncContextInfo} {c : AsyncGeneratedCall} (hd : E.decodeAsync (record E s) = .ok info)
    (hne : record E s ≠ []) (hw : Awaits info s.rt.cur.vmInput.caller) (h1 : allCalls info = [c])
    (hn : ∀ p ∈ info.contexts.entries, p.2.calls ≠ []) (hro : s.rt.cur.readOnly = false) (hpr : s.sto.protect = true)
    (h : processCallbackStack E s = (.ok none, t)) : Concluded E s t info := by
  obtain ⟨u, hu, ⟨h2, _⟩ | ⟨p, hp, hc⟩⟩ := callback_cases hd hne h
  · exact absurd hw h2
  · obtain ⟨h3, h4⟩ := single_erased h1 hn p hp
    dsimp only at hc
    rw [if_pos h3] at hc
    rcases hc with ⟨h5, _⟩ | ⟨_, hc⟩
    · rw [h4] at h5; exact absurd h5 (by simp)
    · rcases bind_ok hc with ⟨⟨st, e⟩, v, h5, hc⟩ | ⟨_, hc⟩ | ⟨_, hc⟩
      · cases e with
        | some e => simp [M.pure_eq, M.pure] at hc
        | none =>
          dsimp only at hc
          obtain ⟨h6, _, h7⟩ := setProtected_view (by rw [hu.rt]; exact hro) (by rw [hu.sto]; exact hpr) h5
          have h8 := transfers_setProtected h5
          rcases bind_ok hc with ⟨b, w, h9, hc⟩ | ⟨_, hc⟩ | ⟨_, hc⟩
          · have h10 := canExecSync_calm h9
            cases b with
            | true =>
              simp only [if_true] at hc
              rcases bind_ok hc with ⟨_, _, _, hc⟩ | ⟨_, hc⟩ | ⟨_, hc⟩ <;> simp [M.panic] at hc
            | false =>
              simp only [Bool.false_eq_true, if_false] at hc
              obtain ⟨h11, h12, h13, ⟨g, h14⟩, h15⟩ := notice_sent hc
              have ert : w.rt = s.rt := h10.rt.trans (h7.rt.trans hu.rt)
              have esto : w.sto = s.sto := h10.sto.trans (h7.sto.trans hu.sto)
              have ev : ∀ a k, view E t a k = if a = s.sto.addr ∧ k = recordKey s.rt.cur.vmInput.originalTxHash then [] else view E s a k := by
                intro a k
                rw [h11, h10.storage, h6, hu.sto, asyncKey_eq, hu.storage]
              refine ⟨?_, fun a k hak => by rw [ev, if_neg hak], ⟨g, ?_⟩, fun a ha => ?_⟩
              · unfold record
                rw [ev, h12, h13, ert, esto, if_pos ⟨rfl, rfl⟩]
              · rw [h14, h10.transfers, h8, hu.transfers]
                unfold notice
                rw [ert]
              · rw [h15 a ha, h10.transfers, h8, hu.transfers]
          · simp at hc
          · simp at hc
      · simp at hc
      · simp at hc

/-- If the original caller can be called from here, the last callback always breaks the run off. (No contract
of this version can make groups of calls: see C81.) -/
theorem c30_local_neg {s t : St χ A} {info : AsyncContextInfo} {c : AsyncGeneratedCall} {ua : UserAcct}
    (hd : E.decodeAsync (record E s) = .ok info) (hne : record E s ≠ []) (hw : Awaits info s.rt.cur.vmInput.caller) (h1 : allCalls info = [c])
    (hn : ∀ p ∈ info.contexts.entries, p.2.calls ≠ []) (hcode : E.hook.userAccount s.world info.caller = .ok (some ua)) (hua : ua.code ≠ [])
    (hro : s.rt.cur.readOnly = false) (hpr : s.sto.protect = true) : processCallbackStack E s ≠ (.ok none, t) := by
  intro h
  obtain ⟨u, hu, ⟨h2, _⟩ | ⟨p, hp, hc⟩⟩ := callback_cases hd hne h
  · exact absurd hw h2
  · obtain ⟨h3, h4⟩ := single_erased h1 hn p hp
    dsimp only at hc
    rw [if_pos h3] at hc
    rcases hc with ⟨h5, _⟩ | ⟨_, hc⟩
    · rw [h4] at h5; exact absurd h5 (by simp)
    · rcases bind_ok hc with ⟨⟨st, e⟩, v, h5, hc⟩ | ⟨_, hc⟩ | ⟨_, hc⟩
      · cases e with
        | some e => simp [M.pure_eq, M.pure] at hc
        | none =>
          dsimp only at hc
          have hwv : v.world = s.world := ((setProtected_view (by rw [hu.rt]; exact hro) (by rw [hu.sto]; exact hpr) h5).2.2).world.trans hu.world
          rcases bind_ok hc with ⟨b, w, h9, hc⟩ | ⟨_, hc⟩ | ⟨_, hc⟩
          · have hb : b = true := by
              unfold canExecSync at h9
              rw [lift_bind] at h9
              obtain ⟨code, h10, h11⟩ : ∃ code, (getCode E info.caller v).1 = .ok code ∧ code.length > 0 := by
                unfold getCode
                dsimp only
                split
                · rename_i hl
                  simp only [Bool.and_eq_true, decide_eq_true_eq] at hl
                  exact ⟨_, rfl, hl.2⟩
                · rw [hwv, hcode]
                  dsimp only
                  have hl : ¬ ua.code.length = 0 := fun hl => by simp_all
                  rw [if_neg hl]
                  exact ⟨_, rfl, by omega⟩
              rw [h10] at h9
              simp only [M.pure_eq, M.pure, Prod.mk.injEq, Res.ok.injEq] at h9
              rw [← h9.1]
              exact decide_eq_true h11
            subst hb
            simp only [if_true] at hc
            rcases bind_ok hc with ⟨_, _, _, hc⟩ | ⟨_, hc⟩ | ⟨_, hc⟩ <;> simp [M.panic] at hc
          · simp at hc
          · simp at hc
      · simp at hc
      · simp at hc

/-! ### Witnesses -/

section
open Fixture

/-- addresses in another shard -/
def far (n : UInt8) : Addr := 9 :: (List.replicate 30 0 ++ [n])
def pendingTo (a : Addr) : AsyncGeneratedCall :=
  { status := .pending, destination := a, data := [], gasLimit := 0, valueBytes := [], successCallback := f, errorCallback := f, providedGas := 0 }
def twoPending : AsyncContextInfo :=
  { caller := far 7, returnData := [8], contexts := AMap.empty.insert [1] { callback := f, calls := [pendingTo (far 1), pendingTo (far 2)] } }
def onePending (a caller : Addr) : AsyncContextInfo :=
  { caller := caller, returnData := [8], contexts := AMap.empty.insert [1] { callback := f, calls := [pendingTo a] } }
/-- records and their encodings -/
def records : List (Bytes × AsyncContextInfo) :=
  [([1], twoPending), ([2], onePending (far 1) (far 7)), ([3], onePending (far 2) (far 7)), ([4], onePending (far 1) (addr 101))]
def pendEnv : Env World EeiCall := Env.real { envWith [([1], mod [(f, .ret)]), ([2], mod [(f, .ret)])] with
  encodeAsync := fun i => match records.find? (fun p => p.2 = i) with | some p => .ok p.1 | none => .error (.wasm 2)
  decodeAsync := fun b => match records.find? (fun p => p.1 = b) with | some p => .ok p.2 | none => .error (.wasm 2) }
/-- contract 100 waits for the calls in the given record of transaction [5] -/
def pendHost (rec : Bytes) : St World EeiCall :=
  let w := node [(addr 100, contract [1]), (addr 101, contract [2])]
  host [{ w.cur with storage := AMap.empty.insert (addr 100, recordKey [5]) rec }]
/-- a callback from a contract that was called -/
def pendTx (caller : Addr) : Tx :=
  .call { vm := { caller := caller, gasProvided := 100000, callType := .asynchronousCallBack, args := [[0]], originalTxHash := [5] },
          recipient := addr 100, function := callbackName }

/-- contract 100 at the end of a callback -/
def pendRun (rec : Bytes) (caller : Addr) : St World EeiCall :=
  let s := pendHost rec
  { running with
    world := s.world
    rt := { (running).rt with cur := { (running).rt.cur with vmInput := { caller := caller, originalTxHash := [5] } } } }
/-- the hypotheses of the theorems above -/
example : record pendEnv (pendRun [1] (far 1)) = [1] ∧ record pendEnv (pendRun [2] (far 1)) = [2] := by decide +kernel
example : Awaits twoPending (far 2) := by
  refine ⟨([1], _), .head _, by simp, pendingTo (far 2), .tail _ (.head _), rfl⟩
example : ¬ Awaits twoPending (far 3) := by rw [← findContext_none]; decide +kernel
example : allCalls (onePending (far 1) (far 7)) = [pendingTo (far 1)] ∧
    ∀ p ∈ (onePending (far 1) (far 7)).contexts.entries, p.2.calls ≠ [] := by decide +kernel
example : (pendRun [2] (far 1)).rt.cur.readOnly = false ∧ (pendRun [2] (far 1)).sto.protect = true := ⟨rfl, rfl⟩
example : (processCallbackStack pendEnv (pendRun [1] (far 1))).1 = .ok none := by decide +kernel
example : (processCallbackStack pendEnv (pendRun [2] (far 1))).1 = .ok none := by decide +kernel
example : (processCallbackStack pendEnv (pendRun [4] (far 1))).1 = .panic := by decide +kernel
/-- before the second version of the gas accounting, a transaction can conclude the pending calls -/
def oldEnv : Env World EeiCall := Env.real { pendEnv with v2Epoch := 10 }
example : checkOut (runTx oldEnv 5 (pendTx (far 1)) (pendHost [2])) (fun o => decide (o.returnCode = .ok ∧
    pending o (addr 100) (recordKey [5]) = some [] ∧ (transfers o (far 7)).map OutTransfer.data = [[8]])) = true := by decide +kernel

/-- The callbacks of both pending calls arrive, and both transactions succeed; the record is still there with both calls, and the
original caller was not told. (No contract
of this version can make groups of calls: see C81.) -/
theorem c30_neg : ∃ (E : Env World EeiCall) (n : Nat) (tx tx' : Tx) (s : St World EeiCall) (o o' : VMOutput) (info : AsyncContextInfo)
    (c c' : AsyncGeneratedCall), E.api = eei E ∧ AtRest E s ∧
    E.decodeAsync (E.hook.storageData s.world (addr 100) (recordKey [5])) = .ok info ∧
    E.encodeAsync info = .ok (E.hook.storageData s.world (addr 100) (recordKey [5])) ∧ allCalls info = [c, c'] ∧
    tx = pendTx c.destination ∧ tx' = pendTx c'.destination ∧ c.destination ≠ c'.destination ∧
    Outputs E n tx s o ∧ o.returnCode = .ok ∧
    (∀ k, ((pending o (addr 100) k).getD (E.hook.storageData s.world (addr 100) k)) = E.hook.storageData s.world (addr 100) k) ∧
    (∀ a k, E.hook.storageData (runTx E n tx s).2.world a k = E.hook.storageData s.world a k) ∧ Outputs E n tx' (runTx E n tx s).2 o' ∧ o'.returnCode = .ok ∧
    pending o' (addr 100) (recordKey [5]) = some (E.hook.storageData s.world (addr 100) (recordKey [5])) ∧
    transfers o info.caller = [] ∧ transfers o' info.caller = [] := by
  have h1 : checkOut (runTx pendEnv 5 (pendTx (far 1)) (pendHost [1])) (fun o => decide (o.returnCode = .ok ∧
      (o.accounts.get? (addr 100)).map OutAcc.storage = some (AMap.empty.insert (recordKey [5]) [1]) ∧ transfers o (far 7) = [])) = true := by
    decide +kernel
  have h2 : checkOut (runTx pendEnv 5 (pendTx (far 2)) (runTx pendEnv 5 (pendTx (far 1)) (pendHost [1])).2) (fun o =>
      decide (o.returnCode = .ok ∧ pending o (addr 100) (recordKey [5]) = some [1] ∧ transfers o (far 7) = [])) = true := by
    decide +kernel
  have h3 : (World.cur (runTx pendEnv 5 (pendTx (far 1)) (pendHost [1])).2.world).storage = (World.cur (pendHost [1]).world).storage := by
    decide +kernel
  obtain ⟨o1, h1, e1⟩ := checkOut_elim h1
  obtain ⟨o2, h2, e2⟩ := checkOut_elim h2
  obtain ⟨e1, e3, e4⟩ := of_decide_eq_true e1
  obtain ⟨e2, e5, e6⟩ := of_decide_eq_true e2
  have hrec : pendEnv.hook.storageData (pendHost [1]).world (addr 100) (recordKey [5]) = [1] := by decide +kernel
  refine ⟨pendEnv, 5, _, _, pendHost [1], o1, o2, twoPending, pendingTo (far 1), pendingTo (far 2), rfl, ⟨.inl rfl, rfl, .inl rfl⟩,
    ?_, ?_, by decide +kernel, rfl, rfl, by decide +kernel, h1, e1, ?_, ?_, h2, e2, ?_, e4, e6⟩
  · rw [hrec]; rfl
  · rw [hrec]; decide +kernel
  · intro k
    unfold pending
    simp only [Option.map_eq_some_iff] at e3
    obtain ⟨acc, e3, e7⟩ := e3
    rw [e3]
    simp only [Option.bind_some, e7, AMap.get?_insert]
    split
    · rename_i hk; subst hk; rw [hrec]; rfl
    · rfl
  · intro a k
    rw [show (pendingTo (far 1)).destination = far 1 from rfl]
    generalize (runTx pendEnv 5 (pendTx (far 1)) (pendHost [1])).2.world = w at h3
    show ((World.cur w).storage.get? (a, k)).getD [] = ((World.cur (pendHost [1]).world).storage.get? (a, k)).getD []
    rw [h3]
  · rw [hrec]; exact e5

/-- Even the callback of the only pending call fails: the notice for the original caller carries all the gas that is left, but this gas
also stays with the contract, and the final check of the gas notices. So the record stays and the original caller is not told. (No contract
of this version can make groups of calls: see C81.) -/
theorem c30_last_neg : ∃ (E : Env World EeiCall) (n : Nat) (tx : Tx) (s : St World EeiCall) (o : VMOutput) (info : AsyncContextInfo)
    (c : AsyncGeneratedCall), E.api = eei E ∧ AtRest E s ∧
    E.decodeAsync (E.hook.storageData s.world (addr 100) (recordKey [5])) = .ok info ∧
    E.encodeAsync info = .ok (E.hook.storageData s.world (addr 100) (recordKey [5])) ∧ allCalls info = [c] ∧
    E.hook.userAccount s.world info.caller = .ok none ∧
    tx = pendTx c.destination ∧ Outputs E n tx s o ∧ o.returnCode = .executionFailed ∧ o.accounts = AMap.empty := by
  have h1 : checkOut (runTx pendEnv 5 (pendTx (far 1)) (pendHost [2])) (fun o => decide (o.returnCode = .executionFailed ∧
      o.accounts = AMap.empty)) = true := by decide +kernel
  obtain ⟨o1, h1, e1⟩ := checkOut_elim h1
  obtain ⟨e1, e3⟩ := of_decide_eq_true e1
  have hrec : pendEnv.hook.storageData (pendHost [2]).world (addr 100) (recordKey [5]) = [2] := by decide +kernel
  refine ⟨pendEnv, 5, _, pendHost [2], o1, onePending (far 1) (far 7), pendingTo (far 1), rfl, ⟨.inl rfl, rfl, .inl rfl⟩, ?_, ?_,
    by decide +kernel, by decide +kernel, rfl, h1, e1, e3⟩
  · rw [hrec]; rfl
  · rw [hrec]; decide +kernel
end

end Arwen.Props
