import Verif.Host.TxOut
import Verif.Eei.Commands
/-
Pre- and postconditions of host functions that return (no panic), and the return code during an execution: it is Ok until the
execution fails.
-/
namespace Arwen
variable {χ A : Type} {E : Env χ A} {ex : Executor χ A}

/-- if the function is started in a state with `P` and returns, `Q` holds of its result and the final state -/
def Tri {α : Type} (P : St χ A → Prop) (m : M χ A α) (Q : α → St χ A → Prop) : Prop :=
  ∀ s a t, P s → m s = (.ok a, t) → Q a t

/-- the function keeps `P` whenever it returns -/
abbrev Keeps {α : Type} (P : St χ A → Prop) (m : M χ A α) : Prop := Tri P m (fun _ => P)

section
variable {α β : Type} {P R : St χ A → Prop} {Q : β → St χ A → Prop}

theorem tri_pure {Q : α → St χ A → Prop} {a : α} (h : ∀ s, P s → Q a s) : Tri P (pure a) Q := by
  intro s b t hp he
  simp only [M.pure_eq, M.pure, Prod.mk.injEq, Res.ok.injEq] at he
  rw [← he.1, ← he.2]; exact h s hp
theorem tri_panic {Q : α → St χ A → Prop} : Tri P M.panic Q := by
  intro s b t hp he; simp [M.panic] at he
theorem tri_bind {m : M χ A α} {f : α → M χ A β} {T : α → St χ A → Prop} (h : Tri P m T) (hf : ∀ a, Tri (T a) (f a) Q) :
    Tri P (m >>= f) Q := by
  intro s b t hp he
  rcases bind_ok he with ⟨a, u, h1, h2⟩ | ⟨_, h2⟩ | ⟨_, h2⟩
  · exact hf a u b t (h s a u hp h1) h2
  · simp at h2
  · simp at h2
theorem tri_get {f : St χ A → M χ A β} (h : ∀ s, P s → Tri (fun t => t = s) (f s) Q) : Tri P (M.get >>= f) Q := by
  intro s b t hp he; exact h s hp s b t rfl he
theorem tri_any {α : Type} {P : St χ A → Prop} {m : M χ A α} : Tri P m (fun _ _ => True) := fun _ _ _ _ _ => trivial
/-- reading the state, when only `P` is needed of it -/
theorem tri_get' {f : St χ A → M χ A β} (h : ∀ s, Tri P (f s) Q) : Tri P (M.get >>= f) Q := by
  intro s b t hp he; exact h s s b t hp he
theorem tri_gets {f : St χ A → α} {Q : α → St χ A → Prop} (h : ∀ s, P s → Q (f s) s) : Tri P (M.gets f) Q := by
  intro s b t hp he
  simp only [M.gets, Prod.mk.injEq, Res.ok.injEq] at he
  rw [← he.1, ← he.2]; exact h s hp
theorem tri_modify {f : St χ A → St χ A} {Q : Unit → St χ A → Prop} (h : ∀ s, P s → Q () (f s)) : Tri P (M.modify f) Q := by
  intro s b t hp he
  simp only [M.modify, Prod.mk.injEq] at he
  rw [← he.2]; exact h s hp
theorem tri_lift {f : St χ A → α × St χ A} {Q : α → St χ A → Prop} (h : ∀ s, P s → Q (f s).1 (f s).2) : Tri P (M.lift f) Q := by
  intro s b t hp he
  simp only [M.lift, Prod.mk.injEq, Res.ok.injEq] at he
  rw [← he.1, ← he.2]; exact h s hp
theorem tri_post {m : M χ A α} {Q Q' : α → St χ A → Prop} (h : Tri P m Q) (hq : ∀ a s, Q a s → Q' a s) : Tri P m Q' :=
  fun s a t hp he => hq a t (h s a t hp he)
theorem tri_pre {m : M χ A α} {Q : α → St χ A → Prop} (h : Tri P m Q) (hp : ∀ s, R s → P s) : Tri R m Q :=
  fun s a t hr he => h s a t (hp s hr) he
theorem tri_deferred {m : M χ A α} {f : Option α → M χ A β} {T : α → St χ A → Prop} (h : Tri P m T)
    (hf : ∀ a, Tri (T a) (f (some a)) Q) : Tri P (M.deferred m f) Q := by
  intro s b t hp he
  simp only [M.deferred] at he
  split at he
  · rename_i a u h1; exact hf a u b t (h s a u hp h1) he
  · split at he <;> simp at he
  · simp at he
end

section
variable {α β : Type} {P : St χ A → Prop} {Q : β → St χ A → Prop}
theorem keep_bind {m : M χ A α} {f : α → M χ A β} (h : Keeps P m) (hf : ∀ a, Tri P (f a) Q) : Tri P (m >>= f) Q :=
  tri_bind h hf
theorem tri_ite {c : Prop} [Decidable c] {m m' : M χ A β} (h : c → Tri P m Q) (h' : ¬ c → Tri P m' Q) : Tri P (if c then m else m') Q := by
  split
  · exact h ‹_›
  · exact h' ‹_›
theorem keep_pure {a : α} : Keeps P (pure a) := tri_pure fun _ h => h
theorem keep_modify {f : St χ A → St χ A} (h : ∀ s, P s → P (f s)) : Keeps P (M.modify f) := tri_modify h
theorem keep_lift {f : St χ A → α × St χ A} (h : ∀ s, P s → P (f s).2) : Keeps P (M.lift f) := tri_lift h
end

/-- one step in the proof of a triple that keeps a property of the output -/
macro "tri_step" : tactic => `(tactic| first
  | with_reducible exact tri_panic
  | with_reducible assumption
  | with_reducible refine tri_pure (fun _ h => h)
  | with_reducible refine tri_modify (fun _ h => h)
  | with_reducible refine tri_get' (fun _ => ?_)
  | with_reducible refine tri_bind (T := fun _ => _) ?_ (fun _ => ?_)
  | split)

/-! ### The return code -/

/-- no failure has been recorded -/
def Fine (s : St χ A) : Prop := s.out.cur.returnCode = .ok

theorem fine_setPointsUsed (g : UInt64) : Keeps (Fine (χ := χ) (A := A)) (setPointsUsed g) := by
  intro s a t h he
  simp only [setPointsUsed] at he
  split at he
  · simp at he
  · simp only [Prod.mk.injEq] at he; rw [← he.2]; exact h
theorem fine_setBreakpoint (b : Breakpoint) : Keeps (Fine (χ := χ) (A := A)) (setBreakpoint b) := by
  intro s a t h he
  simp only [setBreakpoint] at he
  split at he
  · simp at he
  · simp only [Prod.mk.injEq] at he; rw [← he.2]; exact h
theorem fine_getBreakpoint : Keeps (Fine (χ := χ) (A := A)) getBreakpoint := by
  intro s a t h he
  simp only [getBreakpoint] at he
  split at he
  · simp at he
  · simp only [Prod.mk.injEq] at he; rw [← he.2]; exact h
theorem fine_curInst : Keeps (Fine (χ := χ) (A := A)) curInst := by
  intro s a t h he
  simp only [curInst] at he
  split at he
  · simp at he
  · simp only [Prod.mk.injEq] at he; rw [← he.2]; exact h
theorem fine_useGas (g : UInt64) : Keeps (Fine (χ := χ) (A := A)) (useGas g) := tri_get' fun _ => fine_setPointsUsed _
theorem fine_restoreGas (g : UInt64) : Keeps (Fine (χ := χ) (A := A)) (restoreGas g) := by
  unfold restoreGas
  refine tri_get' fun _ => ?_
  split
  · exact fine_setPointsUsed _
  · exact tri_pure fun _ h => h
theorem fine_freeGas (g : UInt64) : Keeps (Fine (χ := χ) (A := A)) (freeGas g) := tri_modify fun _ h => h
theorem fine_useGasBounded (g : UInt64) : Keeps (Fine (χ := χ) (A := A)) (useGasBounded g) := by
  unfold useGasBounded
  refine tri_get' fun _ => ?_
  split
  · exact tri_pure fun _ h => h
  · exact tri_bind (fine_useGas _) fun _ => tri_pure fun _ h => h
theorem fine_useGasForAsyncStep : Keeps (Fine (χ := χ) (A := A)) useGasForAsyncStep := tri_get' fun _ => fine_useGasBounded _
theorem fine_deductInitialGas (n : Nat) (b c : UInt64) : Keeps (Fine (χ := χ) (A := A)) (deductInitialGas n b c) := by
  intro s a t h he
  simp only [deductInitialGas] at he
  split at he <;> · simp only [Prod.mk.injEq] at he; rw [← he.2]; exact h
theorem fine_memStore (o : Int32) (d : Bytes) : Keeps Fine (memStore E o d) := by
  intro s a t h he
  simp only [memStore] at he
  split at he
  · simp only [Prod.mk.injEq] at he; rw [← he.2]; exact h
  · split at he
    · simp at he
    · split at he
      · simp at he
      · simp only [Prod.mk.injEq] at he; rw [← he.2]; exact h

theorem getAcc_rc (c : OutCtx) (a : Addr) : (c.getAcc a).2.2.cur.returnCode = c.cur.returnCode := by
  unfold OutCtx.getAcc; split <;> rfl
theorem fine_getBalance (a : Addr) (s : St χ A) (h : Fine s) : Fine (getBalance E a s).2 := by
  have := getAcc_rc s.out a
  simp only [Fine] at h ⊢
  unfold getBalance
  generalize s.out.getAcc a = q at this ⊢
  obtain ⟨acc, new, c⟩ := q
  dsimp only at this ⊢
  split
  · rw [← h, ← this]
  · split <;> rw [← h, ← this] <;> rfl
theorem fine_getNonce (a : Addr) (s : St χ A) (h : Fine s) : Fine (getNonce E a s).2 := by
  have := getAcc_rc s.out a
  simp only [Fine] at h ⊢
  unfold getNonce
  generalize s.out.getAcc a = q at this ⊢
  obtain ⟨acc, new, c⟩ := q
  dsimp only at this ⊢
  split
  · rw [← h, ← this]
  · split <;> rw [← h, ← this] <;> rfl
theorem fine_increaseNonce (a : Addr) (s : St χ A) (h : Fine s) : Fine (increaseNonce E a s) := by
  have := fine_getNonce (E := E) a s h
  simp only [Fine] at this ⊢
  unfold increaseNonce
  generalize getNonce E a s = q at this ⊢
  obtain ⟨r, c⟩ := q
  exact this
theorem fine_newAddress (a : Addr) (s : St χ A) (h : Fine s) : Fine (newAddress E a s).2 := by
  have := fine_getNonce (E := E) a s h
  simp only [Fine] at this ⊢
  unfold newAddress
  generalize getNonce E a s = q at this ⊢
  obtain ⟨r, c⟩ := q
  dsimp only at this ⊢
  split <;> exact this
theorem fine_getCode (a : Addr) (s : St χ A) (h : Fine s) : Fine (getCode E a s).2 := by
  have := getAcc_rc s.out a
  simp only [Fine] at h ⊢
  unfold getCode
  generalize s.out.getAcc a = q at this ⊢
  obtain ⟨acc, new, c⟩ := q
  dsimp only at this ⊢
  split
  · rw [← h, ← this]
  · split
    · rw [← h, ← this]
    · rw [← h, ← this]
    · split <;> rw [← h, ← this] <;> rfl
theorem fine_getSCCode (s : St χ A) (h : Fine s) : Fine (getSCCode E s).2 := by
  have := fine_getCode (E := E) s.rt.cur.scAddress s h
  simp only [Fine] at this ⊢
  unfold getSCCode
  generalize getCode E s.rt.cur.scAddress s = q at this ⊢
  obtain ⟨r, c⟩ := q
  dsimp only at this ⊢
  split <;> exact this
theorem fine_transferValueOnly (d sn : Addr) (v : Int) (b : Bool) (s : St χ A) (h : Fine s) : Fine (transferValueOnly E d sn v b s).2 := by
  unfold transferValueOnly
  split
  · exact h
  · have := fine_getBalance (E := E) sn s h
    generalize getBalance E sn s = q at this ⊢
    obtain ⟨r, c⟩ := q
    dsimp only at this ⊢
    split
    · exact this
    · split
      · exact this
      · split
        · exact this
        · simp only [Fine, OutCtx.modAcc, OutCtx.setAcc, getAcc_rc]; exact this
theorem fine_transfer (d sn : Addr) (gl gk : UInt64) (v : Int) (data : Bytes) (ct : CallType) (s : St χ A) (h : Fine s) :
    Fine (transfer E d sn gl gk v data ct s).2 := by
  unfold transfer
  have := fine_transferValueOnly (E := E) d sn v (gl > 0 && ct ≠ .asynchronousCallBack) s h
  generalize transferValueOnly E d sn v (gl > 0 && ct ≠ .asynchronousCallBack) s = q at this ⊢
  obtain ⟨r, c⟩ := q
  dsimp only at this ⊢
  split <;> exact this
theorem fine_readStorage (a : Addr) (k : Bytes) (s : St χ A) (h : Fine s) : Fine (readStorage E a k s).2 := by
  have := getAcc_rc s.out a
  simp only [Fine] at h ⊢
  unfold readStorage
  generalize s.out.getAcc a = q at this ⊢
  obtain ⟨acc, new, c⟩ := q
  dsimp only at this ⊢
  split <;> rw [← h, ← this] <;> rfl
theorem fine_useKeyGas (k : Bytes) : Keeps (Fine (χ := χ) (A := A)) (useKeyGas k) := by
  unfold useKeyGas
  refine tri_get' fun _ => ?_
  split
  · exact fine_useGas _
  · exact keep_pure
theorem fine_getStorageUnmetered (k : Bytes) : Keeps Fine (getStorageUnmetered E k) := by
  intro s a t h he
  exact tri_lift (P := Fine) (Q := fun _ => Fine) (fun s h => fine_readStorage _ _ s h) s a t h he
theorem fine_getStorage (k : Bytes) : Keeps Fine (getStorage E k) := by
  unfold getStorage
  exact keep_bind (fine_useKeyGas _) fun _ => keep_bind (fine_getStorageUnmetered _) fun _ => tri_get' fun _ =>
    keep_bind (fine_useGas _) fun _ => keep_pure
theorem fine_getStorageFromAddress (a : Addr) (k : Bytes) : Keeps Fine (getStorageFromAddress E a k) := by
  unfold getStorageFromAddress
  refine keep_bind (fine_useKeyGas _) fun _ => tri_get' fun _ => ?_
  split
  · exact keep_pure
  dsimp only
  split
  · exact keep_bind (tri_gets fun _ h => h) fun _ => keep_bind (fine_useGas _) fun _ => keep_pure
  · exact keep_bind (keep_lift fun s h => fine_readStorage _ _ s h) fun _ => keep_bind (fine_useGas _) fun _ => keep_pure
theorem fine_storageGas (old v : Bytes) : Keeps (Fine (χ := χ) (A := A)) (storageGas old v) := by
  unfold storageGas
  refine tri_get' fun _ => ?_
  dsimp only
  split
  · exact keep_bind (fine_useGas _) fun _ => keep_pure
  split
  · exact keep_bind (fine_freeGas _) fun _ => keep_pure
  split
  · exact keep_bind (fine_useGas _) fun _ => keep_pure
  split
  · exact keep_bind (fine_useGas _) fun _ => keep_bind (fine_freeGas _) fun _ => keep_pure
  · exact keep_pure
theorem fine_setStorage (k v : Bytes) : Keeps Fine (setStorage E k v) := by
  unfold setStorage
  refine tri_get' fun _ => ?_
  split
  · exact keep_pure
  split
  · exact keep_pure
  split
  · exact keep_pure
  refine keep_bind (fine_useKeyGas _) fun _ => keep_bind (fine_getStorageUnmetered _) fun _ => ?_
  split
  · exact tri_get' fun _ => keep_bind (fine_useGas _) fun _ => keep_pure
  · exact keep_bind (keep_modify fun _ h => h) fun _ => keep_bind (fine_storageGas _ _) fun _ => keep_pure
theorem fine_setProtectedStorage (k v : Bytes) : Keeps Fine (setProtectedStorage E k v) := by
  unfold setProtectedStorage
  exact keep_bind (keep_modify fun _ h => h) fun _ => tri_deferred (fine_setStorage _ _) fun _ =>
    keep_bind (keep_modify fun _ h => h) fun _ => keep_pure
theorem fine_executeAsyncCall (a : Addr) (d v : Bytes) : Keeps (Fine (χ := χ) (A := A)) (executeAsyncCall a d v) := by
  unfold executeAsyncCall
  refine keep_bind fine_useGasForAsyncStep fun r => ?_
  split
  · exact keep_pure
  refine keep_bind (keep_bind fine_curInst fun _ => keep_pure) fun _ => tri_get' fun _ => ?_
  dsimp only
  have hl : ∀ lock : UInt64, Keeps (Fine (χ := χ) (A := A)) (do
      M.modify (fun s => s.setAsyncCallInfo
        { destination := a, data := d, gasLimit := s.gasLeft, gasLocked := lock, valueBytes := v })
      setBreakpoint .asyncCall
      pure (none : Option Err)) := fun lock =>
    keep_bind (keep_modify fun _ h => h) fun _ => keep_bind (fine_setBreakpoint _) fun _ => keep_pure
  split
  · refine keep_bind (fine_useGasBounded _) fun r => ?_
    split
    · exact keep_pure
    · exact hl _
  · exact hl _
theorem fine_processBuiltin (i : CallInput) : Keeps Fine (processBuiltin E i) := tri_lift fun _ h => h
theorem fine_executeEsdtTransfer (d sn : Addr) (tok : Bytes) (n : UInt64) (v : Int) (ct : CallType) :
    Keeps Fine (executeEsdtTransfer E d sn tok n v ct) := by
  unfold executeEsdtTransfer
  refine tri_get' fun _ => keep_bind (fine_processBuiltin _) fun r => ?_
  split
  · exact keep_pure
  split
  · exact keep_pure
  dsimp only
  split
  · refine tri_get' fun _ => ?_
    split
    · exact keep_pure
    · exact keep_bind (fine_useGas _) fun _ => keep_pure
  · exact keep_pure
theorem fine_transferESDT (d sn : Addr) (tok : Bytes) (n : UInt64) (v : Int) (ci : Option CallInput) :
    Keeps Fine (transferESDT E d sn tok n v ci) := by
  unfold transferESDT
  refine tri_get' fun _ => keep_bind (fine_executeEsdtTransfer _ _ _ _ _ _) fun r => ?_
  split
  · exact keep_pure
  refine tri_ite (fun _ => keep_pure) (fun _ => tri_get' fun _ => ?_)
  refine tri_ite (fun _ => keep_pure) (fun _ => ?_)
  refine tri_ite (fun _ => ?_) (fun _ => ?_)
  · exact keep_bind (fine_useGas _) fun _ => keep_bind (keep_modify fun _ h => h) fun _ =>
      keep_bind (keep_modify fun _ h => h) fun _ => keep_pure
  · exact keep_bind (keep_modify fun _ h => h) fun _ =>
      keep_bind (keep_modify fun _ h => h) fun _ => keep_pure

end Arwen
