import Verif.Host.Accounts
import Verif.Host.OutInv
import Verif.Spec.Storage
import Verif.Fixture
/-
Contract storage: C06, C07, C08, C09, C10.
-/
namespace Arwen.Props
open Arwen Arwen.Spec
variable {χ A : Type} {E : Env χ A}

/-! ### Pending updates -/

theorem pending_insert (o : VMOutput) (a b : Addr) (acc : OutAcc) (k : Bytes) :
    pending { o with accounts := o.accounts.insert a acc } b k = if b = a then acc.storage.get? k else pending o b k := by
  simp only [pending, AMap.get?_insert]
  by_cases h : b = a
  · subst h; simp
  · have : a ≠ b := fun hc => h hc.symm
    simp [h, this]

theorem pending_setAcc (c : OutCtx) (a b : Addr) (acc : OutAcc) (k : Bytes) :
    pending (c.setAcc a acc).cur b k = if b = a then acc.storage.get? k else pending c.cur b k := pending_insert _ _ _ _ _

theorem getAcc_pending (c : OutCtx) (a : Addr) :
    (∀ b k, pending (c.getAcc a).2.2.cur b k = pending c.cur b k) ∧ (∀ k, (c.getAcc a).1.storage.get? k = pending c.cur a k) ∧
    (c.getAcc a).2.2.stack = c.stack := by
  unfold OutCtx.getAcc
  split
  · rename_i acc h
    exact ⟨fun _ _ => rfl, fun k => by simp [pending, h], rfl⟩
  · rename_i h
    refine ⟨fun b k => ?_, fun k => by simp [pending, h], rfl⟩
    rw [pending_insert]
    by_cases hb : b = a
    · subst hb; simp [pending, h]
    · simp [hb]

/-- a change of an account's other fields keeps all pending updates -/
theorem modAcc_pending (c : OutCtx) (a b : Addr) (f : OutAcc → OutAcc) (hf : ∀ x, (f x).storage = x.storage) (k : Bytes) :
    pending (c.modAcc a f).cur b k = pending c.cur b k := by
  unfold OutCtx.modAcc
  rw [pending_setAcc, hf]
  by_cases hb : b = a
  · subst hb; simp [(getAcc_pending c b).2.1 k]
  · simp [hb]

/-- reading: the answer is the value stored, and no value changes -/
theorem readStorage_view (a : Addr) (k : Bytes) (s : St χ A) :
    (readStorage E a k s).1 = view E s a k ∧ (∀ b l, view E (readStorage E a k s).2 b l = view E s b l) := by
  obtain ⟨h1, h2, h3⟩ := getAcc_pending s.out a
  unfold readStorage
  dsimp only
  rw [h2 k]
  cases hp : pending s.out.cur a k with
  | some v =>
    refine ⟨by simp [view, hp], fun b l => ?_⟩
    simp only [view, h1]
  | none =>
    refine ⟨by simp [view, hp], fun b l => ?_⟩
    simp only [view]
    rw [pending_setAcc]
    by_cases hb : b = a
    · subst hb
      simp only [if_true, AMap.get?_insert]
      by_cases hl : k = l
      · subst hl; simp [hp]
      · simp [hl, h2]
    · simp [hb, h1]

/-- a read only adds pending entries -/
theorem readStorage_grows (a : Addr) (k : Bytes) (s : St χ A) : ∃ o : VMOutput,
    (readStorage E a k s).2 = { s with out := { s.out with cur := o } } ∧
    (∀ b l, (pending s.out.cur b l).isSome → (pending o b l).isSome) ∧ (pending o a k).isSome := by
  obtain ⟨h1, h2, h3⟩ := getAcc_pending s.out a
  have h4 : (s.out.getAcc a).2.2 = { s.out with cur := (s.out.getAcc a).2.2.cur } := by
    unfold OutCtx.getAcc; split <;> rfl
  unfold readStorage
  dsimp only
  rw [h2 k]
  cases hp : pending s.out.cur a k with
  | some v =>
    refine ⟨(s.out.getAcc a).2.2.cur, ?_, fun b l h => by rw [h1]; exact h, by rw [h1, hp]; rfl⟩
    dsimp only
    rw [← h4]
  | none =>
    refine ⟨((s.out.getAcc a).2.2.setAcc a { (s.out.getAcc a).1 with storage := (s.out.getAcc a).1.storage.insert k (E.hook.storageData s.world a k) }).cur, ?_, fun b l h => ?_, ?_⟩
    · dsimp only
      unfold OutCtx.setAcc
      rw [h4]
    · rw [pending_setAcc]
      by_cases hb : b = a
      · subst hb
        simp only [if_true, AMap.get?_insert]
        by_cases hl : k = l
        · subst hl; simp
        · simpa [hl, h2] using h
      · simpa [hb, h1] using h
    · rw [pending_setAcc]; simp

/-- a read leaves all other pending entries alone -/
theorem readStorage_pending (a : Addr) (k : Bytes) (s : St χ A) (b : Addr) (l : Bytes) (hn : ¬ (b = a ∧ l = k)) :
    pending (readStorage E a k s).2.out.cur b l = pending s.out.cur b l := by
  obtain ⟨h1, h2, h3⟩ := getAcc_pending s.out a
  unfold readStorage
  dsimp only
  rw [h2 k]
  cases hp : pending s.out.cur a k with
  | some v => exact h1 b l
  | none =>
    show pending (OutCtx.setAcc _ _ _).cur b l = _
    rw [pending_setAcc]
    by_cases hb : b = a
    · subst hb
      have : k ≠ l := fun h => hn ⟨rfl, h.symm⟩
      simp only [if_true, AMap.get?_insert, if_neg this, h2]
    · simp [hb, h1]

theorem writeStorage_view (a : Addr) (k v : Bytes) (s : St χ A) (b : Addr) (l : Bytes) :
    view E (writeStorage a k v s) b l = if b = a ∧ l = k then v else view E s b l := by
  obtain ⟨h1, h2, h3⟩ := getAcc_pending s.out a
  simp only [view, writeStorage, OutCtx.modAcc]
  rw [pending_setAcc]
  by_cases hb : b = a
  · subst hb
    simp only [if_true, AMap.get?_insert, true_and]
    by_cases hl : k = l
    · subst hl; simp
    · have : ¬ l = k := fun h => hl h.symm
      simp [hl, this, h2]
  · simp [hb]

theorem writeStorage_pending (a : Addr) (k v : Bytes) (s : St χ A) (b : Addr) (l : Bytes) :
    pending (writeStorage a k v s).out.cur b l = if b = a ∧ l = k then some v else pending s.out.cur b l := by
  obtain ⟨h1, h2, h3⟩ := getAcc_pending s.out a
  simp only [writeStorage, OutCtx.modAcc]
  rw [pending_setAcc]
  by_cases hb : b = a
  · subst hb
    simp only [if_true, AMap.get?_insert, true_and]
    by_cases hl : k = l
    · subst hl; simp
    · have : ¬ l = k := fun h => hl h.symm
      simp [hl, this, h2]
  · simp [hb]

/-! ### Storage operations -/

/-- Two states in which the storage context, the chain and the saved outputs agree, and no pending update has been dropped. -/
structure StoreFrame (s t : St χ A) : Prop where
  world : t.world = s.world
  sto : t.sto = s.sto
  rt : t.rt = s.rt
  stack : t.out.stack = s.out.stack
  grows : ∀ b l, (pending s.out.cur b l).isSome → (pending t.out.cur b l).isSome

theorem StoreFrame.refl (s : St χ A) : StoreFrame s s := ⟨rfl, rfl, rfl, rfl, fun _ _ h => h⟩
theorem StoreFrame.trans {s t u : St χ A} (h : StoreFrame s t) (h' : StoreFrame t u) : StoreFrame s u :=
  ⟨h'.world.trans h.world, h'.sto.trans h.sto, h'.rt.trans h.rt, h'.stack.trans h.stack, fun b l hp => h'.grows b l (h.grows b l hp)⟩

/-- nothing about storage has changed -/
structure Untouched (s t : St χ A) : Prop extends StoreFrame s t where
  same : ∀ b l, pending t.out.cur b l = pending s.out.cur b l

theorem Untouched.refl (s : St χ A) : Untouched s s := ⟨.refl s, fun _ _ => rfl⟩
theorem Untouched.trans {s t u : St χ A} (h : Untouched s t) (h' : Untouched t u) : Untouched s u :=
  ⟨h.toStoreFrame.trans h'.toStoreFrame, fun b l => (h'.same b l).trans (h.same b l)⟩
theorem Untouched.view {s t : St χ A} (h : Untouched s t) (b : Addr) (l : Bytes) : view E t b l = view E s b l := by
  simp only [Spec.view, h.same, h.world]

theorem useGas_untouched {g : UInt64} {s t : St χ A} {u : Unit} (h : useGas g s = (.ok u, t)) : Untouched s t := by
  simp only [useGas, M.bind_eq, M.bind, M.get, setPointsUsed] at h
  split at h
  · simp at h
  · simp only [Prod.mk.injEq, true_and] at h; rw [← h]; exact ⟨⟨rfl, rfl, rfl, rfl, fun _ _ h => h⟩, fun _ _ => rfl⟩

theorem useKeyGas_untouched {k : Bytes} {s t : St χ A} {u : Unit} (h : useKeyGas k s = (.ok u, t)) : Untouched s t := by
  unfold useKeyGas at h
  rw [get_bind] at h
  split at h
  · exact useGas_untouched h
  · simp only [M.pure_eq, M.pure, Prod.mk.injEq, true_and] at h; rw [← h]; exact .refl s

theorem freeGas_untouched {g : UInt64} {s t : St χ A} {u : Unit} (h : freeGas g s = (.ok u, t)) : Untouched s t := by
  simp only [freeGas, M.modify, Prod.mk.injEq, true_and] at h
  rw [← h]; exact ⟨⟨rfl, rfl, rfl, rfl, fun _ _ h => h⟩, fun _ _ => rfl⟩

theorem storageGas_untouched {old v : Bytes} {s t : St χ A} {st : StorageStatus} (h : storageGas old v s = (.ok st, t)) : Untouched s t := by
  unfold storageGas at h
  rw [get_bind] at h
  have fin : ∀ {m : M χ A Unit} {x y : St χ A} {r q : StorageStatus}, (m >>= fun _ => pure r) x = (.ok q, y) →
      (∀ y, m x = (.ok (), y) → Untouched x y) → Untouched x y := by
    intro m x y r q h hm
    rcases bind_ok h with ⟨_, w, h1, h2⟩ | ⟨_, h2⟩ | ⟨_, h2⟩
    · simp only [M.pure_eq, M.pure, Prod.mk.injEq] at h2; rw [← h2.2]; exact hm w h1
    · simp at h2
    · simp at h2
  split at h
  · exact fin h (fun _ h => useGas_untouched h)
  · split at h
    · exact fin h (fun _ h => freeGas_untouched h)
    · split at h
      · exact fin h (fun _ h => useGas_untouched h)
      · split at h
        · rcases bind_ok h with ⟨_, w, h1, h2⟩ | ⟨_, h2⟩ | ⟨_, h2⟩
          · exact (useGas_untouched h1).trans (fin h2 (fun _ h => freeGas_untouched h))
          · simp at h2
          · simp at h2
        · simp only [M.pure_eq, M.pure, Prod.mk.injEq] at h; rw [← h.2]; exact .refl s

theorem readStorage_frame (a : Addr) (k : Bytes) (s : St χ A) : StoreFrame s (readStorage E a k s).2 := by
  obtain ⟨o, h1, h2, _⟩ := readStorage_grows (E := E) a k s
  rw [h1]; exact ⟨rfl, rfl, rfl, rfl, h2⟩

/-- reading an own key: the answer is the value stored, and no value changes -/
theorem getStorage_view {k v : Bytes} {s t : St χ A} (h : getStorage E k s = (.ok v, t)) :
    v = view E s s.sto.addr k ∧ (∀ b l, view E t b l = view E s b l) ∧ StoreFrame s t := by
  unfold getStorage at h
  rcases bind_ok h with ⟨_, s1, h1, h⟩ | ⟨_, h⟩ | ⟨_, h⟩
  · have u1 := useKeyGas_untouched h1
    rcases bind_ok h with ⟨v', s2, h2, h⟩ | ⟨_, h⟩ | ⟨_, h⟩
    · simp only [getStorageUnmetered, M.lift, Prod.mk.injEq, Res.ok.injEq] at h2
      obtain ⟨h2, h3⟩ := h2
      have hv := readStorage_view (E := E) s1.sto.addr k s1
      have hf := readStorage_frame (E := E) s1.sto.addr k s1
      rw [h2, h3, u1.sto] at hv
      rw [h3] at hf
      rw [get_bind] at h
      rcases bind_ok h with ⟨_, s3, h4, h⟩ | ⟨_, h⟩ | ⟨_, h⟩
      · have u3 := useGas_untouched h4
        simp only [M.pure_eq, M.pure, Prod.mk.injEq, Res.ok.injEq] at h
        obtain ⟨h5, h6⟩ := h
        subst h5 h6
        refine ⟨hv.1.trans (u1.view _ _), fun b l => ?_, (u1.toStoreFrame.trans hf).trans u3.toStoreFrame⟩
        rw [u3.view, hv.2, u1.view]
      · simp at h
      · simp at h
    · simp at h
    · simp at h
  · simp at h
  · simp at h

/-- reading a key of any contract: the value stored, or nothing if reading is not allowed; reserved keys are read on the chain -/
theorem getStorageFrom_view {a : Addr} {k v : Bytes} {s t : St χ A} (h : getStorageFromAddress E a k s = (.ok v, t)) :
    (storageReadable E s a = true → isReservedKey E k = false → v = view E s a k) ∧
    (storageReadable E s a = true → isReservedKey E k = true → v = E.hook.storageData s.world a k) ∧
    (storageReadable E s a = false → v = []) ∧
    (∀ b l, view E t b l = view E s b l) ∧ StoreFrame s t := by
  unfold getStorageFromAddress at h
  rcases bind_ok h with ⟨_, s1, h1, h⟩ | ⟨_, h⟩ | ⟨_, h⟩
  · have u1 := useKeyGas_untouched h1
    have hr : storageReadable E s1 a = storageReadable E s a := by simp only [storageReadable, acctOf, u1.sto, u1.world]
    rw [get_bind, hr] at h
    cases hc : storageReadable E s a with
    | false =>
      rw [hc] at h
      simp only [Bool.not_false, if_true, M.pure_eq, M.pure, Prod.mk.injEq, Res.ok.injEq] at h
      rw [← h.1, ← h.2]
      exact ⟨by simp, by simp, by simp, fun b l => u1.view b l, u1.toStoreFrame⟩
    | true =>
      rw [hc] at h
      simp only [Bool.not_true, Bool.false_eq_true, if_false] at h
      have fin : ∀ {m : M χ A Bytes}, (m >>= fun v => useGas (mulU64 s1.met.sched.dataCopyPerByte (UInt64.ofNat v.length)) >>= fun _ => pure v) s1 = (.ok v, t) →
          ∃ s2, m s1 = (.ok v, s2) ∧ Untouched s2 t := by
        intro m h
        rcases bind_ok h with ⟨v', s2, h2, h⟩ | ⟨_, h⟩ | ⟨_, h⟩
        · rcases bind_ok h with ⟨_, s3, h4, h⟩ | ⟨_, h⟩ | ⟨_, h⟩
          · simp only [M.pure_eq, M.pure, Prod.mk.injEq, Res.ok.injEq] at h
            obtain ⟨h5, h6⟩ := h
            subst h5 h6
            exact ⟨s2, h2, useGas_untouched h4⟩
          · simp at h
          · simp at h
        · simp at h
        · simp at h
      cases hk : isReservedKey E k with
      | true =>
        rw [hk] at h
        simp only [if_true] at h
        obtain ⟨s2, h2, u3⟩ := fin h
        simp only [M.gets, Prod.mk.injEq, Res.ok.injEq] at h2
        obtain ⟨h2, h3⟩ := h2
        subst h3
        exact ⟨by simp, fun _ _ => by rw [← h2, u1.world], by simp, fun b l => by rw [u3.view, u1.view],
          u1.toStoreFrame.trans u3.toStoreFrame⟩
      | false =>
        rw [hk] at h
        simp only [Bool.false_eq_true, if_false] at h
        obtain ⟨s2, h2, u3⟩ := fin h
        simp only [M.lift, Prod.mk.injEq, Res.ok.injEq] at h2
        obtain ⟨h2, h3⟩ := h2
        have hv := readStorage_view (E := E) a k s1
        have hf := readStorage_frame (E := E) a k s1
        rw [h2, h3] at hv
        rw [h3] at hf
        exact ⟨fun _ _ => hv.1.trans (u1.view _ _), by simp, by simp, fun b l => by rw [u3.view, hv.2, u1.view],
          (u1.toStoreFrame.trans hf).trans u3.toStoreFrame⟩
  · simp at h
  · simp at h

/-- A store: refused with nothing changed, or the value is stored under the key, and nothing else changes. -/
theorem setStorage_view {k v : Bytes} {s t : St χ A} {st : StorageStatus} {e : Option Err}
    (h : setStorage E k v s = (.ok (st, e), t)) :
    ((s.rt.cur.readOnly = true ∨ isReservedKey E k = true ∨ isProtectedKey k = true ∧ s.sto.protect = true) ∧ t = s ∧ st = .unchanged) ∨
    (s.rt.cur.readOnly = false ∧ isReservedKey E k = false ∧ ¬ (isProtectedKey k = true ∧ s.sto.protect = true) ∧ e = none ∧
      (∀ b l, view E t b l = if b = s.sto.addr ∧ l = k then v else view E s b l) ∧
      (∀ b l, ¬ (b = s.sto.addr ∧ l = k) → pending t.out.cur b l = pending s.out.cur b l) ∧
      pending t.out.cur s.sto.addr k = some v ∧ StoreFrame s t) := by
  unfold setStorage at h
  rw [get_bind] at h
  cases hro : s.rt.cur.readOnly with
  | true =>
    rw [hro] at h
    simp only [if_true, M.pure_eq, M.pure, Prod.mk.injEq, Res.ok.injEq] at h
    exact .inl ⟨.inl rfl, h.2.symm, h.1.1.symm⟩
  | false =>
    rw [hro] at h
    simp only [Bool.false_eq_true, if_false] at h
    cases hrk : isReservedKey E k with
    | true =>
      rw [hrk] at h
      simp only [if_true, M.pure_eq, M.pure, Prod.mk.injEq, Res.ok.injEq] at h
      exact .inl ⟨.inr (.inl rfl), h.2.symm, h.1.1.symm⟩
    | false =>
      rw [hrk] at h
      simp only [Bool.false_eq_true, if_false] at h
      by_cases hp : (isProtectedKey k && s.sto.protect) = true
      · rw [if_pos hp] at h
        simp only [M.pure_eq, M.pure, Prod.mk.injEq, Res.ok.injEq] at h
        simp only [Bool.and_eq_true] at hp
        exact .inl ⟨.inr (.inr hp), h.2.symm, h.1.1.symm⟩
      · rw [if_neg hp] at h
        simp only [Bool.and_eq_true] at hp
        refine .inr ⟨rfl, rfl, hp, ?_⟩
        rcases bind_ok h with ⟨_, s1, h1, h⟩ | ⟨_, h⟩ | ⟨_, h⟩
        · have u1 := useKeyGas_untouched h1
          rcases bind_ok h with ⟨old, s2, h2, h⟩ | ⟨_, h⟩ | ⟨_, h⟩
          · simp only [getStorageUnmetered, M.lift, Prod.mk.injEq, Res.ok.injEq] at h2
            obtain ⟨h2, h3⟩ := h2
            have hv := readStorage_view (E := E) s1.sto.addr k s1
            obtain ⟨o, hg1, hg2, hg3⟩ := readStorage_grows (E := E) s1.sto.addr k s1
            have hf := readStorage_frame (E := E) s1.sto.addr k s1
            have hsame := readStorage_pending (E := E) s1.sto.addr k s1
            rw [h2, h3, u1.sto] at hv
            rw [h3] at hf hg1 hsame
            have hs2 : (pending s2.out.cur s.sto.addr k) = some (view E s s.sto.addr k) := by
              have h6 := hv.2 s.sto.addr k
              rw [u1.view] at h6
              have h7 : (pending s2.out.cur s.sto.addr k).isSome := by rw [hg1, ← u1.sto]; exact hg3
              obtain ⟨x, hx⟩ := Option.isSome_iff_exists.mp h7
              rw [← h6, hx]; simp [Spec.view, hx]
            have f2 := u1.toStoreFrame.trans hf
            have same2 : ∀ b l, ¬ (b = s.sto.addr ∧ l = k) → pending s2.out.cur b l = pending s.out.cur b l := by
              intro b l hn; rw [← u1.same]; apply hsame; rw [u1.sto]; exact hn
            by_cases ho : old = v
            · rw [if_pos ho, get_bind] at h
              rcases bind_ok h with ⟨_, s3, h4, h⟩ | ⟨_, h⟩ | ⟨_, h⟩
              · have u3 := useGas_untouched h4
                simp only [M.pure_eq, M.pure, Prod.mk.injEq, Res.ok.injEq] at h
                obtain ⟨⟨h5, h6⟩, h7⟩ := h
                subst h5 h6 h7
                refine ⟨rfl, fun b l => ?_, fun b l hn => (u3.same b l).trans (same2 b l hn), ?_, f2.trans u3.toStoreFrame⟩
                · rw [u3.view, hv.2, u1.view]
                  split
                  · rename_i hc; obtain ⟨rfl, rfl⟩ := hc; rw [← ho, hv.1, u1.view]
                  · rfl
                · rw [u3.same, hs2, ← ho, hv.1, u1.view]
              · simp at h
              · simp at h
            · rw [if_neg ho, modify_bind] at h
              have hs2' : s2.sto = s.sto := f2.sto
              have hw := writeStorage_view (E := E) s2.sto.addr k v s2
              have hwp := writeStorage_pending s2.sto.addr k v s2
              rcases bind_ok h with ⟨q, s3, h4, h⟩ | ⟨_, h⟩ | ⟨_, h⟩
              · have u3 := storageGas_untouched h4
                simp only [M.pure_eq, M.pure, Prod.mk.injEq, Res.ok.injEq] at h
                obtain ⟨⟨h5, h6⟩, h7⟩ := h
                subst h5 h6 h7
                refine ⟨rfl, fun b l => ?_, fun b l hn => ?_, ?_, f2.trans (StoreFrame.trans (t := writeStorage s2.sto.addr k v s2) ⟨rfl, rfl, rfl, rfl, fun b l hp => ?_⟩ u3.toStoreFrame)⟩
                · rw [u3.view, hw, hv.2, u1.view, hs2']
                · rw [u3.same, hwp, hs2', if_neg hn]; exact same2 b l hn
                · rw [u3.same, hwp, hs2']; simp
                · rw [hwp]; split
                  · rfl
                  · exact hp
              · simp at h
              · simp at h
          · simp at h
          · simp at h
        · simp at h
        · simp at h

/-- A store by the host itself. -/
theorem setProtected_view {k v : Bytes} {s t : St χ A} {st : StorageStatus} (hro : s.rt.cur.readOnly = false) (hp : s.sto.protect = true)
    (h : setProtectedStorage E k v s = (.ok (st, none), t)) :
    (∀ b l, view E t b l = if b = s.sto.addr ∧ l = k then v else view E s b l) ∧
    (∀ b l, ¬ (b = s.sto.addr ∧ l = k) → pending t.out.cur b l = pending s.out.cur b l) ∧ StoreFrame s t := by
  unfold setProtectedStorage at h
  rw [modify_bind] at h
  generalize hs0 : ({ s with sto := { s.sto with protect := false } } : St χ A) = s0 at h
  have hdef : M.deferred (setStorage E k v) (fun r => do
    M.modify (fun s => { s with sto := { s.sto with protect := true } })
    match r with
    | some r => pure r
    | none => M.panic) s0 = (.ok (st, none), t) := h
  unfold M.deferred at hdef
  generalize hq : setStorage E k v s0 = q at hdef
  obtain ⟨r, u⟩ := q
  cases r with
  | ok a =>
    obtain ⟨st', e'⟩ := a
    dsimp only at hdef
    rw [modify_bind] at hdef
    simp only [M.pure_eq, M.pure, Prod.mk.injEq, Res.ok.injEq] at hdef
    obtain ⟨⟨rfl, rfl⟩, rfl⟩ := hdef
    have hro0 : s0.rt.cur.readOnly = false := by rw [← hs0]; exact hro
    have hp0 : s0.sto.protect = false := by rw [← hs0]
    rcases setStorage_view hq with ⟨h1, h2, h3⟩ | ⟨_, _, _, _, h5, h6, _, h7⟩
    · exfalso
      rcases h1 with h1 | h1 | h1
      · rw [hro0] at h1; exact absurd h1 (by simp)
      · unfold setStorage at hq
        rw [get_bind, hro0, h1] at hq
        simp only [Bool.false_eq_true, if_false, if_true, M.pure_eq, M.pure, Prod.mk.injEq, Res.ok.injEq] at hq
        exact absurd hq.1.2 (by simp)
      · rw [hp0] at h1; exact absurd h1.2 (by simp)
    · have e1 : s0.sto.addr = s.sto.addr := by rw [← hs0]
      have e2 : ∀ b l, view E s0 b l = view E s b l := by intro b l; rw [← hs0]; rfl
      have e3 : s0.out = s.out := by rw [← hs0]
      rw [e1] at h5 h6
      refine ⟨fun b l => ?_, fun b l hn => ?_, ?_, ?_, ?_, ?_, ?_⟩
      · rw [← e2]; exact h5 b l
      · rw [← e3]; exact h6 b l hn
      · show u.world = s.world
        rw [h7.world, ← hs0]
      · show ({ u.sto with protect := true } : StoCtx) = s.sto
        rw [h7.sto, ← hs0, ← hp]
      · show u.rt = s.rt
        rw [h7.rt, ← hs0]
      · show u.out.stack = s.out.stack
        rw [h7.stack, ← hs0]
      · intro b l hh; exact h7.grows b l (by rw [e3]; exact hh)
  | panic =>
    dsimp only at hdef
    split at hdef <;> simp at hdef
  | oof => simp at hdef

/-! ### Steps of the host -/

/-- What a change of an account does to one of its storage entries. -/
theorem AccMove.pending {s : St χ A} {b : Addr} {x y : Option OutAcc} (h : AccMove E s b x y) (l : Bytes) :
    (y.bind (fun a => a.storage.get? l) = x.bind (fun a => a.storage.get? l)) ∨
    (x.bind (fun a => a.storage.get? l) = none ∧ y.bind (fun a => a.storage.get? l) = some (E.hook.storageData s.world b l)) ∨
    (b = s.sto.addr ∧ s.rt.cur.readOnly = false ∧ isReservedKey E l = false ∧ (isProtectedKey l = true → s.sto.protect = false ∨ vmKey l)) := by
  cases h with
  | sto acc k hk =>
    simp only [Option.bind_some, AMap.get?_insert]
    by_cases hl : k = l
    · subst hl; simp [hk]
    · simp [hl]
  | write acc k v old hb hk h1 h2 h3 =>
    simp only [Option.bind_some, AMap.get?_insert]
    by_cases hl : k = l
    · subst hl; exact .inr (.inr ⟨hb, h1, h2, h3⟩)
    · simp [hl]
  | deploy x d hb _ => cases x <;> exact .inl rfl
  | _ => exact .inl rfl

/-- What one step of the host does to one storage entry: nothing, it notes the value on the chain, or it is a permitted store of the
executing contract to its own storage. -/
theorem step_pending {s t : St χ A} (h : StepB E Executor.halt s t) (b : Addr) (l : Bytes) :
    (pending t.out.cur b l = pending s.out.cur b l) ∨
    (pending s.out.cur b l = none ∧ pending t.out.cur b l = some (E.hook.storageData s.world b l)) ∨
    (b = s.sto.addr ∧ s.rt.cur.readOnly = false ∧ isReservedKey E l = false ∧ (isProtectedKey l = true → s.sto.protect = false ∨ vmKey l))  := by
  have h := h.accPath b (fun y => (y.bind (fun a => a.storage.get? l) = Spec.pending s.out.cur b l) ∨
    (Spec.pending s.out.cur b l = none ∧ y.bind (fun a => a.storage.get? l) = some (E.hook.storageData s.world b l)) ∨
    (b = s.sto.addr ∧ s.rt.cur.readOnly = false ∧ isReservedKey E l = false ∧ (isProtectedKey l = true → s.sto.protect = false ∨ vmKey l)))
    (.inl rfl) (fun c m x y hx hm => ?_)
  · exact h
  · rcases hx with hx | hx | hx
    · rcases AccMove.pending hm l with h1 | ⟨h1, h2⟩ | h1
      · exact .inl (h1.trans hx)
      · exact .inr (.inl ⟨hx ▸ h1, h2⟩)
      · exact .inr (.inr h1)
    · rcases AccMove.pending hm l with h1 | ⟨h1, h2⟩ | h1
      · exact .inr (.inl ⟨hx.1, h1.trans hx.2⟩)
      · rw [hx.2] at h1; simp at h1
      · exact .inr (.inr h1)
    · exact .inr (.inr hx)

/-! ### Leaving calls -/

theorem pending_mergeOut (p c : VMOutput) (a : Addr) (k : Bytes) :
    pending (mergeOut p c) a k = match pending c a k with | some v => some v | none => pending p a k := by
  simp only [Spec.pending, mergeOut, AMap.get?_mergeWith]
  cases hc : c.accounts.get? a with
  | none => rfl
  | some ca =>
    simp only [Option.bind_some, mergeAcc, AMap.get?_mergeWith]
    cases hk : ca.storage.get? k with
    | some v => rfl
    | none => cases hp : p.accounts.get? a <;> rfl

theorem pending_mapKey (o o' : VMOutput) (f : Addr → OutAcc → OutAcc) (hf : ∀ a x, (f a x).storage = x.storage)
    (h : o'.accounts.entries = o.accounts.entries.map (fun p => (p.1, f p.1 p.2))) (a : Addr) (k : Bytes) :
    pending o' a k = pending o a k := by
  have h1 : o'.accounts.get? a = (o.accounts.get? a).map (f a) := by
    simp only [AMap.get?, h]; exact AMap.lookupL_mapKey f o.accounts.entries a
  simp only [Spec.pending, h1]
  cases o.accounts.get? a with
  | none => rfl
  | some x => simp [hf]

theorem pending_strip (c : OutCtx) (a : Addr) (k : Bytes) : pending c.removeNonUpdatedCode.cur a k = pending c.cur a k :=
  pending_mapKey c.cur c.removeNonUpdatedCode.cur (fun a x => if a ∈ c.codeUpdates then x else { x with code := [], codeMetadata := [], deployer := none })
    (fun a x => by split <;> rfl) rfl a k

theorem pending_fail (s : St χ A) (a : Addr) (k : Bytes) : pending (updateGasOnFailure s).out.cur a k = pending s.out.cur a k :=
  modAcc_pending s.out _ a (fun acc => { acc with gasUsed := addU64 acc.gasUsed s.met.cur.initialGasProvided }) (fun _ => rfl) k

theorem pending_used (s : St χ A) (a : Addr) (k : Bytes) : pending (setGasUsed s).2.out.cur a k = pending s.out.cur a k :=
  pending_mapKey s.out.cur (setGasUsed s).2.out.cur (fun a x => { x with gasUsed := (s.met.cur.gasUsedByAccounts.get? a).getD 0 })
    (fun _ _ => rfl) rfl a k

/-- the final bookkeeping does not touch storage -/
theorem pending_finalize (s : St χ A) (a : Addr) (k : Bytes) : pending (getVMOutput E s).2.out.cur a k = pending s.out.cur a k := by
  have h1 : pending (setGasUsed (updateSCGasUsed (readyState s))).2.out.cur a k = pending s.out.cur a k := by
    rw [pending_used]
    have : (updateSCGasUsed (readyState s)).out = ((readyState s).out.getAcc s.rt.cur.scAddress).2.2 := rfl
    rw [this, (getAcc_pending _ _).1]
    exact pending_strip s.out a k
  rcases getVMOutput_cases (E := E) s with he | he <;> rw [he]
  · exact h1
  · rw [pending_fail]; exact h1

theorem pending_destOutput (e : Option Err) (s : St χ A) (a : Addr) (k : Bytes) :
    pending (destOutput E e s).2.out.cur a k = pending s.out.cur a k := by
  cases e with
  | none => exact pending_finalize s a k
  | some e => exact pending_fail s a k

/-- leaving a call on the destination's context -/
theorem finishDest_storage {e : Option Err} {s t : St χ A} {out o : VMOutput} {os : List VMOutput} {a : Addr} {as : List Addr}
    (hs : s.out.stack = o :: os) (ha : s.sto.stack = a :: as) (h : finishDest E e s = (.ok out, t)) :
    t.world = s.world ∧ t.sto.addr = a ∧ t.sto.stack = as ∧ t.out.stack = os ∧
    (out.returnCode ≠ .ok → ∀ b l, pending t.out.cur b l = pending o b l) ∧
    (out.returnCode = .ok → ∀ b l, pending t.out.cur b l = pending (mergeOut o s.out.cur) b l) := by
  obtain ⟨o', m, ho⟩ := destOutput_only (E := E) e s
  have hp := pending_destOutput (E := E) e s
  rw [finishDest_run] at h
  generalize (destOutput E e s).1 = x at h
  generalize hy : (destOutput E e s).2 = y at h ho hp
  obtain ⟨r', ins, hr, _, _⟩ := restoreGas_only x.gasRemaining (popDest (decide (x.returnCode = .ok)) y)
  simp only [M.bind_eq, M.bind, hr] at h
  cases r' with
  | panic => simp at h
  | oof => simp at h
  | ok u =>
    simp only [M.pure_eq, M.pure, Prod.mk.injEq, Res.ok.injEq] at h
    obtain ⟨rfl, rfl⟩ := h
    have hys : y.out.stack = o :: os := by rw [ho]; exact hs
    have hya : y.sto.stack = a :: as := by rw [ho]; exact ha
    have hyw : y.world = s.world := by rw [ho]
    show (popDest _ y).world = _ ∧ (popDest _ y).sto.addr = _ ∧ (popDest _ y).sto.stack = _ ∧ (popDest _ y).out.stack = _ ∧
      (_ → ∀ b l, pending (popDest _ y).out.cur b l = _) ∧ (_ → ∀ b l, pending (popDest _ y).out.cur b l = _)
    unfold popDest
    dsimp only
    by_cases hc : x.returnCode = .ok
    · simp only [hc, decide_true, if_true]
      obtain ⟨e1, e2, e3⟩ := rtPopSet_keeps ({ y with big := y.big.popSet, sto := y.sto.popSet, met := y.met.popMerge, out := y.out.popMerge } : St χ A)
      rw [e1, e2, e3]
      simp only [StoCtx.popSet, OutCtx.popMerge, hys, hya, mergeOut_empty]
      refine ⟨hyw, trivial, trivial, trivial, fun h => absurd rfl h, fun _ b l => ?_⟩
      rw [pending_mergeOut, pending_mergeOut, hp]
    · simp only [hc, decide_false, Bool.false_eq_true, if_false]
      obtain ⟨e1, e2, e3⟩ := rtPopSet_keeps ({ y with big := y.big.popSet, sto := y.sto.popSet, met := y.met.popSet, out := y.out.popSet } : St χ A)
      rw [e1, e2, e3]
      simp only [StoCtx.popSet, OutCtx.popSet, hys, hya]
      exact ⟨hyw, trivial, trivial, trivial, fun _ _ _ => trivial, fun h => h.elim⟩

theorem finishSame_storage {e : Option Err} {s t : St χ A} {o : VMOutput} {os : List VMOutput}
    (hs : s.out.stack = o :: os) (h : finishSame E e s = (.ok (), t)) :
    t.sto = s.sto ∧ t.out.stack = os ∧
    (¬ (s.out.cur.returnCode = .ok ∧ e = none) → ∀ b l, pending t.out.cur b l = pending o b l) ∧
    ((s.out.cur.returnCode = .ok ∧ e = none) → ∀ b l, pending t.out.cur b l = pending s.out.cur b l) := by
  by_cases hc : s.out.cur.returnCode = .ok ∧ e = none
  · obtain ⟨h1, rfl⟩ := hc
    rw [finishSame_ok s h1] at h
    obtain ⟨o', m, ho⟩ := getVMOutput_only (E := E) s
    have hp := pending_finalize (E := E) s
    generalize (getVMOutput E s).1 = x at h
    generalize (getVMOutput E s).2 = y at h ho hp
    obtain ⟨r', ins', hr, _, _⟩ := restoreGas_only x.gasRemaining (popSameOk y)
    rw [hr] at h
    simp only [Prod.mk.injEq] at h
    obtain ⟨_, rfl⟩ := h
    show (popSameOk y).sto = _ ∧ (popSameOk y).out.stack = _ ∧ (_ → ∀ b l, pending (popSameOk y).out.cur b l = _) ∧ (_ → ∀ b l, pending (popSameOk y).out.cur b l = _)
    unfold popSameOk
    obtain ⟨e1, e2, e3⟩ := rtPopSet_keeps (St.bcPopDiscard { y with met := y.met.popMerge, out := y.out.popDiscard, big := y.big.popDiscard })
    rw [e1, e2]
    refine ⟨?_, ?_, fun h => absurd ⟨h1, rfl⟩ h, fun _ b l => hp b l⟩
    · show y.sto = s.sto
      rw [ho]
    · show y.out.stack.tail = os
      rw [ho]; show s.out.stack.tail = os
      rw [hs]; rfl
  · have hc' : s.out.cur.returnCode ≠ .ok ∨ e.isSome := by
      by_cases h1 : s.out.cur.returnCode = .ok
      · cases e with
        | none => exact absurd ⟨h1, rfl⟩ hc
        | some e => exact .inr rfl
      · exact .inl h1
    rw [finishSame_fail e s hc'] at h
    simp only [Prod.mk.injEq, true_and] at h
    subst h
    unfold popSameFail
    obtain ⟨b1, _, _, b4, _⟩ := bcPopSet_rest (E := E) (St.rtPopSet { s with big := s.big.popSet, met := s.met.popSet, out := s.out.popSet })
    obtain ⟨e1, e2, e3⟩ := rtPopSet_keeps ({ s with big := s.big.popSet, met := s.met.popSet, out := s.out.popSet } : St χ A)
    rw [b1, b4, e1, e2]
    simp only [OutCtx.popSet, hs]
    exact ⟨trivial, trivial, fun _ _ _ => trivial, fun h => absurd h hc⟩

/-! ### Histories -/

/-- the contents an output stands for -/
def outView (E : Env χ A) (w : χ) (o : VMOutput) : Contents := fun a k => (pending o a k).getD (E.hook.storageData w a k)

/-- The saved outputs and addresses of the open calls, against the abstract store. -/
def Stacked (E : Env χ A) (w : χ) : List Bool → VMOutput → Addr → List VMOutput → List Addr → List (Contents × Addr) → Prop
  | [], _, _, _, _, cs => cs = []
  | true :: ks, cur, _, o :: os, a :: as, c :: cs =>
    c = (outView E w o, a) ∧ (∀ b l, (pending o b l).isSome → (pending cur b l).isSome) ∧ Stacked E w ks o a os as cs
  | false :: ks, cur, addr, o :: os, as, c :: cs =>
    c = (outView E w o, addr) ∧ (∀ b l, (pending o b l).isSome → (pending cur b l).isSome) ∧ Stacked E w ks o addr os as cs
  | _, _, _, _, _, _ => False

theorem Stacked.cur {w : χ} {ks : List Bool} {cur cur' : VMOutput} {a : Addr} {os : List VMOutput} {as : List Addr} {cs : List (Contents × Addr)}
    (h : Stacked E w ks cur a os as cs) (hc : ∀ b l, (pending cur b l).isSome → (pending cur' b l).isSome) : Stacked E w ks cur' a os as cs := by
  unfold Stacked at h ⊢
  split at h
  · exact h
  · exact ⟨h.1, fun b l hp => hc b l (h.2.1 b l hp), h.2.2⟩
  · exact ⟨h.1, fun b l hp => hc b l (h.2.1 b l hp), h.2.2⟩
  · exact h.elim

theorem Stacked.world {w w' : χ} (hw : ∀ a k, E.hook.storageData w' a k = E.hook.storageData w a k) :
    ∀ {ks : List Bool} {cur : VMOutput} {a : Addr} {os : List VMOutput} {as : List Addr} {cs : List (Contents × Addr)},
    Stacked E w ks cur a os as cs → Stacked E w' ks cur a os as cs := by
  have hv : ∀ o, outView E w' o = outView E w o := by intro o; funext b l; simp only [outView, hw]
  intro ks
  induction ks with
  | nil => intro cur a os as cs h; unfold Stacked at h ⊢; exact h
  | cons q ks ih =>
    intro cur a os as cs h
    cases q
    · cases os with
      | nil => simp [Stacked] at h
      | cons o os =>
        cases cs with
        | nil => simp [Stacked] at h
        | cons c cs => simp only [Stacked] at h ⊢; exact ⟨by rw [hv]; exact h.1, h.2.1, ih h.2.2⟩
    · cases os with
      | nil => simp [Stacked] at h
      | cons o os =>
        cases as with
        | nil => simp [Stacked] at h
        | cons b as =>
          cases cs with
          | nil => simp [Stacked] at h
          | cons c cs => simp only [Stacked] at h ⊢; exact ⟨by rw [hv]; exact h.1, h.2.1, ih h.2.2⟩

/-- the host's storage, against the abstract store -/
structure Refines (E : Env χ A) (ks : List Bool) (s : St χ A) (ts : TStore) : Prop where
  contents : ts.contents = view E s
  addr : ts.addr = s.sto.addr
  stacked : Stacked E s.world ks s.out.cur s.sto.addr s.out.stack s.sto.stack ts.callers

/-- a step within the running contract -/
theorem Refines.inner {ks : List Bool} {s t : St χ A} {ts : TStore} (h : Refines E ks s ts) (ht : SameChain E s t)
    (h1 : t.sto.addr = s.sto.addr) (h2 : t.sto.stack = s.sto.stack) (h3 : t.out.stack = s.out.stack)
    (h4 : ∀ b l, (pending s.out.cur b l).isSome → (pending t.out.cur b l).isSome) :
    Refines E ks t { ts with contents := view E t } :=
  ⟨rfl, h.addr.trans h1.symm, by rw [h1, h2, h3]; exact Stacked.world ht (h.stacked.cur h4)⟩

theorem enterDest_addr (i : CallInput) (s : St χ A) : (enterDestState i s).sto.addr = i.recipient := by
  show (copyTxHashes _ i).recipient = _
  unfold copyTxHashes
  split <;> rfl

theorem happens_step {ks ks' : List Bool} {s t : St χ A} {e : Option Event} {ts : TStore} (hr : Refines E ks s ts)
    (h : Happens E ks s e ks' t) : ∃ ts', ts.Steps e.toList ts' ∧ Refines E ks' t ts' := by
  have same : ∀ {t : St χ A}, (∀ b l, view E t b l = view E s b l) → ({ ts with contents := view E t } : TStore) = ts := by
    intro t hv
    have : view E t = view E s := by funext b l; exact hv b l
    rw [this, ← hr.contents]
  have fr : ∀ {t : St χ A}, StoreFrame s t → Refines E ks t { ts with contents := view E t } := fun hf =>
    hr.inner (fun a k => by rw [hf.world]) (by rw [hf.sto]) (by rw [hf.sto]) hf.stack hf.grows
  have stored : ∀ {t : St χ A} {k v : Bytes}, (∀ b l, view E t b l = if b = s.sto.addr ∧ l = k then v else view E s b l) → StoreFrame s t →
      ∃ ts', ts.Steps [.store k v] ts' ∧ Refines E ks t ts' := by
    intro t k v hv hf
    refine ⟨_, ⟨_, rfl, rfl⟩, ?_⟩
    have := fr hf
    have e : view E t = ts.contents.set ts.addr k v := by
      funext b l; rw [hv, hr.contents, hr.addr]; rfl
    rw [e] at this
    exact this
  cases h with
  | load _ _ _ k v h =>
    obtain ⟨h1, h2, h3⟩ := getStorage_view h
    refine ⟨ts, ⟨ts, ⟨?_, rfl⟩, rfl⟩, by have := fr h3; rwa [same h2] at this⟩
    rw [hr.contents, hr.addr]; exact h1
  | loadFrom _ _ _ a k v hc hk h =>
    obtain ⟨h1, _, _, h2, h3⟩ := getStorageFrom_view h
    refine ⟨ts, ⟨ts, ⟨?_, rfl⟩, rfl⟩, by have := fr h3; rwa [same h2] at this⟩
    rw [hr.contents]; exact h1 hc hk
  | blocked _ _ _ a k v hc h =>
    obtain ⟨_, _, _, h2, h3⟩ := getStorageFrom_view h
    exact ⟨ts, rfl, by have := fr h3; rwa [same h2] at this⟩
  | store _ _ _ k v st hro h =>
    rcases setStorage_view h with ⟨h1, h2, h3⟩ | ⟨_, _, _, _, h5, _, _, h7⟩
    · exfalso
      unfold setStorage at h
      rw [get_bind, hro] at h
      simp only [Bool.false_eq_true, if_false] at h
      split at h
      · simp [M.pure_eq, M.pure] at h
      · rename_i hrk
        split at h
        · simp [M.pure_eq, M.pure] at h
        · rename_i hp
          simp only [Bool.and_eq_true] at hp
          rcases h1 with h1 | h1 | h1
          · rw [hro] at h1; exact absurd h1 (by simp)
          · exact hrk h1
          · exact hp h1
    · exact stored h5 h7
  | refused _ _ _ k v st e hc h =>
    rcases setStorage_view h with ⟨_, h2, _⟩ | ⟨h1, _, _, h4, _⟩
    · subst h2; exact ⟨ts, ⟨ts, rfl, rfl⟩, hr⟩
    · rcases hc with hc | hc
      · rw [h1] at hc; exact absurd hc (by simp)
      · exact absurd h4 hc
  | lock _ _ _ k v st hro hp h =>
    obtain ⟨h1, _, h3⟩ := setProtected_view hro hp h
    exact stored h1 h3
  | write _ _ _ k v hs hw hp =>
    have hf := (hs.frame (ex := Executor.halt) frameEx_halt).1
    refine ⟨_, ⟨_, rfl, rfl⟩, ?_⟩
    have := hr.inner (t := t) (fun a k => by rw [hw]) hf.stoAddr hf.stoStack hf.out
      (fun b l hh => by rw [hp]; split; · rfl
                        · exact hh)
    have e : view E t = ts.contents.set ts.addr k v := by
      funext b l
      rw [hr.contents, hr.addr]
      simp only [Spec.view, hp, hw, Contents.set]
      split <;> rfl
    rw [e] at this
    exact this
  | call _ _ _ i i' h =>
    rw [enterDest_run] at h
    simp only [Prod.mk.injEq, Res.ok.injEq] at h
    obtain ⟨_, rfl⟩ := h
    refine ⟨_, ⟨_, rfl, rfl⟩, ?_, ?_, ?_⟩
    · exact hr.contents
    · rw [enterDest_addr]
    · rw [enterDest_addr]
      show Stacked E s.world (true :: ks) s.out.cur.censored i.recipient (mergeOut {} s.out.cur :: s.out.stack) (s.sto.addr :: s.sto.stack) _
      rw [mergeOut_empty]
      refine ⟨?_, fun _ _ h => h, hr.stacked⟩
      rw [hr.contents, hr.addr]; rfl
  | callSame _ _ _ i i' h =>
    rw [enterSame_run] at h
    simp only [Prod.mk.injEq, Res.ok.injEq] at h
    obtain ⟨_, rfl⟩ := h
    refine ⟨_, ⟨_, rfl, rfl⟩, ?_, rfl, ?_⟩
    · exact hr.contents
    · show Stacked E s.world (false :: ks) s.out.cur s.sto.addr (mergeOut {} s.out.cur :: s.out.stack) s.sto.stack _
      rw [mergeOut_empty]
      refine ⟨?_, fun _ _ h => h, hr.stacked⟩
      rw [hr.contents, hr.addr]; rfl
  | ret _ _ _ e out h =>
    have hst := hr.stacked
    generalize hs : s.out.stack = os at hst
    generalize ha : s.sto.stack = as at hst
    generalize hcs : ts.callers = cs at hst
    cases os with
    | nil => simp [Stacked] at hst
    | cons o os =>
      cases as with
      | nil => simp [Stacked] at hst
      | cons a as =>
        cases cs with
        | nil => simp [Stacked] at hst
        | cons c cs =>
          simp only [Stacked] at hst
          obtain ⟨hc, hd, hst⟩ := hst
          obtain ⟨h1, h2, h3, h4, h5, h6⟩ := finishDest_storage hs ha h
          refine ⟨{ contents := if decide (out.returnCode = .ok) then ts.contents else c.1, addr := c.2, callers := cs }, ⟨_, ?_, rfl⟩, ?_, ?_, ?_⟩
          · simp only [TStore.Step, hcs]
          · by_cases hk : out.returnCode = .ok
            · simp only [hk, decide_true, if_true]
              rw [hr.contents]
              funext b l
              simp only [Spec.view, h6 hk, h1, pending_mergeOut]
              cases hp : pending s.out.cur b l with
              | some v => rfl
              | none =>
                cases ho : pending o b l with
                | none => rfl
                | some v => have := hd b l (by simp [ho]); rw [hp] at this; simp at this
            · simp only [hk, decide_false, Bool.false_eq_true, if_false]
              rw [hc]
              funext b l
              simp only [Spec.view, outView, h5 hk, h1]
          · rw [hc]; exact h2.symm
          · rw [h1, h2, h3, h4]
            refine hst.cur (fun b l hh => ?_)
            by_cases hk : out.returnCode = .ok
            · rw [h6 hk, pending_mergeOut]; split
              · rfl
              · exact hh
            · rw [h5 hk]; exact hh
  | retSame _ _ _ e h hw =>
    have hst := hr.stacked
    generalize hs : s.out.stack = os at hst
    generalize hcs : ts.callers = cs at hst
    cases os with
    | nil => simp [Stacked] at hst
    | cons o os =>
      cases cs with
      | nil => simp [Stacked] at hst
      | cons c cs =>
        simp only [Stacked] at hst
        obtain ⟨hc, hd, hst⟩ := hst
        obtain ⟨h1, h2, h3, h4⟩ := finishSame_storage hs h
        refine ⟨{ contents := if decide (s.out.cur.returnCode = .ok ∧ e = none) then ts.contents else c.1, addr := c.2, callers := cs }, ⟨_, ?_, rfl⟩, ?_, ?_, ?_⟩
        · simp only [TStore.Step, hcs]
        · by_cases hk : s.out.cur.returnCode = .ok ∧ e = none
          · rw [if_pos (by simpa using hk), hr.contents]
            funext b l
            simp only [Spec.view, h4 hk, hw b l]
          · rw [if_neg (by simpa using hk), hc]
            funext b l
            simp only [Spec.view, outView, h3 hk, hw b l]
        · rw [hc, h1]
        · rw [h1, h2]
          refine Stacked.world hw (hst.cur (fun b l hh => ?_))
          by_cases hk : s.out.cur.returnCode = .ok ∧ e = none
          · rw [h4 hk]; exact hd b l hh
          · rw [h3 hk]; exact hh
  | elsewhere _ _ _ h1 h2 h3 hp hw =>
    have := hr.inner (t := t) hw h1 h2 h3 (fun b l h => by rw [hp]; exact h)
    refine ⟨ts, rfl, ?_⟩
    rwa [same (fun b l => by simp only [Spec.view, hp, hw b l])] at this
  | other _ _ _ hs hw hd hv =>
    have hf := (hs.frame (ex := Executor.halt) frameEx_halt).1
    have := hr.inner (t := t) hw hf.stoAddr hf.stoStack hf.out hd
    refine ⟨ts, rfl, ?_⟩
    rwa [same ?_] at this
    intro b l
    by_cases hb : b = s.sto.addr
    · subst hb; exact hv l
    · rcases step_pending hs b l with h1 | ⟨h1, h2⟩ | ⟨h1, _⟩
      · simp only [Spec.view, h1, hw b l]
      · simp only [Spec.view, h1, h2, Option.getD_some, Option.getD_none]
      · exact absurd h1 hb

theorem steps_append {es fs : List Event} : ∀ {t u v : TStore}, t.Steps es u → u.Steps fs v → t.Steps (es ++ fs) v := by
  induction es with
  | nil => intro t u v h1 h2; cases h1; exact h2
  | cons e es ih => intro t u v h1 h2; obtain ⟨w, hw, h1⟩ := h1; exact ⟨w, hw, ih h1 h2⟩

theorem hist_steps {ks ks' : List Bool} {s t : St χ A} {es : List Event} (h : Hist E ks s es ks' t) :
    ∀ {ts : TStore}, Refines E ks s ts → ∃ ts', ts.Steps es ts' ∧ Refines E ks' t ts' := by
  induction h with
  | nil ks s => intro ts hr; exact ⟨ts, rfl, hr⟩
  | cons h _ ih =>
    intro ts hr
    obtain ⟨u, h1, h2⟩ := happens_step hr h
    obtain ⟨v, h3, h4⟩ := ih h2
    exact ⟨v, steps_append h1 h3, h4⟩

/-! ### Executions are histories -/

theorem pending_put_same {o : VMOutput} {a : Addr} {acc acc' : OutAcc} (hg : o.accounts.get? a = some acc)
    (hs : acc'.storage = acc.storage) (b : Addr) (l : Bytes) : pending (o.put a acc') b l = pending o b l := by
  unfold VMOutput.put
  rw [pending_insert]
  split
  · rename_i h; subst h; simp [Spec.pending, hg, hs]
  · rfl

/-- One step of the host: storage untouched, a value on the chain noted, or one store. -/
theorem deployCode_pending (c : OutCtx) (d : CodeDeployInput) (a : Addr) (k : Bytes) :
    pending (c.deployCode d).cur a k = pending c.cur a k :=
  modAcc_pending c d.address a (fun acc => { acc with code := d.code, codeMetadata := d.metadata, deployer := some d.deployer }) (fun _ => rfl) k

theorem step_cases (hn : NoCreateApi E) {s t : St χ A} (h : StepB E Executor.halt s t) :
    (∀ b l, pending t.out.cur b l = pending s.out.cur b l) ∨
    (t.world = s.world ∧ (∀ b l, (pending s.out.cur b l).isSome → (pending t.out.cur b l).isSome) ∧ (∀ b l, view E t b l = view E s b l)) ∨
    (t.world = s.world ∧ ∃ k v, ∀ b l, pending t.out.cur b l = if b = s.sto.addr ∧ l = k then some v else pending s.out.cur b l) := by
  have modDeploy : ∀ d : CodeDeployInput, ∀ b l, pending (s.out.deployCode d).cur b l = pending s.out.cur b l := fun d b l =>
    modAcc_pending s.out d.address b (fun acc => { acc with code := d.code, codeMetadata := d.metadata, deployer := some d.deployer }) (fun _ => rfl) l
  cases h with
  | a _ hs =>
    cases hs with
    | out o ho =>
      cases ho with
      | touch a hg =>
        refine .inl (fun b l => ?_)
        show pending (s.out.cur.put a {}) b l = _
        unfold VMOutput.put
        rw [pending_insert]
        split
        · rename_i h; subst h; simp [Spec.pending, hg]
        · rfl
      | cacheBal a acc ua hg => exact .inl (pending_put_same hg rfl)
      | cacheNonce a acc ua hg => exact .inl (pending_put_same hg rfl)
      | cacheCode a acc ua hg => exact .inl (pending_put_same hg rfl)
      | cacheSto a acc k hg hk =>
        have hp : ∀ b l, pending (s.out.cur.put a { acc with storage := acc.storage.insert k (E.hook.storageData s.world a k) }) b l =
            if b = a ∧ l = k then some (E.hook.storageData s.world a k) else pending s.out.cur b l := by
          intro b l
          unfold VMOutput.put
          rw [pending_insert]
          by_cases hb : b = a
          · subst hb
            simp only [if_true, AMap.get?_insert, true_and]
            by_cases hl : k = l
            · subst hl; simp
            · have : ¬ l = k := fun h => hl h.symm
              simp [hl, this, Spec.pending, hg]
          · simp [hb]
        have hnone : pending s.out.cur a k = none := by simp [Spec.pending, hg, hk]
        refine .inr (.inl ⟨rfl, fun b l hh => ?_, fun b l => ?_⟩)
        · show (pending (s.out.cur.put _ _) b l).isSome
          rw [hp]; split
          · rfl
          · exact hh
        · show (pending (s.out.cur.put _ _) b l).getD _ = _
          rw [hp]
          by_cases hc : b = a ∧ l = k
          · obtain ⟨rfl, rfl⟩ := hc; simp [Spec.view, hnone]
          · rw [if_neg hc]; rfl
      | write acc k v old hg hk =>
        refine .inr (.inr ⟨rfl, k, v, fun b l => ?_⟩)
        show pending (s.out.cur.put _ _) b l = _
        unfold VMOutput.put
        rw [pending_insert]
        by_cases hb : b = s.sto.addr
        · subst hb
          simp only [if_true, AMap.get?_insert, true_and]
          by_cases hl : k = l
          · subst hl; simp
          · have : ¬ l = k := fun h => hl h.symm
            simp [hl, this, Spec.pending, hg]
        · simp [hb]
      | pay snd dst acc dacc v hs hd hv hc =>
        refine .inl (fun b l => ?_)
        exact (modAcc_pending _ dst b (fun x => { x with balanceDelta := x.balanceDelta + v }) (fun _ => rfl) l).trans
          (modAcc_pending _ snd b (fun x => { x with balanceDelta := x.balanceDelta - v }) (fun _ => rfl) l)
      | xfer dst acc t hg => exact .inl (pending_put_same hg rfl)
      | incNonce a acc i hc hg _ => exact .inl (pending_put_same hg rfl)
      | gasUsed acc hg => exact .inl (pending_put_same hg rfl)
      | _ => exact .inl (fun _ _ => rfl)
    | deploy d _ _ _ _ _ => exact .inl (modDeploy d)
    | dest _ i r he _ => exact (halt_dest he).elim
    | same _ i r he _ => exact (halt_same he).elim
    | undo _ i r a ci he => exact (halt_dest he).elim
    | _ => exact .inl (fun _ _ => rfl)
  | deploy d _ _ => exact .inl (modDeploy d)
  | finalize => exact .inl (pending_finalize s)
  | clean _ =>
    refine .inl (fun b l => ?_)
    unfold St.cleanInstance
    split
    · rfl
    · split <;> rfl
  | failed c new m g h1 h2 h3 =>
    refine .inl (fun b l => ?_)
    unfold St.cleanInstance
    split
    · rfl
    · split <;> rfl
  | _ => exact .inl (fun _ _ => rfl)

theorem step_chain (hq : QuietNode E) {s t : St χ A} (h : StepB E Executor.halt s t) : SameChain E s t := by
  cases h with
  | a _ hs =>
    cases hs with
    | world w hw =>
      cases hw with
      | builtin i => exact fun a k => hq.builtin _ _ a k
      | revert n => exact fun a k => hq.revert _ _ a k
    | dest _ i r he _ => exact (halt_dest he).elim
    | same _ i r he _ => exact (halt_same he).elim
    | undo _ i r a ci he => exact (halt_dest he).elim
    | _ => exact fun _ _ => rfl
  | saveCompiled _ _ h c _ _ => exact fun a k => hq.saveCompiled _ _ _ a k
  | finalize =>
    obtain ⟨o, m, ho⟩ := getVMOutput_only (E := E) s
    intro a k; rw [ho]
  | clean _ =>
    intro a k
    unfold St.cleanInstance
    split
    · rfl
    · split <;> rfl
  | failed c new m g h1 h2 h3 =>
    intro a k
    unfold St.cleanInstance
    split
    · rfl
    · split <;> rfl
  | _ => exact fun _ _ => rfl

theorem hist_one {ks ks' : List Bool} {s t : St χ A} {e : Option Event} (h : Happens E ks s e ks' t) : Hist E ks s e.toList ks' t := by
  have := Hist.cons h (.nil ks' t)
  simpa using this

theorem hist_append {ks ks1 ks2 : List Bool} {s t u : St χ A} {es fs : List Event} (h : Hist E ks s es ks1 t) (h2 : Hist E ks1 t fs ks2 u) :
    Hist E ks s (es ++ fs) ks2 u := by
  induction h with
  | nil => exact h2
  | cons h _ ih => rw [List.append_assoc]; exact .cons h (ih h2)

/-- a sequence of storage events leads from one state to the other -/
def Explained (E : Env χ A) (s t : St χ A) : Prop := ∀ ks, ∃ es, Hist E ks s es ks t

theorem Explained.elsewhere {s t : St χ A} (h1 : t.sto = s.sto) (h2 : t.out = s.out) (hw : SameChain E s t) : Explained E s t :=
  fun ks => ⟨_, hist_one (.elsewhere ks s t (by rw [h1]) (by rw [h1]) (by rw [h2]) (fun _ _ => by rw [h2]) hw)⟩

theorem Explained.trans {s t u : St χ A} (h1 : Explained E s t) (h2 : Explained E t u) : Explained E s u := fun ks => by
  obtain ⟨es, h1⟩ := h1 ks
  obtain ⟨fs, h2⟩ := h2 ks
  exact ⟨es ++ fs, hist_append h1 h2⟩

theorem builtinFrom_storage {w : χ} {i : CallInput} {b : BuiltinOutput} (hb : BuiltinFrom E w i b) :
    ∃ b0, (E.hook.processBuiltIn w i).1 = .ok b0 ∧ ∀ a k, pending b.out a k = pending b0.out a k := by
  obtain ⟨b0, p, s, h1, rfl⟩ := hb
  refine ⟨b0, h1, fun a k => ?_⟩
  have h3 : pending (clearTransfers b0.out) a k = pending b0.out a k :=
    pending_mapKey b0.out (clearTransfers b0.out) (fun _ x => { x with transfers := [] }) (fun _ _ => rfl) rfl a k
  have h4 : ∀ o : VMOutput, pending (addEsdtTransfer E s i o) a k = pending o a k := by
    intro o
    have put : ∀ r f as c ct, pending (addTransferToOutput f as c r ct o) a k = pending o a k := by
      intro r f as c ct
      unfold addTransferToOutput
      rw [pending_insert]
      split
      · rename_i h; subst h
        simp only [Spec.pending]
        cases hg : o.accounts.get? a with
        | none => rfl
        | some x => rfl
      · rfl
    unfold addEsdtTransfer
    split
    · rfl
    · split
      · rfl
      · split
        · exact put _ _ _ _ _
        · split
          · split
            · exact put _ _ _ _ _
            · rfl
          · rfl
  dsimp only
  rw [h4]
  split
  · exact h3
  · rfl

theorem builtinMade_storage (hq : QuietNode E) {b : BuiltinOutput} (hb : BuiltinMade E b) (a : Addr) (k : Bytes) : pending b.out a k = none := by
  obtain ⟨w, i, hb⟩ := hb
  obtain ⟨b0, h1, h2⟩ := builtinFrom_storage hb
  rw [h2]; exact hq.noUpdates w i b0 h1 a k

theorem pending_builtin (o : VMOutput) (b : BuiltinOutput) (a : Addr) (k : Bytes) :
    pending (addToActive o b).1 a k = match pending b.out a k with | some v => some v | none => pending o a k := by
  simp only [Spec.pending]
  rw [get_addToActive]
  cases hr : b.out.accounts.get? a with
  | none => rfl
  | some ra =>
    simp only [Option.bind_some]
    cases hl : o.accounts.get? a with
    | none => simp only [builtinAcc, Option.bind_none]; split <;> simp_all
    | some la =>
      simp only [builtinAcc, mergeAcc, AMap.get?_mergeWith, Option.bind_some]
      cases ra.storage.get? k <;> rfl

theorem pending_addToActive (hq : QuietNode E) (o : VMOutput) {b : BuiltinOutput} (hb : BuiltinMade E b) (a : Addr) (k : Bytes) :
    pending (addToActive o b).1 a k = pending o a k := by
  have h1 := builtinMade_storage hq hb a k
  simp only [Spec.pending] at h1 ⊢
  rw [get_addToActive]
  cases hr : b.out.accounts.get? a with
  | none => rfl
  | some ra =>
    rw [hr] at h1
    simp only [Option.bind_some] at h1 ⊢
    cases hl : o.accounts.get? a with
    | none => simp only [builtinAcc, h1, Option.bind_none]
    | some la => simp only [builtinAcc, mergeAcc, AMap.get?_mergeWith, h1, Option.bind_some]

theorem finishSame_chain (hrev : ∀ w n a k, E.hook.storageData (E.hook.revert w n) a k = E.hook.storageData w a k)
    {e : Option Err} {u v : St χ A} (hf : finishSame E e u = (.ok (), v)) : SameChain E u v := by
  by_cases hc : u.out.cur.returnCode = .ok ∧ e = none
  · obtain ⟨h1, rfl⟩ := hc
    rw [finishSame_ok u h1] at hf
    obtain ⟨o', m, ho⟩ := getVMOutput_only (E := E) u
    generalize (getVMOutput E u).1 = x at hf
    generalize (getVMOutput E u).2 = y at hf ho
    obtain ⟨r', ins', hr, _, _⟩ := restoreGas_only x.gasRemaining (popSameOk y)
    rw [hr] at hf
    simp only [Prod.mk.injEq] at hf
    obtain ⟨_, rfl⟩ := hf
    intro a k
    show E.hook.storageData (popSameOk y).world a k = _
    unfold popSameOk
    rw [(rtPopSet_keeps _).2.2]
    show E.hook.storageData y.world a k = _
    rw [ho]
  · have hc' : u.out.cur.returnCode ≠ .ok ∨ e.isSome := by
      by_cases h1 : u.out.cur.returnCode = .ok
      · cases e with
        | none => exact absurd ⟨h1, rfl⟩ hc
        | some e => exact .inr rfl
      · exact .inl h1
    rw [finishSame_fail e u hc'] at hf
    simp only [Prod.mk.injEq, true_and] at hf
    subst hf
    intro a k
    unfold popSameFail
    have h2 := (rtPopSet_keeps ({ u with big := u.big.popSet, met := u.met.popSet, out := u.out.popSet } : St χ A)).2.2
    generalize St.rtPopSet ({ u with big := u.big.popSet, met := u.met.popSet, out := u.out.popSet } : St χ A) = y at h2 ⊢
    unfold St.bcPopSet
    split
    · rw [h2]
    · show E.hook.storageData (E.hook.revert y.world _) a k = _
      rw [hrev, h2]

theorem explained_binary (hq : QuietNode E) : Binary E (Explained E) where
  refl s ks := ⟨[], .nil ks s⟩
  trans s t u := Explained.trans
  delete s t a i hc _ _ _ := absurd hc (hq.noCreate i)
  step s t h ks := by
    have hw := step_chain hq h
    have hf := (h.frame (ex := Executor.halt) frameEx_halt).1
    rcases step_cases hq.noCreate h with h1 | ⟨h1, h2, h3⟩ | ⟨h1, k, v, h2⟩
    · exact ⟨_, hist_one (.elsewhere ks s t hf.stoAddr hf.stoStack hf.out h1 hw)⟩
    · exact ⟨_, hist_one (.other ks s t h hw h2 (h3 _))⟩
    · exact ⟨_, hist_one (.write ks s t k v h h1 h2)⟩
  stepH s t h := by
    cases h with
    | inst i g hi => exact .elsewhere rfl rfl (fun _ _ => rfl)
    | world i => exact .elsewhere rfl rfl (fun a k => hq.builtin _ _ a k)
    | merge i b hb =>
      exact fun ks => ⟨_, hist_one (.elsewhere ks s _ rfl rfl rfl (pending_addToActive hq _ ⟨_, _, hb⟩) (fun a k => hq.builtin _ _ a k))⟩
  bcPush s := .elsewhere rfl rfl (fun _ _ => rfl)
  bcPopSet s := by
    obtain ⟨h1, _, _, h4, _⟩ := bcPopSet_rest (E := E) s
    refine .elsewhere h4 h1 (fun a k => ?_)
    unfold St.bcPopSet
    split
    · rfl
    · exact hq.revert _ _ a k
  bcPopDiscard s := .elsewhere rfl rfl (fun _ _ => rfl)
  onError e s := fun ks => ⟨_, hist_one (.elsewhere ks s _ rfl rfl rfl (pending_fail s) (fun _ _ => rfl))⟩
  dest j s u e info r v hF hu hf ks := by
    obtain ⟨es, hu⟩ := hu (true :: ks)
    unfold finDest at hf
    rcases bind_ok hf with ⟨out, w, h1, h2⟩ | ⟨_, h2⟩ | ⟨_, h2⟩
    · have hv : v = w := by
        cases e <;> simp only [M.pure_eq, M.pure, Prod.mk.injEq, Res.ok.injEq] at h2 <;> exact h2.2.symm
      subst hv
      exact ⟨_, hist_append (hist_one (.call ks s _ j _ (enterDest_run j s))) (hist_append hu (hist_one (.ret ks u v e out h1)))⟩
    · simp at h2
    · simp at h2
  same i s u e v hF hu hf ks := by
    obtain ⟨es, hu⟩ := hu (false :: ks)
    have hw : SameChain E u v := finishSame_chain hq.revert hf
    exact ⟨_, hist_append (hist_one (.callSame ks s _ i _ (enterSame_run i s))) (hist_append hu (hist_one (.retSame ks u v e hf hw)))⟩

/-! ### Guarded keys -/

theorem hostKey_iff (k : Bytes) : IsHostKey k ↔ vmKey k := Iff.rfl

theorem guarded_iff (k : Bytes) : Guarded E k ↔ isReservedKey E k = true ∨ (isProtectedKey k = true ∧ ¬ vmKey k) := by
  unfold Guarded isReservedKey isProtectedKey
  rw [List.isPrefixOf_iff_prefix, List.isPrefixOf_iff_prefix]
  exact Iff.rfl

/-- the protection is on and the node is in a state that it can be led to -/
def Protected (E : Env χ A) (w0 : χ) (s : St χ A) : Prop := s.sto.protect = true ∧ Reached E w0 s.world
/-- what an output holds under guarded keys comes from the node -/
def Clean (E : Env χ A) (w0 : χ) (o : VMOutput) : Prop := ∀ a k v, Guarded E k → pending o a k = some v → FromNode E w0 a k v

theorem sto_popSet_protect (c : StoCtx) : c.popSet.protect = c.protect := by unfold StoCtx.popSet; split <;> rfl

theorem protected_unary (w0 : χ) : Unary E (Protected E w0) where
  delete _ _ _ _ _ _ _ _ h := h
  step s t h hI := by
    cases h with
    | a _ hs =>
      cases hs with
      | world w hw =>
        cases hw with
        | builtin i => exact ⟨hI.1, .builtin _ i hI.2⟩
        | revert n => exact ⟨hI.1, .revert _ n hI.2⟩
      | protect => exact ⟨rfl, hI.2⟩
      | dest _ i r he _ => exact (halt_dest he).elim
      | same _ i r he _ => exact (halt_same he).elim
      | undo _ i r a ci he => exact (halt_dest he).elim
      | _ => exact hI
    | saveCompiled _ _ h c _ _ => exact ⟨hI.1, .saveCompiled _ h c hI.2⟩
    | finalize =>
      obtain ⟨o, m, ho⟩ := getVMOutput_only (E := E) s
      rw [ho]; exact hI
    | clean _ =>
      unfold St.cleanInstance
      split
      · exact hI
      · split <;> exact hI
    | failed c new m g h1 h2 h3 =>
      unfold St.cleanInstance
      split
      · exact hI
      · split <;> exact hI
    | _ => exact hI
  stepH s t h hI := by
    cases h with
    | inst i g _ => exact hI
    | world i => exact ⟨hI.1, .builtin _ i hI.2⟩
    | merge i b _ => exact ⟨hI.1, .builtin _ i hI.2⟩
  push s hI := hI
  bcPopSet s hI := by
    unfold St.bcPopSet
    split
    · exact hI
    · exact ⟨hI.1, .revert _ _ hI.2⟩
  bcPopDiscard s hI := hI
  onError e s hI := hI
  enterDest i s hI := hI
  enterSame i s hI := hI
  popDest b s hI := by
    unfold popDest Protected
    dsimp only
    rw [(rtPopSet_keeps _).2.1, (rtPopSet_keeps _).2.2]
    cases b <;> exact ⟨(sto_popSet_protect _).trans hI.1, hI.2⟩
  popSameFail s hI := by
    unfold popSameFail Protected
    rw [(bcPopSet_rest (E := E) _).2.2.2.1]
    obtain ⟨_, h2, h3⟩ := rtPopSet_keeps ({ s with big := s.big.popSet, met := s.met.popSet, out := s.out.popSet } : St χ A)
    refine ⟨by rw [h2]; exact hI.1, ?_⟩
    generalize St.rtPopSet ({ s with big := s.big.popSet, met := s.met.popSet, out := s.out.popSet } : St χ A) = y at h3 ⊢
    unfold St.bcPopSet
    split
    · rw [h3]; exact hI.2
    · refine .revert _ _ ?_
      rw [h3]; exact hI.2
  popSameOk s hI := by
    unfold popSameOk Protected
    rw [(rtPopSet_keeps _).2.1, (rtPopSet_keeps _).2.2]
    exact hI
  restore g s hI := by
    obtain ⟨r, ins, hr, _, _⟩ := restoreGas_only g s
    rw [hr]; exact hI

theorem clean_inv (w0 : χ) : OutInv E (Protected E w0) (Clean E w0) where
  unary := protected_unary w0
  step s t hJ h hP a k v hk hv := by
    rcases step_pending h a k with h1 | ⟨_, h1⟩ | ⟨h1, _, h2, h3⟩
    · rw [h1] at hv; exact hP a k v hk hv
    · rw [h1] at hv
      exact .inl ⟨s.world, hJ.2, (Option.some.inj hv).symm⟩
    · rcases (guarded_iff k).mp hk with hk | ⟨hk, hn⟩
      · rw [h2] at hk; exact absurd hk (by simp)
      · rcases h3 hk with h3 | h3
        · rw [hJ.1] at h3; exact absurd h3 (by simp)
        · exact absurd h3 hn
  delete s c b i _ _ _ hP a k v hk hv := by
    have h2 : pending (c.deleteAcc b).cur a k = if b = a then none else pending c.cur a k := by
      show ((c.cur.accounts.erase b).get? a).bind _ = _
      rw [AMap.get?_erase]
      split <;> rfl
    rw [h2] at hv
    split at hv
    · exact absurd hv (by simp)
    · exact hP a k v hk hv
  builtin s i b hJ hb hP a k v hk hv := by
    rw [pending_builtin] at hv
    obtain ⟨b0, h1, h2⟩ := builtinFrom_storage hb
    rw [h2] at hv
    cases hc : pending b0.out a k with
    | none => rw [hc] at hv; exact hP a k v hk hv
    | some x => rw [hc] at hv; rw [← Option.some.inj hv]; exact .inr ⟨s.world, i, b0, hJ.2, h1, hc⟩
  fail s hP a k v hk hv := by rw [pending_fail] at hv; exact hP a k v hk hv
  censored o hP := hP
  nested p c hp hc a k v hk hv := by
    rw [pending_mergeOut] at hv
    cases hx : pending c a k with
    | none => rw [hx] at hv; exact hp a k v hk hv
    | some x => rw [hx] at hv; exact hc a k v hk (hx.trans hv)

/-- nothing is pending when a transaction starts -/
theorem txStart_pending (tx : Tx) (s : St χ A) (a : Addr) (k : Bytes) : pending (txStart E tx s).out.cur a k = none := by
  unfold Spec.pending
  cases hg : (txStart E tx s).out.cur.accounts.get? a with
  | none => rfl
  | some acc =>
    obtain ⟨n, d, rfl⟩ := (txStart_started (E := E) tx s).accounts a acc hg
    rfl

theorem txStart_protected (tx : Tx) (s : St χ A) (h : s.sto.protect = true) : Protected E s.world (txStart E tx s) := by
  cases tx with
  | call i => exact ⟨h, .start⟩
  | create i =>
    unfold txStart
    dsimp only
    split
    · exact ⟨h, .start⟩
    · obtain ⟨o, ho⟩ := newAddress_rest (E := E) i.vm.caller (hostInit E s)
      rw [ho]; exact ⟨h, .start⟩

end Arwen.Props
