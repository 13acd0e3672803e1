import Verif.Spec.Entries
import Verif.Props.Getters
import Verif.Props.Expr
/-
C63 (storage, as contracts use it).
-/
namespace Arwen.Props
open Arwen Arwen.Eei Arwen.Spec
variable {χ A : Type} {E : Env χ A} {ex : Executor χ A}

/-! ### Outputs -/

theorem _root_.Arwen.Spec.OnlyEntries.refl (o : OutCtx) : OnlyEntries o o := ⟨rfl, fun _ => rfl⟩
theorem _root_.Arwen.Spec.OnlyEntries.trans {o p q : OutCtx} (h1 : OnlyEntries o p) (h2 : OnlyEntries p q) : OnlyEntries o q :=
  ⟨by rw [h2.rest, h1.rest], fun a => (h2.accounts a).trans (h1.accounts a)⟩

theorem getAcc_noted (o : OutCtx) (a : Addr) : (o.getAcc a).1 = noted o a ∧ OnlyEntries o (o.getAcc a).2.2 ∧
    (o.getAcc a).2.2.cur.gasRefund = o.cur.gasRefund := by
  unfold OutCtx.getAcc noted
  split
  · rename_i acc h; rw [h]; exact ⟨rfl, .refl _, rfl⟩
  · rename_i h; rw [h]
    refine ⟨rfl, ⟨rfl, fun b => ?_⟩, rfl⟩
    unfold noted
    simp only [AMap.get?_insert]
    by_cases hb : a = b
    · subst hb; simp [h]
    · simp [hb]

theorem setAcc_entries (o : OutCtx) (a : Addr) (x : OutAcc) (h : { x with storage := AMap.empty } = { noted o a with storage := AMap.empty }) :
    OnlyEntries o (o.setAcc a x) := by
  refine ⟨rfl, fun b => ?_⟩
  by_cases hb : a = b
  · subst hb
    have : noted (o.setAcc a x) a = x := by unfold noted OutCtx.setAcc; simp
    rw [this, h]
  · have : noted (o.setAcc a x) b = noted o b := by unfold noted OutCtx.setAcc; simp [AMap.get?_insert, hb]
    rw [this]

/-- the output of the state is another one, and the gas has been paid -/
structure Moved (s t : St χ A) (i g : Nat) : Prop where
  paid : OnlyPaid s { t with out := s.out } i g
  out : OnlyEntries s.out t.out

theorem Moved.trans {s t u : St χ A} {i g h : Nat} (h1 : Moved s t i g) (h2 : Moved t u i h) : Moved s u i (g + h) :=
  ⟨h1.paid.trans ⟨by have := h2.paid.rest; simp only [St.mk.injEq] at this ⊢; simp [this], h2.paid.others, h2.paid.running, h2.paid.points⟩,
   h1.out.trans h2.out⟩
theorem Moved.of {s t : St χ A} {i g : Nat} (h : OnlyPaid s t i g) : Moved s t i g := by
  have ho : t.out = s.out := by rw [h.rest]
  exact ⟨⟨by rw [h.rest], h.others, h.running, h.points⟩, by rw [ho]; exact .refl _⟩
theorem Moved.outOnly {s : St χ A} {o : OutCtx} {i : Nat} (hp : (s.insts i).points.toNat ≤ 2 ^ 63 - 1) (h : OnlyEntries s.out o) :
    Moved s { s with out := o } i 0 :=
  ⟨⟨rfl, fun _ _ => rfl, rfl, by show (s.insts i).points.toNat = _; omega⟩, h⟩
theorem Moved.cast {s t : St χ A} {i g h : Nat} (hm : Moved s t i g) (hh : min g (2 ^ 63 - 1) = min h (2 ^ 63 - 1)) : Moved s t i h :=
  ⟨hm.paid.cast hh, hm.out⟩
theorem Moved.rt {s t : St χ A} {i g : Nat} (h : Moved s t i g) : t.rt = s.rt := h.paid.rt
theorem Moved.met {s t : St χ A} {i g : Nat} (h : Moved s t i g) : t.met = s.met := h.paid.met
theorem Moved.sto {s t : St χ A} {i g : Nat} (h : Moved s t i g) : t.sto = s.sto := by
  have := congrArg St.sto h.paid.rest; exact this
theorem Moved.world {s t : St χ A} {i g : Nat} (h : Moved s t i g) : t.world = s.world := h.paid.world
theorem Moved.mem {s t : St χ A} {i g : Nat} (h : Moved s t i g) : (t.insts i).mem = (s.insts i).mem := h.paid.mem
theorem Moved.bounded {s t : St χ A} {i g : Nat} (h : Moved s t i g) : (t.insts i).points.toNat ≤ 2 ^ 63 - 1 := by
  have := h.paid.points
  show (t.insts i).points.toNat ≤ _
  have e : ({ t with out := s.out } : St χ A).insts i = t.insts i := rfl
  rw [e] at this; omega

theorem useGas_moved {s : St χ A} {i : Nat} (hi : s.rt.instance_ = some i) (g : UInt64) :
    ∃ t, useGas g s = (.ok (), t) ∧ Moved s t i g.toNat ∧ t.out = s.out := ⟨_, useGas_run s g hi, .of (.spend hi g), rfl⟩

theorem useMul_moved {s : St χ A} {i : Nat} (hi : s.rt.instance_ = some i) (a : UInt64) {n : Nat} (hn : n < 2 ^ 64) :
    ∃ t, useGas (mulU64 a (UInt64.ofNat n)) s = (.ok (), t) ∧ Moved s t i (a.toNat * n) ∧ t.out = s.out := by
  obtain ⟨t, h1, h2, h3⟩ := useGas_moved hi (mulU64 a (UInt64.ofNat n))
  exact ⟨t, h1, h2.cast (mul_price a n hn), h3⟩

theorem useKeyGas_moved {s : St χ A} {i : Nat} (hi : s.rt.instance_ = some i) (hp : (s.insts i).points.toNat ≤ 2 ^ 63 - 1) {k : Bytes}
    (hk : k.length < 2 ^ 64) : ∃ t, useKeyGas k s = (.ok (), t) ∧ Moved s t i (keyCost s.met.sched k) ∧ t.out = s.out := by
  unfold useKeyGas
  rw [get_bind]
  unfold addressLen keyCost
  split
  · exact useMul_moved hi _ (by omega)
  · have : k.length - 32 = 0 := by omega
    rw [this]
    exact ⟨s, rfl, .outOnly hp (.refl _), rfl⟩

theorem readStorage_moved {s : St χ A} {i : Nat} (hp : (s.insts i).points.toNat ≤ 2 ^ 63 - 1) (a : Addr) (k : Bytes) :
    Moved s (readStorage E a k s).2 i 0 ∧ (readStorage E a k s).2.out.cur.gasRefund = s.out.cur.gasRefund := by
  obtain ⟨h1, h2, h3⟩ := getAcc_noted s.out a
  unfold readStorage
  dsimp only
  split
  · exact ⟨.outOnly hp h2, h3⟩
  · refine ⟨.outOnly hp (h2.trans (setAcc_entries _ _ _ ?_)), h3⟩
    rw [h1]
    exact (h2.accounts a).symm

theorem writeStorage_moved {s : St χ A} {i : Nat} (hp : (s.insts i).points.toNat ≤ 2 ^ 63 - 1) (a : Addr) (k v : Bytes) :
    Moved s (writeStorage a k v s) i 0 :=
  .outOnly hp (setAcc_entries _ _ _ (by rw [(getAcc_noted s.out a).1]))

theorem freeGas_moved {s : St χ A} {i : Nat} (hp : (s.insts i).points.toNat ≤ 2 ^ 63 - 1) (g : UInt64) :
    Moved s { s with out := s.out.setRefund (addU64 s.out.getRefund g) } i 0 := .outOnly hp ⟨rfl, fun _ => rfl⟩

theorem storageGas_moved {s : St χ A} {i : Nat} (hi : s.rt.instance_ = some i) (hp : (s.insts i).points.toNat ≤ 2 ^ 63 - 1)
    {old v : Bytes} (hne : old ≠ v) (ho : old.length < 2 ^ 64) (hv : v.length < 2 ^ 64) {t : St χ A} {st : StorageStatus}
    (h : storageGas old v s = (.ok st, t)) : Moved s t i (storeCost s.met.sched old v) := by
  unfold storageGas at h
  unfold storeCost
  rw [get_bind] at h
  rw [if_neg hne]
  by_cases h1 : old = []
  · rw [if_pos h1] at h ⊢
    obtain ⟨u, e1, e2, _⟩ := useMul_moved hi s.met.sched.storePerByte hv
    simp only [M.bind_eq, M.bind, e1, M.pure_eq, M.pure, Prod.mk.injEq] at h
    rw [← h.2]; exact e2
  · rw [if_neg h1] at h ⊢
    by_cases h2 : v = []
    · rw [if_pos h2] at h ⊢
      simp only [M.bind_eq, M.bind, freeGas_run, M.pure_eq, M.pure, Prod.mk.injEq] at h
      rw [← h.2]; exact freeGas_moved hp _
    · rw [if_neg h2] at h ⊢
      by_cases h3 : old.length < v.length
      · rw [if_pos h3] at h ⊢
        obtain ⟨u, e1, e2, _⟩ := useGas_moved hi (addU64 (mulU64 s.met.sched.persistPerByte (UInt64.ofNat old.length))
          (mulU64 s.met.sched.storePerByte (UInt64.ofNat (v.length - old.length))))
        simp only [M.bind_eq, M.bind, e1, M.pure_eq, M.pure, Prod.mk.injEq] at h
        rw [← h.2]
        refine e2.cast ?_
        rw [addU64_toNat]
        have a1 := mul_price s.met.sched.persistPerByte old.length ho
        have a2 := mul_price s.met.sched.storePerByte (v.length - old.length) (by omega)
        unfold maxPoints at *; omega
      · rw [if_neg h3] at h ⊢
        by_cases h4 : v.length < old.length
        · rw [if_pos h4] at h ⊢
          obtain ⟨u, e1, e2, _⟩ := useMul_moved hi s.met.sched.persistPerByte hv
          simp only [M.bind_eq, M.bind, e1, freeGas_run, M.pure_eq, M.pure, Prod.mk.injEq] at h
          rw [← h.2]
          have := e2.trans (freeGas_moved (s := u) (i := i) e2.bounded (mulU64 s.met.sched.releasePerByte (UInt64.ofNat (old.length - v.length))))
          rwa [Nat.add_zero] at this
        · rw [if_neg h4] at h ⊢
          simp only [M.pure_eq, M.pure, Prod.mk.injEq] at h
          rw [← h.2]; exact .outOnly hp (.refl _)

/-- a store that is allowed -/
theorem setStorage_moved {s t : St χ A} {i : Nat} (hi : s.rt.instance_ = some i) (hp : (s.insts i).points.toNat ≤ 2 ^ 63 - 1) {k v : Bytes}
    (hk : k.length < 2 ^ 64) (hv : v.length < 2 ^ 64) (ho : (view E s s.sto.addr k).length < 2 ^ 64) (hro : s.rt.cur.readOnly = false)
    (hown : OwnKey E s k) {st : StorageStatus} {e : Option Err} (h : setStorage E k v s = (.ok (st, e), t)) :
    Moved s t i (keyCost s.met.sched k + storeCost s.met.sched (view E s s.sto.addr k) v) := by
  have hr : isReservedKey E k = false := by
    cases hc : isReservedKey E k with
    | false => rfl
    | true => exact absurd (List.isPrefixOf_iff_prefix.mp hc) hown.1
  have hpk : (isProtectedKey k && s.sto.protect) = false := by
    cases hc : (isProtectedKey k && s.sto.protect) with
    | false => rfl
    | true =>
      rw [Bool.and_eq_true] at hc
      exact absurd ⟨List.isPrefixOf_iff_prefix.mp hc.1, hc.2⟩ hown.2
  unfold setStorage at h
  rw [get_bind, hro, hr, hpk] at h
  simp only [Bool.false_eq_true, if_false] at h
  obtain ⟨s1, e1, p1, o1⟩ := useKeyGas_moved hi hp hk
  have hview : view E s1 s1.sto.addr k = view E s s.sto.addr k := by simp only [Spec.view, o1, p1.sto, p1.world]
  have hold := (readStorage_view (E := E) s1.sto.addr k s1).1
  rw [hview] at hold
  obtain ⟨p2, _⟩ := readStorage_moved (E := E) (s := s1) (i := i) p1.bounded s1.sto.addr k
  simp only [M.bind_eq, M.bind, e1, getStorageUnmetered, M.lift] at h
  generalize readStorage E s1.sto.addr k s1 = q at hold p2 h
  obtain ⟨old, s2⟩ := q
  dsimp only at hold p2 h
  generalize view E s s.sto.addr k = old' at *
  subst hold
  have p2 := p1.trans p2
  have i2 : s2.rt.instance_ = some i := by rw [p2.rt]; exact hi
  by_cases heq : old = v
  · simp only [if_pos heq, M.bind, M.get] at h
    obtain ⟨u, f1, f2, _⟩ := useMul_moved i2 s2.met.sched.dataCopyPerByte hv
    rw [f1] at h
    simp only [M.pure_eq, M.pure, Prod.mk.injEq] at h
    rw [← h.2]
    refine (p2.trans f2).cast ?_
    rw [p2.met]
    simp only [storeCost, if_pos heq, Nat.add_zero]
  · simp only [if_neg heq, M.bind, M.modify] at h
    have p3 := p2.trans (writeStorage_moved p2.bounded s2.sto.addr k v)
    generalize writeStorage s2.sto.addr k v s2 = s3 at p3 h
    generalize hg : storageGas old v s3 = q at h
    obtain ⟨r, u⟩ := q
    cases r with
    | ok st' =>
      simp only [M.pure_eq, M.pure, Prod.mk.injEq] at h
      rw [← h.2]
      have := p3.trans (storageGas_moved (by rw [p3.rt]; exact hi) p3.bounded heq ho hv hg)
      rw [p3.met] at this
      exact this.cast (by simp only [Nat.add_zero])
    | panic => simp at h
    | oof => simp at h

theorem statusRes_store (old new : Bytes) : statusRes (storeStatus old new) = storeAnswer old new := by
  unfold storeStatus storeAnswer
  split
  · rfl
  · split
    · rfl
    · split <;> rfl

/-- a store that is allowed, as an operation of the API -/
theorem interp_setStorage {s : St χ A} {i : Nat} (hi : s.rt.instance_ = some i) (hp : (s.insts i).points.toNat ≤ 2 ^ 63 - 1) {k v : Bytes}
    (hk : k.length < 2 ^ 64) (hv : v.length < 2 ^ 64) (ho : (view E s s.sto.addr k).length < 2 ^ 64) (hro : s.rt.cur.readOnly = false)
    (hown : OwnKey E s k) : ∃ t, interp E ex (.op (.setStorage k v) statusK) s = (.ok (storeAnswer (view E s s.sto.addr k) v), t) ∧
      Stored E s t i (keyCost s.met.sched k + storeCost s.met.sched (view E s s.sto.addr k) v) k v
        (storeRefund s.met.sched (view E s s.sto.addr k) v) := by
  have hp' : s.pointsUsed.toNat ≤ maxPoints := by unfold maxPoints; simpa only [St.pointsUsed, hi] using hp
  obtain ⟨t, h1, _, h3⟩ := c10_store hi hp' k v hro hown.1 hown.2 hk hv ho
  have hm := setStorage_moved hi hp hk hv ho hro hown h1
  refine ⟨t, ?_, hm.paid, ?_, hm.out, h3⟩
  · rw [← statusRes_store]
    exact interp_op_ok E ex (.setStorage k v) statusK s t _ h1
  · rcases setStorage_view h1 with ⟨h2, _⟩ | ⟨_, _, _, _, h5, _⟩
    · exfalso
      rcases h2 with h2 | h2 | ⟨h2, h4⟩
      · rw [hro] at h2; cases h2
      · exact hown.1 (List.isPrefixOf_iff_prefix.mp h2)
      · exact hown.2 ⟨List.isPrefixOf_iff_prefix.mp h2, h4⟩
    · exact h5

/-! ### Reading -/

theorem getStorage_moved {s : St χ A} {i : Nat} (hi : s.rt.instance_ = some i) (hp : (s.insts i).points.toNat ≤ 2 ^ 63 - 1) {k : Bytes}
    (hk : k.length < 2 ^ 64) (ho : (view E s s.sto.addr k).length < 2 ^ 64) :
    ∃ t, getStorage E k s = (.ok (view E s s.sto.addr k), t) ∧ Moved s t i (readCost s.met.sched k (view E s s.sto.addr k)) ∧
      Unstored E s t := by
  obtain ⟨s1, e1, p1, o1⟩ := useKeyGas_moved hi hp hk
  have hview : view E s1 s1.sto.addr k = view E s s.sto.addr k := by simp only [Spec.view, o1, p1.sto, p1.world]
  have hold := (readStorage_view (E := E) s1.sto.addr k s1).1
  rw [hview] at hold
  obtain ⟨p2, r2⟩ := readStorage_moved (E := E) (s := s1) (i := i) p1.bounded s1.sto.addr k
  generalize hq : readStorage E s1.sto.addr k s1 = q at hold p2 r2
  obtain ⟨old, s2⟩ := q
  dsimp only at hold p2 r2
  subst hold
  have p2 := p1.trans p2
  obtain ⟨t, f1, f2, f3⟩ := useMul_moved (s := s2) (by rw [p2.rt]; exact hi) s2.met.sched.dataCopyPerByte ho
  have hrun : getStorage E k s = (.ok (view E s s.sto.addr k), t) := by
    unfold getStorage
    simp only [M.bind_eq, M.bind, e1, getStorageUnmetered, M.lift, hq, M.get, f1]
    rfl
  rw [p2.met] at f2
  have p3 := (p2.trans f2).cast (h := readCost s.met.sched k (view E s s.sto.addr k)) (by unfold readCost; simp only [Nat.add_zero])
  exact ⟨t, hrun, p3, (getStorage_view hrun).2.1, p3.out, by rw [f3, r2, o1]⟩

theorem getStorageFrom_moved {s : St χ A} {i : Nat} (hi : s.rt.instance_ = some i) (hp : (s.insts i).points.toNat ≤ 2 ^ 63 - 1) {a : Addr} {k : Bytes}
    (hk : k.length < 2 ^ 64) (hr : storageReadable E s a = true) (hn : isReservedKey E k = false) (ho : (view E s a k).length < 2 ^ 64) :
    ∃ t, getStorageFromAddress E a k s = (.ok (view E s a k), t) ∧ Moved s t i (readCost s.met.sched k (view E s a k)) ∧ Unstored E s t := by
  obtain ⟨s1, e1, p1, o1⟩ := useKeyGas_moved hi hp hk
  have hr1 : storageReadable E s1 a = true := by rw [← hr]; simp only [storageReadable, acctOf, p1.sto, p1.world]
  have hview : view E s1 a k = view E s a k := by simp only [Spec.view, o1, p1.world]
  have hold := (readStorage_view (E := E) a k s1).1
  rw [hview] at hold
  obtain ⟨p2, r2⟩ := readStorage_moved (E := E) (s := s1) (i := i) p1.bounded a k
  generalize hq : readStorage E a k s1 = q at hold p2 r2
  obtain ⟨old, s2⟩ := q
  dsimp only at hold p2 r2
  subst hold
  have m1 := p1.met
  have p2 := p1.trans p2
  obtain ⟨t, f1, f2, f3⟩ := useMul_moved (s := s2) (by rw [p2.rt]; exact hi) s1.met.sched.dataCopyPerByte ho
  have hrun : getStorageFromAddress E a k s = (.ok (view E s a k), t) := by
    unfold getStorageFromAddress
    simp only [M.bind_eq, M.bind, e1, M.lift, hq, M.get, f1, hr1, hn, Bool.not_true, Bool.false_eq_true, if_false]
    rfl
  rw [m1] at f2
  have p3 := (p2.trans f2).cast (h := readCost s.met.sched k (view E s a k)) (by unfold readCost; simp only [Nat.add_zero])
  exact ⟨t, hrun, p3, (getStorageFrom_view hrun).2.2.2.1, p3.out, by rw [f3, r2, o1]⟩

theorem getStorageFrom_refused {s : St χ A} {i : Nat} (hi : s.rt.instance_ = some i) (hp : (s.insts i).points.toNat ≤ 2 ^ 63 - 1) {a : Addr} {k : Bytes}
    (hk : k.length < 2 ^ 64) (hr : storageReadable E s a = false) :
    ∃ t, getStorageFromAddress E a k s = (.ok [], t) ∧ Moved s t i (keyCost s.met.sched k) ∧ Unstored E s t := by
  obtain ⟨s1, e1, p1, o1⟩ := useKeyGas_moved hi hp hk
  have hr1 : storageReadable E s1 a = false := by rw [← hr]; simp only [storageReadable, acctOf, p1.sto, p1.world]
  have hrun : getStorageFromAddress E a k s = (.ok [], s1) := by
    unfold getStorageFromAddress
    simp only [M.bind_eq, M.bind, e1, M.get, hr1, Bool.not_false, if_true]
    rfl
  exact ⟨s1, hrun, p1, (getStorageFrom_view hrun).2.2.2.1, p1.out, by rw [o1]⟩

theorem readable_iff (s : St χ A) (a : Addr) : storageReadable E s a = true ↔ MayRead E s a := by
  unfold storageReadable MayRead acctOf
  rw [Bool.or_eq_true, decide_eq_true_iff]
  refine or_congr Iff.rfl ?_
  generalize E.hook.userAccount s.world a = r
  cases r with
  | error e => simp
  | ok o =>
    cases o with
    | none => simp
    | some ua =>
      dsimp only
      unfold metaReadable
      constructor
      · intro h
        refine ⟨ua, rfl, ?_⟩
        split at h
        · rename_i x y he; exact ⟨x, y, he, of_decide_eq_true h⟩
        · cases h
      · rintro ⟨ub, h1, x, y, h2, h3⟩
        cases h1
        rw [h2]
        exact decide_eq_true h3

theorem paid_view {s u : St χ A} {i g : Nat} (h : OnlyPaid s u i g) (a : Addr) (k : Bytes) : view E u a k = view E s a k := by
  rw [h.rest]; rfl
theorem paid_out {s u : St χ A} {i g : Nat} (h : OnlyPaid s u i g) : u.out = s.out := by rw [h.rest]
theorem paid_sto {s u : St χ A} {i g : Nat} (h : OnlyPaid s u i g) : u.sto = s.sto := by rw [h.rest]
theorem paid_bounded {s u : St χ A} {i g : Nat} (h : OnlyPaid s u i g) : (u.insts i).points.toNat ≤ 2 ^ 63 - 1 := by rw [h.points]; omega

theorem stored_after {s u t : St χ A} {i g p r : Nat} {k v : Bytes} (h : OnlyPaid s u i g) (ht : Stored E u t i p k v r) :
    Stored E s t i (g + p) k v r := by
  have m := (Moved.of h).trans ⟨ht.paid, ht.out⟩
  refine ⟨m.paid, fun a l => ?_, m.out, ?_⟩
  · rw [ht.entries, paid_view h, paid_sto h]
  · have := ht.refund; rw [paid_out h] at this; exact this

theorem unstored_after {s u t : St χ A} {i g : Nat} (h : OnlyPaid s u i g) (ht : Unstored E u t) : Unstored E s t := by
  refine ⟨fun a l => ?_, ?_, ?_⟩
  · rw [ht.entries, paid_view h]
  · have := ht.out; rw [paid_out h] at this; exact this
  · rw [ht.refund, paid_out h]

theorem unstored_inst {s t : St χ A} {j : Nat} {f : Inst A → Inst A} (h : Unstored E s t) : Unstored E s (t.modInst j f) := ⟨h.entries, h.out, h.refund⟩

/-- putting data into the memory after reading an entry -/
theorem reads_store {s u : St χ A} {i price : Nat} {p : Eei.P χ A} {off : Int32} {data : Bytes} {ret r : Int64} (hi : s.rt.instance_ = some i)
    (hm : (s.insts i).mem.length + 65537 < 2 ^ 31) (hd : data.length < 2 ^ 31) (hu : Moved s u i price) (hs : Unstored E s u)
    (h : interp E ex p s = interp E ex (storeK off data ret (.pure r)) u) : Reads E ex p s i price off data r := by
  have hui : u.rt.instance_ = some i := by rw [hu.rt]; exact hi
  obtain ⟨mem, e, h1, h2, h3⟩ := interp_storeK (E := E) (ex := ex) (s := u) hui (by rw [hu.mem]; exact hm) off hd ret (.pure r)
  rw [h1] at h
  have wrote : e = none → Wrote s { u.modInst i (fun x => { x with mem := mem }) with out := s.out } i price off data := by
    intro he
    refine ⟨_, mem, hu.paid, ?_, (h2 he).1, fun j hj => by rw [(h2 he).2 j hj, hu.mem]⟩
    unfold St.modInst
    congr 1
  refine ⟨fun hf => ?_, ?_⟩
  · have he := h3 (by unfold Fits at hf ⊢; rw [hu.mem]; exact hf)
    refine ⟨_, ?_, wrote he, unstored_inst hs⟩
    rw [h, he]; rfl
  · cases e with
    | none => exact ⟨r, _, h, .inl ⟨rfl, wrote rfl, unstored_inst hs⟩⟩
    | some e => exact ⟨ret, _, h, .inr (curBp_faulted E _ e hui)⟩

/-! ### The API -/

theorem bytesAt_bound {mem : Bytes} {off len : Int32} {b : Bytes} (h : BytesAt mem off len b) : b.length < 2 ^ 31 := by
  have := Int32.toInt_lt len
  have := h.len
  omega

/-- an allowed store after a payment -/
theorem store_after {s u : St χ A} {i g : Nat} (hi : s.rt.instance_ = some i) (hu : OnlyPaid s u i g) {k v : Bytes} (hk : k.length < 2 ^ 64)
    (hv : v.length < 2 ^ 64) (ho : (view E s s.sto.addr k).length < 2 ^ 64) (hro : s.rt.cur.readOnly = false) (hown : OwnKey E s k) :
    ∃ t, interp E ex (.op (.setStorage k v) statusK) u = (.ok (storeAnswer (view E s s.sto.addr k) v), t) ∧
      Stored E s t i (g + (keyCost s.met.sched k + storeCost s.met.sched (view E s s.sto.addr k) v)) k v
        (storeRefund s.met.sched (view E s s.sto.addr k) v) := by
  obtain ⟨t, h1, h2⟩ := interp_setStorage (E := E) (ex := ex) (s := u) (by rw [hu.rt]; exact hi) (paid_bounded hu) hk hv
    (by rw [paid_view hu, paid_sto hu]; exact ho) (by rw [hu.rt]; exact hro) (by unfold OwnKey at *; rw [paid_sto hu]; exact hown)
  rw [paid_view hu, paid_sto hu] at h1 h2
  rw [hu.met] at h2
  exact ⟨t, h1, stored_after hu h2⟩

variable {s : St χ A} {i : Nat} (hi : s.rt.instance_ = some i) (hm : (s.insts i).mem.length + 65537 < 2 ^ 31)
include hi hm

/-- paying and reading the key -/
theorem interp_key (c : ApiCost) {keyOff keyLen : Int32} {k : Bytes} (hk : BytesAt (s.insts i).mem keyOff keyLen k) (ret : Int64) (p : Bytes → Eei.P χ A) :
    ∃ u, OnlyPaid s u i (s.met.sched.api c).toNat ∧ interp E ex (gasK c (loadK keyOff keyLen ret p)) s = interp E ex (p k) u := by
  obtain ⟨u, hu, hr⟩ := interp_gas (E := E) (ex := ex) hi c (loadK keyOff keyLen ret p)
  rw [interp_loadK_holds (by rw [hu.rt]; exact hi) (by rw [hu.mem]; omega) hk.len (by rw [hu.mem]; exact hk.data)] at hr
  exact ⟨u, hu, hr⟩

/-- **C63**: a value laid out in the memory is stored under the key laid out in the memory; the answer tells what has become of the entry. -/
theorem c63_store {keyOff keyLen dataOff dataLen : Int32} {k v : Bytes} (hk : BytesAt (s.insts i).mem keyOff keyLen k)
    (hv : BytesAt (s.insts i).mem dataOff dataLen v) (hro : s.rt.cur.readOnly = false) (hown : OwnKey E s k)
    (ho : (view E s s.sto.addr k).length < 2 ^ 64) :
    ∃ t, interp E ex (eei E (.storageStore keyOff keyLen dataOff dataLen)) s = (.ok (storeAnswer (view E s s.sto.addr k) v), t) ∧
      Stored E s t i ((s.met.sched.api .storageStore).toNat +
          (keyCost s.met.sched k + storeCost s.met.sched (view E s s.sto.addr k) v)) k v
        (storeRefund s.met.sched (view E s s.sto.addr k) v) := by
  obtain ⟨u, hu, hr⟩ := interp_key (E := E) (ex := ex) hi hm .storageStore hk (-1) fun key =>
    loadK dataOff dataLen (-1) fun data => .op (.setStorage key data) statusK
  rw [interp_loadK_holds (by rw [hu.rt]; exact hi) (by rw [hu.mem]; omega) hv.len (by rw [hu.mem]; exact hv.data)] at hr
  have hkb := bytesAt_bound hk
  have hvb := bytesAt_bound hv
  obtain ⟨t, h1, h2⟩ := store_after (E := E) (ex := ex) hi hu (k := k) (v := v) (by omega) (by omega) ho hro hown
  exact ⟨t, hr.trans h1, h2⟩

/-- **C63**: an entry is put into the memory. -/
theorem c63_load {keyOff keyLen : Int32} (dataOff : Int32) {k : Bytes} (hk : BytesAt (s.insts i).mem keyOff keyLen k)
    (ho : (view E s s.sto.addr k).length < 2 ^ 31) :
    Reads E ex (eei E (.storageLoad keyOff keyLen dataOff)) s i
      ((s.met.sched.api .storageLoad).toNat + readCost s.met.sched k (view E s s.sto.addr k)) dataOff (view E s s.sto.addr k)
      (asResult (view E s s.sto.addr k).length) := by
  obtain ⟨u, hu, hr⟩ := interp_key (E := E) (ex := ex) hi hm .storageLoad hk (-1) fun key =>
    .op (.getStorage key) fun (d : Bytes) => storeK dataOff d (-1) (.pure (lenRes d))
  have hkb := bytesAt_bound hk
  obtain ⟨t, h1, h2, h3⟩ := getStorage_moved (E := E) (s := u) (by rw [hu.rt]; exact hi) (paid_bounded hu) (k := k) (by omega)
    (by rw [paid_view hu, paid_sto hu]; omega)
  rw [paid_view hu, paid_sto hu] at h1 h2
  rw [hu.met] at h2
  refine reads_store hi hm ho ((Moved.of hu).trans h2) (unstored_after hu h3) (ret := -1) (hr.trans ?_)
  rw [← lenRes_eq ho]
  exact interp_op_ok E ex (.getStorage k) (fun (d : Bytes) => storeK dataOff d (-1) (.pure (lenRes d))) u t _ h1

omit hi hm in
/-- the length of an entry -/
theorem lengthOf {u : St χ A} (k : Bytes) (hp : (u.insts i).points.toNat ≤ 2 ^ 63 - 1) :
    ∃ t, runCmd E ex (.getStorageUnmetered k) u = (.ok (view E u u.sto.addr k), t) ∧ Moved u t i 0 ∧ Unstored E u t := by
  obtain ⟨h1, h2⟩ := readStorage_view (E := E) u.sto.addr k u
  obtain ⟨h3, h4⟩ := readStorage_moved (E := E) (s := u) (i := i) hp u.sto.addr k
  refine ⟨(readStorage E u.sto.addr k u).2, ?_, h3, h2, h3.out, h4⟩
  rw [← h1]; rfl

/-- **C63**: the length of an entry; the entry itself costs nothing. -/
theorem c63_load_length {keyOff keyLen : Int32} {k : Bytes} (hk : BytesAt (s.insts i).mem keyOff keyLen k)
    (ho : (view E s s.sto.addr k).length < 2 ^ 31) :
    TellsEntry E ex (eei E (.storageLoadLength keyOff keyLen)) s i (s.met.sched.api .storageLoad).toNat (asResult (view E s s.sto.addr k).length) := by
  obtain ⟨u, hu, hr⟩ := interp_key (E := E) (ex := ex) hi hm .storageLoad hk (-1) fun key =>
    .op (.getStorageUnmetered key) fun (d : Bytes) => .pure (lenRes d)
  obtain ⟨t, h1, h2, h3⟩ := lengthOf (E := E) (ex := ex) (u := u) k (paid_bounded hu)
  rw [paid_view hu, paid_sto hu] at h1
  refine ⟨t, hr.trans ?_, ((Moved.of hu).trans h2).paid, unstored_after hu h3⟩
  rw [← lenRes_eq ho]
  exact interp_op_ok E ex (.getStorageUnmetered k) (fun (d : Bytes) => .pure (lenRes d)) u t _ h1

/-- **C63**: an entry of another contract is put into the memory if its owner allows it, and otherwise nothing is; the keys of the
protocol are not covered here. -/
theorem c63_load_from {addrOff keyOff keyLen : Int32} (dataOff : Int32) {a k : Bytes} (ha : a.length = 32) (haddr : Holds (s.insts i).mem addrOff a)
    (hk : BytesAt (s.insts i).mem keyOff keyLen k) (hn : ¬ E.elrondPrefix <+: k) (ho : (view E s a k).length < 2 ^ 31) :
    (MayRead E s a → Reads E ex (eei E (.storageLoadFromAddress addrOff keyOff keyLen dataOff)) s i
      ((s.met.sched.api .storageLoad).toNat + readCost s.met.sched k (view E s a k)) dataOff (view E s a k) (asResult (view E s a k).length)) ∧
    (¬ MayRead E s a → Reads E ex (eei E (.storageLoadFromAddress addrOff keyOff keyLen dataOff)) s i
      ((s.met.sched.api .storageLoad).toNat + keyCost s.met.sched k) dataOff [] 0) := by
  obtain ⟨u, hu, hr⟩ := interp_key (E := E) (ex := ex) hi hm .storageLoad hk (-1) fun key =>
    loadK addrOff 32 (-1) fun a => .op (.getStorageFromAddress a key) fun (d : Bytes) => storeK dataOff d (-1) (.pure (lenRes d))
  rw [interp_loadK_holds (by rw [hu.rt]; exact hi) (by rw [hu.mem]; omega) (data := a) (by rw [ha]; rfl) (by rw [hu.mem]; exact haddr)] at hr
  have hkb := bytesAt_bound hk
  have hread : storageReadable E u a = storageReadable E s a := by simp only [storageReadable, acctOf, paid_sto hu, hu.world]
  refine ⟨fun h => ?_, fun h => ?_⟩
  · rw [← readable_iff] at h
    have hn' : isReservedKey E k = false := by
      cases hc : isReservedKey E k with
      | false => rfl
      | true => exact absurd (List.isPrefixOf_iff_prefix.mp hc) hn
    obtain ⟨t, h1, h2, h3⟩ := getStorageFrom_moved (E := E) (s := u) (by rw [hu.rt]; exact hi) (paid_bounded hu) (a := a) (k := k) (by omega)
      (hread.trans h) hn' (by rw [paid_view hu]; omega)
    rw [paid_view hu] at h1 h2
    rw [hu.met] at h2
    refine reads_store hi hm ho ((Moved.of hu).trans h2) (unstored_after hu h3) (ret := -1) (hr.trans ?_)
    rw [← lenRes_eq ho]
    exact interp_op_ok E ex (.getStorageFromAddress a k) (fun (d : Bytes) => storeK dataOff d (-1) (.pure (lenRes d))) u t _ h1
  · have h : storageReadable E s a = false := by
      cases hc : storageReadable E s a with
      | false => rfl
      | true => exact absurd ((readable_iff s a).mp hc) h
    obtain ⟨t, h1, h2, h3⟩ := getStorageFrom_refused (E := E) (s := u) (by rw [hu.rt]; exact hi) (paid_bounded hu) (a := a) (k := k) (by omega)
      (hread.trans h)
    rw [hu.met] at h2
    refine reads_store hi hm (by decide) ((Moved.of hu).trans h2) (unstored_after hu h3) (ret := -1) (hr.trans ?_)
    exact interp_op_ok E ex (.getStorageFromAddress a k) (fun (d : Bytes) => storeK dataOff d (-1) (.pure (lenRes d))) u t _ h1

/-- **C63**: in read-only mode a store changes nothing. -/
theorem c63_store_read_only {keyOff keyLen dataOff dataLen : Int32} {k v : Bytes} (hk : BytesAt (s.insts i).mem keyOff keyLen k)
    (hv : BytesAt (s.insts i).mem dataOff dataLen v) (hro : s.rt.cur.readOnly = true) :
    Tells E ex (eei E (.storageStore keyOff keyLen dataOff dataLen)) s i (s.met.sched.api .storageStore).toNat 0 := by
  obtain ⟨u, hu, hr⟩ := interp_key (E := E) (ex := ex) hi hm .storageStore hk (-1) fun key =>
    loadK dataOff dataLen (-1) fun data => .op (.setStorage key data) statusK
  rw [interp_loadK_holds (by rw [hu.rt]; exact hi) (by rw [hu.mem]; omega) hv.len (by rw [hu.mem]; exact hv.data)] at hr
  have h1 : setStorage E k v u = (.ok (.unchanged, none), u) := by
    unfold setStorage; rw [get_bind, hu.rt, hro]; rfl
  exact ⟨u, hu, hr.trans (interp_op_ok E ex (.setStorage k v) statusK u u _ h1)⟩

/-- **C63**: a store under a key that is not the contract's own fails the execution and changes no storage. -/
theorem c63_store_guarded {keyOff keyLen dataOff dataLen : Int32} {k v : Bytes} (hk : BytesAt (s.insts i).mem keyOff keyLen k)
    (hv : BytesAt (s.insts i).mem dataOff dataLen v) (hro : s.rt.cur.readOnly = false) (hown : ¬ OwnKey E s k) :
    ∃ r t, interp E ex (eei E (.storageStore keyOff keyLen dataOff dataLen)) s = (.ok r, t) ∧ t.curBp = .executionFailed ∧
      ∀ a l, view E t a l = view E s a l := by
  obtain ⟨u, hu, hr⟩ := interp_key (E := E) (ex := ex) hi hm .storageStore hk (-1) fun key =>
    loadK dataOff dataLen (-1) fun data => .op (.setStorage key data) statusK
  have hui : u.rt.instance_ = some i := by rw [hu.rt]; exact hi
  rw [interp_loadK_holds hui (by rw [hu.mem]; omega) hv.len (by rw [hu.mem]; exact hv.data)] at hr
  have h1 : ∃ e, setStorage E k v u = (.ok (.unchanged, some e), u) := by
    by_cases h : E.elrondPrefix <+: k
    · exact ⟨_, (c08_store k v (by rw [hu.rt]; exact hro)).1 h⟩
    · by_cases h2 : arwenPrefix <+: k ∧ s.sto.protect = true
      · exact ⟨_, (c08_store k v (by rw [hu.rt]; exact hro)).2 h h2.1 (by rw [paid_sto hu]; exact h2.2)⟩
      · exact absurd ⟨h, h2⟩ hown
  obtain ⟨e, h1⟩ := h1
  have h2 : interp E ex (.op (.setStorage k v) statusK) u = (.ok (-1), u.faulted E e) :=
    (interp_op_ok E ex (.setStorage k v) statusK u u _ h1).trans (interp_faultK E ex e (-1) u hui)
  exact ⟨_, _, hr.trans h2, curBp_faulted E _ e hui, fun a l => by rw [← paid_view hu]; rfl⟩

/-! ### 64-bit numbers -/

omit hi hm in
theorem fits_word (signed : Bool) (v : Int) : smallFits signed v = true ↔ InWord signed v := by
  unfold smallFits InWord isInt64 isUint64
  cases signed <;> simp <;> omega

omit hi hm in
theorem wordValue_of {signed : Bool} {v : Int} (hw : InWord signed v) : wordValue signed (Int64.ofInt v) = v := by
  unfold InWord at hw
  unfold wordValue
  cases signed with
  | true =>
    simp only [if_true] at hw ⊢
    exact Int64.toInt_ofInt_of_le (by omega) (by omega)
  | false =>
    simp only [Bool.false_eq_true, if_false] at hw ⊢
    obtain ⟨n, rfl⟩ := Int.eq_ofNat_of_zero_le hw.1
    have : (Int64.ofInt (n : Int)).toUInt64 = UInt64.ofNat n := rfl
    rw [this, UInt64.toNat_ofNat_of_lt' (by have := hw.2; show n < 2 ^ 64; omega)]

omit hi hm in
theorem word_in (signed : Bool) (r : Int64) : InWord signed (wordValue signed r) := by
  unfold InWord wordValue
  cases signed with
  | true => simp only [if_true]; exact ⟨Int64.le_toInt r, Int64.toInt_lt r⟩
  | false =>
    simp only [Bool.false_eq_true, if_false]
    have := UInt64.toNat_lt r.toUInt64
    omega

omit hi hm in
theorem word_inj {signed : Bool} {r r' : Int64} (h : wordValue signed r = wordValue signed r') : r = r' := by
  unfold wordValue at h
  cases signed with
  | true => exact Int64.toInt_inj.mp h
  | false =>
    simp only [Bool.false_eq_true, if_false] at h
    have : r.toUInt64 = r'.toUInt64 := UInt64.toNat_inj.mp (by omega)
    cases r; cases r'; congr

omit hi hm in
theorem small_encodes (signed : Bool) (v : Int64) : Encodes signed (wordValue signed v) (smallBytes signed v) := by
  unfold smallBytes wordValue
  cases signed with
  | true =>
    simp only [if_true]
    refine ⟨by rw [← decode_eq]; exact c04_signed _, fun c hc => c04_signed_minimal _ _ ?_⟩
    rw [← decode_eq] at hc; exact hc
  | false =>
    simp only [Bool.false_eq_true, if_false]
    obtain ⟨h1, h2⟩ := c04_unsigned (v.toUInt64.toNat : Int) (by omega)
    refine ⟨by rw [← decode_eq]; exact h1, fun c hc => h2 c ?_⟩
    rw [← decode_eq] at hc; exact hc

omit hi hm in
theorem small_length (signed : Bool) (v : Int64) : (smallBytes signed v).length < 2 ^ 31 := by
  unfold smallBytes
  cases signed with
  | true =>
    have h : (twosToBytes v.toInt).length ≤ 8 := by
      apply (twos_length_le _ _).mp
      have := Int64.le_toInt v
      have := Int64.toInt_lt v
      unfold InSignedRange
      omega
    simp only [if_true]; omega
  | false =>
    have h : (natToBytes v.toUInt64.toNat).length ≤ 8 := by
      apply Mandos.natToBytes_length_le.2
      have := UInt64.toNat_lt v.toUInt64
      omega
    simp only [Bool.false_eq_true, if_false]; omega

/-- **C63**: a 64-bit number is stored as the shortest bytes that stand for it. -/
theorem c63_small_store (signed : Bool) {keyOff keyLen : Int32} (v : Int64) {k : Bytes} (hk : BytesAt (s.insts i).mem keyOff keyLen k)
    (hro : s.rt.cur.readOnly = false) (hown : OwnKey E s k) (ho : (view E s s.sto.addr k).length < 2 ^ 64) :
    ∃ b t, Encodes signed (wordValue signed v) b ∧
      interp E ex (eei E (.smallIntStorageStore signed keyOff keyLen v)) s = (.ok (storeAnswer (view E s s.sto.addr k) b), t) ∧
      Stored E s t i ((s.met.sched.api .int64StorageStore).toNat +
          (keyCost s.met.sched k + storeCost s.met.sched (view E s s.sto.addr k) b)) k b
        (storeRefund s.met.sched (view E s s.sto.addr k) b) := by
  obtain ⟨u, hu, hr⟩ := interp_key (E := E) (ex := ex) hi hm .int64StorageStore hk (-1) fun key =>
    .op (.setStorage key (smallBytes signed v)) statusK
  have hkb := bytesAt_bound hk
  have hvb := small_length signed v
  obtain ⟨t, h1, h2⟩ := store_after (E := E) (ex := ex) hi hu (k := k) (v := smallBytes signed v) (by omega) (by omega) ho hro hown
  exact ⟨_, t, small_encodes signed v, hr.trans h1, h2⟩

/-- **C63**: an entry is read as a 64-bit number if it stands for one; otherwise the execution fails. -/
theorem c63_small_load (signed : Bool) {keyOff keyLen : Int32} {k : Bytes} (hk : BytesAt (s.insts i).mem keyOff keyLen k)
    (ho : (view E s s.sto.addr k).length < 2 ^ 64) :
    (InWord signed (argValue signed (view E s s.sto.addr k)) →
      ∃ r, wordValue signed r = argValue signed (view E s s.sto.addr k) ∧
        TellsEntry E ex (eei E (.smallIntStorageLoad signed keyOff keyLen)) s i
          ((s.met.sched.api .int64StorageLoad).toNat + readCost s.met.sched k (view E s s.sto.addr k)) r) ∧
    (¬ InWord signed (argValue signed (view E s s.sto.addr k)) → Refuses E ex (eei E (.smallIntStorageLoad signed keyOff keyLen)) s) := by
  obtain ⟨u, hu, hr⟩ := interp_key (E := E) (ex := ex) hi hm .int64StorageLoad hk 0 fun key =>
    .op (.getStorage key) fun (b : Bytes) =>
      if smallFits signed (decodeBytes signed b) then .pure (Int64.ofInt (decodeBytes signed b)) else faultK .storageValueOutOfRange 0
  have hkb := bytesAt_bound hk
  obtain ⟨t, h1, h2, h3⟩ := getStorage_moved (E := E) (s := u) (by rw [hu.rt]; exact hi) (paid_bounded hu) (k := k) (by omega)
    (by rw [paid_view hu, paid_sto hu]; omega)
  rw [paid_view hu, paid_sto hu] at h1 h2
  rw [hu.met] at h2
  have hr := hr.trans (interp_op_ok E ex (.getStorage k) (fun (b : Bytes) =>
      if smallFits signed (decodeBytes signed b) then .pure (Int64.ofInt (decodeBytes signed b)) else faultK .storageValueOutOfRange 0) u t _ h1)
  rw [decode_eq] at hr
  refine ⟨fun h => ?_, fun h => ?_⟩
  · rw [if_pos ((fits_word _ _).mpr h)] at hr
    exact ⟨_, wordValue_of h, t, hr, ((Moved.of hu).trans h2).paid, unstored_after hu h3⟩
  · have hti : t.rt.instance_ = some i := by rw [h2.rt, hu.rt]; exact hi
    rw [if_neg (fun hc => h ((fits_word _ _).mp hc)), interp_faultK E ex _ 0 t hti] at hr
    exact ⟨_, _, hr, curBp_faulted E _ _ hti⟩

omit hm in
theorem stored_mem {t : St χ A} {p r : Nat} {k v : Bytes} (h : Stored E s t i p k v r) :
    t.rt.instance_ = some i ∧ (t.insts i).mem = (s.insts i).mem ∧ view E t t.sto.addr k = v ∧ t.met = s.met := by
  have hm : Moved s t i p := ⟨h.paid, h.out⟩
  refine ⟨by rw [hm.rt]; exact hi, hm.mem, ?_, hm.met⟩
  rw [h.entries, hm.sto, if_pos ⟨rfl, rfl⟩]

/-- **C63**: a 64-bit number that has been stored is read back. -/
theorem c63_small_again (signed : Bool) {keyOff keyLen : Int32} (v : Int64) {k : Bytes} (hk : BytesAt (s.insts i).mem keyOff keyLen k)
    (hro : s.rt.cur.readOnly = false) (hown : OwnKey E s k) (ho : (view E s s.sto.addr k).length < 2 ^ 64) :
    ∃ r t p, interp E ex (eei E (.smallIntStorageStore signed keyOff keyLen v)) s = (.ok r, t) ∧
      TellsEntry E ex (eei E (.smallIntStorageLoad signed keyOff keyLen)) t i p v := by
  obtain ⟨b, t, h1, h2, h3⟩ := c63_small_store (E := E) (ex := ex) hi hm signed v hk hro hown ho
  obtain ⟨g1, g2, g3, _⟩ := stored_mem hi h3
  have hb : b.length < 2 ^ 31 := by
    have := small_length signed v
    have := h1.shortest _ (small_encodes signed v).value
    omega
  obtain ⟨h4, _⟩ := c63_small_load (E := E) (ex := ex) g1 (by rw [g2]; exact hm) signed (k := k) (by rw [g2]; exact hk) (by rw [g3]; omega)
  rw [g3, h1.value] at h4
  obtain ⟨r, h5, h6⟩ := h4 (word_in signed v)
  rw [word_inj h5] at h6
  exact ⟨_, t, _, h2, h6⟩

/-- **C63**: bytes that have been stored are read back, wherever the key and the place for the value are. -/
theorem c63_again {keyOff keyLen dataOff dataLen keyOff' keyLen' : Int32} (dataOff' : Int32) {k v : Bytes} (hk : BytesAt (s.insts i).mem keyOff keyLen k)
    (hv : BytesAt (s.insts i).mem dataOff dataLen v) (hk' : BytesAt (s.insts i).mem keyOff' keyLen' k) (hro : s.rt.cur.readOnly = false)
    (hown : OwnKey E s k) (ho : (view E s s.sto.addr k).length < 2 ^ 64) :
    ∃ r t p, interp E ex (eei E (.storageStore keyOff keyLen dataOff dataLen)) s = (.ok r, t) ∧
      Reads E ex (eei E (.storageLoad keyOff' keyLen' dataOff')) t i p dataOff' v (asResult v.length) := by
  obtain ⟨t, h2, h3⟩ := c63_store (E := E) (ex := ex) hi hm hk hv hro hown ho
  obtain ⟨g1, g2, g3, _⟩ := stored_mem hi h3
  have h4 := c63_load (E := E) (ex := ex) g1 (by rw [g2]; exact hm) dataOff' (k := k) (by rw [g2]; exact hk') (by rw [g3]; exact bytesAt_bound hv)
  rw [g3] at h4
  exact ⟨_, t, _, h2, h4⟩

/-! ### Big integers -/

omit hi hm in
theorem stored_big {t : St χ A} {b : BigCtx} {p r : Nat} {k v : Bytes} (h : Stored E { s with big := b } t i p k v r) :
    Stored E s { t with big := s.big } i p k v r ∧ t.big = b := by
  have hr := h.paid.rest
  simp only [St.mk.injEq] at hr
  refine ⟨⟨⟨?_, h.paid.others, h.paid.running, h.paid.points⟩, h.entries, h.out, h.refund⟩, ?_⟩
  · simp only [St.mk.injEq]; simp [hr]
  · simp [hr]

omit hi hm in
theorem abs_encodes (v : Int) : Encodes false v.natAbs (absBytes v) := by
  have e : absBytes v = absBytes (v.natAbs : Int) := rfl
  obtain ⟨h1, h2⟩ := c04_unsigned (v.natAbs : Int) (by omega)
  rw [← e] at h1 h2
  refine ⟨by rw [← decode_eq]; exact h1, fun c hc => h2 c ?_⟩
  rw [← decode_eq] at hc; exact hc

/-- **C63**: of a big integer the absolute value is stored, as the shortest bytes that stand for it. -/
theorem c63_big_store {keyOff keyLen : Int32} (x : Int32) {k : Bytes} (hk : BytesAt (s.insts i).mem keyOff keyLen k)
    (hro : s.rt.cur.readOnly = false) (hown : OwnKey E s k) (ho : (view E s s.sto.addr k).length < 2 ^ 64)
    {c : Bytes} (hc : c.length < 2 ^ 31) (hx : argValue false c = (handleValue s x).natAbs) :
    ∃ b t, Encodes false (handleValue s x).natAbs b ∧
      interp E ex (eei E (.bigIntStorageStoreUnsigned keyOff keyLen x)) s = (.ok (storeAnswer (view E s s.sto.addr k) b), t) ∧
      Stored E s { t with big := s.big } i ((s.met.sched.api .bigIntStorageStoreUnsigned).toNat +
          (keyCost s.met.sched k + storeCost s.met.sched (view E s s.sto.addr k) b)) k b
        (storeRefund s.met.sched (view E s s.sto.addr k) b) ∧ SameHandles s t := by
  obtain ⟨u, hu, hr⟩ := interp_key (E := E) (ex := ex) hi hm .bigIntStorageStoreUnsigned hk 0 fun key =>
    .op (.bigGet x) fun (v : Int) => .op (.setStorage key (absBytes v)) statusK
  rw [interp_bigGet] at hr
  have hb : u.big = s.big := by rw [hu.rest]
  have hval : bigVal u x = handleValue s x := by unfold bigVal handleValue; rw [hb]
  rw [hval] at hr
  have hkb := bytesAt_bound hk
  have hlen := (abs_encodes (handleValue s x)).shortest c hx
  have hu' : OnlyPaid { s with big := (s.big.getOne x).2 } (touched u x) i (s.met.sched.api .bigIntStorageStoreUnsigned).toNat := by
    refine ⟨?_, hu.others, hu.running, hu.points⟩
    unfold touched
    rw [hb, hu.rest]
  obtain ⟨t, h1, h2⟩ := store_after (E := E) (ex := ex) (s := { s with big := (s.big.getOne x).2 }) hi hu' (k := k)
    (v := absBytes (handleValue s x)) (by omega) (by omega) ho hro hown
  obtain ⟨h3, h4⟩ := stored_big h2
  refine ⟨_, t, abs_encodes _, hr.trans h1, h3, ?_⟩
  unfold SameHandles handleValue
  rw [h4]
  exact ⟨(getOne_val s.big x x).2.2, fun h => (getOne_val s.big x h).2.1⟩

/-- **C63**: an entry is read as an unsigned big integer. -/
theorem c63_big_load {keyOff keyLen : Int32} (d : Int32) {k : Bytes} (hk : BytesAt (s.insts i).mem keyOff keyLen k)
    (ho : (view E s s.sto.addr k).length < 2 ^ 31) :
    ∃ t, interp E ex (eei E (.bigIntStorageLoadUnsigned keyOff keyLen d)) s = (.ok (asResult (view E s s.sto.addr k).length), t) ∧
      OnlyPaid s { t with out := s.out, big := s.big } i
        ((s.met.sched.api .bigIntStorageLoadUnsigned).toNat + readCost s.met.sched k (view E s s.sto.addr k)) ∧
      Unstored E s t ∧ t.big.stack = s.big.stack ∧
      ∀ h, handleValue t h = if h = d then argValue false (view E s s.sto.addr k) else handleValue s h := by
  obtain ⟨u, hu, hr⟩ := interp_key (E := E) (ex := ex) hi hm .bigIntStorageLoadUnsigned hk 0 fun key =>
    .op (.getStorage key) fun (b : Bytes) => putK d (bytesToNat b) (.pure (lenRes b))
  have hkb := bytesAt_bound hk
  obtain ⟨t, h1, h2, h3⟩ := getStorage_moved (E := E) (s := u) (by rw [hu.rt]; exact hi) (paid_bounded hu) (k := k) (by omega)
    (by rw [paid_view hu, paid_sto hu]; omega)
  rw [paid_view hu, paid_sto hu] at h1 h2
  rw [hu.met] at h2
  have hr := hr.trans (interp_op_ok E ex (.getStorage k) (fun (b : Bytes) => putK d (bytesToNat b) (.pure (lenRes b))) u t _ h1)
  have hr := hr.trans (interp_bigGet E ex d (fun _ => .op (.bigSet d (bytesToNat (view E s s.sto.addr k))) fun _ => .pure (lenRes (view E s s.sto.addr k))) t)
  have hr := hr.trans (interp_bigSet E ex d _ (fun _ => .pure (lenRes (view E s s.sto.addr k))) _)
  rw [lenRes_eq ho] at hr
  have hm2 := (Moved.of hu).trans h2
  have hb : t.big = s.big := by have := congrArg St.big hm2.paid.rest; exact this
  have hs := unstored_after hu h3
  refine ⟨_, hr, ?_, ⟨hs.entries, hs.out, hs.refund⟩, ?_, fun h => ?_⟩
  · have := hm2.paid
    refine ⟨?_, this.others, this.running, this.points⟩
    have h := this.rest
    simp only [St.mk.injEq] at h ⊢
    simp only [touched]
    simp [h]
  · show (t.big.getOne d).2.stack = _
    rw [(getOne_val t.big d d).2.2, hb]
  · have := bigVal_set (touched t d) d h (bytesToNat (view E s s.sto.addr k))
    unfold bigVal at this
    unfold handleValue
    rw [this]
    by_cases hh : h = d
    · rw [if_pos hh, if_pos hh, ← decode_eq]; rfl
    · rw [if_neg hh, if_neg hh]
      show ((t.big.getOne d).2.vals.get? h).getD 0 = _
      rw [(getOne_val t.big d h).2.1, hb]

/-- **C63**: a big integer that has been stored is read back without its sign. -/
theorem c63_big_again {keyOff keyLen : Int32} (x d : Int32) {k : Bytes} (hk : BytesAt (s.insts i).mem keyOff keyLen k)
    (hro : s.rt.cur.readOnly = false) (hown : OwnKey E s k) (ho : (view E s s.sto.addr k).length < 2 ^ 64)
    {c : Bytes} (hc : c.length < 2 ^ 31) (hx : argValue false c = (handleValue s x).natAbs) :
    ∃ r t r' t', interp E ex (eei E (.bigIntStorageStoreUnsigned keyOff keyLen x)) s = (.ok r, t) ∧
      interp E ex (eei E (.bigIntStorageLoadUnsigned keyOff keyLen d)) t = (.ok r', t') ∧
      ∀ h, handleValue t' h = if h = d then ((handleValue s x).natAbs : Int) else handleValue s h := by
  obtain ⟨b, t, h1, h2, h3, h4⟩ := c63_big_store (E := E) (ex := ex) hi hm x hk hro hown ho hc hx
  obtain ⟨g1, g2, g3, _⟩ := stored_mem hi h3
  have g3 : view E t t.sto.addr k = b := g3
  have hb : b.length < 2 ^ 31 := by
    have := h1.shortest c hx
    omega
  have g2 : (t.insts i).mem = (s.insts i).mem := g2
  obtain ⟨t', h5, _, _, _, h6⟩ := c63_big_load (E := E) (ex := ex) (s := t) g1 (by rw [g2]; exact hm) d (k := k) (by rw [g2]; exact hk) (by rw [g3]; exact hb)
  refine ⟨_, t, _, t', h2, h5, fun h => ?_⟩
  rw [h6, g3, h1.value, h4.2]

/-! ### Time locks -/

omit hi hm in
theorem lockKey_eq (k : Bytes) : customStorageKey timelockPrefix k = lockKey k := by
  unfold customStorageKey lockKey
  have : timelockPrefix = "ARWEN@TIMELOCK".toUTF8.data.toList := by decide +kernel
  rw [this]

omit hm in
/-- a store by the host itself -/
theorem lock_after {u : St χ A} {g : Nat} (hu : OnlyPaid s u i g) {k v : Bytes}
    (hv : v.length < 2 ^ 64) (ho : (view E s s.sto.addr (lockKey k)).length < 2 ^ 64) (hro : s.rt.cur.readOnly = false) (hp : s.sto.protect = true)
    (hown : ¬ E.elrondPrefix <+: lockKey k) (hl : (lockKey k).length < 2 ^ 64) :
    ∃ t, interp E ex (.op (.setTimeLock k v) statusK) u = (.ok (storeAnswer (view E s s.sto.addr (lockKey k)) v), t) ∧
      Stored E s t i (g + (keyCost s.met.sched (lockKey k) + storeCost s.met.sched (view E s s.sto.addr (lockKey k)) v)) (lockKey k) v
        (storeRefund s.met.sched (view E s s.sto.addr (lockKey k)) v) := by
  let s0 : St χ A := { s with sto := { s.sto with protect := false } }
  let u0 : St χ A := { u with sto := { u.sto with protect := false } }
  have hu0 : OnlyPaid s0 u0 i g := ⟨by show u0 = { s0 with insts := u.insts }; simp only [u0, s0]; rw [hu.rest], hu.others, hu.running, hu.points⟩
  have hp' : u0.pointsUsed.toNat ≤ maxPoints := by
    have := paid_bounded hu0
    have hi0 : u0.rt.instance_ = some i := by rw [hu0.rt]; exact hi
    unfold maxPoints; simpa only [St.pointsUsed, hi0] using this
  have hview : view E u0 u0.sto.addr (lockKey k) = view E s s.sto.addr (lockKey k) := (paid_view hu0 _ _).trans (by rw [paid_sto hu0]; rfl)
  have hmet : u0.met = s.met := hu0.met
  have hown0 : OwnKey E s0 (lockKey k) := ⟨hown, fun h => by cases h.2⟩
  obtain ⟨t0, h1, _, _⟩ := c10_store (E := E) (s := u0) (i := i) (by rw [hu0.rt]; exact hi) hp' (lockKey k) v (by rw [hu0.rt]; exact hro) hown
    (fun h => by cases h.2) hl hv (by rw [hview]; exact ho)
  have hst : ∃ t, interp E ex (.op (.setStorage (lockKey k) v) statusK) u0 = (.ok (storeAnswer (view E s0 s0.sto.addr (lockKey k)) v), t) ∧ Stored E s0 t i
      (g + (keyCost s0.met.sched (lockKey k) + storeCost s0.met.sched (view E s0 s0.sto.addr (lockKey k)) v)) (lockKey k) v
        (storeRefund s0.met.sched (view E s0 s0.sto.addr (lockKey k)) v) :=
    store_after (s := s0) hi hu0 hl hv ho hro hown0
  obtain ⟨t1, g1, g2⟩ := hst
  have ht : t1 = t0 := by
    have : ((.ok (statusRes (storeStatus (view E u0 u0.sto.addr (lockKey k)) v)), t0) : Res Int64 × St χ A) = _ :=
      (interp_op_ok E ex (.setStorage (lockKey k) v) statusK u0 t0 _ h1).symm.trans g1
    exact (Prod.mk.inj this).2.symm
  subst ht
  refine ⟨{ t1 with sto := { t1.sto with protect := true } }, ?_, ?_⟩
  · rw [← statusRes_store]
    refine interp_op_ok E ex (.setTimeLock k v) statusK u _ (storeStatus (view E s s.sto.addr (lockKey k)) v, none) ?_
    show setProtectedStorage E (customStorageKey timelockPrefix k) v u = _
    rw [lockKey_eq, ← hview]
    unfold setProtectedStorage
    rw [modify_bind]
    show M.deferred (setStorage E (lockKey k) v) _ u0 = _
    unfold M.deferred
    rw [h1]
    rfl
  · have hr := g2.paid.rest
    have hs : ({ t1.sto with protect := true } : StoCtx) = s.sto := by
      have : t1.sto = { s.sto with protect := false } := congrArg St.sto hr
      rw [this, ← hp]
    refine ⟨⟨?_, g2.paid.others, g2.paid.running, g2.paid.points⟩, g2.entries, g2.out, g2.refund⟩
    rw [hs]
    exact congrArg (fun x : St χ A => { x with sto := s.sto }) hr

/-- **C63**: the time of a lock is stored under a key of its own, without its sign. -/
theorem c63_lock {keyOff keyLen : Int32} (ts : Int64) {k : Bytes} (hk : BytesAt (s.insts i).mem keyOff keyLen k) (hro : s.rt.cur.readOnly = false)
    (hp : s.sto.protect = true) (hown : ¬ E.elrondPrefix <+: lockKey k) (ho : (view E s s.sto.addr (lockKey k)).length < 2 ^ 64) :
    ∃ b t, Encodes false ts.toInt.natAbs b ∧
      interp E ex (eei E (.setStorageLock keyOff keyLen ts)) s = (.ok (storeAnswer (view E s s.sto.addr (lockKey k)) b), t) ∧
      Stored E s t i ((s.met.sched.api .int64StorageStore).toNat +
          (keyCost s.met.sched (lockKey k) + storeCost s.met.sched (view E s s.sto.addr (lockKey k)) b)) (lockKey k) b
        (storeRefund s.met.sched (view E s s.sto.addr (lockKey k)) b) := by
  obtain ⟨u, hu, hr⟩ := interp_key (E := E) (ex := ex) hi hm .int64StorageStore hk (-1) fun key =>
    .op (.setTimeLock key (absBytes ts.toInt)) statusK
  have hkb := bytesAt_bound hk
  have hvb : (absBytes ts.toInt).length ≤ 8 := by
    apply Mandos.natToBytes_length_le.2
    have := Int64.le_toInt ts
    have := Int64.toInt_lt ts
    omega
  have hl : (lockKey k).length = k.length + 14 := by
    unfold lockKey; rw [List.length_append]
    have : "ARWEN@TIMELOCK".toUTF8.data.toList.length = 14 := by decide +kernel
    omega
  obtain ⟨t, h1, h2⟩ := lock_after (E := E) (ex := ex) hi hu (k := k) (v := absBytes ts.toInt) (by omega) ho hro hp hown (by omega)
  exact ⟨_, t, abs_encodes _, hr.trans h1, h2⟩

/-- reading a lock -/
theorem interp_lock {keyOff keyLen : Int32} {k : Bytes} (hk : BytesAt (s.insts i).mem keyOff keyLen k) (p : Int64 → Eei.P χ A)
    (ho : (view E s s.sto.addr (lockKey k)).length < 2 ^ 64) :
    ∃ t, interp E ex (getStorageLockK keyOff keyLen p) s = interp E ex (p (Int64.ofInt (bytesToNat (view E s s.sto.addr (lockKey k))))) t ∧
      Moved s t i ((s.met.sched.api .storageLoad).toNat + readCost s.met.sched (lockKey k) (view E s s.sto.addr (lockKey k))) ∧ Unstored E s t := by
  obtain ⟨u, hu, hr⟩ := interp_gas (E := E) (ex := ex) hi .storageLoad (loadEK keyOff keyLen fun r =>
    match r with
    | .error e => .ask fun s => .op (.useGas s.gasLeft) fun _ => .op (.failExecution e) fun _ => p (-1)
    | .ok key => .op (.getStorage (customStorageKey timelockPrefix key)) fun (d : Bytes) => p (Int64.ofInt (bytesToNat d)))
  rw [interp_loadEK_holds (by rw [hu.rt]; exact hi) (by rw [hu.mem]; omega) hk.len (by rw [hu.mem]; exact hk.data)] at hr
  have hkb := bytesAt_bound hk
  have hl : (lockKey k).length = k.length + 14 := by
    unfold lockKey; rw [List.length_append]
    have : "ARWEN@TIMELOCK".toUTF8.data.toList.length = 14 := by decide +kernel
    omega
  obtain ⟨t, h1, h2, h3⟩ := getStorage_moved (E := E) (s := u) (by rw [hu.rt]; exact hi) (paid_bounded hu) (k := lockKey k) (by omega)
    (by rw [paid_view hu, paid_sto hu]; omega)
  rw [paid_view hu, paid_sto hu] at h1 h2
  rw [hu.met] at h2
  refine ⟨t, hr.trans ?_, (Moved.of hu).trans h2, unstored_after hu h3⟩
  dsimp only
  rw [lockKey_eq]
  exact interp_op_ok E ex (.getStorage (lockKey k)) (fun (d : Bytes) => p (Int64.ofInt (bytesToNat d))) u t _ h1

/-- **C63**: the time of a lock is told, and whether it is in the future. -/
theorem c63_lock_time {keyOff keyLen : Int32} {k : Bytes} (hk : BytesAt (s.insts i).mem keyOff keyLen k) {n : Nat}
    (ho : (view E s s.sto.addr (lockKey k)).length < 2 ^ 64) (hv : argValue false (view E s s.sto.addr (lockKey k)) = n) (hn : n < 2 ^ 63)
    (hnow : (E.hook.currentTimeStamp s.world).toNat < 2 ^ 63) :
    TellsEntry E ex (eei E (.getStorageLock keyOff keyLen)) s i
      ((s.met.sched.api .storageLoad).toNat + readCost s.met.sched (lockKey k) (view E s s.sto.addr (lockKey k))) (asResult n) ∧
    TellsEntry E ex (eei E (.isStorageLocked keyOff keyLen)) s i
      ((s.met.sched.api .storageLoad).toNat + readCost s.met.sched (lockKey k) (view E s s.sto.addr (lockKey k)) +
        (s.met.sched.api .getBlockTimeStamp).toNat)
      (if (E.hook.currentTimeStamp s.world).toNat < n then 1 else 0) := by
  have hv' : bytesToNat (view E s s.sto.addr (lockKey k)) = n := by
    rw [← decode_eq] at hv
    have : (bytesToNat (view E s s.sto.addr (lockKey k)) : Int) = n := hv
    omega
  have hN : (Int64.ofInt (n : Int)).toInt = n := Int64.toInt_ofInt_of_le (by omega) (by omega)
  refine ⟨?_, ?_⟩
  · obtain ⟨t, h1, h2, h3⟩ := interp_lock (E := E) (ex := ex) hi hm hk .pure ho
    rw [hv'] at h1
    exact ⟨t, h1, h2.paid, h3⟩
  · obtain ⟨t, h1, h2, h3⟩ := interp_lock (E := E) (ex := ex) hi hm hk (fun lock =>
      if lock < 0 then .pure (-1)
      else gasK .getBlockTimeStamp <| .ask fun s => .pure (if lock ≤ (E.hook.currentTimeStamp s.world).toInt64 then 0 else 1)) ho
    rw [hv', if_neg (by rw [Int64.lt_iff_toInt_lt, hN]; show ¬ (n : Int) < 0; omega)] at h1
    obtain ⟨w, hw, hr⟩ := interp_gas (E := E) (ex := ex) (s := t) (by rw [h2.rt]; exact hi) .getBlockTimeStamp
      (.ask fun s => .pure (if Int64.ofInt (n : Int) ≤ (E.hook.currentTimeStamp s.world).toInt64 then 0 else 1))
    rw [h2.met] at hw
    have hm3 := h2.trans (Moved.of hw)
    refine ⟨w, h1.trans (hr.trans ?_), hm3.paid, ?_, ?_, ?_⟩
    · rw [interp_ask, hm3.world]
      have hT : (E.hook.currentTimeStamp s.world).toInt64.toInt = (E.hook.currentTimeStamp s.world).toNat := by
        generalize E.hook.currentTimeStamp s.world = x at hnow
        rw [← UInt64.ofNat_toNat (x := x), UInt64.toInt64_ofNat', Int64.toInt_ofNat_of_lt (by simpa using hnow)]
        simp
      by_cases h : (E.hook.currentTimeStamp s.world).toNat < n
      · rw [if_pos h, if_neg (by rw [Int64.le_iff_toInt_le, hN, hT]; omega)]; rfl
      · rw [if_neg h, if_pos (by rw [Int64.le_iff_toInt_le, hN, hT]; omega)]; rfl
    · intro a l; rw [paid_view hw]; exact h3.entries a l
    · have := paid_out hw; rw [this]; exact h3.out
    · have := paid_out hw; rw [this]; exact h3.refund

/-- **C63**: a lock that has been set holds until its time. -/
theorem c63_lock_again {keyOff keyLen : Int32} (ts : Int64) {k : Bytes} (hk : BytesAt (s.insts i).mem keyOff keyLen k) (hro : s.rt.cur.readOnly = false)
    (hp : s.sto.protect = true) (hown : ¬ E.elrondPrefix <+: lockKey k) (ho : (view E s s.sto.addr (lockKey k)).length < 2 ^ 64) (h0 : 0 ≤ ts.toInt)
    (hnow : (E.hook.currentTimeStamp s.world).toNat < 2 ^ 63) :
    ∃ r t p q, interp E ex (eei E (.setStorageLock keyOff keyLen ts)) s = (.ok r, t) ∧
      TellsEntry E ex (eei E (.getStorageLock keyOff keyLen)) t i p ts ∧
      TellsEntry E ex (eei E (.isStorageLocked keyOff keyLen)) t i q (if ((E.hook.currentTimeStamp s.world).toNat : Int) < ts.toInt then 1 else 0) := by
  obtain ⟨b, t, h1, h2, h3⟩ := c63_lock (E := E) (ex := ex) hi hm ts hk hro hp hown ho
  obtain ⟨g1, g2, g3, _⟩ := stored_mem hi h3
  have hw : t.world = s.world := Moved.world ⟨h3.paid, h3.out⟩
  have hlt := Int64.toInt_lt ts
  have hb : b.length < 2 ^ 64 := by
    have := h1.shortest _ (abs_encodes ts.toInt).value
    have : (absBytes ts.toInt).length ≤ 8 := by
      apply Mandos.natToBytes_length_le.2
      omega
    omega
  obtain ⟨h4, h5⟩ := c63_lock_time (E := E) (ex := ex) g1 (by rw [g2]; exact hm) (k := k) (by rw [g2]; exact hk) (n := ts.toInt.natAbs)
    (by rw [g3]; exact hb) (by rw [g3]; exact h1.value) (by omega) (by rw [hw]; exact hnow)
  have e1 : asResult ts.toInt.natAbs = ts := by
    unfold asResult
    apply Int64.toInt_inj.mp
    rw [Int64.toInt_ofNat_of_lt (by omega)]; omega
  rw [e1] at h4
  have e2 : ((E.hook.currentTimeStamp s.world).toNat < ts.toInt.natAbs) = (((E.hook.currentTimeStamp s.world).toNat : Int) < ts.toInt) := by
    apply propext; omega
  rw [hw] at h5
  simp only [e2] at h5
  exact ⟨_, t, _, _, h2, h4, h5⟩

/-- A lock with a time before 1970 holds although that time is over: the sign is lost, and the lock holds until as long after 1970. -/
theorem c63_lock_neg {keyOff keyLen : Int32} (ts : Int64) {k : Bytes} (hk : BytesAt (s.insts i).mem keyOff keyLen k) (hro : s.rt.cur.readOnly = false)
    (hp : s.sto.protect = true) (hown : ¬ E.elrondPrefix <+: lockKey k) (ho : (view E s s.sto.addr (lockKey k)).length < 2 ^ 64) (h0 : ts.toInt < 0)
    (h1 : -(2 ^ 63) < ts.toInt) (hnow : (E.hook.currentTimeStamp s.world).toNat < 2 ^ 63) :
    ∃ r t p q, interp E ex (eei E (.setStorageLock keyOff keyLen ts)) s = (.ok r, t) ∧
      TellsEntry E ex (eei E (.getStorageLock keyOff keyLen)) t i p (-ts) ∧
      TellsEntry E ex (eei E (.isStorageLocked keyOff keyLen)) t i q (if ((E.hook.currentTimeStamp s.world).toNat : Int) < -ts.toInt then 1 else 0) := by
  obtain ⟨b, t, h1, h2, h3⟩ := c63_lock (E := E) (ex := ex) hi hm ts hk hro hp hown ho
  obtain ⟨g1, g2, g3, _⟩ := stored_mem hi h3
  have hw : t.world = s.world := Moved.world ⟨h3.paid, h3.out⟩
  have hb : b.length < 2 ^ 64 := by
    have := h1.shortest _ (abs_encodes ts.toInt).value
    have : (absBytes ts.toInt).length ≤ 8 := by
      apply Mandos.natToBytes_length_le.2
      omega
    omega
  obtain ⟨h4, h5⟩ := c63_lock_time (E := E) (ex := ex) g1 (by rw [g2]; exact hm) (k := k) (by rw [g2]; exact hk) (n := ts.toInt.natAbs)
    (by rw [g3]; exact hb) (by rw [g3]; exact h1.value) (by omega) (by rw [hw]; exact hnow)
  have e1 : asResult ts.toInt.natAbs = -ts := by
    unfold asResult
    apply Int64.toInt_inj.mp
    rw [Int64.toInt_ofNat_of_lt (by omega), Int64.toInt_neg, Int.bmod_eq_of_le (by omega) (by omega)]; omega
  rw [e1] at h4
  have e2 : ((E.hook.currentTimeStamp s.world).toNat < ts.toInt.natAbs) = (((E.hook.currentTimeStamp s.world).toNat : Int) < -ts.toInt) := by
    apply propext; omega
  rw [hw] at h5
  simp only [e2] at h5
  exact ⟨_, t, _, _, h2, h4, h5⟩

/-! ### Non-vacuity -/

/-- a running contract with the bytes `kv` in its memory, from 10 on -/
def keeping : St Fixture.World EeiCall :=
  { Fixture.running with
    insts := fun _ => { Fixture.running.insts 0 with mem := List.replicate 10 0 ++ [107, 118] ++ List.replicate 52 0 } }

example : keeping.rt.instance_ = some 0 ∧ (keeping.insts 0).mem.length + 65537 < 2 ^ 31 ∧ BytesAt (keeping.insts 0).mem 10 1 [107] ∧
    BytesAt (keeping.insts 0).mem 11 1 [118] ∧ keeping.rt.cur.readOnly = false ∧ OwnKey Fixture.env0 keeping [107] ∧
    ¬ OwnKey Fixture.env0 keeping (arwenPrefix ++ [1]) ∧ keeping.sto.protect = true ∧ ¬ Fixture.env0.elrondPrefix <+: lockKey [107] ∧
    (view Fixture.env0 keeping keeping.sto.addr [107]).length < 2 ^ 31 ∧ Fits keeping 0 20 [118] := by
  refine ⟨rfl, by decide, ⟨rfl, .inr ⟨by decide, by decide, by decide⟩⟩, ⟨rfl, .inr ⟨by decide, by decide, by decide⟩⟩, rfl, ⟨?_, ?_⟩, ?_, rfl, ?_, ?_, ⟨by decide, by decide⟩⟩
  · decide +kernel
  · decide +kernel
  · rintro ⟨_, h⟩; exact h ⟨List.prefix_append _ _, rfl⟩
  · decide +kernel
  · decide +kernel

/-- a store and a load, run -/
example : (match interp Fixture.env0 (execN Fixture.env0 1) (eei Fixture.env0 (.storageStore 10 1 11 1)) keeping with
    | (.ok r, t) =>
      match interp Fixture.env0 (execN Fixture.env0 1) (eei Fixture.env0 (.storageLoad 10 1 20)) t with
      | (.ok r', t') => decide (r = 2 ∧ r' = 1 ∧ byteAt (t'.insts 0).mem 20 = 118)
      | _ => false
    | _ => false) = true := by decide +kernel

end Arwen.Props
