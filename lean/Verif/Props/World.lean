import Verif.Spec.World
/-
C42: what going back to a snapshot of the mock world restores.
-/
namespace Arwen.Props
open Arwen.Mock Arwen.Spec

variable {L : Lib}

/-! ### Loading storage -/

theorem load_any (other : AccountMap) (es : List (Addr × WAcc)) (m : AccountMap) (a : Addr) :
    (MockWorld.loadStorage other es m).2.get? a = m.get? a ∨
    ∃ acc o, (a, acc) ∈ es ∧ other.get? a = some o ∧
      (MockWorld.loadStorage other es m).2.get? a = some { acc with storage := o.storage } := by
  induction es generalizing m with
  | nil => exact .inl rfl
  | cons p rest ih =>
    obtain ⟨b, acc⟩ := p
    unfold MockWorld.loadStorage
    cases ho : other.get? b with
    | none => exact .inl rfl
    | some o =>
      dsimp only
      rcases ih (m.insert b { acc with storage := o.storage }) with h | ⟨acc', o', h1, h2, h3⟩
      · rw [h, AMap.get?_insert]
        split
        · rename_i hb; subst hb
          exact .inr ⟨acc, o, List.mem_cons_self, ho, rfl⟩
        · exact .inl rfl
      · exact .inr ⟨acc', o', List.mem_cons_of_mem _ h1, h2, h3⟩

theorem load_ok (other : AccountMap) (es : List (Addr × WAcc)) (m : AccountMap) :
    (MockWorld.loadStorage other es m).1 = true ↔ ∀ p ∈ es, other.get? p.1 ≠ none := by
  induction es generalizing m with
  | nil => exact ⟨fun _ p hp => (by cases hp), fun _ => rfl⟩
  | cons p rest ih =>
    obtain ⟨b, acc⟩ := p
    unfold MockWorld.loadStorage
    cases ho : other.get? b with
    | none => exact ⟨fun h => (by cases h), fun h => absurd ho (h _ List.mem_cons_self)⟩
    | some o =>
      dsimp only
      rw [ih]
      constructor
      · intro h p hp
        rcases List.mem_cons.mp hp with rfl | hp
        · dsimp only; rw [ho]; exact fun h => by cases h
        · exact h p hp
      · exact fun h p hp => h p (List.mem_cons_of_mem _ hp)

theorem load_all (other : AccountMap) (es : List (Addr × WAcc)) (m : AccountMap) (hn : (es.map Prod.fst).Nodup)
    (h : (MockWorld.loadStorage other es m).1 = true) (a : Addr) (acc : WAcc) (ha : (a, acc) ∈ es) :
    ∃ o, other.get? a = some o ∧ (MockWorld.loadStorage other es m).2.get? a = some { acc with storage := o.storage } := by
  induction es generalizing m with
  | nil => cases ha
  | cons p rest ih =>
    obtain ⟨b, acc'⟩ := p
    rw [List.map_cons, List.nodup_cons] at hn
    unfold MockWorld.loadStorage at h ⊢
    cases ho : other.get? b with
    | none => rw [ho] at h; cases h
    | some o =>
      rw [ho] at h
      dsimp only at h ⊢
      rcases List.mem_cons.mp ha with he | ha
      · cases he
        refine ⟨o, ho, ?_⟩
        rcases load_any other rest (m.insert a { acc with storage := o.storage }) a with h1 | ⟨x, y, h1, _, _⟩
        · rw [h1, AMap.get?_insert_self]
        · exact absurd (List.mem_map_of_mem (f := Prod.fst) h1) hn.1
      · exact ih _ hn.2 h ha

/-! ### The list of snapshots -/

theorem foldl_snapshots (es : List (Addr × OutAcc)) (w : MockWorld) :
    (es.foldl (fun w p => w.updateAccount L p.1 p.2) w).snapshots = w.snapshots := by
  induction es generalizing w with
  | nil => rfl
  | cons p rest ih => rw [List.foldl_cons, ih]; rfl

theorem prefix_op {P : List AccountMap} (w : MockWorld) (op : Op L) (h : P <+: w.snapshots) (h0 : 0 < P.length)
    (hl : LeavesSnapshot ((P.length : Int) - 1) op) : P <+: (op.run w).snapshots := by
  cases op with
  | commit => exact hl.elim
  | revert j =>
    simp only [Op.run, MockWorld.revert]
    split
    · exact h
    · split
      · exact h
      · rename_i h1
        dsimp only
        have h2 : P.length ≤ j.toNat := by
          unfold LeavesSnapshot at hl
          omega
        rw [List.prefix_iff_eq_take] at h ⊢
        rw [List.take_take, Nat.min_eq_left h2]
        exact h
  | updateAccounts m => show P <+: (MockWorld.updateAccounts L w m).snapshots; rw [MockWorld.updateAccounts, foldl_snapshots]; exact h
  | saveKeyValue a k v =>
    simp only [Op.run, MockWorld.saveKeyValue]
    split
    · exact h
    · exact h.trans (List.prefix_append _ _)
  | backup => exact h.trans (List.prefix_append _ _)
  | remove a => simp only [Op.run, MockWorld.remove]; split <;> exact h
  | change a f => simp only [Op.run]; split <;> exact h
  | updateBalance a b => simp only [Op.run, MockWorld.updateBalance]; split <;> exact h
  | updateBalanceWithDelta a b => simp only [Op.run, MockWorld.updateBalanceWithDelta]; split <;> exact h
  | updateBefore a l p =>
    simp only [Op.run, MockWorld.updateBefore]
    split
    · exact h
    · split <;> exact h
  | put | create | createContract | delete | saveCompiled => exact h

theorem prefix_ops {P : List AccountMap} (ops : List (Op L)) (w : MockWorld) (h : P <+: w.snapshots) (h0 : 0 < P.length)
    (hl : ∀ op ∈ ops, LeavesSnapshot ((P.length : Int) - 1) op) : P <+: (runOps w ops).snapshots := by
  induction ops generalizing w with
  | nil => exact h
  | cons op rest ih =>
    exact ih _ (prefix_op w op h h0 (hl _ List.mem_cons_self)) (fun o ho => hl o (List.mem_cons_of_mem _ ho))

/-- going back to the last of the snapshots `P ++ [m]`, whatever was added after it -/
theorem revert_run {P : List AccountMap} {m : AccountMap} (w : MockWorld) (h : P ++ [m] <+: w.snapshots) :
    w.revert (P.length : Int) = ((MockWorld.loadStorage m w.accts.entries w.accts).1,
      { w with snapshots := P, accts := (MockWorld.loadStorage m w.accts.entries w.accts).2 }) := by
  obtain ⟨t, ht⟩ := h
  have hl : P.length < w.snapshots.length := by rw [← ht]; simp only [List.length_append, List.length_singleton]; omega
  have h1 : w.snapshots[P.length]? = some m := by rw [← ht]; simp
  have h2 : w.snapshots.take P.length = P := by rw [← ht]; simp
  unfold MockWorld.revert
  rw [if_neg (fun h => by rw [h] at hl; exact absurd hl (Nat.not_lt_zero _)), if_neg (by omega)]
  rw [Int.toNat_natCast, h1, h2]
  rfl

theorem backup_snapshot (w : MockWorld) : w.backup.snapshot = (w.snapshots.length : Int) := by
  unfold MockWorld.snapshot MockWorld.backup
  dsimp only
  rw [List.length_append, List.length_singleton]
  omega

theorem snapshot_kept (w : MockWorld) (ops : List (Op L)) (hl : ∀ op ∈ ops, LeavesSnapshot w.backup.snapshot op) :
    w.snapshots ++ [w.accts] <+: (runOps w.backup ops).snapshots := by
  refine prefix_ops (P := w.snapshots ++ [w.accts]) ops w.backup (List.prefix_refl _) (by simp) ?_
  rw [backup_snapshot] at hl
  rw [List.length_append, List.length_singleton]
  intro op ho
  have := hl op ho
  rwa [show ((w.snapshots.length + 1 : Nat) : Int) - 1 = (w.snapshots.length : Int) by omega]

/-! ### C42 -/

/-- **C42** (partial: only the storage is restored). After any history that keeps the snapshot, and in which no account was made
that still exists, going back to the snapshot succeeds; every account that exists has the storage it had when the snapshot was
taken, and all else about it is as before going back; the earlier snapshots are as they were. -/
theorem c42_storage_partial (w : MockWorld) (ops : List (Op L)) (hl : ∀ op ∈ ops, LeavesSnapshot w.backup.snapshot op)
    (hn : ∀ a, (runOps w.backup ops).account a ≠ none → w.account a ≠ none) (r : Bool × MockWorld)
    (hr : r = (runOps w.backup ops).revert w.backup.snapshot) :
    r.1 = true ∧ r.2.snapshots = w.snapshots ∧
    (∀ a, r.2.account a = none ↔ (runOps w.backup ops).account a = none) ∧
    ∀ a acc, r.2.account a = some acc → ∃ now old, (runOps w.backup ops).account a = some now ∧ w.account a = some old ∧
      acc.storage = old.storage ∧ SameButStorage now acc := by
  have hs := snapshot_kept w ops hl
  rw [backup_snapshot, revert_run _ hs] at hr
  generalize runOps w.backup ops = v at *
  subst hr
  have hok : (MockWorld.loadStorage w.accts v.accts.entries v.accts).1 = true := by
    rw [load_ok]
    intro p hp
    refine hn p.1 ?_
    show v.accts.get? p.1 ≠ none
    rw [(AMap.mem_entries_iff _ _ p.2).mp hp]
    exact fun h => by cases h
  have key : ∀ a now, v.account a = some now → ∃ old, w.account a = some old ∧
      (MockWorld.loadStorage w.accts v.accts.entries v.accts).2.get? a = some { now with storage := old.storage } :=
    fun a now h => load_all _ _ _ v.accts.nodup hok a now ((AMap.mem_entries_iff _ _ _).mpr h)
  have hnone : ∀ a, v.account a = none → (MockWorld.loadStorage w.accts v.accts.entries v.accts).2.get? a = none := by
    intro a h
    rcases load_any w.accts v.accts.entries v.accts a with h1 | ⟨x, _, h1, _, _⟩
    · rw [h1]; exact h
    · have := (AMap.mem_entries_iff _ _ _).mp h1
      rw [show v.accts.get? a = none from h] at this
      cases this
  refine ⟨hok, rfl, fun a => ⟨fun h => ?_, hnone a⟩, fun a acc h => ?_⟩
  · cases hv : v.account a with
    | none => rfl
    | some now =>
      obtain ⟨old, _, h2⟩ := key a now hv
      exact absurd (h2.symm.trans h) (fun h => by cases h)
  · cases hv : v.account a with
    | none => exact absurd ((hnone a hv).symm.trans h) (fun h => by cases h)
    | some now =>
      obtain ⟨old, h1, h2⟩ := key a now hv
      have h3 : { now with storage := old.storage } = acc := Option.some.inj (h2.symm.trans h)
      subst h3
      exact ⟨now, old, rfl, h1, rfl, rfl⟩

/-- C42, the part that fails: if an account was made since the snapshot and still exists, going back reports an error, and every
account keeps either its storage or the storage from the snapshot, depending on the order in which the accounts come. -/
theorem c42_new_partial (w : MockWorld) (ops : List (Op L)) (hl : ∀ op ∈ ops, LeavesSnapshot w.backup.snapshot op) (a : Addr)
    (hn : (runOps w.backup ops).account a ≠ none) (ho : w.account a = none) :
    ((runOps w.backup ops).revert w.backup.snapshot).1 = false ∧
    ∀ b, ((runOps w.backup ops).revert w.backup.snapshot).2.account b = (runOps w.backup ops).account b ∨
      ∃ now old, (runOps w.backup ops).account b = some now ∧ w.account b = some old ∧
        ((runOps w.backup ops).revert w.backup.snapshot).2.account b = some { now with storage := old.storage } := by
  have hs := snapshot_kept w ops hl
  rw [backup_snapshot, revert_run _ hs]
  generalize runOps w.backup ops = v at *
  constructor
  · cases hb : (MockWorld.loadStorage w.accts v.accts.entries v.accts).1 with
    | false => rfl
    | true =>
      cases hv : v.account a with
      | none => exact absurd hv hn
      | some acc => exact absurd ho ((load_ok _ _ _).mp hb (a, acc) ((AMap.mem_entries_iff _ _ _).mpr hv))
  · intro b
    rcases load_any w.accts v.accts.entries v.accts b with h | ⟨x, y, h1, h2, h3⟩
    · exact .inl h
    · exact .inr ⟨x, y, (AMap.mem_entries_iff _ _ _).mp h1, h2, h3⟩

/-! ### The snapshots that the VM asks for -/

/-- the last snapshot has the present storage of all accounts, and no others -/
def Fresh (w : MockWorld) : Prop :=
  ∃ P m, w.snapshots = P ++ [m] ∧ ∀ a, (m.get? a).map WAcc.storage = (w.account a).map WAcc.storage

theorem fresh_backup (w : MockWorld) : Fresh w.backup := ⟨w.snapshots, w.accts, rfl, fun _ => rfl⟩

/-- replacing an account by one with the same storage -/
theorem fresh_put {w : MockWorld} (h : Fresh w) {a : Addr} {x y : WAcc} (hx : w.account a = some x) (hs : y.storage = x.storage) :
    Fresh (w.put a y) ∧ ∀ b, ((w.put a y).account b).isSome = (w.account b).isSome := by
  obtain ⟨P, m, h1, h2⟩ := h
  refine ⟨⟨P, m, h1, fun b => ?_⟩, fun b => ?_⟩
  · rw [h2]
    show _ = ((w.accts.insert a y).get? b).map WAcc.storage
    rw [AMap.get?_insert]
    split
    · rename_i hb; subst hb; rw [hx]; exact congrArg some hs.symm
    · rfl
  · show ((w.accts.insert a y).get? b).isSome = _
    rw [AMap.get?_insert]
    split
    · rename_i hb; subst hb; rw [hx]; rfl
    · rfl

theorem fresh_op {w : MockWorld} (h : Fresh w) (op : Op L) (hq : QuietOp op) :
    Fresh (op.run w) ∧ ∀ a, ((op.run w).account a).isSome = (w.account a).isSome := by
  have same : ∀ v : MockWorld, v = w → Fresh v ∧ ∀ a, (v.account a).isSome = (w.account a).isSome :=
    fun v hv => by subst hv; exact ⟨h, fun _ => rfl⟩
  cases op with
  | change a f =>
    simp only [Op.run]
    cases hx : w.account a with
    | none => exact same _ rfl
    | some x => exact fresh_put h hx (hq x)
  | saveKeyValue a k v =>
    simp only [Op.run, MockWorld.saveKeyValue]
    cases hx : w.account a with
    | none => exact same _ rfl
    | some x =>
      refine ⟨fresh_backup _, fun b => ?_⟩
      show ((w.accts.insert a _).get? b).isSome = (w.accts.get? b).isSome
      rw [AMap.get?_insert]
      split
      · rename_i hb; subst hb; rw [show w.accts.get? _ = some x from hx]; rfl
      · rfl
  | updateBalance a b =>
    simp only [Op.run, MockWorld.updateBalance]
    cases hx : w.account a with
    | none => exact same _ rfl
    | some x => exact fresh_put h hx rfl
  | updateBalanceWithDelta a b =>
    simp only [Op.run, MockWorld.updateBalanceWithDelta]
    cases hx : w.account a with
    | none => exact same _ rfl
    | some x => exact fresh_put h hx rfl
  | updateBefore a l p =>
    simp only [Op.run, MockWorld.updateBefore]
    cases hx : w.account a with
    | none => exact same _ rfl
    | some x => dsimp only; split <;> exact fresh_put h hx rfl
  | backup => exact ⟨fresh_backup w, fun _ => rfl⟩
  | saveCompiled => exact ⟨h, fun _ => rfl⟩
  | put | create | createContract | delete | remove | updateAccounts | commit | revert => exact hq.elim

theorem fresh_ops (ops : List (Op L)) {w : MockWorld} (h : Fresh w) (hq : ∀ op ∈ ops, QuietOp op) :
    Fresh (runOps w ops) ∧ ∀ a, ((runOps w ops).account a).isSome = (w.account a).isSome := by
  induction ops generalizing w with
  | nil => exact ⟨h, fun _ => rfl⟩
  | cons op rest ih =>
    have h1 := fresh_op h op (hq _ List.mem_cons_self)
    have h2 := ih h1.1 (fun o ho => hq o (List.mem_cons_of_mem _ ho))
    exact ⟨h2.1, fun a => (h2.2 a).trans (h1.2 a)⟩

theorem quiet_leaves {i : Int} {op : Op L} (h : QuietOp op) : LeavesSnapshot i op := by
  cases op <;> first | exact trivial | exact (h : False).elim

/-- **C42** for the snapshots that the VM asks for (partial: storage, and only until the first time of going back). Asking the
world for a snapshot takes none, it gives the number of the last one. As long as stored values are changed only in the way of the
node's built-in functions, which take a snapshot after each change, and no account is made or removed, going back to the number
that the VM was given restores the storage of every account. -/
theorem c42_vm_partial (w : MockWorld) (before after : List (Op L)) (hb : ∀ op ∈ before, QuietOp op) (ha : ∀ op ∈ after, QuietOp op)
    (v : MockWorld) (hv : v = runOps w.backup before) (r : Bool × MockWorld) (hr : r = (runOps v after).revert v.snapshot) :
    r.1 = true ∧ ∀ a k, stored r.2 a k = stored v a k := by
  have h1 : Fresh v := by rw [hv]; exact (fresh_ops before (fresh_backup w) hb).1
  have h2 := (fresh_ops after h1 ha).2
  obtain ⟨P, m, hs, hm⟩ := h1
  have hp : P ++ [m] <+: (runOps v after).snapshots :=
    prefix_ops after v (by rw [hs]; exact List.prefix_refl _) (by simp) (fun op ho => quiet_leaves (ha op ho))
  have hi : v.snapshot = (P.length : Int) := by
    unfold MockWorld.snapshot; rw [hs, List.length_append, List.length_singleton]; omega
  rw [hi, revert_run _ hp] at hr
  generalize runOps v after = u at *
  subst hr
  have hkey : ∀ a, u.account a ≠ none → m.get? a ≠ none := by
    intro a hu h
    have h3 := h2 a
    have h4 := hm a
    rw [h] at h4
    cases hva : v.account a with
    | some x => rw [hva] at h4; cases h4
    | none =>
      rw [hva] at h3
      cases hua : u.account a with
      | none => exact hu hua
      | some x => rw [hua] at h3; cases h3
  have hok : (MockWorld.loadStorage m u.accts.entries u.accts).1 = true := by
    rw [load_ok]
    intro p hp
    refine hkey p.1 ?_
    show u.accts.get? p.1 ≠ none
    rw [(AMap.mem_entries_iff _ _ p.2).mp hp]
    exact fun h => by cases h
  refine ⟨hok, fun a k => ?_⟩
  show ((MockWorld.loadStorage m u.accts.entries u.accts).2.get? a).bind _ = _
  cases hu : u.account a with
  | some x =>
    obtain ⟨o, h3, h4⟩ := load_all m _ _ u.accts.nodup hok a x ((AMap.mem_entries_iff _ _ _).mpr hu)
    have h5 := hm a
    rw [h3] at h5
    unfold stored
    rw [h4]
    cases hva : v.account a with
    | none => rw [hva] at h5; cases h5
    | some y =>
      rw [hva] at h5
      show o.storage.get? k = y.storage.get? k
      rw [Option.some.inj h5]
  | none =>
    have h3 := h2 a
    rw [hu] at h3
    have h5 : v.account a = none := by
      cases hva : v.account a with
      | none => rfl
      | some x => rw [hva] at h3; cases h3
    unfold stored
    rw [h5]
    rcases load_any m u.accts.entries u.accts a with h6 | ⟨x, _, h6, _, _⟩
    · rw [h6, show u.accts.get? a = none from hu]
    · have := (AMap.mem_entries_iff _ _ _).mp h6
      rw [show u.accts.get? a = none from hu] at this
      cases this

/-! ### Where C42 fails -/

/-- a world with an account that has some value and a stored key -/
def someWorld : MockWorld := { accts := AMap.empty.insert [1] { balance := 10, storage := AMap.empty.insert [7] [1] } }

/-- what is left of C42 for one field of an account: going back brings back the field's old value -/
def FieldRestored (L : Lib) {β : Type} (field : WAcc → β) : Prop :=
  ∀ (w : MockWorld) (ops : List (Op L)), (∀ op ∈ ops, LeavesSnapshot w.backup.snapshot op) →
    ∀ a, (((runOps w.backup ops).revert w.backup.snapshot).2.account a).map field = (w.account a).map field

theorem one_op {i : Int} (a : Addr) (f : WAcc → WAcc) : ∀ op ∈ [Op.change (L := L) a f], LeavesSnapshot i op :=
  fun op ho => by cases ho with | head => exact trivial | tail _ h => cases h

/-- C42 fails: a balance changed since the snapshot is not restored. -/
theorem c42_balance_neg : ¬ FieldRestored L WAcc.balance := fun h =>
  absurd (h someWorld [.change [1] (fun a => { a with balance := 3 })] (one_op _ _) [1]) (fun h => by cases h)
/-- C42 fails: a nonce changed since the snapshot is not restored. -/
theorem c42_nonce_neg : ¬ FieldRestored L WAcc.nonce := fun h =>
  absurd (h someWorld [.change [1] (fun a => { a with nonce := 3 })] (one_op _ _) [1]) (fun h => by cases h)
/-- C42 fails: code changed since the snapshot is not restored. -/
theorem c42_code_neg : ¬ FieldRestored L WAcc.code := fun h =>
  absurd (h someWorld [.change [1] (fun a => { a with code := [3] })] (one_op _ _) [1]) (fun h => by cases h)

/-- C42 fails: an account deleted since the snapshot does not come back. -/
theorem c42_deleted_neg : ¬ SnapshotsRestore L := by
  intro hS
  have h1 := (hS someWorld [.delete [1]] (fun op ho => by cases ho with | head => exact trivial | tail _ h => cases h)).2 [1]
  exact absurd h1 (fun h => by cases h)

/-- C42 fails: with an account made since the snapshot, going back reports an error, and the stored value of an account that comes
later in the order of the iteration is not restored. -/
theorem c42_new_neg : ∃ (w : MockWorld) (ops : List (Op L)), (∀ op ∈ ops, LeavesSnapshot w.backup.snapshot op) ∧
    ((runOps w.backup ops).revert w.backup.snapshot).1 = false ∧
    stored ((runOps w.backup ops).revert w.backup.snapshot).2 [1] [7] ≠ stored w [1] [7] := by
  refine ⟨someWorld, [.delete [1], .create [2], .put [1] { storage := AMap.empty.insert [7] [9] }], ?_, rfl, ?_⟩
  · intro op ho
    simp only [List.mem_cons, List.not_mem_nil, or_false] at ho
    rcases ho with rfl | rfl | rfl <;> exact trivial
  · exact fun h => by cases h

/-- C42 fails: asking for a snapshot takes none. The value written before asking is lost when going back. -/
theorem c42_ask_neg : ∃ w : MockWorld, 0 ≤ w.snapshot ∧ (w.revert w.snapshot).1 = true ∧
    stored (w.revert w.snapshot).2 [1] [7] ≠ stored w [1] [7] :=
  ⟨someWorld.backup.put [1] { storage := AMap.empty.insert [7] [2] }, by decide, rfl, fun h => by cases h⟩

/-- C42 fails the second time: going back to a snapshot also drops it. A world in which all values were written by built-in
functions is brought back to what the VM asked for, something is written in the same way, the VM asks again and goes back again,
at once: the storage is not what it was when the VM asked. -/
theorem c42_again_neg : ∃ (w : MockWorld) (v : MockWorld),
    w = runOps someWorld.backup [Op.saveKeyValue (L := L) [1] [7] [2]] ∧ v = (w.revert w.snapshot).2 ∧
    stored v [1] [7] = stored w [1] [7] ∧ (v.revert v.snapshot).1 = true ∧
    stored (v.revert v.snapshot).2 [1] [7] ≠ stored v [1] [7] :=
  ⟨_, _, rfl, rfl, rfl, rfl, fun h => by cases h⟩

/-! ### Examples -/

/-- the hypotheses of `c42_storage_partial` are met by a history with writes, a deletion and nested snapshots -/
example : ∃ ops : List (Op L), (∀ op ∈ ops, LeavesSnapshot someWorld.backup.snapshot op) ∧
    (∀ a, (runOps someWorld.backup ops).account a ≠ none → someWorld.account a ≠ none) ∧
    stored (runOps someWorld.backup ops) [1] [7] ≠ stored someWorld [1] [7] ∧
    stored ((runOps someWorld.backup ops).revert someWorld.backup.snapshot).2 [1] [7] = stored someWorld [1] [7] := by
  refine ⟨[.saveKeyValue [1] [7] [2], .create [2], .saveKeyValue [1] [7] [3], .delete [2], .revert 2], ?_, ?_, (fun h => by cases h), rfl⟩
  · intro op ho
    simp only [List.mem_cons, List.not_mem_nil, or_false] at ho
    rcases ho with rfl | rfl | rfl | rfl | rfl <;> first | exact trivial | exact (by decide : ¬ ((0 : Int) ≤ 2 ∧ (2 : Int) ≤ 0))
  · intro a ha h
    refine ha ?_
    have h1 : (someWorld.accts.get? a) = none := h
    show AMap.get? _ a = none
    rw [AMap.get?_none_iff] at h1 ⊢
    exact h1

/-- the hypotheses of `c42_vm_partial` are met by writes before and after asking -/
example : (∀ op ∈ [Op.saveKeyValue (L := L) [1] [7] [2], .updateBalance [1] 5], QuietOp op) ∧
    stored (runOps someWorld.backup [Op.saveKeyValue (L := L) [1] [7] [2], .updateBalance [1] 5]) [1] [7] = some [2] :=
  ⟨by intro op ho; simp only [List.mem_cons, List.not_mem_nil, or_false] at ho; rcases ho with rfl | rfl <;> exact trivial, rfl⟩

end Arwen.Props
