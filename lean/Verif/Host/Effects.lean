import Verif.Host.AccInv
import Verif.Spec.Effects
/-
Effects that have been reported stay: transfers and logs are only appended to, storage updates are only replaced.
-/
namespace Arwen
open Spec
variable {χ A : Type} {E : Env χ A}

/-- an account keeps its transfers and updates -/
def AccKept (x y : Option OutAcc) : Prop :=
  ((x.map OutAcc.transfers).getD [] <+: (y.map OutAcc.transfers).getD []) ∧
  ∀ k, (x.bind (fun a => a.storage.get? k)).isSome → (y.bind (fun a => a.storage.get? k)).isSome

theorem kept_iff (o o' : VMOutput) (a : Addr) : Kept o o' a ↔ AccKept (o.accounts.get? a) (o'.accounts.get? a) :=
  ⟨fun h => ⟨h.transfers, h.updates⟩, fun h => ⟨h.1, h.2⟩⟩

theorem AccKept.refl (x : Option OutAcc) : AccKept x x := ⟨List.prefix_refl _, fun _ h => h⟩
theorem AccKept.trans {x y z : Option OutAcc} (h1 : AccKept x y) (h2 : AccKept y z) : AccKept x z :=
  ⟨h1.1.trans h2.1, fun k h => h2.2 k (h1.2 k h)⟩

theorem AccKept.of_same {acc acc' : OutAcc} (h1 : acc'.transfers = acc.transfers) (h2 : acc'.storage = acc.storage) :
    AccKept (some acc) (some acc') := ⟨by simp [h1], by simp [h2]⟩

theorem AccMove.kept {s : St χ A} {b : Addr} {x y : Option OutAcc} (h : AccMove E s b x y) : AccKept x y := by
  have ins : ∀ (acc : OutAcc) (k v : Bytes), AccKept (some acc) (some { acc with storage := acc.storage.insert k v }) := by
    intro acc k v
    refine ⟨List.prefix_refl _, fun k' h => ?_⟩
    simp only [Option.bind_some, AMap.get?_insert]
    split
    · rfl
    · exact h
  cases h with
  | same => exact .refl _
  | new => exact ⟨List.nil_prefix, fun k h => by simp at h⟩
  | gasNew g => exact ⟨List.nil_prefix, fun k h => by simp at h⟩
  | sto acc k _ => exact ins acc k _
  | write acc k v old _ _ _ _ _ => exact ins acc k v
  | xfer acc t => exact ⟨by simp, fun k h => h⟩
  | deploy _ d _ _ =>
    cases x with
    | none => exact ⟨List.nil_prefix, fun k h => by simp at h⟩
    | some acc => exact .of_same rfl rfl
  | _ => exact .of_same rfl rfl

theorem OutMove.kept {s : St χ A} {o : VMOutput} (h : OutMove E s o) (b : Addr) :
    AccKept (s.out.cur.accounts.get? b) (o.accounts.get? b) := by
  obtain ⟨x, h1, h2⟩ := h.acc b
  exact h1.kept.trans h2.kept

theorem OutMove.logs {s : St χ A} {o : VMOutput} (h : OutMove E s o) : s.out.cur.logs <+: o.logs := by
  cases h with
  | step _ h =>
    cases h with
    | log e _ => exact List.prefix_append ..
    | logs w i b h => exact List.prefix_append ..
    | _ => exact List.prefix_refl _
  | _ => exact List.prefix_refl _

theorem transfers_mergeAcc {l r : OutAcc} (h : l.transfers <+: r.transfers) : (mergeAcc l r).transfers = r.transfers := by
  obtain ⟨d, hd⟩ := h
  simp only [mergeAcc, ← hd]
  split
  · simp
  · rename_i hn
    simp only [List.length_append] at hn
    cases d with
    | nil => simp
    | cons a d => simp at hn

theorem storage_mergeAcc (l r : OutAcc) (k : Bytes) :
    (mergeAcc l r).storage.get? k = match r.storage.get? k with | some v => some v | none => l.storage.get? k := by
  simp only [mergeAcc, AMap.get?_mergeWith]
  cases r.storage.get? k <;> rfl

theorem nestedAcc_kept {x y : Option OutAcc} (h : AccKept x y) : AccKept x (nestedAcc x y) ∧ AccKept y (nestedAcc x y) := by
  unfold nestedAcc
  cases y with
  | none => exact ⟨.refl _, List.nil_prefix, fun k h => by simp at h⟩
  | some ra =>
    have ht : (mergeAcc (x.getD {}) ra).transfers = ra.transfers := by
      refine transfers_mergeAcc ?_
      cases x with
      | none => exact List.nil_prefix
      | some la => exact h.1
    have hs : AccKept (some ra) (some (mergeAcc (x.getD {}) ra)) := by
      refine ⟨by simp [ht], fun k hk => ?_⟩
      simp only [Option.bind_some, storage_mergeAcc] at hk ⊢
      cases hv : ra.storage.get? k with
      | some v => rfl
      | none => rw [hv] at hk; cases hk
    exact ⟨h.trans hs, hs⟩

theorem builtinAcc_kept (x : Option OutAcc) (ra : OutAcc) : AccKept x (some (builtinAcc x ra)) := by
  cases x with
  | none => exact ⟨List.nil_prefix, fun k h => by simp at h⟩
  | some la =>
    refine ⟨?_, fun k hk => ?_⟩
    · simp only [Option.map_some, Option.getD_some, builtinAcc, mergeAcc]
      have : ¬ (ra.transfers.length > (la.transfers ++ ra.transfers).length) := by simp
      rw [if_neg this]
      exact List.prefix_append ..
    · simp only [Option.bind_some, builtinAcc, storage_mergeAcc] at hk ⊢
      cases ra.storage.get? k with
      | some v => rfl
      | none => exact hk

/-- Logs are only appended to. -/
theorem logs_rel : OutRel E (fun _ => True) (fun c o => c.logs <+: o.logs) where
  unary := unary_true
  blind _ _ _ _ _ := trivial
  refl _ := List.prefix_refl _
  trans _ _ _ h1 h2 := h1.trans h2
  move _ _ _ h := h.logs
  delete _ _ _ _ _ _ _ := List.prefix_refl _
  builtin _ _ _ _ _ _ := List.prefix_append ..
  nested _ _ _ := List.prefix_append ..

/-- The effects on an account at which no contract can be deployed are kept. -/
theorem kept_rel (w0 : χ) (a : Addr) (ha : NotForNew E w0 a) :
    OutRel E (fun s => Reached E w0 s.world) (fun c o => AccKept (c.accounts.get? a) (o.accounts.get? a)) where
  unary := reached_unary w0
  blind _ _ _ h _ := h
  refl _ := .refl _
  trans _ _ _ h1 h2 := h1.trans h2
  move _ _ _ h := h.kept a
  delete s c b i hJ hc hd := by
    have hb : b ≠ a := fun h => ha i hc (h ▸ hd.deployable hJ)
    have : (c.deleteAcc b).cur.accounts.get? a = c.cur.accounts.get? a := by
      simp only [OutCtx.deleteAcc, AMap.get?_erase, if_neg hb]
    rw [this]
    exact .refl _
  builtin s c i b _ _ := by
    rw [get_addToActive]
    cases b.out.accounts.get? a with
    | none => exact .refl _
    | some ra => exact builtinAcc_kept _ ra
  nested c o h := by
    rw [get_mergeOut]
    exact (nestedAcc_kept h).1

end Arwen
