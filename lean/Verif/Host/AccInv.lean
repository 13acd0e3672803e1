import Verif.Host.Value
import Verif.Spec.Storage
/-
Invariants of single accounts in the active output and in all saved outputs.
-/
namespace Arwen
open Arwen.Spec
variable {χ A : Type} {E : Env χ A}

/-- the node is in a state that a run starting in `w0` can lead to -/
theorem reached_unary (w0 : χ) : Unary E (fun s => Reached E w0 s.world) where
  delete _ _ _ _ _ _ _ _ h := h
  step s t h hI := by
    cases h with
    | a _ hs =>
      cases hs with
      | world w hw =>
        cases hw with
        | builtin i => exact .builtin _ i hI
        | revert n => exact .revert _ n hI
      | dest _ i r he _ => exact (halt_dest he).elim
      | same _ i r he _ => exact (halt_same he).elim
      | undo _ i r a ci he => exact (halt_dest he).elim
      | _ => exact hI
    | saveCompiled _ _ h c _ _ => exact .saveCompiled _ h c hI
    | finalize =>
      obtain ⟨o, m, ho⟩ := getVMOutput_only (E := E) s
      rw [ho]; exact hI
    | clean _ =>
      unfold St.cleanInstance
      split
      · exact hI
      · split <;> exact hI
    | failed c new m g h1 h2 h3 =>
      unfold St.cleanInstance
      split
      · exact hI
      · split <;> exact hI
    | _ => exact hI
  stepH s t h hI := by
    cases h with
    | inst i g _ => exact hI
    | world i => exact .builtin _ i hI
    | merge i b _ => exact .builtin _ i hI
  push s hI := hI
  bcPopSet s hI := by
    unfold St.bcPopSet
    split
    · exact hI
    · exact .revert _ _ hI
  bcPopDiscard s hI := hI
  onError e s hI := hI
  enterDest i s hI := hI
  enterSame i s hI := hI
  popDest b s hI := by
    unfold popDest
    dsimp only
    rw [(rtPopSet_keeps _).2.2]
    cases b <;> exact hI
  popSameFail s hI := by
    unfold popSameFail
    obtain ⟨_, h2, h3⟩ := rtPopSet_keeps ({ s with big := s.big.popSet, met := s.met.popSet, out := s.out.popSet } : St χ A)
    generalize St.rtPopSet ({ s with big := s.big.popSet, met := s.met.popSet, out := s.out.popSet } : St χ A) = y at h3 ⊢
    unfold St.bcPopSet
    split
    · rw [h3]; exact hI
    · refine .revert _ _ ?_
      rw [h3]; exact hI
  popSameOk s hI := by
    unfold popSameOk
    rw [(rtPopSet_keeps _).2.2]
    exact hI
  restore g s hI := by
    obtain ⟨r, ins, hr, _, _⟩ := restoreGas_only g s
    rw [hr]; exact hI

theorem NewAt.deployable {w0 : χ} {s : St χ A} {a : Addr} (h : NewAt E s a) (hr : Reached E w0 s.world) : Deployable E w0 a := by
  obtain ⟨⟨c, n, h1⟩, h2⟩ := h
  exact ⟨s.world, c, n, hr, h1, h2⟩

theorem txStart_world (tx : Tx) (s : St χ A) : (txStart E tx s).world = s.world := by
  cases tx with
  | call i => rfl
  | create i =>
    have h : (newAddress E i.vm.caller (hostInit E s)).2.world = s.world := by
      unfold newAddress
      have : (getNonce E i.vm.caller (hostInit E s)).2.world = s.world := by
        unfold getNonce
        dsimp only
        repeat' split
        all_goals rfl
      generalize getNonce E i.vm.caller (hostInit E s) = q at this ⊢
      obtain ⟨r, t⟩ := q
      cases r <;> exact this
    unfold txStart
    dsimp only
    split
    · rfl
    · exact h

/-- A property of single accounts kept by every change, as long as `J` holds. -/
structure AccInv (E : Env χ A) (J : St χ A → Prop) (P : Addr → OutAcc → Prop) : Prop where
  unary : Unary E J
  blind : ∀ s o m, J s → J { s with out := o, met := m }
  empty : ∀ a, P a {}
  move : ∀ s b x y, J s → AccMove E s b x y → (∀ acc, x = some acc → P b acc) → ∀ acc, y = some acc → P b acc
  builtin : ∀ s i b0 a acc ts, J s → (E.hook.processBuiltIn s.world i).1 = .ok b0 → b0.out.accounts.get? a = some acc →
    P a { acc with transfers := ts }
  merge : ∀ a l r, P a l → P a r → P a (mergeAcc l r)
  /-- transfers, balance changes and gas do not matter -/
  moves : ∀ a acc ts d g, P a acc → P a { acc with transfers := ts, balanceDelta := d, gasUsed := g }

def AccAll (P : Addr → OutAcc → Prop) (o : VMOutput) : Prop := ∀ a acc, o.accounts.get? a = some acc → P a acc

theorem get_deleteAcc (c : OutCtx) (a b : Addr) :
    (c.deleteAcc a).cur.accounts.get? b = if a = b then none else c.cur.accounts.get? b := AMap.get?_erase _ _ _

theorem AccInv.inv {J : St χ A → Prop} {P : Addr → OutAcc → Prop} (h : AccInv E J P) : OutInv E J (AccAll P) where
  unary := h.unary
  step s t hJ hs hP a acc hg := by
    exact hs.accPath a (fun x => ∀ acc, x = some acc → P a acc) (fun acc h => hP a acc h)
      (fun c m x y hx hm => h.move _ a x y (h.blind s c m hJ) hm hx) acc hg
  delete s c a' i _ _ _ hP a acc hg := by
    rw [get_deleteAcc] at hg
    split at hg
    · cases hg
    · exact hP a acc hg
  builtin s i b hJ hb hP a acc hg := by
    obtain ⟨b0, e0, hacc⟩ := hb.acc
    rw [get_addToActive] at hg
    cases hgb : b.out.accounts.get? a with
    | none => rw [hgb] at hg; exact hP a acc hg
    | some ra =>
      have hra : P a ra := by
        have h' := hacc a
        rw [hgb] at h'
        cases h0 : b0.out.accounts.get? a with
        | none => rw [h0] at h'; simp only [SameButTransfers] at h'; rw [h']; exact h.moves a {} ra.transfers 0 0 (h.empty a)
        | some acc0 =>
          rw [h0] at h'
          simp only [SameButTransfers] at h'
          rw [h']
          exact h.builtin s i b0 a acc0 _ hJ e0 h0
      rw [hgb] at hg
      have hg := Option.some.inj hg
      subst hg
      cases hgc : s.out.cur.accounts.get? a with
      | none => exact hra
      | some la =>
        exact h.merge a _ _ (h.moves a la _ la.balanceDelta la.gasUsed (hP a la hgc)) (h.moves a ra ra.transfers _ ra.gasUsed hra)
  fail s hP a acc hg := by
    unfold updateGasOnFailure at hg
    dsimp only at hg
    rw [get_modAcc] at hg
    split at hg
    · rename_i hb
      have hg := Option.some.inj hg
      rw [← hg, ← hb]
      cases hc : s.out.cur.accounts.get? s.rt.cur.scAddress with
      | none => exact h.moves _ {} [] 0 _ (h.empty _)
      | some x => exact h.moves _ x x.transfers x.balanceDelta _ (hP _ x hc)
    · exact hP a acc hg
  censored o hP := hP
  nested p c hp hc a acc hg := by
    rw [get_mergeOut] at hg
    cases hgc : c.accounts.get? a with
    | none => rw [hgc] at hg; exact hp a acc hg
    | some ra =>
      rw [hgc] at hg
      have hg := Option.some.inj hg
      subst hg
      refine h.merge a _ _ ?_ (hc a ra hgc)
      cases hgp : p.accounts.get? a with
      | none => exact h.empty a
      | some la => exact hp a la hgp

end Arwen
