import Verif.Host.Gas
import Verif.Host.Triple
/-
The gas counters of the instances: a call uses up the gas it gets on its caller's counter and gives back at most that much, and
touches no other counter that existed before.
-/
namespace Arwen
variable {χ A : Type} {E : Env χ A}

/-- the current instance has been created -/
def Valid (s : St χ A) : Prop := ∀ c, s.rt.instance_ = some c → c < s.nextInst

/-- From a state with a valid current instance: the counters of all other instances are kept, and the current instance is the same,
none, or one created in between. -/
structure CountKept (s t : St χ A) : Prop where
  next : s.nextInst ≤ t.nextInst
  points : ∀ j, j < s.nextInst → s.rt.instance_ ≠ some j → (t.insts j).points = (s.insts j).points
  inst : t.rt.instance_ = s.rt.instance_ ∨ t.rt.instance_ = none ∨ ∃ k, t.rt.instance_ = some k ∧ s.nextInst ≤ k ∧ k < t.nextInst

theorem CountKept.refl (s : St χ A) : CountKept s s := ⟨Nat.le_refl _, fun _ _ _ => rfl, .inl rfl⟩
theorem CountKept.valid {s t : St χ A} (h : CountKept s t) (hv : Valid s) : Valid t := by
  intro c hc
  rcases h.inst with h1 | h1 | ⟨k, h1, _, h2⟩
  · rw [h1] at hc; exact Nat.lt_of_lt_of_le (hv c hc) h.next
  · rw [h1] at hc; cases hc
  · rw [h1] at hc; cases hc; exact h2
theorem CountKept.away {s t : St χ A} (h : CountKept s t) {j : Nat} (hj : j < s.nextInst) (hi : s.rt.instance_ ≠ some j) :
    t.rt.instance_ ≠ some j := by
  intro hc
  rcases h.inst with h1 | h1 | ⟨k, h1, h2, _⟩
  · rw [h1] at hc; exact hi hc
  · rw [h1] at hc; cases hc
  · rw [h1] at hc; cases hc; exact absurd h2 (Nat.not_le.mpr hj)
theorem CountKept.trans {s t u : St χ A} (h1 : CountKept s t) (h2 : CountKept t u) : CountKept s u := by
  refine ⟨Nat.le_trans h1.next h2.next, fun j hj hi => ?_, ?_⟩
  · rw [h2.points j (Nat.lt_of_lt_of_le hj h1.next) (h1.away hj hi), h1.points j hj hi]
  · rcases h2.inst with h | h | ⟨k, h, h3, h4⟩
    · rcases h1.inst with h' | h' | ⟨k, h', h3, h4⟩
      · exact .inl (h.trans h')
      · exact .inr (.inl (h.trans h'))
      · exact .inr (.inr ⟨k, h.trans h', h3, Nat.lt_of_lt_of_le h4 h2.next⟩)
    · exact .inr (.inl h)
    · exact .inr (.inr ⟨k, h, Nat.le_trans h1.next h3, h4⟩)
/-- the counters, the number of instances and the current instance are the same -/
theorem CountKept.of_eq {s t : St χ A} (h1 : t.nextInst = s.nextInst) (h2 : ∀ j, (t.insts j).points = (s.insts j).points)
    (h3 : t.rt.instance_ = s.rt.instance_) : CountKept s t := ⟨Nat.le_of_eq h1.symm, fun j _ _ => h2 j, .inl h3⟩

theorem modInst_points {s : St χ A} {i : Nat} {f : Inst A → Inst A} {j : Nat} (h : i ≠ j) : ((s.modInst i f).insts j).points = (s.insts j).points := by
  simp [St.modInst, Ne.symm h]
theorem CountKept.modInst {s : St χ A} {i : Nat} (f : Inst A → Inst A) (h : s.rt.instance_ = some i) : CountKept s (s.modInst i f) :=
  ⟨Nat.le_refl _, fun j _ hj => modInst_points (fun e => hj (by rw [h, e])), .inl rfl⟩

theorem countKept_clean (s : St χ A) : CountKept s s.cleanInstance := by
  unfold St.cleanInstance
  split
  · exact .refl s
  · split
    · exact .refl s
    · rename_i i _ _
      refine ⟨Nat.le_refl _, fun j _ _ => ?_, .inr (.inl rfl)⟩
      simp only [St.modInst]
      by_cases hj : j = i <;> simp [hj, Inst.clean]
theorem countKept_new (m : WasmModule A) (g : UInt64) (new : Bool) (s : St χ A) : CountKept s (newInstance m g new s) := by
  refine ⟨Nat.le_succ _, fun j hj _ => ?_, .inr (.inr ⟨s.nextInst, rfl, Nat.le_refl _, Nat.lt_succ_self _⟩)⟩
  simp [newInstance, Nat.ne_of_lt hj]

theorem getVMOutput_insts (s : St χ A) : (getVMOutput E s).2.insts = s.insts ∧ (getVMOutput E s).2.nextInst = s.nextInst ∧
    (getVMOutput E s).2.rt = s.rt := by
  obtain ⟨o, m, h⟩ := getVMOutput_only (E := E) s
  rw [h]; exact ⟨rfl, rfl, rfl⟩

/-- the state after the pops of a call: the counters are those before -/
theorem rtPopSet_points (s : St χ A) : (∀ j, (s.rtPopSet.insts j).points = (s.insts j).points) ∧ s.rtPopSet.nextInst = s.nextInst := by
  have hc : ∀ s : St χ A, (∀ j, (s.cleanInstance.insts j).points = (s.insts j).points) ∧ s.cleanInstance.nextInst = s.nextInst := by
    intro s
    unfold St.cleanInstance
    split
    · exact ⟨fun _ => rfl, rfl⟩
    · split
      · exact ⟨fun _ => rfl, rfl⟩
      · rename_i i _ _
        refine ⟨fun j => ?_, rfl⟩
        simp only [St.modInst]
        by_cases hj : j = i <;> simp [hj, Inst.clean]
  have hi : ∀ s : St χ A, (∀ j, (s.popInstance.insts j).points = (s.insts j).points) ∧ s.popInstance.nextInst = s.nextInst := by
    intro s; unfold St.popInstance
    split
    · exact ⟨fun _ => rfl, rfl⟩
    · dsimp only
      split
      · exact ⟨fun _ => rfl, rfl⟩
      · rename_i prev rest _ _
        exact hc { s with rt := { s.rt with instanceStack := rest } }
  unfold St.rtPopSet
  split
  · exact ⟨fun _ => rfl, rfl⟩
  · rename_i p rest _; exact hi { s with rt := { s.rt with cur := p, stack := rest } }

theorem popDest_points (ok : Bool) (t : St χ A) : (∀ j, ((popDest ok t).insts j).points = (t.insts j).points) ∧
    (popDest ok t).nextInst = t.nextInst := by
  unfold popDest
  dsimp only
  have h := rtPopSet_points (if ok then { t with big := t.big.popSet, sto := t.sto.popSet, met := t.met.popMerge, out := t.out.popMerge }
    else ({ t with big := t.big.popSet, sto := t.sto.popSet, met := t.met.popSet, out := t.out.popSet } : St χ A))
  cases ok
  · exact h
  · exact h

/-- leaving a call on the destination's context: what it gives back to the caller's counter -/
theorem finDest_points {j : CallInput} {s u v : St χ A} {e : Option Err} {info : Option AsyncContextInfo} {r : DestResult}
    (hF : Frame (enterDestState j s) u) (hf : finDest E e info u = (.ok r, v)) :
    v.rt.instance_ = s.rt.instance_ ∧ v.nextInst = u.nextInst ∧
    (∀ k, s.rt.instance_ ≠ some k → (v.insts k).points = (u.insts k).points) ∧
    (∀ c, s.rt.instance_ = some c → (v.insts c).points = (u.insts c).points ∨
      ((destOutput E e u).1.gasRemaining ≤ (u.insts c).points ∧
        (v.insts c).points = clampPoints (subU64 (u.insts c).points (destOutput E e u).1.gasRemaining))) := by
  obtain ⟨r', hf'⟩ := finDest_state e info u v _ hf
  obtain ⟨_, _, h3, _⟩ := finishDest_frame e j s u v r' hF hf'
  rw [finishDest_run] at hf'
  obtain ⟨o, m, ho⟩ := destOutput_only (E := E) e u
  have hF2 : Frame (enterDestState j s) (destOutput E e u).2 := hF.trans (Frame.only ho)
  have hp := popDest_points (decide ((destOutput E e u).1.returnCode = .ok)) (destOutput E e u).2
  have hi := (popDest_frame (decide ((destOutput E e u).1.returnCode = .ok)) j s _ hF2).2.2.1
  have hins : (destOutput E e u).2.insts = u.insts ∧ (destOutput E e u).2.nextInst = u.nextInst := by rw [ho]; exact ⟨rfl, rfl⟩
  rw [hins.1, hins.2] at hp
  generalize (destOutput E e u).1 = out at hf' hp hi ⊢
  generalize popDest (decide (out.returnCode = .ok)) (destOutput E e u).2 = w at hf' hp hi
  obtain ⟨r2, ins, h4, _, h5⟩ := restoreGas_only out.gasRemaining w
  simp only [M.bind_eq, M.bind, h4] at hf'
  have hv : v = { w with insts := ins } := by
    cases r2 <;> simp only [M.pure_eq, M.pure, Prod.mk.injEq] at hf' <;> exact hf'.2.symm
  refine ⟨h3, by rw [hv]; exact hp.2, fun k hk => ?_, fun c hc => ?_⟩
  · rw [hv]
    rcases h5 k with h | ⟨h, _⟩
    · show (ins k).points = _
      rw [h, hp.1]
    · rw [hi] at h; exact absurd h hk
  · rw [hv]
    rcases h5 c with h | ⟨_, h, h'⟩
    · left; show (ins c).points = _
      rw [h, hp.1]
    · right
      rw [hp.1] at h
      refine ⟨h, ?_⟩
      show (ins c).points = _
      rw [h', hp.1]

/-- the same for a call on the same context -/
theorem finishSame_points {i : CallInput} {s u v : St χ A} {e : Option Err} {r : Res Unit}
    (hF : Frame (enterSameState E i s) u) (hf : finishSame E e u = (r, v)) :
    v.rt.instance_ = s.rt.instance_ ∧ v.nextInst = u.nextInst ∧
    (∀ k, s.rt.instance_ ≠ some k → (v.insts k).points = (u.insts k).points) ∧
    (∀ c, s.rt.instance_ = some c → (v.insts c).points = (u.insts c).points ∨
      (e = none ∧ (getVMOutput E u).1.gasRemaining ≤ (u.insts c).points ∧
        (v.insts c).points = clampPoints (subU64 (u.insts c).points (getVMOutput E u).1.gasRemaining))) := by
  obtain ⟨_, _, h3, _⟩ := finishSame_frame e i s u v r hF hf
  by_cases hc : u.out.cur.returnCode ≠ .ok ∨ e.isSome
  · rw [finishSame_fail e u hc] at hf
    simp only [Prod.mk.injEq] at hf
    have hp := rtPopSet_points ({ u with big := u.big.popSet, met := u.met.popSet, out := u.out.popSet } : St χ A)
    have hv : v.insts = (St.rtPopSet { u with big := u.big.popSet, met := u.met.popSet, out := u.out.popSet }).insts ∧
        v.nextInst = (St.rtPopSet { u with big := u.big.popSet, met := u.met.popSet, out := u.out.popSet }).nextInst := by
      rw [← hf.2]; unfold popSameFail
      exact ⟨(bcPopSet_rest (E := E) _).2.2.2.2.1, (bcPopSet_rest (E := E) _).2.2.2.2.2.1⟩
    refine ⟨h3, by rw [hv.2, hp.2], fun k _ => by rw [hv.1, hp.1], fun c _ => .inl (by rw [hv.1, hp.1])⟩
  · have h1 : u.out.cur.returnCode = .ok := Decidable.byContradiction fun h => hc (.inl h)
    obtain rfl : e = none := by
      cases e with
      | none => rfl
      | some e => exact absurd (.inr rfl) hc
    rw [finishSame_ok u h1] at hf
    obtain ⟨o, m, ho⟩ := getVMOutput_only (E := E) u
    have hins : u.rt.instanceStack = s.rt.instance_ :: s.rt.instanceStack := hF.insts
    have hrt : u.rt.stack = s.rt.cur :: s.rt.stack := hF.rt
    generalize hout : (getVMOutput E u).1 = out at hf ⊢
    have hpi : (popSameOk (getVMOutput E u).2).rt.instance_ = s.rt.instance_ := by
      rw [ho]
      unfold popSameOk
      obtain ⟨ins, he, _⟩ := rtPopSet_eq (St.bcPopDiscard { ({ u with out := { u.out with cur := o }, met := { u.met with cur := m } } : St χ A) with
          met := ({ u with out := { u.out with cur := o }, met := { u.met with cur := m } } : St χ A).met.popMerge
          out := ({ u with out := { u.out with cur := o }, met := { u.met with cur := m } } : St χ A).out.popDiscard
          big := u.big.popDiscard }) s.rt.cur s.rt.stack s.rt.instance_ s.rt.instanceStack hrt hins
      rw [he]
    have hp : (∀ j, ((popSameOk (getVMOutput E u).2).insts j).points = (u.insts j).points) ∧
        (popSameOk (getVMOutput E u).2).nextInst = u.nextInst := by
      rw [ho]
      unfold popSameOk
      exact rtPopSet_points _
    generalize popSameOk (getVMOutput E u).2 = w at hf hp hpi
    obtain ⟨r2, ins, h4, _, h5⟩ := restoreGas_only out.gasRemaining w
    rw [h4] at hf
    simp only [Prod.mk.injEq] at hf
    refine ⟨h3, by rw [← hf.2]; exact hp.2, fun k hk => ?_, fun c hc => ?_⟩
    · rw [← hf.2]
      rcases h5 k with h | ⟨h, _⟩
      · show (ins k).points = _
        rw [h, hp.1]
      · rw [hpi] at h; exact absurd h hk
    · rw [← hf.2]
      rcases h5 c with h | ⟨_, h, h'⟩
      · left; show (ins c).points = _
        rw [h, hp.1]
      · right
        rw [hp.1] at h
        refine ⟨rfl, h, ?_⟩
        show (ins c).points = _
        rw [h', hp.1]

theorem countKept_step (hw : E.useWarm = false) {s t : St χ A} (h : StepB E Executor.halt s t) : CountKept s t := by
  cases h with
  | a _ h =>
    cases h with
    | inst i x hi _ => exact .modInst _ hi
    | fail i rc m b hi _ =>
      refine ⟨Nat.le_refl _, fun j _ hj => ?_, .inl rfl⟩
      exact modInst_points (fun e => hj (by rw [hi, e]))
    | dest _ i r he _ => exact (halt_dest he).elim
    | same _ i r he _ => exact (halt_same he).elim
    | undo _ i r a ci he => exact (halt_dest he).elim
    | _ => exact .of_eq rfl (fun _ => rfl) rfl
  | instNone _ => exact ⟨Nat.le_refl _, fun _ _ _ => rfl, .inr (.inl rfl)⟩
  | newInst c new m g _ _ _ => exact countKept_new m g new s
  | warmStart i g h => rw [hw] at h; cases h
  | setWarm h => rw [hw] at h; cases h
  | clean _ => exact countKept_clean s
  | failed c new m g h1 h2 h3 => exact (countKept_new m g new s).trans (countKept_clean _)
  | finalize =>
    obtain ⟨h1, h2, h3⟩ := getVMOutput_insts (E := E) s
    exact .of_eq h2 (fun _ => by rw [h1]) (by rw [h3])
  | _ => exact .of_eq rfl (fun _ => rfl) rfl

theorem enterDest_rest (j : CallInput) (s : St χ A) : (enterDestState j s).insts = s.insts ∧ (enterDestState j s).nextInst = s.nextInst ∧
    (enterDestState j s).rt.instance_ = s.rt.instance_ := ⟨rfl, rfl, rfl⟩
theorem enterSame_rest (j : CallInput) (s : St χ A) : (enterSameState E j s).insts = s.insts ∧ (enterSameState E j s).nextInst = s.nextInst ∧
    (enterSameState E j s).rt.instance_ = s.rt.instance_ := ⟨rfl, rfl, rfl⟩

theorem countKept_binary (hw : E.useWarm = false) : Binary E (CountKept (χ := χ) (A := A)) where
  refl := CountKept.refl
  trans s t u := CountKept.trans
  step s t := countKept_step hw
  stepH s t h := by
    cases h with
    | inst i x hi => exact .modInst _ hi
    | world i => exact .of_eq rfl (fun _ => rfl) rfl
    | merge i b hb => exact .of_eq rfl (fun _ => rfl) rfl
  bcPush s := .of_eq rfl (fun _ => rfl) rfl
  bcPopSet s := by
    obtain ⟨_, _, _, _, h1, h2, _⟩ := bcPopSet_rest (E := E) s
    exact .of_eq h2 (fun _ => by rw [h1]) (by rw [bcPopSet_rt])
  bcPopDiscard s := .of_eq rfl (fun _ => rfl) rfl
  onError e s := .of_eq rfl (fun _ => rfl) rfl
  delete s t a i _ _ _ h := ⟨h.next, h.points, h.inst⟩
  dest j s u e info r v hF hu hf := by
    obtain ⟨h1, h2, h3, _⟩ := finDest_points hF hf
    obtain ⟨e1, e2, e3⟩ := enterDest_rest j s
    have hn := hu.next
    rw [e2] at hn
    refine ⟨by rw [h2]; exact hn, fun k hk hi => ?_, .inl h1⟩
    rw [h3 k hi, hu.points k (by rw [e2]; exact hk) (by rw [e3]; exact hi), e1]
  same i s u e v hF hu hf := by
    obtain ⟨h1, h2, h3, _⟩ := finishSame_points hF hf
    obtain ⟨e1, e2, e3⟩ := enterSame_rest (E := E) i s
    have hn := hu.next
    rw [e2] at hn
    refine ⟨by rw [h2]; exact hn, fun k hk hi => ?_, .inl h1⟩
    rw [h3 k hi, hu.points k (by rw [e2]; exact hk) (by rw [e3]; exact hi), e1]


/-! ### What a call costs its caller -/

/-- the current instance is `c`, and its counter shows at least `g` -/
def Here (c g : Nat) (s : St χ A) : Prop := Valid s ∧ s.rt.instance_ = some c ∧ g ≤ (s.insts c).points.toNat
/-- instance `c` is waiting, and its counter shows at least `g` -/
def Away (c g : Nat) (s : St χ A) : Prop := Valid s ∧ c < s.nextInst ∧ s.rt.instance_ ≠ some c ∧ g ≤ (s.insts c).points.toNat
/-- the counter of instance `c` shows at least `g` -/
def Shows (c g : Nat) (s : St χ A) : Prop := Valid s ∧ c < s.nextInst ∧ g ≤ (s.insts c).points.toNat

theorem Here.shows {c g : Nat} {s : St χ A} (h : Here c g s) : Shows c g s := ⟨h.1, h.1 c h.2.1, h.2.2⟩
theorem Away.shows {c g : Nat} {s : St χ A} (h : Away c g s) : Shows c g s := ⟨h.1, h.2.1, h.2.2.2⟩
theorem Shows.mono {c g g' : Nat} {s : St χ A} (h : Shows c g s) (hg : g' ≤ g) : Shows c g' s := ⟨h.1, h.2.1, Nat.le_trans hg h.2.2⟩
theorem Away.kept {c g : Nat} {s t : St χ A} (h : Away c g s) (hk : CountKept s t) : Away c g t :=
  ⟨hk.valid h.1, Nat.lt_of_lt_of_le h.2.1 hk.next, hk.away h.2.1 h.2.2.1, by rw [hk.points c h.2.1 h.2.2.1]; exact h.2.2.2⟩

/-- states with the same instances -/
structure SameInsts (s t : St χ A) : Prop where
  insts : t.insts = s.insts
  next : t.nextInst = s.nextInst
  inst : t.rt.instance_ = s.rt.instance_
theorem Here.same {c g : Nat} {s t : St χ A} (h : Here c g s) (hs : SameInsts s t) : Here c g t :=
  ⟨fun k hk => by rw [hs.next]; rw [hs.inst] at hk; exact h.1 k hk, by rw [hs.inst]; exact h.2.1, by rw [hs.insts]; exact h.2.2⟩

theorem enterDest_same (j : CallInput) (s : St χ A) : SameInsts s (enterDestState j s) := ⟨rfl, rfl, rfl⟩
theorem enterSame_same (j : CallInput) (s : St χ A) : SameInsts s (enterSameState E j s) := ⟨rfl, rfl, rfl⟩

theorem clampPoints_toNat (g : UInt64) : (clampPoints g).toNat = min g.toNat (2 ^ 63 - 1) := by
  unfold clampPoints
  split
  · rename_i h
    have : (0x7FFFFFFFFFFFFFFF : UInt64).toNat = 2 ^ 63 - 1 := rfl
    have h := UInt64.lt_iff_toNat_lt.mp h
    omega
  · rename_i h
    have : (0x7FFFFFFFFFFFFFFF : UInt64).toNat = 2 ^ 63 - 1 := rfl
    have h : ¬ _ := fun hh => h (UInt64.lt_iff_toNat_lt.mpr hh)
    omega

theorem here_useGas {c g : Nat} (n : UInt64) : Tri (Here c g) (useGas n : M χ A Unit) (fun _ => Here c (min (g + n.toNat) (2 ^ 63 - 1))) := by
  intro s _ t ⟨h1, h2, h3⟩ he
  unfold useGas at he
  rw [get_bind] at he
  unfold setPointsUsed at he
  rw [h2] at he
  simp only [Prod.mk.injEq, true_and] at he
  subst he
  refine ⟨h1, h2, ?_⟩
  have hp : s.pointsUsed = (s.insts c).points := by unfold St.pointsUsed; rw [h2]
  have : ((s.modInst c fun x => { x with points := clampPoints (addU64 s.pointsUsed n) }).insts c).points = clampPoints (addU64 s.pointsUsed n) := by
    simp [St.modInst]
  show _ ≤ ((s.modInst c fun x => { x with points := clampPoints (addU64 s.pointsUsed n) }).insts c).points.toNat
  rw [this, clampPoints_toNat, addU64_toNat, hp]
  omega

theorem getCode_same (s : St χ A) (a : Addr) : SameInsts s (getCode E a s).2 := by
  obtain ⟨o, ho⟩ : ∃ o, (getCode E a s).2 = { s with out := o } := by
    unfold getCode
    repeat' split
    all_goals exact ⟨_, rfl⟩
  rw [ho]; exact ⟨rfl, rfl, rfl⟩
theorem getSCCode_same (s : St χ A) : SameInsts s (getSCCode E s).2 := by
  have h := getCode_same (E := E) s s.rt.cur.scAddress
  unfold getSCCode
  generalize getCode E s.rt.cur.scAddress s = q at h
  obtain ⟨r, t⟩ := q
  cases r with
  | error e => exact h
  | ok c => exact ⟨h.insts, h.next, h.inst⟩
theorem deductInitialGas_same (n : Nat) (b c : UInt64) (s : St χ A) : SameInsts s (deductInitialGas n b c s).2 := by
  unfold deductInitialGas
  dsimp only
  split <;> exact ⟨rfl, rfl, rfl⟩
theorem deductForExecution_same (c : Bytes) (s : St χ A) : SameInsts s (deductForExecution c s).2 := by
  show SameInsts s ((if s.flags.aot then deductInitialGas c.length s.met.sched.getCode s.met.sched.aotPreparePerByte
    else deductInitialGas c.length 0 s.met.sched.compilePerByte) s).2
  split <;> exact deductInitialGas_same _ _ _ s

/-- Starting an instance: the counters so far are kept, and afterwards the new instance is the current one. -/
theorem startInstance_away (hw : E.useWarm = false) {c g : Nat} (code : Bytes) (gl : UInt64) (new : Bool) :
    Tri (Here c g) (startInstance E code gl new) (fun r t => Shows c g t ∧ (r = none → Away c g t)) := by
  have none_ : ∀ s : St χ A, Shows c g s → Shows c g { s with rt := { s.rt with instance_ := none } } := by
    intro s h; exact ⟨(fun k hk => by cases hk), h.2.1, h.2.2⟩
  have clean : ∀ s : St χ A, Away c g s → Shows c g s.cleanInstance := fun s h => (h.kept (countKept_clean s)).shows
  have new_ : ∀ (s : St χ A) (m : WasmModule A) (n : Bool), Here c g s → Away c g (newInstance m gl n s) := by
    intro s m n ⟨h1, h2, h3⟩
    have hc := h1 c h2
    refine ⟨(fun k hk => by cases hk; exact Nat.lt_succ_self _), Nat.lt_succ_of_lt hc, ?_, ?_⟩
    · show some s.nextInst ≠ some c
      intro h; cases h; exact absurd hc (Nat.lt_irrefl _)
    · simp only [newInstance, Nat.ne_of_lt hc, if_false]; exact h3
  have verify : Tri (Away c g) (verifyContractCode E) (fun _ => Away c g) := by
    unfold verifyContractCode
    refine tri_get' fun _ => ?_
    split
    · exact tri_pure fun _ h => h
    · refine tri_bind (T := fun _ => Away c g) (tri_modify fun s h => h) fun _ => ?_
      split
      · exact tri_panic
      · exact tri_pure fun _ h => h
  unfold startInstance
  refine tri_get fun s0 h0 => ?_
  refine tri_pre (P := Here c g) ?_ (fun s hs => by rw [hs]; exact h0)
  refine tri_ite (fun _ => ?_) (fun _ => ?_)
  · refine tri_bind (T := fun _ => Shows c g) (tri_modify fun s h => none_ s h.shows) fun _ => ?_
    exact tri_pure fun s h => ⟨h, (fun e => by cases e)⟩
  · have hsw : ∀ s : St χ A, setWarm E gl s = (.ok false, s) := by intro s; simp [setWarm, hw]
    refine tri_bind (T := fun b s => b = false ∧ Here c g s) ?_ fun b => ?_
    · intro s b t h he
      rw [hsw] at he
      cases he
      exact ⟨rfl, h⟩
    · intro s r t ⟨hb, h⟩ he
      subst hb
      rw [if_neg (by simp), get_bind] at he
      revert he
      generalize getCodeHash E s s.rt.cur.scAddress = hsh
      revert s r t
      suffices hsuf : Tri (Here c g) (M.lift (fromCompiled E hsh gl new) >>= fun used =>
          if used = true then pure none else fromByteCode E code hsh gl new) (fun r t => Shows c g t ∧ (r = none → Away c g t)) by
        intro s r t h he
        exact hsuf s r t h he
      refine tri_bind (T := fun b s => if b then Away c g s else Here c g s) ?_ fun b => ?_
      · refine tri_lift fun s h => ?_
        unfold fromCompiled
        repeat' split
        all_goals first
          | exact h
          | exact new_ s _ _ h
          | (rename_i hx; exact absurd hx (by simp))
          | skip
        all_goals simp_all
      · refine tri_ite (fun hb => ?_) (fun hb => ?_)
        · refine tri_pure fun s h => ?_
          rw [if_pos hb] at h
          exact ⟨h.shows, fun _ => h⟩
        · refine tri_pre (P := Here c g) ?_ (fun s h => by rw [if_neg hb] at h; exact h)
          unfold fromByteCode
          split
          · refine tri_bind (T := fun _ => Shows c g) (tri_modify fun s h => none_ s h.shows) fun _ => ?_
            exact tri_pure fun s h => ⟨h, (fun e => by cases e)⟩
          · rename_i m _
            refine tri_bind (T := fun _ => Away c g) (tri_modify fun s h => new_ s m new h) fun _ => ?_
            dsimp only
            have warm : Tri (χ := χ) (A := A) (Away c g) (do
                if E.useWarm then
                  M.modify (fun s => { s with rt := { s.rt with warmAddress := some s.rt.cur.scAddress, warmInstance := s.rt.instance_ } })
                else pure ()
                pure none) (fun (r : Option Err) t => Shows c g t ∧ (r = none → Away c g t)) := by
              refine tri_ite (fun _ => ?_) (fun _ => tri_pure fun s h => ⟨h.shows, fun _ => h⟩)
              exact tri_bind (T := fun _ => Away c g) (tri_modify fun s h => h) fun _ => tri_pure fun s h => ⟨h.shows, fun _ => h⟩
            have bad : ∀ e : Err, Tri (χ := χ) (A := A) (Away c g) (do
                M.modify St.cleanInstance
                pure (some e)) (fun (r : Option Err) t => Shows c g t ∧ (r = none → Away c g t)) := by
              intro e
              refine tri_bind (T := fun _ => Shows c g) (tri_modify fun s h => clean s h) fun _ => ?_
              exact tri_pure fun s h => ⟨h, (fun e => by cases e)⟩
            split
            · exact bad _
            · split
              · refine tri_ite (fun _ => tri_bind verify fun e => ?_) (fun _ => tri_bind (T := fun _ => Away c g) (tri_pure fun _ h => h) fun e => ?_)
                · cases e with
                  | some e => exact bad e
                  | none => exact warm
                · cases e with
                  | some e => exact bad e
                  | none => exact warm
              · refine tri_bind (T := fun _ => Away c g) (tri_modify fun s h => h) fun _ => ?_
                refine tri_ite (fun _ => tri_bind verify fun e => ?_) (fun _ => tri_bind (T := fun _ => Away c g) (tri_pure fun _ h => h) fun e => ?_)
                · cases e with
                  | some e => exact bad e
                  | none => exact warm
                · cases e with
                  | some e => exact bad e
                  | none => exact warm


theorem here_same {α : Type} {c g : Nat} {m : M χ A α} (h : ∀ s, SameInsts s (m s).2) : Tri (Here c g) m (fun _ => Here c g) := by
  intro s a t hp he
  have := h s
  rw [he] at this
  exact hp.same this
theorem away_sim (hw : E.useWarm = false) {n : Nat} {α : Type} {c g : Nat} {m : M χ A α} (h : ∀ s, SimAt (execN E n) (StepB E (execN E n)) m s) :
    Tri (Away c g) m (fun _ => Away c g) := by
  intro s a t hp he
  exact hp.kept ((countKept_binary hw).runN ((h s).ok he))

/-- what is known of the caller's counter after a function that may have started the callee -/
abbrev Gone (c g g' : Nat) (r : Option Err) (t : St χ A) : Prop := Shows c g t ∧ (r = none → Away c g' t)

theorem gone_some {c g g' : Nat} {e : Err} : Tri (χ := χ) (A := A) (Shows c g) (pure (some e)) (Gone c g g') :=
  tri_pure fun s h => ⟨h, (fun e => by cases e)⟩
theorem gone_here {c g g' : Nat} {e : Err} (hg : g ≤ g') : Tri (χ := χ) (A := A) (Here c g') (pure (some e)) (Gone c g g') :=
  tri_pure fun s h => ⟨h.shows.mono hg, (fun e => by cases e)⟩

theorem extractUpgrade_same (s : St χ A) : SameInsts s (extractUpgrade s).2 := by
  unfold extractUpgrade
  split <;> exact ⟨rfl, rfl, rfl⟩

theorem deploySteps_gone (hw : E.useWarm = false) (n : Nat) (d : CodeDeployInput) {c g g' : Nat} (hg : g ≤ g') :
    Tri (Here c g') (deploySteps E (execN E n) d) (Gone c g g') := by
  have hF := (frameEx_execN E n).keeps
  unfold deploySteps
  refine tri_bind (here_same fun s => ?_) fun r => ?_
  · show SameInsts s (deductForDirectDeployment d.code s).2
    exact deductInitialGas_same _ _ _ s
  · cases r with
    | some e => exact tri_bind (T := fun _ => Here c g') (tri_modify fun s h => h) fun _ => gone_here hg
    | none =>
      refine tri_bind (T := fun _ => Here c g') (tri_modify fun s h => h) fun _ => tri_get' fun s => ?_
      refine tri_bind (startInstance_away hw _ _ _) fun r => ?_
      cases r with
      | some e => exact tri_pure fun s h => ⟨h.1.mono hg, (fun e => by cases e)⟩
      | none =>
        refine tri_pre (P := Away c g') ?_ (fun s h => h.2 rfl)
        refine tri_bind (away_sim hw fun s => SimAt.up (sim_callInit hF s)) fun r => ?_
        cases r with
        | some e => exact tri_pure fun s h => ⟨h.shows.mono hg, (fun e => by cases e)⟩
        | none =>
          refine tri_bind (T := fun _ => Away c g') (tri_modify fun s h => h) fun _ => ?_
          exact tri_pure fun s h => ⟨h.shows.mono hg, fun _ => h⟩

theorem executeUpgrade_gone (hw : E.useWarm = false) (n : Nat) (i : CallInput) {c g g' : Nat} (hg : g ≤ g') :
    Tri (Here c g') (executeUpgrade E (execN E n) i) (Gone c g g') := by
  unfold executeUpgrade
  refine tri_get' fun s => ?_
  split
  · exact gone_here hg
  · refine tri_bind (here_same extractUpgrade_same) fun r => ?_
    match r with
    | none => exact gone_here hg
    | some (code, md) =>
      refine tri_bind (deploySteps_gone hw n _ hg) fun r => ?_
      match r with
      | some e => exact tri_pure fun s h => ⟨h.1, (fun e => by cases e)⟩
      | none =>
        refine tri_get' fun s => ?_
        refine tri_ite (fun _ => ?_) (fun _ => ?_)
        · exact tri_pure fun s h => ⟨h.1, (fun e => by cases e)⟩
        · exact tri_pure fun s h => ⟨h.1, h.2⟩

/-- Executing a call: the caller's counter shows at least what it showed, and if the call succeeds, all the gas provided as well. -/
theorem execute_gone (hw : E.useWarm = false) (n : Nat) (i : CallInput) {c p : Nat} :
    Tri (Here c p) (execute E (execN E n) i) (Gone c (min p (2 ^ 63 - 1)) (min (p + i.vm.gasProvided.toNat) (2 ^ 63 - 1))) := by
  have hF := (frameEx_execN E n).keeps
  have hg : min p (2 ^ 63 - 1) ≤ min (p + i.vm.gasProvided.toNat) (2 ^ 63 - 1) := by omega
  unfold execute
  refine tri_get' fun s => tri_ite (fun _ => ?_) (fun _ => ?_)
  · exact tri_pure fun s h => ⟨h.shows.mono (Nat.min_le_left _ _), (fun e => by cases e)⟩
  · refine tri_bind (here_useGas _) fun _ => ?_
    refine tri_ite (fun _ => executeUpgrade_gone hw n i hg) (fun _ => ?_)
    refine tri_bind (T := fun _ => Here c (min (p + i.vm.gasProvided.toNat) (2 ^ 63 - 1))) (tri_lift fun s h => h.same (getSCCode_same s)) fun r => ?_
    cases r with
    | error e => exact gone_here hg
    | ok code =>
      refine tri_bind (here_same fun s => deductForExecution_same code s) fun r => ?_
      cases r with
      | some e => exact gone_here hg
      | none =>
        refine tri_get' fun s => ?_
        refine tri_bind (startInstance_away hw _ _ _) fun r => ?_
        cases r with
        | some e => exact tri_pure fun s h => ⟨h.1.mono hg, (fun e => by cases e)⟩
        | none =>
          refine tri_pre (P := Away c (min (p + i.vm.gasProvided.toNat) (2 ^ 63 - 1))) ?_ (fun s h => h.2 rfl)
          refine tri_bind (away_sim hw fun s => SimAt.up (sim_callIndirect hF s)) fun r => ?_
          cases r with
          | some e => exact tri_pure fun s h => ⟨h.shows.mono hg, (fun e => by cases e)⟩
          | none =>
            refine tri_get' fun s => tri_ite (fun _ => ?_) (fun _ => ?_)
            · exact tri_pure fun s h => ⟨h.shows.mono hg, (fun e => by cases e)⟩
            · exact tri_pure fun s h => ⟨h.shows.mono hg, fun _ => h⟩

theorem transferValueOnly_same (d snd : Addr) (v : Int) (b : Bool) (s : St χ A) : SameInsts s (transferValueOnly E d snd v b s).2 := by
  have hb : SameInsts s (getBalance E snd s).2 := by
    unfold getBalance
    dsimp only
    split
    · exact ⟨rfl, rfl, rfl⟩
    · split <;> exact ⟨rfl, rfl, rfl⟩
  unfold transferValueOnly
  split
  · exact ⟨rfl, rfl, rfl⟩
  · generalize getBalance E snd s = q at hb
    obtain ⟨bal, t⟩ := q
    dsimp only at hb ⊢
    split
    · exact hb
    · split
      · exact hb
      · split
        · exact hb
        · exact ⟨hb.insts, hb.next, hb.inst⟩

theorem bodyDest_gone (hw : E.useWarm = false) (n : Nat) (i : CallInput) {c p : Nat} :
    Tri (Here c p) (bodyDest E (execN E n) i)
      (fun r => Gone c (min p (2 ^ 63 - 1)) (min (p + i.vm.gasProvided.toNat) (2 ^ 63 - 1)) r.2) := by
  have hF := (frameEx_execN E n).keeps
  have hg : min p (2 ^ 63 - 1) ≤ min (p + i.vm.gasProvided.toNat) (2 ^ 63 - 1) := by omega
  have main : ∀ e : Option Err, Tri (Here c p) (match e with
      | some e => pure (none, some e)
      | none => do
        match (← execute E (execN E n) i) with
        | some e => pure (none, some e)
        | none => do
          let s ← M.get
          let (info, r) ← processAsyncInfo E (execN E n) s.rt.cur.asyncContextInfo
          match r with
          | .error e => pure (some info, some e)
          | .ok _ => pure (some info, none))
      (fun r => Gone c (min p (2 ^ 63 - 1)) (min (p + i.vm.gasProvided.toNat) (2 ^ 63 - 1)) r.2) := by
    intro e
    cases e with
    | some e => exact tri_pure fun s h => ⟨h.shows.mono (Nat.min_le_left _ _), (fun e => by cases e)⟩
    | none =>
      refine tri_bind (execute_gone hw n i) fun r => ?_
      cases r with
      | some e => exact tri_pure fun s h => ⟨h.1, (fun e => by cases e)⟩
      | none =>
        refine tri_get' fun s => ?_
        refine tri_pre (P := Away c (min (p + i.vm.gasProvided.toNat) (2 ^ 63 - 1))) ?_ (fun s h => h.2 rfl)
        refine tri_bind (away_sim hw fun t => SimAt.up (sim_processAsyncInfo hF _ t)) fun r => ?_
        obtain ⟨info, r⟩ := r
        cases r with
        | error e => exact tri_pure fun s h => ⟨h.shows.mono hg, (fun e => by cases e)⟩
        | ok _ => exact tri_pure fun s h => ⟨h.shows.mono hg, fun _ => h⟩
  unfold bodyDest
  refine tri_ite (fun _ => ?_) (fun _ => ?_)
  · exact tri_bind (T := fun _ => Here c p) (tri_lift fun s h => h.same (transferValueOnly_same _ _ _ _ s)) main
  · exact tri_bind (T := fun _ => Here c p) (tri_pure fun s h => h) main

theorem bodySame_gone (hw : E.useWarm = false) (n : Nat) (i : CallInput) {c p : Nat} :
    Tri (Here c p) (bodySame E (execN E n) i) (Gone c (min p (2 ^ 63 - 1)) (min (p + i.vm.gasProvided.toNat) (2 ^ 63 - 1))) := by
  unfold bodySame
  refine tri_bind (T := fun _ => Here c p) (tri_lift fun s h => h.same (transferValueOnly_same _ _ _ _ s)) fun r => ?_
  cases r with
  | some e => exact tri_pure fun s h => ⟨h.shows.mono (Nat.min_le_left _ _), (fun e => by cases e)⟩
  | none => exact execute_gone hw n i


/-- the largest gas limit for which the counters are exact -/
abbrev gasCap : Nat := 2 ^ 62 - 1

/-- the calls that built-in functions ask for get no more gas than the function was given -/
def FrugalBuiltins (E : Env χ A) : Prop := ∀ w i b a acc x, (E.hook.processBuiltIn w i).1 = .ok b → b.out.accounts.get? a = some acc →
  acc.transfers = [x] → x.gasLimit ≤ i.vm.gasProvided

/-- what a call gives back to its caller -/
theorem given_back {p q g r : Nat} (hq : min (p + g) (2 ^ 63 - 1) ≤ q) (hg : g ≤ gasCap) (hr : r ≤ g) : min p gasCap ≤ min (q - r) (2 ^ 63 - 1) := by
  unfold gasCap at *
  omega

theorem copyTx_gas (s : St χ A) (i : CallInput) : (copyTxHashes s i).vm.gasProvided = i.vm.gasProvided ∧
    (copyTxHashes s i).vm.callType = i.vm.callType := by
  unfold copyTxHashes; split <;> exact ⟨rfl, rfl⟩

theorem enterDest_gas {j : CallInput} (hj : j.vm.callType ≠ .asynchronousCallBack) (s : St χ A) :
    (enterDestInput j s).vm.gasProvided = j.vm.gasProvided ∧ GasBound j.vm.gasProvided (enterDestState j s) := by
  obtain ⟨h1, h2⟩ := copyTx_gas { s with big := s.big.push.initState, out := s.out.push.censor } j
  have hc : (copyTxHashes { s with big := s.big.push.initState, out := s.out.push.censor } j).vm.callType ≠ .asynchronousCallBack := by
    rw [h2]; exact hj
  refine ⟨?_, ?_, ?_⟩
  · show (if _ then _ else _ : VMInput).gasProvided = _
    rw [if_neg hc]; exact h1
  · show (if _ then _ else _ : VMInput).gasProvided ≤ _
    rw [if_neg hc, h1]; exact UInt64.le_refl _
  · show (copyTxHashes { s with big := s.big.push.initState, out := s.out.push.censor } j).vm.gasProvided ≤ _
    rw [h1]; exact UInt64.le_refl _

theorem enterSame_gas {j : CallInput} (hj : j.vm.callType ≠ .asynchronousCallBack) (s : St χ A) :
    (enterSameInput E j s).vm.gasProvided = j.vm.gasProvided ∧ GasBound j.vm.gasProvided (enterSameState E j s) := by
  obtain ⟨h1, h2⟩ := copyTx_gas { s with big := s.big.push, out := s.out.push } j
  have hc : (copyTxHashes { s with big := s.big.push, out := s.out.push } j).vm.callType ≠ .asynchronousCallBack := by
    rw [h2]; exact hj
  refine ⟨?_, ?_, ?_⟩
  · show (if _ then _ else _ : VMInput).gasProvided = _
    rw [if_neg hc]; exact h1
  · show (if _ then _ else _ : VMInput).gasProvided ≤ _
    rw [if_neg hc, h1]; exact UInt64.le_refl _
  · show (copyTxHashes { s with big := s.big.push, out := s.out.push } j).vm.gasProvided ≤ _
    rw [h1]; exact UInt64.le_refl _

theorem getVMOutput_le {B : UInt64} {u : St χ A} (h : GasBound B u) : (getVMOutput E u).1.gasRemaining.toNat ≤ B.toNat := by
  rcases getVMOutput_gas (E := E) u with hg | hg
  · rw [hg]
    have := gasLeft_le u
    have := UInt64.le_iff_toNat_le.mp h.1
    omega
  · rw [hg]; simp

theorem destOutput_le {B : UInt64} {u : St χ A} (h : GasBound B u) (e : Option Err) : (destOutput E e u).1.gasRemaining.toNat ≤ B.toNat ∧
    (∀ x, e = some x → (destOutput E e u).1.gasRemaining = 0) := by
  cases e with
  | none => exact ⟨getVMOutput_le h, (fun x hx => by cases hx)⟩
  | some e => exact ⟨by show (0 : UInt64).toNat ≤ _; simp, fun _ _ => rfl⟩

/-- the steps of built-in functions only use gas -/
theorem stepH_here {c p : Nat} (hp : p ≤ 2 ^ 63 - 1) {s t : St χ A} (h : Run (StepH E) s t) (hs : Here c p s) : Here c p t :=
  h.inv (P := Here c p) (fun s t h hs => by
    cases h with
    | inst i g hi =>
      obtain ⟨h1, h2, h3⟩ := hs
      rw [hi] at h2
      cases h2
      refine ⟨h1, hi, ?_⟩
      have he : ((s.modInst c fun x => { x with points := clampPoints (addU64 x.points g) }).insts c).points =
          clampPoints (addU64 (s.insts c).points g) := by simp [St.modInst]
      rw [he, clampPoints_toNat, addU64_toNat]; omega
    | world i => exact hs.same ⟨rfl, rfl, rfl⟩
    | merge i b hb => exact hs.same ⟨rfl, rfl, rfl⟩) hs

/-- A call on the destination's context costs its caller something or nothing: the gas left over is no more than what was handed over. -/
theorem dest_here (hw : E.useWarm = false) (hfb : FrugalBuiltins E) {n : Nat} {i : CallInput} {s t : St χ A} {r : DestResult} {c p : Nat}
    (hi : i.vm.gasProvided.toNat ≤ gasCap) (hct : i.vm.callType ≠ .asynchronousCallBack) (hs : Here c p s)
    (h : (execN E n).dest i s = (.ok r, t)) : Here c (min p gasCap) t := by
  cases n with
  | zero => simp [execN, M.oof] at h
  | succ n =>
    have hcap : min p gasCap ≤ 2 ^ 63 - 1 := by unfold gasCap; omega
    have hs0 : Here c (min p gasCap) (St.bcPush E s) := ⟨hs.1, hs.2.1, Nat.le_trans (Nat.min_le_left _ _) hs.2.2⟩
    rcases execDest_any i s t _ h with ⟨a, _, h⟩ | ⟨h, _⟩ | ⟨h, _⟩
    · cases h with
      | failed u e hr _ =>
        have := stepH_here hcap hr hs0
        have e1 := bcPopSet_rest (E := E) u
        exact this.same ⟨e1.2.2.2.2.1, e1.2.2.2.2.2.1, by show (St.bcPopSet E u).rt.instance_ = _; rw [bcPopSet_rt]⟩
      | builtin u o hr _ => exact (stepH_here hcap hr hs0).same ⟨rfl, rfl, rfl⟩
      | called u w v j info e r hr hj hb hf hp =>
        have hF := frameEx_execN E n
        have hu := stepH_here hcap hr hs0
        have hj2 : j.vm.gasProvided.toNat ≤ gasCap ∧ j.vm.callType ≠ .asynchronousCallBack := by
          rcases hp with rfl | ⟨h1, w', b, a', acc, x, h2, h3, h4, h5⟩
          · exact ⟨hi, hct⟩
          · refine ⟨?_, by rw [h1]; exact hct⟩
            have := UInt64.le_iff_toNat_le.mp (hfb w' i b a' acc x h2 h3 h4)
            rw [h5]; omega
        obtain ⟨g1, g2⟩ := enterDest_gas hj2.2 u
        have h1 := (sim_bodyDest (E := E) hF.keeps _ _ (fresh_enterDest j u)).ok hb
        have h2 := bodyDest_gone hw n (enterDestInput j u) _ _ _ (hu.same (enterDest_same j u)) hb
        have h3 := (gasKept_binary.runN h1).bound _ g2
        obtain ⟨k1, k2, k3, k4⟩ := finDest_points (h1.frame hF).1 hf
        obtain ⟨l1, l2⟩ := destOutput_le (E := E) h3 e
        rw [g1] at h2
        have hv : Here c (min p gasCap) v := by
          refine ⟨?_, by rw [k1]; exact hu.2.1, ?_⟩
          · intro k hk
            rw [k1, hu.2.1] at hk
            cases hk
            rw [k2]; exact h2.1.2.1
          · have hlow : min p gasCap ≤ (w.insts c).points.toNat := by
              have := h2.1.2.2
              unfold gasCap at *
              omega
            rcases k4 c hu.2.1 with k | ⟨k, k'⟩
            · rw [k]; exact hlow
            · rw [k', clampPoints_toNat, subU64_toNat]
              cases e with
              | some e =>
                rw [l2 e rfl]
                unfold gasCap at *
                simp only [UInt64.toNat_zero]
                omega
              | none =>
                have h5 := (h2.2 rfl).2.2.2
                have := given_back h5 hj2.1 l1
                unfold gasCap at *
                omega
        split
        · have e1 := bcPopSet_rest (E := E) v
          exact hv.same ⟨e1.2.2.2.2.1, e1.2.2.2.2.2.1, by rw [bcPopSet_rt]⟩
        · exact hv.same ⟨rfl, rfl, rfl⟩
    · simp at h
    · simp at h

/-- the same for a call on the same context -/
theorem same_here (hw : E.useWarm = false) {n : Nat} {i : CallInput} {s t : St χ A} {r : Option Err} {c p : Nat}
    (hi : i.vm.gasProvided.toNat ≤ gasCap) (hct : i.vm.callType ≠ .asynchronousCallBack) (hs : Here c p s)
    (h : (execN E n).same i s = (.ok r, t)) : Here c (min p gasCap) t := by
  cases n with
  | zero => simp [execN, M.oof] at h
  | succ n =>
    have hF := frameEx_execN E n
    rcases execSame_any i s t _ h with ⟨_, h, _⟩ | ⟨_, ⟨e, u, h1, h2⟩ | ⟨h, _⟩ | ⟨h, _⟩⟩
    · rw [h]; exact ⟨hs.1, hs.2.1, Nat.le_trans (Nat.min_le_left _ _) hs.2.2⟩
    · rcases h2 with ⟨_, h2⟩ | ⟨h2, _⟩
      · obtain ⟨g1, g2⟩ := enterSame_gas (E := E) hct s
        have h3 := (sim_bodySame (E := E) hF.keeps _ _ (fresh_enterSame i s)).ok h1
        have h4 := bodySame_gone hw n (enterSameInput E i s) _ _ _ (hs.same (enterSame_same i s)) h1
        have h5 := (gasKept_binary.runN h3).bound _ g2
        obtain ⟨k1, k2, k3, k4⟩ := finishSame_points (h3.frame hF).1 h2
        rw [g1] at h4
        refine ⟨?_, by rw [k1]; exact hs.2.1, ?_⟩
        · intro k hk
          rw [k1, hs.2.1] at hk
          cases hk
          rw [k2]; exact h4.1.2.1
        · rcases k4 c hs.2.1 with k | ⟨he, k, k'⟩
          · rw [k]
            have := h4.1.2.2
            unfold gasCap
            omega
          · rw [k', clampPoints_toNat, subU64_toNat]
            exact given_back ((h4.2 he).2.2.2) hi (getVMOutput_le h5)
      · simp at h2
    · simp at h
    · simp at h

end Arwen
