import Verif.Host.Points
import Verif.Eei.Commands
/-
Gas and the API: no function of the API, other than the two that deploy contracts, leaves its caller with more gas than before.
-/
namespace Arwen
variable {χ A : Type} {E : Env χ A}

/-- commands that neither call another contract nor deploy one -/
def Cmd.plain : Cmd → Bool
  | .executeOnDest _ => false
  | .executeOnSame _ => false
  | .executeReadOnly _ => false
  | .createContract _ => false
  | _ => true

/-- An environment that is like `E` except that the API only runs one command. -/
abbrev Env.only (E : Env χ A) (c : Cmd) : Env χ A := { E with api := fun _ => .op c fun _ => .panic }

theorem runCmd_only {ex ex' : Executor χ A} (c : Cmd) (h : c.plain = true) : runCmd (E.only c) ex' c = runCmd E ex c := by
  cases c <;> first | (exfalso; cases h; done) | rfl

theorem only_runs {c c' : Cmd} (h : ApiRuns (E.only c) c') : c' = c := by
  obtain ⟨a, h⟩ := h
  rcases h with h | ⟨r, h⟩
  · exact h.symm
  · exact h.elim

theorem keepsInst_halt : KeepsInst (Executor.halt : Executor χ A) := by
  refine ⟨?_, ?_, ?_⟩
  · intro i s r t h; simp [Executor.halt] at h
  · intro i s r t h; simp [Executor.halt] at h
  · intro i s r t h; simp [Executor.halt] at h

/-- where a contract can be while it runs: its counter and its gas -/
def Spent (c p : Nat) (g : UInt64) (s : St χ A) : Prop := Here c p s ∧ s.met.cur.gasForExecution = g

/-- the steps of plain commands -/
theorem stepX_spent {c : Cmd} (hc : c.plain = true) {i p : Nat} {g : UInt64} (hp : p ≤ gasCap) {s t : St χ A}
    (h : Run (StepX (E.only c) Executor.halt false) s t) (hs : Spent i p g s) : Spent i p g t :=
  h.inv (P := Spent i p g) (fun s t h hs => by
    obtain ⟨⟨h1, h2, h3⟩, h4⟩ := hs
    have hcap : p ≤ 2 ^ 63 - 1 := by unfold gasCap at hp; omega
    cases h with
    | inst j x hj hx =>
      rw [hj] at h2
      cases h2
      refine ⟨⟨h1, hj, ?_⟩, h4⟩
      have he : ((s.modInst i fun _ => x).insts i) = x := by simp [St.modInst]
      rw [he]
      cases hx with
      | use g => rw [clampPoints_toNat, addU64_toNat]; omega
      | restore g hb => cases hb
      | burn g =>
        rw [addU64_toNat]
        omega
      | bp b => exact h3
      | mem m => exact h3
    | fail j rc m b hj _ =>
      rw [hj] at h2
      cases h2
      refine ⟨⟨h1, hj, ?_⟩, h4⟩
      simpa [St.modInst] using h3
    | deduct cost ci hr => rw [← only_runs hr] at hc; cases hc
    | deploy d ci hr => rw [← only_runs hr] at hc; cases hc
    | dest _ _ _ hd _ => simp [Executor.halt] at hd
    | same _ _ _ hd _ => simp [Executor.halt] at hd
    | undo _ _ _ _ _ hd => simp [Executor.halt] at hd
    | _ => exact ⟨⟨h1, h2, h3⟩, h4⟩) hs

theorem plain_spent [Inhabited A] {ex : Executor χ A} {c : Cmd} (hc : c.plain = true) {i p : Nat} {g : UInt64} (hp : p ≤ gasCap) :
    Tri (Spent i p g) (runCmd E ex c) (fun _ => Spent i p g) := by
  intro s r t hs h
  rw [← runCmd_only (ex' := Executor.halt) c hc] at h
  have hr : ApiRuns (E.only c) c := ⟨default, Or.inl rfl⟩
  exact stepX_spent hc hp ((sim_runCmd (back := false) keepsInst_halt c hr s).ok h) hs

theorem stepX_met {c : Cmd} (hc : c.plain = true) {s t : St χ A} (h : Run (StepX (E.only c) Executor.halt false) s t) : t.met = s.met :=
  h.rel (R := fun s t => t.met = s.met) (fun _ => rfl) (fun _ _ _ h1 h2 => h2.trans h1) (fun s t h => by
    cases h with
    | deduct cost ci hr => rw [← only_runs hr] at hc; cases hc
    | dest _ _ _ hd _ => simp [Executor.halt] at hd
    | same _ _ _ hd _ => simp [Executor.halt] at hd
    | undo _ _ _ _ _ hd => simp [Executor.halt] at hd
    | _ => rfl)

/-- what the transfer of tokens leaves for the call -/
theorem transferESDT_tri (d snd : Addr) (tok : Bytes) (n : UInt64) (v : Int) (ci : Option CallInput) (s : St χ A) :
    Tri (fun t => t = s) (transferESDT E d snd tok n v ci) (fun r _ => ∀ g, r = .ok g → g.toNat ≤ s.met.cur.gasForExecution.toNat) := by
  unfold transferESDT
  refine tri_get fun s' hs => ?_
  subst hs
  dsimp only
  have h1 : Tri (fun t => t = s') (executeEsdtTransfer E d snd tok n v
      (if (E.hook.isSmartContract s'.world d && ci.isSome) = true then CallType.esdtTransferAndExecute else .directCall)) (fun _ t => t.met = s'.met) := by
    intro t r u ht h
    subst ht
    exact stepX_met (E := E) (c := .outOfGas) rfl
      ((sim_executeEsdtTransfer (E := E.only .outOfGas) (ex' := Executor.halt) (ex := Executor.halt) (back := false) d snd tok n v _ t).ok h)
  refine tri_bind h1 fun x => ?_
  cases x with
  | error e => exact tri_pure fun _ _ g h => by cases h
  | ok x =>
    obtain ⟨o, used⟩ := x
    refine tri_ite (fun _ => tri_pure fun _ _ g h => by cases h) (fun _ => ?_)
    refine tri_get fun u hu => tri_ite (fun _ => tri_pure fun _ _ g h => by cases h) (fun h3 => ?_)
    have fin : ∀ q : UInt64, q.toNat ≤ u.gasLeft.toNat → ∀ {P : St χ A → Prop}, Tri P (pure (.ok q) : M χ A (Except Err UInt64))
        (fun r _ => ∀ g, r = .ok g → g.toNat ≤ s'.met.cur.gasForExecution.toNat) := by
      intro q hq P
      refine tri_pure fun t _ g h => ?_
      cases h
      have := UInt64.le_iff_toNat_le.mp (gasLeft_le u)
      rw [hu] at this
      omega
    have hq : ∀ {b : Bool} {x : UInt64}, ¬ (b && decide ((if b = true then x else 0) > u.gasLeft)) = true →
        (if b = true then x else 0 : UInt64).toNat ≤ u.gasLeft.toNat := by
      intro b x h
      cases b with
      | false => simp
      | true =>
        simp only [Bool.true_and, decide_eq_true_eq, if_true] at h ⊢
        exact UInt64.le_iff_toNat_le.mp (UInt64.not_lt.mp h)
    exact tri_ite (fun _ => tri_bind tri_any fun _ => tri_bind tri_any fun _ => tri_bind tri_any fun _ => fin _ (hq h3))
      (fun _ => tri_bind tri_any fun _ => tri_bind tri_any fun _ => fin _ (hq h3))

theorem transferESDT_le {d snd : Addr} {tok : Bytes} {n : UInt64} {v : Int} {ci : Option CallInput} {s t : St χ A} {r : UInt64}
    (h : transferESDT E d snd tok n v ci s = (.ok (.ok r), t)) : r.toNat ≤ s.met.cur.gasForExecution.toNat :=
  transferESDT_tri d snd tok n v ci s s _ t rfl h r rfl

/-! ### Programs that hand over no more gas than they have -/

/-- what a program may do with at most `G` gas: hand that much to the contracts it calls, and deploy none -/
def Cmd.frugal (G : Nat) : Cmd → Prop
  | .executeOnDest i => i.vm.gasProvided.toNat ≤ G ∧ i.vm.callType ≠ .asynchronousCallBack
  | .executeOnSame i => i.vm.gasProvided.toNat ≤ G ∧ i.vm.callType ≠ .asynchronousCallBack
  | .executeReadOnly i => i.vm.gasProvided.toNat ≤ G ∧ i.vm.callType ≠ .asynchronousCallBack
  | .createContract _ => False
  | _ => True

/-- the answers a program can get with at most `G` gas -/
def Cmd.answers (G : Nat) : (c : Cmd) → c.Resp → Prop
  | .transferESDT .., r => match r with
    | .ok g => g.toNat ≤ G
    | .error _ => True
  | _, _ => True

def Frugal (G : Nat) {α : Type} : Free χ A α → Prop
  | .pure _ => True
  | .panic => True
  | .ask k => ∀ s, s.gasLeft.toNat ≤ G → Frugal G (k s)
  | .op c k => c.frugal G ∧ ∀ r, c.answers G r → Frugal G (k r)

theorem answers_of {ex : Executor χ A} {c : Cmd} {s t : St χ A} {r : c.Resp} (h : runCmd E ex c s = (.ok r, t)) :
    c.answers s.met.cur.gasForExecution.toNat r := by
  cases c with
  | transferESDT d snd tok n v ci =>
    cases r with
    | error e => trivial
    | ok g => exact transferESDT_le (E := E) h
  | _ => trivial

/-- nested calls -/
theorem nested_spent (hw : E.useWarm = false) (hfb : FrugalBuiltins E) {n : Nat} {c : Cmd} {i p : Nat} {g : UInt64} (hp : p ≤ gasCap)
    (hg : g.toNat ≤ gasCap) (hc : c.plain = false) (hf : c.frugal g.toNat) :
    Tri (Spent i p g) (runCmd E (execN E n) c) (fun _ => Spent i p g) := by
  have cap : min p gasCap = p := Nat.min_eq_left hp
  have same : ∀ {j : CallInput} {s t : St χ A} {r : Option Err}, j.vm.gasProvided.toNat ≤ g.toNat → j.vm.callType ≠ .asynchronousCallBack →
      (execN E n).same j s = (.ok r, t) → Spent i p g s → Spent i p g t := by
    intro j s t r h1 h2 h hs
    have h3 := same_here hw (Nat.le_trans h1 hg) h2 hs.1 h
    rw [cap] at h3
    exact ⟨h3, by rw [((metKept_execN (E := E) n).same _ _ _ _ h).forExecution]; exact hs.2⟩
  cases c with
  | executeOnDest j =>
    intro s r t hs h
    rcases bind_ok h with ⟨x, u, h1, h⟩ | ⟨_, h⟩ | ⟨_, h⟩
    · have h : ((Res.ok x.err : Res (Option Err)), u) = (Res.ok r, t) := h
      rw [← (Prod.mk.inj h).2]
      have h3 := dest_here hw hfb (Nat.le_trans hf.1 hg) hf.2 hs.1 h1
      rw [cap] at h3
      exact ⟨h3, by rw [((metKept_execN (E := E) n).dest _ _ _ _ h1).forExecution]; exact hs.2⟩
    · simp at h
    · simp at h
  | executeOnSame j => intro s r t hs h; exact same hf.1 hf.2 h hs
  | executeReadOnly j =>
    intro s r t hs h
    have h : (M.modify (fun s => { s with rt := { s.rt with cur := { s.rt.cur with readOnly := true } } }) >>= fun _ =>
            (execN E n).same j >>= fun r =>
            M.modify (fun s => { s with rt := { s.rt with cur := { s.rt.cur with readOnly := false } } }) >>= fun _ => pure r) s = (.ok r, t) := h
    rw [modify_bind] at h
    rcases bind_ok h with ⟨x, u, h1, h⟩ | ⟨_, h⟩ | ⟨_, h⟩
    · simp only [M.bind_eq, M.bind, M.modify, M.pure_eq, M.pure, Prod.mk.injEq] at h
      have h2 := same hf.1 hf.2 h1 ⟨hs.1.same ⟨rfl, rfl, rfl⟩, hs.2⟩
      rw [← h.2]
      exact ⟨h2.1.same ⟨rfl, rfl, rfl⟩, h2.2⟩
    · simp at h
    · simp at h
  | createContract j => exact hf.elim
  | _ => cases hc

theorem interp_spent [Inhabited A] (hw : E.useWarm = false) (hfb : FrugalBuiltins E) {n : Nat} {i p : Nat} {g : UInt64} (hp : p ≤ gasCap)
    (hg : g.toNat ≤ gasCap) {α : Type} : ∀ (q : Free χ A α), Frugal g.toNat q →
    Tri (Spent i p g) (interp E (execN E n) q) (fun _ => Spent i p g)
  | .pure _, _ => tri_pure fun _ h => h
  | .panic, _ => tri_panic
  | .ask k, hf => fun s r t hs h => interp_spent hw hfb hp hg (k s) (hf s (by
      rw [← hs.2]; exact UInt64.le_iff_toNat_le.mp (gasLeft_le s))) s r t hs h
  | .op c k, hf => fun s r t hs h => by
    rcases bind_ok h with ⟨x, u, h1, h⟩ | ⟨_, h⟩ | ⟨_, h⟩
    · have h2 := answers_of h1
      rw [hs.2] at h2
      refine interp_spent hw hfb hp hg (k x) (hf.2 x h2) u r t ?_ h
      cases hc : c.plain with
      | true => exact plain_spent hc hp _ _ _ hs h1
      | false => exact nested_spent hw hfb hp hg hc hf.1 _ _ _ hs h1
    · simp at h
    · simp at h

/-! ### The functions of the API -/

namespace Eei
variable {G : Nat}

/-- programs without calls and deployments -/
theorem frugal_of_plain {α : Type} {Q : (c : Cmd) → (c.Resp → Free χ A α) → Prop} (hQ : ∀ c k, Q c k → c.plain = true) :
    ∀ {q : Free χ A α}, Only Q q → Frugal G q
  | .pure _, _ => trivial
  | .panic, _ => trivial
  | .ask _, h => fun s _ => frugal_of_plain hQ (h s)
  | .op c k, h => by
    refine ⟨?_, fun r _ => frugal_of_plain hQ (h.2 r)⟩
    have := hQ c k h.1
    cases c <;> first | trivial | cases this

theorem frugal_useK {g : St χ A → UInt64} {k : P χ A} (h : Frugal G k) : Frugal G (useK g k) := fun _ _ => ⟨trivial, fun _ _ => h⟩
theorem frugal_faultK {e : Err} {r : Int64} : Frugal G (faultK (χ := χ) (A := A) e r) :=
  fun _ _ => ⟨trivial, fun _ _ => ⟨trivial, fun _ _ => trivial⟩⟩
theorem frugal_orFaultK {e : Option Err} {r : Int64} {k : P χ A} (h : Frugal G k) : Frugal G (orFaultK e r k) := by
  cases e with
  | some e => exact frugal_faultK
  | none => exact h
theorem frugal_loadK {off len : Int32} {ret : Int64} {k : Bytes → P χ A} (h : ∀ r, Frugal G (k r)) : Frugal G (loadK off len ret k) := by
  intro s _
  dsimp only
  split
  · split
    · exact frugal_faultK
    · exact h _
  · trivial
theorem frugal_argsEK {num lo o : Int32} {k : Except Err (List Bytes × Int32) → P χ A} (h : ∀ r, Frugal G (k r)) :
    Frugal G (argsEK num lo o k) := by
  intro s _
  dsimp only
  split
  · exact h _
  · trivial
theorem frugal_extractK {d : Int32} {v : Option Int32} {fo fl num lo o : Int32} {k : CallArgs → P χ A} (h : ∀ r, Frugal G (k r)) :
    Frugal G (extractK d v fo fl num lo o k) := by
  unfold extractK
  apply frugal_loadK
  intro dest
  have rest : ∀ value : Int, Frugal G (loadK (χ := χ) (A := A) fo fl 1 fun f =>
      argsEK num lo o fun r =>
        match r with
        | .error _ => copyK 0 (k ⟨dest, value, f, [], 0⟩)
        | .ok (args, n) => copyK (len64 n) (k ⟨dest, value, f, args, n⟩)) := by
    intro value
    apply frugal_loadK
    intro f
    apply frugal_argsEK
    intro r
    match r with
    | .error _ => exact frugal_useK (h _)
    | .ok (a, n) => exact frugal_useK (h _)
  cases v with
  | none => exact rest 0
  | some v =>
    apply frugal_loadK
    intro vb
    exact rest _

/-- no more gas is handed over than the caller has -/
theorem callInput_le {s : St χ A} (h : s.gasLeft.toNat ≤ G) (sender : Addr) (v : Int) (g : Int64) (a : CallArgs) :
    (callInput s sender v g a).vm.gasProvided.toNat ≤ G := by
  show (s.boundGasLimit g).toNat ≤ G
  unfold St.boundGasLimit
  split
  · exact h
  · rename_i h1
    have := UInt64.le_iff_toNat_le.mp (UInt64.not_lt.mp h1)
    omega

theorem frugal_exec {E : Env χ A} (kind : ExecKind) (g : Int64) (ao : Int32) (vo : Option Int32) (fo fl n lo o : Int32) :
    Frugal G (exec E kind g ao vo fo fl n lo o) := by
  refine frugal_extractK fun a => frugal_useK fun s hs => ?_
  dsimp only
  split
  · exact frugal_faultK
  · split
    · trivial
    · cases kind <;> exact ⟨⟨callInput_le hs _ _ _ _, (fun h => by cases h)⟩, fun _ _ => frugal_orFaultK trivial⟩

theorem frugal_transferValueExecute {E : Env χ A} (d v : Int32) (g : Int64) (fo fl n lo o : Int32) :
    Frugal G (transferValueExecute E d v g fo fl n lo o) := by
  refine frugal_useK (frugal_extractK fun a => frugal_useK fun s hs => ?_)
  dsimp only
  split
  · trivial
  · split
    · exact ⟨⟨callInput_le hs _ _ _ _, (fun h => by cases h)⟩, fun _ _ => trivial⟩
    · exact ⟨trivial, fun _ _ => frugal_orFaultK trivial⟩

theorem frugal_transferESDTNFTExecute {E : Env χ A} (d t l v : Int32) (nn g : Int64) (fo fl n lo o : Int32) :
    Frugal G (transferESDTNFTExecute E d t l v nn g fo fl n lo o) := by
  refine frugal_loadK fun token => frugal_extractK fun a => frugal_useK (frugal_useK fun s hs => ?_)
  refine ⟨trivial, fun r hr => ?_⟩
  cases r with
  | error e => exact frugal_faultK
  | ok gas =>
    intro s _
    dsimp only
    split
    · refine ⟨⟨hr, (fun h => by cases h)⟩, fun e _ => ?_⟩
      cases e with
      | some e => exact ⟨trivial, fun _ _ => trivial⟩
      | none => trivial
    · trivial

theorem eei_frugal {χ : Type} (E : Env χ EeiCall) (a : EeiCall) (h : .create ∉ a.powers) : Frugal G (eei E a) := by
  by_cases hc : .call ∈ a.powers ∨ .readOnly ∈ a.powers
  · cases a with
    | transferValueExecute => exact frugal_transferValueExecute _ _ _ _ _ _ _ _
    | transferESDTExecute => exact frugal_transferESDTNFTExecute _ _ _ _ _ _ _ _ _ _ _
    | transferESDTNFTExecute => exact frugal_transferESDTNFTExecute _ _ _ _ _ _ _ _ _ _ _
    | executeOnSameContext => exact frugal_exec _ _ _ _ _ _ _ _ _
    | executeOnDestContext => exact frugal_exec _ _ _ _ _ _ _ _ _
    | executeOnDestContextByCaller => exact frugal_exec _ _ _ _ _ _ _ _ _
    | delegateExecution => exact frugal_exec _ _ _ _ _ _ _ _ _
    | executeReadOnly => exact frugal_exec _ _ _ _ _ _ _ _ _
    | _ => simp [EeiCall.powers] at hc
  · refine frugal_of_plain (Q := Proper a.powers) (fun c k hq => ?_) (eei_proper E a)
    cases c with
    | executeOnDest i => exact (hc (.inl (hq.1 _ rfl))).elim
    | executeOnSame i => exact (hc (.inl (hq.1 _ rfl))).elim
    | executeReadOnly i => exact (hc (.inr (hq.1 _ rfl))).elim
    | createContract i => exact (h (hq.1 _ rfl)).elim
    | _ => rfl

end Eei

/-! ### Whole programs -/

/-- a program that deploys no contracts -/
def Prog.Keeps (Q : A → Prop) : Prog A → Prop
  | .ret => True
  | .trap => True
  | .burn _ k => k.Keeps Q
  | .call a k => Q a ∧ ∀ r, (k r).Keeps Q
  | .load _ _ k => ∀ b, (k b).Keeps Q
  | .store _ _ k => k.Keeps Q

theorem spent_modInst {i p : Nat} {g : UInt64} {f : Inst A → Inst A} {s : St χ A} (hf : (s.insts i).points ≤ (f (s.insts i)).points)
    (h : Spent i p g s) : Spent i p g (s.modInst i f) := by
  obtain ⟨⟨h1, h2, h3⟩, h4⟩ := h
  refine ⟨⟨h1, h2, ?_⟩, h4⟩
  have := UInt64.le_iff_toNat_le.mp hf
  simp only [St.modInst, if_true]
  omega

instance : Inhabited EeiCall := ⟨.getGasLeft⟩

theorem runProg_spent {χ : Type} {E : Env χ EeiCall} (hE : E.api = eei E) (hw : E.useWarm = false) (hfb : FrugalBuiltins E) {n : Nat} {i p : Nat}
    {g : UInt64} (hp : p ≤ gasCap) (hg : g.toNat ≤ gasCap) : ∀ q : Prog EeiCall, q.Keeps (fun a => .create ∉ a.powers) →
    Tri (Spent i p g) (runProg E (execN E n) i q) (fun _ => Spent i p g)
  | .ret, _ => tri_pure fun _ h => h
  | .trap, _ => tri_pure fun _ h => h
  | .burn m k, hk => by
    unfold runProg
    refine tri_get fun s hs => ?_
    dsimp only
    have h1 : Tri (fun t => t = s) (M.modify (fun t => t.modInst i (fun x => { x with points := addU64 (s.insts i).points m })))
        (fun _ => Spent i p g) := by
      intro t r u ht hu
      subst ht
      simp only [M.modify, Prod.mk.injEq] at hu
      rw [← hu.2]
      exact spent_modInst (by rw [UInt64.le_iff_toNat_le, addU64_toNat]; have := (t.insts i).points.toNat_lt; simp at this ⊢; omega) hs
    refine tri_bind h1 fun _ => tri_ite (fun _ => ?_) (fun _ => runProg_spent hE hw hfb hp hg k hk)
    exact keep_bind (keep_modify fun t ht => spent_modInst (UInt64.le_refl _) ht) fun _ => tri_pure fun s h => h
  | .call a k, hk => by
    unfold runProg
    rw [hE]
    refine tri_bind (interp_spent hw hfb hp hg _ (Eei.eei_frugal E a hk.1)) fun r => ?_
    exact tri_get' fun s => tri_ite (fun _ => tri_pure fun _ h => h) (fun _ => runProg_spent hE hw hfb hp hg (k r) (hk.2 r))
  | .load off len k, hk => by
    unfold runProg
    refine tri_get' fun s => ?_
    dsimp only
    exact tri_ite (fun _ => runProg_spent hE hw hfb hp hg _ (hk _)) (fun _ => tri_pure fun s h => h)
  | .store off bs k, hk => by
    unfold runProg
    exact tri_get' fun s => tri_ite (fun _ => keep_bind (keep_modify fun t ht => spent_modInst (UInt64.le_refl _) ht)
      fun _ => runProg_spent hE hw hfb hp hg k hk) (fun _ => tri_pure fun s h => h)

/-- what a counter says about the gas left -/
theorem gasLeft_of_spent {s t : St χ A} {i : Nat} (hi : s.rt.instance_ = some i) (h : Spent i (min (s.insts i).points.toNat gasCap) s.met.cur.gasForExecution t)
    (hg : s.met.cur.gasForExecution.toNat ≤ gasCap) : t.gasLeft ≤ s.gasLeft := by
  obtain ⟨⟨_, h2, h3⟩, h4⟩ := h
  rw [UInt64.le_iff_toNat_le]
  simp only [St.gasLeft, St.pointsUsed, hi, h2, h4, UInt64.lt_iff_toNat_lt]
  split
  · simp
  · rename_i h5
    rw [UInt64.toNat_sub_of_le _ _ (UInt64.le_iff_toNat_le.mpr (by omega))]
    split
    · simp only [UInt64.toNat_zero]; omega
    · rw [UInt64.toNat_sub_of_le _ _ (UInt64.le_iff_toNat_le.mpr (by omega))]
      omega

end Arwen
