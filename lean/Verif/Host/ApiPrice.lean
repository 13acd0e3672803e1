import Verif.Host.ApiGas
/-
Gas and the API, from below: programs that charge at least a given amount before they end.
-/
namespace Arwen
variable {χ A : Type} {E : Env χ A}

/-- what a command charges by itself -/
def Cmd.charge : Cmd → Nat
  | .useGas n => n.toNat
  | _ => 0

/-- a contract at work, under a schedule -/
def At (i p : Nat) (g : UInt64) (sch : GasSchedule) (s : St χ A) : Prop := Spent i p g s ∧ s.met.sched = sch

theorem At.mono {i p p' : Nat} {g : UInt64} {sch : GasSchedule} {s : St χ A} (h : At i p g sch s) (hp : p' ≤ p) : At i p' g sch s :=
  ⟨⟨⟨h.1.1.1, h.1.1.2.1, Nat.le_trans hp h.1.1.2.2⟩, h.1.2⟩, h.2⟩

/-- The program, started with a counter of at least `p`, ends with one of at least `T`. -/
def PaysTo (i : Nat) (g : UInt64) (sch : GasSchedule) (T : Nat) {α : Type} : Free χ A α → Nat → Prop
  | .pure _, p => T ≤ p
  | .panic, _ => True
  | .ask k, p => ∀ s, At i p g sch s → PaysTo i g sch T (k s) (min (s.insts i).points.toNat gasCap)
  | .op c k, p => c.frugal g.toNat ∧ ∀ r, c.answers g.toNat r → PaysTo i g sch T (k r) (min (p + c.charge) gasCap)

section
variable {i T : Nat} {g : UInt64} {sch : GasSchedule} {α : Type}

theorem PaysTo.mono : ∀ {q : Free χ A α} {p p' : Nat}, PaysTo i g sch T q p → p ≤ p' → PaysTo i g sch T q p'
  | .pure _, _, _, h, hp => Nat.le_trans h hp
  | .panic, _, _, _, _ => trivial
  | .ask _, _, _, h, hp => fun s hs => h s (hs.mono hp)
  | .op _ _, _, _, h, hp => ⟨h.1, fun r hr => (h.2 r hr).mono (by omega)⟩

/-- what was charged before is enough -/
theorem pays_done (hT : T ≤ gasCap) : ∀ {q : Free χ A α} {p : Nat}, T ≤ p → Frugal g.toNat q → PaysTo i g sch T q p
  | .pure _, _, hp, _ => hp
  | .panic, _, _, _ => trivial
  | .ask _, _, hp, h => fun s hs => pays_done hT (by have := hs.1.1.2.2; omega)
      (h s (by rw [← hs.1.2]; exact UInt64.le_iff_toNat_le.mp (gasLeft_le s)))
  | .op _ _, _, hp, h => ⟨h.1, fun r hr => pays_done hT (by omega) (h.2 r hr)⟩

theorem runCmd_at [Inhabited A] (hw : E.useWarm = false) (hfb : FrugalBuiltins E) {n p : Nat} (hp : p ≤ gasCap) (hg : g.toNat ≤ gasCap) {c : Cmd}
    (hc : c.frugal g.toNat) {s t : St χ A} {r : c.Resp} (hs : At i p g sch s) (h : runCmd E (execN E n) c s = (.ok r, t)) :
    At i (min (p + c.charge) gasCap) g sch t := by
  have hsched : t.met.sched = sch := by
    cases hpl : c.plain with
    | true =>
      have h' := h
      rw [← runCmd_only (ex' := Executor.halt) c hpl] at h'
      have hr : ApiRuns (E.only c) c := ⟨default, Or.inl rfl⟩
      rw [stepX_met hpl ((sim_runCmd (back := false) keepsInst_halt c hr s).ok h')]
      exact hs.2
    | false =>
      rw [← hs.2]
      have hF := frameEx_execN E n
      cases c with
      | executeOnDest j =>
        rcases bind_ok h with ⟨x, u, h1, h⟩ | ⟨_, h⟩ | ⟨_, h⟩
        · have h : ((Res.ok x.err : Res (Option Err)), u) = (Res.ok r, t) := h
          rw [← (Prod.mk.inj h).2]
          exact (hF.dest _ _ _ _ h1).sched
        · simp at h
        · simp at h
      | executeOnSame j => exact (hF.same _ _ _ _ h).sched
      | executeReadOnly j =>
        have h : (M.modify (fun s => { s with rt := { s.rt with cur := { s.rt.cur with readOnly := true } } }) >>= fun _ =>
                (execN E n).same j >>= fun r =>
                M.modify (fun s => { s with rt := { s.rt with cur := { s.rt.cur with readOnly := false } } }) >>= fun _ => pure r) s = (.ok r, t) := h
        rw [modify_bind] at h
        rcases bind_ok h with ⟨x, u, h1, h⟩ | ⟨_, h⟩ | ⟨_, h⟩
        · simp only [M.bind_eq, M.bind, M.modify, M.pure_eq, M.pure, Prod.mk.injEq] at h
          rw [← h.2]
          exact (hF.same _ _ _ _ h1).sched
        · simp at h
        · simp at h
      | createContract j => exact hc.elim
      | _ => cases hpl
  refine ⟨?_, hsched⟩
  by_cases hu : ∃ m, c = .useGas m
  · obtain ⟨m, rfl⟩ := hu
    obtain ⟨⟨h1, h2, h3⟩, h4⟩ := hs.1
    have h5 : useGas m s = (.ok r, t) := h
    rw [useGas_run s m h2] at h5
    have h6 := (Prod.mk.inj h5).2
    subst h6
    refine ⟨⟨h1, h2, ?_⟩, h4⟩
    have h7 : ((s.spend m).insts i).points = clampPoints (addU64 s.pointsUsed m) := by
      rw [St.spend]
      simp [h2]
    rw [h7, clampPoints_toNat, addU64_toNat]
    have h8 : s.pointsUsed = (s.insts i).points := by simp [St.pointsUsed, h2]
    rw [h8]
    simp only [Cmd.charge]
    unfold gasCap
    omega
  · have h0 : c.charge = 0 := by
      cases c with
      | useGas m => exact absurd ⟨m, rfl⟩ hu
      | _ => rfl
    rw [h0, Nat.add_zero, Nat.min_eq_left hp]
    cases hpl : c.plain with
    | true => exact plain_spent hpl hp _ _ _ hs.1 h
    | false => exact nested_spent hw hfb hp hg hpl hc _ _ _ hs.1 h

theorem interp_pays [Inhabited A] (hw : E.useWarm = false) (hfb : FrugalBuiltins E) {n : Nat} (hg : g.toNat ≤ gasCap) :
    ∀ (q : Free χ A α) {p : Nat}, p ≤ gasCap → PaysTo i g sch T q p →
      Tri (At i p g sch) (interp E (execN E n) q) (fun _ => At i T g sch)
  | .pure _, _, _, hq => tri_pure fun _ h => h.mono hq
  | .panic, _, _, _ => tri_panic
  | .ask k, p, hp, hq => fun s r t hs h => by
    refine interp_pays hw hfb hg (k s) (Nat.min_le_right _ _) (hq s hs) s r t ?_ h
    exact ⟨⟨⟨hs.1.1.1, hs.1.1.2.1, Nat.min_le_left _ _⟩, hs.1.2⟩, hs.2⟩
  | .op c k, p, hp, hq => fun s r t hs h => by
    rcases bind_ok h with ⟨x, u, h1, h⟩ | ⟨_, h⟩ | ⟨_, h⟩
    · have h2 := answers_of h1
      rw [hs.1.2] at h2
      exact interp_pays hw hfb hg (k x) (Nat.min_le_right _ _) (hq.2 x h2) u r t (runCmd_at hw hfb hp hg hq.1 hs h1) h
    · simp at h
    · simp at h

end

/-! ### The building blocks of the API -/

namespace Eei
variable {i T : Nat} {g : UInt64} {sch : GasSchedule} {p : Nat}

theorem pays_useK {f : St χ A → UInt64} {k : P χ A} (h : ∀ s, At i p g sch s → PaysTo i g sch T k (min (p + (f s).toNat) gasCap)) :
    PaysTo i g sch T (useK f k) p := by
  intro s hs
  refine ⟨trivial, fun r _ => (h s hs).mono ?_⟩
  have := hs.1.1.2.2
  simp only [Cmd.charge]
  omega

theorem pays_gasK {c : ApiCost} {k : P χ A} (h : PaysTo i g sch T k (min (p + (sch.api c).toNat) gasCap)) : PaysTo i g sch T (gasK c k) p :=
  pays_useK fun s hs => by rw [hs.2]; exact h

theorem pays_faultK (hg : g.toNat ≤ gasCap) (hT : T ≤ g.toNat) {e : Err} {r : Int64} : PaysTo i g sch T (faultK (χ := χ) (A := A) e r) p := by
  intro s hs
  refine ⟨trivial, fun _ _ => ⟨trivial, fun _ _ => ?_⟩⟩
  show T ≤ _
  obtain ⟨⟨_, h2, _⟩, h4⟩ := hs.1
  have h5 : s.gasLeft.toNat + (s.insts i).points.toNat ≥ g.toNat := by
    simp only [St.gasLeft, St.pointsUsed, h2, h4]
    split
    · rename_i h; have := UInt64.lt_iff_toNat_lt.mp h; omega
    · rename_i h
      have := UInt64.le_iff_toNat_le.mp (UInt64.not_lt.mp h)
      rw [UInt64.toNat_sub_of_le _ _ (UInt64.not_lt.mp h)]
      omega
  simp only [Cmd.charge]
  omega

/-- the price is charged first -/
theorem pays_first (hT : T ≤ gasCap) {c : ApiCost} {k : P χ A} (hp : T ≤ p + (sch.api c).toNat)
    (hf : Frugal g.toNat (gasK c k)) : PaysTo i g sch T (gasK c k) p :=
  pays_useK fun s hs => pays_done hT (by rw [hs.2]; omega)
    ((hf s (by rw [← hs.1.2]; exact UInt64.le_iff_toNat_le.mp (gasLeft_le s))).2 () trivial)

theorem pays_loadEK {off len : Int32} {k : Except Err Bytes → P χ A} (hp : p ≤ gasCap) (h : ∀ r, PaysTo i g sch T (k r) p) :
    PaysTo i g sch T (loadEK off len k) p := by
  intro s hs
  dsimp only
  split
  · exact (h _).mono (by have := hs.1.1.2.2; omega)
  · trivial

theorem pays_loadK (hg : g.toNat ≤ gasCap) (hT : T ≤ g.toNat) (hp : p ≤ gasCap) {off len : Int32} {ret : Int64} {k : Bytes → P χ A}
    (h : ∀ b, PaysTo i g sch T (k b) p) : PaysTo i g sch T (loadK off len ret k) p := by
  refine pays_loadEK hp fun r => ?_
  cases r with
  | error e => exact pays_faultK hg hT
  | ok b => exact h b

theorem pays_argsEK {num lo o : Int32} {k : Except Err (List Bytes × Int32) → P χ A} (hp : p ≤ gasCap) (h : ∀ r, PaysTo i g sch T (k r) p) :
    PaysTo i g sch T (argsEK num lo o k) p := by
  intro s hs
  dsimp only
  split
  · exact (h _).mono (by have := hs.1.1.2.2; omega)
  · trivial

/-- a charge that is not counted -/
theorem pays_more (hp : p ≤ gasCap) {f : St χ A → UInt64} {k : P χ A} (h : PaysTo i g sch T k p) : PaysTo i g sch T (useK f k) p :=
  pays_useK fun _ _ => h.mono (by omega)

theorem pays_argsGasK (hg : g.toNat ≤ gasCap) (hT : T ≤ g.toNat) (hp : p ≤ gasCap) {num lo o : Int32} {ret : Int64} {k : List Bytes → P χ A}
    (h : ∀ b, PaysTo i g sch T (k b) p) : PaysTo i g sch T (argsGasK num lo o ret k) p := by
  refine pays_argsEK hp fun r => ?_
  match r with
  | .error e => exact pays_more hp (pays_faultK hg hT)
  | .ok (a, n) => exact pays_more hp (h a)

theorem pays_extractK (hg : g.toNat ≤ gasCap) (hT : T ≤ g.toNat) (hp : p ≤ gasCap) {d : Int32} {v : Option Int32} {fo fl num lo o : Int32}
    {k : CallArgs → P χ A} (h : ∀ r, PaysTo i g sch T (k r) p) : PaysTo i g sch T (extractK d v fo fl num lo o k) p := by
  unfold extractK
  refine pays_loadK hg hT hp fun dest => ?_
  have rest : ∀ value : Int, PaysTo i g sch T (loadK (χ := χ) (A := A) fo fl 1 fun f =>
      argsEK num lo o fun r =>
        match r with
        | .error _ => copyK 0 (k ⟨dest, value, f, [], 0⟩)
        | .ok (args, n) => copyK (len64 n) (k ⟨dest, value, f, args, n⟩)) p := by
    intro value
    refine pays_loadK hg hT hp fun f => pays_argsEK hp fun r => ?_
    match r with
    | .error _ => exact pays_more hp (h _)
    | .ok (a, n) => exact pays_more hp (h _)
  cases v with
  | none => exact rest 0
  | some v => exact pays_loadK hg hT hp fun vb => rest _

theorem pays_ask (hp : p ≤ gasCap) {k : St χ A → P χ A} (h : ∀ s, PaysTo i g sch T (k s) p) : PaysTo i g sch T (.ask k) p :=
  fun s hs => (h s).mono (by have := hs.1.1.2.2; omega)

end Eei
end Arwen
