import Verif.Host.ApiPrice
import Verif.Spec.Price
import Verif.Props.ApiGas
/-
C69: the functions of the API cost what the gas schedule says, or more.
-/
namespace Arwen.Props
open Arwen Arwen.Spec Arwen.Eei
variable {χ : Type}

/-- the entry that is charged -/
def chargedEntry : EeiCall → Option ApiCost
  | .bigIntBin op .. => some op.cost
  | .bigIntUn .. => some .bigIntSub
  | .bigIntShift .. => some .bigIntSub
  | .bigIntSetInt64 .. => some .bigIntSub
  | a => ownEntry a
def chargedPrice (sch : GasSchedule) (a : EeiCall) : Nat :=
  ((chargedEntry a).map fun c => (sch.api c).toNat).getD 0 + sch.dataCopyPerByte.toNat * copiedBytes a + sch.persistPerByte.toNat * persistedBytes a

theorem charged_own {a : EeiCall} (h : ¬ Mispriced a) : chargedEntry a = ownEntry a := by
  cases a with
  | bigIntBin op d x y => cases op <;> first | rfl | exact absurd (by simp [Mispriced]) h
  | bigIntUn => exact absurd trivial h
  | bigIntShift => exact absurd trivial h
  | bigIntSetInt64 => exact absurd trivial h
  | _ => rfl

theorem len64_ge (n : Int32) : n.toNatClampNeg ≤ (len64 n).toNat := by
  unfold len64
  by_cases h : 0 ≤ n.toInt64
  · rw [Int64.toNat_toUInt64_of_le h, Int32.toNatClampNeg_toInt64]
    exact Nat.le_refl _
  · have h1 : n.toInt < 0 := by
      rw [Int64.le_iff_toInt_le, Int32.toInt_toInt64] at h
      simpa using h
    have h2 : n.toNatClampNeg = 0 := by
      rw [← Int32.toNat_toInt]
      omega
    omega

theorem _root_.Arwen.Prog.Keeps.mono {A : Type} {Q R : A → Prop} (h : ∀ a, Q a → R a) : ∀ {q : Prog A}, q.Keeps Q → q.Keeps R
  | .ret, _ => trivial
  | .trap, _ => trivial
  | .burn _ k, hq => Prog.Keeps.mono h (q := k) hq
  | .call _ _, hq => ⟨h _ hq.1, fun r => Prog.Keeps.mono h (hq.2 r)⟩
  | .load _ _ _, hq => fun b => Prog.Keeps.mono h (hq b)
  | .store _ _ k, hq => Prog.Keeps.mono h (q := k) hq

section
variable {E : Env χ EeiCall} {i p T : Nat} {g : UInt64} {sch : GasSchedule}

/-- a price for each byte -/
theorem bytes_le (x : UInt64) (n : Int32) (hT : T ≤ gasCap) (h : T ≤ p + x.toNat * n.toNatClampNeg) : T ≤ p + (mulU64 x (len64 n)).toNat := by
  rw [mulU64_toNat]
  have := Nat.mul_le_mul_left x.toNat (len64_ge n)
  unfold gasCap at hT
  omega

theorem add_le' {q : Nat} (x y : UInt64) (hT : T ≤ gasCap) (h : T ≤ p + x.toNat + q) (h2 : ∀ {p' : Nat}, T ≤ p' + q → T ≤ p' + y.toNat) :
    T ≤ p + (addU64 x y).toNat := by
  rw [addU64_toNat]
  have := h2 h
  unfold gasCap at hT
  omega

theorem pays_exec (hg : g.toNat ≤ gasCap) (hp : p ≤ gasCap) (hT : T ≤ g.toNat) (kind : ExecKind) (gl : Int64) (ao : Int32) (vo : Option Int32)
    (fo fl n lo o : Int32) (hc : T ≤ p + (sch.api kind.cost).toNat) : PaysTo i g sch T (exec E kind gl ao vo fo fl n lo o) p := by
  have hTc : T ≤ gasCap := Nat.le_trans hT hg
  refine pays_extractK hg hT hp fun a => pays_gasK (pays_done hTc (by omega) ?_)
  intro s hs
  dsimp only
  split
  · exact frugal_faultK
  · split
    · trivial
    · cases kind <;> exact ⟨⟨callInput_le hs _ _ _ _, (fun h => by cases h)⟩, fun _ _ => frugal_orFaultK trivial⟩

theorem pays_transferESDTNFTExecute (hg : g.toNat ≤ gasCap) (hp : p ≤ gasCap) (hT : T ≤ g.toNat) (d t l v : Int32) (nn gl : Int64)
    (fo fl n lo o : Int32) (hc : T ≤ p + (sch.api .transferValue).toNat) :
    PaysTo i g sch T (transferESDTNFTExecute E d t l v nn gl fo fl n lo o) p := by
  have hTc : T ≤ gasCap := Nat.le_trans hT hg
  refine pays_loadK hg hT hp fun token => pays_extractK hg hT hp fun a => pays_more hp (pays_gasK (pays_done hTc (by omega) ?_))
  intro s hs
  refine ⟨trivial, fun r hr => ?_⟩
  cases r with
  | error e => exact frugal_faultK
  | ok gas =>
    intro s _
    dsimp only
    split
    · refine ⟨⟨hr, (fun h => by cases h)⟩, fun e _ => ?_⟩
      cases e with
      | some e => exact ⟨trivial, fun _ _ => trivial⟩
      | none => trivial
    · trivial

theorem eei_pays (hg : g.toNat ≤ gasCap) (hp : p ≤ gasCap) (a : EeiCall) (ha : .create ∉ a.powers) (hT : T ≤ g.toNat)
    (hc : T ≤ p + chargedPrice sch a) : PaysTo i g sch T (eei E a) p := by
  have hTc : T ≤ gasCap := Nat.le_trans hT hg
  have hf := eei_frugal (G := g.toNat) E a ha
  have cap : ∀ n, min (p + n) gasCap ≤ gasCap := fun n => Nat.min_le_right _ _
  cases a with
  | createAsyncCall => exact pays_done hTc (by simpa [chargedPrice, chargedEntry, ownEntry, copiedBytes, persistedBytes] using hc) hf
  | setAsyncContextCallback => exact pays_done hTc (by simpa [chargedPrice, chargedEntry, ownEntry, copiedBytes, persistedBytes] using hc) hf
  | createContract => exact absurd (by simp [EeiCall.powers]) ha
  | deployFromSourceContract => exact absurd (by simp [EeiCall.powers]) ha
  | hash h d l o =>
    simp only [chargedPrice, chargedEntry, ownEntry, copiedBytes, persistedBytes, Option.map_some, Option.getD_some, Nat.mul_zero, Nat.add_zero,
      ← Nat.add_assoc] at hc
    refine pays_useK fun s hs => pays_done hTc ?_ ((hf s (by rw [← hs.1.2]; exact UInt64.le_iff_toNat_le.mp (gasLeft_le s))).2 () trivial)
    rw [hs.2]
    have : (HashFn.cost h) = hashEntry h := by cases h <;> rfl
    rw [this]
    have := add_le' (q := sch.dataCopyPerByte.toNat * l.toNatClampNeg) (sch.api (hashEntry h)) (mulU64 sch.dataCopyPerByte (len64 l)) hTc hc
      (fun h => bytes_le _ _ hTc h)
    omega
  | finish o l =>
    simp only [chargedPrice, chargedEntry, ownEntry, copiedBytes, persistedBytes, Option.map_some, Option.getD_some, Nat.mul_zero, Nat.add_zero,
      ← Nat.add_assoc] at hc
    refine pays_useK fun s hs => pays_done hTc ?_ ((hf s (by rw [← hs.1.2]; exact UInt64.le_iff_toNat_le.mp (gasLeft_le s))).2 () trivial)
    rw [hs.2]
    have := add_le' (q := sch.persistPerByte.toNat * l.toNatClampNeg) (sch.api .finish) (mulU64 sch.persistPerByte (len64 l)) hTc hc
      (fun h => bytes_le _ _ hTc h)
    omega
  | writeLog =>
    simp only [chargedPrice, chargedEntry, ownEntry, copiedBytes, persistedBytes, Option.map_some, Option.getD_some, Nat.mul_zero, Nat.add_zero] at hc
    refine pays_useK fun s hs => pays_done hTc ?_ ((hf s (by rw [← hs.1.2]; exact UInt64.le_iff_toNat_le.mp (gasLeft_le s))).2 () trivial)
    rw [hs.2, addU64_toNat]
    have : gasCap ≤ 2 ^ 64 - 1 := by unfold gasCap; omega
    omega
  | writeEventLog =>
    simp only [chargedPrice, chargedEntry, ownEntry, copiedBytes, persistedBytes, Option.map_some, Option.getD_some, Nat.mul_zero, Nat.add_zero] at hc
    refine pays_argsEK hp fun r => ?_
    match r with
    | .error e => exact pays_faultK hg hT
    | .ok (ts, n) =>
      refine pays_loadK hg hT hp fun data => pays_useK fun s hs => ?_
      rw [hs.2, addU64_toNat]
      have : gasCap ≤ 2 ^ 64 - 1 := by unfold gasCap; omega
      exact pays_done hTc (by omega) (fun s _ => ⟨trivial, fun _ _ => trivial⟩)
  | transferValue d v o l =>
    simp only [chargedPrice, chargedEntry, ownEntry, copiedBytes, persistedBytes, Option.map_some, Option.getD_some, Nat.mul_zero, Nat.add_zero,
      ← Nat.add_assoc] at hc
    refine pays_gasK (pays_ask (cap _) fun s => pays_loadK hg hT (cap _) fun dest => pays_loadK hg hT (cap _) fun v => pays_useK fun s hs => ?_)
    rw [hs.2]
    have := bytes_le _ _ hTc hc
    refine pays_done hTc (by omega) (frugal_loadK fun data => ?_)
    split
    · trivial
    · exact ⟨trivial, fun _ _ => frugal_orFaultK trivial⟩
  | transferESDT d t l v gl o l =>
    simp only [chargedPrice, chargedEntry, ownEntry, copiedBytes, persistedBytes, Option.map_some, Option.getD_some, Nat.mul_zero, Nat.add_zero,
      ← Nat.add_assoc] at hc
    refine pays_gasK (pays_useK fun s hs => ?_)
    rw [hs.2]
    have := bytes_le _ _ hTc hc
    exact pays_done hTc (by omega) trivial
  | transferESDTExecute => exact pays_transferESDTNFTExecute hg hp hT _ _ _ _ _ _ _ _ _ _ _ (by simpa [chargedPrice, chargedEntry, ownEntry, copiedBytes, persistedBytes, ExecKind.cost] using hc)
  | transferESDTNFTExecute => exact pays_transferESDTNFTExecute hg hp hT _ _ _ _ _ _ _ _ _ _ _ (by simpa [chargedPrice, chargedEntry, ownEntry, copiedBytes, persistedBytes, ExecKind.cost] using hc)
  | asyncCall d v o l =>
    simp only [chargedPrice, chargedEntry, ownEntry, copiedBytes, persistedBytes, Option.map_some, Option.getD_some, Nat.mul_zero, Nat.add_zero,
      ← Nat.add_assoc] at hc
    refine pays_gasK (pays_loadK hg hT (cap _) fun dest => pays_loadK hg hT (cap _) fun v => pays_useK fun s hs => ?_)
    rw [hs.2]
    have := bytes_le _ _ hTc hc
    refine pays_done hTc (by omega) (frugal_loadK fun data => ⟨trivial, fun e _ => ?_⟩)
    cases e with
    | none => trivial
    | some e =>
      dsimp only
      split
      · exact ⟨trivial, fun _ _ => trivial⟩
      · exact frugal_faultK
  | upgradeContract d gl v c m l n lo o =>
    simp only [chargedPrice, chargedEntry, ownEntry, copiedBytes, persistedBytes, Option.map_some, Option.getD_some, Nat.mul_zero, Nat.add_zero,
      ← Nat.add_assoc] at hc
    refine pays_gasK (pays_loadK hg hT (cap _) fun v => pays_loadK hg hT (cap _) fun code => pays_loadK hg hT (cap _) fun md =>
      pays_argsGasK hg hT (cap _) fun args => pays_loadK hg hT (cap _) fun dest => pays_useK fun s hs => ?_)
    rw [hs.2]
    have := bytes_le _ _ hTc hc
    refine pays_done hTc (by omega) ?_
    intro s _
    dsimp only
    split
    · exact ⟨trivial, fun _ _ => trivial⟩
    · exact ⟨trivial, fun _ _ => trivial⟩
  | verifyBLS k m l sg =>
    simp only [chargedPrice, chargedEntry, ownEntry, copiedBytes, persistedBytes, Option.map_some, Option.getD_some, Nat.mul_zero, Nat.add_zero,
      ← Nat.add_assoc] at hc
    refine pays_gasK (pays_loadK hg hT (cap _) fun key => pays_useK fun s hs => ?_)
    rw [hs.2]
    have := bytes_le _ _ hTc hc
    exact pays_done hTc (by omega) (frugal_loadK fun msg => frugal_loadK fun sig => trivial)
  | verifyEd25519 k m l sg =>
    simp only [chargedPrice, chargedEntry, ownEntry, copiedBytes, persistedBytes, Option.map_some, Option.getD_some, Nat.mul_zero, Nat.add_zero,
      ← Nat.add_assoc] at hc
    refine pays_gasK (pays_loadK hg hT (cap _) fun key => pays_useK fun s hs => ?_)
    rw [hs.2]
    have := bytes_le _ _ hTc hc
    exact pays_done hTc (by omega) (frugal_loadK fun msg => frugal_loadK fun sig => trivial)
  | verifySecp256k1 k kl m l sg =>
    simp only [chargedPrice, chargedEntry, ownEntry, copiedBytes, persistedBytes, Option.map_some, Option.getD_some, Nat.mul_zero, Nat.add_zero,
      ← Nat.add_assoc] at hc
    refine pays_gasK ?_
    split
    · exact pays_faultK hg hT
    · refine pays_loadK hg hT (cap _) fun key => pays_useK fun s hs => ?_
      rw [hs.2]
      have := bytes_le _ _ hTc hc
      refine pays_done hTc (by omega) (frugal_loadK fun msg => frugal_loadK fun header => ?_)
      split
      · trivial
      · exact frugal_loadK fun sig => trivial
  | executeOnSameContext => exact pays_exec hg hp hT _ _ _ _ _ _ _ _ _ (by simpa [chargedPrice, chargedEntry, ownEntry, copiedBytes, persistedBytes, ExecKind.cost] using hc)
  | executeOnDestContext => exact pays_exec hg hp hT _ _ _ _ _ _ _ _ _ (by simpa [chargedPrice, chargedEntry, ownEntry, copiedBytes, persistedBytes, ExecKind.cost] using hc)
  | executeOnDestContextByCaller => exact pays_exec hg hp hT _ _ _ _ _ _ _ _ _ (by simpa [chargedPrice, chargedEntry, ownEntry, copiedBytes, persistedBytes, ExecKind.cost] using hc)
  | delegateExecution => exact pays_exec hg hp hT _ _ _ _ _ _ _ _ _ (by simpa [chargedPrice, chargedEntry, ownEntry, copiedBytes, persistedBytes, ExecKind.cost] using hc)
  | executeReadOnly => exact pays_exec hg hp hT _ _ _ _ _ _ _ _ _ (by simpa [chargedPrice, chargedEntry, ownEntry, copiedBytes, persistedBytes, ExecKind.cost] using hc)
  | _ => exact pays_first hTc (by simpa [chargedPrice, chargedEntry, ownEntry, copiedBytes, persistedBytes] using hc) hf

/-- what a counter that shows at least `T` says about the gas left -/
theorem left_of_at {s t : St χ EeiCall} {c : Nat} (hi : s.rt.instance_ = some i) (hg : s.met.cur.gasForExecution.toNat ≤ gasCap)
    (h : At i (min (min (s.insts i).points.toNat gasCap + c) s.met.cur.gasForExecution.toNat) s.met.cur.gasForExecution sch t) :
    t.gasLeft.toNat ≤ s.gasLeft.toNat - c := by
  obtain ⟨⟨⟨_, h2, h3⟩, h4⟩, _⟩ := h
  simp only [St.gasLeft, St.pointsUsed, hi, h2, h4, UInt64.lt_iff_toNat_lt]
  split
  · simp
  · rename_i h5
    rw [UInt64.toNat_sub_of_le _ _ (UInt64.le_iff_toNat_le.mpr (by omega))]
    split
    · simp only [UInt64.toNat_zero]; omega
    · rw [UInt64.toNat_sub_of_le _ _ (UInt64.le_iff_toNat_le.mpr (by omega))]
      omega

theorem at_start {s : St χ EeiCall} (hv : Valid s) (hi : s.rt.instance_ = some i) :
    At i (min (s.insts i).points.toNat gasCap) s.met.cur.gasForExecution s.met.sched s :=
  ⟨⟨⟨hv, hi, Nat.min_le_left _ _⟩, rfl⟩, rfl⟩

theorem api_left (hw : E.useWarm = false) (hb : FrugalBuiltins E) {a : EeiCall} (ha : .create ∉ a.powers) {n c : Nat}
    {s t : St χ EeiCall} {r : Int64} (hv : Valid s) (hi : s.rt.instance_ ≠ none) (hg : s.met.cur.gasForExecution.toNat < 2 ^ 62)
    (hc : c ≤ chargedPrice s.met.sched a) (h : interp E (execN E n) (eei E a) s = (.ok r, t)) : t.gasLeft.toNat ≤ s.gasLeft.toNat - c := by
  obtain ⟨i, hi⟩ := Option.ne_none_iff_exists'.mp hi
  have hcap : s.met.cur.gasForExecution.toNat ≤ gasCap := by unfold gasCap; omega
  exact left_of_at hi hcap (interp_pays hw hb hcap _ (Nat.min_le_right _ _) (eei_pays hcap (Nat.min_le_right _ _) a ha (Nat.min_le_right _ _)
    (Nat.le_trans (Nat.min_le_left _ _) (Nat.add_le_add_left hc _))) s r t (at_start hv hi) h)

/-- **C69**: whatever function of the API a contract calls, it has at least its price less gas afterwards, or none left: the entry of the
gas schedule with its name, and the price of the bytes that it was told to copy or to keep. This does not hold of the functions that are
charged another entry (`c69_named_neg`), and of the two that deploy contracts (`c12_create_neg`). -/
theorem c69_price_partial (hw : E.useWarm = false) (hb : FrugalBuiltins E) {a : EeiCall} (ha : .create ∉ a.powers) (hm : ¬ Mispriced a) {n : Nat}
    {s t : St χ EeiCall} {r : Int64} (hv : Valid s) (hi : s.rt.instance_ ≠ none) (hg : s.met.cur.gasForExecution.toNat < 2 ^ 62)
    (h : interp E (execN E n) (eei E a) s = (.ok r, t)) : t.gasLeft.toNat ≤ s.gasLeft.toNat - price s.met.sched a :=
  api_left hw hb ha hv hi hg (by unfold chargedPrice price; rw [charged_own hm]; exact Nat.le_refl _) h

/-- the functions of the API that are not free -/
theorem charged_floor {a : EeiCall} (ha : ownEntry a ≠ none) {m : Nat} (hm : ∀ c, m ≤ (sch.api c).toNat) : m ≤ chargedPrice sch a := by
  have h : ∃ c, chargedEntry a = some c := by
    by_cases hp : Mispriced a
    · cases a <;> first | exact ⟨_, rfl⟩ | exact hp.elim
    · rw [charged_own hp]; exact Option.ne_none_iff_exists'.mp ha
  obtain ⟨c, h⟩ := h
  have := hm c
  simp only [chargedPrice, h, Option.map_some, Option.getD_some]
  omega

/-- **C69**: every function with an entry in the schedule costs at least the lowest price of the schedule. -/
theorem c69_floor (hw : E.useWarm = false) (hb : FrugalBuiltins E) {a : EeiCall} (ha : .create ∉ a.powers) (he : ownEntry a ≠ none) {m : Nat} {n : Nat}
    {s t : St χ EeiCall} {r : Int64} (hm : ∀ c, m ≤ (s.met.sched.api c).toNat) (hv : Valid s) (hi : s.rt.instance_ ≠ none)
    (hg : s.met.cur.gasForExecution.toNat < 2 ^ 62) (h : interp E (execN E n) (eei E a) s = (.ok r, t)) :
    t.gasLeft.toNat ≤ s.gasLeft.toNat - m :=
  api_left hw hb ha hv hi hg (charged_floor he hm) h

/-! ### Whole runs -/

theorem at_modInst {f : Inst EeiCall → Inst EeiCall} {s : St χ EeiCall} {q : Nat} (hs : At i p g sch s) (hf : q ≤ (f (s.insts i)).points.toNat) :
    At i q g sch (s.modInst i f) := by
  refine ⟨⟨⟨hs.1.1.1, hs.1.1.2.1, ?_⟩, hs.1.2⟩, hs.2⟩
  simpa [St.modInst] using hf

theorem runProg_pays (hE : E.api = eei E) (hw : E.useWarm = false) (hb : FrugalBuiltins E) {n : Nat} (hg : g.toNat ≤ gasCap) {pb : UInt64 → Nat} (hpb : ∀ m, pb m ≤ m.toNat)
    {pr : EeiCall → Nat} : ∀ (q : Prog EeiCall) {p : Nat} {s t : St χ EeiCall} {r : Bool}, p ≤ gasCap →
      q.Keeps (fun a => .create ∉ a.powers ∧ pr a ≤ chargedPrice sch a) → At i p g sch s → runProg E (execN E n) i q s = (.ok r, t) →
      At i (min (p + bill E (execN E n) pb pr i q s) g.toNat) g sch t
  | .ret, p, s, t, r, hp, _, hs, h => by
    have h : ((Res.ok true : Res Bool), s) = (.ok r, t) := h
    rw [← (Prod.mk.inj h).2]
    exact hs.mono (by simp only [bill]; omega)
  | .trap, p, s, t, r, hp, _, hs, h => by
    have h : ((Res.ok false : Res Bool), s) = (.ok r, t) := h
    rw [← (Prod.mk.inj h).2]
    exact hs.mono (by simp only [bill]; omega)
  | .burn m k, p, s, t, r, hp, hk, hs, h => by
    have hpt : min (p + m.toNat) gasCap ≤ (addU64 (s.insts i).points m).toNat := by
      rw [addU64_toNat]
      have := hs.1.1.2.2
      unfold gasCap
      omega
    have h1 := at_modInst (f := fun x => { x with points := addU64 (s.insts i).points m }) hs hpt
    have hm := hpb m
    simp only [runProg, M.bind_eq, M.bind, M.get, M.modify] at h
    simp only [bill]
    by_cases hl : (s.insts i).points.toNat + m.toNat > (s.insts i).limit.toNat
    · rw [if_pos hl] at h
      simp only [M.bind, M.modify, M.pure_eq, M.pure, Prod.mk.injEq] at h
      rw [if_pos hl, ← h.2]
      exact at_modInst (h1.mono (p' := min (p + (pb m + 0)) g.toNat) (by omega)) (by
        have := (h1.mono (p' := min (p + (pb m + 0)) g.toNat) (by omega)).1.1.2.2; simpa using this)
    · rw [if_neg hl] at h
      rw [if_neg hl]
      exact (runProg_pays hE hw hb hg hpb k (Nat.min_le_right _ _) hk h1 h).mono (by omega)
  | .call a k, p, s, t, r, hp, hk, hs, h => by
    unfold runProg at h
    simp only [bill]
    rcases bind_ok h with ⟨x, u, h1, h⟩ | ⟨_, h⟩ | ⟨_, h⟩
    · rw [h1]
      dsimp only
      rw [hE] at h1
      have h2 := interp_pays hw hb hg _ hp (eei_pays (T := min (p + pr a) g.toNat) hg hp a hk.1.1 (Nat.min_le_right _ _)
        (by have := hk.1.2; omega)) s x u hs h1
      rw [get_bind] at h
      by_cases hbp : (u.insts i).bp ≠ .none
      · rw [if_pos hbp] at h
        have h : ((Res.ok false : Res Bool), u) = (.ok r, t) := h
        rw [if_pos hbp, ← (Prod.mk.inj h).2]
        exact h2.mono (by omega)
      · rw [if_neg hbp] at h
        rw [if_neg hbp]
        exact (runProg_pays hE hw hb hg hpb (k x) (by omega) (hk.2 x) h2 h).mono (by omega)
    · simp at h
    · simp at h
  | .load off len k, p, s, t, r, hp, hk, hs, h => by
    unfold runProg at h
    rw [get_bind] at h
    simp only [bill]
    by_cases hl : off + len ≤ (s.insts i).mem.length
    · rw [if_pos hl] at h
      rw [if_pos hl]
      exact runProg_pays hE hw hb hg hpb _ hp (hk _) hs h
    · rw [if_neg hl] at h
      have h : ((Res.ok false : Res Bool), s) = (.ok r, t) := h
      rw [if_neg hl, ← (Prod.mk.inj h).2]
      exact hs.mono (by omega)
  | .store off bs k, p, s, t, r, hp, hk, hs, h => by
    unfold runProg at h
    rw [get_bind] at h
    simp only [bill]
    by_cases hl : off + bs.length ≤ (s.insts i).mem.length
    · rw [if_pos hl, modify_bind] at h
      rw [if_pos hl]
      exact runProg_pays hE hw hb hg hpb k hp hk (at_modInst hs hs.1.1.2.2) h
    · rw [if_neg hl] at h
      have h : ((Res.ok false : Res Bool), s) = (.ok r, t) := h
      rw [if_neg hl, ← (Prod.mk.inj h).2]
      exact hs.mono (by omega)

/-- **C69**, running contracts: a run costs at least the sum of the prices of all instructions and of all functions of the API on its way,
or uses up all gas. -/
theorem c69_run_partial (hE : E.api = eei E) (hw : E.useWarm = false) (hb : FrugalBuiltins E) {q : Prog EeiCall}
    (hq : q.Keeps fun a => .create ∉ a.powers ∧ ¬ Mispriced a) {n i : Nat} {s t : St χ EeiCall} {r : Bool} (hv : Valid s) (hi : s.rt.instance_ = some i)
    (hg : s.met.cur.gasForExecution.toNat < 2 ^ 62) (h : runProg E (execN E n) i q s = (.ok r, t)) :
    t.gasLeft.toNat ≤ s.gasLeft.toNat - bill E (execN E n) UInt64.toNat (price s.met.sched) i q s := by
  have hcap : s.met.cur.gasForExecution.toNat ≤ gasCap := by unfold gasCap; omega
  refine left_of_at hi hcap (runProg_pays hE hw hb hcap (pb := UInt64.toNat) (fun _ => Nat.le_refl _) q (Nat.min_le_right _ _) ?_ (at_start hv hi) h)
  refine Prog.Keeps.mono (fun a ha => ⟨ha.1, ?_⟩) hq
  unfold chargedPrice price
  rw [charged_own ha.2]
  exact Nat.le_refl _

/-- **C69**: with a schedule without zeros, as the host demands (C43), a run that ends with gas left has called fewer functions than it
was given gas. -/
theorem c69_count (hE : E.api = eei E) (hw : E.useWarm = false) (hb : FrugalBuiltins E) {q : Prog EeiCall}
    (hq : q.Keeps fun a => .create ∉ a.powers ∧ ownEntry a ≠ none) {n i : Nat} {s t : St χ EeiCall} {r : Bool} (hv : Valid s)
    (hi : s.rt.instance_ = some i) (hg : s.met.cur.gasForExecution.toNat < 2 ^ 62) (hm : ∀ c, 0 < s.met.sched.api c)
    (h : runProg E (execN E n) i q s = (.ok r, t)) (hl : 0 < t.gasLeft) : callCount E (execN E n) i q s < s.gasLeft.toNat := by
  have hcap : s.met.cur.gasForExecution.toNat ≤ gasCap := by unfold gasCap; omega
  have h1 := left_of_at hi hcap (runProg_pays (pb := fun _ => 0) (pr := fun _ => 1) hE hw hb hcap (fun _ => Nat.zero_le _) q (Nat.min_le_right _ _)
    (Prog.Keeps.mono (fun a ha => ⟨ha.1, charged_floor ha.2 fun c => UInt64.lt_iff_toNat_lt.mp (hm c)⟩) hq) (at_start hv hi) h)
  have := UInt64.lt_iff_toNat_lt.mp hl
  simp only [UInt64.toNat_zero] at this
  unfold callCount
  omega

end

/-! ### Examples and violations -/

section
open Fixture

/-- the call of another contract costs its price and more -/
example : (.create : Power) ∉ (EeiCall.executeOnDestContext 500 0 32 64 1 0 0 0).powers ∧ ¬ Mispriced (.executeOnDestContext 500 0 32 64 1 0 0 0) ∧
    price gasStart.met.sched (.executeOnDestContext 500 0 32 64 1 0 0 0) = 1 ∧ price gasStart.met.sched (.finish 0 20) = 21 :=
  ⟨by decide, id, by decide +kernel, by decide +kernel⟩
/-- a hash of 100 bytes -/
example : (match interp gasEnv (execN gasEnv 5) (eei gasEnv (.hash .sha256 0 60 0)) gasStart with
    | (.ok _, t) => decide (t.gasLeft.toNat = gasStart.gasLeft.toNat - price gasStart.met.sched (.hash .sha256 0 60 0) ∧
        price gasStart.met.sched (.hash .sha256 0 60 0) = 61) | _ => false) = true := by decide +kernel

/-- a program of three functions and two instructions -/
def billed : Prog EeiCall := .burn 3 <| .call .getGasLeft fun _ => .call (.int64finish 7) fun _ => .burn 4 <| .call (.finish 0 20) fun _ => .ret
example : billed.Keeps (fun a => .create ∉ a.powers ∧ ¬ Mispriced a) ∧ billed.Keeps (fun a => .create ∉ a.powers ∧ ownEntry a ≠ none) := by
  simp [billed, Prog.Keeps, EeiCall.powers, Mispriced, ownEntry]
example : bill gasEnv (execN gasEnv 5) UInt64.toNat (price gasStart.met.sched) 0 billed gasStart = 30 ∧ callCount gasEnv (execN gasEnv 5) 0 billed gasStart = 3 := by
  constructor <;> decide +kernel

/-- Calls can be added to groups of asynchronous calls for nothing, whatever the schedule says, so that their number is not bounded by the
gas (`elrondei.go` 1267-1326). (No contract
of this version can make groups of calls: see C81.) -/
theorem c69_free_neg : ∃ (E : Env World EeiCall) (n : Nat) (s t : St World EeiCall) (r : Int64), (∀ c, 0 < s.met.sched.api c) ∧ E.useWarm = false ∧ Valid s ∧
    s.rt.instance_ ≠ none ∧ interp E (execN E n) (eei E (.createAsyncCall 0 1 0 0 0 1 0 0 0 0 5)) s = (.ok r, t) ∧ t.gasLeft = s.gasLeft ∧
    s.rt.cur.asyncContextInfo.contexts.entries.length < t.rt.cur.asyncContextInfo.contexts.entries.length := by
  have h : (match interp gasEnv (execN gasEnv 5) (eei gasEnv (.createAsyncCall 0 1 0 0 0 1 0 0 0 0 5)) gasStart with
    | (.ok _, t) => decide (t.gasLeft = gasStart.gasLeft ∧
        gasStart.rt.cur.asyncContextInfo.contexts.entries.length < t.rt.cur.asyncContextInfo.contexts.entries.length) | _ => false) = true := by
    decide +kernel
  generalize hq : interp gasEnv (execN gasEnv 5) (eei gasEnv (.createAsyncCall 0 1 0 0 0 1 0 0 0 0 5)) gasStart = q at h
  obtain ⟨r, t⟩ := q
  cases r with
  | ok r =>
    have h := of_decide_eq_true h
    exact ⟨gasEnv, 5, gasStart, t, r, fun c => by cases c <;> decide, rfl, fun c hc => by cases hc; decide, by decide, hq, h.1, h.2⟩
  | _ => cases h

/-- a schedule by which additions are expensive -/
def subDearSched : GasSchedule := { gasStart.met.sched with api := fun c => if c = .bigIntAdd then 500 else 1 }
def dearStart : St World EeiCall := { gasStart with met := { gasStart.met with sched := subDearSched } }

/-- The price that the schedule names for additions is not charged: all operations but subtraction, multiplication and `TDiv` are charged as
subtractions (`bigIntOps.go` 594, 651, 669, 687, 705, 717, 757, 775, 793, 811, 829, 848). -/
theorem c69_named_neg : ∃ (E : Env World EeiCall) (n : Nat) (a : EeiCall) (s t : St World EeiCall) (r : Int64), E.useWarm = false ∧ Valid s ∧
    s.rt.instance_ ≠ none ∧ .create ∉ a.powers ∧ s.met.cur.gasForExecution.toNat < 2 ^ 62 ∧ interp E (execN E n) (eei E a) s = (.ok r, t) ∧
    price s.met.sched a = 500 ∧ t.gasLeft.toNat = s.gasLeft.toNat - 1 ∧ 500 < t.gasLeft.toNat := by
  have h : (match interp gasEnv (execN gasEnv 5) (eei gasEnv (.bigIntBin .add 0 1 2)) dearStart with
    | (.ok _, t) => decide (t.gasLeft.toNat = dearStart.gasLeft.toNat - 1 ∧ 500 < t.gasLeft.toNat) | _ => false) = true := by decide +kernel
  generalize hq : interp gasEnv (execN gasEnv 5) (eei gasEnv (.bigIntBin .add 0 1 2)) dearStart = q at h
  obtain ⟨r, t⟩ := q
  cases r with
  | ok r =>
    have h := of_decide_eq_true h
    exact ⟨gasEnv, 5, _, dearStart, t, r, rfl, fun c hc => by cases hc; decide, by decide, by decide, by decide, hq, by decide +kernel, h.1, h.2⟩
  | _ => cases h

end
end Arwen.Props
