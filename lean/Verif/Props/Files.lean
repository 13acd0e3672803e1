import Verif.Props.FilesAs
import Verif.Props.Scenario
/-!
C74: files and directories of scenarios pass exactly if the scenarios that they stand for do.
-/
namespace Arwen.Props
open Arwen.Spec Arwen.Mandos Arwen.Mock

section
variable {A : Type} {D : FileSystem} {env : GasSchedule → Env MockWorld A} {L : Lib} {n : Nat} {C : TokenCodec} {load : GasKind → Option GasSchedule}

theorem path_place (r : Resolver) (name : Bytes) : r.path D name = placeOf D r.swaps r.context name := rfl

theorem interpreter_within (r : Resolver) : r.interpreter D = within D r.swaps r.context := by
  unfold Resolver.interpreter within
  congr 2
  funext name
  unfold Resolver.value
  by_cases h : name = []
  · rw [if_pos h, if_pos (by rw [h]; rfl)]
  · rw [if_neg h, if_neg (by intro e; exact h (List.eq_nil_of_length_eq_zero e))]
    rfl

/-- what can be read at a path -/
theorem file_says (r : Resolver) (path file : Bytes) (x : JScenario) : FileSays D r.swaps path file x ↔
    D.abs path = some file ∧ ∃ content, D.read file = some content ∧ parseScenarioFile (({ r with context := file } : Resolver).interpreter D) content = .ok x := by
  simp only [interpreter_within, c73_read]
  constructor
  · rintro ⟨h, c, l, h1, h2, h3⟩; exact ⟨h, c, h1, l, h2, h3⟩
  · rintro ⟨h, c, h1, l, h2, h3⟩; exact ⟨h, c, l, h1, h2, h3⟩

/-! ### One step -/

theorem setState_exec (s : SetState) (x y : Runner A) : execSetState C s x = (.passed, y) ↔ runStep env L n C load (.setState s) x = (.passed, y) := by
  unfold execSetState runStep
  generalize setWorld C s x.st.world = q
  obtain ⟨b, w⟩ := q
  cases b with
  | true => simp
  | false =>
    dsimp only
    split <;> simp

theorem checkState_exec (c : Option JChkAccounts) (x : Runner A) : execCheckState C c x = .passed ↔
    ∃ j c', c = some j ∧ ChkAccountsAs j c' ∧ runStep env L n C load (.checkState c') x = (.passed, x) := by
  unfold execCheckState
  cases c with
  | none => simp
  | some c =>
    dsimp only
    cases hc : toCheck c with
    | none =>
      constructor
      · intro h; cases h
      · rintro ⟨j, c', e, h, -⟩
        cases e
        rw [← chkAccounts_as, hc] at h
        cases h
    | some c' =>
      dsimp only
      constructor
      · intro h
        refine ⟨c, c', rfl, (chkAccounts_as _ _).mp hc, ?_⟩
        rw [runStep]
        split at h
        · rename_i k; rw [if_pos k]
        · cases h
      · rintro ⟨j, d, e, h, k⟩
        cases e
        rw [← chkAccounts_as, hc] at h
        cases h
        rw [runStep] at k
        split
        · rfl
        · rename_i k'; rw [if_neg k'] at k; cases k

theorem file_passed (v : Verdict) : v.file = .passed ↔ v = .passed := by cases v <;> simp [Verdict.file]

theorem tx_exec (t : JTxStep) (x y : Runner A) : execTxStep env L n t x = (.passed, y) ↔
    ∃ t', TxStepAs t t' ∧ runStep env L n C load (.tx t') x = (.passed, y) := by
  unfold execTxStep
  cases ht : t.tx with
  | none =>
    constructor
    · intro h; cases h
    · rintro ⟨t', ⟨-, ⟨u, hu, -⟩, -⟩, -⟩
      rw [ht] at hu; cases hu
  | some tx =>
    dsimp only
    constructor
    · intro h
      cases hx : toTx tx with
      | none => rw [hx] at h; cases h
      | some tx' =>
        cases he : toExpect? t.expect with
        | none => rw [hx, he] at h; cases h
        | some e =>
          rw [hx, he] at h
          simp only [Prod.mk.injEq, file_passed] at h
          refine ⟨{ id := t.id, tx := tx', expect := e }, ⟨rfl, ⟨tx, ht, (tx_as _ _).mp hx⟩, (expect_both _ _).mp he⟩, ?_⟩
          rw [runStep]
          exact Prod.ext h.1 h.2
    · rintro ⟨t', ⟨h1, ⟨u, hu, h2⟩, h3⟩, h⟩
      rw [ht] at hu
      cases hu
      rw [(tx_as _ _).mpr h2, (expect_both _ _).mpr h3]
      rw [runStep] at h
      obtain ⟨i, tx', e⟩ := t'
      dsimp only at h1 h ⊢
      subst h1
      rw [h]
      rfl

/-! ### From the execution to the scenario -/

theorem runSteps_passed {s : Step} {rest : List Step} {x y z : Runner A} (h1 : runStep env L n C load s x = (.passed, y))
    (h2 : runSteps env L n C load rest y = (.passed, z)) : runSteps env L n C load (s :: rest) x = (.passed, z) := by
  rw [runSteps, h1]; exact h2

theorem steps_sound (exec : Bytes → Resolver → FileRunner A → FileVerdict × FileRunner A)
    (he : ∀ path r x y, exec path r x = (.passed, y) → ∃ sc, FileIs D r.swaps path sc ∧ runScenario env L n C load sc x.run = (.passed, y.run)) :
    ∀ (l : List JStep) (x y : FileRunner A), execSteps D env L n C exec l x = (.passed, y) →
    ∃ l', StepsAre D x.resolver.swaps x.resolver.context l l' ∧ runSteps env L n C load l' x.run = (.passed, y.run) ∧ y.resolver = x.resolver
  | [], x, y, h => by
    cases h
    exact ⟨[], .nil, by rw [runSteps], rfl⟩
  | s :: rest, x, z, h => by
    rw [execSteps] at h
    cases hs : execStep D env L n C exec s x with
    | mk v y =>
      rw [hs] at h
      cases v with
      | failed f => cases h
      | crashed => cases h
      | unknown => cases h
      | passed =>
        dsimp only at h
        obtain ⟨rest', k1, k2, k3⟩ := steps_sound exec he rest y z h
        cases s with
        | external comment name =>
          simp only [execStep] at hs
          cases hx : exec (x.resolver.path D name) x.resolver x with
          | mk v y' =>
            rw [hx] at hs
            cases v with
            | failed f => cases hs
            | crashed => cases hs
            | unknown => cases hs
            | passed =>
              cases hs
              obtain ⟨sc, ⟨file, j, f1, f2, f3, f4⟩, g1⟩ := he _ _ _ _ hx
              obtain ⟨b, gas, steps⟩ := sc
              dsimp only at f2 f3 f4 k1 k2 k3
              subst f2
              refine ⟨_, .external f1 f3 f4 k1, runSteps_passed ?_ k2, k3⟩
              rw [runStep]
              exact g1
        | setState j =>
          simp only [execStep] at hs
          cases hj : toSetState j with
          | none => rw [hj] at hs; cases hs
          | some j' =>
            rw [hj] at hs
            simp only [Prod.mk.injEq] at hs
            obtain ⟨e1, rfl⟩ := hs
            exact ⟨_, .setState ((setState_as _ _).mp hj) k1, runSteps_passed ((setState_exec _ _ _).mp (Prod.ext e1 rfl)) k2, k3⟩
        | checkState comment c =>
          simp only [execStep, Prod.mk.injEq] at hs
          obtain ⟨e1, rfl⟩ := hs
          obtain ⟨j, c', rfl, e2, e3⟩ := (checkState_exec _ _).mp e1
          exact ⟨_, .checkState e2 k1, runSteps_passed e3 k2, k3⟩
        | dumpState comment =>
          cases hs
          exact ⟨_, .dump k1, runSteps_passed (by rw [runStep]) k2, k3⟩
        | tx t =>
          simp only [execStep, Prod.mk.injEq] at hs
          obtain ⟨e1, rfl⟩ := hs
          obtain ⟨t', e2, e3⟩ := (tx_exec _ _ _).mp (Prod.ext e1 rfl)
          exact ⟨_, .tx e2 k1, runSteps_passed e3 k2, k3⟩

theorem file_sound : ∀ (fuel : Nat) (path : Bytes) (r : Resolver) (x y : FileRunner A), execFile D env L n C load fuel path r x = (.passed, y) →
    ∃ sc, FileIs D r.swaps path sc ∧ runScenario env L n C load sc x.run = (.passed, y.run)
  | 0, _, _, _, _, h => by cases h
  | fuel + 1, path, r, x, y, h => by
    rw [execFile] at h
    cases ha : D.abs path with
    | none => rw [ha] at h; cases h
    | some file =>
      rw [ha] at h
      dsimp only at h
      cases hr : D.read file with
      | none => rw [hr] at h; cases h
      | some content =>
        rw [hr] at h
        dsimp only at h
        cases hp : parseScenarioFile (({ r with context := file } : Resolver).interpreter D) content with
        | error e => rw [hp] at h; cases e <;> cases h
        | ok j =>
          rw [hp] at h
          dsimp only at h
          have hs := (file_says r path file j).mpr ⟨ha, content, hr, hp⟩
          cases he : enterScenario load j.checkGas (toGas j.gas) x.run with
          | mk b z =>
            rw [he] at h
            cases b with
            | false => cases h
            | true =>
              dsimp only at h
              obtain ⟨l, h1, h2, -⟩ := steps_sound _ (fun path r x y => file_sound fuel path r x y) _ _ _ h
              refine ⟨{ checkGas := j.checkGas, gas := toGas j.gas, steps := l }, ⟨file, j, hs, rfl, (gas_as _ _).mp rfl, h1⟩, ?_⟩
              unfold runScenario
              dsimp only
              rw [he]
              exact h2

/-! ### From the scenario to the execution -/

theorem runSteps_inv {s : Step} {rest : List Step} {x z : Runner A} (h : runSteps env L n C load (s :: rest) x = (.passed, z)) :
    ∃ y, runStep env L n C load s x = (.passed, y) ∧ runSteps env L n C load rest y = (.passed, z) := by
  rw [runSteps] at h
  cases hs : runStep env L n C load s x with
  | mk v y =>
    rw [hs] at h
    cases v with
    | passed => exact ⟨y, rfl, h⟩
    | failed f => cases h
    | unknown => cases h

theorem file_runs {r : Resolver} {path file : Bytes} {j : JScenario} (hs : FileSays D r.swaps path file j) {x : FileRunner A} {y : Runner A}
    (he : enterScenario load j.checkGas (toGas j.gas) x.run = (true, y)) (fuel : Nat) : execFile D env L n C load (fuel + 1) path r x =
      execSteps D env L n C (execFile D env L n C load fuel) j.steps { run := y, resolver := { r with context := file } } := by
  obtain ⟨h1, content, h2, h3⟩ := (file_says r path file j).mp hs
  rw [execFile, h1]
  dsimp only
  rw [h2]
  dsimp only
  rw [h3]
  dsimp only
  rw [he]

theorem scenario_entered {sc : Scenario} {x y : Runner A} (h : runScenario env L n C load sc x = (.passed, y)) :
    ∃ z, enterScenario load sc.checkGas sc.gas x = (true, z) ∧ runSteps env L n C load sc.steps z = (.passed, y) := by
  unfold runScenario at h
  cases he : enterScenario load sc.checkGas sc.gas x with
  | mk b z =>
    rw [he] at h
    cases b with
    | false => cases h
    | true => exact ⟨z, rfl, h⟩

theorem execSteps_cons {exec : Bytes → Resolver → FileRunner A → FileVerdict × FileRunner A} {s : JStep} {rest : List JStep} {x y z : FileRunner A}
    (h1 : execStep D env L n C exec s x = (.passed, y)) (h2 : execSteps D env L n C exec rest y = (.passed, z)) :
    execSteps D env L n C exec (s :: rest) x = (.passed, z) := by
  rw [execSteps, h1]; exact h2

theorem steps_complete {swaps : AMap Bytes Bytes} {file : Bytes} {l : List JStep} {l' : List Step} (h : StepsAre D swaps file l l') :
    ∀ (x y : Runner A), runSteps env L n C load l' x = (.passed, y) → ∃ fuel, ∀ more, fuel ≤ more →
      execSteps D env L n C (execFile D env L n C load more) l { run := x, resolver := ⟨file, swaps⟩ } = (.passed, { run := y, resolver := ⟨file, swaps⟩ }) := by
  induction h with
  | nil =>
    intro x y h
    rw [runSteps] at h
    cases h
    exact ⟨0, fun _ _ => rfl⟩
  | @external file comment name other j gas steps rest' rest hs hg _ _ ih1 ih2 =>
    intro x z h
    obtain ⟨y, h1, h2⟩ := runSteps_inv h
    rw [runStep] at h1
    obtain ⟨u, h3, h4⟩ := scenario_entered (sc := { checkGas := j.checkGas, gas := gas, steps := steps }) h1
    dsimp only at h3 h4
    obtain ⟨f1, k1⟩ := ih1 _ _ h4
    obtain ⟨f2, k2⟩ := ih2 _ _ h2
    refine ⟨f1 + f2 + 1, fun more hm => ?_⟩
    refine execSteps_cons ?_ (k2 more (by omega))
    obtain ⟨m, rfl⟩ : ∃ m, more = m + 1 := ⟨more - 1, by omega⟩
    simp only [execStep]
    rw [← (gas_as _ _).mpr hg] at h3
    have e := file_runs (env := env) (L := L) (n := n) (C := C) (r := ⟨file, swaps⟩) (x := { run := x, resolver := ⟨file, swaps⟩ }) hs h3 m
    rw [path_place, e, k1 m (by omega)]
  | setState hs _ ih =>
    intro x z h
    obtain ⟨y, h1, h2⟩ := runSteps_inv h
    obtain ⟨f, k⟩ := ih _ _ h2
    refine ⟨f, fun more hm => execSteps_cons ?_ (k more hm)⟩
    simp only [execStep, (setState_as _ _).mpr hs, (setState_exec _ _ _).mpr h1]
  | @checkState file comment j c rest rest' hs _ ih =>
    intro x z h
    obtain ⟨y, h1, h2⟩ := runSteps_inv h
    have hy : y = x := by rw [runStep] at h1; exact (congrArg Prod.snd h1).symm
    subst hy
    obtain ⟨f, k⟩ := ih _ _ h2
    refine ⟨f, fun more hm => execSteps_cons ?_ (k more hm)⟩
    simp only [execStep, (checkState_exec _ _).mpr ⟨_, _, rfl, hs, h1⟩]
  | tx hs _ ih =>
    intro x z h
    obtain ⟨y, h1, h2⟩ := runSteps_inv h
    obtain ⟨f, k⟩ := ih _ _ h2
    refine ⟨f, fun more hm => execSteps_cons ?_ (k more hm)⟩
    simp only [execStep, (tx_exec _ _ _).mpr ⟨_, hs, h1⟩]
  | dump _ ih =>
    intro x z h
    obtain ⟨y, h1, h2⟩ := runSteps_inv h
    rw [runStep] at h1
    cases h1
    obtain ⟨f, k⟩ := ih _ _ h2
    exact ⟨f, fun more hm => execSteps_cons rfl (k more hm)⟩

theorem file_complete {r : Resolver} {path : Bytes} {sc : Scenario} (h : FileIs D r.swaps path sc) {x : FileRunner A} {y : Runner A}
    (hp : runScenario env L n C load sc x.run = (.passed, y)) :
    ∃ fuel c, ∀ more, fuel ≤ more → execFile D env L n C load more path r x = (.passed, { run := y, resolver := c }) := by
  obtain ⟨file, j, h1, h2, h3, h4⟩ := h
  obtain ⟨u, h5, h6⟩ := scenario_entered hp
  obtain ⟨f, k⟩ := steps_complete h4 _ _ h6
  rw [h2, ← (gas_as _ _).mpr h3] at h5
  refine ⟨f + 1, ⟨file, r.swaps⟩, fun more hm => ?_⟩
  obtain ⟨m, rfl⟩ : ∃ m, more = m + 1 := ⟨more - 1, by omega⟩
  rw [file_runs h1 h5, k m (by omega)]

/-- **C74, files.** A file passes exactly if it can be read and what it says stands for a scenario that passes, and then it leaves the machine as that
scenario does. Files that it refers to are read relative to it. -/
theorem c74_file (path : Bytes) (r : Resolver) (x : FileRunner A) (y : Runner A) :
    (∃ fuel z, execFile D env L n C load fuel path r x = (.passed, z) ∧ z.run = y) ↔
    ∃ sc, FileIs D r.swaps path sc ∧ runScenario env L n C load sc x.run = (.passed, y) := by
  constructor
  · rintro ⟨fuel, z, h, rfl⟩
    exact file_sound fuel path r x z h
  · rintro ⟨sc, h, hp⟩
    obtain ⟨fuel, c, k⟩ := file_complete h hp
    exact ⟨fuel, _, k fuel (Nat.le_refl _), rfl⟩

/-! ### A file stands for one scenario -/

theorem says_one {r : Resolver} {path file file' : Bytes} {j j' : JScenario} (h : FileSays D r.swaps path file j) (h' : FileSays D r.swaps path file' j') :
    file = file' ∧ j = j' := by
  obtain ⟨h1, c, h2, h3⟩ := (file_says r _ _ _).mp h
  obtain ⟨k1, d, k2, k3⟩ := (file_says r _ _ _).mp h'
  rw [h1] at k1
  cases k1
  rw [h2] at k2
  cases k2
  rw [h3] at k3
  cases k3
  exact ⟨rfl, rfl⟩

theorem steps_one {swaps : AMap Bytes Bytes} {file : Bytes} {l : List JStep} {s : List Step} (h : StepsAre D swaps file l s) :
    ∀ {s' : List Step}, StepsAre D swaps file l s' → s = s' := by
  induction h with
  | nil => rintro _ ⟨⟩; rfl
  | external h1 h2 _ _ ih1 ih2 =>
    intro s' h
    cases h with
    | external k1 k2 k3 k4 =>
      obtain ⟨rfl, rfl⟩ := says_one (r := ⟨[], swaps⟩) h1 k1
      rw [ih1 k3, ih2 k4, ← (gas_as _ _).mpr h2, ← (gas_as _ _).mpr k2]
  | setState h1 _ ih =>
    intro s' h
    cases h with
    | setState k1 k2 =>
      have h1 := (setState_as _ _).mpr h1
      rw [(setState_as _ _).mpr k1] at h1
      cases h1
      rw [ih k2]
  | checkState h1 _ ih =>
    intro s' h
    cases h with
    | checkState k1 k2 =>
      have h1 := (chkAccounts_as _ _).mpr h1
      rw [(chkAccounts_as _ _).mpr k1] at h1
      cases h1
      rw [ih k2]
  | @tx _ x y _ _ h1 _ ih =>
    intro s' h
    cases h with
    | @tx _ _ y' _ _ k1 k2 =>
      obtain ⟨a1, ⟨t, a2, a3⟩, a4⟩ := h1
      obtain ⟨b1, ⟨t', b2, b3⟩, b4⟩ := k1
      rw [a2] at b2
      cases b2
      have c3 := (tx_as _ _).mpr a3
      rw [(tx_as _ _).mpr b3] at c3
      have c4 := (expect_both _ _).mpr a4
      rw [(expect_both _ _).mpr b4] at c4
      obtain ⟨i, t1, e1⟩ := y
      obtain ⟨i', t1', e1'⟩ := y'
      cases a1
      cases b1
      cases c3
      cases c4
      rw [ih k2]
  | dump _ ih =>
    intro s' h
    cases h with
    | dump k => rw [ih k]

/-- **C74, one meaning.** A file stands for one scenario at most. -/
theorem c74_one (swaps : AMap Bytes Bytes) (path : Bytes) (sc sc' : Scenario) (h : FileIs D swaps path sc) (h' : FileIs D swaps path sc') : sc = sc' := by
  obtain ⟨file, j, h1, h2, h3, h4⟩ := h
  obtain ⟨file', j', k1, k2, k3, k4⟩ := h'
  obtain ⟨rfl, rfl⟩ := says_one (r := ⟨[], swaps⟩) h1 k1
  have h3 := (gas_as _ _).mpr h3
  rw [(gas_as _ _).mpr k3] at h3
  obtain ⟨b, g, s⟩ := sc
  obtain ⟨b', g', s'⟩ := sc'
  dsimp only at h2 h3 h4 k2 k4
  rw [h2, k2, h3, steps_one h4 k4]

/-! ### Directories -/

mutual
theorem walk_iff (p : Bytes) : ∀ (t : DirTree) (path : Bytes), p ∈ t.walk D path ↔ Beneath D path t p
  | .leaf, path => by
    rw [DirTree.walk, List.mem_singleton]
    constructor
    · rintro rfl; exact .here
    · rintro ⟨⟩; rfl
  | .closed, path => by
    rw [DirTree.walk, List.mem_singleton]
    constructor
    · rintro rfl; exact .here
    · rintro ⟨⟩; rfl
  | .dir entries, path => by
    rw [DirTree.walk, List.mem_cons, walkEntries_iff p entries path]
    constructor
    · rintro (rfl | ⟨name, t, hm, hb⟩)
      · exact .here
      · exact .there hm hb
    · intro h
      cases h with
      | here => exact .inl rfl
      | there hm hb => exact .inr ⟨_, _, hm, hb⟩
theorem walkEntries_iff (p : Bytes) : ∀ (l : List (Bytes × DirTree)) (path : Bytes),
    p ∈ walkEntries D path l ↔ ∃ name t, (name, t) ∈ l ∧ Beneath D (D.join path name) t p
  | [], path => by simp [walkEntries]
  | e :: l, path => by
    rw [walkEntries, List.mem_append, walkEntry_iff p e path, walkEntries_iff p l path]
    constructor
    · rintro (h | ⟨name, t, hm, hb⟩)
      · exact ⟨e.1, e.2, List.mem_cons_self .., h⟩
      · exact ⟨name, t, List.mem_cons_of_mem _ hm, hb⟩
    · rintro ⟨name, t, hm, hb⟩
      rcases List.mem_cons.mp hm with rfl | hm
      · exact .inl hb
      · exact .inr ⟨name, t, hm, hb⟩
theorem walkEntry_iff (p : Bytes) : ∀ (e : Bytes × DirTree) (path : Bytes), p ∈ walkEntry D path e ↔ Beneath D (D.join path e.1) e.2 p
  | (name, t), path => by
    rw [walkEntry]
    exact walk_iff p t (D.join path name)
end

/-- **C74, what is looked at.** Every path at or below the directory is visited, and no other. -/
theorem c74_walk (tree : DirTree) (path p : Bytes) : p ∈ tree.walk D path ↔ Beneath D path tree p := walk_iff p tree path

theorem excluded_iff {general : Bytes} {excluded : List Bytes} (hg : GoodPatterns D general excluded) (p : Bytes) :
    ∃ b, isExcluded D general p excluded = some b ∧ (b = true ↔ Excluded D general excluded p) := by
  induction excluded with
  | nil => exact ⟨false, rfl, by simp [Excluded]⟩
  | cons e l ih =>
    rw [isExcluded]
    cases h : D.glob (D.join general e) p with
    | none => exact absurd h (hg e (List.mem_cons_self ..) p)
    | some b =>
      cases b with
      | true => exact ⟨true, rfl, iff_of_true rfl ⟨e, List.mem_cons_self .., h⟩⟩
      | false =>
        obtain ⟨b, h1, h2⟩ := ih (fun e he => hg e (List.mem_cons_of_mem _ he))
        refine ⟨b, h1, h2.trans ?_⟩
        constructor
        · rintro ⟨e', he, k⟩; exact ⟨e', List.mem_cons_of_mem _ he, k⟩
        · rintro ⟨e', he, k⟩
          rcases List.mem_cons.mp he with rfl | he
          · rw [h] at k; cases k
          · exact ⟨e', he, k⟩

theorem suffix_path {suffix p : Bytes} : suffix.isSuffixOf p = true ↔ ∃ start, p = start ++ suffix := by
  rw [List.isSuffixOf_iff_suffix]
  constructor
  · rintro ⟨s, h⟩; exact ⟨s, h.symm⟩
  · rintro ⟨s, h⟩; exact ⟨s, h.symm⟩

/-- one visit: nothing happens, or the file is run -/
theorem visit_cases {general suffix : Bytes} {excluded : List Bytes} (hg : GoodPatterns D general excluded) (p : Bytes) :
    (¬ IsScenarioPath D general suffix excluded p ∧ (suffix.isSuffixOf p = false ∨ suffix.isSuffixOf p = true ∧ isExcluded D general p excluded = some true)) ∨
    (IsScenarioPath D general suffix excluded p ∧ suffix.isSuffixOf p = true ∧ isExcluded D general p excluded = some false) := by
  obtain ⟨b, h1, h2⟩ := excluded_iff hg p
  cases hs : suffix.isSuffixOf p with
  | false => exact .inl ⟨(fun h => by rw [suffix_path.mpr h.1] at hs; cases hs), .inl rfl⟩
  | true =>
    cases b with
    | true => exact .inl ⟨fun h => h.2 (h2.mp rfl), .inr ⟨rfl, h1⟩⟩
    | false => exact .inr ⟨⟨suffix_path.mp hs, (fun h => by have := h2.mpr h; cases this)⟩, rfl, h1⟩

section
variable {general suffix : Bytes} {excluded : List Bytes} {r : Resolver} {fuel : Nat}

theorem failed_le : ∀ (l : List Bytes) (t t' : Tally) (x z : FileRunner A),
    execPaths D env L n C load fuel general suffix excluded r l t x = (.done t', z) → t.failed ≤ t'.failed
  | [], t, t', x, z, h => by cases h; exact Nat.le_refl _
  | p :: l, t, t', x, z, h => by
    rw [execPaths] at h
    split at h
    · split at h
      · cases h
      · have := failed_le l _ t' _ z h; exact this
      · split at h
        · have := failed_le l _ t' _ z h; exact this
        · have := failed_le l _ t' _ z h
          dsimp only at this
          omega
        · cases h
        · cases h
    · exact failed_le l _ t' _ z h

theorem paths_sound (hg : GoodPatterns D general excluded) : ∀ (l : List Bytes) (t t' : Tally) (x z : FileRunner A),
    execPaths D env L n C load fuel general suffix excluded r l t x = (.done t', z) → t'.failed = 0 →
    InTurn D r.swaps general suffix excluded env L n C load l x.run z.run
  | [], t, t', x, z, h, _ => by cases h; exact .done
  | p :: l, t, t', x, z, h, h0 => by
    rw [execPaths] at h
    rcases visit_cases (suffix := suffix) hg p with ⟨hn, hs | ⟨hs, he⟩⟩ | ⟨hr, hs, he⟩
    · rw [if_neg (by rw [hs]; decide)] at h
      exact .other hn (paths_sound hg l _ t' _ z h h0)
    · rw [if_pos hs, he] at h
      exact .other hn (paths_sound hg l _ t' _ z h h0)
    · rw [if_pos hs, he] at h
      dsimp only at h
      split at h
      · rename_i y hy
        obtain ⟨sc, h1, h2⟩ := file_sound _ _ _ _ _ hy
        exact .next hr h1 h2 (paths_sound hg l _ t' _ z h h0)
      · have := failed_le l _ t' _ z h
        dsimp only at this
        omega
      · cases h
      · cases h

theorem paths_complete (hg : GoodPatterns D general excluded) {l : List Bytes} {x z : Runner A}
    (h : InTurn D r.swaps general suffix excluded env L n C load l x z) : ∀ (t : Tally) (c : Resolver), t.failed = 0 →
    ∃ fuel, ∀ more, fuel ≤ more → ∃ t' c', t'.failed = 0 ∧
      execPaths D env L n C load more general suffix excluded r l t { run := x, resolver := c } = (.done t', { run := z, resolver := c' }) := by
  induction h with
  | done => intro t c h0; exact ⟨0, fun _ _ => ⟨t, c, h0, rfl⟩⟩
  | @other p rest x z hn _ ih =>
    intro t c h0
    rcases visit_cases (suffix := suffix) hg p with ⟨-, hs | ⟨hs, he⟩⟩ | ⟨hr, -, -⟩
    · obtain ⟨fuel, k⟩ := ih t c h0
      refine ⟨fuel, fun more hm => ?_⟩
      rw [execPaths, if_neg (by rw [hs]; decide)]
      exact k more hm
    · obtain ⟨fuel, k⟩ := ih { t with skipped := t.skipped + 1 } c h0
      refine ⟨fuel, fun more hm => ?_⟩
      rw [execPaths, if_pos hs, he]
      exact k more hm
    · exact absurd hr hn
  | @next p rest sc x y z hr hf hp _ ih =>
    intro t c h0
    rcases visit_cases (suffix := suffix) hg p with ⟨hn, -⟩ | ⟨-, hs, he⟩
    · exact absurd hr hn
    · obtain ⟨f1, c1, k1⟩ := file_complete (x := ({ run := x, resolver := c } : FileRunner A).reset) hf hp
      obtain ⟨f2, k2⟩ := ih { t with passed := t.passed + 1 } c1 h0
      refine ⟨f1 + f2, fun more hm => ?_⟩
      rw [execPaths, if_pos hs, he]
      dsimp only
      rw [k1 more (by omega)]
      exact k2 more (by omega)

/-- the counters add up -/
theorem paths_count : ∀ (l : List Bytes) (t t' : Tally) (x z : FileRunner A),
    execPaths D env L n C load fuel general suffix excluded r l t x = (.done t', z) →
    t'.passed + t'.failed + t'.skipped = t.passed + t.failed + t.skipped + (l.filter (List.isSuffixOf suffix)).length
  | [], t, t', x, z, h => by cases h; rfl
  | p :: l, t, t', x, z, h => by
    rw [execPaths] at h
    split at h
    · rename_i hs
      rw [List.filter_cons_of_pos hs, List.length_cons]
      split at h
      · cases h
      · have := paths_count l _ t' _ z h; dsimp only at this; omega
      · split at h
        · have := paths_count l _ t' _ z h; dsimp only at this; omega
        · have := paths_count l _ t' _ z h; dsimp only at this; omega
        · cases h
        · cases h
    · rename_i hs
      rw [List.filter_cons_of_neg hs]
      exact paths_count l _ t' _ z h

/-- **C74, directories.** A directory passes exactly if every path at or below it that ends with the suffix and is not excluded is that of a file that
stands for a scenario that passes, in the order in which they are visited, each with an empty world and with the machine as the one before left it. -/
theorem c74_dir (hg : GoodPatterns D general excluded) (specific : Bytes) (tree : DirTree) (x : FileRunner A) (y : Runner A) :
    (∃ fuel v z, execDir D env L n C load fuel general specific suffix excluded r tree x = (v, z) ∧ v.ok = true ∧ z.run = y) ↔
    InTurn D r.swaps general suffix excluded env L n C load (tree.walk D (D.join general specific)) x.run y := by
  constructor
  · rintro ⟨fuel, v, z, h, hv, rfl⟩
    cases v with
    | crashed => cases hv
    | unknown => cases hv
    | done t => exact paths_sound hg _ _ t _ _ h (of_decide_eq_true hv)
  · intro h
    obtain ⟨fuel, k⟩ := paths_complete hg h {} x.resolver rfl
    obtain ⟨t, c, h0, e⟩ := k fuel (Nat.le_refl _)
    exact ⟨fuel, _, _, e, decide_eq_true h0, rfl⟩

/-- **C74, numbers.** Every path with the suffix is counted once: as passed, failed or skipped. -/
theorem c74_count (specific : Bytes) (tree : DirTree) (x z : FileRunner A) (t : Tally)
    (h : execDir D env L n C load fuel general specific suffix excluded r tree x = (.done t, z)) :
    t.passed + t.failed + t.skipped = ((tree.walk D (D.join general specific)).filter (List.isSuffixOf suffix)).length := by
  have := paths_count _ _ _ _ _ h
  simpa using this

/-! ### Each file alone -/

theorem turn_alone [∀ g, BlindApi (env g)] (hw : ∀ g, (env g).useWarm = false) (hE : ∀ g, (env g).hook = MockWorld.hook L) (hL : StoringBuiltins L) (h1 : 1 ≤ n)
    (hn : ∀ g, (env g).maxInstances ≤ n) {k : GasKind} {c : UInt32 × Bytes × Option Err} {f : Runner A} (hf : Between env load k c f)
    {swaps : AMap Bytes Bytes} {l : List Bytes} {x z : Runner A} (h : InTurn D swaps general suffix excluded env L n C load l x z)
    (hx : Between env load k c x)
    (hk : ∀ p ∈ l, IsScenarioPath D general suffix excluded p → ∀ sc, FileIs D swaps p sc → sc.gas = k ∧ PlainSteps sc.steps) :
    ∀ p ∈ l, IsScenarioPath D general suffix excluded p → ∃ sc, FileIs D swaps p sc ∧ (runScenario env L n C load sc f.reset).1 = .passed := by
  induction h with
  | done => intro p hp; cases hp
  | other hr _ ih =>
    intro p hp hi
    rcases List.mem_cons.mp hp with rfl | hp
    · exact absurd hi hr
    · exact ih hx (fun p hp => hk p (List.mem_cons_of_mem _ hp)) p hp hi
  | @next q rest sc x y z hr hq hs _ ih =>
    have hs : runScenario env L n C load sc x.reset = (.passed, y) := hs
    obtain ⟨e1, e2⟩ := hk q (List.mem_cons_self ..) hr sc hq
    have hy := scenario_between (C := C) hw hE hL h1 hn hx sc e1
    rw [hs] at hy
    intro p hp hi
    rcases List.mem_cons.mp hp with rfl | hp
    · refine ⟨sc, hq, ?_⟩
      rw [← (scenario_same hw hx hf sc e1 (.inr e2)).1, hs]
    · exact ih hy (fun p hp => hk p (List.mem_cons_of_mem _ hp)) p hp hi

theorem alone_turn [∀ g, BlindApi (env g)] (hw : ∀ g, (env g).useWarm = false) (hE : ∀ g, (env g).hook = MockWorld.hook L) (hL : StoringBuiltins L) (h1 : 1 ≤ n)
    (hn : ∀ g, (env g).maxInstances ≤ n) {k : GasKind} {c : UInt32 × Bytes × Option Err} {f : Runner A} (hf : Between env load k c f)
    {swaps : AMap Bytes Bytes} : ∀ (l : List Bytes) (x : Runner A), Between env load k c x →
    (∀ p ∈ l, IsScenarioPath D general suffix excluded p → ∀ sc, FileIs D swaps p sc → sc.gas = k ∧ PlainSteps sc.steps) →
    (∀ p ∈ l, IsScenarioPath D general suffix excluded p → ∃ sc, FileIs D swaps p sc ∧ (runScenario env L n C load sc f.reset).1 = .passed) →
    ∃ z, InTurn D swaps general suffix excluded env L n C load l x z
  | [], x, _, _, _ => ⟨x, .done⟩
  | p :: rest, x, hx, hk, ha => by
    by_cases hp : IsScenarioPath D general suffix excluded p
    · obtain ⟨sc, h2, h3⟩ := ha p (List.mem_cons_self ..) hp
      obtain ⟨e1, e2⟩ := hk p (List.mem_cons_self ..) hp sc h2
      rw [← (scenario_same (C := C) hw hx hf sc e1 (.inr e2)).1] at h3
      have hy := scenario_between (C := C) hw hE hL h1 hn hx sc e1
      obtain ⟨z, hz⟩ := alone_turn hw hE hL h1 hn hf rest _ hy (fun p hp => hk p (List.mem_cons_of_mem _ hp))
        (fun p hp => ha p (List.mem_cons_of_mem _ hp))
      exact ⟨z, .next hp h2 (Prod.ext h3 rfl) hz⟩
    · obtain ⟨z, hz⟩ := alone_turn hw hE hL h1 hn hf rest x hx (fun p hp => hk p (List.mem_cons_of_mem _ hp))
        (fun p hp => ha p (List.mem_cons_of_mem _ hp))
      exact ⟨z, .other hp hz⟩

/-- **C74, each alone.** A directory passes exactly if every file at or below it that is that of a scenario passes when it is run alone by an executor that was
just made. Missing for the full property, as for C58: scenarios with different gas schedules, and deployments and upgrades. -/
theorem c74_alone_partial [∀ g, BlindApi (env g)] (hw : ∀ g, (env g).useWarm = false) (hE : ∀ g, (env g).hook = MockWorld.hook L) (hL : StoringBuiltins L) (h1 : 1 ≤ n)
    (hn : ∀ g, (env g).maxInstances ≤ n) (hg : GoodPatterns D general excluded) (specific : Bytes) (tree : DirTree) (w : MockWorld) (g : GasSchedule)
    (k : GasKind) (hk : ∀ p, Beneath D (D.join general specific) tree p → IsScenarioPath D general suffix excluded p →
      ∀ sc, FileIs D r.swaps p sc → sc.gas = k ∧ PlainSteps sc.steps) :
    (∃ fuel, (execDir D env L n C load fuel general specific suffix excluded r tree { run := freshRunner w g }).1.ok = true) ↔
    ∀ p, Beneath D (D.join general specific) tree p → IsScenarioPath D general suffix excluded p →
      ∃ fuel, (execFile D env L n C load fuel p r { run := freshRunner w.clear g }).1 = .passed := by
  have hx : Between env load k (settings w) (freshRunner w g) := ⟨idle_fresh w g, (fun h => by cases h), rfl⟩
  have file : ∀ p, (∃ fuel, (execFile D env L n C load fuel p r { run := freshRunner w.clear g }).1 = .passed) ↔
      ∃ sc, FileIs D r.swaps p sc ∧ (runScenario env L n C load sc (freshRunner w g).reset).1 = .passed := by
    intro p
    constructor
    · rintro ⟨fuel, h⟩
      obtain ⟨sc, e1, e2⟩ := (c74_file p r _ _).mp ⟨fuel, _, Prod.ext h rfl, rfl⟩
      exact ⟨sc, e1, congrArg Prod.fst e2⟩
    · rintro ⟨sc, e1, e2⟩
      obtain ⟨fuel, z, h, -⟩ := (c74_file (env := env) (L := L) (n := n) (C := C) (load := load) p r { run := freshRunner w.clear g } _).mpr
        ⟨sc, e1, Prod.ext e2 rfl⟩
      exact ⟨fuel, by rw [h]⟩
  have dir : (∃ fuel, (execDir D env L n C load fuel general specific suffix excluded r tree { run := freshRunner w g }).1.ok = true) ↔
      ∃ z, InTurn D r.swaps general suffix excluded env L n C load (tree.walk D (D.join general specific)) (freshRunner w g) z := by
    constructor
    · rintro ⟨fuel, h⟩
      exact ⟨_, (c74_dir hg specific tree { run := freshRunner w g } _).mp ⟨fuel, _, _, rfl, h, rfl⟩⟩
    · rintro ⟨z, h⟩
      obtain ⟨fuel, v, y, e, hv, -⟩ := (c74_dir hg specific tree { run := freshRunner w g } _).mpr h
      exact ⟨fuel, by rw [e]; exact hv⟩
  rw [dir]
  simp only [file, ← c74_walk] at hk ⊢
  constructor
  · rintro ⟨z, h⟩ p hp hi
    exact turn_alone hw hE hL h1 hn hx h hx hk p hp hi
  · intro h
    exact alone_turn hw hE hL h1 hn hx _ _ hx hk h

/-- **C74, what it means.** If, besides, files that include others agree with them on whether gas is checked: a directory passes exactly if every
file at or below it that is that of a scenario can be read and stands for a scenario all of whose steps pass, one after the other, from an
empty world (`Passes`). -/
theorem c74_meaning_partial [∀ g, BlindApi (env g)] (hw : ∀ g, (env g).useWarm = false) (hE : ∀ g, (env g).hook = MockWorld.hook L) (hL : StoringBuiltins L) (h1 : 1 ≤ n)
    (hn : ∀ g, (env g).maxInstances ≤ n) (hg : GoodPatterns D general excluded) (specific : Bytes) (tree : DirTree) (w : MockWorld) (g0 : GasSchedule)
    (k : GasKind) (hk : ∀ p, Beneath D (D.join general specific) tree p → IsScenarioPath D general suffix excluded p →
      ∀ sc, FileIs D r.swaps p sc → sc.gas = k ∧ PlainSteps sc.steps ∧ EvenSteps sc.checkGas sc.steps) :
    (∃ fuel, (execDir D env L n C load fuel general specific suffix excluded r tree { run := freshRunner w g0 }).1.ok = true) ↔
    ∀ p, Beneath D (D.join general specific) tree p → IsScenarioPath D general suffix excluded p →
      ∃ sc g u, FileIs D r.swaps p sc ∧ load k = some g ∧ Passes (env g) L n C sc.checkGas sc.steps (freshHost w.clear g) u := by
  rw [c74_alone_partial hw hE hL h1 hn hg specific tree w g0 k (fun p hp hi sc h => ⟨(hk p hp hi sc h).1, (hk p hp hi sc h).2.1⟩)]
  refine forall_congr' fun p => forall_congr' fun hp => forall_congr' fun hi => ?_
  constructor
  · rintro ⟨fuel, h⟩
    obtain ⟨sc, e1, e2⟩ := (c74_file p r _ _).mp ⟨fuel, _, Prod.ext h rfl, rfl⟩
    obtain ⟨e3, -, e4⟩ := hk p hp hi sc e1
    obtain ⟨g, u, e5, e6, -⟩ := (c57_partial hw sc e4 w.clear g0 _).mp e2
    exact ⟨sc, g, u, e1, by rw [← e3]; exact e5, e6⟩
  · rintro ⟨sc, g, u, e1, e5, e6⟩
    obtain ⟨e3, -, e4⟩ := hk p hp hi sc e1
    have e2 := (c57_partial (load := load) hw sc e4 w.clear g0 _).mpr ⟨g, u, by rw [e3]; exact e5, e6, rfl⟩
    obtain ⟨fuel, z, h, -⟩ := (c74_file (env := env) (L := L) (n := n) (C := C) (load := load) p r { run := freshRunner w.clear g0 } _).mpr
      ⟨sc, e1, e2⟩
    exact ⟨fuel, by rw [h]⟩

end

/-! ### What is not reported -/

/-- a directory that does not exist, or that cannot be listed, passes: errors of the walk are ignored, and then nothing is run -/
theorem c74_missing_neg (fuel : Nat) (general specific suffix : Bytes) (excluded : List Bytes) (r : Resolver) (tree : DirTree) (x : FileRunner A)
    (ht : tree = .leaf ∨ tree = .closed) (hs : suffix.isSuffixOf (D.join general specific) = false) :
    execDir D env L n C load fuel general specific suffix excluded r tree x = (.done {}, x) ∧
    (DirVerdict.done {}).ok = true := by
  refine ⟨?_, rfl⟩
  rcases ht with rfl | rfl <;> simp [execDir, DirTree.walk, execPaths, hs]

end
end Arwen.Props
