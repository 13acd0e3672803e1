import Verif.Props.Scenario
import Verif.Spec.TestRun
/-
C71, execution: an old test passes exactly if its transactions give the results that it lists and the final state that it describes; the tests of a file
do not depend on each other; and the scenario that a test is converted to passes exactly if the test does.
-/
namespace Arwen.Props
open Arwen Arwen.Mock Arwen.Spec

variable {A : Type} {L : Lib} {env : GasSchedule → Env MockWorld A} {n : Nat} {C : TokenCodec} {load : GasKind → Option GasSchedule}

/-! ### Tests as steps -/

/-- the outcome of a test -/
def ofVerdict : Verdict → TestVerdict
  | .passed => .passed
  | .failed f => .failed f
  | .unknown => .unknown

theorem ofVerdict_inj {a b : Verdict} (h : ofVerdict a = ofVerdict b) : a = b := by
  cases a <;> cases b <;> simp_all [ofVerdict]

theorem runSteps_append (l r : List Step) (x : Runner A) : runSteps env L n C load (l ++ r) x =
    match runSteps env L n C load l x with
    | (.passed, y) => runSteps env L n C load r y
    | q => q := by
  induction l generalizing x with
  | nil => simp only [List.nil_append, runSteps]
  | cons s l ih =>
    simp only [List.cons_append, runSteps]
    generalize runStep env L n C load s x = q
    obtain ⟨v, y⟩ := q
    cases v with
    | passed => exact ih y
    | failed f => rfl
    | unknown => rfl

theorem runTxStep_same (t : TxStep) (x : Runner A) : (runTxStep env L n t x).2 = { x with st := (runTxStep env L n t x).2.st } := by
  unfold runTxStep
  dsimp only
  split
  · rfl
  · rfl
  · split
    · rfl
    · split <;> rfl

/-- a transaction step with an expected result -/
theorem txStep_expect (id : Bytes) (tx : ScTx) (c : TxExpect) (x : Runner A) :
    runStep env L n C load (.tx { id := id, tx := tx, expect := some c }) x =
      match executeTx (env x.st.met.sched) L n id tx x.st with
      | (none, u) => (.unknown, { x with st := u })
      | (some (.error e), u) => (.failed (.tx e), { x with st := u })
      | (some (.ok o), u) => if checkResult x.checkGas c o then (.passed, { x with st := u }) else (.failed .result, { x with st := u }) := by
  simp only [runStep, runTxStep]
  generalize executeTx (env x.st.met.sched) L n id tx x.st = q
  obtain ⟨r, u⟩ := q
  match r with
  | none => rfl
  | some (.error e) => rfl
  | some (.ok o) => rfl

theorem txs_steps (txs : List ScTx) (results : List TxExpect) (i : Nat) (x : Runner A) (h : txs.length ≤ results.length) :
    ∃ v u, runSteps env L n C load (blockSteps i { txs := txs, results := results }) x = (v, { x with st := u }) ∧
      runTestTxs env L n x.checkGas i txs results x.st = (ofVerdict v, u) := by
  induction txs generalizing results i x with
  | nil => exact ⟨.passed, x.st, by simp [blockSteps, runSteps], rfl⟩
  | cons t ts ih =>
    cases results with
    | nil => simp at h
    | cons c cs =>
      have e : blockSteps i { txs := t :: ts, results := c :: cs } =
          .tx { id := Mandos.decimal i, tx := t, expect := some c } :: blockSteps (i + 1) { txs := ts, results := cs } := by
        simp [blockSteps, List.zipIdx_cons]
      rw [e]
      simp only [runSteps, txStep_expect, runTestTxs]
      generalize executeTx (env x.st.met.sched) L n (Mandos.decimal i) t x.st = q
      obtain ⟨r, u⟩ := q
      match r with
      | none => exact ⟨.unknown, u, rfl, rfl⟩
      | some (.error e) => exact ⟨.failed (.tx e), u, rfl, rfl⟩
      | some (.ok o) =>
        dsimp only
        by_cases hc : checkResult x.checkGas c o = true
        · rw [if_pos hc, if_pos hc]
          exact ih cs (i + 1) { x with st := u } (by simpa using h)
        · rw [if_neg hc, if_neg hc]
          exact ⟨.failed .result, u, rfl, rfl⟩

theorem blocks_steps (bs : List TestBlock) (first : Nat) (x : Runner A) (h : ∀ b ∈ bs, b.txs.length ≤ b.results.length) :
    ∃ v u, runSteps env L n C load (bs.flatMap (blockSteps first)) x = (v, { x with st := u }) ∧
      runTestBlocks env L n x.checkGas first bs x.st = (ofVerdict v, u) := by
  induction bs generalizing x with
  | nil => exact ⟨.passed, x.st, by simp [runSteps], rfl⟩
  | cons b bs ih =>
    obtain ⟨v, u, h1, h2⟩ := txs_steps (env := env) (L := L) (n := n) (C := C) (load := load) b.txs b.results first x (h b (List.mem_cons_self ..))
    rw [List.flatMap_cons, runSteps_append, h1]
    simp only [runTestBlocks, h2]
    cases v with
    | passed => exact ih { x with st := u } (fun b hb => h b (List.mem_cons_of_mem _ hb))
    | failed f => exact ⟨.failed f, u, rfl, rfl⟩
    | unknown => exact ⟨.unknown, u, rfl, rfl⟩

/-! ### The accounts of a test -/

theorem foldl_hashes (C : TokenCodec) (l : List AccountInit) (w : MockWorld) (h : List Bytes) :
    l.foldl (withAccount C) { w with blockhashes := h } =
    { l.foldl (withAccount C) w with blockhashes := h } := by
  induction l generalizing w with
  | nil => rfl
  | cons a l ih =>
    simp only [List.foldl_cons]
    exact ih (withAccount C w a)

theorem putAccounts_eq (C : TokenCodec) (l : List AccountInit) (w : MockWorld) (h : ∀ a ∈ l, a.address.length = 32) :
    putAccounts C l w = (true, l.foldl (withAccount C) w) := by
  induction l generalizing w with
  | nil => rfl
  | cons a l ih =>
    have ha := h a (List.mem_cons_self ..)
    simp only [putAccounts, List.foldl_cons]
    rw [if_neg (by simp [ha])]
    exact ih _ (fun b hb => h b (List.mem_cons_of_mem _ hb))

theorem putAccounts_false (C : TokenCodec) (l : List AccountInit) (w : MockWorld) (h : ¬ ∀ a ∈ l, a.address.length = 32) :
    ∃ v, putAccounts C l w = (false, v) := by
  induction l generalizing w with
  | nil => exact absurd (by simp) h
  | cons a l ih =>
    unfold putAccounts
    by_cases ha : a.address.length = 32
    · rw [if_neg (by simp [ha])]
      refine ih _ (fun hl => h ?_)
      intro b hb
      rcases List.mem_cons.1 hb with rfl | hb
      · exact ha
      · exact hl b hb
    · rw [if_pos ha]
      exact ⟨w, rfl⟩

theorem putAccounts_test (C : TokenCodec) (t : Test) (w : MockWorld) (h : ∀ a ∈ t.pre, a.address.length = 32) :
    putAccounts C t.pre { w.clear with blockhashes := t.blockhashes } = (true, testWorld C t w) := by
  rw [putAccounts_eq C t.pre _ h, foldl_hashes]
  rfl

theorem foldl_settings (C : TokenCodec) (l : List AccountInit) (w : MockWorld) :
    settings (l.foldl (withAccount C) w) = settings w := by
  induction l generalizing w with
  | nil => rfl
  | cons a l ih => rw [List.foldl_cons, ih]; rfl

theorem testWorld_settings (C : TokenCodec) (t : Test) (w : MockWorld) : settings (testWorld C t w) = settings w :=
  (foldl_settings C t.pre w.clear).trans rfl

theorem testWorld_same (C : TokenCodec) (t : Test) {w v : MockWorld} (h : settings w = settings v) : testWorld C t w = testWorld C t v := by
  unfold testWorld
  rw [clear_same h]

/-- the executor in which the transactions of a test run -/
def testRunner (C : TokenCodec) (t : Test) (s : St MockWorld A) : Runner A :=
  { st := { s with world := testWorld C t s.world }, checkGas := t.checkGas, loaded := true }

theorem test_steps (first : Nat) (t : Test) (s : St MockWorld A) (hp : ∀ a ∈ t.pre, a.address.length = 32) (hr : Resulting t) {c : CheckAccounts}
    (hc : t.post = some c) : ∃ v u, runSteps env L n C load (testSteps first t c) (testRunner C t s) = (v, { testRunner C t s with st := u }) ∧
      runTestFrom env L n C first t s = (ofVerdict v, u) := by
  obtain ⟨v, u, h1, h2⟩ := blocks_steps (env := env) (L := L) (n := n) (C := C) (load := load) t.blocks first (testRunner C t s) hr
  have h2 : runTestBlocks env L n t.checkGas first t.blocks { s with world := testWorld C t s.world } = (ofVerdict v, u) := h2
  unfold testSteps runTestFrom
  rw [runSteps_append, h1, putAccounts_test C t s.world hp]
  dsimp only
  rw [h2]
  cases v with
  | passed =>
    simp only [ofVerdict, hc, runSteps, runStep]
    by_cases hk : checkState C c u.world = true
    · simp only [hk, if_true]
      exact ⟨_, _, rfl, rfl⟩
    · simp only [hk]
      exact ⟨_, _, rfl, rfl⟩
  | failed f => exact ⟨_, _, rfl, rfl⟩
  | unknown => exact ⟨_, _, rfl, rfl⟩

/-- a transaction without a result is not passed -/
theorem txs_short (checkGas : Bool) (txs : List ScTx) (results : List TxExpect) (i : Nat) (s u : St MockWorld A)
    (h : runTestTxs env L n checkGas i txs results s = (.passed, u)) : txs.length ≤ results.length := by
  induction txs generalizing results i s with
  | nil => exact Nat.zero_le _
  | cons t ts ih =>
    unfold runTestTxs at h
    generalize executeTx (env s.met.sched) L n (Mandos.decimal i) t s = q at h
    obtain ⟨r, v⟩ := q
    match r with
    | none => cases h
    | some (.error e) => cases h
    | some (.ok o) =>
      cases results with
      | nil => cases h
      | cons c cs =>
        dsimp only at h
        split at h
        · simpa using ih cs (i + 1) v h
        · cases h

theorem blocks_short (checkGas : Bool) (bs : List TestBlock) (first : Nat) (s u : St MockWorld A)
    (h : runTestBlocks env L n checkGas first bs s = (.passed, u)) : ∀ b ∈ bs, b.txs.length ≤ b.results.length := by
  induction bs generalizing s with
  | nil => intro b hb; cases hb
  | cons b bs ih =>
    unfold runTestBlocks at h
    have k := txs_short (env := env) (L := L) (n := n) checkGas b.txs b.results first s
    generalize runTestTxs env L n checkGas first b.txs b.results s = q at h k
    obtain ⟨v, y⟩ := q
    cases v with
    | passed =>
      intro b' hb
      rcases List.mem_cons.1 hb with rfl | hb
      · exact k y rfl
      · exact ih y h b' hb
    | failed f => cases h
    | panicked => cases h
    | unknown => cases h

/-- a test that passes has complete accounts, results and a final state -/
theorem passed_complete {first : Nat} {t : Test} {s u : St MockWorld A} (h : runTestFrom env L n C first t s = (.passed, u)) :
    (∀ a ∈ t.pre, a.address.length = 32) ∧ Resulting t ∧ ∃ c, t.post = some c := by
  unfold runTestFrom at h
  by_cases hp : ∀ a ∈ t.pre, a.address.length = 32
  · rw [putAccounts_test C t s.world hp] at h
    dsimp only at h
    have k := blocks_short (env := env) (L := L) (n := n) t.checkGas t.blocks first { s with world := testWorld C t s.world }
    generalize runTestBlocks env L n t.checkGas first t.blocks { s with world := testWorld C t s.world } = q at h k
    obtain ⟨v, y⟩ := q
    cases v with
    | passed =>
      refine ⟨hp, k y rfl, ?_⟩
      cases hc : t.post with
      | none => rw [hc] at h; cases h
      | some c => exact ⟨c, rfl⟩
    | failed f => cases h
    | panicked => cases h
    | unknown => cases h
  · obtain ⟨v, e⟩ := putAccounts_false C t.pre { s.world.clear with blockhashes := t.blockhashes } hp
    rw [e] at h
    cases h

theorem even_block (b : Bool) (first : Nat) (x : TestBlock) : ∀ s ∈ blockSteps first x, EvenStep b s := by
  intro s hs
  obtain ⟨p, _, rfl⟩ := List.mem_map.1 hs
  exact trivial

theorem evenSteps_of {b : Bool} {l : List Step} (h : ∀ s ∈ l, EvenStep b s) : EvenSteps b l := by
  induction l with
  | nil => exact trivial
  | cons s l ih => exact ⟨h s (List.mem_cons_self ..), ih (fun s hs => h s (List.mem_cons_of_mem _ hs))⟩

theorem even_test (b : Bool) (first : Nat) (t : Test) (c : CheckAccounts) : EvenSteps b (testSteps first t c) := by
  refine evenSteps_of (fun s hs => ?_)
  rcases List.mem_append.1 hs with hs | hs
  · obtain ⟨x, _, hx⟩ := List.mem_flatMap.1 hs
    exact even_block b first x s hx
  · rw [List.mem_singleton.1 hs]
    exact trivial

theorem ready_test {t : Test} {s : St MockWorld A} (h : Idle (env s.met.sched) s) : Ready env s.met.sched (testRunner C t s) :=
  ⟨rfl, rfl, idle_world h _⟩

theorem test_iff (hw : ∀ g, (env g).useWarm = false) (first : Nat) (t : Test) (s u : St MockWorld A) (hs : Idle (env s.met.sched) s) :
    runTestFrom env L n C first t s = (.passed, u) ↔ (∀ a ∈ t.pre, a.address.length = 32) ∧ Resulting t ∧ ∃ c, t.post = some c ∧
      Passes (env s.met.sched) L n C t.checkGas (testSteps first t c) { s with world := testWorld C t s.world } u := by
  have load : GasKind → Option GasSchedule := fun _ => none
  constructor
  · intro h
    obtain ⟨h1, h2, c, h3⟩ := passed_complete h
    refine ⟨h1, h2, c, h3, ?_⟩
    obtain ⟨v, u', k1, k2⟩ := test_steps (env := env) (L := L) (n := n) (C := C) (load := load) first t s h1 h2 h3
    rw [h] at k2
    cases v with
    | passed =>
      cases k2
      obtain ⟨u', k3, k4⟩ := (steps_iff hw (testSteps first t c) (ready_test hs) (even_test _ first t c) _).mp k1
      have e : u = u' := congrArg Runner.st k4
      subst e
      exact k3
    | failed f => cases k2
    | unknown => cases k2
  · rintro ⟨h1, h2, c, h3, h4⟩
    obtain ⟨v, u', k1, k2⟩ := test_steps (env := env) (L := L) (n := n) (C := C) (load := load) first t s h1 h2 h3
    have k3 := (steps_iff (load := load) hw (testSteps first t c) (ready_test hs) (even_test _ first t c) { testRunner C t s with st := u }).mpr ⟨u, h4, rfl⟩
    rw [k3] at k1
    cases k1
    exact k2

/-- **C71, tests.** A test in the old format passes, on a virtual machine that is between transactions, exactly if the addresses of its accounts have
32 bytes, there are a result for each transaction and a final state, and, starting from a world with nothing but its accounts and block hashes, the
transactions, named by their numbers in their blocks, give the results one after the other and end in the final state. All that matters of the
executor is its gas schedule and the settings that are kept by a reset. -/
theorem c71_test (hw : ∀ g, (env g).useWarm = false) (t : Test) (s u : St MockWorld A) (hs : Idle (env s.met.sched) s) :
    runTest env L n C t s = (.passed, u) ↔ (∀ a ∈ t.pre, a.address.length = 32) ∧ Resulting t ∧ ∃ c, t.post = some c ∧
      Passes (env s.met.sched) L n C t.checkGas (testSteps 0 t c) { s with world := testWorld C t s.world } u :=
  test_iff hw 0 t s u hs

/-! ### Files -/

theorem plainSteps_of {l : List Step} (h : ∀ s ∈ l, PlainStep s) : PlainSteps l := by
  induction l with
  | nil => exact trivial
  | cons s l ih => exact ⟨h s (List.mem_cons_self ..), ih (fun s hs => h s (List.mem_cons_of_mem _ hs))⟩

theorem plain_test {t : Test} (h : PlainTest t) (first : Nat) (c : CheckAccounts) : PlainSteps (testSteps first t c) := by
  refine plainSteps_of (fun s hs => ?_)
  rcases List.mem_append.1 hs with hs | hs
  · obtain ⟨x, hx, hx'⟩ := List.mem_flatMap.1 hs
    obtain ⟨p, hp, rfl⟩ := List.mem_map.1 hx'
    have := List.mem_zipIdx hp
    have hm : p.1 ∈ x.txs.zip x.results := by
      have := List.mem_of_getElem (l := x.txs.zip x.results) (i := p.2 - first) (a := p.1) (h := by omega) this.2.2.symm
      exact this
    exact h x hx p.1.1 (List.of_mem_zip hm).1
  · rw [List.mem_singleton.1 hs]
    exact trivial

/-- a virtual machine between transactions, with this schedule and these settings -/
structure Resting (env : GasSchedule → Env MockWorld A) (g : GasSchedule) (c : UInt32 × Bytes × Option Err) (s : St MockWorld A) : Prop where
  sched : s.met.sched = g
  idle : Idle (env g) s
  settings : settings s.world = c

/-- the verdict is the same -/
theorem test_same [∀ g, BlindApi (env g)] (hw : ∀ g, (env g).useWarm = false) {g : GasSchedule} {c : UInt32 × Bytes × Option Err} {s s' : St MockWorld A}
    (hs : Resting env g c s) (hs' : Resting env g c s') (t : Test) (hp : PlainTest t) :
    (∃ u, runTest env L n C t s = (.passed, u)) ↔ ∃ u, runTest env L n C t s' = (.passed, u) := by
  have load : GasKind → Option GasSchedule := fun _ => none
  have key : ∀ {s s' : St MockWorld A}, Resting env g c s → Resting env g c s' → (∃ u, runTest env L n C t s = (.passed, u)) →
      ∃ u, runTest env L n C t s' = (.passed, u) := by
    rintro s s' hs hs' ⟨u, h⟩
    obtain ⟨h1, h2, k, h3⟩ := passed_complete h
    obtain ⟨v, u1, a1, a2⟩ := test_steps (env := env) (L := L) (n := n) (C := C) (load := load) 0 t s h1 h2 h3
    obtain ⟨v', u2, b1, b2⟩ := test_steps (env := env) (L := L) (n := n) (C := C) (load := load) 0 t s' h1 h2 h3
    have hl : Ready env g (testRunner C t s) := by
      have := ready_test (env := env) (C := C) (t := t) (s := s) (by rw [hs.sched]; exact hs.idle)
      rw [hs.sched] at this
      exact this
    have hr : Ready env g (testRunner C t s') := by
      have := ready_test (env := env) (C := C) (t := t) (s := s') (by rw [hs'.sched]; exact hs'.idle)
      rw [hs'.sched] at this
      exact this
    have tw := steps_twins (L := L) (n := n) (C := C) (load := load) hw (testSteps 0 t k) (x := testRunner C t s) (y := testRunner C t s')
      ⟨hl, hr, testWorld_same C t (hs.settings.trans hs'.settings.symm), rfl⟩ (.inr (plain_test hp 0 k))
    have e : v = v' := by
      have := tw.verdict
      rw [a1, b1] at this
      exact this
    subst e
    have h : runTestFrom env L n C 0 t s = (.passed, u) := h
    rw [h] at a2
    cases v with
    | passed => exact ⟨u2, b2⟩
    | failed f => cases a2
    | unknown => cases a2
  exact ⟨key hs hs', key hs' hs⟩

theorem test_rests (hw : ∀ g, (env g).useWarm = false) (hE : ∀ g, (env g).hook = MockWorld.hook L) (hL : StoringBuiltins L) {g : GasSchedule}
    {c : UInt32 × Bytes × Option Err} {s u : St MockWorld A} (hs : Resting env g c s) {t : Test} (h : runTest env L n C t s = (.passed, u)) :
    Resting env g c u := by
  have load : GasKind → Option GasSchedule := fun _ => none
  obtain ⟨h1, h2, k, h3⟩ := passed_complete h
  obtain ⟨v, u1, a1, a2⟩ := test_steps (env := env) (L := L) (n := n) (C := C) (load := load) 0 t s h1 h2 h3
  have h : runTestFrom env L n C 0 t s = (.passed, u) := h
  rw [h] at a2
  have hl : Ready env g (testRunner C t s) := by
    have := ready_test (env := env) (C := C) (t := t) (s := s) (by rw [hs.sched]; exact hs.idle)
    rw [hs.sched] at this
    exact this
  cases v with
  | passed =>
    cases a2
    have hsd : Sound (runSteps env L n C load (testSteps 0 t k) (testRunner C t s)).1 := by rw [a1]; exact sound_passed
    have k1 := steps_ready hw (testSteps 0 t k) hl hsd
    have k2 := steps_settings hw hE hL (testSteps 0 t k) hl hsd
    rw [a1] at k1 k2
    exact ⟨k1.sched, k1.idle, k2.trans ((testWorld_settings C t s.world).trans hs.settings)⟩
  | failed f => cases a2
  | unknown => cases a2

theorem file_iff [∀ g, BlindApi (env g)] (hw : ∀ g, (env g).useWarm = false) (hE : ∀ g, (env g).hook = MockWorld.hook L) (hL : StoringBuiltins L) {g : GasSchedule}
    {c : UInt32 × Bytes × Option Err} {s' : St MockWorld A} (hs' : Resting env g c s') (l : List Test) (hp : ∀ t ∈ l, PlainTest t)
    {s : St MockWorld A} (hs : Resting env g c s) :
    (∃ u, runTestFile env L n C l s = (.passed, u)) ↔ ∀ t ∈ l, ∃ u, runTest env L n C t s' = (.passed, u) := by
  induction l generalizing s with
  | nil =>
    constructor
    · intro _ t ht; cases ht
    · intro _; exact ⟨s, rfl⟩
  | cons t l ih =>
    have h1 := test_same (L := L) (n := n) (C := C) hw hs hs' t (hp t (List.mem_cons_self ..))
    have h2 := fun u => test_rests (n := n) (C := C) hw hE hL hs (t := t) (u := u)
    have ih := fun u (h : Resting env g c u) => ih (fun t ht => hp t (List.mem_cons_of_mem _ ht)) (s := u) h
    unfold runTestFile
    simp only [List.mem_cons, forall_eq_or_imp]
    rw [← h1]
    generalize runTest env L n C t s = q at h2
    obtain ⟨v, u⟩ := q
    cases v with
    | passed =>
      dsimp only
      rw [ih u (h2 u rfl)]
      exact ⟨fun h => ⟨⟨u, rfl⟩, h⟩, fun h => h.2⟩
    | failed f =>
      constructor
      · rintro ⟨u, h⟩; cases h
      · rintro ⟨⟨u, h⟩, _⟩; cases h
    | panicked =>
      constructor
      · rintro ⟨u, h⟩; cases h
      · rintro ⟨⟨u, h⟩, _⟩; cases h
    | unknown =>
      constructor
      · rintro ⟨u, h⟩; cases h
      · rintro ⟨⟨u, h⟩, _⟩; cases h

/-- **C71, files of tests.** A file with tests that neither deploy nor upgrade contracts passes exactly if each of its tests passes alone, on a
virtual machine that was just made. Missing for the full property: deployments and upgrades, which depend on the code that was loaded last. -/
theorem c71_file_partial [∀ g, BlindApi (env g)] (hw : ∀ g, (env g).useWarm = false) (hE : ∀ g, (env g).hook = MockWorld.hook L) (hL : StoringBuiltins L) (w : MockWorld)
    (g : GasSchedule) (l : List Test) (hp : ∀ t ∈ l, PlainTest t) :
    (∃ u, runTestFile env L n C l (freshHost w g) = (.passed, u)) ↔ ∀ t ∈ l, ∃ u, runTest env L n C t (freshHost w g) = (.passed, u) :=
  file_iff (c := settings w) hw hE hL ⟨rfl, idle_fresh w g, rfl⟩ l hp ⟨rfl, idle_fresh w g, rfl⟩

/-! ### Conversion -/

theorem testTxSteps_eq (first : Nat) (b : TestBlock) : testTxSteps first b.txs b.results = blockSteps first b := by
  obtain ⟨ts, cs⟩ := b
  show testTxSteps first ts cs = ((ts.zip cs).zipIdx first).map _
  induction ts generalizing first cs with
  | nil => simp [testTxSteps]
  | cons t ts ih =>
    cases cs with
    | nil => simp [testTxSteps]
    | cons c cs =>
      rw [testTxSteps, ih]
      simp [List.zipIdx_cons]

theorem toScenario_ok {t : Test} {sc : Scenario} (h : t.toScenario = some sc) : ∃ c, t.post = some c ∧ Resulting t ∧
    sc = { checkGas := t.checkGas, steps := .setState { accounts := t.pre, blockhashes := t.blockhashes } :: testSteps 1 t c } := by
  unfold Test.toScenario at h
  split at h
  · rename_i b c hb hc
    split at h
    · rename_i hl
      cases h
      refine ⟨c, hc, ?_, ?_⟩
      · intro x hx
        rw [hb, List.mem_singleton] at hx
        subst hx
        exact Nat.le_of_eq hl
      · unfold testSteps
        rw [hb, testTxSteps_eq]
        simp
    · cases h
  · cases h

theorem worldSet_test (C : TokenCodec) (t : Test) (w : MockWorld) :
    worldSet C { accounts := t.pre, blockhashes := t.blockhashes } w.clear = testWorld C t w := by
  have h : ∀ (l : List AccountInit) (v : MockWorld), v.previous = none → v.current = none →
      (l.foldl (withAccount C) v).previous = none ∧
      (l.foldl (withAccount C) v).current = none := by
    intro l
    induction l with
    | nil => intro v h1 h2; exact ⟨h1, h2⟩
    | cons a l ih => intro v h1 h2; exact ih _ h1 h2
  obtain ⟨h1, h2⟩ := h t.pre w.clear rfl rfl
  have e : worldSet C { accounts := t.pre, blockhashes := t.blockhashes } w.clear =
      { t.pre.foldl (withAccount C) w.clear with previous := none, current := none, blockhashes := t.blockhashes,
                                                  addressMocks := (t.pre.foldl (withAccount C) w.clear).addressMocks ++ [] } := rfl
  rw [e]
  unfold testWorld
  generalize t.pre.foldl (withAccount C) w.clear = v at h1 h2
  cases v
  simp only at h1 h2
  rw [h1, h2]
  simp only [List.append_nil]

/-- **C71, conversion.** The scenario that a test is converted to passes, on an executor with the same gas schedule, exactly if its accounts could be
set by a scenario and the test passes when its transactions are counted from one; and it leaves the same state. -/
theorem c71_converted (hw : ∀ g, (env g).useWarm = false) (t : Test) (sc : Scenario) (hc : t.toScenario = some sc) (x : Runner A)
    (hx : Idle (env x.st.met.sched) x.st) (hl : x.loaded = true ∨ load .default = some x.st.met.sched) (u : St MockWorld A) :
    (∃ y, runScenario env L n C load sc x.reset = (.passed, y) ∧ y.st = u) ↔
      (∀ a ∈ t.pre, Settable a) ∧ runTestFrom env L n C 1 t x.st = (.passed, u) := by
  obtain ⟨c, h1, h2, rfl⟩ := toScenario_ok hc
  have he : enterScenario load t.checkGas .default x.reset = (true, { st := x.reset.st, checkGas := t.checkGas, loaded := true }) := by
    by_cases hlo : x.loaded = true
    · rw [enter_loaded (x := x.reset) hlo]
      obtain ⟨xs, xc, xl⟩ := x
      cases hlo
      rfl
    · rcases hl with e | e
      · exact absurd e hlo
      · have hf : x.reset.loaded = false := Bool.eq_false_iff.mpr hlo
        unfold enterScenario
        simp only [hf, e]
        rfl
  unfold runScenario
  dsimp only
  rw [he, test_iff hw 1 t x.st u hx]
  dsimp only
  have hr : Ready env x.st.met.sched { st := x.reset.st, checkGas := t.checkGas, loaded := true } := ⟨rfl, rfl, idle_world hx _⟩
  have hev : EvenSteps t.checkGas (.setState { accounts := t.pre, blockhashes := t.blockhashes } :: testSteps 1 t c) := ⟨trivial, even_test _ 1 t c⟩
  have k := steps_iff (L := L) (n := n) (C := C) (load := load) hw _ hr hev
  have e : worldSet C { accounts := t.pre, blockhashes := t.blockhashes } x.reset.st.world = testWorld C t x.st.world := worldSet_test C t x.st.world
  constructor
  · rintro ⟨y, h3, rfl⟩
    obtain ⟨u, k1, k2⟩ := (k y).mp h3
    have e2 : y.st = u := congrArg Runner.st k2
    rw [e2]
    cases k1 with
    | setState k3 _ k4 =>
      rw [e] at k4
      exact ⟨k3, fun a ha => (k3 a ha).1, h2, c, h1, k4⟩
  · rintro ⟨h3, _, _, c', h4, h5⟩
    rw [h1] at h4
    cases h4
    exact ⟨{ st := u, checkGas := t.checkGas, loaded := true }, (k _).mpr ⟨u, .setState h3 (by simp) (by rw [e]; exact h5), rfl⟩, rfl⟩

/-! ### Examples -/

section
open Fixture

/-- a test with two blocks; in the second the same user pays again -/
def payTest : Test :=
  { pre := scSet.accounts,
    blocks := [{ txs := [payStep f], results := [{ status := { value := 0 }, gas := { value := 497 } }] },
               { txs := [{ payStep f with gasLimit := 100 }], results := [{ status := { value := 0 }, gas := { value := 97 } }] }],
    post := some { accounts := [{ address := user 1, nonce := { value := 2 }, balance := { value := 360 } },
                                { address := addr 100, balance := { value := 76 }, code := { value := [1] } },
                                { address := addr 101, balance := { value := 19 }, code := { value := [2] } }] } }
def testVerdict (first : Nat) (t : Test) : TestVerdict := (runTestFrom scEnv stillLib 20 Toy.codec first t (freshHost { } sched)).1
def onePay (checkGas : Bool) (gas : UInt64) : Test :=
  { checkGas, pre := scSet.accounts,
    blocks := [{ txs := [payStep f], results := [{ status := { value := 0 }, gas := { value := gas } }] }], post := some scCheck }

/-- the hypotheses of `c71_test` and `c71_file_partial` are met -/
example : Idle (scEnv sched) (freshHost { } sched) := idle_fresh ({ } : MockWorld) sched
example : PlainTest payTest ∧ PlainTest (onePay true 497) := by
  refine ⟨fun b hb x hx => ?_, fun b hb x hx => ?_⟩
  · rcases List.mem_cons.1 hb with rfl | hb
    · rw [List.mem_singleton.1 hx]
      exact ⟨by decide, by decide⟩
    · rw [List.mem_singleton.1 hb] at hx
      rw [List.mem_singleton.1 hx]
      exact ⟨by decide, by decide⟩
  · rw [List.mem_singleton.1 hb] at hx
    rw [List.mem_singleton.1 hx]
    exact ⟨by decide, by decide⟩
example : testVerdict 0 payTest = .passed := by decide +kernel
example : testVerdict 0 (onePay true 497) = .passed ∧ testVerdict 0 (onePay true 496) = .failed .result ∧ testVerdict 0 (onePay false 496) = .passed := by
  refine ⟨?_, ?_, ?_⟩ <;> decide +kernel
example : (runTestFile scEnv stillLib 20 Toy.codec [onePay true 497, payTest, onePay true 497] (freshHost { } sched)).1 = .passed := by decide +kernel
example : (runTestFile scEnv stillLib 20 Toy.codec [onePay true 497, onePay true 1, payTest] (freshHost { } sched)).1 = .failed .result := by decide +kernel
/-- the hypotheses of `c71_converted` are met -/
example : ((onePay true 497).toScenario.map fun sc => verdictOf { sc with gas := .dummy } scFresh) = some .passed := by decide +kernel

/-- Without a final state a test passes all its checks and then panics. -/
theorem c71_panic_neg : testVerdict 0 { onePay true 497 with post := none } = .panicked := by decide +kernel

/-- The accounts of a test are not validated: here a contract has the address of a user. The test passes, and its conversion fails. -/
theorem c71_valid_neg : ∃ t sc, t.toScenario = some sc ∧ testVerdict 0 t = .passed ∧ testVerdict 1 t = .passed ∧
    (runScenario scEnv stillLib 20 Toy.codec (fun _ => some sched) sc scFresh.reset).1 = .failed .setState := by
  refine ⟨{ pre := [{ address := user 1, code := [1] }], blocks := [{}], post := some { accounts := [{ address := user 1, code := { value := [1] } }] } },
    _, rfl, ?_, ?_, ?_⟩ <;> decide +kernel

/-- The schedule of a test is the one with which the executor was made; the conversion is run with the default one. Here the test passes
and its conversion fails. -/
theorem c71_schedule_neg : ∃ t sc, t.toScenario = some sc ∧ testVerdict 0 t = .passed ∧ testVerdict 1 t = .passed ∧
    (runScenario scEnv stillLib 20 Toy.codec (fun _ => some dearSched) sc scFresh.reset).1 = .failed .result := by
  refine ⟨onePay true 497, _, rfl, ?_, ?_, ?_⟩ <;> decide +kernel

/-- a contract that returns the hash of the transaction -/
def hashMock : Env MockWorld EeiCall :=
  mockEnv stillLib [([1], mod [(f, .call (.getOriginalTxHash 0) fun _ => .call (.finish 0 32) fun _ => .ret)])]
def hashTest : Test :=
  { pre := [{ address := user 1, balance := 1000 }, { address := addr 100, balance := 0, code := [1] }],
    blocks := [{ txs := [payStep f], results := [{ out := [{ value := txHash (Mandos.decimal 0) }], status := { value := 0 }, gas := { star := true } }] }],
    post := some { accounts := [], moreAccounts := true } }

/-- The first transaction of a test has number 0, that of its conversion number 1, and the numbers decide the hashes of the transactions, which
contracts can see. Here the test passes and its conversion fails. -/
theorem c71_hash_neg : ∃ t sc, t.toScenario = some sc ∧ (∀ a ∈ t.pre, Settable a) ∧
    (runTest (fun _ => hashMock) stillLib 20 Toy.codec t (freshHost { } sched)).1 = .passed ∧
    (runScenario (fun _ => hashMock) stillLib 20 Toy.codec (fun _ => some sched) sc scFresh.reset).1 = .failed .result := by
  refine ⟨hashTest, _, rfl, ?_, ?_, ?_⟩
  · intro a ha
    rcases List.mem_cons.1 ha with rfl | ha
    · exact ⟨by decide, by decide⟩
    · rw [List.mem_singleton.1 ha]
      exact ⟨by decide, by decide⟩
  · decide +kernel
  · decide +kernel

end
end Arwen.Props
