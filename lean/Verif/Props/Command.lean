import Verif.Props.ReadingTests
import Verif.Props.Files
import Verif.Props.TestRun
/-!
C75: files and directories of tests in the old format, and the command that runs scenarios and tests.
-/
namespace Arwen.Props
open Arwen.Spec Arwen.Mandos Arwen.Mock

section
variable {A : Type} {D : FileSystem} {env : GasSchedule → Env MockWorld A} {L : Lib} {n : Nat} {C : TokenCodec} {load : GasKind → Option GasSchedule}

/-! ### Files of tests -/

theorem testVerdict_passed (v : TestVerdict) : v.file = .passed ↔ v = .passed := by cases v <;> simp [TestVerdict.file]

theorem execTests_iff : ∀ (l : List JTest) (x y : Runner A), execTests env L n C l x = (.passed, y) ↔
    ∃ l' u, Each TestAs l l' ∧ runTestFile env L n C l' x.st = (.passed, u) ∧ y = { x with st := u }
  | [], x, y => by
    rw [execTests]
    constructor
    · intro h; cases h; exact ⟨[], x.st, .nil, rfl, rfl⟩
    · rintro ⟨l', u, h1, h2, rfl⟩
      cases h1
      rw [runTestFile] at h2
      cases h2
      rfl
  | t :: l, x, y => by
    rw [execTests]
    cases ht : toTest t with
    | none =>
      constructor
      · intro h; cases h
      · rintro ⟨l', u, h1, -⟩
        cases h1 with
        | cons h1 _ => rw [← test_as, ht] at h1; cases h1
    | some t' =>
      dsimp only
      cases hr : runTest env L n C t' x.st with
      | mk v s =>
        constructor
        · intro h
          have hv : v = .passed ∧ execTests env L n C l { x with st := s } = (.passed, y) := by
            cases v with
            | passed => exact ⟨rfl, h⟩
            | failed f => cases h
            | panicked => cases h
            | unknown => cases h
          obtain ⟨rfl, h⟩ := hv
          obtain ⟨l', u, k1, k2, k3⟩ := (execTests_iff l _ _).mp h
          refine ⟨t' :: l', u, .cons ((test_as _ _).mp ht) k1, ?_, k3⟩
          rw [runTestFile, hr]
          exact k2
        · rintro ⟨l', u, h1, h2, rfl⟩
          cases h1 with
          | @cons _ t'' _ r h1 h3 =>
            rw [← test_as, ht] at h1
            cases h1
            rw [runTestFile, hr] at h2
            cases v with
            | passed => exact (execTests_iff l { x with st := s } _).mpr ⟨r, u, h3, h2, rfl⟩
            | failed f => cases h2
            | panicked => cases h2
            | unknown => cases h2

/-- **C75, files of tests.** A file of tests in the old format passes exactly if it can be read and what it says stands for tests that pass one after the
other (C71), and then it leaves the machine as they do. -/
theorem c75_tests (path : Bytes) (r : Resolver) (x y : Runner A) :
    execTestFile D env L n C path r x = (.passed, y) ↔
    ∃ l u, TestFileIs D r.swaps path l ∧ runTestFile env L n C l x.st = (.passed, u) ∧ y = { x with st := u } := by
  unfold execTestFile TestFileIs
  constructor
  · intro h
    cases ha : D.abs path with
    | none => rw [ha] at h; cases h
    | some file =>
      rw [ha] at h
      dsimp only at h
      cases hr : D.read file with
      | none => rw [hr] at h; cases h
      | some content =>
        rw [hr] at h
        dsimp only at h
        cases hp : parseTestFile (({ r with context := file } : Resolver).interpreter D) content with
        | error e => rw [hp] at h; cases e <;> cases h
        | ok j =>
          rw [hp] at h
          obtain ⟨l', u, k1, k2, k3⟩ := (execTests_iff _ _ _).mp h
          rw [c75_read, interpreter_within] at hp
          obtain ⟨o, p1, p2⟩ := hp
          exact ⟨l', u, ⟨file, content, o, j, rfl, hr, p1, p2, k1⟩, k2, k3⟩
  · rintro ⟨l, u, ⟨file, content, o, j, h1, h2, h3, h4, h5⟩, h6, h7⟩
    rw [h1]
    dsimp only
    rw [h2]
    dsimp only
    have hp : parseTestFile (({ r with context := file } : Resolver).interpreter D) content = .ok j := by
      rw [c75_read, interpreter_within]; exact ⟨o, h3, h4⟩
    rw [hp]
    exact (execTests_iff _ _ _).mpr ⟨l, u, h5, h6, h7⟩

theorem each_one {α β : Type} {R : α → β → Prop} (hR : ∀ a b b', R a b → R a b' → b = b') {l : List α} {r : List β} (h : Each R l r) :
    ∀ {r' : List β}, Each R l r' → r = r' := by
  induction h with
  | nil => rintro _ ⟨⟩; rfl
  | cons h _ ih =>
    intro r' h'
    cases h' with
    | cons k k' => rw [hR _ _ _ h k, ih k']

/-- **C75, one meaning.** A file stands for one list of tests at most. -/
theorem c75_one (swaps : AMap Bytes Bytes) (path : Bytes) (l l' : List Test) (h : TestFileIs D swaps path l) (h' : TestFileIs D swaps path l') : l = l' := by
  obtain ⟨file, content, o, j, h1, h2, h3, h4, h5⟩ := h
  obtain ⟨file', content', o', j', k1, k2, k3, k4, k5⟩ := h'
  rw [h1] at k1
  cases k1
  rw [h2] at k2
  cases k2
  have e := (c75_read (within D swaps file) content j).mpr ⟨o, h3, h4⟩
  rw [(c75_read (within D swaps file) content j').mpr ⟨o', k3, k4⟩] at e
  cases e
  refine each_one (fun a b b' u v => ?_) h5 k5
  have u := (test_as _ _).mpr u
  rw [(test_as _ _).mpr v] at u
  cases u
  rfl

/-! ### Directories of tests -/

section
variable {general suffix : Bytes} {excluded : List Bytes} {r : Resolver}

theorem testFile_append : ∀ (l l' : List Test) (s u : St MockWorld A), runTestFile env L n C (l ++ l') s = (.passed, u) ↔
    ∃ v, runTestFile env L n C l s = (.passed, v) ∧ runTestFile env L n C l' v = (.passed, u)
  | [], l', s, u => by
    constructor
    · intro h; exact ⟨s, rfl, h⟩
    · rintro ⟨v, h1, h2⟩; cases h1; exact h2
  | t :: l, l', s, u => by
    rw [List.cons_append, runTestFile, runTestFile]
    cases hr : runTest env L n C t s with
    | mk v s' =>
      cases v with
      | passed => exact testFile_append l l' s' u
      | failed f => exact ⟨(fun h => by cases h), (fun ⟨_, h, _⟩ => by cases h)⟩
      | panicked => exact ⟨(fun h => by cases h), (fun ⟨_, h, _⟩ => by cases h)⟩
      | unknown => exact ⟨(fun h => by cases h), (fun ⟨_, h, _⟩ => by cases h)⟩

theorem testFailed_le : ∀ (l : List Bytes) (t t' : Tally) (x z : Runner A),
    execTestPaths D env L n C general suffix excluded r l t x = (.done t', z) → t.failed ≤ t'.failed
  | [], t, t', x, z, h => by cases h; exact Nat.le_refl _
  | p :: l, t, t', x, z, h => by
    rw [execTestPaths] at h
    split at h
    · split at h
      · cases h
      · have := testFailed_le l _ t' _ z h; exact this
      · split at h
        · have := testFailed_le l _ t' _ z h; exact this
        · have := testFailed_le l _ t' _ z h
          dsimp only at this
          omega
        · cases h
        · cases h
    · exact testFailed_le l _ t' _ z h

theorem testPaths_sound (hg : GoodPatterns D general excluded) : ∀ (l : List Bytes) (t t' : Tally) (x z : Runner A),
    execTestPaths D env L n C general suffix excluded r l t x = (.done t', z) → t'.failed = 0 →
    ∃ ts u, TestsOf D r.swaps general suffix excluded l ts ∧ runTestFile env L n C ts x.st = (.passed, u) ∧ z = { x with st := u }
  | [], t, t', x, z, h, _ => by cases h; exact ⟨[], x.st, .done, rfl, rfl⟩
  | p :: l, t, t', x, z, h, h0 => by
    rw [execTestPaths] at h
    rcases visit_cases (suffix := suffix) hg p with ⟨hn, hs | ⟨hs, he⟩⟩ | ⟨hr, hs, he⟩
    · rw [if_neg (by rw [hs]; decide)] at h
      obtain ⟨ts, u, k1, k2, k3⟩ := testPaths_sound hg l _ t' _ z h h0
      exact ⟨ts, u, .other hn k1, k2, k3⟩
    · rw [if_pos hs, he] at h
      obtain ⟨ts, u, k1, k2, k3⟩ := testPaths_sound hg l _ t' _ z h h0
      exact ⟨ts, u, .other hn k1, k2, k3⟩
    · rw [if_pos hs, he] at h
      dsimp only at h
      split at h
      · rename_i y hy
        obtain ⟨ts, u, e1, e2, rfl⟩ := (c75_tests _ _ _ _).mp hy
        obtain ⟨ts', u', k1, k2, k3⟩ := testPaths_sound hg l _ t' _ z h h0
        exact ⟨ts ++ ts', u', .next hr e1 k1, (testFile_append _ _ _ _).mpr ⟨u, e2, k2⟩, k3⟩
      · have := testFailed_le l _ t' _ z h
        dsimp only at this
        omega
      · cases h
      · cases h

theorem testPaths_complete (hg : GoodPatterns D general excluded) {l : List Bytes} {ts : List Test} (h : TestsOf D r.swaps general suffix excluded l ts) :
    ∀ (x : Runner A) (u : St MockWorld A) (t : Tally), runTestFile env L n C ts x.st = (.passed, u) → t.failed = 0 →
    ∃ t', t'.failed = 0 ∧ execTestPaths D env L n C general suffix excluded r l t x = (.done t', { x with st := u }) := by
  induction h with
  | done => intro x u t h h0; rw [runTestFile] at h; cases h; exact ⟨t, h0, rfl⟩
  | @other p rest ts hn _ ih =>
    intro x u t h h0
    rcases visit_cases (suffix := suffix) hg p with ⟨-, hs | ⟨hs, he⟩⟩ | ⟨hr, -, -⟩
    · obtain ⟨t', k⟩ := ih x u t h h0
      refine ⟨t', k.1, ?_⟩
      rw [execTestPaths, if_neg (by rw [hs]; decide)]
      exact k.2
    · obtain ⟨t', k⟩ := ih x u { t with skipped := t.skipped + 1 } h h0
      refine ⟨t', k.1, ?_⟩
      rw [execTestPaths, if_pos hs, he]
      exact k.2
    · exact absurd hr hn
  | @next p rest ts ts' hr hf _ ih =>
    intro x u t h h0
    obtain ⟨v, h1, h2⟩ := (testFile_append _ _ _ _).mp h
    rcases visit_cases (suffix := suffix) hg p with ⟨hn, -⟩ | ⟨-, hs, he⟩
    · exact absurd hr hn
    · obtain ⟨t', k⟩ := ih { x with st := v } u { t with passed := t.passed + 1 } h2 h0
      refine ⟨t', k.1, ?_⟩
      rw [execTestPaths, if_pos hs, he]
      dsimp only
      rw [(c75_tests p r x { x with st := v }).mpr ⟨ts, v, hf, h1, rfl⟩]
      exact k.2

/-- **C75, directories of tests.** A directory of tests in the old format passes exactly if every path at or below it that ends with the suffix and is not
excluded is that of a file that stands for tests, and all these tests pass one after the other, as the tests of one file would. -/
theorem c75_test_dir (hg : GoodPatterns D general excluded) (specific : Bytes) (tree : DirTree) (x y : Runner A) :
    (∃ v, execTestDir D env L n C general specific suffix excluded r tree x = (v, y) ∧ v.ok = true) ↔
    ∃ l u, TestsOf D r.swaps general suffix excluded (tree.walk D (D.join general specific)) l ∧
      runTestFile env L n C l x.st = (.passed, u) ∧ y = { x with st := u } := by
  constructor
  · rintro ⟨v, h, hv⟩
    cases v with
    | crashed => cases hv
    | unknown => cases hv
    | done t => exact testPaths_sound hg _ _ t _ _ h (of_decide_eq_true hv)
  · rintro ⟨l, u, h1, h2, rfl⟩
    obtain ⟨t, h0, h⟩ := testPaths_complete hg h1 x u {} h2 rfl
    exact ⟨_, h, decide_eq_true h0⟩

/-- **C75, each test alone.** A directory of tests that neither deploy nor upgrade contracts passes exactly if each file is a file of tests, and
each of these tests passes alone on a virtual machine that was just made. Missing for the full property, as for C71: deployments and upgrades. -/
theorem c75_test_alone_partial [∀ g, BlindApi (env g)] (hw : ∀ g, (env g).useWarm = false) (hE : ∀ g, (env g).hook = MockWorld.hook L) (hL : StoringBuiltins L)
    (hg : GoodPatterns D general excluded) (specific : Bytes) (tree : DirTree) (w : MockWorld) (g : GasSchedule)
    (hp : ∀ l, TestsOf D r.swaps general suffix excluded (tree.walk D (D.join general specific)) l → ∀ t ∈ l, PlainTest t) :
    (execTestDir D env L n C general specific suffix excluded r tree (freshRunner w g)).1.ok = true ↔
    ∃ l, TestsOf D r.swaps general suffix excluded (tree.walk D (D.join general specific)) l ∧
      ∀ t ∈ l, ∃ u, runTest env L n C t (freshHost w g) = (.passed, u) := by
  constructor
  · intro h
    obtain ⟨l, u, h1, h2, -⟩ := (c75_test_dir hg specific tree (freshRunner w g) _).mp ⟨_, rfl, h⟩
    exact ⟨l, h1, (c71_file_partial hw hE hL w g l (hp l h1)).mp ⟨u, h2⟩⟩
  · rintro ⟨l, h1, h2⟩
    obtain ⟨u, h2⟩ := (c71_file_partial hw hE hL w g l (hp l h1)).mpr h2
    obtain ⟨v, h, hv⟩ := (c75_test_dir (env := env) (L := L) (n := n) (C := C) hg specific tree (freshRunner w g) _).mpr ⟨l, u, h1, h2, rfl⟩
    rw [h]
    exact hv

end

/-! ### The command -/

theorem named_iff (m : Machine) (cwd arg path : Bytes) (isDir : Bool) :
    resolveArgument D m cwd arg = some (path, isDir) ↔ ArgumentIs D m cwd arg path (if isDir then .dir else .file) := by
  unfold resolveArgument ArgumentIs
  cases h : m.stat arg with
  | missing =>
    dsimp only
    cases h' : m.stat (D.join cwd arg) <;> cases isDir <;> simp <;> grind
  | broken => cases isDir <;> simp <;> (rintro rfl; simp [h])
  | file => cases isDir <;> simp <;> grind
  | dir => cases isDir <;> simp <;> grind

theorem fileExit (v : FileVerdict) : v.exit = .success ↔ v = .passed := by cases v <;> simp [FileVerdict.exit]

theorem dirExit (v : DirVerdict) : v.exit = .success ↔ v.ok = true := by
  cases v with
  | done t => unfold DirVerdict.exit DirVerdict.ok; by_cases h : t.failed = 0 <;> simp [h]
  | crashed => simp [DirVerdict.exit, DirVerdict.ok]
  | unknown => simp [DirVerdict.exit, DirVerdict.ok]

theorem noPatterns (general : Bytes) : GoodPatterns D general [] := fun _ h => by cases h

/-- **C75, the command.** The command succeeds exactly if it has one argument, which names a directory or a file, an executor can be made, and what
the argument names passes: the scenarios at or below the directory one after the other (C74), the scenario in the file (C74, C57), or, if the name of the file
does not end as those of scenarios, the tests in it (C71). In all other cases it does not report success. -/
theorem c75_command (m : Machine) (make : Option (Runner A)) :
    (∃ fuel, runCommand D env L n C load fuel m make = .success) ↔
    ∃ arg cwd x path what, m.args = [arg] ∧ m.cwd = some cwd ∧ make = some x ∧ ArgumentIs D m cwd arg path what ∧
      Fulfilled D env L n C load m x path what := by
  obtain ⟨args, cwd, stat, tree⟩ := m
  constructor
  · rintro ⟨fuel, h⟩
    unfold runCommand at h
    cases cwd with
    | none => cases h
    | some cwd =>
      dsimp only at h
      cases args with
      | nil => cases h
      | cons arg rest =>
        cases rest with
        | cons a rest => cases h
        | nil =>
          dsimp only at h
          cases hr : resolveArgument D ⟨[arg], some cwd, stat, tree⟩ cwd arg with
          | none => rw [hr] at h; cases h
          | some q =>
            obtain ⟨path, isDir⟩ := q
            rw [hr] at h
            cases make with
            | none => cases h
            | some x =>
              refine ⟨arg, cwd, x, path, _, rfl, rfl, rfl, (named_iff _ _ _ _ _).mp hr, ?_⟩
              cases isDir with
              | true =>
                exact ⟨_, (c74_dir (r := {}) (noPatterns path) [] _ { run := x } _).mp ⟨fuel, _, _, rfl, (dirExit _).mp h, rfl⟩⟩
              | false =>
                dsimp only at h
                rw [if_neg (by decide)] at h
                split at h
                · rename_i hs
                  obtain ⟨sc, h1, h2⟩ := (c74_file path {} { run := x } _).mp ⟨fuel, _, Prod.ext ((fileExit _).mp h) rfl, rfl⟩
                  exact .inl ⟨suffix_path.mp hs, sc, _, h1, h2⟩
                · rename_i hs
                  obtain ⟨l, u, h1, h2, -⟩ := (c75_tests path {} x _).mp (Prod.ext ((fileExit _).mp h) rfl)
                  exact .inr ⟨fun k => hs (suffix_path.mpr k), l, u, h1, h2⟩
  · rintro ⟨arg, cwd', x, path, what, h1, h2, rfl, h3, h4⟩
    dsimp only at h1 h2
    subst h1 h2
    have hw : what = .file ∨ what = .dir := h3.2.2
    unfold runCommand
    dsimp only
    rcases hw with rfl | rfl
    · rw [(named_iff (D := D) ⟨[arg], some cwd', stat, tree⟩ cwd' arg path false).mpr h3]
      dsimp only
      simp only [Bool.false_eq_true, if_false]
      rcases h4 with ⟨h4, sc, y, h5, h6⟩ | ⟨h4, l, u, h5, h6⟩
      · simp only [suffix_path.mpr h4, if_true]
        obtain ⟨fuel, z, h, -⟩ := (c74_file (env := env) (L := L) (n := n) (C := C) (load := load) path {} { run := x } y).mpr ⟨sc, h5, h6⟩
        exact ⟨fuel, by rw [h]; rfl⟩
      · have hs : scenSuffix.isSuffixOf path = false := Bool.eq_false_iff.mpr (fun k => h4 (suffix_path.mp k))
        simp only [hs, Bool.false_eq_true, if_false]
        rw [(c75_tests (env := env) (L := L) (n := n) (C := C) path {} x { x with st := u }).mpr ⟨l, u, h5, h6, rfl⟩]
        exact ⟨0, rfl⟩
    · rw [(named_iff (D := D) ⟨[arg], some cwd', stat, tree⟩ cwd' arg path true).mpr h3]
      dsimp only
      simp only [if_true]
      obtain ⟨y, h⟩ := h4
      obtain ⟨fuel, v, z, e, hv, -⟩ := (c74_dir (env := env) (L := L) (n := n) (C := C) (load := load) (r := {}) (noPatterns path) [] _ { run := x } y).mpr h
      exact ⟨fuel, by rw [e]; exact (dirExit _).mpr hv⟩

theorem setAccount_block (w : MockWorld) (b : Option BlockInfo) (a : SetAccount) :
    setAccount { w with current := b } a = ((setAccount w a).1, { (setAccount w a).2 with current := b }) := by
  unfold setAccount
  by_cases h : a.address.length ≠ 32
  · rw [if_pos h, if_pos h]
  · rw [if_neg h, if_neg h]
    dsimp only
    split <;> rfl

theorem setAccounts_block (l : List SetAccount) (w : MockWorld) (b : Option BlockInfo) :
    Mock.setAccounts { w with current := b } l = ((Mock.setAccounts w l).1, { (Mock.setAccounts w l).2 with current := b }) := by
  induction l generalizing w with
  | nil => rfl
  | cons a l ih =>
    unfold Mock.setAccounts
    rw [setAccount_block]
    cases setAccount w a with
    | mk v y =>
      cases v with
      | false => rfl
      | true => exact ih y

/-- what is known of the current block does not matter for a scenario that begins by setting it -/
theorem setWorld_block (x : SetState) (w : MockWorld) (b : Option BlockInfo) :
    (setWorld C x { w with current := b }).1 = (setWorld C x w).1 ∧
    ((setWorld C x w).1 = true → setWorld C x { w with current := b } = setWorld C x w) := by
  unfold setWorld
  rw [setAccounts_block]
  cases Mock.setAccounts w (x.accounts.map (convertAccount C)) with
  | mk v y =>
    cases v with
    | false => exact ⟨rfl, (fun h => by cases h)⟩
    | true =>
      dsimp only
      cases x.addressMocks.all (fun m => contractForm m.address) with
      | false => exact ⟨rfl, (fun h => by cases h)⟩
      | true => exact ⟨rfl, fun _ => rfl⟩

/-- two executors that differ at most in the current block, and only while there are no accounts -/
def SameOrEmpty (x y : Runner A) : Prop :=
  x = y ∨ x.st.world.accts = AMap.empty ∧ ∃ b, y = { x with st := { x.st with world := { x.st.world with current := b } } }

/-- without accounts no transaction can be executed -/
theorem noTx (E : Env MockWorld A) (id : Bytes) (t : ScTx) (s : St MockWorld A) (h : s.world.accts = AMap.empty) :
    ∃ e, (executeTx E L n id t s).1 = some (.error e) := by
  have hno : ∀ a, s.world.backup.account a = none := by
    intro a
    show s.world.accts.get? a = none
    rw [h]
    rfl
  unfold executeTx beforeTx MockWorld.updateBefore
  cases hs : t.kind.hasSender with
  | true =>
    rw [if_pos rfl, hno]
    exact ⟨_, rfl⟩
  | false =>
    rw [if_neg (by decide)]
    dsimp only
    unfold runKind enoughBalance
    rw [hs]
    simp only [Bool.not_false, Bool.true_or, Bool.not_true, Bool.false_eq_true, if_false]
    have hk : t.kind = .scQuery ∨ t.kind = .validatorReward := by
      revert hs
      cases t.kind <;> simp [TxKind.hasSender]
    rcases hk with hk | hk <;> rw [hk] <;> dsimp only
    · unfold scCall
      rw [hno]
      exact ⟨_, rfl⟩
    · unfold rewardOutput
      rw [hno]
      exact ⟨_, rfl⟩

theorem checkState_block (c : CheckAccounts) (w : MockWorld) (b : Option BlockInfo) : checkState C c { w with current := b } = checkState C c w := rfl

mutual
theorem step_block : ∀ (s : Step) {x y : Runner A}, SameOrEmpty x y → ∀ u, runStep env L n C load s x = (.passed, u) →
    ∃ v, runStep env L n C load s y = (.passed, v) ∧ SameOrEmpty u v
  | s, x, y, .inl h, u, hu => ⟨u, h ▸ hu, .inl rfl⟩
  | .external b k steps, x, y, .inr h, u, hu => by
    obtain ⟨h1, c, rfl⟩ := h
    simp only [runStep, enterScenario] at hu ⊢
    obtain ⟨st, check, loaded⟩ := x
    cases loaded with
    | true => exact steps_block steps (x := ⟨st, b, true⟩) (.inr ⟨h1, c, rfl⟩) u hu
    | false =>
      simp only [Bool.false_eq_true, if_false] at hu ⊢
      cases hk : load k with
      | none => rw [hk] at hu; cases hu
      | some g =>
        rw [hk] at hu
        exact steps_block steps (x := ⟨{ st with met := { st.met with sched := g } }, b, true⟩) (.inr ⟨h1, c, rfl⟩) u hu
  | .unreadable, x, y, .inr h, u, hu => by simp only [runStep] at hu; cases hu
  | .setState s, x, y, .inr h, u, hu => by
    obtain ⟨h1, c, rfl⟩ := h
    simp only [runStep] at hu ⊢
    obtain ⟨k1, k2⟩ := setWorld_block (C := C) s x.st.world c
    cases hv : (setWorld C s x.st.world).1 with
    | false => simp only [hv] at hu; cases hu
    | true => rw [k2 hv]; exact ⟨u, hu, .inl rfl⟩
  | .checkState s, x, y, .inr h, u, hu => by
    obtain ⟨h1, c, rfl⟩ := h
    simp only [runStep, checkState_block] at hu ⊢
    by_cases hv : checkState C s x.st.world = true
    · simp only [hv, if_true] at hu ⊢
      cases hu
      exact ⟨_, rfl, .inr ⟨h1, c, rfl⟩⟩
    · simp only [hv] at hu
      cases hu
  | .tx t, x, y, .inr h, u, hu => by
    obtain ⟨e, he⟩ := noTx (L := L) (n := n) (env x.st.met.sched) t.id t.tx x.st h.1
    simp only [runStep, runTxStep, he] at hu
    cases hu
  | .dump, x, y, .inr h, u, hu => by
    simp only [runStep] at hu ⊢
    cases hu
    exact ⟨_, rfl, .inr h⟩
theorem steps_block : ∀ (l : List Step) {x y : Runner A}, SameOrEmpty x y → ∀ u, runSteps env L n C load l x = (.passed, u) →
    ∃ v, runSteps env L n C load l y = (.passed, v) ∧ SameOrEmpty u v
  | [], x, y, h, u, hu => by
    simp only [runSteps] at hu ⊢
    cases hu
    exact ⟨_, rfl, h⟩
  | s :: rest, x, y, h, u, hu => by
    have k := step_block s h
    simp only [runSteps] at hu ⊢
    generalize runStep env L n C load s x = q at k hu
    obtain ⟨v, z⟩ := q
    cases v with
    | passed =>
      obtain ⟨z', h1, h2⟩ := k z rfl
      rw [h1]
      exact steps_block rest h2 u hu
    | failed f => cases hu
    | unknown => cases hu
end

/-- what is known of the current block of an empty world does not matter for a scenario -/
theorem scenario_block (sc : Scenario) (w : MockWorld) (h : w.accts = AMap.empty) (b : Option BlockInfo) (g : GasSchedule) :
    (∃ y, runScenario env L n C load sc (freshRunner { w with current := b } g) = (.passed, y)) ↔
    ∃ y, runScenario env L n C load sc (freshRunner w g) = (.passed, y) := by
  have key : ∀ (w : MockWorld) (b : Option BlockInfo), w.accts = AMap.empty → (∃ y, runScenario env L n C load sc (freshRunner w g) = (.passed, y)) →
      ∃ y, runScenario env L n C load sc (freshRunner { w with current := b } g) = (.passed, y) := by
    rintro w b h ⟨y, hy⟩
    have hr : SameOrEmpty (A := A) (freshRunner w g) (freshRunner { w with current := b } g) := .inr ⟨h, b, rfl⟩
    obtain ⟨v, h1, -⟩ := step_block (env := env) (L := L) (n := n) (C := C) (load := load) (.external sc.checkGas sc.gas sc.steps) hr y
      (by simp only [runStep]; exact hy)
    simp only [runStep] at h1
    exact ⟨v, h1⟩
  exact ⟨fun hy => key { w with current := b } w.current h hy, key w b h⟩

/-- **C75, directories and files.** From the world of an executor that was just made, which is empty but for a current block: the command succeeds for a
directory exactly if it succeeds for every scenario file at or below it. Missing for the full property, as for C58: scenarios with different gas schedules,
and deployments and upgrades. -/
theorem c75_each_partial [∀ g, BlindApi (env g)] (hw : ∀ g, (env g).useWarm = false) (hE : ∀ g, (env g).hook = MockWorld.hook L) (hL : StoringBuiltins L) (h1 : 1 ≤ n)
    (hn : ∀ g, (env g).maxInstances ≤ n) (m : Machine) (dir : Bytes) (w : MockWorld) (hempty : w.clear = { w with current := none }) (g : GasSchedule) (k : GasKind)
    (hcwd : m.cwd ≠ none) (hdir : m.stat dir = .dir)
    (hfiles : ∀ p, Beneath D (D.join dir []) (m.tree (D.join dir [])) p → EndsScen p → m.stat p = .file)
    (hk : ∀ p, Beneath D (D.join dir []) (m.tree (D.join dir [])) p → EndsScen p → ∀ sc, FileIs D AMap.empty p sc → sc.gas = k ∧ PlainSteps sc.steps) :
    (∃ fuel, runCommand D env L n C load fuel { m with args := [dir] } (some (freshRunner w g)) = .success) ↔
    ∀ p, Beneath D (D.join dir []) (m.tree (D.join dir [])) p → EndsScen p →
      ∃ fuel, runCommand D env L n C load fuel { m with args := [p] } (some (freshRunner w g)) = .success := by
  obtain ⟨args, cwd, stat, tree⟩ := m
  dsimp only at hcwd hdir hfiles hk ⊢
  cases cwd with
  | none => exact absurd rfl hcwd
  | some cwd =>
    have hpath : ∀ p, IsScenarioPath D dir scenSuffix [] p ↔ EndsScen p := by
      intro p
      constructor
      · exact fun h => h.1
      · exact fun h => ⟨h, (fun ⟨_, h, _⟩ => by cases h)⟩
    have ha := c74_alone_partial (C := C) (load := load) (suffix := scenSuffix) (r := {}) hw hE hL h1 hn (noPatterns (D := D) dir) []
      (tree (D.join dir [])) w g k (fun p hb hs sc hf => hk p hb ((hpath p).mp hs) sc hf)
    have hd : ∀ fuel, runCommand D env L n C load fuel ⟨[dir], some cwd, stat, tree⟩ (some (freshRunner w g)) =
        (execDir D env L n C load fuel dir [] scenSuffix [] {} (tree (D.join dir [])) { run := freshRunner w g }).1.exit := by
      intro fuel
      unfold runCommand resolveArgument
      dsimp only
      rw [hdir]
      rfl
    simp only [hd, dirExit]
    rw [ha]
    refine forall_congr' fun p => forall_congr' fun hb => ?_
    rw [hpath p]
    refine forall_congr' fun hs => ?_
    have hp : ∀ fuel, runCommand D env L n C load fuel ⟨[p], some cwd, stat, tree⟩ (some (freshRunner w g)) =
        (execFile D env L n C load fuel p {} { run := freshRunner w g }).1.exit := by
      intro fuel
      unfold runCommand resolveArgument
      dsimp only
      rw [hfiles p hb hs]
      dsimp only
      rw [if_neg (by decide), if_pos (suffix_path.mpr hs)]
    simp only [hp, fileExit]
    have hone : ∀ x : Runner A, (∃ fuel, (execFile D env L n C load fuel p {} { run := x }).1 = .passed) ↔
        ∃ sc, FileIs D AMap.empty p sc ∧ ∃ y, runScenario env L n C load sc x = (.passed, y) := by
      intro x
      constructor
      · rintro ⟨fuel, h⟩
        cases hq : execFile D env L n C load fuel p {} { run := x } with
        | mk v z =>
          rw [hq] at h
          cases h
          obtain ⟨sc, h1, h2⟩ := (c74_file p {} { run := x } z.run).mp ⟨fuel, z, hq, rfl⟩
          exact ⟨sc, h1, _, h2⟩
      · rintro ⟨sc, h1, y, h2⟩
        obtain ⟨fuel, z, h, -⟩ := (c74_file p {} { run := x } y).mpr ⟨sc, h1, h2⟩
        exact ⟨fuel, by rw [h]⟩
    rw [hone, hone, hempty]
    have hacc : w.accts = AMap.empty := congrArg MockWorld.accts hempty.symm
    exact exists_congr fun sc => and_congr_right fun _ => scenario_block sc w hacc none g

end
end Arwen.Props
