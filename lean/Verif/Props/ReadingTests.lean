import Verif.Props.ReadingFile
import Verif.Props.FilesAs
import Verif.Spec.Command
/-!
For C75: what is read from a file of tests in the old format is what it says, key by key.
-/
namespace Arwen.Props
open Arwen.Mandos Arwen.Spec Arwen.Mock

variable {I : Interpreter}

theorem header_iff {j : Json} (hj : Printable j) {x : JHeader} : parseHeader I j = .ok x ↔ ∃ l, j = .map l ∧ SaysHeader I l x := by
  have h : ∀ l, Printable (.map l) → (fields (headerField I) l {} = .ok x ↔ SaysHeader I l x) := by
    intro l hl
    refine (fields_iff (fun l (s x : JHeader) => OnlyKeys l [.gasLimit, .number, .difficulty, .timestamp, .coinbase] ∧
        AtKey l .gasLimit (IsAmount I) s.gasLimit x.gasLimit ∧ AtKey l .number (IsAmount I) s.number x.number ∧
        AtKey l .difficulty (IsAmount I) s.difficulty x.difficulty ∧ AtKey l .timestamp (IsU64 I) s.timestamp x.timestamp ∧
        AtKey l .coinbase (IsAmount I) s.beneficiary x.beneficiary) ?_ ?_ l hl {} x).trans ?_
    · read_nil JHeader.mk.injEq
    · intro k v l s x hv hk
      unfold headerField
      read_key hk [big_iff, u64_iff]
    · exact ⟨fun ⟨a, b, c, d, e, f⟩ => ⟨a, b, c, d, e, f⟩, fun ⟨a, b, c, d, e, f⟩ => ⟨a, b, c, d, e, f⟩⟩
  unfold parseHeader
  simp only [ebind_iff, asMap_iff]
  exact ⟨fun ⟨l, e, hx⟩ => ⟨l, e, (h l (e ▸ hj)).mp hx⟩, fun ⟨l, e, hx⟩ => ⟨l, e, (h l (e ▸ hj)).mpr hx⟩⟩

theorem createIn_iff (l : List (Bytes × Json)) (b : Bool) : createIn l = .ok b ↔
    (valueAt l Word.to.text = none ∧ b = false) ∨ ∃ t, valueAt l Word.to.text = some (.str t) ∧ b = decide (t = []) := by
  induction l with
  | nil => simp [createIn, valueAt, eq_comm]
  | cons p l ih =>
    obtain ⟨k, v⟩ := p
    rw [createIn, valueAt]
    by_cases h : k = Word.to.text
    · rw [if_pos h, if_pos h]
      simp only [emap_iff, parseStr_iff, SaysText]
      constructor
      · rintro ⟨t, rfl, rfl⟩; exact .inr ⟨t, rfl, rfl⟩
      · rintro (⟨e, -⟩ | ⟨t, e, rfl⟩)
        · cases e
        · cases e; exact ⟨t, rfl, rfl⟩
    · rw [if_neg h, if_neg h]
      exact ih

theorem testTx_iff {j : Json} (hj : Printable j) {x : JTx} : parseTestTx I j = .ok x ↔ IsTestTx I j x := by
  unfold parseTestTx isCreate IsTestTx
  simp only [ebind_iff, asMap_iff]
  constructor
  · rintro ⟨b, ⟨l, rfl, h1⟩, h2⟩
    obtain ⟨l', e, h3⟩ := (tx_iff hj).mp h2
    cases e
    refine ⟨l, rfl, ?_⟩
    rcases (createIn_iff l b).mp h1 with ⟨e, rfl⟩ | ⟨t, e, rfl⟩
    · exact .inr ⟨(fun h => by unfold NoReceiver at h; rw [e] at h; cases h), h3⟩
    · by_cases ht : t = []
      · rw [if_pos (decide_eq_true ht)] at h3
        exact .inl ⟨by unfold NoReceiver; rw [e, ht], h3⟩
      · rw [if_neg (by simpa using ht)] at h3
        exact .inr ⟨(fun h => by unfold NoReceiver at h; rw [e] at h; cases h; exact ht rfl), h3⟩
  · rintro ⟨l, rfl, h⟩
    rcases h with ⟨hd, h⟩ | ⟨hd, h⟩
    · exact ⟨true, ⟨l, rfl, (createIn_iff l true).mpr (.inr ⟨[], hd, rfl⟩)⟩, (tx_iff hj).mpr ⟨l, rfl, h⟩⟩
    · refine ⟨false, ⟨l, rfl, (createIn_iff l false).mpr ?_⟩, (tx_iff hj).mpr ⟨l, rfl, h⟩⟩
      have := h.to
      unfold AtKey at this
      cases hv : valueAt l Word.to.text with
      | none => exact .inl ⟨rfl, rfl⟩
      | some v =>
        rw [hv] at this
        obtain ⟨s, rfl, -⟩ := this
        exact .inr ⟨s, rfl, (decide_eq_false (fun e => hd (by unfold NoReceiver; rw [hv, e]))).symm⟩

theorem block_iff {j : Json} (hj : Printable j) {x : JBlock} : parseBlock I j = .ok x ↔ ∃ l, j = .map l ∧ SaysBlock I l x := by
  have h : ∀ l, Printable (.map l) → ∀ x, (fields (blockField I) l {} = .ok x ↔ OnlyKeys l [.results, .transactions, .blockHeader] ∧
      AtKey l .results (IsList fun j y => ∃ l, j = .map l ∧ SaysResult I l y) [] x.results ∧ AtKey l .transactions (IsList (IsTestTx I)) [] x.txs ∧
      AtKey l .blockHeader (fun j y => ∃ l h, j = .map l ∧ SaysHeader I l h ∧ y = some h) none x.header) := by
    intro l hl x
    refine fields_iff (fun l (s x : JBlock) => OnlyKeys l [.results, .transactions, .blockHeader] ∧
      AtKey l .results (IsList fun j y => ∃ l, j = .map l ∧ SaysResult I l y) s.results x.results ∧ AtKey l .transactions (IsList (IsTestTx I)) s.txs x.txs ∧
      AtKey l .blockHeader (fun j y => ∃ l h, j = .map l ∧ SaysHeader I l h ∧ y = some h) s.header x.header) ?_ ?_ l hl {} x
    · read_nil JBlock.mk.injEq
    · intro k v l s x hv hk
      have hr := fun xs => list_iff (f := parseResult I) (fun _ h _ => result_iff h) hv (xs := xs)
      have ht := fun xs => list_iff (f := parseTestTx I) (fun _ h _ => testTx_iff h) hv (xs := xs)
      unfold blockField
      split
      all_goals first
        | (apply other_key
           simp only [List.mem_cons, List.not_mem_nil, or_false, forall_eq_or_imp, forall_eq]
           and_intros <;> assumption)
        | (rename_i hw
           rw [word_of hw] at hk ⊢
           rw [onlyKeys_cons (by simp)]
           simp (disch := simp) only [emap_iff, exists_set, atKey_self, atKey_other, atKey_absent hk, hr, ht, header_iff hv]
           grind)
  unfold parseBlock
  simp only [ebind_iff, asMap_iff, guardOk_iff]
  constructor
  · rintro ⟨l, rfl, b, h1, h2, rfl⟩
    obtain ⟨a, b, c, d⟩ := (h l hj _).mp h1
    exact ⟨l, rfl, a, b, c, d, h2⟩
  · rintro ⟨l, rfl, a, b, c, d, h2⟩
    exact ⟨l, rfl, x, (h l hj _).mpr ⟨a, b, c, d⟩, h2, rfl⟩

theorem test_says {k : Bytes} {j : Json} (hj : Printable j) {x : JTest} : parseTest I k j = .ok x ↔ ∃ l, j = .map l ∧ SaysTest I k l x := by
  have h : ∀ l, Printable (.map l) → ∀ x, (fields (testField I) l {} = .ok x ↔
      OnlyKeys l [.checkGas, .pre, .blocks, .network, .blockHashes, .postState] ∧ x.name = [] ∧
      AtKey l .checkGas (fun j b => j = .bool b) true x.checkGas ∧ AtKey l .pre (IsAccounts I) [] x.pre ∧
      AtKey l .blocks (IsList fun j y => ∃ l, j = .map l ∧ SaysBlock I l y) [] x.blocks ∧ AtKey l .network SaysText [] x.network ∧
      AtKey l .blockHashes (IsList (SaysBytes I)) [] x.blockHashes ∧
      AtKey l .postState (fun j y => ∃ c, IsChkAccounts I j c ∧ y = some c) none x.post) := by
    intro l hl x
    refine fields_iff (fun l (s x : JTest) => OnlyKeys l [.checkGas, .pre, .blocks, .network, .blockHashes, .postState] ∧ x.name = s.name ∧
      AtKey l .checkGas (fun j b => j = .bool b) s.checkGas x.checkGas ∧ AtKey l .pre (IsAccounts I) s.pre x.pre ∧
      AtKey l .blocks (IsList fun j y => ∃ l, j = .map l ∧ SaysBlock I l y) s.blocks x.blocks ∧ AtKey l .network SaysText s.network x.network ∧
      AtKey l .blockHashes (IsList (SaysBytes I)) s.blockHashes x.blockHashes ∧
      AtKey l .postState (fun j y => ∃ c, IsChkAccounts I j c ∧ y = some c) s.post x.post) ?_ ?_ l hl {} x
    · read_nil JTest.mk.injEq
    · intro k v l s x hv hk
      have hb : ∀ s', (match v with
          | .bool b => .ok { s with checkGas := b }
          | _ => reject : Parsed JTest) = .ok s' ↔ ∃ b, v = .bool b ∧ { s with checkGas := b } = s' := by
        clear hv
        intro s'
        cases v <;> simp [reject]
      have hl := fun xs => list_iff (f := parseBlock I) (fun _ h _ => block_iff h) hv (xs := xs)
      unfold testField
      split
      case h_1 hw =>
        rw [word_of hw] at hk ⊢
        rw [onlyKeys_cons (by simp)]
        refine Iff.trans ?_ (exists_congr fun s' => and_congr_left fun _ => hb s').symm
        simp (disch := simp) only [exists_set, atKey_self, atKey_other, atKey_absent hk]
        grind
      all_goals first
        | (apply other_key
           simp only [List.mem_cons, List.not_mem_nil, or_false, forall_eq_or_imp, forall_eq]
           and_intros <;> assumption)
        | (rename_i hw
           rw [word_of hw] at hk ⊢
           rw [onlyKeys_cons (by simp)]
           simp (disch := simp) only [emap_iff, exists_set, atKey_self, atKey_other, atKey_absent hk, parseStr_iff, accounts_iff hv,
             bytesSs_iff hv, chkAccounts_iff hv, hl]
           grind)
  unfold parseTest
  simp only [ebind_iff, asMap_iff, emap_iff]
  constructor
  · rintro ⟨l, rfl, t, h1, rfl⟩
    obtain ⟨a, b, c, d, e, f, g, i⟩ := (h l hj _).mp h1
    exact ⟨l, rfl, a, rfl, c, d, e, f, g, i⟩
  · rintro ⟨l, rfl, a, b, c, d, e, f, g, i⟩
    refine ⟨l, rfl, { x with name := [] }, (h l hj _).mpr ⟨a, rfl, c, d, e, f, g, i⟩, ?_⟩
    rw [← b]

/-- **C75, tests are read as they are written down.** A file of tests is accepted exactly if it is an object with tests that say, key by key, what tests say
(`SaysTest`), and it is read as these tests. -/
theorem c75_read (I : Interpreter) (input : Bytes) (x : List JTest) :
    parseTestFile I input = .ok x ↔ ∃ j, parseOrderedJson input = .ok (some j) ∧ SaysTests I j x := by
  unfold parseTestFile
  split
  · rename_i j hj
    obtain ⟨j', e, hp⟩ := c39_parsed input _ hj
    cases e
    unfold parseTests SaysTests
    rw [table_iff (f := parseTest I) (fun _ _ h _ => test_says h) hp, hj]
    constructor
    · intro h; exact ⟨j, rfl, h⟩
    · rintro ⟨j', e, h⟩
      cases e
      exact h
  · rename_i hn
    constructor
    · intro h
      cases h
    · rintro ⟨j, h, _⟩
      exact absurd h (hn _)

/-! ### What it stands for -/

theorem testBlock_as (x : JBlock) (y : TestBlock) : toTestBlock x = some y ↔ TestBlockAs x y := by
  unfold toTestBlock
  simp only [Option.bind_eq_some_iff, eachOf_iff tx_as, eachOf_iff expect_as, Option.some.injEq]
  constructor
  · rintro ⟨t, h1, r, h2, rfl⟩; exact ⟨h1, h2⟩
  · rintro ⟨h1, h2⟩; exact ⟨_, h1, _, h2, rfl⟩

theorem check_both (x : Option JChkAccounts) (y : Option CheckAccounts) : toCheck? x = some y ↔ Both ChkAccountsAs x y := by
  cases x with
  | none => cases y <;> simp [toCheck?, Both]
  | some x => cases y <;> simp [toCheck?, Both, Option.bind_eq_some_iff, chkAccounts_as]

theorem test_as (x : JTest) (y : Test) : toTest x = some y ↔ TestAs x y := by
  unfold toTest
  have hb := map_each (f := fun a : BytesS => a.value) (R := fun a b => b = a.value) (fun a b => eq_comm) x.blockHashes y.blockhashes
  simp only [Option.bind_eq_some_iff, eachOf_iff account_as, eachOf_iff testBlock_as, check_both, Option.some.injEq]
  constructor
  · rintro ⟨a, h1, b, h2, c, h3, rfl⟩; exact ⟨rfl, h1, h2, hb.mp rfl, h3⟩
  · rintro ⟨h0, h1, h2, h4, h3⟩
    refine ⟨_, h1, _, h2, _, h3, ?_⟩
    rw [hb.mpr h4, ← h0]

end Arwen.Props
