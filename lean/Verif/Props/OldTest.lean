import Verif.Props.Rewrite
import Verif.Props.Expr
import Verif.Spec.OldTest
/-!
C71, files: an old test that is written to a file is read back as the same test, and so is the scenario that it is converted to.
-/
namespace Arwen.Props
open Arwen.Mandos Arwen.Spec

variable {I : Interpreter}

/-! ### Transactions -/

/-- what the parser makes of a transaction of an old test -/
structure WTestTx (I : Interpreter) (x : JTx) : Prop where
  tx : WTx I x
  nonce : Text (parseU64 I) x.nonce x.nonce.original
  kind : x.kind = .scDeploy ∨ x.kind = .scCall
  codeless : x.kind ≠ .scDeploy → x.code.value = []

/-- a part of what is known while the fields of a transaction are read -/
def NonceCode (I : Interpreter) (x : JTx) : Prop :=
  Text (parseU64 I) x.nonce x.nonce.original ∧ (x.kind ≠ .scDeploy → x.code.value = [])

theorem nonce_field {k : Bytes} {v : Json} {s s' : JTx} (hv : Printable v) (hs : NonceCode I s)
    (h : txField I k v s = .ok s') : NonceCode I s' := by
  unfold txField at h
  split at h
  · obtain ⟨y, hy, h⟩ := map_ok h
    cases h
    exact ⟨u64_inv hv hy, hs.2⟩
  · split at h
    · obtain ⟨y, hy, h⟩ := map_ok h
      cases h
      exact hs
    · cases h
  · obtain ⟨t, ht, h⟩ := ebind_ok h
    split at h
    · split at h
      · cases h
        exact hs
      · cases h
    · obtain ⟨y, hy, h⟩ := map_ok h
      cases h
      exact hs
  · obtain ⟨t, ht, h⟩ := ebind_ok h
    split at h
    · cases h
      exact hs
    · cases h
  · split at h
    · obtain ⟨y, hy, h⟩ := map_ok h
      cases h
      exact hs
    · cases h
  · split at h
    · obtain ⟨y, hy, h⟩ := map_ok h
      cases h
      exact hs
    · cases h
  · obtain ⟨y, hy, h⟩ := ebind_ok h
    split at h
    · cases h
    · cases h
      exact hs
  · obtain ⟨y, hy, h⟩ := ebind_ok h
    split at h
    · cases h
    · rename_i hc
      cases h
      refine ⟨hs.1, fun e => ?_⟩
      have e : s.kind ≠ .scDeploy := e
      by_cases c : y.value = []
      · exact c
      · exact absurd ⟨e, List.length_pos_iff.2 c⟩ hc
  · split at h
    · obtain ⟨y, hy, h⟩ := map_ok h
      cases h
      exact hs
    · cases h
  · split at h
    · obtain ⟨y, hy, h⟩ := map_ok h
      cases h
      exact hs
    · cases h
  · cases h

theorem wtestTx_parse {j : Json} {x : JTx} (hj : Printable j) (h : parseTestTx I j = .ok x) : WTestTx I x := by
  obtain ⟨c, _, h⟩ := ebind_ok h
  obtain ⟨h1, h2⟩ := wtx_parse hj h
  have h3 : NonceCode I x := by
    obtain ⟨l, hl, h⟩ := ebind_ok h
    rw [asMap_ok hl] at hj
    exact fields_inv (P := NonceCode I) (fun k v s s' _ hv hs h => nonce_field hv hs h) (printable_map hj) ⟨u64_zero, fun _ => rfl⟩ h
  refine ⟨h1, h3.1, ?_, h3.2⟩
  rw [h2]
  cases c
  · exact .inr rfl
  · exact .inl rfl

/-- the fields of a transaction, and whether its receiver is empty -/
def createF (k : Bytes) (v : Json) (s : JTx × Option Bool) : Parsed (JTx × Option Bool) :=
  (txField I k v s.1).bind fun r =>
    if k = Word.to.text ∧ s.2 = none then (parseStr v).map fun t => (r, some (decide (t = []))) else .ok (r, s.2)

theorem createF_fields {l : List (Bytes × Json)} {s s' : JTx × Option Bool} (h : fields (createF (I := I)) l s = .ok s') :
    fields (txField I) l s.1 = .ok s'.1 ∧ (∀ c, s.2 = none → s'.2 = some c → createIn l = .ok c) ∧ (∀ c, s.2 = some c → s'.2 = some c) := by
  induction l generalizing s with
  | nil =>
    injection h with h
    rw [← h]
    exact ⟨rfl, (fun c h1 h2 => by rw [h1] at h2; cases h2), fun c h => h⟩
  | cons p l ih =>
    obtain ⟨k, v⟩ := p
    obtain ⟨a, ha, h⟩ := ebind_ok h
    obtain ⟨r, hr, ha⟩ := ebind_ok ha
    obtain ⟨h1, h2, h3⟩ := ih h
    simp only [fields, hr, createIn]
    split at ha
    · rename_i hk
      obtain ⟨t, ht, ha⟩ := map_ok ha
      cases ha
      refine ⟨h1, fun c _ e => ?_, fun c e => ?_⟩
      · rw [if_pos hk.1, ht]
        have := h3 _ rfl
        rw [e] at this
        cases this
        rfl
      · rw [hk.2] at e
        cases e
    · rename_i hk
      cases ha
      refine ⟨h1, fun c hn e => ?_, fun c e => h3 c e⟩
      rw [if_neg (fun hc => hk ⟨hc, hn⟩)]
      exact h2 c hn e

section
variable {init : JTx × Option Bool} {m : Option Pairs} {s : JTx} {c : Option Bool} {ks : List Word}

theorem create_putIf (h : Built (createF (I := I)) init m (s, c) ks) {α : Type} {p : Json → Parsed α} {a : α} {v : Option Json} {b : Bool}
    (w : Word) (s' : JTx) (hv : b = true → Back p v a) (hf : b = true → ∀ j, p j = .ok a → txField I w.text j s = .ok s')
    (hc : b = false → s = s') (hw : w ∉ ks := by decide) (hs : w ≠ .to := by decide) :
    Built (createF (I := I)) init (putIf b w v m) (s', c) (w :: ks) := by
  refine built_putIf h w _ hv ?_ ?_ hw
  · intro e j hj
    simp only [createF, hf e j hj, Except.bind]
    rw [if_neg (fun c => hs (Word.text_inj c.1))]
  · intro e
    rw [hc e]

theorem create_put (h : Built (createF (I := I)) init m (s, c) ks) {α : Type} {p : Json → Parsed α} {a : α} {v : Option Json}
    (w : Word) (s' : JTx) (hv : Back p v a) (hf : ∀ j, p j = .ok a → txField I w.text j s = .ok s')
    (hw : w ∉ ks := by decide) (hs : w ≠ .to := by decide) : Built (createF (I := I)) init (put w v m) (s', c) (w :: ks) :=
  create_putIf (b := true) h w s' (fun _ => hv) (fun _ => hf) (fun e => by cases e) hw hs
end

theorem testTx_back {x : JTx} (hx : WTestTx I x) (hk : KeptTestTx x) : Back (parseTestTx I) x.testJson x := by
  have hsend : x.kind.hasSender = true := by rcases hx.kind with e | e <;> rw [e] <;> rfl
  have hval : x.kind.hasValue = true := by rcases hx.kind with e | e <;> rw [e] <;> rfl
  have hgas : x.kind.hasGas = true := by rcases hx.kind with e | e <;> rw [e] <;> rfl
  have h1 := create_put (I := I) (init := ({ kind := x.kind }, none)) built_nil (v := x.nonce.json) .nonce { kind := x.kind, nonce := x.nonce }
    (u64_back hx.nonce) (fun j h => by simp only [txField, Word.of?_text, h]; rfl)
  have h2 := create_put h1 (v := strJ x.function) .function { kind := x.kind, nonce := x.nonce, function := x.function }
    (str_back hx.tx.function) (fun j h => by
      simp only [txField, Word.of?_text, h, Except.bind]
      rw [if_pos]
      rcases hx.kind with e | e
      · exact .inr (hx.tx.noFunction (by rw [e]; rfl))
      · exact .inl (by show x.kind.hasFunction = true; rw [e]; rfl))
  have h3 := create_put h2 (v := x.gasLimit.json) .gasLimit
    { kind := x.kind, nonce := x.nonce, function := x.function, gasLimit := x.gasLimit }
    (u64_back hx.tx.gasLimit) (fun j h => by simp only [txField, Word.of?_text, hgas, if_true, h]; rfl)
  have h4 := create_put h3 (v := x.value.json) .value
    { kind := x.kind, nonce := x.nonce, function := x.function, gasLimit := x.gasLimit, value := x.value }
    (big_back hx.tx.value) (fun j h => by simp only [txField, Word.of?_text, hval, if_true, h]; rfl)
  have hto : Back parseStr x.to.json x.to.original := by
    rcases hx.tx.to with e | e
    · rw [e]
      exact ⟨.str [], rfl, rfl, .str quotable_nil⟩
    · exact ⟨.str x.to.original, by rw [BytesS.json, e.2.2.1]; rfl, rfl, .str e.2.1⟩
  have h5 := built_put h4 (v := x.to.json) .to
    ({ kind := x.kind, nonce := x.nonce, function := x.function, gasLimit := x.gasLimit, value := x.value, to := x.to },
      some (decide (x.kind = .scDeploy))) hto (fun j h => by
      simp only [createF, txField, Word.of?_text, h, Except.bind]
      rcases hx.kind with e | e
      · rw [hx.tx.noReceiver e]
        simp only [e, if_true]
        rfl
      · have h0 := hk.to e
        rcases hx.tx.to with e' | e'
        · rw [e'] at h0
          exact absurd rfl h0
        · rw [if_neg (by rw [e]; decide), e'.1]
          simp only [Except.map, and_self, if_true, h0, e, decide_false]
          rfl)
  have h6 := create_put h5 (v := listOf BytesT.json x.args) .arguments
    { kind := x.kind, nonce := x.nonce, function := x.function, gasLimit := x.gasLimit, value := x.value, to := x.to, args := x.args }
    (listOf_back (p := parseBytesT I) (fun a ha => bytesT_back (hx.tx.args a ha)))
    (fun j h => by
      have h : parseBytesTs I j = .ok x.args := h
      simp only [txField, Word.of?_text, h, Except.bind]
      rw [if_neg]
      rintro ⟨c, _⟩
      rcases hx.kind with e | e <;> rw [e] at c <;> cases c)
  have h7 := create_putIf h6 (b := decide (x.code.original ≠ [])) (v := x.code.json) .contractCode
    { kind := x.kind, nonce := x.nonce, function := x.function, gasLimit := x.gasLimit, value := x.value, to := x.to, args := x.args,
      code := x.code }
    (fun e => bytesS_back hx.tx.code)
    (fun e j h => by
      simp only [txField, Word.of?_text, h, Except.bind]
      rw [if_neg (fun c => by have h0 := c.2; rw [hx.codeless c.1] at h0; cases h0)])
    (fun e => by rw [bytesS_value hx.tx.code (by simpa using e)])
  have h8 := create_put h7 (v := x.gasPrice.json) .gasPrice
    { kind := x.kind, nonce := x.nonce, function := x.function, gasLimit := x.gasLimit, value := x.value, to := x.to, args := x.args,
      code := x.code, gasPrice := x.gasPrice }
    (u64_back hx.tx.gasPrice) (fun j h => by simp only [txField, Word.of?_text, hgas, if_true, h]; rfl)
  have h9 := create_put h8 (v := x.sender.json) .from
    { kind := x.kind, nonce := x.nonce, function := x.function, gasLimit := x.gasLimit, value := x.value, to := x.to, args := x.args,
      code := x.code, gasPrice := x.gasPrice, sender := x.sender }
    (address_back hx.tx.sender hk.sender) (fun j h => by simp only [txField, Word.of?_text, hsend, if_true, h]; rfl)
  have e : x =
      { kind := x.kind, nonce := x.nonce, function := x.function, gasLimit := x.gasLimit, value := x.value, to := x.to, args := x.args,
        code := x.code, gasPrice := x.gasPrice, sender := x.sender } := by
    have := hk.token
    cases x
    simp only at this ⊢
    rw [this]
  rw [← e] at h9
  refine back_mono (built_back h9) (fun j h => ?_)
  obtain ⟨l, hl, h⟩ := ebind_ok h
  obtain ⟨q1, q2, _⟩ := createF_fields h
  have q2 := q2 _ rfl rfl
  simp only [parseTestTx, isCreate, hl, Except.bind, q2, parseTx]
  rcases hx.kind with e | e
  · simp only [e, decide_true, if_true]
    rw [← e]
    exact q1
  · rw [e] at q1
    simp only [e]
    exact q1

/-! ### Blocks -/

/-- what the parser makes of the header of a block -/
structure WHeader (I : Interpreter) (x : JHeader) : Prop where
  beneficiary : x.beneficiary = {} ∨ Text (parseBig I false) x.beneficiary x.beneficiary.original
  difficulty : x.difficulty = {} ∨ Text (parseBig I false) x.difficulty x.difficulty.original
  number : x.number = {} ∨ Text (parseBig I false) x.number x.number.original
  gasLimit : x.gasLimit = {} ∨ Text (parseBig I false) x.gasLimit x.gasLimit.original
  timestamp : Text (parseU64 I) x.timestamp x.timestamp.original

/-- what the parser makes of a block -/
structure WBlock (I : Interpreter) (x : JBlock) : Prop where
  results : ∀ r ∈ x.results, WResult I r
  txs : ∀ t ∈ x.txs, WTestTx I t
  header : ∀ h, x.header = some h → WHeader I h

theorem wheader_parse {j : Json} {x : JHeader} (hj : Printable j) (h : parseHeader I j = .ok x) : WHeader I x := by
  obtain ⟨l, hl, h⟩ := ebind_ok h
  rw [asMap_ok hl] at hj
  refine fields_inv (P := WHeader I) ?_ (printable_map hj) ⟨.inl rfl, .inl rfl, .inl rfl, .inl rfl, u64_zero⟩ h
  intro k v s s' _ hv hs h
  unfold headerField at h
  split at h
  · obtain ⟨y, hy, h⟩ := map_ok h
    cases h
    exact { hs with gasLimit := .inr (big_inv hv hy) }
  · obtain ⟨y, hy, h⟩ := map_ok h
    cases h
    exact { hs with number := .inr (big_inv hv hy) }
  · obtain ⟨y, hy, h⟩ := map_ok h
    cases h
    exact { hs with difficulty := .inr (big_inv hv hy) }
  · obtain ⟨y, hy, h⟩ := map_ok h
    cases h
    exact { hs with timestamp := u64_inv hv hy }
  · obtain ⟨y, hy, h⟩ := map_ok h
    cases h
    exact { hs with beneficiary := .inr (big_inv hv hy) }
  · cases h

theorem wblock_parse {j : Json} {x : JBlock} (hj : Printable j) (h : parseBlock I j = .ok x) :
    WBlock I x ∧ x.results.length = x.txs.length := by
  obtain ⟨l, hl, h⟩ := ebind_ok h
  obtain ⟨b, hb, h⟩ := ebind_ok h
  rw [asMap_ok hl] at hj
  split at h
  · rename_i he
    cases h
    refine ⟨?_, he⟩
    refine fields_inv (P := WBlock I) ?_ (printable_map hj) ⟨by simp, by simp, (fun _ e => by cases e)⟩ hb
    intro k v s s' _ hv hs h
    unfold blockField at h
    split at h
    · obtain ⟨y, hy, h⟩ := map_ok h
      cases h
      exact { hs with results := list_inv (fun _ _ hj h => wresult_parse hj h) hv hy }
    · obtain ⟨y, hy, h⟩ := map_ok h
      cases h
      exact { hs with txs := list_inv (fun _ _ hj h => wtestTx_parse hj h) hv hy }
    · obtain ⟨y, hy, h⟩ := map_ok h
      cases h
      exact { hs with header := fun g e => by cases e; exact wheader_parse hv hy }
    · cases h
  · cases h

theorem headerBig_back {x : BigI} (h : x = {} ∨ Text (parseBig I false) x x.original) (hk : x.value ≠ none) : Back (parseBig I false) x.json x := by
  rcases h with e | h
  · rw [e] at hk
    exact absurd rfl hk
  · exact big_back h

theorem header_back {x : JHeader} (hx : WHeader I x) (hk : KeptHeader x) : Back (parseHeader I) x.json x := by
  have b1 := built_put (f := headerField I) (init := {}) built_nil (v := x.gasLimit.json) .gasLimit { gasLimit := x.gasLimit }
    (headerBig_back hx.gasLimit hk.gasLimit) (fun j h => by simp only [headerField, Word.of?_text, h]; rfl)
  have b2 := built_put b1 (v := x.number.json) .number { gasLimit := x.gasLimit, number := x.number }
    (headerBig_back hx.number hk.number) (fun j h => by simp only [headerField, Word.of?_text, h]; rfl)
  have b3 := built_put b2 (v := x.difficulty.json) .difficulty { gasLimit := x.gasLimit, number := x.number, difficulty := x.difficulty }
    (headerBig_back hx.difficulty hk.difficulty) (fun j h => by simp only [headerField, Word.of?_text, h]; rfl)
  have b4 := built_put b3 (v := x.timestamp.json) .timestamp
    { gasLimit := x.gasLimit, number := x.number, difficulty := x.difficulty, timestamp := x.timestamp }
    (u64_back hx.timestamp) (fun j h => by simp only [headerField, Word.of?_text, h]; rfl)
  have b5 := built_put b4 (v := x.beneficiary.json) .coinbase x
    (headerBig_back hx.beneficiary hk.beneficiary) (fun j h => by simp only [headerField, Word.of?_text, h]; rfl)
  exact built_back b5

theorem block_back {x : JBlock} (hx : WBlock I x) (hl : x.results.length = x.txs.length) (hk : KeptBlock x) : Back (parseBlock I) x.json x := by
  obtain ⟨h, hh, hkh⟩ := hk.header
  have b1 := built_put (f := blockField I) (init := {}) built_nil (v := listOf JResult.json x.results) .results { results := x.results }
    (listOf_back (p := parseResult I) (fun r hr => result_back (hx.results r hr) (hk.results r hr)))
    (fun j h => by simp only [blockField, Word.of?_text, h]; rfl)
  have b2 := built_put b1 (v := listOf JTx.testJson x.txs) .transactions { results := x.results, txs := x.txs }
    (listOf_back (p := parseTestTx I) (fun t ht => testTx_back (hx.txs t ht) (hk.txs t ht)))
    (fun j h => by simp only [blockField, Word.of?_text, h]; rfl)
  have b3 := built_put b2 (v := x.header.bind JHeader.json) .blockHeader x
    (p := parseHeader I) (a := h) (by rw [hh]; exact header_back (hx.header h hh) hkh)
    (fun j h => by
      simp only [blockField, Word.of?_text, h]
      cases x
      simp only at hh
      rw [hh]
      rfl)
  refine back_mono (built_back b3) (fun j h => ?_)
  obtain ⟨l, hl', h⟩ := ebind_ok h
  simp only [parseBlock, hl', Except.bind, h]
  rw [if_pos hl]

/-! ### Tests -/

/-- what the parser makes of an old test -/
structure WTest (I : Interpreter) (x : JTest) : Prop where
  pre : ∀ a ∈ x.pre, WAccount I a ∧ Placed I a.address
  addresses : (x.pre.map fun a => a.address.original).Nodup
  blocks : ∀ b ∈ x.blocks, WBlock I b ∧ b.results.length = b.txs.length
  network : Quotable x.network
  blockHashes : ∀ h ∈ x.blockHashes, Text (parseBytesS I) h h.original
  post : ∀ c, x.post = some c → WChkAccounts I c

theorem wtest_parse {k : Bytes} {j : Json} {x : JTest} (hj : Printable j) (h : parseTest I k j = .ok x) : WTest I x ∧ x.name = k := by
  obtain ⟨l, hl, h⟩ := ebind_ok h
  obtain ⟨t, ht, h⟩ := map_ok h
  rw [asMap_ok hl] at hj
  rw [← h]
  have hw : WTest I t := by
    refine fields_inv (P := WTest I) ?_ (printable_map hj) ⟨by simp, by simp, by simp, quotable_nil, by simp, (fun _ e => by cases e)⟩ ht
    intro k v s s' _ hv hs h
    unfold testField at h
    split at h
    · split at h
      · cases h
        exact { hs with }
      · cases h
    · obtain ⟨y, hy, h⟩ := map_ok h
      cases h
      obtain ⟨h1, h2⟩ := accounts_read hv hy
      exact { hs with pre := h1, addresses := h2 }
    · obtain ⟨y, hy, h⟩ := map_ok h
      cases h
      exact { hs with blocks := list_inv (fun _ _ hj h => wblock_parse hj h) hv hy }
    · obtain ⟨y, hy, h⟩ := map_ok h
      cases h
      exact { hs with network := parseStr_inv hv hy }
    · obtain ⟨y, hy, h⟩ := map_ok h
      cases h
      exact { hs with blockHashes := list_inv (fun _ _ hj h => bytesS_inv hj h) hv hy }
    · obtain ⟨y, hy, h⟩ := map_ok h
      cases h
      exact { hs with post := fun c e => by cases e; exact wchkAccounts_parse hv hy }
    · cases h
  exact ⟨⟨hw.pre, hw.addresses, hw.blocks, hw.network, hw.blockHashes, hw.post⟩, rfl⟩

theorem test_back {x : JTest} (hx : WTest I x) (hk : KeptTest x) : Back (parseTest I x.name) x.json x := by
  obtain ⟨c, hc, hkc⟩ := hk.post
  have b1 := built_putIf (f := testField I) (init := {}) built_nil (c := !x.checkGas) (v := some (.bool false))
    (p := fun j => match j with | .bool b => .ok b | _ => reject) (a := false) .checkGas { checkGas := x.checkGas }
    (fun _ => ⟨.bool false, rfl, rfl, .bool _⟩)
    (fun e j h => by
      split at h
      · cases h
        simp only [testField, Word.of?_text]
        rw [show x.checkGas = false by simpa using e]
      · cases h)
    (fun e => by rw [show x.checkGas = true by simpa using e])
  have b2 := built_put b1 (v := accountsJson x.pre) .pre { checkGas := x.checkGas, pre := x.pre }
    (accounts_back (fun a ha => ⟨hx.pre a ha, hk.pre a ha⟩) hx.addresses) (fun j h => by simp only [testField, Word.of?_text, h]; rfl)
  have b3 := built_put b2 (v := listOf JBlock.json x.blocks) .blocks { checkGas := x.checkGas, pre := x.pre, blocks := x.blocks }
    (listOf_back (p := parseBlock I) (fun b hb => block_back (hx.blocks b hb).1 (hx.blocks b hb).2 (hk.blocks b hb)))
    (fun j h => by simp only [testField, Word.of?_text, h]; rfl)
  have b4 := built_put b3 (v := strJ x.network) .network { checkGas := x.checkGas, pre := x.pre, blocks := x.blocks, network := x.network }
    (str_back hx.network) (fun j h => by simp only [testField, Word.of?_text, h]; rfl)
  have b5 := built_put b4 (v := listOf BytesS.json x.blockHashes) .blockHashes
    { checkGas := x.checkGas, pre := x.pre, blocks := x.blocks, network := x.network, blockHashes := x.blockHashes }
    (listOf_back (p := parseBytesS I) (fun a ha => bytesS_back (hx.blockHashes a ha)))
    (fun j h => by
      have h : parseBytesSs I j = .ok x.blockHashes := h
      simp only [testField, Word.of?_text, h]
      rfl)
  have b6 := built_put b5 (v := x.post.bind JChkAccounts.json) .postState
    { checkGas := x.checkGas, pre := x.pre, blocks := x.blocks, network := x.network, blockHashes := x.blockHashes, post := x.post }
    (p := parseChkAccounts I) (a := c) (by rw [hc]; exact chkAccounts_back (hx.post c hc) hkc)
    (fun j h => by
      simp only [testField, Word.of?_text, h, hc]
      rfl)
  refine back_mono (built_back b6) (fun j h => ?_)
  obtain ⟨l, hl, h⟩ := ebind_ok h
  simp only [parseTest, hl, Except.bind, h]
  rfl

theorem wtests_parse {j : Json} {l : List JTest} (hj : Printable j) (h : parseTests I j = .ok l) :
    (∀ x ∈ l, WTest I x ∧ Quotable x.name) ∧ (l.map JTest.name).Nodup := by
  obtain ⟨m, hm, h⟩ := ebind_ok h
  rw [asMap_ok hm] at hj
  obtain ⟨h1, h2⟩ := entries_inv (P := fun x : JTest => WTest I x ∧ Quotable x.name) (key := JTest.name)
    (fun k j a hk hj h => by
      obtain ⟨h3, h4⟩ := wtest_parse hj h
      exact ⟨⟨h3, by rw [h4]; exact hk⟩, h4⟩) (printable_map hj) h
  exact ⟨h1, by rw [h2]; exact (printable_map hj).nodup⟩

theorem tests_back {l : List JTest} (h : ∀ x ∈ l, (WTest I x ∧ Quotable x.name) ∧ KeptTest x) (hn : (l.map JTest.name).Nodup) :
    Back (parseTests I) (testsJson l) l :=
  entries_back (p := parseTest I) (key := JTest.name) l (fun x hx => ⟨(h x hx).1.2, test_back (h x hx).1.1 (h x hx).2⟩) hn

theorem testFile_ok {input : Bytes} {l : List JTest} (h : parseTestFile I input = .ok l) : ∃ j, Printable j ∧ parseTests I j = .ok l := by
  unfold parseTestFile at h
  split at h
  · rename_i j hj
    obtain ⟨j', e, hp⟩ := c39_parsed input _ hj
    cases e
    exact ⟨j, hp, h⟩
  · cases h

/-- **C71, files.** Old tests that were read from a file, and of which nothing is left out when they are written (`KeptTest`), are written to a file
that is read as the same tests. -/
theorem c71_rewrite (I : Interpreter) (input : Bytes) (l : List JTest) (h : parseTestFile I input = .ok l) (hk : ∀ x ∈ l, KeptTest x) :
    ∃ output, testsToJsonString l = some output ∧ parseTestFile I output = .ok l := by
  obtain ⟨j, hp, h⟩ := testFile_ok h
  obtain ⟨hw, hn⟩ := wtests_parse hp h
  obtain ⟨k, h1, h2, h3⟩ := tests_back (fun x hx => ⟨hw x hx, hk x hx⟩) hn
  refine ⟨jsonString k ++ [newline], by rw [testsToJsonString, h1]; rfl, ?_⟩
  have hb : ∀ b, k ≠ .bool b := by
    intro b e
    rw [e] at h2
    cases h2
  have := c39_spaces k h3 hb [] [newline] (by simp) (by simp [IsSpace, newline])
  rw [List.nil_append] at this
  unfold parseTestFile
  rw [this]
  exact h2

/-! ### Conversion -/

theorem dropNonce_json (x : JTx) : (dropNonce x).json = x.json := rfl

theorem dropStep_json (s : JStep) : (dropStepNonce s).json = s.json := by
  cases s with
  | tx t =>
    obtain ⟨i, c, o, e⟩ := t
    cases o <;> rfl
  | _ => rfl

theorem writeAll_congr {α β : Type} {f : α → Option Json} {g : β → Option Json} {k : α → β} (h : ∀ a, g (k a) = f a) (l : List α) :
    writeAll g (l.map k) = writeAll f l := by
  induction l with
  | nil => rfl
  | cons a l ih => rw [List.map_cons, writeAll, writeAll, h, ih]

theorem dropNonces_json (x : JScenario) : (dropNonces x).json = x.json := by
  have : listOf JStep.json (dropNonces x).steps = listOf JStep.json x.steps := by
    unfold listOf dropNonces
    dsimp only
    rw [writeAll_congr dropStep_json]
  unfold JScenario.json
  rw [this]
  rfl

theorem quotable_decimal (n : Nat) : Quotable (decimal n) := by
  refine quotable_plain ?_
  rw [List.all_eq_true]
  intro c hc
  have := digits_mem (decimal_digits n) c hc
  simp only [Bool.and_eq_true, bne_iff_ne, ne_eq]
  constructor
  · rintro rfl
    revert this
    decide
  · rintro rfl
    revert this
    decide

theorem numbered_kept {ts : List JTx} {rs : List JResult} (ht : ∀ t ∈ ts, WTestTx I t ∧ KeptTx (dropNonce t))
    (hr : ∀ r ∈ rs, WResult I r ∧ ∀ l ∈ r.logs, KeptLog l) (n : Nat) :
    ∀ s ∈ numberedSteps n ts rs, ∃ x, s = .tx x ∧ WStep I (.tx { x with tx := x.tx.map dropNonce }) ∧
      KeptStep (.tx { x with tx := x.tx.map dropNonce }) := by
  induction ts generalizing n rs with
  | nil => intro s hs; cases hs
  | cons t ts ih =>
    cases rs with
    | nil => intro s hs; cases hs
    | cons r rs =>
      intro s hs
      rcases List.mem_cons.1 hs with rfl | hs
      · obtain ⟨h1, h2⟩ := ht t (List.mem_cons_self ..)
        obtain ⟨h3, h4⟩ := hr r (List.mem_cons_self ..)
        have hw : WTx I (dropNonce t) := { h1.tx with }
        refine ⟨_, rfl, ⟨t.kind, quotable_decimal n, quotable_nil, (fun u e => by cases e; exact ⟨hw, rfl⟩), (fun u e => by
          cases e
          refine ⟨h3, ?_⟩
          rcases h1.kind with e | e <;> rw [e] <;> rfl)⟩, ⟨dropNonce t, rfl, h2⟩, (fun u e => by cases e; exact h4)⟩
      · exact ih (fun t ht' => ht t (List.mem_cons_of_mem _ ht')) (fun r hr' => hr r (List.mem_cons_of_mem _ hr')) (n + 1) s hs

/-- the scenario for a test with this block -/
def convertedAs (t : JTest) (b : JBlock) : JScenario where
  checkGas := t.checkGas
  steps := .setState { accounts := t.pre, blockHashes := t.blockHashes } :: numberedSteps 1 b.txs b.results ++ [.checkState [] t.post]

theorem convertTests_ok {l : List JTest} {s : JScenario} (h : convertTests l = some s) :
    ∃ t b, l = [t] ∧ t.blocks = [b] ∧ s = convertedAs t b := by
  unfold convertTests at h
  split at h
  · rename_i t
    split at h
    · rename_i b hb
      split at h
      · cases h
        exact ⟨t, b, rfl, hb, rfl⟩
      · cases h
    · cases h
  · cases h

/-- **C71, converted files.** The scenario that an old test is converted to is written to a file that is read as this scenario, except for the nonces of
the transactions, provided that nothing else is left out when it is written (`Convertible`). -/
theorem c71_converted_file (I : Interpreter) (input : Bytes) (l : List JTest) (s : JScenario) (h : parseTestFile I input = .ok l)
    (hs : convertTests l = some s) (hk : ∀ x ∈ l, Convertible x) :
    ∃ output, scenarioToJsonString s = some output ∧ parseScenarioFile I output = .ok (dropNonces s) := by
  obtain ⟨j, hp, h⟩ := testFile_ok h
  obtain ⟨hw, _⟩ := wtests_parse hp h
  obtain ⟨t, b, rfl, hb, rfl⟩ := convertTests_ok hs
  have ht := hw t (List.mem_singleton.2 rfl)
  have hk := hk t (List.mem_singleton.2 rfl)
  obtain ⟨hwb, hlen⟩ := ht.1.blocks b (by rw [hb]; exact List.mem_singleton.2 rfl)
  have hn := numbered_kept (I := I) (ts := b.txs) (rs := b.results)
    (fun x hx => ⟨hwb.txs x hx, hk.txs b (by rw [hb]; exact List.mem_singleton.2 rfl) x hx⟩)
    (fun r hr => ⟨hwb.results r hr, hk.results b (by rw [hb]; exact List.mem_singleton.2 rfl) r hr⟩) 1
  generalize hsc : convertedAs t b = sc at hs ⊢
  have hall : ∀ x ∈ (dropNonces sc).steps, WStep I x ∧ KeptStep x := by
    subst hsc
    intro x hx
    unfold dropNonces convertedAs at hx
    simp only [List.map_append, List.map_cons, List.map_nil, List.mem_append, List.mem_cons, List.cons_append] at hx
    rcases hx with rfl | hx | rfl | hx
    · exact ⟨⟨quotable_nil, ht.1.pre, ht.1.addresses, (fun _ e => by cases e), (fun _ e => by cases e), ht.1.blockHashes, by simp⟩, hk.pre, by simp⟩
    · obtain ⟨y, hy, rfl⟩ := List.mem_map.1 hx
      obtain ⟨z, rfl, h1, h2⟩ := hn y hy
      exact ⟨h1, h2⟩
    · exact ⟨⟨quotable_nil, ht.1.post⟩, hk.post⟩
    · cases hx
  have hn1 : sc.name = [] := by rw [← hsc]; rfl
  have hn2 : sc.comment = [] := by rw [← hsc]; rfl
  obtain ⟨k, h1, h2, h3⟩ := scenario_back (x := dropNonces sc)
    ⟨(by show Quotable sc.name; rw [hn1]; exact quotable_nil), (by show Quotable sc.comment; rw [hn2]; exact quotable_nil),
      fun x hx => (hall x hx).1⟩ (fun x hx => (hall x hx).2)
  rw [dropNonces_json] at h1
  refine ⟨jsonString k ++ [newline], by rw [scenarioToJsonString, h1]; rfl, ?_⟩
  have hb : ∀ b, k ≠ .bool b := by
    intro b e
    rw [e] at h2
    cases h2
  have := c39_spaces k h3 hb [] [newline] (by simp) (by simp [IsSpace, newline])
  rw [List.nil_append] at this
  unfold parseScenarioFile
  rw [this]
  exact h2

/-! ### Examples -/

instance (x : JTx) : Decidable (KeptTestTx x) :=
  decidable_of_iff (x.sender.original ≠ [] ∧ (x.kind = .scCall → x.to.original ≠ []) ∧ x.token = none)
    ⟨fun h => ⟨h.1, h.2.1, h.2.2⟩, fun h => ⟨h.1, h.2, h.3⟩⟩
instance (x : JHeader) : Decidable (KeptHeader x) :=
  decidable_of_iff (x.beneficiary.value ≠ none ∧ x.difficulty.value ≠ none ∧ x.number.value ≠ none ∧ x.gasLimit.value ≠ none)
    ⟨fun h => ⟨h.1, h.2.1, h.2.2.1, h.2.2.2⟩, fun h => ⟨h.1, h.2, h.3, h.4⟩⟩
instance (x : JBlock) : Decidable (KeptBlock x) :=
  decidable_of_iff ((∀ r ∈ x.results, ∀ l ∈ r.logs, KeptLog l) ∧ (∀ t ∈ x.txs, KeptTestTx t) ∧ ∃ h ∈ x.header.toList, KeptHeader h)
    ⟨fun ⟨h1, h2, h, h3, h4⟩ => ⟨h1, h2, h, by simpa using h3, h4⟩,
      fun h => ⟨h.1, h.2, by obtain ⟨g, h3, h4⟩ := h.3; exact ⟨g, by simpa using h3, h4⟩⟩⟩
instance (x : JTest) : Decidable (KeptTest x) :=
  decidable_of_iff ((∀ a ∈ x.pre, KeptAccount a) ∧ (∀ b ∈ x.blocks, KeptBlock b) ∧ ∃ c ∈ x.post.toList, ∀ a ∈ c.accounts, KeptChkAccount a)
    ⟨fun ⟨h1, h2, h, h3, h4⟩ => ⟨h1, h2, h, by simpa using h3, h4⟩,
      fun h => ⟨h.1, h.2, by obtain ⟨g, h3, h4⟩ := h.3; exact ⟨g, by simpa using h3, h4⟩⟩⟩
instance (x : JTest) : Decidable (Convertible x) :=
  decidable_of_iff ((∀ a ∈ x.pre, KeptAccount a) ∧ (∀ b ∈ x.blocks, ∀ t ∈ b.txs, KeptTx (dropNonce t)) ∧
      (∀ b ∈ x.blocks, ∀ r ∈ b.results, ∀ l ∈ r.logs, KeptLog l) ∧ ∃ c ∈ x.post.toList, ∀ a ∈ c.accounts, KeptChkAccount a)
    ⟨fun ⟨h1, h2, h5, h, h3, h4⟩ => ⟨h1, h2, h5, h, by simpa using h3, h4⟩,
      fun h => ⟨h.1, h.2, h.3, by obtain ⟨g, h3, h4⟩ := h.4; exact ⟨g, by simpa using h3, h4⟩⟩⟩

/-- a file with an old test: a deployment and a call -/
def sampleTest : Bytes := bytes% r#"{
  "sample": {
    "checkGas": false,
    "pre": { "address:owner": { "nonce": "0x00", "balance": "100", "storage": {}, "code": "" } },
    "blocks": [ {
      "results": [ { "out": [], "status": "0", "gas": "*", "refund": "*" }, { "out": [ "5" ], "status": "0", "logs": "*" } ],
      "transactions": [
        { "nonce": "0x00", "function": "", "gasLimit": "0x100", "value": "0", "to": "", "arguments": [ "5" ], "contractCode": "str:code",
          "gasPrice": "0", "from": "address:owner" },
        { "nonce": "0x01", "function": "get", "gasLimit": "0x100", "value": "0", "to": "sc:new", "arguments": [], "gasPrice": "0",
          "from": "address:owner" } ],
      "blockHeader": { "gasLimit": "1000", "number": "1", "difficulty": "0", "timestamp": "10", "coinbase": "0" } } ],
    "network": "Std",
    "blockHashes": [ "0x01" ],
    "postState": { "address:owner": { "nonce": "*", "balance": "100" }, "+": "" } } }"#

/-- the hypotheses of `c71_rewrite` and `c71_converted_file` hold of a file with a deployment and a call -/
example : ∃ l s, parseTestFile noFiles sampleTest = .ok l ∧ convertTests l = some s ∧ (∀ x ∈ l, KeptTest x) ∧ (∀ x ∈ l, Convertible x) ∧
    s.steps.length = 4 := by
  have h : (match parseTestFile noFiles sampleTest with
    | .ok l => match convertTests l with
      | some s => decide (∀ x ∈ l, KeptTest x) && decide (∀ x ∈ l, Convertible x) && decide (s.steps.length = 4)
      | none => false
    | .error _ => false) = true := by decide +kernel
  split at h
  · rename_i l hl
    split at h
    · rename_i s hs
      rw [Bool.and_eq_true, Bool.and_eq_true, decide_eq_true_eq, decide_eq_true_eq, decide_eq_true_eq] at h
      exact ⟨l, s, hl, hs, h.1.1, h.1.2, h.2⟩
    · cases h
  · cases h

/-! ### What is not kept -/

/-- read, write and read again -/
def rewrittenTests (I : Interpreter) (input : Bytes) : Option (List JTest × List JTest) :=
  match parseTestFile I input with
  | .error _ => none
  | .ok x => match testsToJsonString x with
    | none => none
    | some output => match parseTestFile I output with
      | .error _ => none
      | .ok y => some (x, y)

theorem rewrittenTests_ok {I : Interpreter} {input : Bytes} {P : List JTest → List JTest → Bool}
    (h : (rewrittenTests I input).any (fun p => P p.1 p.2) = true) :
    ∃ x output y, parseTestFile I input = .ok x ∧ testsToJsonString x = some output ∧ parseTestFile I output = .ok y ∧ P x y = true := by
  unfold rewrittenTests at h
  split at h
  · cases h
  · rename_i x hx
    split at h
    · cases h
    · rename_i output ho
      split at h
      · cases h
      · rename_i y hy
        exact ⟨x, output, y, hx, ho, hy, h⟩

/-- read and write: whether writing fails -/
def unwritableTests (I : Interpreter) (input : Bytes) : Bool :=
  match parseTestFile I input with
  | .error _ => false
  | .ok x => (testsToJsonString x).isNone

theorem unwritableTests_ok {I : Interpreter} {input : Bytes} (h : unwritableTests I input = true) :
    ∃ x, parseTestFile I input = .ok x ∧ testsToJsonString x = none := by
  unfold unwritableTests at h
  split at h
  · cases h
  · rename_i x hx
    exact ⟨x, hx, by simpa using h⟩

/-- the transactions of old tests -/
def testTransactions (l : List JTest) : List JTx := l.flatMap fun t => t.blocks.flatMap fun b => b.txs

/-- an old test without the header of a block is accepted, and writing it dereferences a nil pointer -/
theorem c71_header_neg : ∃ I input x, parseTestFile I input = .ok x ∧ testsToJsonString x = none :=
  ⟨noFiles, bytes% r#"{"t":{"blocks":[{"results":[],"transactions":[]}],"postState":{}}}"#, unwritableTests_ok (by decide +kernel)⟩

/-- an old test without a final state is accepted, and writing it dereferences a nil pointer -/
theorem c71_post_neg : ∃ I input x, parseTestFile I input = .ok x ∧ testsToJsonString x = none :=
  ⟨noFiles, bytes% r#"{"t":{"pre":{}}}"#, unwritableTests_ok (by decide +kernel)⟩

/-- the number of a block that is not given is zero in the rewritten file -/
theorem c71_number_neg : ∃ I input x output y, parseTestFile I input = .ok x ∧ testsToJsonString x = some output ∧
    parseTestFile I output = .ok y ∧
    decide ((x.flatMap fun t => t.blocks.map fun b => b.header.map fun h => h.number.value) = [some none] ∧
      (y.flatMap fun t => t.blocks.map fun b => b.header.map fun h => h.number.value) = [some (some 0)]) = true :=
  ⟨noFiles, bytes% r#"{"t":{"blocks":[{"blockHeader":{"gasLimit":"1"}}],"postState":{}}}"#, rewrittenTests_ok (by decide +kernel)⟩

/-- the token that a transaction of an old test transfers is never written -/
theorem c71_token_neg : ∃ I input x output y, parseTestFile I input = .ok x ∧ testsToJsonString x = some output ∧
    parseTestFile I output = .ok y ∧
    decide ((testTransactions x).map (fun t => t.token.isSome) = [true] ∧ (testTransactions y).map (fun t => t.token.isSome) = [false]) = true :=
  ⟨noFiles, bytes% r#"{"t":{"blocks":[{"results":[{}],"transactions":[{"from":"address:a","to":"sc:c","function":"f",
    "esdt":{"tokenIdentifier":"str:T","value":"5"}}],"blockHeader":{}}],"postState":{}}}"#, rewrittenTests_ok (by decide +kernel)⟩

/-- a call without a receiver is a deployment in the rewritten file -/
theorem c71_receiver_neg : ∃ I input x output y, parseTestFile I input = .ok x ∧ testsToJsonString x = some output ∧
    parseTestFile I output = .ok y ∧
    decide ((testTransactions x).map (fun t => t.kind) = [.scCall] ∧ (testTransactions y).map (fun t => t.kind) = [.scDeploy]) = true :=
  ⟨noFiles, bytes% r#"{"t":{"blocks":[{"results":[{}],"transactions":[{"from":"address:a"}],"blockHeader":{}}],"postState":{}}}"#,
    rewrittenTests_ok (by decide +kernel)⟩

/-- convert, write and read -/
def rereadConverted (I : Interpreter) (input : Bytes) : Option (JScenario × JScenario) :=
  match parseTestFile I input with
  | .error _ => none
  | .ok x => match convertTests x with
    | none => none
    | some s => match scenarioToJsonString s with
      | none => none
      | some output => match parseScenarioFile I output with
        | .error _ => none
        | .ok y => some (s, y)

theorem rereadConverted_ok {I : Interpreter} {input : Bytes} {P : JScenario → JScenario → Bool}
    (h : (rereadConverted I input).any (fun p => P p.1 p.2) = true) :
    ∃ x s output y, parseTestFile I input = .ok x ∧ convertTests x = some s ∧ scenarioToJsonString s = some output ∧
      parseScenarioFile I output = .ok y ∧ P s y = true := by
  unfold rereadConverted at h
  split at h
  · cases h
  · rename_i x hx
    split at h
    · cases h
    · rename_i s hs
      split at h
      · cases h
      · rename_i output ho
        split at h
        · cases h
        · rename_i y hy
          exact ⟨x, s, output, y, hx, hs, ho, hy, h⟩

/-- the nonce of a transaction of an old test is lost when the converted scenario is written -/
theorem c71_nonce_neg : ∃ I input x s output y, parseTestFile I input = .ok x ∧ convertTests x = some s ∧
    scenarioToJsonString s = some output ∧ parseScenarioFile I output = .ok y ∧
    decide ((transactions s).map (fun t => t.nonce.value) = [7] ∧ (transactions y).map (fun t => t.nonce.value) = [0]) = true :=
  ⟨noFiles, bytes% r#"{"t":{"blocks":[{"results":[{}],"transactions":[{"nonce":"7","from":"address:a","to":"sc:c","function":"f"}]}],
    "postState":{}}}"#, rereadConverted_ok (by decide +kernel)⟩

end Arwen.Props
