import Verif.Props.RewriteSteps
import Verif.Props.Json
import Verif.Mandos.ScenarioDec
/-!
C62: a scenario that is written to a file is read back as the same scenario.
-/
namespace Arwen.Props
open Arwen.Mandos Arwen.Spec

variable {I : Interpreter}

/-! ### Steps -/

/-- the fields of a step, and its type -/
def stepF {σ : Type} (f : Bytes → Json → σ → Parsed σ) (k : Bytes) (v : Json) (s : σ × Bytes) : Parsed (σ × Bytes) :=
  (f k v s.1).bind fun r => if k = Word.step.text then (parseStr v).map fun t => (r, t) else .ok (r, s.2)

section
variable {σ : Type} {f : Bytes → Json → σ → Parsed σ}

theorem stepF_fields {l : List (Bytes × Json)} {s s' : σ × Bytes} (h : fields (stepF f) l s = .ok s') :
    fields f l s.1 = .ok s'.1 ∧ stepType l s.2 = .ok s'.2 := by
  induction l generalizing s with
  | nil => injection h with h; rw [← h]; exact ⟨rfl, rfl⟩
  | cons p l ih =>
    obtain ⟨k, v⟩ := p
    obtain ⟨a, ha, h⟩ := ebind_ok h
    obtain ⟨r, hr, ha⟩ := ebind_ok ha
    obtain ⟨h1, h2⟩ := ih h
    simp only [fields, hr, stepType]
    split at ha
    · rename_i hk
      obtain ⟨t, ht, ha⟩ := map_ok ha
      rw [if_pos hk, ht]
      cases ha
      exact ⟨h1, h2⟩
    · rename_i hk
      rw [if_neg hk]
      cases ha
      exact ⟨h1, h2⟩

theorem step_start {init : σ} (w : Word) (h : ∀ j, f Word.step.text j init = .ok init) :
    Built (stepF f) (init, []) (put .step (strJ w.text) (some [])) (init, w.text) [.step] := by
  refine built_put built_nil (p := parseStr) (a := w.text) .step _ (str_back (quotable_word w)) (fun j hj => ?_)
  simp only [stepF, h, Except.bind, if_true, hj]
  rfl

theorem step_putIf {init : σ × Bytes} {m : Option Pairs} {s : σ} {t : Bytes} {ks : List Word} (h : Built (stepF f) init m (s, t) ks)
    {α : Type} {p : Json → Parsed α} {a : α} {v : Option Json} {c : Bool} (w : Word) (s' : σ) (hv : c = true → Back p v a)
    (hf : c = true → ∀ j, p j = .ok a → f w.text j s = .ok s') (hc : c = false → s = s') (hw : w ∉ ks := by decide)
    (hs : w ≠ .step := by decide) : Built (stepF f) init (putIf c w v m) (s', t) (w :: ks) := by
  refine built_putIf h w _ hv ?_ ?_ hw
  · intro e j hj
    simp only [stepF, hf e j hj, Except.bind]
    rw [if_neg (fun c => hs (Word.text_inj c))]
  · intro e
    rw [hc e]

theorem step_put {init : σ × Bytes} {m : Option Pairs} {s : σ} {t : Bytes} {ks : List Word} (h : Built (stepF f) init m (s, t) ks)
    {α : Type} {p : Json → Parsed α} {a : α} {v : Option Json} (w : Word) (s' : σ) (hv : Back p v a)
    (hf : ∀ j, p j = .ok a → f w.text j s = .ok s') (hw : w ∉ ks := by decide) (hs : w ≠ .step := by decide) :
    Built (stepF f) init (put w v m) (s', t) (w :: ks) :=
  step_putIf (c := true) h w s' (fun _ => hv) (fun _ => hf) (fun e => by cases e) hw hs

theorem step_back {init s : σ} {w : Word} {m : Option Pairs} {ks : List Word} (h : Built (stepF f) (init, []) m (s, w.text) ks) {x : JStep}
    (hp : ∀ l, fields f l init = .ok s → parseStepOf I w.text l = .ok x) : Back (parseStep I) (done m) x := by
  refine back_mono (built_back h) (fun j h => ?_)
  obtain ⟨l, hl, h⟩ := ebind_ok h
  obtain ⟨h1, h2⟩ := stepF_fields h
  simp only [parseStep, hl, Except.bind, h2]
  exact hp l h1
end

/-- what the parser makes of a `setState` step -/
structure WSetState (I : Interpreter) (x : JSetState) : Prop where
  comment : Quotable x.comment
  accounts : ∀ a ∈ x.accounts, WAccount I a ∧ Placed I a.address
  addresses : (x.accounts.map fun a => a.address.original).Nodup
  previous : ∀ b, x.previous = some b → WBlockInfo I b
  current : ∀ b, x.current = some b → WBlockInfo I b
  blockHashes : ∀ h ∈ x.blockHashes, Text (parseBytesS I) h h.original
  newAddresses : ∀ a ∈ x.newAddresses, WNewAddress I a

/-- what the parser makes of a transaction step -/
structure WTxStep (I : Interpreter) (kind : JKind) (x : JTxStep) : Prop where
  id : Quotable x.id
  comment : Quotable x.comment
  tx : ∀ t, x.tx = some t → WTx I t ∧ t.kind = kind
  expect : ∀ r, x.expect = some r → WResult I r ∧ kind.isContractTx = true

/-- what the parser makes of a step -/
def WStep (I : Interpreter) : JStep → Prop
  | .external comment path => Quotable comment ∧ Quotable path
  | .setState x => WSetState I x
  | .checkState comment accounts => Quotable comment ∧ ∀ c, accounts = some c → WChkAccounts I c
  | .dumpState comment => Quotable comment
  | .tx x => ∃ kind, WTxStep I kind x

theorem wsetState_fields {l : List (Bytes × Json)} {x : JSetState} (hl : PairsOk l) (h : fields (setStateField I) l {} = .ok x) :
    WSetState I x := by
  refine fields_inv (P := WSetState I) ?_ hl ⟨quotable_nil, by simp, by simp, (fun _ e => by cases e), (fun _ e => by cases e), by simp, by simp⟩ h
  intro k v s s' _ hv hs h
  unfold setStateField at h
  split at h
  · cases h
    exact hs
  · obtain ⟨y, hy, h⟩ := map_ok h
    cases h
    exact { hs with comment := parseStr_inv hv hy }
  · obtain ⟨y, hy, h⟩ := map_ok h
    cases h
    obtain ⟨h1, h2⟩ := accounts_read hv hy
    exact { hs with accounts := h1, addresses := h2 }
  · obtain ⟨y, hy, h⟩ := map_ok h
    cases h
    exact { hs with newAddresses := list_inv (fun _ _ hj h => wnewAddress_parse hj h) hv hy }
  · obtain ⟨y, hy, h⟩ := map_ok h
    cases h
    exact { hs with previous := fun b e => by cases e; exact wblockInfo_parse hv hy }
  · obtain ⟨y, hy, h⟩ := map_ok h
    cases h
    exact { hs with current := fun b e => by cases e; exact wblockInfo_parse hv hy }
  · obtain ⟨y, hy, h⟩ := map_ok h
    cases h
    exact { hs with blockHashes := list_inv (fun _ _ hj h => bytesS_inv hj h) hv hy }
  · cases h

theorem wtxStep_fields {kind : JKind} {l : List (Bytes × Json)} {x : JTxStep} (hl : PairsOk l)
    (h : fields (txStepField I kind) l {} = .ok x) : WTxStep I kind x := by
  refine fields_inv (P := WTxStep I kind) ?_ hl ⟨quotable_nil, quotable_nil, (fun _ e => by cases e), (fun _ e => by cases e)⟩ h
  intro k v s s' _ hv hs h
  unfold txStepField at h
  split at h
  · cases h
    exact hs
  · obtain ⟨y, hy, h⟩ := map_ok h
    cases h
    exact { hs with id := parseStr_inv hv hy }
  · obtain ⟨y, hy, h⟩ := map_ok h
    cases h
    exact { hs with comment := parseStr_inv hv hy }
  · obtain ⟨y, hy, h⟩ := map_ok h
    cases h
    exact { hs with tx := fun t e => by cases e; exact wtx_parse hv hy }
  · generalize ht : s.tx = g at h
    cases g with
    | none => cases h
    | some t =>
      dsimp only at h
      split at h
      · rename_i hc
        obtain ⟨y, hy, h⟩ := map_ok h
        cases h
        rw [(hs.tx t ht).2] at hc
        exact { hs with tx := fun t' e => hs.tx t' (ht.trans e), expect := fun r e => by cases e; exact ⟨wresult_parse hv hy, hc⟩ }
      · cases h
  · cases h

theorem wstep_of {t : Bytes} {l : List (Bytes × Json)} {x : JStep} (hl : PairsOk l) (h : parseStepOf I t l = .ok x) : WStep I x := by
  unfold parseStepOf at h
  split at h
  · obtain ⟨y, hy, h⟩ := map_ok h
    cases h
    refine fields_inv (f := externalField) (P := fun s : Bytes × Bytes => Quotable s.1 ∧ Quotable s.2) ?_ hl ⟨quotable_nil, quotable_nil⟩ hy
    intro k v s s' _ hv hs h
    unfold externalField at h
    split at h
    · cases h
      exact hs
    · obtain ⟨y, hy, h⟩ := map_ok h
      cases h
      exact ⟨parseStr_inv hv hy, hs.2⟩
    · obtain ⟨y, hy, h⟩ := map_ok h
      cases h
      exact ⟨hs.1, parseStr_inv hv hy⟩
    · cases h
  · obtain ⟨y, hy, h⟩ := map_ok h
    cases h
    exact wsetState_fields hl hy
  · obtain ⟨y, hy, h⟩ := map_ok h
    cases h
    refine fields_inv (f := checkStateField I) (P := fun s : Bytes × Option JChkAccounts => Quotable s.1 ∧ ∀ c, s.2 = some c → WChkAccounts I c)
      ?_ hl ⟨quotable_nil, (fun _ e => by cases e)⟩ hy
    intro k v s s' _ hv hs h
    unfold checkStateField at h
    split at h
    · cases h
      exact hs
    · obtain ⟨y, hy, h⟩ := map_ok h
      cases h
      exact ⟨parseStr_inv hv hy, hs.2⟩
    · obtain ⟨y, hy, h⟩ := map_ok h
      cases h
      exact ⟨hs.1, fun c e => by cases e; exact wchkAccounts_parse hv hy⟩
    · cases h
  · obtain ⟨y, hy, h⟩ := map_ok h
    cases h
    refine fields_inv (f := dumpStateField) (P := Quotable) ?_ hl quotable_nil hy
    intro k v s s' _ hv hs h
    unfold dumpStateField at h
    split at h
    · cases h
      exact hs
    · exact parseStr_inv hv h
    · cases h
  · obtain ⟨y, hy, h⟩ := map_ok h
    cases h
    exact ⟨_, wtxStep_fields hl hy⟩
  · obtain ⟨y, hy, h⟩ := map_ok h
    cases h
    exact ⟨_, wtxStep_fields hl hy⟩
  · obtain ⟨y, hy, h⟩ := map_ok h
    cases h
    exact ⟨_, wtxStep_fields hl hy⟩
  · obtain ⟨y, hy, h⟩ := map_ok h
    cases h
    exact ⟨_, wtxStep_fields hl hy⟩
  · obtain ⟨y, hy, h⟩ := map_ok h
    cases h
    exact ⟨_, wtxStep_fields hl hy⟩
  · cases h

theorem wstep_parse {j : Json} {x : JStep} (hj : Printable j) (h : parseStep I j = .ok x) : WStep I x := by
  obtain ⟨l, hl, h⟩ := ebind_ok h
  obtain ⟨t, ht, h⟩ := ebind_ok h
  rw [asMap_ok hl] at hj
  exact wstep_of (printable_map hj) h

theorem comment_step {σ : Type} {f : Bytes → Json → σ → Parsed σ} {init : σ × Bytes} {m : Option Pairs} {s : σ} {t : Bytes}
    {ks : List Word} (h : Built (stepF f) init m (s, t) ks) {comment : Bytes} (hq : Quotable comment) (s' : σ)
    (hf : ∀ j, parseStr j = .ok comment → f Word.comment.text j s = .ok s') (hc : comment = [] → s = s') (hw : Word.comment ∉ ks := by decide) :
    Built (stepF f) init (putIf (decide (comment ≠ [])) .comment (strJ comment) m) (s', t) (.comment :: ks) :=
  step_putIf h .comment s' (fun _ => str_back hq) (fun _ => hf) (fun e => hc (by simpa using e)) hw

theorem setState_back {x : JSetState} (hx : WSetState I x) (hk : KeptStep (.setState x)) : Back (parseStep I) (JStep.setState x).json (.setState x) := by
  obtain ⟨hk1, hk2⟩ := hk
  have b0 := step_start (f := setStateField I) (init := {}) .setState (fun j => by simp only [setStateField, Word.of?_text])
  have b1 := comment_step b0 hx.comment { comment := x.comment } (fun j h => by simp only [setStateField, Word.of?_text, h]; rfl)
    (fun e => by rw [e])
  have b2 := step_putIf b1 (c := decide (x.accounts ≠ [])) (v := accountsJson x.accounts) .accounts
    { comment := x.comment, accounts := x.accounts }
    (fun _ => accounts_back (fun a ha => ⟨hx.accounts a ha, hk1 a ha⟩) hx.addresses)
    (fun _ j h => by simp only [setStateField, Word.of?_text, h]; rfl) (fun e => by rw [show x.accounts = [] by simpa using e])
  have b3 := step_putIf b2 (c := decide (x.newAddresses ≠ [])) (v := listOf JNewAddress.json x.newAddresses) .newAddresses
    { comment := x.comment, accounts := x.accounts, newAddresses := x.newAddresses }
    (fun _ => listOf_back (p := parseNewAddress I) (fun a ha => newAddress_back (hx.newAddresses a ha) (hk2 a ha).1 (hk2 a ha).2))
    (fun _ j h => by simp only [setStateField, Word.of?_text, h]; rfl) (fun e => by rw [show x.newAddresses = [] by simpa using e])
  have block : ∀ {b : Option JBlockInfo}, (∀ i, b = some i → WBlockInfo I i) → b.isSome = true →
      Back (fun j => (parseBlockInfo I j).map some) (b.bind JBlockInfo.json) b := by
    intro b h e
    cases b with
    | none => cases e
    | some i => exact back_mono (blockInfo_back (h i rfl)) (fun j h => by rw [h]; rfl)
  have b4 := step_putIf b3 (c := x.previous.isSome) (v := x.previous.bind JBlockInfo.json) .previousBlockInfo
    { comment := x.comment, accounts := x.accounts, newAddresses := x.newAddresses, previous := x.previous } (block hx.previous)
    (fun _ j h => by
      obtain ⟨y, hy, h⟩ := map_ok h
      simp only [setStateField, Word.of?_text, hy, ← h]
      rfl)
    (fun e => by rw [show x.previous = none by simpa using e])
  have b5 := step_putIf b4 (c := x.current.isSome) (v := x.current.bind JBlockInfo.json) .currentBlockInfo
    { comment := x.comment, accounts := x.accounts, newAddresses := x.newAddresses, previous := x.previous, current := x.current }
    (block hx.current)
    (fun _ j h => by
      obtain ⟨y, hy, h⟩ := map_ok h
      simp only [setStateField, Word.of?_text, hy, ← h]
      rfl)
    (fun e => by rw [show x.current = none by simpa using e])
  have b6 := step_putIf b5 (c := decide (x.blockHashes ≠ [])) (v := listOf BytesS.json x.blockHashes) .blockHashes x
    (fun _ => listOf_back (p := parseBytesS I) (fun a ha => bytesS_back (hx.blockHashes a ha)))
    (fun _ j h => by
      have h : parseBytesSs I j = .ok x.blockHashes := h
      simp only [setStateField, Word.of?_text, h]
      rfl)
    (fun e => by
      have : x.blockHashes = [] := by simpa using e
      cases x
      simp only at this
      rw [this])
  exact step_back b6 (fun l h => by simp only [parseStepOf, Word.of?_text, h]; rfl)

theorem parseStepOf_kind (kind : JKind) (l : List (Bytes × Json)) :
    parseStepOf I kind.word.text l = (fields (txStepField I kind) l {}).map .tx := by
  cases kind <;> simp only [parseStepOf, JKind.word, Word.of?_text]

theorem txStep_back {kind : JKind} {x : JTxStep} (hx : WTxStep I kind x) (hk : KeptStep (.tx x)) :
    Back (parseStep I) (JStep.tx x).json (.tx x) := by
  obtain ⟨⟨t, ht, hk1⟩, hk2⟩ := hk
  obtain ⟨hw, hkind⟩ := hx.tx t ht
  subst hkind
  show Back (parseStep I) (x.tx.bind _) _
  rw [ht]
  have b0 := step_start (f := txStepField I t.kind) (init := {}) t.kind.word (fun j => by simp only [txStepField, Word.of?_text])
  have b1 := step_putIf b0 (c := decide (x.id ≠ [])) (v := strJ x.id) .txId { id := x.id } (fun _ => str_back hx.id)
    (fun _ j h => by simp only [txStepField, Word.of?_text, h]; rfl) (fun e => by rw [show x.id = [] by simpa using e])
  have b2 := comment_step b1 hx.comment { id := x.id, comment := x.comment } (fun j h => by simp only [txStepField, Word.of?_text, h]; rfl)
    (fun e => by rw [e])
  have b3 := step_put b2 (v := t.json) .tx { id := x.id, comment := x.comment, tx := some t } (tx_back hw hk1)
    (fun j h => by simp only [txStepField, Word.of?_text, h]; rfl)
  have hexp : (t.kind.isContractTx && x.expect.isSome) = true →
      Back (fun j => (parseResult I j).map some) (x.expect.bind JResult.json) x.expect := by
    intro e
    cases hr : x.expect with
    | none => rw [hr] at e; simp at e
    | some r => exact back_mono (result_back (hx.expect r hr).1 (hk2 r hr)) (fun j h => by rw [h]; rfl)
  have b4 := step_putIf b3 (c := t.kind.isContractTx && x.expect.isSome) (v := x.expect.bind JResult.json) .expect x hexp
    (fun e j h => by
      obtain ⟨y, hy, h⟩ := map_ok h
      rw [Bool.and_eq_true] at e
      simp only [txStepField, Word.of?_text, e.1, if_true, hy]
      show Except.ok _ = _
      dsimp only
      rw [h, ← ht])
    (fun e => by
      have : x.expect = none := by
        cases hr : x.expect with
        | none => rfl
        | some r => rw [(hx.expect r hr).2, hr] at e; cases e
      cases x
      simp only at this ht
      rw [this, ht])
  exact step_back b4 (fun l h => by rw [parseStepOf_kind, h]; rfl)

theorem step_json_back {x : JStep} (hx : WStep I x) (hk : KeptStep x) : Back (parseStep I) x.json x := by
  cases x with
  | external comment path =>
    have b0 := step_start (f := externalField) (init := ([], [])) .externalSteps (fun j => by simp only [externalField, Word.of?_text])
    have b1 := comment_step b0 hx.1 (comment, []) (fun j h => by simp only [externalField, Word.of?_text, h]; rfl) (fun e => by rw [e])
    have b2 := step_put b1 .path (comment, path) (str_back hx.2) (fun j h => by simp only [externalField, Word.of?_text, h]; rfl)
    exact step_back b2 (fun l h => by simp only [parseStepOf, Word.of?_text, h]; rfl)
  | setState x => exact setState_back hx hk
  | checkState comment accounts =>
    obtain ⟨c, rfl, hk⟩ := hk
    have b0 := step_start (f := checkStateField I) (init := ([], none)) .checkState (fun j => by simp only [checkStateField, Word.of?_text])
    have b1 := comment_step b0 hx.1 (comment, none) (fun j h => by simp only [checkStateField, Word.of?_text, h]; rfl) (fun e => by rw [e])
    have b2 := step_put b1 .accounts (comment, some c) (chkAccounts_back (hx.2 c rfl) hk)
      (fun j h => by simp only [checkStateField, Word.of?_text, h]; rfl)
    exact step_back b2 (fun l h => by simp only [parseStepOf, Word.of?_text, h]; rfl)
  | dumpState comment =>
    have b0 := step_start (f := dumpStateField) (init := []) .dumpState (fun j => by simp only [dumpStateField, Word.of?_text])
    have b1 := comment_step b0 hx comment (fun j h => by simp only [dumpStateField, Word.of?_text, h]) (fun e => by rw [e])
    exact step_back b1 (fun l h => by simp only [parseStepOf, Word.of?_text, h]; rfl)
  | tx x =>
    obtain ⟨kind, hx⟩ := hx
    exact txStep_back hx hk

/-! ### Scenarios -/

/-- what the parser makes of a scenario -/
structure WScenario (I : Interpreter) (x : JScenario) : Prop where
  name : Quotable x.name
  comment : Quotable x.comment
  steps : ∀ s ∈ x.steps, WStep I s

theorem wscenario_parse {j : Json} {x : JScenario} (hj : Printable j) (h : parseScenario I j = .ok x) : WScenario I x := by
  obtain ⟨l, hl, h⟩ := ebind_ok h
  rw [asMap_ok hl] at hj
  refine fields_inv (P := WScenario I) ?_ (printable_map hj) ⟨quotable_nil, quotable_nil, by simp⟩ h
  intro k v s s' _ hv hs h
  unfold scenarioField at h
  split at h
  · obtain ⟨y, hy, h⟩ := map_ok h
    cases h
    exact { hs with name := parseStr_inv hv hy }
  · obtain ⟨y, hy, h⟩ := map_ok h
    cases h
    exact { hs with comment := parseStr_inv hv hy }
  · split at h
    · cases h
      exact { hs with }
    · cases h
  · obtain ⟨y, hy, h⟩ := map_ok h
    cases h
    exact { hs with }
  · obtain ⟨y, hy, h⟩ := map_ok h
    cases h
    exact { hs with steps := list_inv (fun _ _ hj h => wstep_parse hj h) hv hy }
  · cases h

theorem gas_back (g : JGas) : Back parseGas (strJ g.word.text) g := by
  refine ⟨.str g.word.text, rfl, ?_, .str (quotable_word _)⟩
  cases g <;> simp only [parseGas, parseStr, Except.bind, JGas.word, Word.of?_text]

theorem scenario_back {x : JScenario} (hx : WScenario I x) (hk : KeptScenario x) : Back (parseScenario I) x.json x := by
  have b1 := built_putIf (f := scenarioField I) (init := {}) built_nil (c := decide (x.name ≠ [])) (v := strJ x.name) .name
    { name := x.name } (fun _ => str_back hx.name) (fun _ j h => by simp only [scenarioField, Word.of?_text, h]; rfl)
    (fun e => by rw [show x.name = [] by simpa using e])
  have b2 := built_putIf b1 (c := decide (x.comment ≠ [])) (v := strJ x.comment) .comment { name := x.name, comment := x.comment }
    (fun _ => str_back hx.comment) (fun _ j h => by simp only [scenarioField, Word.of?_text, h]; rfl)
    (fun e => by rw [show x.comment = [] by simpa using e])
  have b3 := built_putIf b2 (c := !x.checkGas) (v := some (.bool false)) (p := fun j => match j with | .bool b => .ok b | _ => reject)
    (a := false) .checkGas { name := x.name, comment := x.comment, checkGas := x.checkGas }
    (fun _ => ⟨.bool false, rfl, rfl, .bool _⟩)
    (fun e j h => by
      split at h
      · cases h
        simp only [scenarioField, Word.of?_text]
        rw [show x.checkGas = false by simpa using e]
      · cases h)
    (fun e => by rw [show x.checkGas = true by simpa using e])
  have b4 := built_put b3 (v := strJ x.gas.word.text) .gasSchedule
    { name := x.name, comment := x.comment, checkGas := x.checkGas, gas := x.gas } (gas_back x.gas)
    (fun j h => by simp only [scenarioField, Word.of?_text, h]; rfl)
  have b5 := built_put b4 (v := listOf JStep.json x.steps) .steps
    { name := x.name, comment := x.comment, checkGas := x.checkGas, gas := x.gas, steps := x.steps }
    (listOf_back (p := parseStep I) (fun s hs => step_json_back (hx.steps s hs) (hk s hs)))
    (fun j h => by simp only [scenarioField, Word.of?_text, h]; rfl)
  exact built_back b5

/-- **C62.** A scenario that was read from a file, and of which nothing is left out when it is written (`KeptScenario`), is written to a file that
is read as the same scenario: the same steps, values, checks and original expressions. -/
theorem c62_rewrite (I : Interpreter) (input : Bytes) (x : JScenario) (h : parseScenarioFile I input = .ok x) (hk : KeptScenario x) :
    ∃ output, scenarioToJsonString x = some output ∧ parseScenarioFile I output = .ok x := by
  unfold parseScenarioFile at h
  split at h
  · rename_i j hj
    obtain ⟨j', e, hp⟩ := c39_parsed input _ hj
    cases e
    obtain ⟨k, h1, h2, h3⟩ := scenario_back (wscenario_parse hp h) hk
    refine ⟨jsonString k ++ [newline], by rw [scenarioToJsonString, h1]; rfl, ?_⟩
    have hb : ∀ b, k ≠ .bool b := by
      intro b e
      rw [e] at h2
      cases h2
    have := c39_spaces k h3 hb [] [newline] (by simp) (by simp [IsSpace, newline])
    rw [List.nil_append] at this
    unfold parseScenarioFile
    rw [this]
    exact h2
  · cases h

/-! ### Examples -/

instance (x : JTxToken) : Decidable (KeptTxToken x) := by unfold KeptTxToken; infer_instance
instance (x : JInstance) : Decidable (KeptInstance x) :=
  decidable_of_iff ((x.balance.original = [] → x.balance.value = none) ∧ (x.uri.value = [] → x.uri.original = none))
    ⟨fun h => ⟨h.1, h.2⟩, fun h => ⟨h.1, h.2⟩⟩
instance (x : JToken) : Decidable (PlainAmount x) :=
  decidable_of_iff (x.compact?.isSome = true) (by rw [Option.isSome_iff_exists]; exact compact_iff)
instance (x : JToken) : Decidable (KeptToken x) :=
  decidable_of_iff ((PlainAmount x → x.lastNonce = {} ∧ ∀ i ∈ x.instances, i = { balance := i.balance } ∧ i.balance.value ≠ none) ∧
    (¬ PlainAmount x → x.instances ≠ [{}] ∧ ∀ i ∈ x.instances, KeptInstance i)) ⟨fun h => ⟨h.1, h.2⟩, fun h => ⟨h.1, h.2⟩⟩
instance (x : JAccount) : Decidable (KeptAccount x) :=
  decidable_of_iff (x.shard = {} ∧ (x.username.value = [] → x.username.original = []) ∧ (x.owner.value = [] → x.owner.original = []) ∧
    ∀ t ∈ x.tokens, KeptToken t) ⟨fun h => ⟨h.1, h.2.1, h.2.2.1, h.2.2.2⟩, fun h => ⟨h.1, h.2, h.3, h.4⟩⟩
instance (x : ChkBytes) : Decidable (KeptBytes x) := by unfold KeptBytes; infer_instance
instance (x : JChkInstance) : Decidable (KeptChkInstance x) :=
  decidable_of_iff ((x.nonce.original = [] → x.nonce = .missing) ∧ (x.balance.original = [] → x.balance = .missing) ∧ KeptBytes x.creator ∧
    (x.royalties.original = [] → x.royalties = .missing) ∧ KeptBytes x.hash ∧ x.uri = .missing ∧ KeptBytes x.attributes)
    ⟨fun h => ⟨h.1, h.2.1, h.2.2.1, h.2.2.2.1, h.2.2.2.2.1, h.2.2.2.2.2.1, h.2.2.2.2.2.2⟩, fun h => ⟨h.1, h.2, h.3, h.4, h.5, h.6, h.7⟩⟩
instance (x : JChkToken) : Decidable (PlainChkAmount x) :=
  decidable_of_iff (x.compact?.isSome = true) (by rw [Option.isSome_iff_exists]; exact chkCompact_iff)
instance (x : JChkToken) : Decidable (KeptChkToken x) :=
  decidable_of_iff ((PlainChkAmount x → x.lastNonce = {} ∧ ∀ i ∈ x.instances, i = { balance := i.balance } ∧ i.balance ≠ .missing) ∧
    (¬ PlainChkAmount x → x.instances ≠ [.fresh] ∧ ∀ i ∈ x.instances, KeptChkInstance i)) ⟨fun h => ⟨h.1, h.2⟩, fun h => ⟨h.1, h.2⟩⟩
instance (x : JChkAccount) : Decidable (KeptChkAccount x) :=
  decidable_of_iff ((x.moreTokens = true → x.tokens ≠ []) ∧ ∀ t ∈ x.tokens, KeptChkToken t) ⟨fun h => ⟨h.1, h.2⟩, fun h => ⟨h.1, h.2⟩⟩
instance (x : JTx) : Decidable (KeptTx x) :=
  decidable_of_iff (x.nonce = {} ∧ (x.kind.hasSender = true → x.sender.original ≠ []) ∧ (x.kind.hasReceiver = true → x.to.original ≠ []) ∧
    (x.kind ≠ .scDeploy → x.code.original = []) ∧ (x.kind = .validatorReward → x.args = []) ∧ ∀ t ∈ x.token.toList, KeptTxToken t)
    ⟨fun h => ⟨h.1, h.2.1, h.2.2.1, h.2.2.2.1, h.2.2.2.2.1, fun t e => h.2.2.2.2.2 t (by rw [e]; simp)⟩,
      fun h => ⟨h.1, h.2, h.3, h.4, h.5, fun t e => h.6 t (by simpa using e)⟩⟩
instance (x : JLog) : Decidable (KeptLog x) :=
  decidable_of_iff (x.address.original ≠ none ∧ x.identifier.original ≠ none ∧ x.data.original ≠ none)
    ⟨fun h => ⟨h.1, h.2.1, h.2.2⟩, fun h => ⟨h.1, h.2, h.3⟩⟩
instance : (x : JStep) → Decidable (KeptStep x)
  | .external _ _ => isTrue trivial
  | .setState x =>
    inferInstanceAs (Decidable ((∀ a ∈ x.accounts, KeptAccount a) ∧ ∀ a ∈ x.newAddresses, a.creator.original ≠ [] ∧ a.new.original ≠ []))
  | .checkState _ none => isFalse (by rintro ⟨c, h, _⟩; cases h)
  | .checkState _ (some c) =>
    decidable_of_iff (∀ a ∈ c.accounts, KeptChkAccount a) ⟨fun h => ⟨c, rfl, h⟩, fun ⟨d, e, h⟩ => by cases e; exact h⟩
  | .dumpState _ => isTrue trivial
  | .tx x =>
    decidable_of_iff ((∃ t ∈ x.tx.toList, KeptTx t) ∧ ∀ r ∈ x.expect.toList, ∀ l ∈ r.logs, KeptLog l)
      ⟨fun ⟨⟨t, ht, h⟩, h2⟩ => ⟨⟨t, by simpa using ht, h⟩, fun r hr => h2 r (by simpa using hr)⟩,
        fun ⟨⟨t, ht, h⟩, h2⟩ => ⟨⟨t, by simpa using ht, h⟩, fun r hr => h2 r (by simpa using hr)⟩⟩
instance (x : JScenario) : Decidable (KeptScenario x) := by unfold KeptScenario; infer_instance

/-- an interpreter without files -/
def noFiles : Interpreter := { resolver := none, keccak := fun b => b }

open Lean in
/-- the bytes of a text, as a list of numbers -/
macro "bytes% " s:str : term => do
  let l := s.getString.toUTF8.toList.toArray.map fun b => Syntax.mkNumLit (toString b)
  `([$[$l],*])

/-- a file with every kind of step -/
def sampleFile : Bytes := bytes% r#"{
  "name": "sample", "comment": "all steps", "checkGas": false, "gasSchedule": "v3",
  "steps": [
    { "step": "externalSteps", "path": "other.scen.json" },
    { "step": "setState", "comment": "start",
      "accounts": {
        "address:owner": { "nonce": "0x10", "balance": "1,000,000", "username": "str:me",
          "esdt": {
            "str:FUN-123456": "5",
            "str:NFT-123456": {
              "instances": [
                { "nonce": "1", "balance": "1", "creator": "address:owner", "royalties": "2000", "hash": "keccak256:str:h",
                  "uri": [ "str:u", "u8:7" ], "attributes": "str:a" },
                { "nonce": "2", "balance": "1" } ],
              "lastNonce": "2", "roles": [ "ESDTRoleNFTCreate" ], "frozen": "true" } } },
        "sc:contract": { "storage": { "str:k": "str:v", "": [ "1", { "b": "2", "a": "3" } ] }, "code": "str:code", "owner": "address:owner",
          "asyncCallData": "f@01" } },
      "newAddresses": [ { "creatorAddress": "address:owner", "creatorNonce": "16", "newAddress": "sc:new" } ],
      "currentBlockInfo": { "blockTimestamp": "10", "blockRound": "3" },
      "blockHashes": [ "0x01" ] },
    { "step": "scDeploy", "txId": "1",
      "tx": { "from": "address:owner", "contractCode": "str:code", "value": "0", "arguments": [ "5" ], "gasLimit": "100", "gasPrice": "0" },
      "expect": { "status": "0", "gas": "*", "refund": "*" } },
    { "step": "scCall",
      "tx": { "from": "address:owner", "to": "sc:contract", "value": "3", "esdt": { "tokenIdentifier": "str:FUN-123456", "value": "5" },
        "function": "go", "arguments": [ "str:x", [ "1", "2" ] ], "gasLimit": "100", "gasPrice": "1" },
      "expect": { "out": [ "*", "7" ], "status": "", "message": "str:fine",
        "logs": [ { "address": "sc:contract", "identifier": "str:ev", "topics": [ "1", "*" ], "data": "" } ] } },
    { "step": "scQuery", "tx": { "to": "sc:contract", "function": "get", "arguments": [] }, "expect": { "out": [ "" ], "logs": "0xab" } },
    { "step": "transfer", "tx": { "from": "address:owner", "to": "address:other", "value": "1", "gasLimit": "1", "gasPrice": "1" } },
    { "step": "validatorReward", "tx": { "to": "address:owner", "value": "1" } },
    { "step": "checkState",
      "accounts": {
        "address:owner": { "nonce": "*", "balance": "5",
          "esdt": { "str:FUN-123456": "*", "str:NFT-123456": { "nonce": "1", "balance": "1", "creator": "address:owner" }, "+": "" } },
        "sc:contract": { "storage": { "str:k": "str:v", "+": "" }, "code": "*" }, "address:other": { "storage": "*", "esdt": "*" },
        "+": "" } },
    { "step": "dumpState", "comment": "end" } ] }"#

/-- the hypotheses of `c62_rewrite` hold of a file with every kind of step -/
example : ∃ x, parseScenarioFile noFiles sampleFile = .ok x ∧ KeptScenario x ∧ x.steps.length = 9 := by
  have h : (match parseScenarioFile noFiles sampleFile with
    | .ok x => decide (KeptScenario x) && decide (x.steps.length = 9)
    | .error _ => false) = true := by decide +kernel
  split at h
  · rename_i x hx
    rw [Bool.and_eq_true, decide_eq_true_eq, decide_eq_true_eq] at h
    exact ⟨x, hx, h⟩
  · cases h

/-! ### What is not kept -/

/-- the accounts that the scenario sets -/
def setAccounts (x : JScenario) : List JAccount := x.steps.flatMap fun s => match s with | .setState s => s.accounts | _ => []

/-- the accounts that the scenario checks -/
def checkedAccounts (x : JScenario) : List JChkAccount :=
  x.steps.flatMap fun s => match s with | .checkState _ (some c) => c.accounts | _ => []

/-- the transactions of the scenario -/
def transactions (x : JScenario) : List JTx := x.steps.flatMap fun s => match s with | .tx t => t.tx.toList | _ => []

/-- the shard of an account is never written, so an account of shard 1 is put into shard 0 by the rewritten file -/
theorem c62_shard_neg : ∃ I input x output y, parseScenarioFile I input = .ok x ∧ scenarioToJsonString x = some output ∧
    parseScenarioFile I output = .ok y ∧
    decide ((setAccounts x).map (fun a => a.shard.value) = [1] ∧ (setAccounts y).map (fun a => a.shard.value) = [0]) = true :=
  ⟨noFiles, bytes% r#"{"steps":[{"step":"setState","accounts":{"address:a":{"shard":"1"}}}]}"#, rewritten_ok (by decide +kernel)⟩

/-- the nonce of a transaction is never written -/
theorem c62_nonce_neg : ∃ I input x output y, parseScenarioFile I input = .ok x ∧ scenarioToJsonString x = some output ∧
    parseScenarioFile I output = .ok y ∧
    decide ((transactions x).map (fun t => t.nonce.value) = [7] ∧ (transactions y).map (fun t => t.nonce.value) = [0]) = true :=
  ⟨noFiles, bytes% r#"{"steps":[{"step":"transfer","tx":{"nonce":"7","from":"address:a","to":"address:b"}}]}"#,
    rewritten_ok (by decide +kernel)⟩

/-- the arguments of a reward are accepted and lost -/
theorem c62_arguments_neg : ∃ I input x output y, parseScenarioFile I input = .ok x ∧ scenarioToJsonString x = some output ∧
    parseScenarioFile I output = .ok y ∧
    decide ((transactions x).map (fun t => t.args.length) = [1] ∧ (transactions y).map (fun t => t.args.length) = [0]) = true :=
  ⟨noFiles, bytes% r#"{"steps":[{"step":"validatorReward","tx":{"to":"address:b","arguments":["1"]}}]}"#,
    rewritten_ok (by decide +kernel)⟩

/-- a single instance without nonce is written as a plain amount: its creator is lost -/
theorem c62_creator_neg : ∃ I input x output y, parseScenarioFile I input = .ok x ∧ scenarioToJsonString x = some output ∧
    parseScenarioFile I output = .ok y ∧
    decide (((setAccounts x).flatMap fun a => a.tokens.flatMap fun t => t.instances.map fun i => i.creator.value.length) = [32] ∧
      ((setAccounts y).flatMap fun a => a.tokens.flatMap fun t => t.instances.map fun i => i.creator.value.length) = [0]) = true :=
  ⟨noFiles, bytes% r#"{"steps":[{"step":"setState","accounts":{"address:a":{"esdt":{"str:T":{"balance":"1","creator":"address:a"}}}}}]}"#,
    rewritten_ok (by decide +kernel)⟩

/-- a check of the URI of a token is written with the creator, so another URI is expected by the rewritten file -/
theorem c62_uri_neg : ∃ I input x output y, parseScenarioFile I input = .ok x ∧ scenarioToJsonString x = some output ∧
    parseScenarioFile I output = .ok y ∧
    decide (((checkedAccounts x).flatMap fun a => a.tokens.flatMap fun t => t.instances.map fun i => i.uri.value) = [[117]] ∧
      ((checkedAccounts y).flatMap fun a => a.tokens.flatMap fun t => t.instances.map fun i => i.uri.value) = [[99]]) = true :=
  ⟨noFiles, bytes% r#"{"steps":[{"step":"checkState","accounts":{"address:a":{"esdt":
    {"str:T":{"nonce":"1","balance":"1","creator":"str:c","uri":"str:u"}}}}}]}"#,
    rewritten_ok (by decide +kernel)⟩

/-- a check of nothing but the balance of a token becomes a plain amount, which also expects that there is no creator: a check that was not
made before -/
theorem c62_amount_neg : ∃ I input x output y, parseScenarioFile I input = .ok x ∧ scenarioToJsonString x = some output ∧
    parseScenarioFile I output = .ok y ∧
    decide (((checkedAccounts x).flatMap fun a => a.tokens.flatMap fun t => t.instances.map fun i => i.creator.unspecified) = [true] ∧
      ((checkedAccounts y).flatMap fun a => a.tokens.flatMap fun t => t.instances.map fun i => i.creator.unspecified) = [false]) = true :=
  ⟨noFiles, bytes% r#"{"steps":[{"step":"checkState","accounts":{"address:a":{"esdt":{"str:T":{"balance":"1"}}}}}]}"#,
    rewritten_ok (by decide +kernel)⟩

/-- that other tokens are allowed is lost when no token is listed -/
theorem c62_more_neg : ∃ I input x output y, parseScenarioFile I input = .ok x ∧ scenarioToJsonString x = some output ∧
    parseScenarioFile I output = .ok y ∧
    decide ((checkedAccounts x).map (fun a => a.moreTokens) = [true] ∧ (checkedAccounts y).map (fun a => a.moreTokens) = [false]) = true :=
  ⟨noFiles, bytes% r#"{"steps":[{"step":"checkState","accounts":{"address:a":{"esdt":{"+":""}}}}]}"#, rewritten_ok (by decide +kernel)⟩

/-- the empty text is accepted for the balance zero of an instance, and lost: the balance is not set at all by the rewritten file -/
theorem c62_zero_neg : ∃ I input x output y, parseScenarioFile I input = .ok x ∧ scenarioToJsonString x = some output ∧
    parseScenarioFile I output = .ok y ∧
    decide (((setAccounts x).flatMap fun a => a.tokens.flatMap fun t => t.instances.map fun i => i.balance.value) = [some 0] ∧
      ((setAccounts y).flatMap fun a => a.tokens.flatMap fun t => t.instances.map fun i => i.balance.value) = [none]) = true :=
  ⟨noFiles, bytes% r#"{"steps":[{"step":"setState","accounts":{"address:a":{"esdt":{"str:T":{"nonce":"1","balance":""}}}}}]}"#,
    rewritten_ok (by decide +kernel)⟩

/-- a call without a sender is accepted and written with an empty sender, which is rejected -/
theorem c62_sender_neg : ∃ I input x output e, parseScenarioFile I input = .ok x ∧ scenarioToJsonString x = some output ∧
    parseScenarioFile I output = .error e :=
  ⟨noFiles, bytes% r#"{"steps":[{"step":"scCall","tx":{"to":"sc:c","function":"f"}}]}"#, unreadable_ok (by decide +kernel)⟩

/-- a log entry without data is accepted, and writing it dereferences a nil pointer -/
theorem c62_log_neg : ∃ I input x, parseScenarioFile I input = .ok x ∧ scenarioToJsonString x = none :=
  ⟨noFiles, bytes% r#"{"steps":[{"step":"scCall","tx":{"from":"address:a","to":"sc:c","function":"f"},
    "expect":{"logs":[{"address":"sc:c","identifier":"str:i","topics":[]}]}}]}"#, unwritable_ok (by decide +kernel)⟩

/-- a `checkState` step without accounts is accepted, and writing it dereferences a nil pointer -/
theorem c62_accounts_neg : ∃ I input x, parseScenarioFile I input = .ok x ∧ scenarioToJsonString x = none :=
  ⟨noFiles, bytes% r#"{"steps":[{"step":"checkState"}]}"#, unwritable_ok (by decide +kernel)⟩

/-- a transaction step without its transaction is accepted, and writing it dereferences a nil pointer -/
theorem c62_tx_neg : ∃ I input x, parseScenarioFile I input = .ok x ∧ scenarioToJsonString x = none :=
  ⟨noFiles, bytes% r#"{"steps":[{"step":"scCall","comment":"nothing"}]}"#, unwritable_ok (by decide +kernel)⟩

/-- the result of a transaction given before the transaction makes the parser dereference a nil pointer, instead of being rejected -/
theorem c62_expect_neg : ∃ I input, parseScenarioFile I input = .error .panic := by
  refine ⟨noFiles, bytes% r#"{"steps":[{"step":"scCall","expect":{},"tx":{"from":"address:a","to":"sc:c","function":"f"}}]}"#, ?_⟩
  have h : (match parseScenarioFile noFiles
      (bytes% r#"{"steps":[{"step":"scCall","expect":{},"tx":{"from":"address:a","to":"sc:c","function":"f"}}]}"#) with
    | .error .panic => true
    | _ => false) = true := by decide +kernel
  split at h
  · rename_i hx
    exact hx
  · cases h

end Arwen.Props
