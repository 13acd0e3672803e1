import Verif.Props.RewriteAccounts
/-!
Transactions and steps of scenarios are read back as they were written.
-/
namespace Arwen.Props
open Arwen.Mandos Arwen.Spec

variable {I : Interpreter}

/-! ### Transactions -/

/-- what the parser makes of a transaction -/
structure WTx (I : Interpreter) (x : JTx) : Prop where
  value : Text (parseBig I false) x.value x.value.original
  noValue : x.kind.hasValue = false → x.value = .zero
  token : ∀ t, x.token = some t → WTxToken I t
  sender : Address I x.sender
  noSender : x.kind.hasSender = false → x.sender = {}
  to : Address I x.to
  noReceiver : x.kind = .scDeploy → x.to = {}
  function : Quotable x.function
  noFunction : x.kind.hasFunction = false → x.function = []
  code : Text (parseBytesS I) x.code x.code.original
  args : ∀ a ∈ x.args, Tree (parseBytesT I) a a.original
  noArgs : x.kind = .transfer → x.args = []
  gasPrice : Text (parseU64 I) x.gasPrice x.gasPrice.original
  gasLimit : Text (parseU64 I) x.gasLimit x.gasLimit.original
  noGas : x.kind.hasGas = false → x.gasPrice = {} ∧ x.gasLimit = {}
  tokens : x.token ≠ none → x.kind.hasTokens = true

theorem bytesTs_inv {j : Json} {l : List BytesT} (hj : Printable j) (h : parseBytesTs I j = .ok l) :
    ∀ a ∈ l, Tree (parseBytesT I) a a.original :=
  list_inv (fun _ _ hj h => bytesT_inv hj h) hj h

theorem wtx_field {k : Bytes} {v : Json} {s s' : JTx} (hv : Printable v) (hs : WTx I s) (h : txField I k v s = .ok s') :
    WTx I s' ∧ s'.kind = s.kind := by
  unfold txField at h
  split at h
  · obtain ⟨y, hy, h⟩ := map_ok h
    cases h
    exact ⟨{ hs with }, rfl⟩
  · split at h
    · rename_i hc
      obtain ⟨y, hy, h⟩ := map_ok h
      cases h
      exact ⟨{ hs with sender := addressJson_inv hv hy, noSender := fun e => by rw [hc] at e; cases e }, rfl⟩
    · cases h
  · obtain ⟨t, ht, h⟩ := ebind_ok h
    split at h
    · split at h
      · cases h
        exact ⟨hs, rfl⟩
      · cases h
    · rename_i hc
      obtain ⟨y, hy, h⟩ := map_ok h
      cases h
      exact ⟨{ hs with to := .inr (address_inv (parseStr_inv hv ht) hy).2, noReceiver := fun e => absurd e hc }, rfl⟩
  · obtain ⟨t, ht, h⟩ := ebind_ok h
    split at h
    · rename_i hc
      cases h
      refine ⟨{ hs with function := parseStr_inv hv ht, noFunction := fun e => ?_ }, rfl⟩
      rcases hc with hc | hc
      · rw [hc] at e; cases e
      · exact hc
    · cases h
  · split at h
    · rename_i hc
      obtain ⟨y, hy, h⟩ := map_ok h
      cases h
      exact ⟨{ hs with value := big_inv hv hy, noValue := fun e => by rw [hc] at e; cases e }, rfl⟩
    · cases h
  · split at h
    · rename_i hc
      obtain ⟨y, hy, h⟩ := map_ok h
      cases h
      exact ⟨{ hs with token := fun t e => by cases e; exact wtxToken_parse hv hy, tokens := fun _ => hc }, rfl⟩
    · cases h
  · obtain ⟨y, hy, h⟩ := ebind_ok h
    split at h
    · cases h
    · rename_i hc
      cases h
      refine ⟨{ hs with args := bytesTs_inv hv hy, noArgs := fun e => ?_ }, rfl⟩
      cases y with
      | nil => rfl
      | cons a l => exact absurd ⟨e, by simp⟩ hc
  · obtain ⟨y, hy, h⟩ := ebind_ok h
    split at h
    · cases h
    · cases h
      exact ⟨{ hs with code := bytesS_inv hv hy }, rfl⟩
  · split at h
    · rename_i hc
      obtain ⟨y, hy, h⟩ := map_ok h
      cases h
      exact ⟨{ hs with gasPrice := u64_inv hv hy, noGas := fun e => by rw [hc] at e; cases e }, rfl⟩
    · cases h
  · split at h
    · rename_i hc
      obtain ⟨y, hy, h⟩ := map_ok h
      cases h
      exact ⟨{ hs with gasLimit := u64_inv hv hy, noGas := fun e => by rw [hc] at e; cases e }, rfl⟩
    · cases h
  · cases h

theorem wtx_parse {kind : JKind} {j : Json} {x : JTx} (hj : Printable j) (h : parseTx I kind j = .ok x) : WTx I x ∧ x.kind = kind := by
  obtain ⟨l, hl, h⟩ := ebind_ok h
  rw [asMap_ok hl] at hj
  refine fields_inv (P := fun x : JTx => WTx I x ∧ x.kind = kind) ?_ (printable_map hj) ?_ h
  · intro k v s s' _ hv ⟨hs, hk⟩ h
    obtain ⟨h1, h2⟩ := wtx_field hv hs h
    exact ⟨h1, h2.trans hk⟩
  · exact ⟨⟨big_zero, fun _ => rfl, (fun t e => by cases e), .inl rfl, fun _ => rfl, .inl rfl, fun _ => rfl, quotable_nil, fun _ => rfl,
      bytesS_empty, by simp, fun _ => rfl, u64_zero, u64_zero, fun _ => ⟨rfl, rfl⟩, fun e => absurd rfl e⟩, rfl⟩

theorem tx_back {x : JTx} (hx : WTx I x) (hk : KeptTx x) : Back (parseTx I x.kind) x.json x := by
  have h1 := built_putIf (f := txField I) (init := { kind := x.kind }) built_nil (c := x.kind.hasSender) (v := x.sender.json) .from
    { kind := x.kind, sender := x.sender } (fun e => address_back hx.sender (hk.sender e))
    (fun e j h => by simp only [txField, Word.of?_text, e, if_true, h]; rfl)
    (fun e => by rw [hx.noSender e])
  have h2 := built_putIf h1 (c := x.kind.hasReceiver) (v := x.to.json) .to
    { kind := x.kind, sender := x.sender, to := x.to } (fun e => address_back hx.to (hk.to e))
    (fun e j h => by
      have e : x.kind ≠ .scDeploy := by simpa [JKind.hasReceiver] using e
      obtain ⟨t, ht, h⟩ := ebind_ok h
      simp only [txField, Word.of?_text, ht, Except.bind, if_neg e, h]
      rfl)
    (fun e => by rw [hx.noReceiver (by simpa [JKind.hasReceiver] using e)])
  have h3 := built_putIf h2 (c := x.kind.hasValue) (v := x.value.json) .value
    { kind := x.kind, sender := x.sender, to := x.to, value := x.value } (fun e => big_back hx.value)
    (fun e j h => by simp only [txField, Word.of?_text, e, if_true, h]; rfl)
    (fun e => by rw [hx.noValue e])
  have htk : x.token.isSome = true → Back (fun j => (parseTxToken I j).map some) (x.token.bind JTxToken.json) x.token := by
    intro e
    cases ht : x.token with
    | none => rw [ht] at e; cases e
    | some t => exact back_mono (txToken_back (hx.token t ht) (hk.token t ht)) (fun j h => by rw [h]; rfl)
  have h4 := built_putIf h3 (c := x.token.isSome) (v := x.token.bind JTxToken.json) .esdt
    { kind := x.kind, sender := x.sender, to := x.to, value := x.value, token := x.token } htk
    (fun e j h => by
      have e2 := hx.tokens (by intro c; rw [c] at e; cases e)
      obtain ⟨y, hy, h⟩ := map_ok h
      simp only [txField, Word.of?_text, e2, if_true, hy, ← h]
      rfl)
    (fun e => by rw [show x.token = none by simpa using e])
  have h5 := built_putIf h4 (c := x.kind.hasFunction) (v := strJ x.function) .function
    { kind := x.kind, sender := x.sender, to := x.to, value := x.value, token := x.token, function := x.function }
    (fun e => str_back hx.function)
    (fun e j h => by
      simp only [txField, Word.of?_text, h, Except.bind]
      rw [if_pos (.inl e)])
    (fun e => by rw [hx.noFunction e])
  have h6 := built_putIf h5 (c := decide (x.kind = .scDeploy)) (v := x.code.json) .contractCode
    { kind := x.kind, sender := x.sender, to := x.to, value := x.value, token := x.token, function := x.function, code := x.code }
    (fun e => bytesS_back hx.code)
    (fun e j h => by
      have e : x.kind = .scDeploy := by simpa using e
      simp only [txField, Word.of?_text, h, Except.bind]
      rw [if_neg (fun c => c.1 e)])
    (fun e => by rw [bytesS_value hx.code (hk.code (by simpa using e))])
  have h7 := built_putIf h6 (c := x.kind.hasFunction || decide (x.kind = .scDeploy)) (v := listOf BytesT.json x.args) .arguments
    { kind := x.kind, sender := x.sender, to := x.to, value := x.value, token := x.token, function := x.function, code := x.code,
      args := x.args }
    (fun e => listOf_back (p := parseBytesT I) (fun a ha => bytesT_back (hx.args a ha)))
    (fun e j h => by
      have h : parseBytesTs I j = .ok x.args := h
      simp only [txField, Word.of?_text, h, Except.bind]
      rw [if_neg]
      rintro ⟨c, _⟩
      rw [c] at e
      simp [JKind.hasFunction] at e)
    (fun e => by
      have : x.args = [] := by
        cases hc : x.kind with
        | transfer => exact hx.noArgs hc
        | validatorReward => exact hk.args hc
        | scCall => rw [hc] at e; simp [JKind.hasFunction] at e
        | scDeploy => rw [hc] at e; simp [JKind.hasFunction] at e
        | scQuery => rw [hc] at e; simp [JKind.hasFunction] at e
      rw [this])
  have h8 := built_putIf h7 (c := x.kind.hasGas) (v := x.gasLimit.json) .gasLimit
    { kind := x.kind, sender := x.sender, to := x.to, value := x.value, token := x.token, function := x.function, code := x.code,
      args := x.args, gasLimit := x.gasLimit }
    (fun e => u64_back hx.gasLimit)
    (fun e j h => by simp only [txField, Word.of?_text, e, if_true, h]; rfl)
    (fun e => by rw [(hx.noGas e).2])
  have h9 := built_putIf h8 (c := x.kind.hasGas) (v := x.gasPrice.json) .gasPrice
    { kind := x.kind, sender := x.sender, to := x.to, value := x.value, token := x.token, function := x.function, code := x.code,
      args := x.args, gasLimit := x.gasLimit, gasPrice := x.gasPrice }
    (fun e => u64_back hx.gasPrice)
    (fun e j h => by simp only [txField, Word.of?_text, e, if_true, h]; rfl)
    (fun e => by rw [(hx.noGas e).1])
  have hn := hk.nonce
  have e : x =
      { kind := x.kind, sender := x.sender, to := x.to, value := x.value, token := x.token, function := x.function, code := x.code,
        args := x.args, gasLimit := x.gasLimit, gasPrice := x.gasPrice } := by
    cases x
    simp only at hn ⊢
    rw [hn]
  have hb := built_back h9
  rw [← e] at hb
  exact hb

/-! ### Results -/

/-- what the parser makes of a log entry -/
structure WLog (I : Interpreter) (x : JLog) : Prop where
  address : x.address = {} ∨ Tree (parseChkBytes I) x.address x.address.original
  identifier : x.identifier = {} ∨ Tree (parseChkBytes I) x.identifier x.identifier.original
  topics : ∀ t ∈ x.topics, Tree (parseChkBytes I) t t.original
  data : x.data = {} ∨ Tree (parseChkBytes I) x.data x.data.original

theorem chkBytess_inv {j : Json} {l : List ChkBytes} (hj : Printable j) (h : parseChkBytess I j = .ok l) :
    ∀ a ∈ l, Tree (parseChkBytes I) a a.original :=
  list_inv (fun _ _ hj h => (chkBytes_inv hj h).2) hj h

theorem chkBytess_back {l : List ChkBytes} (h : ∀ a ∈ l, Tree (parseChkBytes I) a a.original) :
    Back (parseChkBytess I) (listOf ChkBytes.json l) l :=
  listOf_back (p := parseChkBytes I) (fun a ha => chkBytes_back (h a ha))

theorem wlog_parse {j : Json} {x : JLog} (hj : Printable j) (h : parseLog I j = .ok x) : WLog I x := by
  obtain ⟨l, hl, h⟩ := ebind_ok h
  rw [asMap_ok hl] at hj
  refine fields_inv (P := WLog I) ?_ (printable_map hj) ⟨.inl rfl, .inl rfl, by simp, .inl rfl⟩ h
  intro k v s s' _ hv hs h
  unfold logField at h
  split at h
  · obtain ⟨y, hy, h⟩ := map_ok h
    cases h
    exact { hs with address := .inr (chkBytes_inv hv hy).2 }
  · obtain ⟨y, hy, h⟩ := map_ok h
    cases h
    exact { hs with identifier := .inr (chkBytes_inv hv hy).2 }
  · obtain ⟨y, hy, h⟩ := map_ok h
    cases h
    exact { hs with topics := chkBytess_inv hv hy }
  · obtain ⟨y, hy, h⟩ := map_ok h
    cases h
    exact { hs with data := .inr (chkBytes_inv hv hy).2 }
  · cases h

theorem log_back {x : JLog} (hx : WLog I x) (hk : KeptLog x) : Back (parseLog I) x.json x := by
  have given : ∀ {y : ChkBytes}, (y = {} ∨ Tree (parseChkBytes I) y y.original) → y.original ≠ none → Back (parseChkBytes I) y.json y := by
    intro y h h0
    rcases h with h | h
    · rw [h] at h0; exact absurd rfl h0
    · exact chkBytes_back h
  have h1 := built_put (f := logField I) (init := {}) built_nil (v := x.address.json) .address { address := x.address }
    (given hx.address hk.address) (fun j h => by simp only [logField, Word.of?_text, h]; rfl)
  have h2 := built_put h1 (v := x.identifier.json) .identifier { address := x.address, identifier := x.identifier }
    (given hx.identifier hk.identifier) (fun j h => by simp only [logField, Word.of?_text, h]; rfl)
  have h3 := built_put h2 (v := listOf ChkBytes.json x.topics) .topics
    { address := x.address, identifier := x.identifier, topics := x.topics }
    (chkBytess_back hx.topics) (fun j h => by simp only [logField, Word.of?_text, h]; rfl)
  have h4 := built_put h3 (v := x.data.json) .data
    { address := x.address, identifier := x.identifier, topics := x.topics, data := x.data }
    (given hx.data hk.data) (fun j h => by simp only [logField, Word.of?_text, h]; rfl)
  exact built_back h4

/-- what the parser makes of a result -/
structure WResult (I : Interpreter) (x : JResult) : Prop where
  out : ∀ a ∈ x.out, Tree (parseChkBytes I) a a.original
  status : ChkAmount I true x.status
  message : ChkData I x.message
  gas : ChkNumber I x.gas
  refund : ChkAmount I false x.refund
  logs : (x.logsUnspecified = true ∧ x.logsStar = true ∧ x.logHash = [] ∧ x.logs = []) ∨
    (x.logsUnspecified = false ∧ x.logsStar = true ∧ x.logHash = [] ∧ x.logs = []) ∨
    (x.logsUnspecified = false ∧ x.logsStar = false ∧ Quotable x.logHash ∧ x.logHash ≠ starText ∧ x.logs = []) ∨
    (x.logsUnspecified = false ∧ x.logsStar = false ∧ x.logHash = [] ∧ ∀ l ∈ x.logs, WLog I l)

theorem result_logs {v : Json} {s s' : JResult} (h : resultField I Word.logs.text v s = .ok s') :
    (isStar v = true ∧ s' = { s with logsUnspecified := false, logsStar := true }) ∨
    (isStar v = false ∧ ∃ x, v = .str x ∧ s' = { s with logsUnspecified := false, logsStar := false, logHash := x }) ∨
    (∃ l, (asList v).bind (elements (parseLog I)) = .ok l ∧
      s' = { s with logsUnspecified := false, logsStar := false, logHash := [], logs := l }) := by
  simp only [resultField, Word.of?_text] at h
  split at h
  · rename_i hs
    cases h
    exact .inl ⟨hs, rfl⟩
  · rename_i hs
    split at h
    · rename_i x
      cases h
      exact .inr (.inl ⟨by simpa using hs, x, rfl, rfl⟩)
    · obtain ⟨l, hl, h⟩ := map_ok h
      exact .inr (.inr ⟨l, hl, h.symm⟩)

theorem result_other {k : Bytes} {v : Json} {s s' : JResult} (hv : Printable v) (hk : k ≠ Word.logs.text) (h : resultField I k v s = .ok s') :
    s'.logsUnspecified = s.logsUnspecified ∧ s'.logsStar = s.logsStar ∧ s'.logHash = s.logHash ∧ s'.logs = s.logs ∧
    ((∀ a ∈ s.out, Tree (parseChkBytes I) a a.original) → ∀ a ∈ s'.out, Tree (parseChkBytes I) a a.original) ∧
    (ChkAmount I true s.status → ChkAmount I true s'.status) ∧ (ChkData I s.message → ChkData I s'.message) ∧
    (ChkNumber I s.gas → ChkNumber I s'.gas) ∧ (ChkAmount I false s.refund → ChkAmount I false s'.refund) := by
  unfold resultField at h
  split at h
  · obtain ⟨y, hy, h⟩ := map_ok h
    cases h
    exact ⟨rfl, rfl, rfl, rfl, fun _ => chkBytess_inv hv hy, id, id, id, id⟩
  · obtain ⟨y, hy, h⟩ := map_ok h
    cases h
    exact ⟨rfl, rfl, rfl, rfl, id, fun _ => .inr (chkInt_inv hv hy), id, id, id⟩
  · obtain ⟨y, hy, h⟩ := map_ok h
    cases h
    exact ⟨rfl, rfl, rfl, rfl, id, id, fun _ => .inr (chkBytes_inv hv hy), id, id⟩
  · exact absurd (word_of ‹_›) hk
  · obtain ⟨y, hy, h⟩ := map_ok h
    cases h
    exact ⟨rfl, rfl, rfl, rfl, id, id, id, fun _ => .inr (chkU64_inv hv hy), id⟩
  · obtain ⟨y, hy, h⟩ := map_ok h
    cases h
    exact ⟨rfl, rfl, rfl, rfl, id, id, id, id, fun _ => .inr (chkInt_inv hv hy)⟩
  · cases h

theorem wresult_parse {j : Json} {x : JResult} (hj : Printable j) (h : parseResult I j = .ok x) : WResult I x := by
  obtain ⟨l, hl, h⟩ := ebind_ok h
  rw [asMap_ok hl] at hj
  have h1 := fields_inv (P := fun s : JResult => (∀ a ∈ s.out, Tree (parseChkBytes I) a a.original) ∧ ChkAmount I true s.status ∧
      ChkData I s.message ∧ ChkNumber I s.gas ∧ ChkAmount I false s.refund) (f := resultField I) (by
      intro k v s s' _ hv ⟨p1, p2, p3, p4, p5⟩ h
      by_cases e : k = Word.logs.text
      · rw [e] at h
        rcases result_logs h with ⟨_, rfl⟩ | ⟨_, _, _, rfl⟩ | ⟨_, _, rfl⟩ <;> exact ⟨p1, p2, p3, p4, p5⟩
      · obtain ⟨_, _, _, _, q1, q2, q3, q4, q5⟩ := result_other hv e h
        exact ⟨q1 p1, q2 p2, q3 p3, q4 p4, q5 p5⟩)
    (printable_map hj) ⟨by simp, .inl rfl, .inl rfl, .inl rfl, .inl rfl⟩ h
  have h2 := fields_once (P := fun s : JResult => s.logsUnspecified = true ∧ s.logsStar = true ∧ s.logHash = [] ∧ s.logs = [])
    (Q := fun x : JResult => (x.logsUnspecified = false ∧ x.logsStar = true ∧ x.logHash = [] ∧ x.logs = []) ∨
      (x.logsUnspecified = false ∧ x.logsStar = false ∧ Quotable x.logHash ∧ x.logHash ≠ starText ∧ x.logs = []) ∨
      (x.logsUnspecified = false ∧ x.logsStar = false ∧ x.logHash = [] ∧ ∀ l ∈ x.logs, WLog I l))
    Word.logs.text (f := resultField I) (by
      intro k v s s' hk hv hs h
      obtain ⟨q1, q2, q3, q4, _⟩ := result_other hv hk h
      rw [q1, q2, q3, q4]
      exact hs)
    (by
      intro v s s' hv ⟨s1, s2, s3, s4⟩ h
      rcases result_logs h with ⟨_, rfl⟩ | ⟨hst, y, rfl, rfl⟩ | ⟨y, hy, rfl⟩
      · exact .inl ⟨rfl, rfl, s3, s4⟩
      · refine .inr (.inl ⟨rfl, rfl, printable_str hv, ?_, s4⟩)
        intro c
        replace c : y = starText := c
        rw [c] at hst
        cases hst
      · exact .inr (.inr ⟨rfl, rfl, rfl, list_inv (fun _ _ hj h => wlog_parse hj h) hv hy⟩))
    (by
      intro k v s s' hk hv hs h
      obtain ⟨q1, q2, q3, q4, _⟩ := result_other hv hk h
      rw [q1, q2, q3, q4]
      exact hs)
    (printable_map hj) ⟨rfl, rfl, rfl, rfl⟩ h
  obtain ⟨p1, p2, p3, p4, p5⟩ := h1
  exact ⟨p1, p2, p3, p4, p5, h2⟩

theorem result_back {x : JResult} (hx : WResult I x) (hk : ∀ l ∈ x.logs, KeptLog l) : Back (parseResult I) x.json x := by
  have number : (!x.gas.unspecified) = true → Back (parseChkU64 I) x.gas.json x.gas := by
    intro e
    rcases hx.gas with h | h
    · rw [h] at e; cases e
    · exact chkU64_back h.2
  have number0 : (!x.gas.unspecified) = false → x.gas = .missing := by
    intro e
    rcases hx.gas with h | h
    · exact h
    · rw [h.1] at e; cases e
  have amount : ∀ {b : Bool} {y : ChkInt}, ChkAmount I b y → (!y.unspecified) = true → Back (parseChkInt I b) y.json y := by
    intro b y h e
    rcases h with h | h
    · rw [h] at e; cases e
    · exact chkInt_back h.2
  have amount0 : ∀ {b : Bool} {y : ChkInt}, ChkAmount I b y → (!y.unspecified) = false → y = .missing := by
    intro b y h e
    rcases h with h | h
    · exact h
    · rw [h.1] at e; cases e
  have data : (!x.message.unspecified) = true → Back (parseChkBytes I) x.message.json x.message := by
    intro e
    rcases hx.message with h | h
    · rw [h] at e; cases e
    · exact chkBytes_back h.2
  have data0 : (!x.message.unspecified) = false → x.message = .missing := by
    intro e
    rcases hx.message with h | h
    · exact h
    · rw [h.1] at e; cases e
  have h1 := built_put (f := resultField I) (init := {}) built_nil (v := listOf ChkBytes.json x.out) .out { out := x.out }
    (chkBytess_back hx.out) (fun j h => by simp only [resultField, Word.of?_text, h]; rfl)
  have h2 := built_putIf h1 (c := !x.status.unspecified) (v := x.status.json) .status { out := x.out, status := x.status }
    (amount hx.status) (fun _ j h => by simp only [resultField, Word.of?_text, h]; rfl) (fun e => by rw [amount0 hx.status e])
  have h3 := built_putIf h2 (c := !x.message.unspecified) (v := x.message.json) .message
    { out := x.out, status := x.status, message := x.message }
    data (fun _ j h => by simp only [resultField, Word.of?_text, h]; rfl) (fun e => by rw [data0 e])
  have hlogs : (!x.logsUnspecified) = true → Back (fun j => resultField I Word.logs.text j { out := x.out, status := x.status, message := x.message })
      x.logsJson
      { out := x.out, status := x.status, message := x.message, logsUnspecified := x.logsUnspecified, logsStar := x.logsStar,
        logHash := x.logHash, logs := x.logs } := by
    intro e
    rcases hx.logs with ⟨l1, l2, l3, l4⟩ | ⟨l1, l2, l3, l4⟩ | ⟨l1, l2, l3, l4, l5⟩ | ⟨l1, l2, l3, l4⟩
    · rw [l1] at e; cases e
    · rw [JResult.logsJson, if_pos l2]
      refine back_mono star_back (fun j h => ?_)
      simp only [resultField, Word.of?_text, star_of h, if_true]
      rw [l1, l2, l3, l4]
    · by_cases h0 : x.logHash = []
      · rw [JResult.logsJson, if_neg (by simp [l2]), if_neg (by simp [h0]), l5, h0, l1, l2]
        exact ⟨.list [], rfl, rfl, .list (by simp)⟩
      · rw [JResult.logsJson, if_neg (by simp [l2]), if_pos h0, l5, l1, l2]
        refine ⟨.str x.logHash, rfl, ?_, .str l3⟩
        simp only [resultField, Word.of?_text]
        rw [if_neg (by simp [isStar, l4])]
    · rw [JResult.logsJson, if_neg (by simp [l2]), if_neg (by simp [l3])]
      refine back_mono (listOf_back (p := parseLog I) (fun l hl => log_back (l4 l hl) (hk l hl))) (fun j h => ?_)
      obtain ⟨js, hj, h⟩ := ebind_ok h
      rw [asList_ok hj]
      simp only [resultField, Word.of?_text]
      rw [if_neg (by simp [isStar])]
      simp only [asList, Except.bind, h]
      rw [l1, l2, l3]
      rfl
  have h4 := built_putIf h3 (c := !x.logsUnspecified) (v := x.logsJson) .logs
    { out := x.out, status := x.status, message := x.message, logsUnspecified := x.logsUnspecified, logsStar := x.logsStar,
      logHash := x.logHash, logs := x.logs } hlogs (fun _ j h => h) (fun e => by
        rcases hx.logs with ⟨l1, l2, l3, l4⟩ | ⟨l1, _⟩ | ⟨l1, _⟩ | ⟨l1, _⟩
        · rw [l1, l2, l3, l4]
        all_goals rw [l1] at e; cases e)
  have h5 := built_putIf h4 (c := !x.gas.unspecified) (v := x.gas.json) .gas
    { out := x.out, status := x.status, message := x.message, logsUnspecified := x.logsUnspecified, logsStar := x.logsStar,
      logHash := x.logHash, logs := x.logs, gas := x.gas }
    number (fun _ j h => by simp only [resultField, Word.of?_text, h]; rfl) (fun e => by rw [number0 e])
  have h6 := built_putIf h5 (c := !x.refund.unspecified) (v := x.refund.json) .refund
    { out := x.out, status := x.status, message := x.message, logsUnspecified := x.logsUnspecified, logsStar := x.logsStar,
      logHash := x.logHash, logs := x.logs, gas := x.gas, refund := x.refund }
    (amount hx.refund) (fun _ j h => by simp only [resultField, Word.of?_text, h]; rfl) (fun e => by
      have := amount0 hx.refund e
      cases x
      simp only at this
      rw [this])
  exact built_back h6

/-! ### The parts of `setState` -/

/-- what the parser makes of the address of a new contract -/
structure WNewAddress (I : Interpreter) (x : JNewAddress) : Prop where
  creator : Address I x.creator
  nonce : Text (parseU64 I) x.nonce x.nonce.original
  new : Address I x.new

theorem wnewAddress_parse {j : Json} {x : JNewAddress} (hj : Printable j) (h : parseNewAddress I j = .ok x) : WNewAddress I x := by
  obtain ⟨l, hl, h⟩ := ebind_ok h
  rw [asMap_ok hl] at hj
  refine fields_inv (P := WNewAddress I) ?_ (printable_map hj) ⟨.inl rfl, u64_zero, .inl rfl⟩ h
  intro k v s s' _ hv hs h
  unfold newAddressField at h
  split at h
  · obtain ⟨y, hy, h⟩ := map_ok h
    cases h
    exact { hs with creator := addressJson_inv hv hy }
  · obtain ⟨y, hy, h⟩ := map_ok h
    cases h
    exact { hs with nonce := u64_inv hv hy }
  · obtain ⟨y, hy, h⟩ := map_ok h
    cases h
    exact { hs with new := addressJson_inv hv hy }
  · cases h

theorem newAddress_back {x : JNewAddress} (hx : WNewAddress I x) (h0 : x.creator.original ≠ []) (h1 : x.new.original ≠ []) :
    Back (parseNewAddress I) x.json x := by
  have b1 := built_put (f := newAddressField I) (init := {}) built_nil (v := x.creator.json) .creatorAddress { creator := x.creator }
    (address_back hx.creator h0) (fun j h => by simp only [newAddressField, Word.of?_text, h]; rfl)
  have b2 := built_put b1 (v := x.nonce.json) .creatorNonce { creator := x.creator, nonce := x.nonce }
    (u64_back hx.nonce) (fun j h => by simp only [newAddressField, Word.of?_text, h]; rfl)
  have b3 := built_put b2 (v := x.new.json) .newAddress { creator := x.creator, nonce := x.nonce, new := x.new }
    (address_back hx.new h1) (fun j h => by simp only [newAddressField, Word.of?_text, h]; rfl)
  exact built_back b3

/-- what the parser makes of the facts of a block -/
structure WBlockInfo (I : Interpreter) (x : JBlockInfo) : Prop where
  timestamp : Text (parseU64 I) x.timestamp x.timestamp.original
  nonce : Text (parseU64 I) x.nonce x.nonce.original
  round : Text (parseU64 I) x.round x.round.original
  epoch : Text (parseU64 I) x.epoch x.epoch.original
  seed : ∀ s, x.seed = some s → Tree (parseBytesT I) s s.original ∧ s.value.length = 48

theorem wblockInfo_parse {j : Json} {x : JBlockInfo} (hj : Printable j) (h : parseBlockInfo I j = .ok x) : WBlockInfo I x := by
  obtain ⟨l, hl, h⟩ := ebind_ok h
  rw [asMap_ok hl] at hj
  refine fields_inv (P := WBlockInfo I) ?_ (printable_map hj) ⟨u64_zero, u64_zero, u64_zero, u64_zero, (fun s e => by cases e)⟩ h
  intro k v s s' _ hv hs h
  unfold blockInfoField at h
  split at h
  · obtain ⟨y, hy, h⟩ := map_ok h
    cases h
    exact { hs with timestamp := u64_inv hv hy }
  · obtain ⟨y, hy, h⟩ := map_ok h
    cases h
    exact { hs with nonce := u64_inv hv hy }
  · obtain ⟨y, hy, h⟩ := map_ok h
    cases h
    exact { hs with round := u64_inv hv hy }
  · obtain ⟨y, hy, h⟩ := map_ok h
    cases h
    exact { hs with epoch := u64_inv hv hy }
  · obtain ⟨y, hy, h⟩ := ebind_ok h
    split at h
    · rename_i hc
      cases h
      exact { hs with seed := fun t e => by cases e; exact ⟨bytesT_inv hv hy, hc⟩ }
    · cases h
  · cases h

theorem blockInfo_back {x : JBlockInfo} (hx : WBlockInfo I x) : Back (parseBlockInfo I) x.json x := by
  have b1 := built_putIf (f := blockInfoField I) (init := {}) built_nil (c := decide (x.timestamp.original ≠ [])) (v := x.timestamp.json)
    .blockTimestamp { timestamp := x.timestamp } (fun _ => u64_back hx.timestamp)
    (fun _ j h => by simp only [blockInfoField, Word.of?_text, h]; rfl)
    (fun e => by rw [u64_value hx.timestamp (by simpa using e)])
  have b2 := built_putIf b1 (c := decide (x.nonce.original ≠ [])) (v := x.nonce.json)
    .blockNonce { timestamp := x.timestamp, nonce := x.nonce } (fun _ => u64_back hx.nonce)
    (fun _ j h => by simp only [blockInfoField, Word.of?_text, h]; rfl)
    (fun e => by rw [u64_value hx.nonce (by simpa using e)])
  have b3 := built_putIf b2 (c := decide (x.round.original ≠ [])) (v := x.round.json)
    .blockRound { timestamp := x.timestamp, nonce := x.nonce, round := x.round } (fun _ => u64_back hx.round)
    (fun _ j h => by simp only [blockInfoField, Word.of?_text, h]; rfl)
    (fun e => by rw [u64_value hx.round (by simpa using e)])
  have b4 := built_putIf b3 (c := decide (x.epoch.original ≠ [])) (v := x.epoch.json)
    .blockEpoch { timestamp := x.timestamp, nonce := x.nonce, round := x.round, epoch := x.epoch } (fun _ => u64_back hx.epoch)
    (fun _ j h => by simp only [blockInfoField, Word.of?_text, h]; rfl)
    (fun e => by rw [u64_value hx.epoch (by simpa using e)])
  have hs : x.seed.isSome = true → Back (fun j => blockInfoField I Word.blockRandomSeed.text j
      { timestamp := x.timestamp, nonce := x.nonce, round := x.round, epoch := x.epoch }) (x.seed.bind BytesT.json)
      { timestamp := x.timestamp, nonce := x.nonce, round := x.round, epoch := x.epoch, seed := x.seed } := by
    intro e
    cases hs : x.seed with
    | none => rw [hs] at e; cases e
    | some s =>
      obtain ⟨h1, h2⟩ := hx.seed s hs
      refine back_mono (bytesT_back h1) (fun j h => ?_)
      simp only [blockInfoField, Word.of?_text, h, Except.bind]
      rw [if_pos h2, ← hs]
  have b5 := built_putIf b4 (c := x.seed.isSome) (v := x.seed.bind BytesT.json) .blockRandomSeed
    { timestamp := x.timestamp, nonce := x.nonce, round := x.round, epoch := x.epoch, seed := x.seed } hs (fun _ j h => h)
    (fun e => by
      have : x.seed = none := by simpa using e
      cases x
      simp only at this
      rw [this])
  exact built_back b5

end Arwen.Props
