import Verif.Props.RewriteTokens
/-!
Accounts of scenarios are read back as they were written.
-/
namespace Arwen.Props
open Arwen.Mandos Arwen.Spec

variable {I : Interpreter}

/-- a key of a map was read -/
def Named (I : Interpreter) (x : BytesS) : Prop := interpretString I x.original = .ok x.value ∧ Quotable x.original

theorem named_text {x : BytesS} (h : Named I x) : x.text = x.original :=
  bytesS_text (I := I) ⟨by simp only [parseBytesS, parseStr, Except.bind, h.1]; rfl, h.2⟩

/-- an address that is a key of a map was read -/
def Placed (I : Interpreter) (x : BytesS) : Prop := parseAddress I x.original = .ok x ∧ Quotable x.original ∧ x.text = x.original

theorem placed_inv {k : Bytes} {x : BytesS} (hk : Quotable k) (h : parseAddress I k = .ok x) : Placed I x ∧ x.original = k :=
  have e := address_inv hk h
  ⟨⟨e.2.1, e.2.2.1, e.2.2.2.1⟩, e.1⟩

/-! ### Accounts -/

/-- what the parser makes of an account before its address is known -/
structure WAccount (I : Interpreter) (x : JAccount) : Prop where
  comment : Quotable x.comment
  nonce : Text (parseU64 I) x.nonce x.nonce.original
  balance : Text (parseBig I false) x.balance x.balance.original
  username : Text (parseBytesS I) x.username x.username.original
  storage : ∀ e ∈ x.storage, Named I e.1 ∧ Tree (parseBytesT I) e.2 e.2.original
  keys : (x.storage.map fun e => e.1.original).Nodup
  code : Text (parseBytesS I) x.code x.code.original
  owner : Text (parseBytesS I) x.owner x.owner.original
  asyncCallData : Quotable x.asyncCallData
  tokens : ∀ t ∈ x.tokens, WToken I t
  names : (x.tokens.map fun t => t.name.original).Nodup

theorem tokens_read {v : Json} {l : List JToken} (hv : Printable v) (h : (asMap v).bind (entries (tokenEntry I)) = .ok l) :
    (∀ t ∈ l, WToken I t) ∧ (l.map fun t => t.name.original).Nodup := by
  obtain ⟨m, hm, h⟩ := ebind_ok h
  rw [asMap_ok hm] at hv
  obtain ⟨h1, h2⟩ := entries_inv (P := WToken I) (key := fun t => t.name.original) (fun k j a hk hj h => wtoken_parse hk hj h)
    (printable_map hv) h
  exact ⟨h1, by rw [h2]; exact (printable_map hv).nodup⟩

theorem storage_read {v : Json} {l : List (BytesS × BytesT)} (hv : Printable v) (h : (asMap v).bind (entries (storageEntry I)) = .ok l) :
    (∀ e ∈ l, Named I e.1 ∧ Tree (parseBytesT I) e.2 e.2.original) ∧ (l.map fun e => e.1.original).Nodup := by
  obtain ⟨m, hm, h⟩ := ebind_ok h
  rw [asMap_ok hm] at hv
  obtain ⟨h1, h2⟩ := entries_inv (P := fun e : BytesS × BytesT => Named I e.1 ∧ Tree (parseBytesT I) e.2 e.2.original)
    (key := fun e => e.1.original) (fun k j a hk hj h => by
      obtain ⟨b, hb, h⟩ := ebind_ok h
      obtain ⟨y, hy, h⟩ := map_ok h
      cases h
      exact ⟨⟨⟨hb, hk⟩, bytesT_inv hj hy⟩, rfl⟩)
    (printable_map hv) h
  exact ⟨h1, by rw [h2]; exact (printable_map hv).nodup⟩

theorem waccount_fields {l : List (Bytes × Json)} {x : JAccount} (hl : PairsOk l) (h : fields (accountField I) l {} = .ok x) :
    WAccount I x ∧ x.address = {} := by
  have h1 := fields_inv (P := fun x : JAccount => Quotable x.comment ∧ Text (parseU64 I) x.nonce x.nonce.original ∧
      Text (parseBig I false) x.balance x.balance.original ∧ Text (parseBytesS I) x.username x.username.original ∧
      (∀ e ∈ x.storage, Named I e.1 ∧ Tree (parseBytesT I) e.2 e.2.original) ∧ Text (parseBytesS I) x.code x.code.original ∧
      Text (parseBytesS I) x.owner x.owner.original ∧ Quotable x.asyncCallData ∧ (∀ t ∈ x.tokens, WToken I t) ∧ x.address = {})
    (f := accountField I) (by
      intro k v s s' _ hv ⟨p1, p2, p3, p4, p5, p6, p7, p8, p9, p10⟩ h
      unfold accountField at h
      split at h
      · obtain ⟨y, hy, h⟩ := map_ok h
        cases h
        exact ⟨parseStr_inv hv hy, p2, p3, p4, p5, p6, p7, p8, p9, p10⟩
      · obtain ⟨y, hy, h⟩ := map_ok h
        cases h
        exact ⟨p1, p2, p3, p4, p5, p6, p7, p8, p9, p10⟩
      · obtain ⟨y, hy, h⟩ := map_ok h
        cases h
        exact ⟨p1, u64_inv hv hy, p3, p4, p5, p6, p7, p8, p9, p10⟩
      · obtain ⟨y, hy, h⟩ := map_ok h
        cases h
        exact ⟨p1, p2, big_inv hv hy, p4, p5, p6, p7, p8, p9, p10⟩
      · obtain ⟨y, hy, h⟩ := map_ok h
        cases h
        exact ⟨p1, p2, p3, p4, p5, p6, p7, p8, fun t ht => (List.mem_append.1 ht).elim (p9 t) ((tokens_read hv hy).1 t), p10⟩
      · obtain ⟨y, hy, h⟩ := map_ok h
        cases h
        exact ⟨p1, p2, p3, bytesS_inv hv hy, p5, p6, p7, p8, p9, p10⟩
      · obtain ⟨y, hy, h⟩ := map_ok h
        cases h
        exact ⟨p1, p2, p3, p4, fun t ht => (List.mem_append.1 ht).elim (p5 t) ((storage_read hv hy).1 t), p6, p7, p8, p9, p10⟩
      · obtain ⟨y, hy, h⟩ := map_ok h
        cases h
        exact ⟨p1, p2, p3, p4, p5, bytesS_inv hv hy, p7, p8, p9, p10⟩
      · obtain ⟨y, hy, h⟩ := map_ok h
        cases h
        exact ⟨p1, p2, p3, p4, p5, p6, bytesS_inv hv hy, p8, p9, p10⟩
      · obtain ⟨y, hy, h⟩ := map_ok h
        cases h
        exact ⟨p1, p2, p3, p4, p5, p6, p7, parseStr_inv hv hy, p9, p10⟩
      · cases h)
    hl ⟨quotable_nil, u64_zero, big_zero, bytesS_empty, by simp, bytesS_empty, bytesS_empty, quotable_nil, by simp, rfl⟩ h
  have h2 := fields_once (P := fun x : JAccount => x.tokens = []) (Q := fun x => (x.tokens.map fun t => t.name.original).Nodup)
    Word.esdt.text (f := accountField I) (by
      intro k v s s' hk _ hs h
      unfold accountField at h
      split at h
      all_goals first | exact absurd (word_of ‹_›) hk | cases h; done | (obtain ⟨y, hy, h⟩ := map_ok h; cases h; exact hs))
    (by
      intro v s s' hv hs h
      simp only [accountField, Word.of?_text] at h
      obtain ⟨y, hy, h⟩ := map_ok h
      cases h
      show ((s.tokens ++ y).map _).Nodup
      rw [hs, List.nil_append]
      exact (tokens_read hv hy).2)
    (by
      intro k v s s' hk _ hs h
      unfold accountField at h
      split at h
      all_goals first | exact absurd (word_of ‹_›) hk | cases h; done | (obtain ⟨y, hy, h⟩ := map_ok h; cases h; exact hs))
    hl rfl h
  have h3 := fields_once (P := fun x : JAccount => x.storage = []) (Q := fun x => (x.storage.map fun e => e.1.original).Nodup)
    Word.storage.text (f := accountField I) (by
      intro k v s s' hk _ hs h
      unfold accountField at h
      split at h
      all_goals first | exact absurd (word_of ‹_›) hk | cases h; done | (obtain ⟨y, hy, h⟩ := map_ok h; cases h; exact hs))
    (by
      intro v s s' hv hs h
      simp only [accountField, Word.of?_text] at h
      obtain ⟨y, hy, h⟩ := map_ok h
      cases h
      show ((s.storage ++ y).map _).Nodup
      rw [hs, List.nil_append]
      exact (storage_read hv hy).2)
    (by
      intro k v s s' hk _ hs h
      unfold accountField at h
      split at h
      all_goals first | exact absurd (word_of ‹_›) hk | cases h; done | (obtain ⟨y, hy, h⟩ := map_ok h; cases h; exact hs))
    hl rfl h
  obtain ⟨p1, p2, p3, p4, p5, p6, p7, p8, p9, p10⟩ := h1
  refine ⟨⟨p1, p2, p3, p4, p5, ?_, p6, p7, p8, p9, ?_⟩, p10⟩
  · rcases h3 with h3 | h3
    · rw [h3]; simp
    · exact h3
  · rcases h2 with h2 | h2
    · rw [h2]; simp
    · exact h2

theorem waccount_parse {k : Bytes} {j : Json} {x : JAccount} (hk : Quotable k) (hj : Printable j) (h : parseAccount I k j = .ok x) :
    (WAccount I x ∧ Placed I x.address) ∧ x.address.original = k := by
  obtain ⟨l, hl, h⟩ := ebind_ok h
  obtain ⟨a, ha, h⟩ := ebind_ok h
  obtain ⟨y, hy, h⟩ := map_ok h
  rw [asMap_ok hl] at hj
  obtain ⟨h1, _⟩ := waccount_fields (printable_map hj) ha
  cases h
  obtain ⟨h2, h3⟩ := placed_inv hk hy
  exact ⟨⟨⟨h1.1, h1.2, h1.3, h1.4, h1.5, h1.6, h1.7, h1.8, h1.9, h1.10, h1.11⟩, h2⟩, h3⟩

theorem accounts_read {v : Json} {l : List JAccount} (hv : Printable v) (h : parseAccounts I v = .ok l) :
    (∀ x ∈ l, WAccount I x ∧ Placed I x.address) ∧ (l.map fun x => x.address.original).Nodup := by
  obtain ⟨m, hm, h⟩ := ebind_ok h
  rw [asMap_ok hm] at hv
  obtain ⟨h1, h2⟩ := entries_inv (P := fun x : JAccount => WAccount I x ∧ Placed I x.address) (key := fun x => x.address.original)
    (fun k j a hk hj h => waccount_parse hk hj h) (printable_map hv) h
  exact ⟨h1, by rw [h2]; exact (printable_map hv).nodup⟩

theorem jtokens_back {l : List JToken} (h : ∀ t ∈ l, WToken I t ∧ KeptToken t) (hn : (l.map fun t => t.name.original).Nodup) :
    Back (fun j => (asMap j).bind (entries (tokenEntry I))) (tokensJson l) l :=
  entries_back (key := fun t : JToken => t.name.original) l (fun t ht => ⟨(h t ht).1.quotable, token_back (h t ht).1 (h t ht).2⟩) hn

theorem storageEntries_back {l : List (BytesS × BytesT)} (h : ∀ e ∈ l, Named I e.1 ∧ Tree (parseBytesT I) e.2 e.2.original)
    (hn : (l.map fun e => e.1.original).Nodup) :
    Back (fun j => (asMap j).bind (entries (storageEntry I))) (done (l.foldl (fun m st => putAt st.1.text st.2.json m) (some []))) l := by
  have e : (l.map fun e => e.1.text) = l.map fun e => e.1.original :=
    List.map_congr_left (fun e he => named_text (h e he).1)
  refine entries_back (key := fun e : BytesS × BytesT => e.1.text) l (fun e he => ?_) (by rw [e]; exact hn)
  obtain ⟨h1, h2⟩ := h e he
  rw [named_text h1]
  refine ⟨h1.2, back_mono (bytesT_back h2) (fun j hj => ?_)⟩
  simp only [storageEntry, h1.1, Except.bind, hj]
  rfl

theorem account_back {x : JAccount} (hx : WAccount I x) (ha : Placed I x.address) (hk : KeptAccount x) :
    Back (parseAccount I x.address.original) x.json x := by
  have h1 := built_putIf (f := accountField I) (init := {}) built_nil (c := decide (x.comment ≠ [])) (v := strJ x.comment) .comment
    { comment := x.comment } (fun _ => str_back hx.comment) (fun _ j h => by simp only [accountField, Word.of?_text, h]; rfl)
    (fun e => by rw [show x.comment = [] by simpa using e])
  have h2 := built_put h1 (v := x.nonce.json) .nonce { comment := x.comment, nonce := x.nonce } (u64_back hx.nonce)
    (fun j h => by simp only [accountField, Word.of?_text, h]; rfl)
  have h3 := built_put h2 (v := x.balance.json) .balance { comment := x.comment, nonce := x.nonce, balance := x.balance } (big_back hx.balance)
    (fun j h => by simp only [accountField, Word.of?_text, h]; rfl)
  have h4 := built_putIf h3 (c := decide (x.tokens ≠ [])) (v := tokensJson x.tokens) .esdt
    { comment := x.comment, nonce := x.nonce, balance := x.balance, tokens := x.tokens }
    (fun _ => jtokens_back (fun t ht => ⟨hx.tokens t ht, hk.tokens t ht⟩) hx.names)
    (fun _ j h => by simp only [accountField, Word.of?_text, h]; rfl)
    (fun e => by rw [show x.tokens = [] by simpa using e])
  have h5 := built_putIf h4 (c := decide (x.username.value ≠ [])) (v := x.username.json) .username
    { comment := x.comment, nonce := x.nonce, balance := x.balance, tokens := x.tokens, username := x.username }
    (fun _ => bytesS_back hx.username)
    (fun _ j h => by simp only [accountField, Word.of?_text, h]; rfl)
    (fun e => by rw [bytesS_value hx.username (hk.username (by simpa using e))])
  have h6 := built_put h5 .storage
    { comment := x.comment, nonce := x.nonce, balance := x.balance, tokens := x.tokens, username := x.username, storage := x.storage }
    (storageEntries_back hx.storage hx.keys)
    (fun j h => by simp only [accountField, Word.of?_text, h]; rfl)
  have h7 := built_put h6 (v := x.code.json) .code
    { comment := x.comment, nonce := x.nonce, balance := x.balance, tokens := x.tokens, username := x.username, storage := x.storage,
      code := x.code } (bytesS_back hx.code)
    (fun j h => by simp only [accountField, Word.of?_text, h]; rfl)
  have h8 := built_putIf h7 (c := decide (x.owner.value ≠ [])) (v := x.owner.json) .owner
    { comment := x.comment, nonce := x.nonce, balance := x.balance, tokens := x.tokens, username := x.username, storage := x.storage,
      code := x.code, owner := x.owner }
    (fun _ => bytesS_back hx.owner)
    (fun _ j h => by simp only [accountField, Word.of?_text, h]; rfl)
    (fun e => by rw [bytesS_value hx.owner (hk.owner (by simpa using e))])
  have h9 := built_putIf h8 (c := decide (x.asyncCallData ≠ [])) (v := strJ x.asyncCallData) .asyncCallData
    { comment := x.comment, nonce := x.nonce, balance := x.balance, tokens := x.tokens, username := x.username, storage := x.storage,
      code := x.code, owner := x.owner, asyncCallData := x.asyncCallData }
    (fun _ => str_back hx.asyncCallData) (fun _ j h => by simp only [accountField, Word.of?_text, h]; rfl)
    (fun e => by rw [show x.asyncCallData = [] by simpa using e])
  refine back_mono (built_back h9) (fun j h => ?_)
  obtain ⟨l, hl, h⟩ := ebind_ok h
  simp only [parseAccount, hl, Except.bind, h, ha.1]
  have hs := hk.shard
  show Except.ok _ = _
  cases x
  simp only at hs ⊢
  rw [hs]

theorem accounts_back {l : List JAccount} (h : ∀ x ∈ l, (WAccount I x ∧ Placed I x.address) ∧ KeptAccount x)
    (hn : (l.map fun x => x.address.original).Nodup) : Back (parseAccounts I) (accountsJson l) l := by
  have e : (l.map fun x => x.address.text) = l.map fun x => x.address.original :=
    List.map_congr_left (fun x hx => (h x hx).1.2.2.2)
  refine entries_back (p := parseAccount I) (key := fun x : JAccount => x.address.text) l (fun x hx => ?_) (by rw [e]; exact hn)
  obtain ⟨⟨h1, h2⟩, h3⟩ := h x hx
  rw [h2.2.2]
  exact ⟨h2.2.1, account_back h1 h2 h3⟩

/-! ### Checked accounts -/

/-- names of maps with a `+` -/
def Names (l : List Bytes) : Prop := l.Nodup ∧ plusText ∉ l

/-- what the parser makes of a checked account before its address is known -/
structure WChkAccount (I : Interpreter) (x : JChkAccount) : Prop where
  comment : Quotable x.comment
  nonce : ChkNumber I x.nonce
  balance : ChkAmount I false x.balance
  username : ChkData I x.username
  storage : ∀ e ∈ x.storage, Named I e.1 ∧ e.2.unspecified = false ∧ Tree (parseChkBytes I) e.2 e.2.original
  keys : Names (x.storage.map fun e => e.1.original)
  ignoreStorage : x.ignoreStorage = true → x.storage = [] ∧ x.moreStorage = false
  code : ChkData I x.code
  owner : ChkData I x.owner
  asyncCallData : ChkData I x.asyncCallData
  tokens : ∀ t ∈ x.tokens, WChkToken I t
  names : Names (x.tokens.map fun t => t.name.original)
  ignoreTokens : x.ignoreTokens = true → x.tokens = [] ∧ x.moreTokens = false

theorem chkTokens_read {v : Json} {l : List (Bytes × Json)} {s r : Bool × List JChkToken} (hv : Printable v) (hl : asMap v = .ok l)
    (hs : ∀ t ∈ s.2, WChkToken I t) (h : plusEntries (chkTokenEntry I) l s = .ok r) :
    (∀ t ∈ r.2, WChkToken I t) ∧ (s.2 = [] → Names (r.2.map fun t => t.name.original)) := by
  rw [asMap_ok hl] at hv
  obtain ⟨h1, ks, h2, h3, h4, _⟩ := plusEntries_inv (P := WChkToken I) (key := fun t => t.name.original)
    (fun k j a hk hj h => wchkToken_parse hk hj h) (printable_map hv) hs h
  refine ⟨h1, fun e => ?_⟩
  rw [h2, e]
  exact ⟨h3, h4⟩

theorem chkStorage_read {v : Json} {l : List (Bytes × Json)} {s r : Bool × List (BytesS × ChkBytes)} (hv : Printable v) (hl : asMap v = .ok l)
    (hs : ∀ e ∈ s.2, Named I e.1 ∧ e.2.unspecified = false ∧ Tree (parseChkBytes I) e.2 e.2.original)
    (h : plusEntries (chkStorageEntry I) l s = .ok r) :
    (∀ e ∈ r.2, Named I e.1 ∧ e.2.unspecified = false ∧ Tree (parseChkBytes I) e.2 e.2.original) ∧
      (s.2 = [] → Names (r.2.map fun e => e.1.original)) := by
  rw [asMap_ok hl] at hv
  obtain ⟨h1, ks, h2, h3, h4, _⟩ := plusEntries_inv
    (P := fun e : BytesS × ChkBytes => Named I e.1 ∧ e.2.unspecified = false ∧ Tree (parseChkBytes I) e.2 e.2.original)
    (key := fun e => e.1.original) (fun k j a hk hj h => by
      obtain ⟨b, hb, h⟩ := ebind_ok h
      obtain ⟨y, hy, h⟩ := map_ok h
      cases h
      exact ⟨⟨⟨hb, hk⟩, chkBytes_inv hj hy⟩, rfl⟩)
    (printable_map hv) hs h
  refine ⟨h1, fun e => ?_⟩
  rw [h2, e]
  exact ⟨h3, h4⟩

theorem chkAccount_tokens {v : Json} {s s' : JChkAccount} (h : chkAccountField I Word.esdt.text v s = .ok s') :
    (isStar v = true ∧ s' = { s with ignoreTokens := true }) ∨
    ∃ l r, asMap v = .ok l ∧ plusEntries (chkTokenEntry I) l (s.moreTokens, s.tokens) = .ok r ∧
      s' = { s with ignoreTokens := false, moreTokens := r.1, tokens := r.2 } := by
  simp only [chkAccountField, Word.of?_text] at h
  split at h
  · rename_i hs
    cases h
    exact .inl ⟨hs, rfl⟩
  · obtain ⟨l, hl, h⟩ := ebind_ok h
    obtain ⟨r, hr, h⟩ := map_ok h
    exact .inr ⟨l, r, hl, hr, h.symm⟩

theorem chkAccount_storage {v : Json} {s s' : JChkAccount} (h : chkAccountField I Word.storage.text v s = .ok s') :
    (isStar v = true ∧ s' = { s with ignoreStorage := true }) ∨
    ∃ l r, asMap v = .ok l ∧ plusEntries (chkStorageEntry I) l (s.moreStorage, s.storage) = .ok r ∧
      s' = { s with ignoreStorage := false, moreStorage := r.1, storage := r.2 } := by
  simp only [chkAccountField, Word.of?_text] at h
  split at h
  · rename_i hs
    cases h
    exact .inl ⟨hs, rfl⟩
  · obtain ⟨l, hl, h⟩ := ebind_ok h
    obtain ⟨r, hr, h⟩ := map_ok h
    exact .inr ⟨l, r, hl, hr, h.symm⟩

theorem chkAccount_other {k : Bytes} {v : Json} {s s' : JChkAccount} (hv : Printable v) (h : chkAccountField I k v s = .ok s')
    (h1 : k ≠ Word.esdt.text) (h2 : k ≠ Word.storage.text) :
    s'.tokens = s.tokens ∧ s'.moreTokens = s.moreTokens ∧ s'.ignoreTokens = s.ignoreTokens ∧ s'.storage = s.storage ∧
    s'.moreStorage = s.moreStorage ∧ s'.ignoreStorage = s.ignoreStorage ∧ s'.address = s.address ∧
    (Quotable s.comment → Quotable s'.comment) ∧ (ChkNumber I s.nonce → ChkNumber I s'.nonce) ∧
    (ChkAmount I false s.balance → ChkAmount I false s'.balance) ∧ (ChkData I s.username → ChkData I s'.username) ∧
    (ChkData I s.code → ChkData I s'.code) ∧ (ChkData I s.owner → ChkData I s'.owner) ∧
    (ChkData I s.asyncCallData → ChkData I s'.asyncCallData) := by
  unfold chkAccountField at h
  split at h
  · obtain ⟨y, hy, h⟩ := map_ok h
    cases h
    exact ⟨rfl, rfl, rfl, rfl, rfl, rfl, rfl, fun _ => parseStr_inv hv hy, id, id, id, id, id, id⟩
  · obtain ⟨y, hy, h⟩ := map_ok h
    cases h
    exact ⟨rfl, rfl, rfl, rfl, rfl, rfl, rfl, id, fun _ => .inr (chkU64_inv hv hy), id, id, id, id, id⟩
  · obtain ⟨y, hy, h⟩ := map_ok h
    cases h
    exact ⟨rfl, rfl, rfl, rfl, rfl, rfl, rfl, id, id, fun _ => .inr (chkInt_inv hv hy), id, id, id, id⟩
  · exact absurd (word_of ‹_›) h1
  · obtain ⟨y, hy, h⟩ := map_ok h
    cases h
    exact ⟨rfl, rfl, rfl, rfl, rfl, rfl, rfl, id, id, id, fun _ => .inr (chkBytes_inv hv hy), id, id, id⟩
  · exact absurd (word_of ‹_›) h2
  · obtain ⟨y, hy, h⟩ := map_ok h
    cases h
    exact ⟨rfl, rfl, rfl, rfl, rfl, rfl, rfl, id, id, id, id, fun _ => .inr (chkBytes_inv hv hy), id, id⟩
  · obtain ⟨y, hy, h⟩ := map_ok h
    cases h
    exact ⟨rfl, rfl, rfl, rfl, rfl, rfl, rfl, id, id, id, id, id, fun _ => .inr (chkBytes_inv hv hy), id⟩
  · obtain ⟨y, hy, h⟩ := map_ok h
    cases h
    exact ⟨rfl, rfl, rfl, rfl, rfl, rfl, rfl, id, id, id, id, id, id, fun _ => .inr (chkBytes_inv hv hy)⟩
  · cases h

theorem wchkAccount_fields {l : List (Bytes × Json)} {x : JChkAccount} (hl : PairsOk l) (h : fields (chkAccountField I) l {} = .ok x) :
    WChkAccount I x := by
  have h1 := fields_inv (P := fun x : JChkAccount => Quotable x.comment ∧ ChkNumber I x.nonce ∧
      ChkAmount I false x.balance ∧ ChkData I x.username ∧ ChkData I x.code ∧ ChkData I x.owner ∧ ChkData I x.asyncCallData)
    (f := chkAccountField I) (by
      intro k v s s' _ hv ⟨p1, p2, p3, p4, p5, p6, p7⟩ h
      by_cases e1 : k = Word.esdt.text
      · rw [e1] at h
        rcases chkAccount_tokens h with ⟨_, rfl⟩ | ⟨_, _, _, _, rfl⟩ <;> exact ⟨p1, p2, p3, p4, p5, p6, p7⟩
      by_cases e2 : k = Word.storage.text
      · rw [e2] at h
        rcases chkAccount_storage h with ⟨_, rfl⟩ | ⟨_, _, _, _, rfl⟩ <;> exact ⟨p1, p2, p3, p4, p5, p6, p7⟩
      obtain ⟨_, _, _, _, _, _, _, q1, q2, q3, q4, q5, q6, q7⟩ := chkAccount_other hv h e1 e2
      exact ⟨q1 p1, q2 p2, q3 p3, q4 p4, q5 p5, q6 p6, q7 p7⟩)
    hl ⟨quotable_nil, .inl rfl, .inl rfl, .inl rfl, .inl rfl, .inl rfl, .inl rfl⟩ h
  have h2 := fields_once (P := fun x : JChkAccount => x.tokens = [] ∧ x.moreTokens = false ∧ x.ignoreTokens = false)
    (Q := fun x => (∀ t ∈ x.tokens, WChkToken I t) ∧ Names (x.tokens.map fun t => t.name.original) ∧
      (x.ignoreTokens = true → x.tokens = [] ∧ x.moreTokens = false))
    Word.esdt.text (f := chkAccountField I) (by
      intro k v s s' hk hv hs h
      by_cases e2 : k = Word.storage.text
      · rw [e2] at h
        rcases chkAccount_storage h with ⟨_, rfl⟩ | ⟨_, _, _, _, rfl⟩ <;> exact hs
      obtain ⟨q1, q2, q3, _⟩ := chkAccount_other hv h hk e2
      rw [q1, q2, q3]
      exact hs)
    (by
      intro v s s' hv ⟨s1, s2, s3⟩ h
      rcases chkAccount_tokens h with ⟨_, rfl⟩ | ⟨m, r, hm, hr, rfl⟩
      · refine ⟨by show ∀ t ∈ s.tokens, _; rw [s1]; simp, ?_, fun _ => ⟨s1, s2⟩⟩
        show Names (s.tokens.map _)
        rw [s1]
        exact ⟨by simp, by simp⟩
      · obtain ⟨g1, g2⟩ := chkTokens_read hv hm (by show ∀ t ∈ s.tokens, _; rw [s1]; simp) hr
        exact ⟨g1, g2 s1, fun c => by cases c⟩)
    (by
      intro k v s s' hk hv hs h
      by_cases e2 : k = Word.storage.text
      · rw [e2] at h
        rcases chkAccount_storage h with ⟨_, rfl⟩ | ⟨_, _, _, _, rfl⟩ <;> exact hs
      obtain ⟨q1, q2, q3, _⟩ := chkAccount_other hv h hk e2
      rw [q1, q2, q3]
      exact hs)
    hl ⟨rfl, rfl, rfl⟩ h
  have h3 := fields_once (P := fun x : JChkAccount => x.storage = [] ∧ x.moreStorage = false ∧ x.ignoreStorage = false)
    (Q := fun x => (∀ e ∈ x.storage, Named I e.1 ∧ e.2.unspecified = false ∧ Tree (parseChkBytes I) e.2 e.2.original) ∧
      Names (x.storage.map fun e => e.1.original) ∧ (x.ignoreStorage = true → x.storage = [] ∧ x.moreStorage = false))
    Word.storage.text (f := chkAccountField I) (by
      intro k v s s' hk hv hs h
      by_cases e2 : k = Word.esdt.text
      · rw [e2] at h
        rcases chkAccount_tokens h with ⟨_, rfl⟩ | ⟨_, _, _, _, rfl⟩ <;> exact hs
      obtain ⟨_, _, _, q1, q2, q3, _⟩ := chkAccount_other hv h e2 hk
      rw [q1, q2, q3]
      exact hs)
    (by
      intro v s s' hv ⟨s1, s2, s3⟩ h
      rcases chkAccount_storage h with ⟨_, rfl⟩ | ⟨m, r, hm, hr, rfl⟩
      · refine ⟨by show ∀ t ∈ s.storage, _; rw [s1]; simp, ?_, fun _ => ⟨s1, s2⟩⟩
        show Names (s.storage.map _)
        rw [s1]
        exact ⟨by simp, by simp⟩
      · obtain ⟨g1, g2⟩ := chkStorage_read hv hm (by show ∀ t ∈ s.storage, _; rw [s1]; simp) hr
        exact ⟨g1, g2 s1, fun c => by cases c⟩)
    (by
      intro k v s s' hk hv hs h
      by_cases e2 : k = Word.esdt.text
      · rw [e2] at h
        rcases chkAccount_tokens h with ⟨_, rfl⟩ | ⟨_, _, _, _, rfl⟩ <;> exact hs
      obtain ⟨_, _, _, q1, q2, q3, _⟩ := chkAccount_other hv h e2 hk
      rw [q1, q2, q3]
      exact hs)
    hl ⟨rfl, rfl, rfl⟩ h
  obtain ⟨p1, p2, p3, p4, p5, p6, p7⟩ := h1
  have h2 : (∀ t ∈ x.tokens, WChkToken I t) ∧ Names (x.tokens.map fun t => t.name.original) ∧
      (x.ignoreTokens = true → x.tokens = [] ∧ x.moreTokens = false) := by
    rcases h2 with ⟨e1, e2, e3⟩ | h2
    · rw [e1, e3]
      exact ⟨by simp, ⟨by simp, by simp⟩, by simp⟩
    · exact h2
  have h3 : (∀ e ∈ x.storage, Named I e.1 ∧ e.2.unspecified = false ∧ Tree (parseChkBytes I) e.2 e.2.original) ∧
      Names (x.storage.map fun e => e.1.original) ∧ (x.ignoreStorage = true → x.storage = [] ∧ x.moreStorage = false) := by
    rcases h3 with ⟨e1, e2, e3⟩ | h3
    · rw [e1, e3]
      exact ⟨by simp, ⟨by simp, by simp⟩, by simp⟩
    · exact h3
  exact ⟨p1, p2, p3, p4, h3.1, h3.2.1, h3.2.2, p5, p6, p7, h2.1, h2.2.1, h2.2.2⟩

theorem wchkAccount_parse {k : Bytes} {j : Json} {x : JChkAccount} (hk : Quotable k) (hj : Printable j) (h : parseChkAccount I k j = .ok x) :
    (WChkAccount I x ∧ Placed I x.address) ∧ x.address.original = k := by
  obtain ⟨l, hl, h⟩ := ebind_ok h
  obtain ⟨a, ha, h⟩ := ebind_ok h
  obtain ⟨y, hy, h⟩ := map_ok h
  rw [asMap_ok hl] at hj
  have h1 := wchkAccount_fields (printable_map hj) ha
  cases h
  obtain ⟨h2, h3⟩ := placed_inv hk hy
  exact ⟨⟨⟨h1.1, h1.2, h1.3, h1.4, h1.5, h1.6, h1.7, h1.8, h1.9, h1.10, h1.11, h1.12, h1.13⟩, h2⟩, h3⟩

/-- what the parser makes of the checked accounts -/
def WChkAccounts (I : Interpreter) (x : JChkAccounts) : Prop :=
  (∀ a ∈ x.accounts, WChkAccount I a ∧ Placed I a.address) ∧ Names (x.accounts.map fun a => a.address.original)

theorem wchkAccounts_parse {j : Json} {x : JChkAccounts} (hj : Printable j) (h : parseChkAccounts I j = .ok x) : WChkAccounts I x := by
  obtain ⟨l, hl, h⟩ := ebind_ok h
  obtain ⟨r, hr, h⟩ := map_ok h
  rw [asMap_ok hl] at hj
  obtain ⟨h1, ks, h2, h3, h4, _⟩ := plusEntries_inv (P := fun a : JChkAccount => WChkAccount I a ∧ Placed I a.address)
    (key := fun a => a.address.original) (fun k j a hk hj h => wchkAccount_parse hk hj h) (printable_map hj) (by simp) hr
  cases h
  refine ⟨h1, ?_⟩
  show Names (r.2.map _)
  rw [h2]
  exact ⟨h3, h4⟩

theorem chkTokens_back {l : List JChkToken} (h : ∀ t ∈ l, WChkToken I t ∧ KeptChkToken t) (hn : Names (l.map fun t => t.name.original))
    (more : Bool) : Back (fun j => (asMap j).bind fun m => plusEntries (chkTokenEntry I) m (false, [])) (chkTokensJson l more) (more, l) :=
  plus_back (key := fun t : JChkToken => t.name.original) l (fun t ht => ⟨(h t ht).1.quotable, chkToken_back (h t ht).1 (h t ht).2⟩) hn.1 hn.2 more

theorem chkStorageEntries_back {l : List (BytesS × ChkBytes)}
    (h : ∀ e ∈ l, Named I e.1 ∧ e.2.unspecified = false ∧ Tree (parseChkBytes I) e.2 e.2.original) (hn : Names (l.map fun e => e.1.original))
    (more : Bool) : Back (fun j => (asMap j).bind fun m => plusEntries (chkStorageEntry I) m (false, []))
      (done (putPlus more (l.foldl (fun m st => putAt st.1.text st.2.json m) (some [])))) (more, l) := by
  have e : (l.map fun e => e.1.text) = l.map fun e => e.1.original :=
    List.map_congr_left (fun e he => named_text (h e he).1)
  refine plus_back (key := fun e : BytesS × ChkBytes => e.1.text) l (fun e he => ?_) (by rw [e]; exact hn.1) (by rw [e]; exact hn.2) more
  obtain ⟨h1, _, h2⟩ := h e he
  rw [named_text h1]
  refine ⟨h1.2, back_mono (chkBytes_back h2) (fun j hj => ?_)⟩
  simp only [chkStorageEntry, h1.1, Except.bind, hj]
  rfl

theorem star_back : Back (fun j => if isStar j then (.ok () : Parsed Unit) else reject) (strJ starText) () :=
  ⟨.str starText, rfl, rfl, .str quotable_star⟩

theorem star_of {j : Json} (h : (if isStar j then (.ok () : Parsed Unit) else reject) = .ok ()) : isStar j = true := by
  cases e : isStar j with
  | true => rfl
  | false => rw [e] at h; simp [reject] at h

theorem chkAccount_back {x : JChkAccount} (hx : WChkAccount I x) (ha : Placed I x.address) (hk : KeptChkAccount x) :
    Back (parseChkAccount I x.address.original) x.json x := by
  have number : ∀ {y : ChkU64}, ChkNumber I y → (!y.unspecified) = true → Back (parseChkU64 I) y.json y := by
    intro y h e
    rcases h with h | h
    · rw [h] at e; cases e
    · exact chkU64_back h.2
  have number0 : ∀ {y : ChkU64}, ChkNumber I y → (!y.unspecified) = false → y = .missing := by
    intro y h e
    rcases h with h | h
    · exact h
    · rw [h.1] at e; cases e
  have amount : ∀ {y : ChkInt}, ChkAmount I false y → (!y.unspecified) = true → Back (parseChkInt I false) y.json y := by
    intro y h e
    rcases h with h | h
    · rw [h] at e; cases e
    · exact chkInt_back h.2
  have amount0 : ∀ {y : ChkInt}, ChkAmount I false y → (!y.unspecified) = false → y = .missing := by
    intro y h e
    rcases h with h | h
    · exact h
    · rw [h.1] at e; cases e
  have data : ∀ {y : ChkBytes}, ChkData I y → (!y.unspecified) = true → Back (parseChkBytes I) y.json y := by
    intro y h e
    rcases h with h | h
    · rw [h] at e; cases e
    · exact chkBytes_back h.2
  have data0 : ∀ {y : ChkBytes}, ChkData I y → (!y.unspecified) = false → y = .missing := by
    intro y h e
    rcases h with h | h
    · exact h
    · rw [h.1] at e; cases e
  have h1 := built_putIf (f := chkAccountField I) (init := {}) built_nil (c := decide (x.comment ≠ [])) (v := strJ x.comment) .comment
    { comment := x.comment } (fun _ => str_back hx.comment) (fun _ j h => by simp only [chkAccountField, Word.of?_text, h]; rfl)
    (fun e => by rw [show x.comment = [] by simpa using e])
  have h2 := built_putIf h1 (c := !x.nonce.unspecified) (v := x.nonce.json) .nonce { comment := x.comment, nonce := x.nonce }
    (number hx.nonce) (fun _ j h => by simp only [chkAccountField, Word.of?_text, h]; rfl) (fun e => by rw [number0 hx.nonce e])
  have h3 := built_putIf h2 (c := !x.balance.unspecified) (v := x.balance.json) .balance
    { comment := x.comment, nonce := x.nonce, balance := x.balance }
    (amount hx.balance) (fun _ j h => by simp only [chkAccountField, Word.of?_text, h]; rfl) (fun e => by rw [amount0 hx.balance e])
  have h4 : Built (chkAccountField I) {} (x.putTokens (putIf (!x.balance.unspecified) .balance x.balance.json
      (putIf (!x.nonce.unspecified) .nonce x.nonce.json (putIf (decide (x.comment ≠ [])) .comment (strJ x.comment) (some [])))))
      { comment := x.comment, nonce := x.nonce, balance := x.balance, tokens := x.tokens, moreTokens := x.moreTokens,
        ignoreTokens := x.ignoreTokens } [.esdt, .balance, .nonce, .comment] := by
    unfold JChkAccount.putTokens
    split
    · rename_i hi
      refine built_put h3 .esdt _ star_back (fun j h => ?_)
      simp only [chkAccountField, Word.of?_text, star_of h, if_true]
      rw [(hx.ignoreTokens hi).1, (hx.ignoreTokens hi).2, hi]
    · rename_i hi
      have hi : x.ignoreTokens = false := by simpa using hi
      refine built_putIf h3 .esdt _ (fun _ => chkTokens_back (fun t ht => ⟨hx.tokens t ht, hk.tokens t ht⟩) hx.names x.moreTokens)
        (fun _ j h => ?_) (fun e => ?_)
      · have hm := isStar_map h
        obtain ⟨l, hl, h⟩ := ebind_ok h
        simp only [chkAccountField, Word.of?_text, hm, Bool.false_eq_true, if_false, hl, Except.bind, h, hi]
        rfl
      · have e : x.tokens = [] := by simpa using e
        have e2 : x.moreTokens = false := by
          cases c : x.moreTokens with
          | false => rfl
          | true => exact absurd e (hk.more c)
        rw [e, e2, hi]
  have h5 := built_putIf h4 (c := !x.username.unspecified) (v := x.username.json) .username
    { comment := x.comment, nonce := x.nonce, balance := x.balance, tokens := x.tokens, moreTokens := x.moreTokens,
      ignoreTokens := x.ignoreTokens, username := x.username }
    (data hx.username) (fun _ j h => by simp only [chkAccountField, Word.of?_text, h]; rfl) (fun e => by rw [data0 hx.username e])
  have hst : Back (fun j => chkAccountField I Word.storage.text j
      { comment := x.comment, nonce := x.nonce, balance := x.balance, tokens := x.tokens, moreTokens := x.moreTokens,
        ignoreTokens := x.ignoreTokens, username := x.username }) x.storageJson
      { comment := x.comment, nonce := x.nonce, balance := x.balance, tokens := x.tokens, moreTokens := x.moreTokens,
        ignoreTokens := x.ignoreTokens, username := x.username, storage := x.storage, moreStorage := x.moreStorage,
        ignoreStorage := x.ignoreStorage } := by
    unfold JChkAccount.storageJson
    split
    · rename_i hi
      refine back_mono star_back (fun j h => ?_)
      simp only [chkAccountField, Word.of?_text, star_of h, if_true]
      rw [(hx.ignoreStorage hi).1, (hx.ignoreStorage hi).2, hi]
    · rename_i hi
      refine back_mono (chkStorageEntries_back hx.storage hx.keys x.moreStorage) (fun j h => ?_)
      have hm := isStar_map h
      obtain ⟨l, hl, h⟩ := ebind_ok h
      simp only [chkAccountField, Word.of?_text, hm, Bool.false_eq_true, if_false, hl, Except.bind, h]
      rw [show x.ignoreStorage = false by simpa using hi]
      rfl
  have h6 := built_put h5 (v := x.storageJson) .storage _ hst (fun j h => h)
  have h7 := built_putIf h6 (c := !x.code.unspecified) (v := x.code.json) .code
    { comment := x.comment, nonce := x.nonce, balance := x.balance, tokens := x.tokens, moreTokens := x.moreTokens,
      ignoreTokens := x.ignoreTokens, username := x.username, storage := x.storage, moreStorage := x.moreStorage,
      ignoreStorage := x.ignoreStorage, code := x.code }
    (data hx.code) (fun _ j h => by simp only [chkAccountField, Word.of?_text, h]; rfl) (fun e => by rw [data0 hx.code e])
  have h8 := built_putIf h7 (c := !x.owner.unspecified) (v := x.owner.json) .owner
    { comment := x.comment, nonce := x.nonce, balance := x.balance, tokens := x.tokens, moreTokens := x.moreTokens,
      ignoreTokens := x.ignoreTokens, username := x.username, storage := x.storage, moreStorage := x.moreStorage,
      ignoreStorage := x.ignoreStorage, code := x.code, owner := x.owner }
    (data hx.owner) (fun _ j h => by simp only [chkAccountField, Word.of?_text, h]; rfl) (fun e => by rw [data0 hx.owner e])
  have h9 := built_putIf h8 (c := !x.asyncCallData.unspecified) (v := x.asyncCallData.json) .asyncCallData
    { comment := x.comment, nonce := x.nonce, balance := x.balance, tokens := x.tokens, moreTokens := x.moreTokens,
      ignoreTokens := x.ignoreTokens, username := x.username, storage := x.storage, moreStorage := x.moreStorage,
      ignoreStorage := x.ignoreStorage, code := x.code, owner := x.owner, asyncCallData := x.asyncCallData }
    (data hx.asyncCallData) (fun _ j h => by simp only [chkAccountField, Word.of?_text, h]; rfl) (fun e => by rw [data0 hx.asyncCallData e])
  refine back_mono (built_back h9) (fun j h => ?_)
  obtain ⟨l, hl, h⟩ := ebind_ok h
  simp only [parseChkAccount, hl, Except.bind, h, ha.1]
  rfl

theorem chkAccounts_back {x : JChkAccounts} (hx : WChkAccounts I x) (hk : ∀ a ∈ x.accounts, KeptChkAccount a) :
    Back (parseChkAccounts I) x.json x := by
  have e : (x.accounts.map fun a => a.address.text) = x.accounts.map fun a => a.address.original :=
    List.map_congr_left (fun a ha => (hx.1 a ha).2.2.2)
  have h := plus_back (p := parseChkAccount I) (key := fun a : JChkAccount => a.address.text) (g := JChkAccount.json) x.accounts
    (fun a ha => by
      obtain ⟨h1, h2⟩ := hx.1 a ha
      rw [h2.2.2]
      exact ⟨h2.2.1, chkAccount_back h1 h2 (hk a ha)⟩)
    (by rw [e]; exact hx.2.1) (by rw [e]; exact hx.2.2) x.more
  refine back_mono h (fun j h => ?_)
  obtain ⟨l, hl, h⟩ := ebind_ok h
  simp only [parseChkAccounts, hl, Except.bind, h]
  rfl

end Arwen.Props
