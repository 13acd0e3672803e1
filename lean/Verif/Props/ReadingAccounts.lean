import Verif.Props.ReadingParts
/-!
C73: what the parser makes of the accounts of scenario files.
-/
namespace Arwen.Props
open Arwen.Mandos Arwen.Spec

variable {I : Interpreter}

theorem entry_iff {k : Bytes} {j : Json} {x : BytesS × BytesT} : storageEntry I k j = .ok x ↔ IsEntry I k j x := by
  unfold storageEntry IsEntry
  simp only [ebind_iff, emap_iff, bytesT_iff, stands_iff]
  constructor
  · rintro ⟨b, h1, y, h2, rfl⟩
    exact ⟨⟨b, h1, rfl⟩, h2⟩
  · rintro ⟨⟨b, h1, h3⟩, h2⟩
    exact ⟨b, h1, x.2, h2, by rw [← h3]⟩

theorem chkEntry_iff {k : Bytes} {j : Json} {x : BytesS × ChkBytes} : chkStorageEntry I k j = .ok x ↔ IsChkEntry I k j x := by
  unfold chkStorageEntry IsChkEntry
  simp only [ebind_iff, emap_iff, chkBytes_iff, stands_iff]
  constructor
  · rintro ⟨b, h1, y, h2, rfl⟩
    exact ⟨⟨b, h1, rfl⟩, h2⟩
  · rintro ⟨⟨b, h1, h3⟩, h2⟩
    exact ⟨b, h1, x.2, h2, by rw [← h3]⟩

/-- an account whose object has been read in part -/
def AccountFrom (I : Interpreter) (l : List (Bytes × Json)) (s x : JAccount) : Prop :=
  OnlyKeys l [.comment, .shard, .nonce, .balance, .esdt, .username, .storage, .code, .owner, .asyncCallData] ∧ x.address = s.address ∧
  AtKey l .comment SaysText s.comment x.comment ∧ AtKey l .shard (IsU64 I) s.shard x.shard ∧ AtKey l .nonce (IsU64 I) s.nonce x.nonce ∧
  AtKey l .balance (IsAmount I) s.balance x.balance ∧
  AtKey l .esdt (fun j y => ∃ z, IsTable (IsToken I) j z ∧ s.tokens ++ z = y) s.tokens x.tokens ∧
  AtKey l .username (SaysBytes I) s.username x.username ∧
  AtKey l .storage (fun j y => ∃ z, IsTable (IsEntry I) j z ∧ s.storage ++ z = y) s.storage x.storage ∧ AtKey l .code (SaysBytes I) s.code x.code ∧
  AtKey l .owner (SaysBytes I) s.owner x.owner ∧ AtKey l .asyncCallData SaysText s.asyncCallData x.asyncCallData

theorem accountFields_iff (l : List (Bytes × Json)) (hl : Printable (.map l)) (s x : JAccount) :
    fields (accountField I) l s = .ok x ↔ AccountFrom I l s x := by
  refine fields_iff (AccountFrom I) ?_ ?_ l hl s x
  · intro s x
    cases s; cases x
    simp only [AccountFrom, atKey_nil, onlyKeys_nil, true_and, JAccount.mk.injEq]
    grind
  · intro k v l s x hv hk
    unfold AccountFrom accountField
    read_key hk [bytesS_iff, u64_iff, big_iff, parseStr_iff, table_iff (fun _ _ h _ => token_iff h) hv, table_iff (fun _ _ _ _ => entry_iff) hv]

theorem atKey_table {α : Type} {l : List (Bytes × Json)} {w : Word} {R : Json → List α → Prop} {x : List α} :
    AtKey l w (fun j y => ∃ z, R j z ∧ [] ++ z = y) [] x ↔ AtKey l w R [] x := by
  unfold AtKey
  cases valueAt l w.text with
  | none => exact Iff.rfl
  | some v =>
    simp only [List.nil_append]
    exact ⟨fun ⟨z, h1, h2⟩ => h2 ▸ h1, fun h => ⟨x, h, rfl⟩⟩

theorem account_iff {k : Bytes} {j : Json} (hj : Printable j) {x : JAccount} :
    parseAccount I k j = .ok x ↔ ∃ l, j = .map l ∧ SaysAccount I k l x := by
  unfold parseAccount
  simp only [ebind_iff, emap_iff, asMap_iff, address_iff]
  constructor
  · rintro ⟨l, rfl, a, h1, y, h2, rfl⟩
    obtain ⟨b1, b2, b3, b4, b5, b6, b7, b8, b9, b10, b11, b12⟩ := (accountFields_iff l hj _ _).mp h1
    exact ⟨l, rfl, b1, h2, b3, b4, b5, b6, atKey_table.mp b7, b8, atKey_table.mp b9, b10, b11, b12⟩
  · rintro ⟨l, rfl, b1, h2, b3, b4, b5, b6, b7, b8, b9, b10, b11, b12⟩
    exact ⟨l, rfl, { x with address := {} },
      (accountFields_iff l hj _ _).mpr ⟨b1, rfl, b3, b4, b5, b6, atKey_table.mpr b7, b8, atKey_table.mpr b9, b10, b11, b12⟩, x.address, h2, rfl⟩

theorem accounts_iff {j : Json} (hj : Printable j) {xs : List JAccount} : parseAccounts I j = .ok xs ↔ IsAccounts I j xs :=
  table_iff (fun _ _ h _ => account_iff h) hj

/-! ### Checked accounts -/

/-- a part of a checked account, of which this has been read already -/
def PartFrom {α : Type} (says : Bytes → Json → α → Prop) (m : Bool) (xs : List α) (j : Json) (x : Bool × Bool × List α) : Prop :=
  (IsStar j ∧ x = (true, m, xs)) ∨
  (¬ IsStar j ∧ x.1 = false ∧ ∃ l, j = .map l ∧ (x.2.1 = true ↔ m = true ∨ ∃ p ∈ l, p.1 = plusText) ∧
    ∃ zs, x.2.2 = xs ++ zs ∧ Each (fun p x => says p.1 p.2 x) (l.filter fun p => p.1 ≠ plusText) zs)

theorem partFrom_iff {α : Type} {says : Bytes → Json → α → Prop} {j : Json} {x : Bool × Bool × List α} :
    PartFrom says false [] j x ↔ IsPart says j x := by
  unfold PartFrom IsPart IsOpenTable
  simp only [Bool.false_eq_true, false_or, List.nil_append, exists_eq_left']

theorem part_iff {α : Type} {f : Bytes → Json → Parsed α} {R : Bytes → Json → α → Prop} (h : ∀ k j, Printable j → ∀ x, f k j = .ok x ↔ R k j x)
    {j : Json} (hj : Printable j) {σ : Type} {s : σ} {m : Bool} {xs : List α} {star : σ} {g : Bool × List α → σ} :
    (if isStar j then .ok star else (asMap j).bind fun l => (plusEntries f l (m, xs)).map g) = (.ok s : Parsed σ) ↔
      ∃ x, PartFrom R m xs j x ∧ s = if x.1 then star else g x.2 := by
  unfold PartFrom
  by_cases hs : IsStar j
  · rw [if_pos (isStar_iff.mpr hs), eok_iff]
    constructor
    · rintro rfl
      exact ⟨_, .inl ⟨hs, rfl⟩, rfl⟩
    · rintro ⟨x, ⟨_, rfl⟩ | ⟨h1, _⟩, rfl⟩
      · rfl
      · exact absurd hs h1
  · rw [if_neg (fun e => hs (isStar_iff.mp e))]
    simp only [ebind_iff, emap_iff, asMap_iff]
    constructor
    · rintro ⟨l, rfl, ⟨m', ys⟩, h1, rfl⟩
      obtain ⟨h2, zs, h3, h4⟩ := (plusEntries_iff fun p hm => h p.1 p.2 ((printable_pairs hj).2 p hm)).mp h1
      exact ⟨(false, m', ys), .inr ⟨hs, rfl, l, rfl, h2, zs, h3, h4⟩, rfl⟩
    · rintro ⟨⟨b, m', ys⟩, ⟨h1, _⟩ | ⟨_, h0, l, rfl, h2, zs, h3, h4⟩, rfl⟩
      · exact absurd h1 hs
      · cases h0
        exact ⟨l, rfl, (m', ys), (plusEntries_iff fun p hm => h p.1 p.2 ((printable_pairs hj).2 p hm)).mpr ⟨h2, zs, h3, h4⟩, rfl⟩

/-- a checked account whose object has been read in part -/
def ChkAccountFrom (I : Interpreter) (l : List (Bytes × Json)) (s x : JChkAccount) : Prop :=
  OnlyKeys l [.comment, .nonce, .balance, .esdt, .username, .storage, .code, .owner, .asyncCallData] ∧ x.address = s.address ∧
  AtKey l .comment SaysText s.comment x.comment ∧ AtKey l .nonce (IsChkU64 I) s.nonce x.nonce ∧
  AtKey l .balance (IsChkInt I false) s.balance x.balance ∧
  AtKey l .esdt (PartFrom (IsChkToken I) s.moreTokens s.tokens) (s.ignoreTokens, s.moreTokens, s.tokens)
    (x.ignoreTokens, x.moreTokens, x.tokens) ∧
  AtKey l .username (IsChkBytes I) s.username x.username ∧
  AtKey l .storage (PartFrom (IsChkEntry I) s.moreStorage s.storage) (s.ignoreStorage, s.moreStorage, s.storage)
    (x.ignoreStorage, x.moreStorage, x.storage) ∧
  AtKey l .code (IsChkBytes I) s.code x.code ∧ AtKey l .owner (IsChkBytes I) s.owner x.owner ∧
  AtKey l .asyncCallData (IsChkBytes I) s.asyncCallData x.asyncCallData

theorem partFrom_star {α : Type} {says : Bytes → Json → α → Prop} {m : Bool} {xs : List α} {j : Json} {x : Bool × Bool × List α}
    (h : PartFrom says m xs j x) (hx : x.1 = true) : x = (true, m, xs) := by
  rcases h with ⟨_, h⟩ | ⟨_, h, _⟩
  · exact h
  · rw [hx] at h
    cases h

theorem chkAccountFields_iff (l : List (Bytes × Json)) (hl : Printable (.map l)) (s x : JChkAccount) :
    fields (chkAccountField I) l s = .ok x ↔ ChkAccountFrom I l s x := by
  refine fields_iff (ChkAccountFrom I) ?_ ?_ l hl s x
  · intro s x
    cases s; cases x
    simp only [ChkAccountFrom, atKey_nil, onlyKeys_nil, true_and, JChkAccount.mk.injEq, Prod.mk.injEq]
    grind
  · intro k v l s x hv hk
    unfold ChkAccountFrom chkAccountField
    have p1 := @partFrom_star _ (IsChkToken I) s.moreTokens s.tokens v
    have p2 := @partFrom_star _ (IsChkEntry I) s.moreStorage s.storage v
    read_key hk [chkU64_iff, chkInt_iff, chkBytes_iff, parseStr_iff, part_iff (fun _ _ h _ => chkToken_iff h) hv,
      part_iff (fun _ _ _ _ => chkEntry_iff) hv]

theorem chkAccount_iff {k : Bytes} {j : Json} (hj : Printable j) {x : JChkAccount} :
    parseChkAccount I k j = .ok x ↔ ∃ l, j = .map l ∧ SaysChkAccount I k l x := by
  unfold parseChkAccount
  simp only [ebind_iff, emap_iff, asMap_iff, address_iff]
  constructor
  · rintro ⟨l, rfl, a, h1, y, h2, rfl⟩
    obtain ⟨b1, b2, b3, b4, b5, b6, b7, b8, b9, b10, b11⟩ := (chkAccountFields_iff l hj _ _).mp h1
    exact ⟨l, rfl, b1, h2, b3, b4, b5, by simpa only [partFrom_iff, AtKey] using b6, b7, by simpa only [partFrom_iff, AtKey] using b8, b9, b10, b11⟩
  · rintro ⟨l, rfl, b1, h2, b3, b4, b5, b6, b7, b8, b9, b10, b11⟩
    exact ⟨l, rfl, { x with address := {} },
      (chkAccountFields_iff l hj _ _).mpr ⟨b1, rfl, b3, b4, b5, by simpa only [partFrom_iff, AtKey] using b6, b7,
        by simpa only [partFrom_iff, AtKey] using b8, b9, b10, b11⟩, x.address, h2, rfl⟩

theorem chkAccounts_iff {j : Json} (hj : Printable j) {x : JChkAccounts} : parseChkAccounts I j = .ok x ↔ IsChkAccounts I j x := by
  unfold parseChkAccounts IsChkAccounts IsOpenTable
  simp only [ebind_iff, emap_iff, asMap_iff]
  have hp : ∀ l, j = .map l → ∀ p ∈ l, ∀ y, parseChkAccount I p.1 p.2 = .ok y ↔ (fun k j x => ∃ l, j = .map l ∧ SaysChkAccount I k l x) p.1 p.2 y := by
    rintro l rfl p hm y
    exact chkAccount_iff ((printable_pairs hj).2 p hm)
  constructor
  · rintro ⟨l, e, ⟨m, ys⟩, h1, rfl⟩
    obtain ⟨h2, zs, h3, h4⟩ := (plusEntries_iff (R := fun k j x => ∃ l, j = .map l ∧ SaysChkAccount I k l x) (hp l e)).mp h1
    rw [List.nil_append] at h3
    exact ⟨l, e, by simpa using h2, by rw [h3]; exact h4⟩
  · rintro ⟨l, e, h2, h4⟩
    exact ⟨l, e, (x.more, x.accounts), (plusEntries_iff (R := fun k j x => ∃ l, j = .map l ∧ SaysChkAccount I k l x) (hp l e)).mpr ⟨by simpa using h2, x.accounts, rfl, h4⟩, rfl⟩

end Arwen.Props
