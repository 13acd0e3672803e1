import Verif.Spec.SetCheck
import Verif.World.ToyCodec
import Verif.Props.Check
namespace Arwen.Props
open Mock Spec

/-! ### Entries of tokens (C56) -/

theorem natToBytes_inj {a b : Nat} (h : natToBytes a = natToBytes b) : a = b := by
  have := congrArg bytesToNat h
  simpa using this

/-- names of the same length: the name and the nonce can be read off the entry -/
theorem tokenKey_sameLength {n m : Bytes} {a b : UInt64} (hl : n.length = m.length) (h : makeTokenKey n a = makeTokenKey m b) :
    n = m ∧ a = b := by
  simp only [makeTokenKey, List.append_assoc] at h
  have h1 := List.append_cancel_left h
  obtain ⟨h2, h3⟩ := List.append_inj h1 hl
  exact ⟨h2, UInt64.toNat_inj.mp (natToBytes_inj h3)⟩

theorem tokenKey_name {n m : Bytes} {a : UInt64} (h : makeTokenKey n a = makeTokenKey m a) : n = m := by
  simp only [makeTokenKey, List.append_assoc] at h
  exact List.append_cancel_right (List.append_cancel_left h)

theorem tickerByte_ne_dash {b : UInt8} (h : tickerByte b) : b ≠ 45 := by
  rintro rfl
  rcases h with ⟨h, _⟩ | ⟨h, _⟩ <;> exact absurd h (by decide)

/-- of two lists that begin alike and have a dash after a part without dashes, these parts are the same -/
theorem dash_split : ∀ (t t' s s' : Bytes), (∀ b ∈ t, b ≠ 45) → (∀ b ∈ t', b ≠ 45) → t ++ 45 :: s = t' ++ 45 :: s' → t = t' ∧ s = s' := by
  intro t
  induction t with
  | nil =>
    intro t' s s' _ ht' h
    cases t' with
    | nil => simp only [List.nil_append, List.cons.injEq, true_and] at h; exact ⟨rfl, h⟩
    | cons c t' =>
      simp only [List.nil_append, List.cons_append, List.cons.injEq] at h
      exact absurd h.1.symm (ht' c (List.mem_cons_self ..))
  | cons c t ih =>
    intro t' s s' ht ht' h
    cases t' with
    | nil =>
      simp only [List.nil_append, List.cons_append, List.cons.injEq] at h
      exact absurd h.1 (ht c (List.mem_cons_self ..))
    | cons c' t' =>
      simp only [List.cons_append, List.cons.injEq] at h
      obtain ⟨h1, h2⟩ := ih t' s s' (fun b hb => ht b (List.mem_cons_of_mem _ hb)) (fun b hb => ht' b (List.mem_cons_of_mem _ hb)) h.2
      exact ⟨by rw [h.1, h1], h2⟩

/-- C56 (entries): two instances of tokens with identifiers of the network's form share an entry of the storage only if they are the
same -/
theorem c56_keys {n m : Bytes} {a b : UInt64} (hn : TokenId n) (hm : TokenId m) (h : makeTokenKey n a = makeTokenKey m b) :
    n = m ∧ a = b := by
  refine tokenKey_sameLength ?_ h
  obtain ⟨t, s, rfl, ht, hs⟩ := hn
  obtain ⟨t', s', rfl, ht', hs'⟩ := hm
  simp only [makeTokenKey, List.append_assoc, List.cons_append] at h
  have h1 := List.append_cancel_left h
  have h2 := (dash_split t t' _ _ (fun b hb => tickerByte_ne_dash (ht b hb)) (fun b hb => tickerByte_ne_dash (ht' b hb)) h1).1
  rw [h2]
  simp [hs, hs']

/-- the entries about tokens, roles and last nonces are different, and all of them are reserved -/
theorem c56_kinds (n m : Bytes) (a : UInt64) :
    makeTokenKey n a ≠ makeRolesKey m ∧ makeTokenKey n a ≠ makeLastNonceKey m ∧ makeRolesKey n ≠ makeLastNonceKey m ∧
    ReservedKey (makeTokenKey n a) ∧ ReservedKey (makeRolesKey n) ∧ ReservedKey (makeLastNonceKey n) := by
  refine ⟨fun h => ?_, fun h => ?_, fun h => ?_, ⟨[101, 115, 100, 116] ++ n ++ natToBytes a.toNat, ?_⟩,
    ⟨[114, 111, 108, 101, 101, 115, 100, 116] ++ n, ?_⟩, ⟨[110, 111, 110, 99, 101] ++ n, ?_⟩⟩
  · have := isTokenKey_make n a
    rw [h, role_not_token] at this; cases this
  · have := isTokenKey_make n a
    rw [h, nonce_not_token] at this; cases this
  · have := isRoleKey_make n
    rw [h, nonce_not_role] at this; cases this
  · simp [makeTokenKey, tokenPrefix]
  · simp [makeRolesKey, rolePrefix]
  · simp [makeLastNonceKey, noncePrefix]

/-- C56: setting the balance of a token is seen by the next read of it, is refused for negative amounts, and leaves every other token
(with an identifier of the network's form), the roles, the last nonces and all other entries as they were -/
theorem c56 {C : TokenCodec} (hC : Faithful C) {st st' : Store} {name : Bytes} {n : UInt64} {x : Int}
    (h : setTokenBalance C st (makeTokenKey name n) x = some st') :
    0 ≤ x ∧ getTokenBalance C st' (makeTokenKey name n) = some x ∧
    (TokenId name → ∀ m k, TokenId m → (m, k) ≠ (name, n) → getTokenData C st' (makeTokenKey m k) = getTokenData C st (makeTokenKey m k)) ∧
    (∀ m, getRoles C st' m = getRoles C st m ∧ lastNonceFor st' m = lastNonceFor st m) ∧
    (∀ k, k ≠ makeTokenKey name n → st'.get? k = st.get? k) := by
  unfold setTokenBalance at h
  cases hg : getTokenData C st (makeTokenKey name n) with
  | none => rw [hg] at h; cases h
  | some t =>
    simp only [hg] at h
    split at h
    · cases h
    · rename_i hx
      cases h
      have hother : ∀ k, k ≠ makeTokenKey name n → (setTokenData C st (makeTokenKey name n) { t with value := x }).get? k = st.get? k :=
        fun k hk => AMap.get?_insert_ne _ _ (Ne.symm hk)
      refine ⟨by omega, ?_, fun hname m k hm hne => ?_, fun m => ⟨?_, ?_⟩, hother⟩
      · simp only [getTokenBalance, getTokenData, setTokenData, AMap.get?_insert_self, hC.token_ne, if_false, hC.token, Option.map_some]
      · have : makeTokenKey m k ≠ makeTokenKey name n := fun he => by
          obtain ⟨h1, h2⟩ := c56_keys hm hname he
          exact hne (by rw [h1, h2])
        simp only [getTokenData, hother _ this]
      · simp only [getRoles, hother _ (fun he => (c56_kinds name m n).1 he.symm)]
      · simp only [lastNonceFor, hother _ (fun he => (c56_kinds name m n).2.1 he.symm)]

/-- A balance that is not negative can be set, if the entry was readable. -/
theorem c56_set {C : TokenCodec} {st : Store} {key : Bytes} {x : Int} (hx : 0 ≤ x) (hr : (getTokenBalance C st key).isSome = true) :
    (setTokenBalance C st key x).isSome = true := by
  unfold setTokenBalance
  cases hg : getTokenData C st key with
  | none => simp [getTokenBalance, hg] at hr
  | some t => simp only; rw [if_neg (by omega)]; rfl

/-! ### Setting and checking (C55) -/

variable {C : TokenCodec}

theorem lastWith_isSome {α : Type} {p : α → Bool} {l : List α} {a : α} (ha : a ∈ l) (hp : p a = true) : ∃ b, lastWith p l = some b := by
  cases h : lastWith p l with
  | some b => exact ⟨b, rfl⟩
  | none => rw [lastWith_none h a ha] at hp; cases hp

/-- the storage of an account that was set: the last of the writes under a key counts -/
theorem converted_storage (a : AccountInit) (k : Bytes) :
    ((convertAccount C a).tokens.foldl (fun m p => m.insert p.1 p.2) (convertAccount C a).acc.storage).get? k =
      ((lastWith (fun p => decide (p.1 = k)) (a.tokens.flatMap (tokenWrites C))).map Prod.snd).or
        ((lastWith (fun p => decide (p.1 = k)) a.storage).map Prod.snd) := by
  rw [mapOf_go]
  simp only [convertAccount, get?_mapOf]

theorem mem_tokenWrites {t : TokenSet} {p : Bytes × Bytes} : p ∈ tokenWrites C t ↔
    (∃ i ∈ t.instances, p = (makeTokenKey t.name i.nonce, C.token (tokenRec t i)) ∨
      p = (makeLastNonceKey t.name, natToBytes t.lastNonce.toNat)) ∨ p = (makeRolesKey t.name, C.roles t.roles) := by
  simp [tokenWrites, List.mem_flatMap]

/-- the storage after `setState` -/
def storeOf (C : TokenCodec) (a : AccountInit) : Store :=
  (convertAccount C a).tokens.foldl (fun m p => m.insert p.1 p.2) (convertAccount C a).acc.storage

theorem storeOf_reserved {a : AccountInit} (hp : Plain a) {k : Bytes} (hk : ReservedKey k) :
    (storeOf C a).get? k = (lastWith (fun p => decide (p.1 = k)) (a.tokens.flatMap (tokenWrites C))).map Prod.snd := by
  rw [storeOf, converted_storage]
  have : lastWith (fun p => decide (p.1 = k)) a.storage = none := by
    cases h : lastWith (fun p => decide (p.1 = k)) a.storage with
    | none => rfl
    | some q =>
      obtain ⟨h1, h2⟩ := lastWith_mem h
      have h3 : q.1 = k := by simpa using h2
      exact absurd (h3 ▸ hk) (hp.storage q h1)
  rw [this]
  simp

theorem storeOf_other (a : AccountInit) {k : Bytes} (hk : ¬ ReservedKey k) :
    (storeOf C a).get? k = (lastWith (fun p => decide (p.1 = k)) a.storage).map Prod.snd := by
  rw [storeOf, converted_storage]
  have : lastWith (fun p => decide (p.1 = k)) (a.tokens.flatMap (tokenWrites C)) = none := by
    cases h : lastWith (fun p => decide (p.1 = k)) (a.tokens.flatMap (tokenWrites C)) with
    | none => rfl
    | some q =>
      obtain ⟨h1, h2⟩ := lastWith_mem h
      have h3 : q.1 = k := by simpa using h2
      obtain ⟨t, _, h4⟩ := List.mem_flatMap.mp h1
      exfalso
      apply hk
      rw [← h3]
      rcases mem_tokenWrites.mp h4 with ⟨i, _, rfl | rfl⟩ | rfl
      · exact (c56_kinds t.name t.name i.nonce).2.2.2.1
      · exact (c56_kinds t.name t.name 0).2.2.2.2.2
      · exact (c56_kinds t.name t.name 0).2.2.2.2.1
  rw [this]
  simp

/-- the entry of an instance: the record of the only instance with that entry -/
theorem storeOf_token {a : AccountInit} (hp : Plain a) (name : Bytes) (n : UInt64) :
    (∃ t ∈ a.tokens, ∃ i ∈ t.instances, makeTokenKey t.name i.nonce = makeTokenKey name n ∧
      (storeOf C a).get? (makeTokenKey name n) = some (C.token (tokenRec t i))) ∨
    ((∀ t ∈ a.tokens, ∀ i ∈ t.instances, makeTokenKey t.name i.nonce ≠ makeTokenKey name n) ∧
      (storeOf C a).get? (makeTokenKey name n) = none) := by
  rw [storeOf_reserved hp (c56_kinds name name n).2.2.2.1]
  cases h : lastWith (fun p => decide (p.1 = makeTokenKey name n)) (a.tokens.flatMap (tokenWrites C)) with
  | some q =>
    obtain ⟨h1, h2⟩ := lastWith_mem h
    have h3 : q.1 = makeTokenKey name n := by simpa using h2
    obtain ⟨t, ht, h4⟩ := List.mem_flatMap.mp h1
    left
    rcases mem_tokenWrites.mp h4 with ⟨i, hi, rfl | rfl⟩ | rfl
    · exact ⟨t, ht, i, hi, h3, rfl⟩
    · exact absurd h3.symm (c56_kinds name t.name n).2.1
    · exact absurd h3.symm (c56_kinds name t.name n).1
  | none =>
    right
    refine ⟨fun t ht i hi he => ?_, rfl⟩
    have := lastWith_none h (makeTokenKey t.name i.nonce, C.token (tokenRec t i))
      (List.mem_flatMap.mpr ⟨t, ht, mem_tokenWrites.mpr (.inl ⟨i, hi, .inl rfl⟩)⟩)
    simp [he] at this

theorem storeOf_lastNonce {a : AccountInit} (hp : Plain a) (hu : Unambiguous a) (name : Bytes) :
    lastNonceFor (storeOf C a) name = ((lastWith (fun t => decide (t.name = name)) a.tokens).map TokenSet.lastNonce).getD 0 := by
  unfold lastNonceFor
  rw [storeOf_reserved hp (c56_kinds name name 0).2.2.2.2.2]
  cases h : lastWith (fun p => decide (p.1 = makeLastNonceKey name)) (a.tokens.flatMap (tokenWrites C)) with
  | some q =>
    obtain ⟨h1, h2⟩ := lastWith_mem h
    have h3 : q.1 = makeLastNonceKey name := by simpa using h2
    obtain ⟨t, ht, h4⟩ := List.mem_flatMap.mp h1
    rcases mem_tokenWrites.mp h4 with ⟨i, hi, rfl | rfl⟩ | rfl
    · exact absurd h3 (c56_kinds t.name name i.nonce).2.1
    · have hn : t.name = name := List.append_cancel_left h3
      obtain ⟨t', ht'⟩ := lastWith_isSome (p := fun t : TokenSet => decide (t.name = name)) ht (by simp [hn])
      obtain ⟨h5, h6⟩ := lastWith_mem ht'
      have : t' = t := hu.1 t' h5 t ht (by rw [hn]; simpa using h6)
      subst this
      rw [ht']
      simp
    · exact absurd h3 (c56_kinds t.name name 0).2.2.1
  | none =>
    simp only [Option.map_none]
    cases hl : lastWith (fun t => decide (t.name = name)) a.tokens with
    | none => rfl
    | some t =>
      obtain ⟨h5, h6⟩ := lastWith_mem hl
      have hn : t.name = name := by simpa using h6
      simp only [Option.map_some, Option.getD_some]
      refine (hp.lastNonce t h5 ?_).symm
      cases hi : t.instances with
      | nil => rfl
      | cons i l =>
        have := lastWith_none h (makeLastNonceKey t.name, natToBytes t.lastNonce.toNat)
          (List.mem_flatMap.mpr ⟨t, h5, mem_tokenWrites.mpr (.inl ⟨i, by rw [hi]; exact List.mem_cons_self .., .inr rfl⟩)⟩)
        simp [hn] at this

theorem storeOf_roles (hC : Faithful C) {a : AccountInit} (hp : Plain a) (hu : Unambiguous a) (name : Bytes) :
    rolesFor C (storeOf C a) name = ((lastWith (fun t => decide (t.name = name)) a.tokens).map TokenSet.roles).getD [] := by
  unfold rolesFor
  rw [storeOf_reserved hp (c56_kinds name name 0).2.2.2.2.1]
  cases h : lastWith (fun p => decide (p.1 = makeRolesKey name)) (a.tokens.flatMap (tokenWrites C)) with
  | some q =>
    obtain ⟨h1, h2⟩ := lastWith_mem h
    have h3 : q.1 = makeRolesKey name := by simpa using h2
    obtain ⟨t, ht, h4⟩ := List.mem_flatMap.mp h1
    rcases mem_tokenWrites.mp h4 with ⟨i, hi, rfl | rfl⟩ | rfl
    · exact absurd h3 (c56_kinds t.name name i.nonce).1
    · exact absurd h3.symm (c56_kinds name t.name 0).2.2.1
    · have hn : t.name = name := List.append_cancel_left h3
      obtain ⟨t', ht'⟩ := lastWith_isSome (p := fun t : TokenSet => decide (t.name = name)) ht (by simp [hn])
      obtain ⟨h5, h6⟩ := lastWith_mem ht'
      have : t' = t := hu.1 t' h5 t ht (by rw [hn]; simpa using h6)
      subst this
      rw [ht']
      simp only [Option.map_some, Option.getD_some, hC.roles]
      split
      · rename_i he
        refine Decidable.byContradiction fun hne => ?_
        exact hC.roles_ne t'.roles (fun h0 => hne h0.symm) he
      · rfl
  | none =>
    simp only [Option.map_none]
    cases hl : lastWith (fun t => decide (t.name = name)) a.tokens with
    | none => rfl
    | some t =>
      obtain ⟨h5, h6⟩ := lastWith_mem hl
      have hn : t.name = name := by simpa using h6
      have := lastWith_none h (makeRolesKey t.name, C.roles t.roles)
        (List.mem_flatMap.mpr ⟨t, h5, mem_tokenWrites.mpr (.inr rfl)⟩)
      simp [hn] at this

theorem tokenRec_nonce (t : TokenSet) (i : TokenInit) : (tokenRec t i).nonce = i.nonce := rfl

/-- what the account holds of an instance: what was set -/
theorem storeOf_holding (hC : Faithful C) {a : AccountInit} (hp : Plain a) {name : Bytes} {n : UInt64}
    {q : Int × TokenMeta} (h : holding C (storeOf C a) name n = some q) :
    ∃ t ∈ a.tokens, ∃ i ∈ t.instances, t.name = name ∧ i.nonce = n ∧
      q = (i.balance, if n = 0 then { name := name } else (tokenRec t i).metadata.getD {}) := by
  rcases storeOf_token (C := C) hp name n with ⟨t, ht, i, hi, hk, hs⟩ | ⟨_, hs⟩
  · unfold holding at h
    simp only [hs, hC.token_ne, if_false, hC.token] at h
    split at h
    · rename_i hc
      cases h
      rw [tokenRec_nonce] at hc
      have hn := hc.2
      subst hn
      exact ⟨t, ht, i, hi, tokenKey_name hk, rfl, rfl⟩
    · cases h
  · unfold holding at h
    rw [hs] at h; cases h

theorem holding_set (hC : Faithful C) {a : AccountInit} (hp : Plain a) (hu : Unambiguous a) {t : TokenSet} (ht : t ∈ a.tokens)
    {i : TokenInit} (hi : i ∈ t.instances) :
    holding C (storeOf C a) t.name i.nonce =
      some (i.balance, if i.nonce = 0 then { name := t.name } else (tokenRec t i).metadata.getD {}) := by
  rcases storeOf_token (C := C) hp t.name i.nonce with ⟨t', ht', i', hi', hk, hs⟩ | ⟨hno, _⟩
  · obtain ⟨rfl, rfl⟩ := hu.2 t' ht' t ht i' hi' i hi hk
    unfold holding
    simp only [hs, hC.token_ne, if_false, hC.token]
    rw [if_pos ⟨hp.balance _ ht _ hi, rfl⟩]
    rfl
  · exact absurd rfl (hno t ht i hi)

theorem readable_set (hC : Faithful C) {a : AccountInit} (hp : Plain a) : ReadableTokens C (storeOf C a) := by
  intro k v hs hv
  by_cases hk : ReservedKey k
  · rw [storeOf_reserved hp hk] at hs
    cases h : lastWith (fun p => decide (p.1 = k)) (a.tokens.flatMap (tokenWrites C)) with
    | none => rw [h] at hs; cases hs
    | some q =>
      rw [h] at hs
      cases hs
      obtain ⟨h1, h2⟩ := lastWith_mem h
      have h3 : q.1 = k := by simpa using h2
      obtain ⟨t, ht, h4⟩ := List.mem_flatMap.mp h1
      rcases mem_tokenWrites.mp h4 with ⟨i, hi, rfl | rfl⟩ | rfl
      · refine ⟨fun _ => ⟨_, t.name, hC.token _, h3.symm⟩, fun hr => ?_⟩
        rw [← h3, token_not_role (isTokenKey_make ..)] at hr; cases hr
      · exact ⟨(fun hr => by rw [← h3, nonce_not_token] at hr; cases hr), (fun hr => by rw [← h3, nonce_not_role] at hr; cases hr)⟩
      · exact ⟨(fun hr => by rw [← h3, role_not_token] at hr; cases hr), fun _ => ⟨_, hC.roles _⟩⟩
  · refine ⟨fun hT => absurd ?_ hk, fun hR => absurd ?_ hk⟩
    · obtain ⟨r, rfl⟩ := (isTokenKey_iff k).mp hT
      exact ⟨[101, 115, 100, 116] ++ r, by simp [tokenPrefix]⟩
    · obtain ⟨r, rfl⟩ := (isRoleKey_iff k).mp hR
      exact (c56_kinds r r 0).2.2.2.2.1

theorem lastWith_instances (n : UInt64) (l : List TokenInit) :
    lastWith (fun i => decide (i.nonce.value = n)) (l.map sameInstance) = (lastWith (fun i => decide (i.nonce = n)) l).map sameInstance := by
  rw [lastWith_map]; rfl

theorem lastWith_tokens (name : Bytes) (l : List TokenSet) :
    lastWith (fun i => decide (i.name = name)) (l.map sameToken) = (lastWith (fun i => decide (i.name = name)) l).map sameToken := by
  rw [lastWith_map]; rfl

theorem tokens_set (hC : Faithful C) {a : AccountInit} (hp : Plain a) (hu : Unambiguous a) :
    TokensAs C (sameAccount a) (storeOf C a) := by
  right
  refine ⟨readable_set hC hp, fun name => ⟨fun n => ?_, ?_, fun r => ?_⟩⟩
  · simp only [sameAccount, lastWith_tokens]
    cases hl : lastWith (fun t => decide (t.name = name)) a.tokens with
    | none =>
      simp only [Option.map_none, Option.getD_none]
      show holding C (storeOf C a) name n = none
      cases hh : holding C (storeOf C a) name n with
      | none => rfl
      | some q =>
        obtain ⟨t, ht, _, _, hn, _⟩ := storeOf_holding hC hp hh
        have := lastWith_none hl t ht
        simp [hn] at this
    | some t =>
      obtain ⟨ht, hn⟩ := lastWith_mem hl
      have hn : t.name = name := by simpa using hn
      simp only [Option.map_some, Option.getD_some, sameToken, lastWith_instances]
      cases hi : lastWith (fun i => decide (i.nonce = n)) t.instances with
      | none =>
        simp only [Option.map_none]
        cases hh : holding C (storeOf C a) name n with
        | none => rfl
        | some q =>
          obtain ⟨t', ht', i, hi', hn', hin, _⟩ := storeOf_holding hC hp hh
          have : t' = t := hu.1 t' ht' t ht (by rw [hn, hn'])
          subst this
          have := lastWith_none hi i hi'
          simp [hin] at this
      | some i =>
        obtain ⟨hmem, hin⟩ := lastWith_mem hi
        have hin : i.nonce = n := by simpa using hin
        subst hn; subst hin
        rw [holding_set hC hp hu ht hmem]
        simp only [Option.map_some]
        have hroy : i.royalties = UInt64.ofNat i.royalties.toUInt32.toNat := by
          apply UInt64.toNat_inj.mp
          have := hp.royalties t ht i hmem
          simp only [UInt64.toNat_toUInt32, UInt64.toNat_ofNat']
          omega
        by_cases h0 : i.nonce = 0
        · obtain ⟨h1, h2, h3, h4, h5⟩ := hp.fungible t ht i hmem h0
          rw [if_pos h0]
          simp only [InstanceAs, sameInstance, exactU64, exactBytes, exactInt, MeetsInt, MeetsBytes, MeetsU64, h1, h2, h3, h4, h5]
          exact ⟨.inr (by trivial), fun _ => .inr (by trivial), fun _ => .inr (by trivial), fun _ => .inr (by trivial), by simp, fun _ => .inr (by trivial), fun _ => .inr (by trivial)⟩
        · rw [if_neg h0]
          simp only [InstanceAs, sameInstance, exactU64, exactBytes, exactInt, MeetsInt, MeetsBytes, MeetsU64, tokenRec, Option.getD_some]
          exact ⟨.inr trivial, fun _ => .inr trivial, fun _ => .inr hroy, fun _ => .inr trivial, by simp, fun _ => .inr rfl, fun _ => .inr trivial⟩
  · right
    rw [storeOf_lastNonce hp hu]
    simp only [sameAccount, lastWith_tokens]
    cases lastWith (fun t => decide (t.name = name)) a.tokens <;> rfl
  · rw [storeOf_roles hC hp hu]
    simp only [sameAccount, lastWith_tokens]
    cases lastWith (fun t => decide (t.name = name)) a.tokens <;> exact Iff.rfl

theorem storage_set (a : AccountInit) (acc : WAcc) (h : acc.storage = storeOf C a) : StorageAs (sameAccount a) acc := by
  right
  intro k hk
  have hl : lastWith (fun p => decide (p.1 = k)) (a.storage.map (fun p => (p.1, exactBytes p.2))) =
      (lastWith (fun p => decide (p.1 = k)) a.storage).map (fun p => (p.1, exactBytes p.2)) := by rw [lastWith_map]
  have hs := storeOf_other (C := C) a hk
  simp only [sameAccount, hl, WAcc.storageValue, h, hs]
  cases lastWith (fun p => decide (p.1 = k)) a.storage with
  | none => exact .inr rfl
  | some q => exact .inr rfl

/-- an account that was set is as described -/
theorem account_set (hC : Faithful C) {a : AccountInit} (hp : Plain a) (hu : Unambiguous a) :
    AccountAs C (sameAccount a) { (convertAccount C a).acc with storage := storeOf C a } :=
  ⟨.inr rfl, .inr rfl, .inr rfl, .inr rfl, fun _ => .inr rfl, storage_set a _ rfl, tokens_set hC hp hu⟩

theorem setAccount_put {w w' : MockWorld} {a : AccountInit} (h : setAccount w (convertAccount C a) = (true, w')) :
    w' = w.put a.address { (convertAccount C a).acc with storage := storeOf C a } := by
  unfold setAccount at h
  split at h
  · cases h
  · simp only at h
    split at h
    · cases h; rfl
    · cases h

theorem setAccounts_get {as : List AccountInit} : ∀ {w w' : MockWorld}, setAccounts w (as.map (convertAccount C)) = (true, w') →
    ∀ x, w'.account x = ((lastWith (fun a => decide (a.address = x)) as).map
      (fun a => { (convertAccount C a).acc with storage := storeOf C a })).or (w.account x) := by
  induction as with
  | nil => intro w w' h x; cases h; simp [lastWith]
  | cons a as ih =>
    intro w w' h x
    simp only [List.map_cons, setAccounts] at h
    generalize hs : setAccount w (convertAccount C a) = r at h
    obtain ⟨ok, w1⟩ := r
    cases ok with
    | false => cases h
    | true =>
      simp only at h
      rw [ih h x, setAccount_put hs]
      simp only [lastWith, List.reverse_cons, List.find?_append]
      cases List.find? (fun a => decide (a.address = x)) as.reverse with
      | some b => simp
      | none =>
        by_cases he : a.address = x
        · subst he; simp [MockWorld.put, MockWorld.account]
        · simp [MockWorld.put, MockWorld.account, AMap.get?_insert, he]

/-- C55: a `setState` step that succeeds is followed by a successful check for the same accounts, and also for no others, if there were
none before. What is missing: descriptions that are not plain or ambiguous (see the negations). -/
theorem c55_partial (hC : Faithful C) {w w' : MockWorld} {as : List AccountInit}
    (hset : setAccounts w (as.map (convertAccount C)) = (true, w'))
    (hdist : ∀ a ∈ as, ∀ b ∈ as, a.address = b.address → a = b)
    (hp : ∀ a ∈ as, Plain a ∧ Unambiguous a) :
    checkState C { accounts := as.map sameAccount, moreAccounts := true } w' = true ∧
    ((∀ x, w.account x = none) → checkState C { accounts := as.map sameAccount } w' = true) := by
  have hmain : ∀ e ∈ as.map sameAccount, ∃ acc, w'.account e.address = some acc ∧ AccountAs C e acc := by
    intro e he
    obtain ⟨a, ha, rfl⟩ := List.mem_map.mp he
    obtain ⟨b, hb⟩ := lastWith_isSome (p := fun b : AccountInit => decide (b.address = a.address)) ha (by simp)
    obtain ⟨hm, hq⟩ := lastWith_mem hb
    have : b = a := hdist b hm a ha (by simpa using hq)
    subst this
    refine ⟨_, ?_, account_set hC (hp b ha).1 (hp b ha).2⟩
    rw [setAccounts_get hset]
    have : (sameAccount b).address = b.address := rfl
    rw [this, hb]; rfl
  refine ⟨(c53_checked ..).mpr ⟨hmain, .inl rfl⟩, fun hempty => (c53_checked ..).mpr ⟨hmain, .inr fun x acc hx => ?_⟩⟩
  rw [setAccounts_get hset, hempty x] at hx
  cases hl : lastWith (fun a => decide (a.address = x)) as with
  | none => rw [hl] at hx; cases hx
  | some a =>
    obtain ⟨hm, hq⟩ := lastWith_mem hl
    exact ⟨sameAccount a, List.mem_map.mpr ⟨a, hm, rfl⟩, by show a.address = x; simpa using hq⟩

/-- C55, the world: an account that was set has the nonce, balance, user name, code, owner, pending async data and shard of its description, also
those that no check looks at; it is a contract if it has code, and then one that can be upgraded, read and paid. Other accounts stay. -/
theorem c55_set {w w' : MockWorld} {as : List AccountInit} (hset : setAccounts w (as.map (convertAccount C)) = (true, w'))
    (hdist : ∀ a ∈ as, ∀ b ∈ as, a.address = b.address → a = b) :
    (∀ a ∈ as, ∃ acc, w'.account a.address = some acc ∧ acc.nonce = a.nonce ∧ acc.balance = a.balance ∧ acc.username = a.username ∧
      acc.code = a.code ∧ acc.owner = a.owner ∧ acc.asyncCallData = a.asyncCallData ∧ acc.shard = a.shard.toUInt32 ∧
      (acc.isContract = true ↔ a.code ≠ []) ∧ acc.codeMetadata = [5, 2]) ∧
    (∀ x, (∀ a ∈ as, a.address ≠ x) → w'.account x = w.account x) := by
  constructor
  · intro a ha
    obtain ⟨b, hb⟩ := lastWith_isSome (p := fun b : AccountInit => decide (b.address = a.address)) ha (by simp)
    obtain ⟨hm, hq⟩ := lastWith_mem hb
    have e : b = a := hdist b hm a ha (by simpa using hq)
    subst e
    rw [setAccounts_get hset, hb]
    exact ⟨_, rfl, rfl, rfl, rfl, rfl, rfl, rfl, rfl, decide_eq_true_iff, rfl⟩
  · intro x hx
    rw [setAccounts_get hset]
    cases hl : lastWith (fun a => decide (a.address = x)) as with
    | none => rfl
    | some a =>
      obtain ⟨hm, hq⟩ := lastWith_mem hl
      exact absurd (by simpa using hq) (hx a hm)

/-! ### Examples and negations -/

theorem toy_faithful : Faithful Toy.codec where
  token := Toy.decToken_encToken
  token_ne t := by simp [Toy.codec, Toy.encToken]
  roles l := by
    have h := Toy.decL_encL l (Toy.encL l).length [] (Toy.length_encL _)
    rw [List.append_nil] at h
    simp [Toy.codec, h]
  roles_ne l h := by
    cases l with
    | nil => exact absurd rfl h
    | cons b l => simp [Toy.codec, Toy.encL]

/-- a user's address -/
def userAddr : Addr := List.replicate 32 1

/-- `TOK-123456` -/
def tok : Bytes := [84, 79, 75, 45, 49, 50, 51, 52, 53, 54]
/-- `NFT-abcdef` -/
def nft : Bytes := [78, 70, 84, 45, 97, 98, 99, 100, 101, 102]

theorem tok_id : TokenId tok := ⟨[84, 79, 75], [49, 50, 51, 52, 53, 54], rfl, by unfold tickerByte; decide +kernel, rfl⟩
theorem nft_id : TokenId nft := ⟨[78, 70, 84], [97, 98, 99, 100, 101, 102], rfl, by unfold tickerByte; decide +kernel, rfl⟩

/-- an account with storage, a fungible token with roles, and two NFTs -/
def richAccount : AccountInit :=
  { address := userAddr, nonce := 3, balance := 1000, storage := [([1], [2]), ([1], [3]), ([4], [])]
    tokens := [{ name := tok, instances := [{ balance := 50 }], roles := [[7, 7], [8]] },
               { name := nft, lastNonce := 600, instances := [{ nonce := 1, balance := 1, creator := [9], royalties := 250, hash := [5], uri := [6] },
                                                               { nonce := 600, balance := 2, attributes := [1, 2] }] }] }

theorem rich_plain : Plain richAccount where
  storage p hp h := by
    obtain ⟨r, hr⟩ := h
    simp only [richAccount, List.mem_cons, List.not_mem_nil, or_false] at hp
    rcases hp with rfl | rfl | rfl <;> simp [elrondPrefix] at hr
  lastNonce := by decide +kernel
  balance := by decide +kernel
  royalties := by decide +kernel
  fungible := by decide +kernel

theorem rich_unambiguous : Unambiguous richAccount := by
  constructor <;> decide +kernel

/-- the world after setting the account -/
def richWorld : MockWorld := (setAccounts {} ([richAccount].map (convertAccount Toy.codec))).2

/-- non-vacuity of `c55_partial` (and a test): the check for the same content passes, and fails after a transfer of one unit -/
example : checkState Toy.codec { accounts := [sameAccount richAccount] } richWorld = true :=
  (c55_partial toy_faithful (as := [richAccount]) (w := {}) (w' := richWorld) (by decide +kernel)
    (by intro a ha b hb _; simp only [List.mem_singleton] at ha hb; rw [ha, hb])
    (by intro a ha; simp only [List.mem_singleton] at ha; rw [ha]; exact ⟨rich_plain, rich_unambiguous⟩)).2 (fun _ => rfl)

example : ∃ st, setTokenBalance Toy.codec ((richWorld.account userAddr).getD {}).storage (makeTokenKey nft 600) 1 = some st ∧
    checkState Toy.codec { accounts := [sameAccount richAccount] }
      (richWorld.put userAddr { (richWorld.account userAddr).getD {} with storage := st }) = false := by
  refine ⟨((setTokenBalance Toy.codec ((richWorld.account userAddr).getD {}).storage (makeTokenKey nft 600) 1).getD AMap.empty), ?_, ?_⟩ <;> decide +kernel

/-- a world with one account -/
def oneWorldOf (a : Addr) (n : UInt64) : MockWorld := MockWorld.put {} a { nonce := n }

/-- an owner that was set, and an account that stays -/
example : ((setAccounts (oneWorldOf [1] 9) [convertAccount Toy.codec { address := userAddr, owner := [7] }]).2.account userAddr).map WAcc.owner =
      some [7] ∧
    ((setAccounts (oneWorldOf [1] 9) [convertAccount Toy.codec { address := userAddr, owner := [7] }]).2.account [1]).map WAcc.nonce = some 9 := by
  decide +kernel

/-- non-vacuity of `c56` -/
example : ∃ st, setTokenBalance Toy.codec ((richWorld.account userAddr).getD {}).storage (makeTokenKey nft 600) 7 = some st ∧
    getTokenBalance Toy.codec st (makeTokenKey nft 600) = some 7 ∧ getTokenBalance Toy.codec st (makeTokenKey nft 1) = some 1 ∧
    getTokenBalance Toy.codec st (makeTokenKey tok 0) = some 50 := by
  cases h : setTokenBalance Toy.codec ((richWorld.account userAddr).getD {}).storage (makeTokenKey nft 600) 7 with
  | none =>
    have := c56_set (C := Toy.codec) (st := ((richWorld.account userAddr).getD {}).storage) (key := makeTokenKey nft 600) (x := 7)
      (by decide) (by decide +kernel)
    rw [h] at this; cases this
  | some st =>
    have := c56 toy_faithful h
    refine ⟨st, rfl, this.2.1, ?_, ?_⟩
    · rw [getTokenBalance, this.2.2.1 nft_id nft 1 nft_id (by decide)]
      decide +kernel
    · rw [getTokenBalance, this.2.2.1 nft_id tok 0 tok_id (by decide +kernel)]
      decide +kernel

/-- Tokens with other names can share an entry: instance 66 of the token `A` is where the fungible token `AB` is. -/
theorem c56_keys_neg : makeTokenKey [65] 66 = makeTokenKey [65, 66] 0 := by decide +kernel

/-- the check after setting an account -/
def setThenCheck (a : AccountInit) : Bool × Bool :=
  let r := setAccounts {} [convertAccount Toy.codec a]
  (r.1, checkState Toy.codec { accounts := [sameAccount a] } r.2)

/-- The last nonce of a token without instances is not set: the check for the same content fails. -/
theorem c55_lastNonce_neg : setThenCheck { address := userAddr, tokens := [{ name := nft, lastNonce := 5 }] } = (true, false) := by
  decide +kernel

/-- The details of an instance of which there is nothing are not found again. -/
theorem c55_zero_neg : setThenCheck { address := userAddr, tokens := [{ name := nft, lastNonce := 5, instances := [{ nonce := 5, creator := [1] }] }] } =
    (true, false) := by decide +kernel

/-- The details of an instance with nonce 0 are set but not shown. -/
theorem c55_fungible_neg : setThenCheck { address := userAddr, tokens := [{ name := tok, instances := [{ balance := 5, attributes := [1] }] }] } =
    (true, false) := by decide +kernel

/-- Royalties are cut to 32 bits (only the parser keeps them below 10001). -/
theorem c55_royalties_neg : setThenCheck { address := userAddr, tokens := [{ name := nft, lastNonce := 1, instances := [{ nonce := 1, balance := 5, royalties := 4294967296 }] }] } =
    (true, false) := by decide +kernel

/-- Entries of the storage with reserved keys are taken for tokens: setting one makes the check for the same content fail. -/
theorem c55_reserved_neg : setThenCheck { address := userAddr, storage := [(makeLastNonceKey nft, [1])] } = (true, false) := by
  decide +kernel

/-- Tokens that share an entry: the second takes the place of the first. -/
theorem c55_ambiguous_neg : setThenCheck { address := userAddr, tokens := [{ name := [65, 66], instances := [{ balance := 5 }] },
    { name := [65], lastNonce := 66, instances := [{ nonce := 66, balance := 7 }] }] } = (true, false) := by decide +kernel

/-! ### What is written down but not looked at (C53) -/

/-- the world with one account -/
def oneWorld (acc : WAcc) : MockWorld := MockWorld.put {} userAddr acc

/-- The owner is not looked at: a check for another owner passes. -/
theorem c53_owner_neg (C : TokenCodec) : ∃ c w, checkState C c w = true ∧ ¬ WorldAsWritten C c w := by
  refine ⟨{ accounts := [{ address := userAddr, owner := exactBytes [1] }] }, oneWorld { owner := [2] }, rfl, fun h => ?_⟩
  obtain ⟨acc, ha, h1⟩ := h.1 _ (List.mem_singleton.mpr rfl)
  have : acc = { owner := [2] } := by
    have h2 : (oneWorld { owner := [2] }).account userAddr = some { owner := [2] } := by simp [oneWorld, MockWorld.put, MockWorld.account]
    exact Option.some.inj (ha.symm.trans h2)
  subst this
  rcases h1.2.2.2.2.1 rfl with h2 | h2
  · cases h2
  · cases h2

/-- What is written down about a reserved key is not looked at: a check for another value passes. -/
theorem c53_reserved_neg (C : TokenCodec) : ∃ c w, checkState C c w = true ∧ ¬ WorldAsWritten C c w := by
  refine ⟨{ accounts := [{ address := userAddr, storage := [(elrondPrefix, exactBytes [1])] }] }, oneWorld {}, rfl, fun h => ?_⟩
  obtain ⟨acc, ha, h1⟩ := h.1 _ (List.mem_singleton.mpr rfl)
  have : acc = {} := by
    have h2 : (oneWorld {}).account userAddr = some {} := by simp [oneWorld, MockWorld.put, MockWorld.account]
    exact Option.some.inj (ha.symm.trans h2)
  subst this
  rcases h1.2.2.2.2.2.2.2.1 with h2 | h2
  · cases h2
  · rcases h2 elrondPrefix ⟨[], rfl⟩ (elrondPrefix, exactBytes [1]) rfl with h3 | h3
    · cases h3
    · cases h3

/-- `"+"` among the tokens is read but has no effect: a check that allows further tokens fails because of one. -/
theorem c53_more_neg (C : TokenCodec) : ∃ c w, checkState C c w = false ∧ WorldAsWritten C c w := by
  refine ⟨{ accounts := [{ address := userAddr, moreTokens := true }] },
    oneWorld { storage := AMap.empty.insert (makeLastNonceKey nft) [1] }, rfl, fun e he => ?_, .inr fun a acc ha => ?_⟩
  · rw [List.mem_singleton] at he
    subst he
    refine ⟨{ storage := AMap.empty.insert (makeLastNonceKey nft) [1] }, by simp [oneWorld, MockWorld.put, MockWorld.account], .inr rfl, .inr rfl,
      .inr rfl, .inr rfl, (fun h => by cases h), (fun h => by cases h), .inr (fun k hk => .inr ?_), .inr (fun k _ q hq => by cases hq), .inr ⟨?_, fun name => .inl rfl⟩⟩
    · have : makeLastNonceKey nft ≠ k := fun he => hk (he ▸ (c56_kinds nft nft 0).2.2.2.2.2)
      simp [WAcc.storageValue, AMap.get?_insert, this]
    · intro k v hs _
      rw [AMap.get?_insert] at hs
      split at hs
      · rename_i he
        subst he
        exact ⟨(fun h => by rw [nonce_not_token] at h; cases h), (fun h => by rw [nonce_not_role] at h; cases h)⟩
      · cases hs
  · simp only [oneWorld, MockWorld.put, MockWorld.account, AMap.get?_insert] at ha
    split at ha
    · rename_i he
      exact ⟨_, List.mem_singleton.mpr rfl, he⟩
    · cases ha

/-- non-vacuity of `c53_partial`: an account written down with `*`, and one with a value that is wrong -/
example : OnlyChecked { address := userAddr, nonce := { star := true }, storage := [([1], exactBytes [2])] } :=
  ⟨rfl, fun p hp ⟨r, hr⟩ => by simp only [List.mem_singleton] at hp; subst hp; simp [elrondPrefix] at hr, rfl⟩

example : checkState Toy.codec { accounts := [{ address := userAddr, nonce := { star := true }, storage := [([1], exactBytes [2])] }] }
      (oneWorld { nonce := 9, storage := AMap.empty.insert [1] [2] }) = true ∧
    checkState Toy.codec { accounts := [{ address := userAddr, nonce := { star := true }, storage := [([1], exactBytes [2])] }] }
      (oneWorld { nonce := 9, storage := (AMap.empty.insert [1] [2]).insert [3] [4] }) = false ∧
    checkState Toy.codec { accounts := [] } (oneWorld {}) = false := by decide +kernel

/-- a result that is as described, and one that is not because of a topic of the log -/
example : checkResult true { status := exactInt 0, out := [exactBytes [1], .anything], gas := exactU64 5, logs := [{ address := exactBytes [9], topics := [exactBytes [3]] }] }
      { returnData := [[1], [2]], gasRemaining := 5, logs := [{ identifier := [], address := [9], topics := [[3]], data := [] }] } = true ∧
    checkResult true { logs := [{ topics := [exactBytes [3]] }] } { logs := [{ identifier := [], address := [], topics := [[4]], data := [] }] } = false := by
  decide +kernel

end Arwen.Props
