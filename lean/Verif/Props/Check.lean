import Verif.Spec.Check
/-
C53: a `checkState` step passes exactly if the world is as the scenario describes it.
C54: the expected result of a transaction is met exactly if the output is as the scenario describes it.
-/
namespace Arwen.Props
open Mock Spec

theorem checkBytes_iff (c : CheckBytes) (x : Bytes) : c.check x = true ↔ MeetsBytes c x := by
  simp [CheckBytes.check, MeetsBytes]
theorem checkInt_iff (c : CheckInt) (x : Int) : c.check x = true ↔ MeetsInt c x := by
  simp [CheckInt.check, MeetsInt]
theorem checkU64_iff (c : CheckU64) (x : UInt64) : c.check x = true ↔ MeetsU64 c x := by
  simp [CheckU64.check, MeetsU64]

theorem mapOf_go {K V : Type} [DecidableEq K] (l : List (K × V)) : ∀ (m : AMap K V) (k : K),
    (l.foldl (fun m p => m.insert p.1 p.2) m).get? k =
      ((lastWith (fun p => decide (p.1 = k)) l).map Prod.snd).or (m.get? k) := by
  induction l with
  | nil => intro m k; simp [lastWith]
  | cons p l ih =>
    intro m k
    rw [List.foldl_cons, ih]
    simp only [lastWith, List.reverse_cons, List.find?_append]
    cases List.find? (fun p => decide (p.1 = k)) l.reverse with
    | some q => simp
    | none =>
      by_cases h : p.1 = k
      · simp [h]
      · simp [AMap.get?_insert, h]

theorem get?_mapOf {K V : Type} [DecidableEq K] (l : List (K × V)) (k : K) :
    (mapOf l).get? k = (lastWith (fun p => decide (p.1 = k)) l).map Prod.snd := by
  simp [mapOf, mapOf_go]

theorem lastWith_map {α β : Type} (f : α → β) (p : β → Bool) (l : List α) :
    lastWith p (l.map f) = (lastWith (fun a => p (f a)) l).map f := by
  simp [lastWith, ← List.map_reverse, List.find?_map, Function.comp_def]

/-- the map of things by their names: the last one with the name -/
theorem get?_mapOf_by {α K : Type} [DecidableEq K] (f : α → K) (l : List α) (k : K) :
    (mapOf (l.map fun a => (f a, a))).get? k = lastWith (fun a => decide (f a = k)) l := by
  rw [get?_mapOf, lastWith_map]
  simp [Function.comp_def]

theorem lastWith_mem {α : Type} {p : α → Bool} {l : List α} {a : α} (h : lastWith p l = some a) : a ∈ l ∧ p a = true :=
  ⟨by simpa using List.mem_of_find?_eq_some h, List.find?_some h⟩

theorem lastWith_none {α : Type} {p : α → Bool} {l : List α} (h : lastWith p l = none) : ∀ a ∈ l, p a = false := by
  intro a ha
  have := List.find?_eq_none.mp h a (by simpa using ha)
  simpa using this

theorem keys_of_get? {K V : Type} [DecidableEq K] {m : AMap K V} {k : K} {v : V} (h : m.get? k = some v) : k ∈ m.keys := by
  refine Decidable.byContradiction fun hn => ?_
  rw [(AMap.get?_none_iff m k).mpr hn] at h
  cases h

theorem prefix_iff (p k : Bytes) : p.isPrefixOf k = true ↔ ∃ rest, k = p ++ rest := by
  rw [List.isPrefixOf_iff_prefix]
  exact ⟨fun ⟨r, h⟩ => ⟨r, h.symm⟩, fun ⟨r, h⟩ => ⟨r, h.symm⟩⟩

/-! ### Storage -/

theorem checkStorage_iff (e : CheckAccount) (acc : WAcc) : checkStorage e acc = true ↔ StorageAs e acc := by
  simp only [checkStorage, StorageAs, Bool.or_eq_true, List.all_eq_true]
  refine or_congr Iff.rfl ⟨fun h k hk => ?_, fun h k hk => ?_⟩
  · have hp : elrondPrefix.isPrefixOf k = false := by
      rw [← Bool.not_eq_true, prefix_iff]; exact hk
    cases hl : lastWith (fun p => decide (p.1 = k)) e.storage with
    | some q =>
      have hq := lastWith_mem hl
      have hg : (mapOf e.storage).get? k = some q.2 := by rw [get?_mapOf, hl]; rfl
      have := h k (List.mem_append_left _ (keys_of_get? hg))
      simp only [hp, Bool.false_eq_true, false_or, hg] at this
      exact (checkBytes_iff _ _).mp this
    | none =>
      have hg : (mapOf e.storage).get? k = none := by rw [get?_mapOf, hl]; rfl
      simp only
      cases hs : acc.storage.get? k with
      | none => right; simp [WAcc.storageValue, hs]
      | some v =>
        have := h k (List.mem_append_right _ (keys_of_get? hs))
        simp only [hp, Bool.false_eq_true, false_or, hg] at this
        cases hm : e.moreStorage with
        | true => exact .inl rfl
        | false =>
          right
          rw [hm] at this
          rcases (checkBytes_iff _ _).mp this with h1 | h1
          · cases h1
          · exact h1.symm
  · by_cases hr : ReservedKey k
    · exact .inl ((prefix_iff _ _).mpr hr)
    · right
      have h1 := h k hr
      cases hl : lastWith (fun p => decide (p.1 = k)) e.storage with
      | some q =>
        have hg : (mapOf e.storage).get? k = some q.2 := by rw [get?_mapOf, hl]; rfl
        rw [hl] at h1
        simp only [hg]
        exact (checkBytes_iff _ _).mpr h1
      | none =>
        have hg : (mapOf e.storage).get? k = none := by rw [get?_mapOf, hl]; rfl
        rw [hl] at h1
        simp only [hg]
        rcases h1 with h1 | h1
        · rw [h1]; simp [CheckBytes.check, CheckBytes.anything]
        · cases e.moreStorage
          · simp [CheckBytes.check, CheckBytes.omitted, h1]
          · simp [CheckBytes.check, CheckBytes.anything]

/-! ### Tokens -/

theorem isTokenKey_iff (k : Bytes) : isTokenKey k = true ↔ ∃ rest, k = tokenPrefix ++ rest := prefix_iff ..
theorem isRoleKey_iff (k : Bytes) : isRoleKey k = true ↔ ∃ name, k = makeRolesKey name := prefix_iff ..
theorem isNonceKey_iff (k : Bytes) : isNonceKey k = true ↔ ∃ name, k = makeLastNonceKey name := prefix_iff ..

theorem token_not_nonce {k : Bytes} (h : isTokenKey k = true) : isNonceKey k = false := by
  obtain ⟨r, rfl⟩ := (isTokenKey_iff k).mp h
  rfl
theorem token_not_role {k : Bytes} (h : isTokenKey k = true) : isRoleKey k = false := by
  obtain ⟨r, rfl⟩ := (isTokenKey_iff k).mp h
  rfl
theorem nonce_not_token (name : Bytes) : isTokenKey (makeLastNonceKey name) = false := rfl
theorem nonce_not_role (name : Bytes) : isRoleKey (makeLastNonceKey name) = false := rfl
theorem role_not_token (name : Bytes) : isTokenKey (makeRolesKey name) = false := rfl
theorem role_not_nonce (name : Bytes) : isNonceKey (makeRolesKey name) = false := rfl
theorem isNonceKey_make (name : Bytes) : isNonceKey (makeLastNonceKey name) = true := (isNonceKey_iff _).mpr ⟨_, rfl⟩
theorem isRoleKey_make (name : Bytes) : isRoleKey (makeRolesKey name) = true := (isRoleKey_iff _).mpr ⟨_, rfl⟩
theorem isTokenKey_make (name : Bytes) (n : UInt64) : isTokenKey (makeTokenKey name n) = true :=
  (isTokenKey_iff _).mpr ⟨name ++ natToBytes n.toNat, by simp [makeTokenKey]⟩

theorem roleName (name : Bytes) : (makeRolesKey name).drop rolePrefix.length = name := by simp [makeRolesKey]
theorem nonceName (name : Bytes) : (makeLastNonceKey name).drop noncePrefix.length = name := by simp [makeLastNonceKey]
theorem nameFromKey_make (name : Bytes) (n : UInt64) : nameFromKey (makeTokenKey name n) = name ++ natToBytes n.toNat := by
  simp [nameFromKey, makeTokenKey]

@[simp] theorem natToBytes_zero : natToBytes 0 = [] := rfl

variable {C : TokenCodec}

/-- what the loader makes of an entry about a token: the name and nonce of its key -/
theorem load_key {st : Store} {k : Bytes} {name : Bytes} {i : TokenRec} (hk : isTokenKey k = true)
    (h : loadInstance C st k = some (name, i)) : k = makeTokenKey name i.nonce ∧ i.metadata.isSome = true := by
  obtain ⟨r, rfl⟩ := (isTokenKey_iff k).mp hk
  have hr : nameFromKey (tokenPrefix ++ r) = r := by simp [nameFromKey]
  unfold loadInstance at h
  cases hg : getTokenData C st (tokenPrefix ++ r) with
  | none => rw [hg] at h; cases h
  | some t =>
    simp only [hg, hr] at h
    split at h
    · cases h; exact ⟨by simp [makeTokenKey, TokenRec.nonce], rfl⟩
    · rename_i hn
      split at h
      · cases h
      · split at h
        · cases h
        · rename_i h1 h2
          simp only [Decidable.not_not] at h2
          cases h
          refine ⟨?_, ?_⟩
          · have h3 : TokenRec.nonce i = (i.metadata.map TokenMeta.nonce).getD 0 := rfl
            simp only [makeTokenKey, h3, List.append_assoc]
            rw [h2, List.length_drop]
            congr 1
            have h4 : r.length - (r.length - (r.length - (natToBytes ((i.metadata.map TokenMeta.nonce).getD 0).toNat).length)) =
              r.length - (natToBytes ((i.metadata.map TokenMeta.nonce).getD 0).toNat).length := by omega
            rw [h4]
            exact (List.take_append_drop _ _).symm
          · cases hm : i.metadata with
            | none => rw [hm] at hn; exact absurd rfl hn
            | some m => rfl

theorem load_holding {st : Store} {k : Bytes} {name : Bytes} {i : TokenRec} (hk : isTokenKey k = true)
    (h : loadInstance C st k = some (name, i)) (hv : i.value > 0) :
    holding C st name i.nonce = some (i.value, i.metadata.getD {}) := by
  have hkey := (load_key hk h).1
  rw [holding, ← hkey]
  unfold loadInstance at h
  cases hg : getTokenData C st k with
  | none => rw [hg] at h; cases h
  | some t =>
    simp only [hg] at h
    have hvt : t.value = i.value := by
      split at h
      · cases h; rfl
      · split at h
        · cases h
        · split at h
          · cases h
          · cases h; rfl
    have hnt : t.nonce = i.nonce := by
      split at h
      · rename_i h0; cases h; exact h0
      · split at h
        · cases h
        · split at h
          · cases h
          · cases h; rfl
    unfold getTokenData at hg
    cases hs : st.get? k with
    | none =>
      rw [hs] at hg; cases hg
      rw [← hvt] at hv; exact absurd hv (Int.lt_irrefl 0)
    | some v =>
      simp only [hs] at hg ⊢
      split at hg
      · cases hg
        rw [← hvt] at hv; exact absurd hv (Int.lt_irrefl 0)
      · rename_i hv0
        simp only [hv0, if_false, hg]
        rw [if_pos ⟨by rw [hvt]; exact hv, hnt⟩, hvt]
        congr 2
        split at h
        · rename_i h0
          cases h
          simp only [TokenRec.nonce, Option.map_some, Option.getD_some, if_true]
        · rename_i h0
          have h1 : i.nonce ≠ 0 := by rw [← hnt]; exact h0
          rw [if_neg h1]
          split at h
          · cases h
          · split at h
            · cases h
            · cases h; rfl

theorem holding_load {st : Store} {name : Bytes} {n : UInt64} {x : Int} {m : TokenMeta}
    (h : holding C st name n = some (x, m)) :
    ∃ i, loadInstance C st (makeTokenKey name n) = some (name, i) ∧ i.nonce = n ∧ i.value > 0 := by
  unfold holding at h
  cases hs : st.get? (makeTokenKey name n) with
  | none => rw [hs] at h; cases h
  | some v =>
    simp only [hs] at h
    split at h
    · cases h
    · rename_i hv
      cases ht : C.untoken v with
      | none => rw [ht] at h; cases h
      | some t =>
        simp only [ht] at h
        split at h
        · rename_i hc
          have hg : getTokenData C st (makeTokenKey name n) = some t := by
            simp only [getTokenData, hs, hv, if_false, ht]
          have hnn : (t.metadata.map TokenMeta.nonce).getD 0 = n := hc.2
          unfold loadInstance
          simp only [hg, nameFromKey_make, hnn]
          by_cases h0 : n = 0
          · subst h0
            rw [if_pos rfl]
            refine ⟨{ t with metadata := some { name := name } }, ?_, rfl, hc.1⟩
            simp
          · rw [if_neg h0]
            refine ⟨t, ?_, hc.2, hc.1⟩
            rw [if_neg (by simp), if_neg]
            · simp
            · simp
        · cases h

/-- the state of a token in the result of the loader -/
def tokenAt (m : AMap Bytes TokenState) (name : Bytes) : TokenState := (m.get? name).getD {}

theorem tokenAt_insert (m : AMap Bytes TokenState) (k name : Bytes) (t : TokenState) :
    tokenAt (m.insert k t) name = if k = name then t else tokenAt m name := by
  simp only [tokenAt, AMap.get?_insert]
  split <;> rfl

/-- what the loader makes of a list of entries of the storage -/
theorem addEntries_some {st : Store} : ∀ (l : List (Bytes × Bytes)) (m m' : AMap Bytes TokenState),
    (∀ p ∈ l, st.get? p.1 = some p.2) → addEntries C st l m = some m' →
    (∀ p ∈ l, (isTokenKey p.1 = true → (loadInstance C st p.1).isSome = true) ∧
      (isRoleKey p.1 = true → (getRoles C st (p.1.drop rolePrefix.length)).isSome = true)) ∧
    ∀ name,
      (∀ i, i ∈ (tokenAt m' name).instances ↔ i ∈ (tokenAt m name).instances ∨
        ∃ p ∈ l, isTokenKey p.1 = true ∧ loadInstance C st p.1 = some (name, i) ∧ i.value > 0) ∧
      (∀ v, (makeLastNonceKey name, v) ∈ l → (tokenAt m' name).lastNonce = UInt64.ofNat (bytesToNat v)) ∧
      ((∀ v, (makeLastNonceKey name, v) ∉ l) → (tokenAt m' name).lastNonce = (tokenAt m name).lastNonce) ∧
      (∀ v, (makeRolesKey name, v) ∈ l → getRoles C st name = some (tokenAt m' name).roles) ∧
      ((∀ v, (makeRolesKey name, v) ∉ l) → (tokenAt m' name).roles = (tokenAt m name).roles) := by
  intro l
  induction l with
  | nil =>
    intro m m' _ h
    cases h
    refine ⟨fun p hp => by simp at hp, fun name => ⟨fun i => by simp, fun v hv => by simp at hv, fun _ => rfl, fun v hv => by simp at hv,
      fun _ => rfl⟩⟩
  | cons p l ih =>
    intro m m' hst h
    unfold addEntries at h
    cases hadd : addEntry C st m p with
    | none => rw [hadd] at h; cases h
    | some m1 =>
      simp only [hadd] at h
      obtain ⟨hok, hih⟩ := ih m1 m' (fun q hq => hst q (List.mem_cons_of_mem _ hq)) h
      obtain ⟨k, v⟩ := p
      have hkv : st.get? k = some v := hst (k, v) (List.mem_cons_self ..)
      have huniq : ∀ w, (k, w) ∈ l → w = v := fun w hw => by
        have := hst (k, w) (List.mem_cons_of_mem _ hw)
        rw [hkv] at this; cases this; rfl
      unfold addEntry at hadd
      simp only at hadd
      by_cases hT : isTokenKey k = true
      · rw [if_pos hT] at hadd
        cases hL : loadInstance C st k with
        | none => rw [hL] at hadd; cases hadd
        | some q =>
          obtain ⟨name0, t⟩ := q
          simp only [hL] at hadd
          have hinst : ∀ name i, i ∈ (tokenAt m1 name).instances ↔ i ∈ (tokenAt m name).instances ∨
              (loadInstance C st k = some (name, i) ∧ i.value > 0) := by
            intro name i
            rw [hL]
            split at hadd
            · rename_i hpos
              cases hadd
              rw [tokenAt_insert]
              split
              · rename_i he; subst he
                simp only [List.mem_append, List.mem_singleton, Option.some.injEq, Prod.mk.injEq, true_and]
                refine or_congr Iff.rfl ⟨fun hi => by subst hi; exact ⟨rfl, hpos⟩, fun hi => hi.1.symm⟩
              · rename_i he
                simp [he]
            · rename_i hpos
              cases hadd
              refine ⟨.inl, fun hi => ?_⟩
              rcases hi with hi | ⟨hi, hi2⟩
              · exact hi
              · cases hi; exact absurd hi2 hpos
          have hrest : ∀ name, (tokenAt m1 name).lastNonce = (tokenAt m name).lastNonce ∧ (tokenAt m1 name).roles = (tokenAt m name).roles := by
            intro name
            split at hadd
            · cases hadd
              rw [tokenAt_insert]
              split
              · rename_i he; subst he; exact ⟨rfl, rfl⟩
              · exact ⟨rfl, rfl⟩
            · cases hadd; exact ⟨rfl, rfl⟩
          have hnk : ∀ name, makeLastNonceKey name ≠ k := fun name he => by
            rw [← he, nonce_not_token] at hT; cases hT
          have hrk : ∀ name, makeRolesKey name ≠ k := fun name he => by
            rw [← he, role_not_token] at hT; cases hT
          refine ⟨fun q hq => ?_, fun name => ⟨fun i => ?_, fun w hw => ?_, fun hw => ?_, fun w hw => ?_, fun hw => ?_⟩⟩
          · rcases List.mem_cons.mp hq with rfl | hq
            · exact ⟨fun _ => by rw [hL]; rfl, fun hr => by rw [token_not_role hT] at hr; cases hr⟩
            · exact hok q hq
          · rw [(hih name).1, hinst]
            constructor
            · rintro ((h1 | h1) | ⟨q, hq, h1⟩)
              · exact .inl h1
              · exact .inr ⟨(k, v), List.mem_cons_self .., hT, h1⟩
              · exact .inr ⟨q, List.mem_cons_of_mem _ hq, h1⟩
            · rintro (h1 | ⟨q, hq, h1, h2⟩)
              · exact .inl (.inl h1)
              · rcases List.mem_cons.mp hq with rfl | hq
                · exact .inl (.inr h2)
                · exact .inr ⟨q, hq, h1, h2⟩
          · rcases List.mem_cons.mp hw with he | hw
            · cases he; exact absurd rfl (hnk name)
            · exact (hih name).2.1 w hw
          · rw [(hih name).2.2.1 (fun w h1 => hw w (List.mem_cons_of_mem _ h1))]
            exact (hrest name).1
          · rcases List.mem_cons.mp hw with he | hw
            · cases he; exact absurd rfl (hrk name)
            · exact (hih name).2.2.2.1 w hw
          · rw [(hih name).2.2.2.2 (fun w h1 => hw w (List.mem_cons_of_mem _ h1))]
            exact (hrest name).2
      · rw [if_neg hT] at hadd
        by_cases hN : isNonceKey k = true
        · rw [if_pos hN] at hadd
          obtain ⟨name0, rfl⟩ := (isNonceKey_iff k).mp hN
          rw [nonceName] at hadd
          cases hadd
          refine ⟨fun q hq => ?_, fun name => ⟨fun i => ?_, fun w hw => ?_, fun hw => ?_, fun w hw => ?_, fun hw => ?_⟩⟩
          · rcases List.mem_cons.mp hq with rfl | hq
            · exact ⟨fun h1 => absurd h1 hT, fun h1 => by simp [nonce_not_role] at h1⟩
            · exact hok q hq
          · rw [(hih name).1, tokenAt_insert]
            have hi : (if name0 = name then { (AMap.get? m name0).getD {} with lastNonce := UInt64.ofNat (bytesToNat v) } else tokenAt m name).instances =
                (tokenAt m name).instances := by
              split
              · rename_i he; subst he; rfl
              · rfl
            rw [hi]
            constructor
            · rintro (h1 | ⟨q, hq, h1⟩)
              · exact .inl h1
              · exact .inr ⟨q, List.mem_cons_of_mem _ hq, h1⟩
            · rintro (h1 | ⟨q, hq, h1, h2⟩)
              · exact .inl h1
              · rcases List.mem_cons.mp hq with rfl | hq
                · exact absurd h1 hT
                · exact .inr ⟨q, hq, h1, h2⟩
          · by_cases hin : ∃ w', (makeLastNonceKey name, w') ∈ l
            · obtain ⟨w', hw'⟩ := hin
              have : w' = w := by
                have h1 := hst _ (List.mem_cons_of_mem _ hw')
                have h2 := hst _ hw
                rw [h1] at h2; cases h2; rfl
              subst this
              exact (hih name).2.1 w' hw'
            · have hn : ∀ w', (makeLastNonceKey name, w') ∉ l := fun w' h1 => hin ⟨w', h1⟩
              rw [(hih name).2.2.1 hn, tokenAt_insert]
              rcases List.mem_cons.mp hw with he | hw
              · have hnm : name = name0 := by
                  have := congrArg (fun p => p.1.drop noncePrefix.length) he
                  simpa [nonceName] using this
                cases he
                rw [if_pos hnm.symm]
              · exact absurd hw (hn w)
          · rw [(hih name).2.2.1 (fun w h1 => hw w (List.mem_cons_of_mem _ h1)), tokenAt_insert, if_neg]
            intro he; subst he
            exact hw v (List.mem_cons_self ..)
          · rcases List.mem_cons.mp hw with he | hw
            · have h1 : makeRolesKey name = makeLastNonceKey name0 := congrArg Prod.fst he
              have h2 := role_not_nonce name
              rw [h1, hN] at h2; cases h2
            · exact (hih name).2.2.2.1 w hw
          · rw [(hih name).2.2.2.2 (fun w h1 => hw w (List.mem_cons_of_mem _ h1)), tokenAt_insert]
            split
            · rename_i he; subst he; rfl
            · rfl
        · rw [if_neg hN] at hadd
          by_cases hR : isRoleKey k = true
          · rw [if_pos hR] at hadd
            obtain ⟨name0, rfl⟩ := (isRoleKey_iff k).mp hR
            rw [roleName] at hadd
            cases hG : getRoles C st name0 with
            | none => rw [hG] at hadd; cases hadd
            | some roles =>
              simp only [hG] at hadd
              cases hadd
              refine ⟨fun q hq => ?_, fun name => ⟨fun i => ?_, fun w hw => ?_, fun hw => ?_, fun w hw => ?_, fun hw => ?_⟩⟩
              · rcases List.mem_cons.mp hq with rfl | hq
                · exact ⟨fun h1 => absurd h1 hT, fun _ => by simp only [roleName, hG]; rfl⟩
                · exact hok q hq
              · rw [(hih name).1, tokenAt_insert]
                have hi : (if name0 = name then { (AMap.get? m name0).getD {} with roles := roles } else tokenAt m name).instances =
                    (tokenAt m name).instances := by
                  split
                  · rename_i he; subst he; rfl
                  · rfl
                rw [hi]
                constructor
                · rintro (h1 | ⟨q, hq, h1⟩)
                  · exact .inl h1
                  · exact .inr ⟨q, List.mem_cons_of_mem _ hq, h1⟩
                · rintro (h1 | ⟨q, hq, h1, h2⟩)
                  · exact .inl h1
                  · rcases List.mem_cons.mp hq with rfl | hq
                    · exact absurd h1 hT
                    · exact .inr ⟨q, hq, h1, h2⟩
              · rcases List.mem_cons.mp hw with he | hw
                · have h1 : makeLastNonceKey name = makeRolesKey name0 := congrArg Prod.fst he
                  have h2 := nonce_not_role name
                  rw [h1, hR] at h2; cases h2
                · exact (hih name).2.1 w hw
              · rw [(hih name).2.2.1 (fun w h1 => hw w (List.mem_cons_of_mem _ h1)), tokenAt_insert]
                split
                · rename_i he; subst he; rfl
                · rfl
              · by_cases hin : ∃ w', (makeRolesKey name, w') ∈ l
                · obtain ⟨w', hw'⟩ := hin
                  exact (hih name).2.2.2.1 w' hw'
                · have hn : ∀ w', (makeRolesKey name, w') ∉ l := fun w' h1 => hin ⟨w', h1⟩
                  rw [(hih name).2.2.2.2 hn, tokenAt_insert]
                  rcases List.mem_cons.mp hw with he | hw
                  · have hnm : name = name0 := by
                      have := congrArg (fun p => p.1.drop rolePrefix.length) he
                      simpa [roleName] using this
                    subst hnm
                    rw [if_pos rfl, hG]
                  · exact absurd hw (hn w)
              · rw [(hih name).2.2.2.2 (fun w h1 => hw w (List.mem_cons_of_mem _ h1)), tokenAt_insert, if_neg]
                intro he; subst he
                exact hw v (List.mem_cons_self ..)
          · rw [if_neg hR] at hadd
            cases hadd
            refine ⟨fun q hq => ?_, fun name => ⟨fun i => ?_, fun w hw => ?_, fun hw => ?_, fun w hw => ?_, fun hw => ?_⟩⟩
            · rcases List.mem_cons.mp hq with rfl | hq
              · exact ⟨fun h1 => absurd h1 hT, fun h1 => absurd h1 hR⟩
              · exact hok q hq
            · rw [(hih name).1]
              constructor
              · rintro (h1 | ⟨q, hq, h1⟩)
                · exact .inl h1
                · exact .inr ⟨q, List.mem_cons_of_mem _ hq, h1⟩
              · rintro (h1 | ⟨q, hq, h1, h2⟩)
                · exact .inl h1
                · rcases List.mem_cons.mp hq with rfl | hq
                  · exact absurd h1 hT
                  · exact .inr ⟨q, hq, h1, h2⟩
            · rcases List.mem_cons.mp hw with he | hw
              · cases he; exact absurd (isNonceKey_make name) hN
              · exact (hih name).2.1 w hw
            · exact (hih name).2.2.1 (fun w h1 => hw w (List.mem_cons_of_mem _ h1))
            · rcases List.mem_cons.mp hw with he | hw
              · cases he; exact absurd (isRoleKey_make name) hR
              · exact (hih name).2.2.2.1 w hw
            · exact (hih name).2.2.2.2 (fun w h1 => hw w (List.mem_cons_of_mem _ h1))

/-- the loader stops at an entry it cannot read -/
theorem addEntries_none {st : Store} : ∀ (l : List (Bytes × Bytes)) (m : AMap Bytes TokenState), addEntries C st l m = none →
    ∃ p ∈ l, (isTokenKey p.1 = true ∧ loadInstance C st p.1 = none) ∨
      (isRoleKey p.1 = true ∧ getRoles C st (p.1.drop rolePrefix.length) = none) := by
  intro l
  induction l with
  | nil => intro m h; cases h
  | cons p l ih =>
    intro m h
    unfold addEntries at h
    cases hadd : addEntry C st m p with
    | some m1 =>
      simp only [hadd] at h
      obtain ⟨q, hq, h1⟩ := ih m1 h
      exact ⟨q, List.mem_cons_of_mem _ hq, h1⟩
    | none =>
      refine ⟨p, List.mem_cons_self .., ?_⟩
      unfold addEntry at hadd
      simp only at hadd
      split at hadd
      · rename_i hT
        cases hL : loadInstance C st p.1 with
        | none => exact .inl ⟨hT, rfl⟩
        | some q =>
          simp only [hL] at hadd
          split at hadd <;> cases hadd
      · split at hadd
        · cases hadd
        · split at hadd
          · rename_i hR
            cases hG : getRoles C st (p.1.drop rolePrefix.length) with
            | none => exact .inr ⟨hR, rfl⟩
            | some r => simp only [hG] at hadd; cases hadd
          · cases hadd

/-- an entry about a token can be read by the loader exactly if it is readable -/
theorem load_isSome {st : Store} {k v : Bytes} (hk : isTokenKey k = true) (hs : st.get? k = some v) :
    (loadInstance C st k).isSome = true ↔ (v ≠ [] → ∃ t name, C.untoken v = some t ∧ k = makeTokenKey name t.nonce) := by
  constructor
  · intro h hv
    obtain ⟨⟨name, i⟩, hi⟩ := Option.isSome_iff_exists.mp h
    have hkey := (load_key hk hi).1
    unfold loadInstance at hi
    have hg : getTokenData C st k = C.untoken v := by simp only [getTokenData, hs, hv, if_false]
    cases ht : C.untoken v with
    | none => simp only [hg, ht] at hi; cases hi
    | some t =>
      simp only [hg, ht] at hi
      refine ⟨t, name, rfl, ?_⟩
      have hnt : t.nonce = i.nonce := by
        split at hi
        · rename_i h0; cases hi; exact h0
        · split at hi
          · cases hi
          · split at hi
            · cases hi
            · cases hi; rfl
      rw [hnt]; exact hkey
  · intro h
    unfold loadInstance
    by_cases hv : v = []
    · have hg : getTokenData C st k = some { metadata := some { name := nameFromKey k } } := by
        simp only [getTokenData, hs, hv, if_true]
      simp only [hg]
      rfl
    · obtain ⟨t, name, ht, hkey⟩ := h hv
      have hg : getTokenData C st k = some t := by simp only [getTokenData, hs, hv, if_false, ht]
      simp only [hg]
      have hr : nameFromKey k = name ++ natToBytes ((t.metadata.map TokenMeta.nonce).getD 0).toNat := by
        rw [hkey, nameFromKey_make]; rfl
      rw [hr]
      split
      · rfl
      · rw [if_neg (by simp), if_neg (by simp)]; rfl

theorem getRoles_isSome {st : Store} {name v : Bytes} (hs : st.get? (makeRolesKey name) = some v) :
    (getRoles C st name).isSome = true ↔ (v ≠ [] → ∃ l, C.unroles v = some l) := by
  simp only [getRoles, hs]
  split
  · rename_i h; simp [h]
  · rename_i h; simp [h, Option.isSome_iff_exists]

/-- `GetFullMockESDTData` against the specification -/
theorem fullTokens_none {st : Store} (h : fullTokens C st = none) : ¬ ReadableTokens C st := by
  intro hr
  obtain ⟨⟨k, v⟩, hp, h1⟩ := addEntries_none _ _ h
  have hs := (AMap.mem_entries_iff st k v).mp hp
  rcases h1 with ⟨hT, hL⟩ | ⟨hR, hG⟩
  · have := (load_isSome hT hs).mpr (fun hv => (hr k v hs hv).1 hT)
    rw [hL] at this; cases this
  · obtain ⟨name, he⟩ := (isRoleKey_iff k).mp hR
    simp only at he hG hR
    subst he
    rw [roleName] at hG
    have := (getRoles_isSome hs).mpr (fun hv => (hr _ v hs hv).2 hR)
    rw [hG] at this; cases this

theorem fullTokens_some {st : Store} {m : AMap Bytes TokenState} (h : fullTokens C st = some m) :
    ReadableTokens C st ∧ ∀ name,
      (∀ i, i ∈ (tokenAt m name).instances ↔ (loadInstance C st (makeTokenKey name i.nonce) = some (name, i) ∧
        (st.get? (makeTokenKey name i.nonce)).isSome = true ∧ i.value > 0)) ∧
      (tokenAt m name).lastNonce = lastNonceFor st name ∧ (tokenAt m name).roles = rolesFor C st name := by
  have hst : ∀ p ∈ st.entries, st.get? p.1 = some p.2 := fun p hp => (AMap.mem_entries_iff st p.1 p.2).mp hp
  obtain ⟨hok, hall⟩ := addEntries_some st.entries AMap.empty m hst h
  refine ⟨fun k v hs hv => ?_, fun name => ⟨fun i => ?_, ?_, ?_⟩⟩
  · have hp := hok (k, v) ((AMap.mem_entries_iff st k v).mpr hs)
    refine ⟨fun hT => (load_isSome hT hs).mp (hp.1 hT) hv, fun hR => ?_⟩
    obtain ⟨name, rfl⟩ := (isRoleKey_iff k).mp hR
    have := hp.2 hR
    simp only [roleName] at this
    exact (getRoles_isSome hs).mp this hv
  · rw [(hall name).1]
    constructor
    · rintro (h1 | ⟨⟨k, v⟩, hp, hT, hL, hpos⟩)
      · simp [tokenAt] at h1
      · have hk := (load_key hT hL).1
        have hs := hst _ hp
        simp only at hk hL hs
        rw [hk] at hL hs
        exact ⟨hL, by rw [hs]; rfl, hpos⟩
    · rintro ⟨hL, hs, hpos⟩
      obtain ⟨v, hv⟩ := Option.isSome_iff_exists.mp hs
      exact .inr ⟨_, (AMap.mem_entries_iff st _ v).mpr hv, isTokenKey_make .., hL, hpos⟩
  · unfold lastNonceFor
    cases hs : st.get? (makeLastNonceKey name) with
    | none =>
      simp only
      rw [(hall name).2.2.1]
      · rfl
      · intro v hv
        rw [hst _ hv] at hs; cases hs
    | some v => exact (hall name).2.1 v ((AMap.mem_entries_iff st _ v).mpr hs)
  · unfold rolesFor
    cases hs : st.get? (makeRolesKey name) with
    | none =>
      simp only
      rw [(hall name).2.2.2.2]
      · rfl
      · intro v hv
        rw [hst _ hv] at hs; cases hs
    | some v =>
      have := (hall name).2.2.2.1 v ((AMap.mem_entries_iff st _ v).mpr hs)
      simp only [getRoles, hs] at this
      simp only
      split
      · rename_i hv
        rw [if_pos hv] at this; exact (Option.some.inj this).symm
      · rename_i hv
        rw [if_neg hv] at this; rw [this]; rfl

/-- the instances the loader found are the holdings -/
theorem fullTokens_holding {st : Store} {m : AMap Bytes TokenState} (h : fullTokens C st = some m) (name : Bytes) (n : UInt64) :
    ((mapOf ((tokenAt m name).instances.map fun i => (i.nonce, i))).get? n).map (fun i => (i.value, i.metadata.getD {})) =
      holding C st name n := by
  rw [get?_mapOf_by]
  have hi := ((fullTokens_some h).2 name).1
  cases hl : lastWith (fun i => decide (i.nonce = n)) (tokenAt m name).instances with
  | some i =>
    have h1 := lastWith_mem hl
    have h2 := (hi i).mp h1.1
    have h3 : i.nonce = n := by simpa using h1.2
    have := load_holding (isTokenKey_make _ _) h2.1 h2.2.2
    rw [h3] at this
    rw [this]; rfl
  | none =>
    have h1 := lastWith_none hl
    cases hh : holding C st name n with
    | none => rfl
    | some q =>
      obtain ⟨i, hL, hn, hv⟩ := holding_load hh
      have hm : i ∈ (tokenAt m name).instances := by
        rw [hi i]
        rw [hn]
        refine ⟨hL, ?_, hv⟩
        unfold holding at hh
        cases hs : st.get? (makeTokenKey name n) with
        | none => rw [hs] at hh; cases hh
        | some v => rfl
      have := h1 i hm
      simp [hn] at this

theorem checkInstance_iff (x : CheckInstance) (value : Int) (m : TokenMeta) :
    checkInstance x value m = true ↔ InstanceAs x value m := by
  have hor : ∀ (b : Bool) (P : Prop) (c : Bool), (c = true ↔ P) → ((b || c) = true ↔ (b = false → P)) := by
    intro b P c hc
    cases b <;> simp [hc]
  have hu : m.uris.length ≤ 1 → (if m.uris.length = 1 then m.uris.headD [] else []) = m.uris.headD [] := by
    intro h
    match hm : m.uris with
    | [] => rfl
    | [a] => rfl
    | a :: b :: l => rw [hm] at h; simp at h
  simp only [checkInstance, Bool.and_eq_true, decide_eq_true_eq, InstanceAs]
  rw [checkInt_iff, hor _ _ _ (checkBytes_iff ..), hor _ _ _ (checkU64_iff ..), hor _ _ _ (checkBytes_iff ..),
    hor _ _ _ (checkBytes_iff ..), hor _ _ _ (checkBytes_iff ..)]
  constructor
  · rintro ⟨⟨⟨⟨⟨⟨h1, h2⟩, h3⟩, h4⟩, h5⟩, h6⟩, h7⟩
    rw [hu h5] at h6
    exact ⟨h1, h2, h3, h4, h5, h6, h7⟩
  · rintro ⟨h1, h2, h3, h4, h5, h6, h7⟩
    refine ⟨⟨⟨⟨⟨⟨h1, h2⟩, h3⟩, h4⟩, h5⟩, ?_⟩, h7⟩
    rw [hu h5]; exact h6

theorem instanceAs_bare (x : CheckInstance) (name : Bytes) (n : UInt64) :
    InstanceAs x 0 { name := name, nonce := n } ↔ InstanceAs x 0 {} := Iff.rfl

theorem checkInstances_iff {st : Store} {m : AMap Bytes TokenState} (h : fullTokens C st = some m) (name : Bytes) (x : CheckToken) :
    checkInstances name x (tokenAt m name) = true ↔
      ∀ n, match lastWith (fun i => decide (i.nonce.value = n)) x.instances with
        | some i => match holding C st name n with
          | some (value, m) => InstanceAs i value m
          | none => InstanceAs i 0 {}
        | none => holding C st name n = none := by
  simp only [checkInstances, List.all_eq_true]
  have hhold := fullTokens_holding h name
  have hpos : ∀ n i, (mapOf ((tokenAt m name).instances.map fun i => (i.nonce, i))).get? n = some i → i.value > 0 := by
    intro n i hi
    rw [get?_mapOf_by] at hi
    exact ((((fullTokens_some h).2 name).1 i).mp (lastWith_mem hi).1).2.2
  generalize hact : mapOf ((tokenAt m name).instances.map fun i => (i.nonce, i)) = act at hhold hpos ⊢
  constructor
  · intro hc n
    cases hl : lastWith (fun i => decide (i.nonce.value = n)) x.instances with
    | some e =>
      have hg : (mapOf (x.instances.map fun i => (i.nonce.value, i))).get? n = some e := by rw [get?_mapOf_by, hl]
      have := hc n (List.mem_append_left _ (keys_of_get? hg))
      simp only [hg] at this
      rw [← hhold n]
      cases ha : act.get? n with
      | none =>
        simp only [ha] at this
        exact (instanceAs_bare ..).mp ((checkInstance_iff ..).mp this)
      | some i =>
        simp only [ha] at this
        exact (checkInstance_iff ..).mp this
    | none =>
      have hg : (mapOf (x.instances.map fun i => (i.nonce.value, i))).get? n = none := by rw [get?_mapOf_by, hl]
      simp only
      rw [← hhold n]
      cases ha : act.get? n with
      | none => rfl
      | some i =>
        have := hc n (List.mem_append_right _ (keys_of_get? ha))
        simp only [hg, ha] at this
        rcases ((checkInstance_iff ..).mp this).1 with h1 | h1
        · cases h1
        · have := hpos n i ha
          simp only at h1
          omega
  · intro hc n _
    have := hc n
    rw [get?_mapOf_by]
    rw [← hhold n] at this
    cases hl : lastWith (fun i => decide (i.nonce.value = n)) x.instances with
    | some e =>
      rw [hl] at this
      cases ha : act.get? n with
      | none =>
        rw [ha] at this
        exact (checkInstance_iff ..).mpr ((instanceAs_bare ..).mpr this)
      | some i =>
        rw [ha] at this
        exact (checkInstance_iff ..).mpr this
    | none =>
      rw [hl] at this
      cases ha : act.get? n with
      | none => rfl
      | some i => rw [ha] at this; cases this

theorem checkRoles_iff (x : CheckToken) (t : TokenState) : checkRoles x t = true ↔ ∀ r, r ∈ x.roles ↔ r ∈ t.roles := by
  simp only [checkRoles, List.all_eq_true, Bool.and_eq_true, decide_eq_true_eq, List.mem_append]
  exact ⟨fun h r => ⟨fun hr => (h r (.inl hr)).2, fun hr => (h r (.inr hr)).1⟩,
    fun h r hr => hr.elim (fun h1 => ⟨h1, (h r).mp h1⟩) (fun h1 => ⟨(h r).mpr h1, h1⟩)⟩

theorem checkToken_iff {st : Store} {m : AMap Bytes TokenState} (h : fullTokens C st = some m) (name : Bytes) (x : CheckToken) :
    checkToken name x (tokenAt m name) = true ↔ TokenAs C name x st := by
  simp only [checkToken, Bool.and_eq_true, TokenAs]
  rw [checkInstances_iff h, checkU64_iff, checkRoles_iff, ((fullTokens_some h).2 name).2.1, ((fullTokens_some h).2 name).2.2, and_assoc]
  exact Iff.rfl

theorem checkTokens_iff (e : CheckAccount) (acc : WAcc) : checkTokens C e acc = true ↔ TokensAs C e acc.storage := by
  simp only [checkTokens, TokensAs, Bool.or_eq_true]
  refine or_congr Iff.rfl ?_
  cases hf : fullTokens C acc.storage with
  | none => simp only [Bool.false_eq_true, false_iff]; exact fun h => fullTokens_none hf h.1
  | some m =>
    simp only [List.all_eq_true]
    have hx : ∀ name, (((mapOf (e.tokens.map fun x => (x.name, x))).get? name).getD { name := name }) =
        ((lastWith (fun x => decide (x.name = name)) e.tokens).getD { name := name }) := fun name => by rw [get?_mapOf_by]
    have hdef : ∀ name, TokenAs C name ((lastWith (fun x => decide (x.name = name)) e.tokens).getD { name := name }) acc.storage ↔
        TokenAs C name ((lastWith (fun x => decide (x.name = name)) e.tokens).getD {}) acc.storage := by
      intro name
      cases lastWith (fun x => decide (x.name = name)) e.tokens <;> exact Iff.rfl
    constructor
    · intro h
      refine ⟨(fullTokens_some hf).1, fun name => ?_⟩
      rw [← hdef name]
      by_cases hk : name ∈ (mapOf (e.tokens.map fun x => (x.name, x))).keys ++ m.keys
      · have := h name hk
        rw [hx] at this
        exact (checkToken_iff hf name _).mp this
      · have h1 : name ∉ (mapOf (e.tokens.map fun x => (x.name, x))).keys := fun hm => hk (List.mem_append_left _ hm)
        have h2 : name ∉ m.keys := fun hm => hk (List.mem_append_right _ hm)
        rw [← AMap.get?_none_iff, get?_mapOf_by] at h1
        rw [← AMap.get?_none_iff] at h2
        have h3 := ((fullTokens_some hf).2 name).2
        have h4 : tokenAt m name = {} := by simp [tokenAt, h2]
        rw [h4] at h3
        rw [h1]
        refine ⟨fun n => ?_, ?_, fun r => ?_⟩
        · have := fullTokens_holding hf name n
          rw [h4] at this
          exact this.symm
        · rw [← h3.1]; exact .inr rfl
        · rw [← h3.2]; exact Iff.rfl
    · intro h name _
      rw [hx]
      exact (checkToken_iff hf name _).mpr ((hdef name).mpr (h.2 name))

theorem checkAccount_iff (w : MockWorld) (e : CheckAccount) :
    checkAccount C w e = true ↔ ∃ acc, w.account e.address = some acc ∧ AccountAs C e acc := by
  unfold checkAccount
  cases ha : w.account e.address with
  | none => simp
  | some acc =>
    simp only [Bool.and_eq_true, Option.some.injEq, exists_eq_left', AccountAs]
    rw [checkU64_iff, checkInt_iff, checkBytes_iff, checkBytes_iff, checkStorage_iff, checkTokens_iff]
    have hA : (e.asyncCallData.unspecified || e.asyncCallData.check acc.asyncCallData) = true ↔
        (e.asyncCallData.unspecified = false → MeetsBytes e.asyncCallData acc.asyncCallData) := by
      rw [← checkBytes_iff]
      cases e.asyncCallData.unspecified <;> simp
    rw [hA]
    constructor
    · rintro ⟨⟨⟨⟨⟨⟨h1, h2⟩, h3⟩, h4⟩, h5⟩, h6⟩, h7⟩; exact ⟨h1, h2, h3, h4, h5, h6, h7⟩
    · rintro ⟨h1, h2, h3, h4, h5, h6, h7⟩; exact ⟨⟨⟨⟨⟨⟨h1, h2⟩, h3⟩, h4⟩, h5⟩, h6⟩, h7⟩

/-- C53 (what is looked at): a `checkState` step passes exactly if the world is as described -/
theorem c53_checked (C : TokenCodec) (c : CheckAccounts) (w : MockWorld) : checkState C c w = true ↔ WorldAs C c w := by
  simp only [checkState, Bool.and_eq_true, Bool.or_eq_true, List.all_eq_true, WorldAs]
  have h1 : (∀ x ∈ w.accts.keys, hasCheck c.accounts x = true) ↔ ∀ a acc, w.account a = some acc → ∃ e ∈ c.accounts, e.address = a := by
    simp only [hasCheck, List.any_eq_true, decide_eq_true_eq]
    constructor
    · intro h a acc ha
      exact h a (keys_of_get? ha)
    · intro h a ha
      cases hg : w.accts.get? a with
      | none => exact absurd ha ((AMap.get?_none_iff _ _).mp hg)
      | some acc => exact h a acc hg
  rw [h1]
  constructor
  · rintro ⟨h2, h3⟩; exact ⟨fun e he => (checkAccount_iff w e).mp (h3 e he), h2⟩
  · rintro ⟨h2, h3⟩; exact ⟨h3, fun e he => (checkAccount_iff w e).mpr (h2 e he)⟩

/-- what was written down, if nothing of it is ignored -/
theorem asWritten_iff {e : CheckAccount} (h : OnlyChecked e) (acc : WAcc) : AccountAsWritten C e acc ↔ AccountAs C e acc := by
  have h1 : OwnerAs e acc := fun ho => by rw [h.1] at ho; cases ho
  have h2 : ReservedAs e acc := .inr fun k hk q hq => by
    obtain ⟨hm, hp⟩ := lastWith_mem hq
    have : q.1 = k := by simpa using hp
    exact absurd (this ▸ hk) (h.2.1 q hm)
  have h3 : TokensAsWritten C e acc.storage ↔ TokensAs C e acc.storage := by
    unfold TokensAsWritten TokensAs
    refine or_congr Iff.rfl (and_congr Iff.rfl (forall_congr' fun name => ?_))
    cases lastWith (fun x => decide (x.name = name)) e.tokens with
    | none => simp [h.2.2]
    | some x => exact Iff.rfl
  unfold AccountAsWritten AccountAs
  rw [h3]
  exact ⟨fun ⟨a, b, c, d, _, f, g, _, i⟩ => ⟨a, b, c, d, f, g, i⟩, fun ⟨a, b, c, d, f, g, i⟩ => ⟨a, b, c, d, h1, f, g, h2, i⟩⟩

/-- C53: if nothing is written down that is not looked at, a check passes exactly if the world is as written down. What is missing: the
owner, reserved keys and `"+"` among the tokens (see the negations). -/
theorem c53_partial (C : TokenCodec) (c : CheckAccounts) (w : MockWorld) (h : ∀ e ∈ c.accounts, OnlyChecked e) :
    checkState C c w = true ↔ WorldAsWritten C c w := by
  rw [c53_checked]
  unfold WorldAs WorldAsWritten
  refine and_congr ⟨fun hw e he => ?_, fun hw e he => ?_⟩ Iff.rfl
  · obtain ⟨acc, ha, h1⟩ := hw e he
    exact ⟨acc, ha, (asWritten_iff (h e he) acc).mpr h1⟩
  · obtain ⟨acc, ha, h1⟩ := hw e he
    exact ⟨acc, ha, (asWritten_iff (h e he) acc).mp h1⟩

/-! ### Results of transactions -/

theorem checkList_iff {α β : Type} {f : α → β → Bool} {R : α → β → Prop} (hf : ∀ a b, f a b = true ↔ R a b) :
    ∀ (l : List α) (r : List β), checkList f l r = true ↔ ListAs R l r := by
  intro l
  induction l with
  | nil =>
    intro r
    cases r with
    | nil => simp [checkList, ListAs]
    | cons b r => simp [checkList, ListAs]
  | cons a l ih =>
    intro r
    cases r with
    | nil => simp [checkList, ListAs]
    | cons b r =>
      simp only [checkList, Bool.and_eq_true, hf, ih r, ListAs, List.length_cons]
      constructor
      · rintro ⟨h1, h2, h3⟩
        refine ⟨by omega, fun i => ?_⟩
        cases i with
        | zero => intro x y hx hy; cases hx; cases hy; exact h1
        | succ i => intro x y hx hy; exact h3 i x y (by simpa using hx) (by simpa using hy)
      · rintro ⟨h1, h2⟩
        exact ⟨h2 0 a b rfl rfl, by omega, fun i x y hx hy => h2 (i + 1) x y (by simpa using hx) (by simpa using hy)⟩

theorem checkLog_iff (c : CheckLog) (l : LogEntry) : checkLog c l = true ↔ LogAs c l := by
  simp only [checkLog, Bool.and_eq_true, LogAs, checkBytes_iff, checkList_iff checkBytes_iff, and_assoc]

/-- C54: the expected result of a transaction is met exactly if the output is as described -/
theorem c54 (checkGas : Bool) (c : TxExpect) (o : VMOutput) : checkResult checkGas c o = true ↔ ResultAs checkGas c o := by
  simp only [checkResult, Bool.and_eq_true, ResultAs, checkInt_iff, checkBytes_iff, checkList_iff checkBytes_iff, Bool.or_eq_true,
    checkU64_iff, checkList_iff checkLog_iff, and_assoc]
  have : ((!checkGas) = true ∨ c.gas.unspecified = true) ∨ MeetsU64 c.gas o.gasRemaining ↔
      (checkGas = true → c.gas.unspecified = false → MeetsU64 c.gas o.gasRemaining) := by
    cases checkGas <;> cases c.gas.unspecified <;> simp
  rw [this]

end Arwen.Props
