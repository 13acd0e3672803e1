import Verif.Props.DumpParts
import Verif.Props.SetCheck
/-!
C83: a dump of the world shows the world.
-/
namespace Arwen.Props
open Arwen.Mandos Arwen.Mock Arwen.Spec

variable {q : Bytes → Bytes} {C : TokenCodec}

/-! ### Tokens -/

theorem addEntries_nodup {st : Store} : ∀ (l : List (Bytes × Bytes)) (m m' : AMap Bytes TokenState),
    addEntries C st l m = some m' → (l.map Prod.fst).Nodup →
    (∀ name, ((tokenAt m name).instances.map TokenRec.nonce).Nodup) →
    (∀ name, ∀ i ∈ (tokenAt m name).instances, makeTokenKey name i.nonce ∉ l.map Prod.fst) →
    ∀ name, ((tokenAt m' name).instances.map TokenRec.nonce).Nodup := by
  intro l
  induction l with
  | nil => intro m m' h _ hm _; cases h; exact hm
  | cons p l ih =>
    intro m m' h hn hm hf
    rw [List.map_cons, List.nodup_cons] at hn
    simp only [addEntries] at h
    have keep : ∀ m1 : AMap Bytes TokenState, addEntries C st l m1 = some m' →
        (∀ name, (tokenAt m1 name).instances = (tokenAt m name).instances) →
        ∀ name, ((tokenAt m' name).instances.map TokenRec.nonce).Nodup := by
      intro m1 h1 he
      refine ih m1 m' h1 hn.2 (fun name => by rw [he]; exact hm name) (fun name i hi => ?_)
      rw [he] at hi
      exact fun hx => hf name i hi (List.mem_cons_of_mem _ hx)
    cases ha : addEntry C st m p with
    | none => rw [ha] at h; cases h
    | some m1 =>
      rw [ha] at h
      simp only at h
      unfold addEntry at ha
      split at ha
      · rename_i hT
        cases hL : loadInstance C st p.1 with
        | none => rw [hL] at ha; cases ha
        | some r =>
          obtain ⟨name0, t⟩ := r
          rw [hL] at ha
          simp only at ha
          split at ha
          · cases ha
            have hkey := (load_key hT hL).1
            refine ih _ m' h hn.2 (fun name => ?_) (fun name i hi => ?_)
            · rw [tokenAt_insert]
              split
              · rename_i e
                subst e
                show (((tokenAt m name0).instances ++ [t]).map TokenRec.nonce).Nodup
                rw [List.map_append, List.nodup_append]
                refine ⟨hm _, by simp, ?_⟩
                rintro a ha b hb rfl
                obtain ⟨i, hi, rfl⟩ := List.mem_map.1 ha
                simp only [List.map_cons, List.map_nil, List.mem_singleton] at hb
                exact hf name0 i hi (by rw [hb, ← hkey]; exact .head _)
              · exact hm _
            · rw [tokenAt_insert] at hi
              split at hi
              · rename_i e
                subst e
                rcases List.mem_append.1 (show i ∈ (tokenAt m name0).instances ++ [t] from hi) with hi | hi
                · exact fun hx => hf _ i hi (.tail _ hx)
                · rw [List.mem_singleton.1 hi, ← hkey]
                  exact hn.1
              · exact fun hx => hf _ i hi (.tail _ hx)
          · cases ha
            exact keep _ h (fun _ => rfl)
      · have upd : ∀ (k : Bytes) (f : TokenState → TokenState), (∀ s, (f s).instances = s.instances) →
            m1 = m.insert k (f ((m.get? k).getD {})) → ∀ name, ((tokenAt m' name).instances.map TokenRec.nonce).Nodup := by
          intro k f hf' e
          refine keep _ h (fun name => ?_)
          rw [e, tokenAt_insert]
          split
          · rename_i e; subst e; exact hf' _
          · rfl
        split at ha
        · cases ha
          exact upd _ (fun s => { s with lastNonce := UInt64.ofNat (bytesToNat p.2) }) (fun _ => rfl) rfl
        · split at ha
          · dsimp only at ha
            cases hR : getRoles C st (p.1.drop rolePrefix.length) with
            | none => rw [hR] at ha; cases ha
            | some roles =>
              rw [hR] at ha
              cases ha
              exact upd _ (fun s => { s with roles := roles }) (fun _ => rfl) rfl
          · cases ha
            exact keep _ h (fun _ => rfl)

theorem instances_held {st : Store} {m : AMap Bytes TokenState} (h : fullTokens C st = some m) (name : Bytes) :
    ((tokenAt m name).instances.map TokenRec.nonce).Nodup ∧ (∀ i ∈ (tokenAt m name).instances, 0 ≤ i.value) ∧
    ∀ n v d, (n, v, d) ∈ (tokenAt m name).instances.map (fun i => (i.nonce, i.value, i.metadata.getD {})) ↔
      holding C st name n = some (v, d) := by
  have hi := ((fullTokens_some h).2 name).1
  refine ⟨addEntries_nodup st.entries AMap.empty m h st.nodup (fun _ => by simp [tokenAt]) (fun name i hi => by simp [tokenAt] at hi) name,
    fun i hm => ?_, fun n v d => ?_⟩
  · have := ((hi i).1 hm).2.2
    omega
  · rw [List.mem_map]
    constructor
    · rintro ⟨i, hm, e⟩
      cases e
      have h2 := (hi i).1 hm
      exact load_holding (isTokenKey_make _ _) h2.1 h2.2.2
    · intro hh
      obtain ⟨i, hL, hn, hv⟩ := holding_load hh
      have := load_holding (isTokenKey_make _ _) hL hv
      rw [hn, hh] at this
      have hs : (st.get? (makeTokenKey name n)).isSome = true := by
        unfold holding at hh
        cases hs : st.get? (makeTokenKey name n) with
        | none => rw [hs] at hh; cases hh
        | some v => rfl
      refine ⟨i, (hi i).2 ⟨by rw [hn]; exact hL, by rw [hn]; exact hs, hv⟩, ?_⟩
      injection this with this
      rw [hn, ← this]

theorem writeAll_strs (l : List Bytes) : writeAll strJ l = some (l.map Json.str) := by
  induction l with
  | nil => rfl
  | cons a l ih => simp [writeAll, ih, strJ]

theorem token_shows {st : Store} {m : AMap Bytes TokenState} (h : fullTokens C st = some m) (name : Bytes) :
    ∃ j, (shownToken q name (tokenAt m name)).json = some j ∧ ShowsToken C st name j := by
  obtain ⟨h1, h2, h3⟩ := instances_held h name
  have h4 := ((fullTokens_some h).2 name).2
  generalize tokenAt m name = t at h1 h2 h3 h4
  obtain ⟨is, w1, w2, w3⟩ := writeAll_zip (l := t.instances)
    (f := fun i => done (JInstance.append (shownInstance q i) (some []))) (g := Json.map)
    (P := fun i ps => (shownInstance q i).append (some []) = some ps ∧ ShowsInstance i.nonce i.value (i.metadata.getD {}) ps) (by
      intro i hi
      obtain ⟨ps, e, hp⟩ := instance_shows (q := q) (h2 i hi)
      exact ⟨ps, by rw [e]; rfl, e, hp⟩)
  have hcompact : (shownToken q name t).compact? = none := by
    unfold JToken.compact? shownToken
    dsimp only
    split
    · rename_i i hi
      rw [if_neg]
      rintro ⟨hc, _⟩
      obtain ⟨x, _, rfl⟩ : ∃ x ∈ t.instances, shownInstance q x = i := by
        have : i ∈ t.instances.map (shownInstance q) := by rw [hi]; simp
        simpa using this
      exact shownNat_ne (q := q) _ hc
    · rfl
  have hfirst : ∃ first, (shownToken q name t).putInstances = some first ∧ Words first [.nonce, .balance, .creator, .royalties, .hash, .uri, .attributes, .instances] ∧
      (is = [first] ∨ is.length ≠ 1 ∧ first = [(Word.instances.text, .list (is.map Json.map))]) := by
    match hl : t.instances, w2 with
    | [i], w2 =>
      obtain ⟨ps, rfl⟩ : ∃ ps, is = [ps] := by
        match is, w2 with
        | [ps], _ => exact ⟨ps, rfl⟩
      have := w3 i ps (by rw [hl]; simp)
      refine ⟨ps, ?_, ?_, .inl rfl⟩
      · unfold JToken.putInstances shownToken
        rw [hl]
        exact this.1
      · obtain ⟨a, b, c, d, e, f, g, rfl, k1, k2, k3, k4, k5, k6, k7⟩ := this.2
        have mem : ∀ {w : Word} {present : Prop} {P : Bytes → Prop} {l : Pairs}, ShowsField w present P l → ∀ p ∈ l, p.1 = w.text := by
          intro w present P l hs p hp
          by_cases hp' : present
          · obtain ⟨t, _, e⟩ := hs.1 hp'
            rw [e] at hp
            rw [List.mem_singleton.1 hp]
          · rw [hs.2 hp'] at hp
            cases hp
        intro p hp
        simp only [List.mem_append, or_assoc] at hp
        rcases hp with hp | hp | hp | hp | hp | hp | hp
        · exact ⟨.nonce, by simp, mem k1 p hp⟩
        · exact ⟨.balance, by simp, mem k2 p hp⟩
        · exact ⟨.creator, by simp, mem k3 p hp⟩
        · exact ⟨.royalties, by simp, mem k4 p hp⟩
        · exact ⟨.hash, by simp, mem k5 p hp⟩
        · exact ⟨.uri, by simp, mem k6 p hp⟩
        · exact ⟨.attributes, by simp, mem k7 p hp⟩
    | [], w2 =>
      have : is = [] := List.length_eq_zero_iff.1 w2.symm
      subst this
      refine ⟨[(Word.instances.text, .list [])], ?_, fun p hp => ⟨.instances, by simp, by rw [List.mem_singleton.1 hp]⟩, .inr ⟨by simp, rfl⟩⟩
      unfold JToken.putInstances shownToken
      rw [hl]
      rfl
    | i :: i' :: l, w2 =>
      refine ⟨[(Word.instances.text, .list (is.map Json.map))], ?_, fun p hp => ⟨.instances, by simp, by rw [List.mem_singleton.1 hp]⟩,
        .inr ⟨by rw [← w2]; simp, rfl⟩⟩
      unfold JToken.putInstances shownToken
      dsimp only
      rw [hl]
      show put .instances (listOf _ ((i :: i' :: l).map (shownInstance q))) (some []) = _
      rw [← hl, listOf, writeAll_congr (k := shownInstance q) (f := fun i => done (JInstance.append (shownInstance q i) (some []))) (fun _ => rfl), w1]
      rfl
  obtain ⟨first, f1, f2, f3⟩ := hfirst
  obtain ⟨e1, v1⟩ := putIf_words f2 (c := decide ((shownToken q name t).lastNonce.original ≠ [])) (w := .lastNonce)
    (v := (shownToken q name t).lastNonce.json) (by decide) (fun _ => rfl)
  obtain ⟨e2, v2⟩ := putIf_words v1 (c := decide ((shownToken q name t).roles ≠ [])) (w := .roles)
    (v := listOf strJ (shownToken q name t).roles) (j := .list (t.roles.map Json.str)) (by decide) (fun _ => by
      rw [listOf, show (shownToken q name t).roles = t.roles from rfl, writeAll_strs]; rfl)
  have hj : (shownToken q name t).json = done (putIf (decide ((shownToken q name t).roles ≠ [])) .roles (listOf strJ (shownToken q name t).roles)
      (putIf (decide ((shownToken q name t).lastNonce.original ≠ [])) .lastNonce (shownToken q name t).lastNonce.json
        (shownToken q name t).putInstances)) := by
    unfold JToken.json
    rw [hcompact]
    rfl
  rw [f1, e1, e2] at hj
  refine ⟨_, hj, t.instances.map (fun i => (i.nonce, i.value, i.metadata.getD {})), is, first, _, _, rfl, ?_, h3, ?_, ?_, f3, ?_, ?_⟩
  · rw [List.map_map]; exact h1
  · rw [List.length_map]; exact w2
  · intro x i hx
    rw [List.zip_map_left, List.mem_map] at hx
    obtain ⟨⟨y, i'⟩, hy, e⟩ := hx
    cases e
    exact (w3 _ _ hy).2
  · refine field_shows ?_ (fun _ => ?_)
    · simp only [decide_eq_true_eq, iff_true]
      exact shownNat_ne (q := q) _
    · rw [← h4.1]
      exact shownNat (q := q) _
  · rw [← h4.2]
    show (if decide (t.roles ≠ []) = true then _ else _) = _
    by_cases hr : t.roles = []
    · simp [hr]
    · simp [hr]

/-! ### Accounts -/

theorem tokens_show {st : Store} {m : AMap Bytes TokenState} (h : fullTokens C st = some m) :
    ∃ ps, tokensJson ((sortByKey m.entries).map (fun p => shownToken q p.1 p.2)) = some (.map ps) ∧ ShowsTokens C st ps ∧
      (ps = [] ↔ (sortByKey m.entries).map (fun p => shownToken q p.1 p.2) = []) := by
  have hat : ∀ p ∈ sortByKey m.entries, p.2 = tokenAt m p.1 := by
    intro p hp
    have := (AMap.mem_entries_iff m p.1 p.2).1 ((sortByKey_perm _).mem_iff.1 hp)
    rw [tokenAt, this]; rfl
  have hnd : ((sortByKey m.entries).map Prod.fst).Nodup := ((sortByKey_perm _).map _).nodup_iff.2 m.nodup
  obtain ⟨ps, h1, h2, h3⟩ := putAll_zip (l := sortByKey m.entries) (m := []) (key := fun p => strPrefix ++ p.1)
    (f := fun p => (shownToken q p.1 p.2).json) (P := fun p j => ShowsToken C st p.1 j) (by
      intro p hp
      rw [hat p hp]
      exact token_shows h p.1) (by
      rw [List.Nodup, List.pairwise_map] at hnd ⊢
      exact hnd.imp (fun hab e => hab (List.append_cancel_left e))) (by simp)
  refine ⟨ps, ?_, ⟨(sortByKey m.entries).map Prod.fst, ?_, ?_, by rw [List.length_map, h2], ?_⟩, ?_⟩
  · rw [tokensJson, List.foldl_map]
    rw [List.nil_append] at h1
    show done (List.foldl (fun m (x : Bytes × TokenState) => putAt (strPrefix ++ x.1) (shownToken q x.1 x.2).json m) (some []) _) = _
    rw [h1]; rfl
  · rw [List.pairwise_map]
    exact sortByKey_before m.nodup
  · intro name hn
    have hne : m.get? name ≠ none := by
      intro e
      have hz : tokenAt m name = {} := by rw [tokenAt, e]; rfl
      have h4 := (fullTokens_some h).2 name
      rcases hn with ⟨n, ⟨v, d⟩, hh⟩ | hn | hn
      · have := ((instances_held h name).2.2 n v d).2 hh
        rw [hz] at this
        simp at this
      · rw [hz] at h4; exact hn h4.2.1.symm
      · rw [hz] at h4; exact hn h4.2.2.symm
    obtain ⟨t, ht⟩ := Option.ne_none_iff_exists'.1 hne
    exact List.mem_map.2 ⟨(name, t), (sortByKey_perm _).mem_iff.2 ((AMap.mem_entries_iff m name t).2 ht), rfl⟩
  · intro name p hp
    rw [List.zip_map_left, List.mem_map] at hp
    obtain ⟨⟨y, p'⟩, hy, e⟩ := hp
    cases e
    exact h3 _ _ hy
  · rw [List.map_eq_nil_iff, ← List.length_eq_zero_iff, ← List.length_eq_zero_iff, h2]

theorem account_shows {a : Addr} {acc : WAcc} :
    (shownAccount q C a acc = none ↔ ¬ ReadableTokens C acc.storage) ∧
    ∀ x, shownAccount q C a acc = some x → x.address.text = reconstruct q a .address ∧
      ∃ j, x.json = some j ∧ ShowsAccount C acc.nonce acc.balance acc.storage j := by
  unfold shownAccount
  cases hf : fullTokens C acc.storage with
  | none => exact ⟨⟨fun _ => fullTokens_none hf, fun _ => rfl⟩, fun x h => by cases h⟩
  | some m =>
    refine ⟨⟨fun h => by (cases h), fun h => absurd (fullTokens_some hf).1 h⟩, ?_⟩
    rintro x ⟨⟩
    refine ⟨shownBytes_text (address_text a).1, ?_⟩
    obtain ⟨ts, t1, t2, t3⟩ := tokens_show (q := q) hf
    obtain ⟨ps, s1, s2⟩ := storage_shows (q := q) acc.storage
    refine ⟨_, ?_, _, _, ps, ts, shownNat (q := q) acc.nonce.toNat, shownNat (q := q) acc.balance.natAbs, s2, t2, rfl⟩
    show done (put .code (strJ []) (put .storage (done ((shownStorage q acc.storage).foldl _ (some [])))
      (putIf (decide ((sortByKey m.entries).map (fun p => shownToken q p.1 p.2) ≠ [])) .esdt
        (tokensJson ((sortByKey m.entries).map (fun p => shownToken q p.1 p.2)))
        (some [(Word.nonce.text, _), (Word.balance.text, _)])))) = _
    rw [t1, s1]
    by_cases h0 : ts = []
    · have := t3.1 h0
      rw [this, if_pos h0]
      rfl
    · have : decide ((sortByKey m.entries).map (fun p => shownToken q p.1 p.2) ≠ []) = true := by
        rw [decide_eq_true_eq]; exact fun e => h0 (t3.2 e)
      rw [this, if_neg h0]
      rfl

/-! ### The world -/

theorem shownAccounts_spec : ∀ l : List (Addr × WAcc),
    (shownAccounts q C l = none ↔ ∃ p ∈ l, shownAccount q C p.1 p.2 = none) ∧
    ∀ xs, shownAccounts q C l = some xs → xs.map some = l.map (fun p => shownAccount q C p.1 p.2)
  | [] => ⟨by simp [shownAccounts], by rintro xs ⟨⟩; rfl⟩
  | p :: l => by
    obtain ⟨h1, h2⟩ := shownAccounts_spec l
    cases hp : shownAccount q C p.1 p.2 with
    | none => exact ⟨by simp [shownAccounts, hp], fun xs h => by simp [shownAccounts, hp] at h⟩
    | some x =>
      refine ⟨?_, fun xs h => ?_⟩
      · simp only [shownAccounts, hp, Option.map_eq_none_iff, h1, List.mem_cons, exists_eq_or_imp]
        simp
      · simp only [shownAccounts, hp, Option.map_eq_some_iff] at h
        obtain ⟨ys, hy, rfl⟩ := h
        simp [h2 ys hy, hp]

theorem mem_of_maps {α β : Type} {f : β → Option α} {xs : List α} {l : List β} (h : xs.map some = l.map f) :
    (∀ x ∈ xs, ∃ p ∈ l, f p = some x) ∧ ∀ p ∈ l, ∃ x ∈ xs, f p = some x := by
  refine ⟨fun x hx => ?_, fun p hp => ?_⟩
  · have : some x ∈ l.map f := by rw [← h]; exact List.mem_map.2 ⟨x, hx, rfl⟩
    obtain ⟨p, hp, e⟩ := List.mem_map.1 this
    exact ⟨p, hp, e⟩
  · have : f p ∈ xs.map some := by rw [h]; exact List.mem_map.2 ⟨p, hp, rfl⟩
    obtain ⟨x, hx, e⟩ := List.mem_map.1 this
    exact ⟨x, hx, e.symm⟩

/-- **The dump fails exactly if the tokens of some account cannot be read. If it does not fail, each of its entries shows an account of
the world, and there is an entry under the name of every account.** -/
theorem c83_dump (q : Bytes → Bytes) (C : TokenCodec) (w : MockWorld) :
    (dumpTree q C w = none ↔ ∃ a acc, w.accts.get? a = some acc ∧ ¬ ReadableTokens C acc.storage) ∧
    ∀ j, dumpTree q C w = some j → ∃ ps, j = .map ps ∧ (ps.map Prod.fst).Nodup ∧
      (∀ p ∈ ps, ∃ a acc, w.accts.get? a = some acc ∧ ShowsAddress a p.1 ∧ ShowsAccount C acc.nonce acc.balance acc.storage p.2) ∧
      ∀ a acc, w.accts.get? a = some acc → ∃ p ∈ ps, ShowsAddress a p.1 := by
  obtain ⟨h1, h2⟩ := shownAccounts_spec (q := q) (C := C) w.accts.entries
  have hnone : shownAccounts q C w.accts.entries = none ↔ ∃ a acc, w.accts.get? a = some acc ∧ ¬ ReadableTokens C acc.storage := by
    rw [h1]
    constructor
    · rintro ⟨⟨a, acc⟩, hp, e⟩
      exact ⟨a, acc, (AMap.mem_entries_iff _ _ _).1 hp, account_shows.1.1 e⟩
    · rintro ⟨a, acc, hg, hr⟩
      exact ⟨(a, acc), (AMap.mem_entries_iff _ _ _).2 hg, account_shows.1.2 hr⟩
  cases hs : shownAccounts q C w.accts.entries with
  | none => exact ⟨by rw [← hnone, dumpTree, hs]; simp, fun j h => by rw [dumpTree, hs] at h; cases h⟩
  | some xs =>
    obtain ⟨m1, m2⟩ := mem_of_maps (h2 xs hs)
    obtain ⟨ps, e, n, p1, _, p2⟩ := putAll_some (f := JAccount.json) (key := fun x => x.address.text)
      (P := fun x j => ∃ p ∈ w.accts.entries, shownAccount q C p.1 p.2 = some x ∧ ShowsAccount C p.2.nonce p.2.balance p.2.storage j)
      xs [] [] (by
        intro x hx
        obtain ⟨p, hp, e⟩ := m1 x hx
        obtain ⟨_, j, hj, hsj⟩ := account_shows.2 x e
        exact ⟨j, hj, p, hp, e, hsj⟩) (by simp) (by simp)
    have ht : dumpTree q C w = some (.map ps) := by
      rw [dumpTree, hs]
      show done (List.foldl (fun m (x : JAccount) => putAt x.address.text x.json m) (some []) xs) = _
      rw [e]; rfl
    refine ⟨?_, fun j hj => ?_⟩
    · rw [← hnone, ht, hs]; simp
    · rw [ht] at hj
      cases hj
      refine ⟨ps, rfl, n, fun p hp => ?_, fun a acc hg => ?_⟩
      · obtain ⟨x, _, e1, ⟨a, acc⟩, hm, e2, hsj⟩ := p1 p hp
        refine ⟨a, acc, (AMap.mem_entries_iff _ _ _).1 hm, ?_, hsj⟩
        rw [e1, (account_shows.2 x e2).1]
        exact address_shows a
      · obtain ⟨x, hx, e1⟩ := m2 (a, acc) ((AMap.mem_entries_iff _ _ _).2 hg)
        obtain ⟨p, hp, e2⟩ := List.mem_map.1 (p2 x hx)
        refine ⟨p, hp, ?_⟩
        rw [e2, (account_shows.2 x e1).1]
        exact address_shows a

/-- **If all addresses have names, every account of the world is shown, once, under its name.** Missing is what can be said of other
addresses, see `c83_address_neg`. -/
theorem c83_all_partial (q : Bytes → Bytes) (C : TokenCodec) (w : MockWorld)
    (hw : ∀ a acc, w.accts.get? a = some acc → NamedAddress a ∧ ReadableTokens C acc.storage) :
    ∃ ps, dumpTree q C w = some (.map ps) ∧ w.accts.entries.length = ps.length ∧
      ∀ e p, (e, p) ∈ w.accts.entries.zip ps → (∀ I, interpretString I p.1 = .ok e.1) ∧
        ShowsAccount C e.2.nonce e.2.balance e.2.storage p.2 := by
  cases hs : shownAccounts q C w.accts.entries with
  | none =>
    obtain ⟨p, hp, e⟩ := (shownAccounts_spec _).1.1 hs
    exact absurd (hw p.1 p.2 ((AMap.mem_entries_iff _ _ _).1 hp)).2 (account_shows.1.1 e)
  | some xs =>
    have h2 := (shownAccounts_spec _).2 xs hs
    obtain ⟨ps, e, hl, hz⟩ := putAll_zip (l := w.accts.entries) (m := []) (key := fun p => reconstruct q p.1 .address)
      (f := fun p => (shownAccount q C p.1 p.2).bind JAccount.json)
      (P := fun p j => ShowsAccount C p.2.nonce p.2.balance p.2.storage j) (by
        intro p hp
        cases ha : shownAccount q C p.1 p.2 with
        | none => exact absurd (hw p.1 p.2 ((AMap.mem_entries_iff _ _ _).1 hp)).2 (account_shows.1.1 ha)
        | some x => exact (account_shows.2 x ha).2) (by
        have hn := w.accts.nodup
        rw [List.Nodup, List.pairwise_map] at hn ⊢
        refine List.Pairwise.imp_of_mem (fun {a b} ha hb hab e => hab ?_) hn
        have h1 := (address_shows (q := q) a.1).1 ⟨none, id⟩ (hw a.1 a.2 ((AMap.mem_entries_iff _ _ _).1 ha)).1
        have h2 := (address_shows (q := q) b.1).1 ⟨none, id⟩ (hw b.1 b.2 ((AMap.mem_entries_iff _ _ _).1 hb)).1
        rw [e, h2] at h1
        injection h1 with h1
        exact h1.symm) (by simp)
    refine ⟨ps, ?_, hl, fun a p hp => ?_⟩
    · rw [dumpTree, hs]
      show done (List.foldl (fun m (x : JAccount) => putAt x.address.text x.json m) (some []) xs) = _
      have key : ∀ (l : List (Addr × WAcc)) (xs : List JAccount) (m : Option Pairs),
          xs.map some = l.map (fun p => shownAccount q C p.1 p.2) →
          xs.foldl (fun m x => putAt x.address.text x.json m) m =
            l.foldl (fun m p => putAt (reconstruct q p.1 .address) ((shownAccount q C p.1 p.2).bind JAccount.json) m) m := by
        intro l
        induction l with
        | nil => intro xs m h; rw [List.map_nil, List.map_eq_nil_iff] at h; rw [h]; rfl
        | cons p l ih =>
          intro xs m h
          cases xs with
          | nil => cases h
          | cons x xs =>
            simp only [List.map_cons, List.cons.injEq] at h
            rw [List.foldl_cons, List.foldl_cons, ih xs _ h.2, ← h.1, (account_shows.2 x h.1.symm).1]
            rfl
      rw [key _ xs _ h2, e]
      rfl
    · obtain ⟨e1, e2⟩ := hz a p hp
      refine ⟨fun I => ?_, e2⟩
      rw [e1]
      exact (address_shows a.1).1 I (hw a.1 a.2 ((AMap.mem_entries_iff _ _ _).1 (List.of_mem_zip hp).1)).1

/-- **What is shown of bytes tells the bytes.** -/
theorem c83_bytes {v v' t : Bytes} (h : ShowsBytes v t) (h' : ShowsBytes v' t) : v = v' := showsBytes_inj h h'

/-! ### What is not shown -/

/-- **Code, owner, name and the other fields of an account are not in the dump.** -/
theorem c83_hidden_neg (q : Bytes → Bytes) (C : TokenCodec) (a : Addr) (acc : WAcc) (code owner username asyncCallData : Bytes)
    (reward : Int) :
    dumpTree q C (MockWorld.put {} a { acc with
      code := code, owner := owner, username := username, asyncCallData := asyncCallData, developerReward := reward }) =
      dumpTree q C (MockWorld.put {} a acc) := rfl

/-- **Debts look like balances**: only the absolute value is shown. -/
theorem c83_balance_neg (q : Bytes → Bytes) (C : TokenCodec) (a : Addr) :
    dumpTree q C (MockWorld.put {} a { balance := -5 }) = dumpTree q C (MockWorld.put {} a { balance := 5 }) := rfl

/-- **An account can be hidden by another**: the addresses `a_…_` in shard 1 and `a#1_…_` of contracts have the same name, and of the two
accounts only the first is shown. -/
theorem c83_address_neg (q : Bytes → Bytes) (C : TokenCodec) : ∃ a b : Addr, a ≠ b ∧ a.length = 32 ∧ b.length = 32 ∧
    dumpTree q C (MockWorld.put (MockWorld.put {} a { nonce := 1 }) b { nonce := 2 }) = dumpTree q C (MockWorld.put {} a { nonce := 1 }) := by
  refine ⟨List.replicate 8 0 ++ 97 :: List.replicate 22 95 ++ [1], List.replicate 8 0 ++ 97 :: 35 :: 49 :: List.replicate 21 95,
    by decide, by decide, by decide, ?_⟩
  rfl

/-- the account `a` with one value in its storage -/
def noteWorld (v : Bytes) : MockWorld :=
  MockWorld.put {} (97 :: List.replicate 31 95) { nonce := 5, balance := 70, storage := AMap.empty.insert [107] v }

/-- **A quotation mark in the storage spoils the printed text**: it is printed in the note as it is, and the text is not JSON any more. -/
theorem c83_text_neg : ∃ text e, dumpWorld id Toy.codec (noteWorld [34]) = some text ∧ parseOrderedJson text = .error e := by
  have h : (match (dumpWorld id Toy.codec (noteWorld [34])).map parseOrderedJson with | some (.error _) => true | _ => false) = true := by
    decide +kernel
  cases hd : dumpWorld id Toy.codec (noteWorld [34]) with
  | none => rw [hd] at h; cases h
  | some text =>
    rw [hd] at h
    cases hp : parseOrderedJson text with
    | ok r => simp only [Option.map_some, hp] at h; cases h
    | error e => exact ⟨text, e, rfl, hp⟩

/-- **Of several URIs of an instance only the first is shown.** -/
theorem c83_uris_neg (q : Bytes → Bytes) (value : Int) (d : TokenMeta) (u : Bytes) (us : List Bytes) (l : Option Pairs) :
    (shownInstance q { value := value, metadata := some { d with uris := u :: us } }).append l =
      (shownInstance q { value := value, metadata := some { d with uris := [u] } }).append l := rfl

/-! ### Reading a dump -/

theorem showsBytes_rejected (I : Interpreter) {v t : Bytes} (h : ShowsBytes v t) (hv : v ≠ []) :
    interpretString I t = .error .rejected := by
  rcases h with ⟨e, _⟩ | ⟨_, note, rfl⟩
  · exact absurd e hv
  · have hx : ∀ d, ¬ IsHexDigit 32 d := by
      intro d hd
      unfold IsHexDigit at hd
      rw [show UInt8.toNat 32 = 32 from rfl] at hd
      omega
    have := interpret_bad_hex I (a := hexEncode v ++ ascii [' ', '(']) (c := 32)
      (noBar_append.2 ⟨hexEncode_noBar v, by unfold NoBar; decide⟩) (List.mem_append_right _ (.head _)) hx (note ++ ascii [')'])
    simp only [List.append_assoc, List.cons_append] at this ⊢
    exact this

theorem fields_mem {σ : Type} {f : Bytes → Json → σ → Parsed σ} : ∀ {l : List (Bytes × Json)} {s s' : σ}, fields f l s = .ok s' →
    ∀ p ∈ l, ∃ a b, f p.1 p.2 a = .ok b
  | [], _, _, _, p, hp => by cases hp
  | (k, v) :: l, s, s', h, p, hp => by
    obtain ⟨a, ha, h⟩ := ebind_ok h
    rcases List.mem_cons.1 hp with rfl | hp
    · exact ⟨s, a, ha⟩
    · exact fields_mem h p hp

theorem entries_mem {α : Type} {f : Bytes → Json → Parsed α} : ∀ {l : List (Bytes × Json)} {s : List α}, entries f l = .ok s →
    ∀ p ∈ l, ∃ a, f p.1 p.2 = .ok a
  | [], _, _, p, hp => by cases hp
  | (k, v) :: l, s, h, p, hp => by
    obtain ⟨a, ha, h⟩ := ebind_ok h
    obtain ⟨b, hb, h⟩ := map_ok h
    rcases List.mem_cons.1 hp with rfl | hp
    · exact ⟨a, ha⟩
    · exact entries_mem hb p hp

/-- a value that has to be shown -/
theorem storage_lost {n : UInt64} {b : Int} {st : Store} {j : Json} (h : ShowsAccount C n b st j) {key v : Bytes}
    (hg : st.get? key = some v) (hv : v ≠ []) (hk : ¬ elrondPrefix <+: key) (I : Interpreter) (k : Bytes) (y : JAccount) :
    parseAccount I k j ≠ .ok y := by
  obtain ⟨_, _, s, ts, _, _, ⟨es, _, hes, hlen, hz⟩, _, rfl⟩ := h
  intro h
  obtain ⟨l, hl, h⟩ := ebind_ok h
  cases hl
  obtain ⟨a, ha, _⟩ := ebind_ok h
  obtain ⟨x, y, hf⟩ := fields_mem ha (Word.storage.text, .map s) (by simp)
  simp only [accountField, Word.of?_text] at hf
  obtain ⟨z, hz', _⟩ := map_ok hf
  have hm := (hes key v).2 ⟨hg, hv, hk⟩
  obtain ⟨i, hi, hi'⟩ := List.getElem_of_mem hm
  have hi2 : i < s.length := hlen ▸ hi
  have hmem : ((key, v), s[i]) ∈ es.zip s := by
    have hl : i < (es.zip s).length := by rw [List.length_zip]; exact Nat.lt_min.2 ⟨hi, hi2⟩
    have := List.getElem_mem hl
    rwa [List.getElem_zip, hi'] at this
  obtain ⟨_, t, e, ht⟩ := hz _ _ hmem
  obtain ⟨r, hr⟩ := entries_mem hz' s[i] (List.getElem_mem _)
  obtain ⟨b, _, hr⟩ := ebind_ok hr
  obtain ⟨c, hc, _⟩ := map_ok hr
  rw [e] at hc
  obtain ⟨d, hd, _⟩ := map_ok hc
  rw [interpretTree, showsBytes_rejected I ht hv] at hd
  cases hd

/-- **A dump cannot be used as a scenario if there is anything in the storage of an account**: the notes for people make the texts
invalid. -/
theorem c83_storage_neg (q : Bytes → Bytes) (C : TokenCodec) (I : Interpreter) (w : MockWorld)
    (hw : ∀ a acc, w.accts.get? a = some acc → NamedAddress a ∧ ReadableTokens C acc.storage) {a : Addr} {acc : WAcc} {key v : Bytes}
    (ha : w.accts.get? a = some acc) (hg : acc.storage.get? key = some v) (hv : v ≠ []) (hk : ¬ elrondPrefix <+: key) :
    ∃ j, dumpTree q C w = some j ∧ ∀ l, parseAccounts I j ≠ .ok l := by
  obtain ⟨ps, e, hlen, hz⟩ := c83_all_partial q C w hw
  refine ⟨_, e, fun l h => ?_⟩
  obtain ⟨l', hl', h⟩ := ebind_ok h
  cases hl'
  obtain ⟨i, hi, hi'⟩ := List.getElem_of_mem ((AMap.mem_entries_iff _ _ _).2 ha)
  have hi2 : i < ps.length := hlen ▸ hi
  have hmem : ((a, acc), ps[i]) ∈ w.accts.entries.zip ps := by
    have hl : i < (w.accts.entries.zip ps).length := by rw [List.length_zip]; exact Nat.lt_min.2 ⟨hi, hi2⟩
    have := List.getElem_mem hl
    rwa [List.getElem_zip, hi'] at this
  obtain ⟨x, hx⟩ := entries_mem h ps[i] (List.getElem_mem _)
  exact storage_lost (hz _ _ hmem).2 hg hv hk I _ _ hx

theorem hexEncode_plain (v : Bytes) : ∀ c ∈ hexEncode v, c ≠ quote ∧ c ≠ backslash := by
  intro c hc
  have := scanHex_hexDecode _ _ 0 (hexDecode_encode v)
  obtain ⟨d, hd⟩ := hexDigits_mem (scanHex_iff.1 this.1) c hc
  unfold IsHexDigit at hd
  constructor
  · rintro rfl
    rw [show quote.toNat = 34 from rfl] at hd
    omega
  · rintro rfl
    rw [show backslash.toNat = 92 from rfl] at hd
    omega

theorem address_quotable {a : Bytes} (hl : a.length = 32) (ha : ∀ c ∈ a, c ≠ quote ∧ c ≠ backslash) :
    Quotable (reconstruct q a .address) := by
  refine quotable_plain (List.all_eq_true.2 fun c hc => ?_)
  have key : c ≠ quote ∧ c ≠ backslash := by
    have hsc : ∀ c ∈ scPrefix, c ≠ quote ∧ c ≠ backslash := by decide
    have had : ∀ c ∈ addrPrefix, c ≠ quote ∧ c ≠ backslash := by decide
    have hsh : ∀ c ∈ ([35] : Bytes), c ≠ quote ∧ c ≠ backslash := by decide
    have hb : ∀ b : UInt8, ∀ c ∈ hexByte b, c ≠ quote ∧ c ≠ backslash := by
      intro b c hc
      unfold hexByte at hc
      split at hc
      · refine hexEncode_plain [b] c ?_
        rename_i hlt
        rw [List.mem_singleton.1 hc]
        simp only [hexEncode, List.flatMap_cons, List.mem_append]
        have hb : b % 16 = b := by
          apply UInt8.toNat_inj.1
          have := UInt8.lt_iff_toNat_lt.1 hlt
          simp at this ⊢
          omega
        simp [hb]
      · exact hexEncode_plain [b] c hc
    unfold reconstruct addressPretty at hc
    rw [if_neg (by simp [hl])] at hc
    dsimp only at hc
    split at hc
    · split at hc
      · rcases List.mem_append.1 hc with hc | hc
        · exact hsc c hc
        · exact ha c (List.mem_of_mem_drop (trimRight_mem hc))
      · simp only [List.mem_append, or_assoc] at hc
        rcases hc with hc | hc | hc | hc
        · exact hsc c hc
        · exact ha c (List.mem_of_mem_take (List.mem_of_mem_drop (trimRight_mem hc)))
        · exact hsh c hc
        · exact hb _ c hc
    · split at hc
      · rcases List.mem_append.1 hc with hc | hc
        · exact had c hc
        · exact ha c (trimRight_mem hc)
      · simp only [List.mem_append, or_assoc] at hc
        rcases hc with hc | hc | hc | hc
        · exact had c hc
        · exact ha c (List.mem_of_mem_take (trimRight_mem hc))
        · exact hsh c hc
        · exact hexEncode_plain _ c hc
  simp [key.1, key.2]

theorem number_text (I : Interpreter) (n : Nat) :
    parseBig I false (.str (reconstruct q (natToBytes n) .number)) = .ok ⟨some n, reconstruct q (natToBytes n) .number⟩ := by
  obtain ⟨b, h1, h2, _⟩ := c40_back_number_partial I q (natToBytes n)
  rw [bytesToNat_natToBytes] at h2
  simp only [parseBig, parseStr, Except.bind, h1, Except.map, h2]
  rfl

/-- **The dump of accounts without storage is a list of accounts of a scenario**: read again it gives the same addresses, nonces and
balances. Missing are accounts with storage, which cannot be read (`c83_storage_neg`), and with tokens. -/
theorem c83_back_partial (q : Bytes → Bytes) (C : TokenCodec) (I : Interpreter) (w : MockWorld)
    (hw : ∀ a acc, w.accts.get? a = some acc → NamedAddress a ∧ (∀ c ∈ a, c ≠ 34 ∧ c ≠ 92) ∧ 0 ≤ acc.balance ∧
      acc.storage = AMap.empty) :
    ∃ text j l, dumpWorld q C w = some text ∧ parseOrderedJson text = .ok (some j) ∧ parseAccounts I j = .ok l ∧
      l.map (fun x => (x.address.value, x.nonce.value, x.balance.value)) =
        w.accts.entries.map (fun e => (e.1, e.2.nonce, some e.2.balance)) := by
  let X : Addr × WAcc → JAccount := fun e =>
    { address := shownBytes q e.1 .address, nonce := shownU64 q e.2.nonce, balance := shownInt q e.2.balance }
  have hX : shownAccounts q C w.accts.entries = some (w.accts.entries.map X) := by
    have : ∀ l : List (Addr × WAcc), (∀ e ∈ l, e.2.storage = AMap.empty) → shownAccounts q C l = some (l.map X) := by
      intro l
      induction l with
      | nil => intro _; rfl
      | cons e l ih =>
        intro h
        have h1 : shownAccount q C e.1 e.2 = some (X e) := by
          unfold shownAccount
          rw [h e (.head _)]
          rfl
        simp only [shownAccounts, h1, ih (fun e he => h e (.tail _ he)), Option.map_some, List.map_cons]
    exact this _ (fun e he => (hw e.1 e.2 ((AMap.mem_entries_iff _ _ _).1 he)).2.2.2)
  have hback := accounts_back (I := I) (l := w.accts.entries.map X) (by
    intro x hx
    obtain ⟨e, he, rfl⟩ := List.mem_map.1 hx
    obtain ⟨h1, h2, h3, _⟩ := hw e.1 e.2 ((AMap.mem_entries_iff _ _ _).1 he)
    have hq := address_quotable (q := q) h1.1 h2
    have hi := (address_shows (q := q) e.1).1 I h1
    have hne : reconstruct q e.1 .address ≠ [] := fun h => by
      have := (address_text e.1).1 h
      rw [this] at h1
      exact absurd h1.1 (by decide)
    refine ⟨⟨⟨quotable_nil, ⟨?_, quotable_decimal _⟩, ⟨?_, quotable_decimal _⟩, bytesS_empty, fun _ h => (by cases h), List.nodup_nil,
      bytesS_empty, bytesS_empty, quotable_nil, fun _ h => (by cases h), List.nodup_nil⟩, ?_, hq, ?_⟩, ⟨rfl, fun _ => rfl, fun _ => rfl, fun _ h => by cases h⟩⟩
    · show parseU64 I (.str (reconstruct q (natToBytes e.2.nonce.toNat) .number)) = .ok (shownU64 q e.2.nonce)
      have hlt : (e.2.nonce.toNat : Int) < 2 ^ 64 := by
        have := e.2.nonce.toNat_lt
        omega
      simp only [parseU64, number_text, Except.bind]
      rw [if_pos ⟨by omega, hlt⟩]
      simp [shownU64]
    · show parseBig I false (.str (reconstruct q (natToBytes e.2.balance.natAbs) .number)) = .ok (shownInt q e.2.balance)
      rw [number_text, shownInt, Int.natAbs_of_nonneg h3]
    · show parseAddress I (reconstruct q e.1 .address) = .ok (shownBytes q e.1 .address)
      unfold parseAddress
      rw [if_neg hne, hi]
      simp only [Except.bind]
      rw [if_pos h1.1]
      rfl
    · exact shownBytes_text (address_text e.1).1) (by
    rw [List.map_map]
    have hn := w.accts.nodup
    rw [List.Nodup, List.pairwise_map] at hn ⊢
    refine List.Pairwise.imp_of_mem (fun {a b} ha hb hab e => hab ?_) hn
    have h1 := (address_shows (q := q) a.1).1 I (hw a.1 a.2 ((AMap.mem_entries_iff _ _ _).1 ha)).1
    have h2 := (address_shows (q := q) b.1).1 I (hw b.1 b.2 ((AMap.mem_entries_iff _ _ _).1 hb)).1
    rw [show reconstruct q a.1 .address = reconstruct q b.1 .address from e, h2] at h1
    injection h1 with h1
    exact h1.symm)
  obtain ⟨j, e, hp, hpr⟩ := hback
  have hj : ∀ b, j ≠ .bool b := by
    rintro b rfl
    cases hp
  refine ⟨jsonString j, j, _, by rw [dumpWorld, dumpTree, hX]; simp [e], c39_roundtrip j hpr hj, hp, ?_⟩
  rw [List.map_map]
  rfl

/-! ### Examples -/

/-- non-vacuity of `c83_all_partial`: an account with storage and tokens of several kinds -/
example : ∀ a acc, richWorld.accts.get? a = some acc → NamedAddress a ∧ ReadableTokens Toy.codec acc.storage := by
  intro a acc h
  have h1 : richWorld.accts.entries.all (fun e => decide (e.1 = userAddr) && (fullTokens Toy.codec e.2.storage).isSome) = true := by
    decide +kernel
  have h2 := List.all_eq_true.1 h1 _ ((AMap.mem_entries_iff _ _ _).2 h)
  simp only [Bool.and_eq_true, decide_eq_true_eq] at h2
  obtain ⟨m, hm⟩ := Option.isSome_iff_exists.1 h2.2
  rw [h2.1]
  exact ⟨⟨by decide, by decide, by decide⟩, (fullTokens_some hm).1⟩

/-- a dump: `{"address:a": {"nonce": "5", "balance": "70", "storage": {"0x6b (str:k)": "0x02 (2)"}, "code": ""}}`, with line breaks -/
example : (dumpWorld id Toy.codec (noteWorld [2])).map (fun t => t.filter (fun c => c != 10 && c != 32)) = some
    [123, 34, 97, 100, 100, 114, 101, 115, 115, 58, 97, 34, 58, 123, 34, 110, 111, 110, 99, 101, 34, 58, 34, 53, 34, 44, 34, 98, 97,
     108, 97, 110, 99, 101, 34, 58, 34, 55, 48, 34, 44, 34, 115, 116, 111, 114, 97, 103, 101, 34, 58, 123, 34, 48, 120, 54, 98, 40, 115,
     116, 114, 58, 107, 41, 34, 58, 34, 48, 120, 48, 50, 40, 50, 41, 34, 125, 44, 34, 99, 111, 100, 101, 34, 58, 34, 34, 125, 125] := by
  decide +kernel

/-- the tokens of an account that cannot be read -/
example : dumpTree id Toy.codec (MockWorld.put {} userAddr { storage := AMap.empty.insert (makeTokenKey tok 0) [255] }) = none :=
  (c83_dump id Toy.codec _).1.2 ⟨userAddr, _, rfl, fun h => by
    obtain ⟨t, _, ht, _⟩ := (h (makeTokenKey tok 0) [255] (by decide +kernel) (by decide)).1 (by decide +kernel)
    have : Toy.codec.untoken [255] = none := by decide +kernel
    rw [this] at ht
    cases ht⟩

/-- non-vacuity of `c83_back_partial`: two accounts -/
example : ∀ a acc, (MockWorld.put (MockWorld.put {} userAddr { nonce := 3 }) (97 :: List.replicate 31 95) { balance := 8 }).accts.get? a = some acc →
    NamedAddress a ∧ (∀ c ∈ a, c ≠ 34 ∧ c ≠ 92) ∧ 0 ≤ acc.balance ∧ acc.storage = AMap.empty := by
  intro a acc h
  have hm := (AMap.mem_entries_iff _ _ _).2 h
  have e : (MockWorld.put (MockWorld.put {} userAddr { nonce := 3 }) (97 :: List.replicate 31 95) { balance := 8 }).accts.entries =
    [(userAddr, { nonce := 3 }), (97 :: List.replicate 31 95, { balance := 8 })] := by decide +kernel
  rw [e] at hm
  simp only [List.mem_cons, Prod.mk.injEq, List.not_mem_nil, or_false] at hm
  rcases hm with ⟨rfl, rfl⟩ | ⟨rfl, rfl⟩
  · exact ⟨⟨by decide, by decide, by decide⟩, by decide, by decide, rfl⟩
  · exact ⟨⟨by decide, by decide, by decide⟩, by decide, by decide, rfl⟩

end Arwen.Props
