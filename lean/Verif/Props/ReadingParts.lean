import Verif.Props.Reading
/-!
C73: what the parser makes of the objects of scenario files.
-/
namespace Arwen.Props
open Arwen.Mandos Arwen.Spec

variable {I : Interpreter}

/-- the loop over the keys of an object, by induction -/
theorem fields_iff {σ : Type} {f : Bytes → Json → σ → Parsed σ} (P : List (Bytes × Json) → σ → σ → Prop)
    (h0 : ∀ s x, P [] s x ↔ s = x)
    (h1 : ∀ k v l s x, Printable v → k ∉ l.map Prod.fst → (P ((k, v) :: l) s x ↔ ∃ s', f k v s = .ok s' ∧ P l s' x)) :
    ∀ l, Printable (.map l) → ∀ s x, fields f l s = .ok x ↔ P l s x := by
  intro l
  induction l with
  | nil => exact fun _ s x => by rw [fields, eok_iff, h0]
  | cons p l ih =>
    intro hp s x
    obtain ⟨k, v⟩ := p
    cases hp with
    | map hk hn hv =>
      rw [List.map_cons, List.nodup_cons] at hn
      have hl : Printable (.map l) := .map (fun q hq => hk q (List.mem_cons_of_mem _ hq)) hn.2 (fun q hq => hv q (List.mem_cons_of_mem _ hq))
      rw [h1 k v l s x (hv (k, v) List.mem_cons_self) hn.1, fields, ebind_iff]
      simp only [ih hl]

/-- a key that is none of the words is rejected, on both sides -/
theorem other_key {l : List (Bytes × Json)} {k : Bytes} {v : Json} {ws : List Word} {Q : Prop} {σ : Type} {P : σ → Prop}
    (h : ∀ w ∈ ws, Word.of? k ≠ some w) : (OnlyKeys ((k, v) :: l) ws ∧ Q ↔ ∃ s', (reject : Parsed σ) = .ok s' ∧ P s') :=
  ⟨fun hp => absurd hp.1 (onlyKeys_other h), fun ⟨_, e, _⟩ => by cases e⟩

/-- the empty object -/
macro "read_nil" ls:term : tactic => `(tactic| (intro s x; cases s; cases x; simp only [atKey_nil, onlyKeys_nil, true_and, $ls:term]; grind))

/-- one key of an object, and the values by these lemmas -/
syntax "read_key" ident "[" Lean.Parser.Tactic.simpLemma,* "]" : tactic
macro_rules
  | `(tactic| read_key $hk [$ls,*]) => `(tactic| (
      split
      all_goals first
        | (apply other_key
           simp only [List.mem_cons, List.not_mem_nil, or_false, forall_eq_or_imp, forall_eq]
           and_intros <;> assumption)
        | (rename_i hw
           rw [word_of hw] at $hk:ident ⊢
           rw [onlyKeys_cons (by simp)]
           simp (disch := simp) only [emap_iff, ebind_iff, eok_iff, atKey_self, atKey_other, atKey_absent $hk, $ls,*]
           grind)))

theorem txToken_iff {l : List (Bytes × Json)} (hl : Printable (.map l)) {x : JTxToken} : parseTxToken I (.map l) = .ok x ↔ SaysTxToken I l x := by
  refine (fields_iff (fun l (s x : JTxToken) => OnlyKeys l [.tokenIdentifier, .nonce, .value] ∧
      AtKey l .tokenIdentifier (SaysBytes I) s.name x.name ∧ AtKey l .nonce (IsU64 I) s.nonce x.nonce ∧
      AtKey l .value (IsAmount I) s.value x.value) ?_ ?_ l hl {} x).trans ?_
  · read_nil JTxToken.mk.injEq
  · intro k v l s x hv hk
    read_key hk [bytesS_iff, u64_iff, big_iff]
  · exact ⟨fun ⟨a, b, c, d⟩ => ⟨a, b, c, d⟩, fun ⟨a, b, c, d⟩ => ⟨a, b, c, d⟩⟩

/-! ### Tokens -/

/-- the fields of an instance that has been read in part -/
def InstanceFrom (I : Interpreter) (l : List (Bytes × Json)) (s x : JInstance) : Prop :=
  AtKey l .nonce (IsU64 I) s.nonce x.nonce ∧ AtKey l .balance (IsAmount I) s.balance x.balance ∧
  AtKey l .creator (fun j y => SaysBytes I j y ∧ y.value.length = 32) s.creator x.creator ∧
  AtKey l .royalties (fun j y => IsU64 I j y ∧ y.value.toNat ≤ 10000) s.royalties x.royalties ∧
  AtKey l .hash (SaysBytes I) s.hash x.hash ∧ AtKey l .uri (IsTree I) s.uri x.uri ∧ AtKey l .attributes (SaysBytes I) s.attributes x.attributes

theorem instanceFrom_iff {l : List (Bytes × Json)} {x : JInstance} : InstanceFrom I l {} x ↔ SaysInstance I l x :=
  ⟨fun ⟨a, b, c, d, e, f, g⟩ => ⟨a, b, c, d, e, f, g⟩, fun ⟨a, b, c, d, e, f, g⟩ => ⟨a, b, c, d, e, f, g⟩⟩

theorem guardOk_iff {α : Type} {c : Prop} [Decidable c] {a b : α} : (if c then .ok a else reject : Parsed α) = .ok b ↔ c ∧ a = b := by
  by_cases h : c
  · rw [if_pos h, eok_iff]
    simp [h]
  · rw [if_neg h, reject_iff]
    simp [h]

theorem royalties_iff {x : UInt64} : x ≤ 10000 ↔ x.toNat ≤ 10000 := UInt64.le_iff_toNat_le

/-- a key of an instance -/
theorem instance_key {w : Word} {v : Json} {l : List (Bytes × Json)} {s x : JInstance} (hw : w ∈ instanceKeys) (hk : w.text ∉ l.map Prod.fst) :
    InstanceFrom I ((w.text, v) :: l) s x ↔ ∃ s', instanceField I w.text v s = .ok (some s') ∧ InstanceFrom I l s' x := by
  unfold InstanceFrom instanceField
  rw [Word.of?_text]
  simp only [instanceKeys, List.mem_cons, List.not_mem_nil, or_false] at hw
  rcases hw with rfl | rfl | rfl | rfl | rfl | rfl | rfl
  all_goals
    simp (disch := simp) only [emap_iff, ebind_iff, guardOk_iff, atKey_self, atKey_other, atKey_absent hk, bytesS_iff, u64_iff, big_iff, bytesT_iff,
      royalties_iff, Option.some.injEq]
    grind

/-- another key -/
theorem instance_other {k : Bytes} {v : Json} {s : JInstance} (hw : ∀ w ∈ instanceKeys, Word.of? k ≠ some w) : instanceField I k v s = .ok none := by
  unfold instanceField
  split <;> first | rfl | (rename_i h; exact absurd h (hw _ (by simp [instanceKeys])))

theorem instance_other' {l : List (Bytes × Json)} {k : Bytes} {v : Json} {s x : JInstance} (hw : ∀ w ∈ instanceKeys, Word.of? k ≠ some w) :
    InstanceFrom I ((k, v) :: l) s x ↔ InstanceFrom I l s x := by
  have h : ∀ w ∈ instanceKeys, k ≠ w.text := fun w hm e => hw w hm (by rw [e, Word.of?_text])
  simp only [instanceKeys, List.mem_cons, List.not_mem_nil, or_false, forall_eq_or_imp, forall_eq] at h
  unfold InstanceFrom AtKey
  simp only [valueAt, h, if_false]

theorem instance_iff {j : Json} (hj : Printable j) {x : JInstance} : parseInstance I j = .ok x ↔ IsInstance I j x := by
  have h : ∀ l, Printable (.map l) → ((fields (fun k v s => (instanceField I k v s).bind fun r =>
      match r with
      | some s => .ok s
      | none => reject) l {} : Parsed JInstance) = .ok x ↔ OnlyKeys l instanceKeys ∧ SaysInstance I l x) := by
    intro l hl
    refine (fields_iff (fun l (s x : JInstance) => OnlyKeys l instanceKeys ∧ InstanceFrom I l s x) ?_ ?_ l hl {} x).trans
      (and_congr Iff.rfl instanceFrom_iff)
    · intro s x
      cases s; cases x
      simp only [InstanceFrom, atKey_nil, onlyKeys_nil, true_and, JInstance.mk.injEq]
      grind
    · intro k v l s x hv hk
      by_cases hw : ∃ w ∈ instanceKeys, k = w.text
      · obtain ⟨w, hw, rfl⟩ := hw
        rw [onlyKeys_cons hw, instance_key hw hk]
        simp only [ebind_iff]
        constructor
        · rintro ⟨h1, s', h2, h3⟩
          exact ⟨s', ⟨some s', h2, rfl⟩, h1, h3⟩
        · rintro ⟨s', ⟨r, h2, h4⟩, h1, h3⟩
          cases r with
          | none => cases h4
          | some r =>
            cases h4
            exact ⟨h1, _, h2, h3⟩
      · have hw : ∀ w ∈ instanceKeys, Word.of? k ≠ some w := fun w hm e => hw ⟨w, hm, word_of e⟩
        rw [instance_other hw]
        exact other_key hw
  unfold parseInstance IsInstance
  simp only [ebind_iff, asMap_iff]
  constructor
  · rintro ⟨l, rfl, h1⟩
    exact ⟨l, rfl, (h l hj).mp h1⟩
  · rintro ⟨l, rfl, h1⟩
    exact ⟨l, rfl, (h l hj).mpr h1⟩

/-- a token whose object has been read in part -/
def TokenFrom (I : Interpreter) (l : List (Bytes × Json)) (s x : TokenParts) : Prop :=
  OnlyKeys l (instanceKeys ++ [.instances, .lastNonce, .roles, .frozen]) ∧ InstanceFrom I l s.first x.first ∧
  (x.loaded = true ↔ s.loaded = true ∨ ∃ w ∈ instanceKeys, valueAt l w.text ≠ none) ∧
  AtKey l .instances (IsList (IsInstance I)) s.explicit x.explicit ∧
  AtKey l .lastNonce (IsU64 I) s.lastNonce x.lastNonce ∧ AtKey l .roles (IsList SaysText) s.roles x.roles ∧
  AtKey l .frozen (IsU64 I) s.frozen x.frozen

theorem given_here {w : Word} {v : Json} {l : List (Bytes × Json)} (hw : w ∈ instanceKeys) :
    ∃ u ∈ instanceKeys, valueAt ((w.text, v) :: l) u.text ≠ none := ⟨w, hw, by rw [valueAt, if_pos rfl]; simp⟩

theorem given_other {k : Bytes} {v : Json} {l : List (Bytes × Json)} (hw : ∀ w ∈ instanceKeys, Word.of? k ≠ some w) :
    (∃ u ∈ instanceKeys, valueAt ((k, v) :: l) u.text ≠ none) ↔ ∃ u ∈ instanceKeys, valueAt l u.text ≠ none := by
  have h : ∀ w ∈ instanceKeys, valueAt ((k, v) :: l) w.text = valueAt l w.text := by
    intro w hm
    rw [valueAt, if_neg]
    intro e
    exact hw w hm (by rw [e, Word.of?_text])
  constructor
  · rintro ⟨u, hu, h1⟩
    exact ⟨u, hu, by rw [h u hu] at h1; exact h1⟩
  · rintro ⟨u, hu, h1⟩
    exact ⟨u, hu, by rw [h u hu]; exact h1⟩

theorem instanceKeys_other {w : Word} (h : w ∉ instanceKeys) : ∀ u ∈ instanceKeys, Word.of? w.text ≠ some u := by
  intro u hu e
  rw [Word.of?_text] at e
  cases e
  exact h hu

theorem key_of_instance {w : Word} (hw : w ∈ instanceKeys) : w ≠ .instances ∧ w ≠ .lastNonce ∧ w ≠ .roles ∧ w ≠ .frozen := by
  simp only [instanceKeys, List.mem_cons, List.not_mem_nil, or_false] at hw
  rcases hw with rfl | rfl | rfl | rfl | rfl | rfl | rfl <;> simp

theorem tokenFields_iff (l : List (Bytes × Json)) (hl : Printable (.map l)) (s x : TokenParts) :
    fields (tokenField I) l s = .ok x ↔ TokenFrom I l s x := by
  refine fields_iff (TokenFrom I) ?_ ?_ l hl s x
  · intro s x
    cases s; cases x
    rename_i s1 s2 s3 s4 s5 s6 x1 x2 x3 x4 x5 x6
    cases s1; cases x1
    simp only [TokenFrom, InstanceFrom, atKey_nil, onlyKeys_nil, true_and, TokenParts.mk.injEq, JInstance.mk.injEq, valueAt]
    grind
  · intro k v l s x hv hk
    by_cases hw : ∃ w ∈ instanceKeys, k = w.text
    · obtain ⟨w, hw, rfl⟩ := hw
      obtain ⟨n1, n2, n3, n4⟩ := key_of_instance hw
      have hg := given_here (v := v) (l := l) hw
      have e : ∀ s', tokenField I w.text v s = .ok s' ↔ ∃ a, instanceField I w.text v s.first = .ok (some a) ∧ { s with first := a, loaded := true } = s' := by
        intro s'
        unfold tokenField
        rw [ebind_iff]
        constructor
        · rintro ⟨r, h1, h2⟩
          cases r with
          | some a => exact ⟨a, h1, by rw [← eok_iff]; exact h2⟩
          | none =>
            exfalso
            unfold instanceField at h1
            rw [Word.of?_text] at h1
            simp only [instanceKeys, List.mem_cons, List.not_mem_nil, or_false] at hw
            rcases hw with rfl | rfl | rfl | rfl | rfl | rfl | rfl <;>
              simp only [emap_iff, ebind_iff, guardOk_iff, reduceCtorEq, and_false, exists_false] at h1
        · rintro ⟨a, h1, rfl⟩
          exact ⟨some a, h1, rfl⟩
      unfold TokenFrom
      rw [onlyKeys_cons (List.mem_append_left _ hw), instance_key hw hk, atKey_other n1, atKey_other n2, atKey_other n3, atKey_other n4]
      simp only [e, hg, or_true, iff_true]
      constructor
      · rintro ⟨h1, ⟨a, h2, h3⟩, h4, h5, h6, h7, h8⟩
        exact ⟨_, ⟨a, h2, rfl⟩, h1, h3, by simp [h4], h5, h6, h7, h8⟩
      · rintro ⟨_, ⟨a, h2, rfl⟩, h1, h3, h4, h5, h6, h7, h8⟩
        exact ⟨h1, ⟨a, h2, h3⟩, by simpa using h4, h5, h6, h7, h8⟩
    · have hw : ∀ w ∈ instanceKeys, Word.of? k ≠ some w := fun w hm e => hw ⟨w, hm, word_of e⟩
      unfold TokenFrom
      rw [instance_other' hw, given_other hw]
      simp only [tokenField, instance_other hw, eok_bind]
      split
      all_goals first
        | (apply other_key
           grind)
        | (rename_i hu
           rw [word_of hu] at hk ⊢
           rw [onlyKeys_cons (by simp)]
           simp (disch := simp) only [emap_iff, atKey_self, atKey_other, atKey_absent hk, list_iff (fun _ h _ => instance_iff h) hv, u64_iff,
             strings_iff hv]
           grind)

theorem tokenMap_iff {l : List (Bytes × Json)} (hl : Printable (.map l)) {n : BytesS} {x : JToken} :
    parseToken I n (.map l) = .ok x ↔ x.name = n ∧ ∃ first further,
      OnlyKeys l (instanceKeys ++ [.instances, .lastNonce, .roles, .frozen]) ∧ SaysInstance I l first ∧
      AtKey l .instances (IsList (IsInstance I)) [] further ∧
      (((∃ w ∈ instanceKeys, valueAt l w.text ≠ none) ∧ x.instances = first :: further) ∨
        ((∀ w ∈ instanceKeys, valueAt l w.text = none) ∧ x.instances = further)) ∧
      AtKey l .lastNonce (IsU64 I) {} x.lastNonce ∧ AtKey l .roles (IsList SaysText) [] x.roles ∧ AtKey l .frozen (IsU64 I) {} x.frozen := by
  simp only [parseToken, emap_iff, tokenFields_iff l hl, TokenFrom]
  constructor
  · rintro ⟨t, ⟨h1, h2, h3, h4, h5, h6, h7⟩, rfl⟩
    refine ⟨rfl, t.first, t.explicit, h1, instanceFrom_iff.mp h2, h4, ?_, h5, h6, h7⟩
    by_cases hg : ∃ w ∈ instanceKeys, valueAt l w.text ≠ none
    · exact .inl ⟨hg, by simp [h3.mpr (.inr hg)]⟩
    · refine .inr ⟨fun w hw => ?_, ?_⟩
      · cases hv : valueAt l w.text with
        | none => rfl
        | some v => exact absurd ⟨w, hw, by rw [hv]; simp⟩ hg
      · have : ¬ t.loaded = true := fun e => by
          rcases h3.mp e with h | h
          · cases h
          · exact hg h
        simp [this]
  · rintro ⟨rfl, first, further, h1, h2, h4, h3, h5, h6, h7⟩
    rcases h3 with ⟨hg, e⟩ | ⟨hg, e⟩
    · refine ⟨{ first := first, loaded := true, explicit := further, lastNonce := x.lastNonce, roles := x.roles, frozen := x.frozen },
        ⟨h1, instanceFrom_iff.mpr h2, by simpa using hg, h4, h5, h6, h7⟩, ?_⟩
      cases x
      simp_all
    · refine ⟨{ first := first, loaded := false, explicit := further, lastNonce := x.lastNonce, roles := x.roles, frozen := x.frozen },
        ⟨h1, instanceFrom_iff.mpr h2, by simpa using hg, h4, h5, h6, h7⟩, ?_⟩
      cases x
      simp_all

theorem stands_iff {k : Bytes} {x : BytesS} : Stands I k x ↔ ∃ b, interpretString I k = .ok b ∧ x = { value := b, original := k } := by
  unfold Stands
  constructor
  · rintro ⟨h1, h2⟩
    exact ⟨x.value, h1, by rw [← h2]⟩
  · rintro ⟨b, h1, rfl⟩
    exact ⟨h1, rfl⟩

theorem token_iff {k : Bytes} {j : Json} (hj : Printable j) {x : JToken} : tokenEntry I k j = .ok x ↔ IsToken I k j x := by
  unfold tokenEntry IsToken
  rw [ebind_iff, stands_iff]
  cases j with
  | str s =>
    simp only [parseToken, emap_iff, big_iff, Json.str.injEq, reduceCtorEq, false_and, exists_false, or_false]
    constructor
    · rintro ⟨b, h1, c, h2, rfl⟩
      exact ⟨⟨b, h1, rfl⟩, s, c, rfl, h2, rfl⟩
    · rintro ⟨⟨b, h1, h3⟩, _, c, _, h2, h4⟩
      exact ⟨b, h1, c, h2, by rw [h4, h3]⟩
  | map l =>
    simp only [tokenMap_iff hj, reduceCtorEq, false_and, exists_false, false_or, Json.map.injEq]
    constructor
    · rintro ⟨b, h1, h2, first, further, h⟩
      exact ⟨⟨b, h1, h2⟩, l, first, further, rfl, h⟩
    · rintro ⟨⟨b, h1, h2⟩, _, first, further, rfl, h⟩
      exact ⟨b, h1, h2, first, further, h⟩
  | list l => simp [parseToken, reject]
  | bool b => simp [parseToken, reject]

/-! ### Checked tokens -/

/-- the fields of a checked instance that has been read in part -/
def ChkInstanceFrom (I : Interpreter) (l : List (Bytes × Json)) (s x : JChkInstance) : Prop :=
  AtKey l .nonce (IsChkU64 I) s.nonce x.nonce ∧ AtKey l .balance (IsChkInt I false) s.balance x.balance ∧
  AtKey l .creator (IsChkBytes I) s.creator x.creator ∧
  AtKey l .royalties (fun j y => IsChkU64 I j y ∧ y.value.toNat ≤ 10000) s.royalties x.royalties ∧
  AtKey l .hash (IsChkBytes I) s.hash x.hash ∧ AtKey l .uri (IsChkBytes I) s.uri x.uri ∧ AtKey l .attributes (IsChkBytes I) s.attributes x.attributes

theorem chkInstanceFrom_iff {l : List (Bytes × Json)} {x : JChkInstance} : ChkInstanceFrom I l .fresh x ↔ SaysChkInstance I l x :=
  ⟨fun ⟨a, b, c, d, e, f, g⟩ => ⟨a, b, c, d, e, f, g⟩, fun ⟨a, b, c, d, e, f, g⟩ => ⟨a, b, c, d, e, f, g⟩⟩

/-- a key of a checked instance -/
theorem chkInstance_key {w : Word} {v : Json} {l : List (Bytes × Json)} {s x : JChkInstance} (hw : w ∈ instanceKeys) (hk : w.text ∉ l.map Prod.fst) :
    ChkInstanceFrom I ((w.text, v) :: l) s x ↔ ∃ s', chkInstanceField I w.text v s = .ok (some s') ∧ ChkInstanceFrom I l s' x := by
  unfold ChkInstanceFrom chkInstanceField
  rw [Word.of?_text]
  simp only [instanceKeys, List.mem_cons, List.not_mem_nil, or_false] at hw
  rcases hw with rfl | rfl | rfl | rfl | rfl | rfl | rfl
  all_goals
    simp (disch := simp) only [emap_iff, ebind_iff, guardOk_iff, atKey_self, atKey_other, atKey_absent hk, chkU64_iff, chkInt_iff, chkBytes_iff,
      royalties_iff, Option.some.injEq]
    grind

/-- another key -/
theorem chkInstance_other {k : Bytes} {v : Json} {s : JChkInstance} (hw : ∀ w ∈ instanceKeys, Word.of? k ≠ some w) : chkInstanceField I k v s = .ok none := by
  unfold chkInstanceField
  split <;> first | rfl | (rename_i h; exact absurd h (hw _ (by simp [instanceKeys])))

theorem chkInstance_other' {l : List (Bytes × Json)} {k : Bytes} {v : Json} {s x : JChkInstance} (hw : ∀ w ∈ instanceKeys, Word.of? k ≠ some w) :
    ChkInstanceFrom I ((k, v) :: l) s x ↔ ChkInstanceFrom I l s x := by
  have h : ∀ w ∈ instanceKeys, k ≠ w.text := fun w hm e => hw w hm (by rw [e, Word.of?_text])
  simp only [instanceKeys, List.mem_cons, List.not_mem_nil, or_false, forall_eq_or_imp, forall_eq] at h
  unfold ChkInstanceFrom AtKey
  simp only [valueAt, h, if_false]

theorem chkInstance_iff {j : Json} (hj : Printable j) {x : JChkInstance} : parseChkInstance I j = .ok x ↔ IsChkInstance I j x := by
  have h : ∀ l, Printable (.map l) → ((fields (fun k v s => (chkInstanceField I k v s).bind fun r =>
      match r with
      | some s => .ok s
      | none => reject) l .fresh : Parsed JChkInstance) = .ok x ↔ OnlyKeys l instanceKeys ∧ SaysChkInstance I l x) := by
    intro l hl
    refine (fields_iff (fun l (s x : JChkInstance) => OnlyKeys l instanceKeys ∧ ChkInstanceFrom I l s x) ?_ ?_ l hl .fresh x).trans
      (and_congr Iff.rfl chkInstanceFrom_iff)
    · intro s x
      cases s; cases x
      simp only [ChkInstanceFrom, atKey_nil, onlyKeys_nil, true_and, JChkInstance.mk.injEq]
      grind
    · intro k v l s x hv hk
      by_cases hw : ∃ w ∈ instanceKeys, k = w.text
      · obtain ⟨w, hw, rfl⟩ := hw
        rw [onlyKeys_cons hw, chkInstance_key hw hk]
        simp only [ebind_iff]
        constructor
        · rintro ⟨h1, s', h2, h3⟩
          exact ⟨s', ⟨some s', h2, rfl⟩, h1, h3⟩
        · rintro ⟨s', ⟨r, h2, h4⟩, h1, h3⟩
          cases r with
          | none => cases h4
          | some r =>
            cases h4
            exact ⟨h1, _, h2, h3⟩
      · have hw : ∀ w ∈ instanceKeys, Word.of? k ≠ some w := fun w hm e => hw ⟨w, hm, word_of e⟩
        rw [chkInstance_other hw]
        exact other_key hw
  unfold parseChkInstance IsChkInstance
  simp only [ebind_iff, asMap_iff]
  constructor
  · rintro ⟨l, rfl, h1⟩
    exact ⟨l, rfl, (h l hj).mp h1⟩
  · rintro ⟨l, rfl, h1⟩
    exact ⟨l, rfl, (h l hj).mpr h1⟩

/-- a checked token whose object has been read in part -/
def ChkTokenFrom (I : Interpreter) (l : List (Bytes × Json)) (s x : ChkTokenParts) : Prop :=
  OnlyKeys l (instanceKeys ++ [.instances, .lastNonce, .roles, .frozen]) ∧ ChkInstanceFrom I l s.first x.first ∧
  (x.loaded = true ↔ s.loaded = true ∨ ∃ w ∈ instanceKeys, valueAt l w.text ≠ none) ∧
  AtKey l .instances (IsList (IsChkInstance I)) s.explicit x.explicit ∧
  AtKey l .lastNonce (IsChkU64 I) s.lastNonce x.lastNonce ∧ AtKey l .roles (IsList SaysText) s.roles x.roles ∧
  AtKey l .frozen (IsChkU64 I) s.frozen x.frozen

theorem chkTokenFields_iff (l : List (Bytes × Json)) (hl : Printable (.map l)) (s x : ChkTokenParts) :
    fields (chkTokenField I) l s = .ok x ↔ ChkTokenFrom I l s x := by
  refine fields_iff (ChkTokenFrom I) ?_ ?_ l hl s x
  · intro s x
    cases s; cases x
    rename_i s1 s2 s3 s4 s5 s6 x1 x2 x3 x4 x5 x6
    cases s1; cases x1
    simp only [ChkTokenFrom, ChkInstanceFrom, atKey_nil, onlyKeys_nil, true_and, ChkTokenParts.mk.injEq, JChkInstance.mk.injEq, valueAt]
    grind
  · intro k v l s x hv hk
    by_cases hw : ∃ w ∈ instanceKeys, k = w.text
    · obtain ⟨w, hw, rfl⟩ := hw
      obtain ⟨n1, n2, n3, n4⟩ := key_of_instance hw
      have hg := given_here (v := v) (l := l) hw
      have e : ∀ s', chkTokenField I w.text v s = .ok s' ↔ ∃ a, chkInstanceField I w.text v s.first = .ok (some a) ∧ { s with first := a, loaded := true } = s' := by
        intro s'
        unfold chkTokenField
        rw [ebind_iff]
        constructor
        · rintro ⟨r, h1, h2⟩
          cases r with
          | some a => exact ⟨a, h1, by rw [← eok_iff]; exact h2⟩
          | none =>
            exfalso
            unfold chkInstanceField at h1
            rw [Word.of?_text] at h1
            simp only [instanceKeys, List.mem_cons, List.not_mem_nil, or_false] at hw
            rcases hw with rfl | rfl | rfl | rfl | rfl | rfl | rfl <;>
              simp only [emap_iff, ebind_iff, guardOk_iff, reduceCtorEq, and_false, exists_false] at h1
        · rintro ⟨a, h1, rfl⟩
          exact ⟨some a, h1, rfl⟩
      unfold ChkTokenFrom
      rw [onlyKeys_cons (List.mem_append_left _ hw), chkInstance_key hw hk, atKey_other n1, atKey_other n2, atKey_other n3, atKey_other n4]
      simp only [e, hg, or_true, iff_true]
      constructor
      · rintro ⟨h1, ⟨a, h2, h3⟩, h4, h5, h6, h7, h8⟩
        exact ⟨_, ⟨a, h2, rfl⟩, h1, h3, by simp [h4], h5, h6, h7, h8⟩
      · rintro ⟨_, ⟨a, h2, rfl⟩, h1, h3, h4, h5, h6, h7, h8⟩
        exact ⟨h1, ⟨a, h2, h3⟩, by simpa using h4, h5, h6, h7, h8⟩
    · have hw : ∀ w ∈ instanceKeys, Word.of? k ≠ some w := fun w hm e => hw ⟨w, hm, word_of e⟩
      unfold ChkTokenFrom
      rw [chkInstance_other' hw, given_other hw]
      simp only [chkTokenField, chkInstance_other hw, eok_bind]
      split
      all_goals first
        | (apply other_key
           grind)
        | (rename_i hu
           rw [word_of hu] at hk ⊢
           rw [onlyKeys_cons (by simp)]
           simp (disch := simp) only [emap_iff, atKey_self, atKey_other, atKey_absent hk, list_iff (fun _ h _ => chkInstance_iff h) hv, chkU64_iff,
             strings_iff hv]
           grind)

theorem chkTokenMap_iff {l : List (Bytes × Json)} (hl : Printable (.map l)) {n : BytesS} {x : JChkToken} :
    parseChkToken I n (.map l) = .ok x ↔ x.name = n ∧ ∃ first further,
      OnlyKeys l (instanceKeys ++ [.instances, .lastNonce, .roles, .frozen]) ∧ SaysChkInstance I l first ∧
      AtKey l .instances (IsList (IsChkInstance I)) [] further ∧
      (((∃ w ∈ instanceKeys, valueAt l w.text ≠ none) ∧ x.instances = first :: further) ∨
        ((∀ w ∈ instanceKeys, valueAt l w.text = none) ∧ x.instances = further)) ∧
      AtKey l .lastNonce (IsChkU64 I) {} x.lastNonce ∧ AtKey l .roles (IsList SaysText) [] x.roles ∧ AtKey l .frozen (IsChkU64 I) {} x.frozen := by
  simp only [parseChkToken, emap_iff, chkTokenFields_iff l hl, ChkTokenFrom]
  constructor
  · rintro ⟨t, ⟨h1, h2, h3, h4, h5, h6, h7⟩, rfl⟩
    refine ⟨rfl, t.first, t.explicit, h1, chkInstanceFrom_iff.mp h2, h4, ?_, h5, h6, h7⟩
    by_cases hg : ∃ w ∈ instanceKeys, valueAt l w.text ≠ none
    · exact .inl ⟨hg, by simp [h3.mpr (.inr hg)]⟩
    · refine .inr ⟨fun w hw => ?_, ?_⟩
      · cases hv : valueAt l w.text with
        | none => rfl
        | some v => exact absurd ⟨w, hw, by rw [hv]; simp⟩ hg
      · have : ¬ t.loaded = true := fun e => by
          rcases h3.mp e with h | h
          · cases h
          · exact hg h
        simp [this]
  · rintro ⟨rfl, first, further, h1, h2, h4, h3, h5, h6, h7⟩
    rcases h3 with ⟨hg, e⟩ | ⟨hg, e⟩
    · refine ⟨{ first := first, loaded := true, explicit := further, lastNonce := x.lastNonce, roles := x.roles, frozen := x.frozen },
        ⟨h1, chkInstanceFrom_iff.mpr h2, by simpa using hg, h4, h5, h6, h7⟩, ?_⟩
      cases x
      simp_all
    · refine ⟨{ first := first, loaded := false, explicit := further, lastNonce := x.lastNonce, roles := x.roles, frozen := x.frozen },
        ⟨h1, chkInstanceFrom_iff.mpr h2, by simpa using hg, h4, h5, h6, h7⟩, ?_⟩
      cases x
      simp_all

theorem chkToken_iff {k : Bytes} {j : Json} (hj : Printable j) {x : JChkToken} : chkTokenEntry I k j = .ok x ↔ IsChkToken I k j x := by
  unfold chkTokenEntry IsChkToken
  rw [ebind_iff, stands_iff]
  cases j with
  | str s =>
    simp only [parseChkToken, emap_iff, chkInt_iff, Json.str.injEq, reduceCtorEq, false_and, exists_false, or_false]
    constructor
    · rintro ⟨b, h1, c, h2, rfl⟩
      exact ⟨⟨b, h1, rfl⟩, s, c, rfl, h2, rfl⟩
    · rintro ⟨⟨b, h1, h3⟩, _, c, _, h2, h4⟩
      exact ⟨b, h1, c, h2, by rw [h4, h3]⟩
  | map l =>
    simp only [chkTokenMap_iff hj, reduceCtorEq, false_and, exists_false, false_or, Json.map.injEq]
    constructor
    · rintro ⟨b, h1, h2, first, further, h⟩
      exact ⟨⟨b, h1, h2⟩, l, first, further, rfl, h⟩
    · rintro ⟨⟨b, h1, h2⟩, _, first, further, rfl, h⟩
      exact ⟨b, h1, h2, first, further, h⟩
  | list l => simp [parseChkToken, reject]
  | bool b => simp [parseChkToken, reject]

end Arwen.Props
