import Verif.Props.RewriteParts
/-!
Tokens of scenarios are read back as they were written.
-/
namespace Arwen.Props
open Arwen.Mandos Arwen.Spec

variable {I : Interpreter}

/-! ### Tokens of accounts -/

/-- what the parser makes of an instance -/
structure WInstance (I : Interpreter) (x : JInstance) : Prop where
  nonce : Text (parseU64 I) x.nonce x.nonce.original
  balance : x.balance = {} ∨ Text (parseBig I false) x.balance x.balance.original
  creator : Text (parseBytesS I) x.creator x.creator.original
  creatorLength : x.creator.original ≠ [] → x.creator.value.length = 32
  royalties : Text (parseU64 I) x.royalties x.royalties.original
  royaltiesMax : x.royalties.value ≤ 10000
  hash : Text (parseBytesS I) x.hash x.hash.original
  uri : x.uri = {} ∨ Tree (parseBytesT I) x.uri x.uri.original
  attributes : Text (parseBytesS I) x.attributes x.attributes.original

theorem winstance_fresh : WInstance I {} :=
  ⟨u64_zero, .inl rfl, bytesS_empty, fun h => absurd rfl h, u64_zero, by decide, bytesS_empty, .inl rfl, bytesS_empty⟩

theorem winstance_field {k : Bytes} {v : Json} {s s' : JInstance} (hv : Printable v) (hs : WInstance I s)
    (h : instanceField I k v s = .ok (some s')) : WInstance I s' := by
  unfold instanceField at h
  split at h
  · obtain ⟨x, hx, e⟩ := map_ok h
    cases e
    exact { hs with nonce := u64_inv hv hx }
  · obtain ⟨x, hx, e⟩ := map_ok h
    cases e
    exact { hs with balance := .inr (big_inv hv hx) }
  · obtain ⟨x, hx, e⟩ := ebind_ok h
    split at e
    · rename_i hl
      cases e
      exact { hs with creator := bytesS_inv hv hx, creatorLength := fun _ => hl }
    · cases e
  · obtain ⟨x, hx, e⟩ := ebind_ok h
    split at e
    · rename_i hl
      cases e
      exact { hs with royalties := u64_inv hv hx, royaltiesMax := hl }
    · cases e
  · obtain ⟨x, hx, e⟩ := map_ok h
    cases e
    exact { hs with hash := bytesS_inv hv hx }
  · obtain ⟨x, hx, e⟩ := map_ok h
    cases e
    exact { hs with uri := .inr (bytesT_inv hv hx) }
  · obtain ⟨x, hx, e⟩ := map_ok h
    cases e
    exact { hs with attributes := bytesS_inv hv hx }
  · cases h

theorem winstance_parse {j : Json} {x : JInstance} (hj : Printable j) (h : parseInstance I j = .ok x) : WInstance I x := by
  obtain ⟨l, hl, h⟩ := ebind_ok h
  rw [asMap_ok hl] at hj
  refine fields_inv (P := WInstance I) ?_ (printable_map hj) winstance_fresh h
  intro k v s s' _ hv hs h
  obtain ⟨r, hr, h⟩ := ebind_ok h
  cases r with
  | none => cases h
  | some t =>
    cases h
    exact winstance_field hv hs hr

section
variable {σ : Type} {f : Bytes → Json → σ → Parsed σ} {init : σ} {emb : JInstance → Bool → σ}

theorem built_field (hemb : ∀ k v i i' b, instanceField I k v i = .ok (some i') → f k v (emb i b) = .ok (emb i' true))
    {m : Option Pairs} {i : JInstance} {b : Bool} {ks : List Word} (h : Built f init m (emb i b) ks) {α : Type} {p : Json → Parsed α} {a : α}
    {v : Option Json} {c : Bool} (w : Word) (i' : JInstance) (hv : c = true → Back p v a)
    (hf : c = true → ∀ j, p j = .ok a → instanceField I w.text j i = .ok (some i')) (hc : c = false → i = i') (hw : w ∉ ks := by decide) :
    Built f init (putIf c w v m) (emb i' (b || c)) (w :: ks) := by
  refine built_putIf h w _ hv ?_ ?_ hw
  · intro e j hj
    rw [e, Bool.or_true]
    exact hemb _ _ _ _ _ (hf e j hj)
  · intro e
    rw [e, Bool.or_false, hc e]

theorem instance_built (hemb : ∀ k v i i' b, instanceField I k v i = .ok (some i') → f k v (emb i b) = .ok (emb i' true))
    {x : JInstance} (hx : WInstance I x) (hk : KeptInstance x) (h0 : Built f init (some []) (emb {} false) []) :
    ∃ b, Built f init (x.append (some [])) (emb x b) [.attributes, .uri, .hash, .royalties, .creator, .balance, .nonce] ∧
      (x ≠ {} → b = true) := by
  have h1 := built_field hemb h0 (c := decide (x.nonce.original ≠ [])) (v := x.nonce.json) .nonce { nonce := x.nonce }
    (fun _ => u64_back hx.nonce) (fun _ j h => by simp only [instanceField, Word.of?_text, h]; rfl)
    (fun e => by rw [u64_value hx.nonce (by simpa using e)])
  have hbal : decide (x.balance.original ≠ []) = false → x.balance = {} := by
    intro e
    have e : x.balance.original = [] := by simpa using e
    have := hk.balance e
    rcases hx.balance with h | h
    · exact h
    · exact absurd this (big_some h)
  have h2 := built_field hemb h1 (c := decide (x.balance.original ≠ [])) (v := x.balance.json) .balance
    { nonce := x.nonce, balance := x.balance }
    (fun e => by
      rcases hx.balance with h | h
      · rw [h] at e; simp at e
      · exact big_back h)
    (fun _ j h => by simp only [instanceField, Word.of?_text, h]; rfl)
    (fun e => by rw [hbal e])
  have h3 := built_field hemb h2 (c := decide (x.creator.original ≠ [])) (v := x.creator.json) .creator
    { nonce := x.nonce, balance := x.balance, creator := x.creator } (fun _ => bytesS_back hx.creator)
    (fun e j h => by
      simp only [instanceField, Word.of?_text, h, Except.bind]
      rw [if_pos (hx.creatorLength (by simpa using e))])
    (fun e => by rw [bytesS_value hx.creator (by simpa using e)])
  have h4 := built_field hemb h3 (c := decide (x.royalties.original ≠ [])) (v := x.royalties.json) .royalties
    { nonce := x.nonce, balance := x.balance, creator := x.creator, royalties := x.royalties } (fun _ => u64_back hx.royalties)
    (fun e j h => by
      simp only [instanceField, Word.of?_text, h, Except.bind]
      rw [if_pos hx.royaltiesMax])
    (fun e => by rw [u64_value hx.royalties (by simpa using e)])
  have h5 := built_field hemb h4 (c := decide (x.hash.original ≠ [])) (v := x.hash.json) .hash
    { nonce := x.nonce, balance := x.balance, creator := x.creator, royalties := x.royalties, hash := x.hash } (fun _ => bytesS_back hx.hash)
    (fun _ j h => by simp only [instanceField, Word.of?_text, h]; rfl)
    (fun e => by rw [bytesS_value hx.hash (by simpa using e)])
  have huri : decide (x.uri.value ≠ []) = false → x.uri = {} := by
    intro e
    have := hk.uri (by simpa using e)
    rcases hx.uri with h | ⟨j, h, _⟩
    · exact h
    · rw [this] at h
      cases h
  have h6 := built_field hemb h5 (c := decide (x.uri.value ≠ [])) (v := x.uri.json) .uri
    { nonce := x.nonce, balance := x.balance, creator := x.creator, royalties := x.royalties, hash := x.hash, uri := x.uri }
    (fun e => by
      rcases hx.uri with h | h
      · rw [h] at e; simp at e
      · exact bytesT_back h)
    (fun _ j h => by simp only [instanceField, Word.of?_text, h]; rfl)
    (fun e => by rw [huri e])
  have h7 := built_field hemb h6 (c := decide (x.attributes.original ≠ [])) (v := x.attributes.json) .attributes x
    (fun _ => bytesS_back hx.attributes)
    (fun _ j h => by simp only [instanceField, Word.of?_text, h]; rfl)
    (fun e => by
      have := bytesS_value hx.attributes (by simpa using e)
      cases x
      simp only at this
      rw [this])
  refine ⟨_, h7, ?_⟩
  intro hne
  refine Bool.not_eq_false _ |>.mp ?_
  intro e
  simp only [Bool.or_eq_false_iff] at e
  obtain ⟨⟨⟨⟨⟨⟨⟨_, e1⟩, e2⟩, e3⟩, e4⟩, e5⟩, e6⟩, e7⟩ := e
  refine hne ?_
  have a1 := u64_value hx.nonce (by simpa using e1)
  have a2 := hbal e2
  have a3 := bytesS_value hx.creator (by simpa using e3)
  have a4 := u64_value hx.royalties (by simpa using e4)
  have a5 := bytesS_value hx.hash (by simpa using e5)
  have a6 := huri e6
  have a7 := bytesS_value hx.attributes (by simpa using e7)
  cases x
  simp only at a1 a2 a3 a4 a5 a6 a7
  rw [a1, a2, a3, a4, a5, a6, a7]
end

theorem instance_back {x : JInstance} (hx : WInstance I x) (hk : KeptInstance x) :
    Back (parseInstance I) (done (x.append (some []))) x := by
  obtain ⟨b, h, _⟩ := instance_built (σ := JInstance) (emb := fun i _ => i)
    (f := fun k v s => (instanceField I k v s).bind fun r => match r with | some s => .ok s | none => reject) (init := {})
    (fun k v i i' b h => by simp only [h, Except.bind]) hx hk built_nil
  exact built_back h

/-- what the parser makes of a token -/
structure WToken (I : Interpreter) (x : JToken) : Prop where
  name : interpretString I x.name.original = .ok x.name.value
  quotable : Quotable x.name.original
  instances : ∀ i ∈ x.instances, WInstance I i
  lastNonce : Text (parseU64 I) x.lastNonce x.lastNonce.original
  roles : ∀ r ∈ x.roles, Quotable r
  frozen : Text (parseU64 I) x.frozen x.frozen.original

theorem wtoken_parse {k : Bytes} {j : Json} {x : JToken} (hk : Quotable k) (hj : Printable j) (h : tokenEntry I k j = .ok x) :
    WToken I x ∧ x.name.original = k := by
  obtain ⟨b, hb, h⟩ := ebind_ok h
  unfold parseToken at h
  split at h
  · obtain ⟨z, hz, h⟩ := map_ok h
    cases h
    refine ⟨⟨hb, hk, ?_, u64_zero, by simp, u64_zero⟩, rfl⟩
    intro i hi
    rw [List.mem_singleton.1 hi]
    exact { winstance_fresh with balance := .inr (big_inv hj hz) }
  · rename_i l
    obtain ⟨t, ht, h⟩ := map_ok h
    cases h
    have := fields_inv (P := fun s : TokenParts => WInstance I s.first ∧ (∀ i ∈ s.explicit, WInstance I i) ∧
        Text (parseU64 I) s.lastNonce s.lastNonce.original ∧ (∀ r ∈ s.roles, Quotable r) ∧ Text (parseU64 I) s.frozen s.frozen.original)
      (f := tokenField I) (by
        intro k v s s' _ hv ⟨p1, p2, p3, p4, p5⟩ h
        obtain ⟨r, hr, h⟩ := ebind_ok h
        cases r with
        | some y =>
          cases h
          exact ⟨winstance_field hv p1 hr, p2, p3, p4, p5⟩
        | none =>
          dsimp only at h
          split at h
          · obtain ⟨y, hy, h⟩ := map_ok h
            cases h
            exact ⟨p1, list_inv (fun _ _ hj h => winstance_parse hj h) hv hy, p3, p4, p5⟩
          · obtain ⟨y, hy, h⟩ := map_ok h
            cases h
            exact ⟨p1, p2, u64_inv hv hy, p4, p5⟩
          · obtain ⟨y, hy, h⟩ := map_ok h
            cases h
            exact ⟨p1, p2, p3, strings_inv hv hy, p5⟩
          · obtain ⟨y, hy, h⟩ := map_ok h
            cases h
            exact ⟨p1, p2, p3, p4, u64_inv hv hy⟩
          · cases h)
      (printable_map hj) ⟨winstance_fresh, by simp, u64_zero, by simp, u64_zero⟩ ht
    obtain ⟨p1, p2, p3, p4, p5⟩ := this
    refine ⟨⟨hb, hk, ?_, p3, p4, p5⟩, rfl⟩
    intro i hi
    rcases List.mem_append.1 hi with hi | hi
    · split at hi
      · rw [List.mem_singleton.1 hi]
        exact p1
      · simp at hi
    · exact p2 i hi
  · cases h

theorem compact_iff {x : JToken} : (∃ i, x.compact? = some i) ↔ PlainAmount x := by
  unfold JToken.compact? PlainAmount
  constructor
  · rintro ⟨i, h⟩
    split at h
    · rename_i i' e
      split at h
      · rename_i hc
        exact ⟨i', e, hc⟩
      · cases h
    · cases h
  · rintro ⟨i, e, hc⟩
    exact ⟨i, by rw [e]; dsimp only; rw [if_pos hc]⟩

theorem token_back {x : JToken} (hx : WToken I x) (hk : KeptToken x) : Back (tokenEntry I x.name.original) x.json x := by
  refine back_mono (p := parseToken I x.name) ?_ (fun j h => by simp only [tokenEntry, hx.name, Except.bind]; exact h)
  unfold JToken.json
  by_cases hp : PlainAmount x
  · obtain ⟨i, hi, hc⟩ := hp
    have hcomp : x.compact? = some i := by
      unfold JToken.compact?
      rw [hi]
      dsimp only
      rw [if_pos hc]
    obtain ⟨hl, h⟩ := hk.plain ⟨i, hi, hc⟩
    obtain ⟨h1, h2⟩ := h i (by rw [hi]; exact List.mem_cons_self ..)
    rw [hcomp]
    have hw := (hx.instances i (by rw [hi]; exact List.mem_cons_self ..)).balance
    rcases hw with hw | hw
    · rw [hw] at h2
      exact absurd rfl h2
    · refine ⟨.str i.balance.original, rfl, ?_, .str hw.2⟩
      unfold parseToken
      dsimp only
      rw [hw.1]
      have hf := u64_value hx.frozen hc.2.2
      show Except.ok ({ name := x.name, instances := [{ balance := i.balance }] } : JToken) = _
      rw [← h1, ← hi]
      cases x
      simp only at hl hf hc ⊢
      rw [hl, hf, hc.2.1]
  · have hcomp : x.compact? = none := by
      cases e : x.compact? with
      | none => rfl
      | some i => exact absurd (compact_iff.1 ⟨i, e⟩) hp
    rw [hcomp]
    obtain ⟨hne, hki⟩ := hk.full hp
    -- the instances
    have hinst : ∃ s : TokenParts, ∃ ks, Built (tokenField I) {} x.putInstances s ks ∧
        (if s.loaded then [s.first] else []) ++ s.explicit = x.instances ∧ s.lastNonce = {} ∧ s.roles = [] ∧ s.frozen = {} ∧
        Word.lastNonce ∉ ks ∧ Word.roles ∉ ks ∧ Word.frozen ∉ ks := by
      unfold JToken.putInstances
      split
      · rename_i i e
        obtain ⟨b, hb, hb2⟩ := instance_built (σ := TokenParts) (emb := fun i b => { first := i, loaded := b })
          (f := tokenField I) (init := {}) (fun k v i i' b h => by simp only [tokenField, h, Except.bind])
          (hx.instances i (by rw [e]; exact List.mem_cons_self ..)) (hki i (by rw [e]; exact List.mem_cons_self ..)) built_nil
        have hb3 := hb2 (fun c => hne (by rw [e, c]))
        refine ⟨_, _, hb, ?_, rfl, rfl, rfl, by decide, by decide, by decide⟩
        rw [hb3, e]
        rfl
      · rename_i l _
        have hl := listOf_back (p := parseInstance I) (g := fun i => done (JInstance.append i (some []))) (l := x.instances)
          (fun i hi => instance_back (hx.instances i hi) (hki i hi))
        refine ⟨{ explicit := x.instances }, _, built_put built_nil (f := tokenField I) (init := {}) .instances _ hl
          (fun j h => by simp only [tokenField, instanceField, Word.of?_text, Except.bind, Except.map] at h ⊢; simp only [h]),
          rfl, rfl, rfl, rfl, by decide, by decide, by decide⟩
    obtain ⟨s, ks, hb, hs1, hs2, hs3, hs4, n1, n2, n3⟩ := hinst
    have h1 := built_putIf hb (c := decide (x.lastNonce.original ≠ [])) (v := x.lastNonce.json) .lastNonce { s with lastNonce := x.lastNonce }
      (fun _ => u64_back hx.lastNonce)
      (fun _ j h => by simp only [tokenField, instanceField, Word.of?_text, Except.bind, h]; rfl)
      (fun e => by rw [u64_value hx.lastNonce (by simpa using e), ← hs2]) n1
    have h2 := built_putIf h1 (c := decide (x.roles ≠ [])) (v := listOf strJ x.roles) .roles
      { s with lastNonce := x.lastNonce, roles := x.roles }
      (fun _ => strings_back hx.roles)
      (fun _ j h => by simp only [tokenField, instanceField, Word.of?_text, Except.bind, h]; rfl)
      (fun e => by
        have e : x.roles = [] := by simpa using e
        rw [e, ← hs3])
      (by simp only [List.mem_cons, not_or]; exact ⟨by decide, n2⟩)
    have h3 := built_putIf h2 (c := decide (x.frozen.original ≠ [])) (v := x.frozen.json) .frozen
      { s with lastNonce := x.lastNonce, roles := x.roles, frozen := x.frozen }
      (fun _ => u64_back hx.frozen)
      (fun _ j h => by simp only [tokenField, instanceField, Word.of?_text, Except.bind, h]; rfl)
      (fun e => by rw [u64_value hx.frozen (by simpa using e), ← hs4])
      (by simp only [List.mem_cons, not_or]; exact ⟨by decide, by decide, n3⟩)
    obtain ⟨j, e1, e2, e3⟩ := built_back h3
    refine ⟨j, e1, ?_, e3⟩
    obtain ⟨l, hl, e2⟩ := ebind_ok e2
    rw [asMap_ok hl]
    unfold parseToken
    dsimp only
    rw [e2]
    show Except.ok _ = _
    dsimp only
    rw [hs1]

/-! ### Tokens of transactions -/

/-- what the parser makes of a transferred token -/
structure WTxToken (I : Interpreter) (x : JTxToken) : Prop where
  name : Text (parseBytesS I) x.name x.name.original
  nonce : Text (parseU64 I) x.nonce x.nonce.original
  value : x.value = {} ∨ Text (parseBig I false) x.value x.value.original

theorem wtxToken_parse {j : Json} {x : JTxToken} (hj : Printable j) (h : parseTxToken I j = .ok x) : WTxToken I x := by
  obtain ⟨l, hl, h⟩ := ebind_ok h
  rw [asMap_ok hl] at hj
  refine fields_inv (P := WTxToken I) ?_ (printable_map hj) ⟨bytesS_empty, u64_zero, .inl rfl⟩ h
  intro k v s s' _ hv hs h
  split at h
  · obtain ⟨y, hy, h⟩ := map_ok h
    cases h
    exact { hs with name := bytesS_inv hv hy }
  · obtain ⟨y, hy, h⟩ := map_ok h
    cases h
    exact { hs with nonce := u64_inv hv hy }
  · obtain ⟨y, hy, h⟩ := map_ok h
    cases h
    exact { hs with value := .inr (big_inv hv hy) }
  · cases h

theorem txToken_back {x : JTxToken} (hx : WTxToken I x) (hk : KeptTxToken x) : Back (parseTxToken I) x.json x := by
  have h1 := built_putIf (f := fun k v s =>
    match Word.of? k with
    | some .tokenIdentifier => (parseBytesS I v).map fun x => { s with name := x }
    | some .nonce => (parseU64 I v).map fun x => { s with nonce := x }
    | some .value => (parseBig I false v).map fun x => { s with value := x }
    | _ => reject) (init := ({} : JTxToken)) built_nil (c := decide (x.name.original ≠ [])) (v := x.name.json) .tokenIdentifier
    { name := x.name } (fun _ => bytesS_back hx.name) (fun _ j h => by simp only [Word.of?_text, h]; rfl)
    (fun e => by rw [bytesS_value hx.name (by simpa using e)])
  have h2 := built_putIf h1 (c := decide (x.nonce.original ≠ [])) (v := x.nonce.json) .nonce { name := x.name, nonce := x.nonce }
    (fun _ => u64_back hx.nonce) (fun _ j h => by simp only [Word.of?_text, h]; rfl)
    (fun e => by rw [u64_value hx.nonce (by simpa using e)])
  have h3 := built_putIf h2 (c := decide (x.value.original ≠ [])) (v := x.value.json) (a := x.value) (p := parseBig I false) .value x
    (fun e => by
      rcases hx.value with h | h
      · rw [h] at e; simp at e
      · exact big_back h)
    (fun _ j h => by simp only [Word.of?_text, h]; rfl)
    (fun e => by
      have e : x.value.original = [] := by simpa using e
      have := hk e
      rcases hx.value with h | h
      · cases x
        simp only at h
        rw [h]
      · exact absurd this (big_some h))
  exact built_back h3

/-! ### Checked tokens -/

/-- a check of a number is missing or was read -/
def ChkNumber (I : Interpreter) (x : ChkU64) : Prop := x = .missing ∨ (x.unspecified = false ∧ Text (parseChkU64 I) x x.original)

/-- a check of an amount is missing or was read -/
def ChkAmount (I : Interpreter) (b : Bool) (x : ChkInt) : Prop := x = .missing ∨ (x.unspecified = false ∧ Text (parseChkInt I b) x x.original)

/-- a check of bytes is missing or was read -/
def ChkData (I : Interpreter) (x : ChkBytes) : Prop := x = .missing ∨ (x.unspecified = false ∧ Tree (parseChkBytes I) x x.original)

/-- what the parser makes of a checked instance -/
structure WChkInstance (I : Interpreter) (x : JChkInstance) : Prop where
  nonce : ChkNumber I x.nonce
  balance : ChkAmount I false x.balance
  creator : x.creator = {} ∨ ChkData I x.creator
  royalties : ChkNumber I x.royalties
  royaltiesMax : x.royalties.value ≤ 10000
  hash : x.hash = {} ∨ ChkData I x.hash
  uri : x.uri = {} ∨ ChkData I x.uri
  attributes : x.attributes = {} ∨ ChkData I x.attributes

theorem wchkInstance_fresh : WChkInstance I .fresh :=
  ⟨.inl rfl, .inl rfl, .inr (.inl rfl), .inl rfl, by decide, .inr (.inl rfl), .inr (.inl rfl), .inr (.inl rfl)⟩

theorem wchkInstance_field {k : Bytes} {v : Json} {s s' : JChkInstance} (hv : Printable v) (hs : WChkInstance I s)
    (h : chkInstanceField I k v s = .ok (some s')) : WChkInstance I s' := by
  unfold chkInstanceField at h
  split at h
  · obtain ⟨x, hx, e⟩ := map_ok h
    cases e
    exact { hs with nonce := .inr (chkU64_inv hv hx) }
  · obtain ⟨x, hx, e⟩ := map_ok h
    cases e
    exact { hs with balance := .inr (chkInt_inv hv hx) }
  · obtain ⟨x, hx, e⟩ := map_ok h
    cases e
    exact { hs with creator := .inr (.inr (chkBytes_inv hv hx)) }
  · obtain ⟨x, hx, e⟩ := ebind_ok h
    split at e
    · rename_i hl
      cases e
      exact { hs with royalties := .inr (chkU64_inv hv hx), royaltiesMax := hl }
    · cases e
  · obtain ⟨x, hx, e⟩ := map_ok h
    cases e
    exact { hs with hash := .inr (.inr (chkBytes_inv hv hx)) }
  · obtain ⟨x, hx, e⟩ := map_ok h
    cases e
    exact { hs with uri := .inr (.inr (chkBytes_inv hv hx)) }
  · obtain ⟨x, hx, e⟩ := map_ok h
    cases e
    exact { hs with attributes := .inr (.inr (chkBytes_inv hv hx)) }
  · cases h

theorem wchkInstance_parse {j : Json} {x : JChkInstance} (hj : Printable j) (h : parseChkInstance I j = .ok x) : WChkInstance I x := by
  obtain ⟨l, hl, h⟩ := ebind_ok h
  rw [asMap_ok hl] at hj
  refine fields_inv (P := WChkInstance I) ?_ (printable_map hj) wchkInstance_fresh h
  intro k v s s' _ hv hs h
  obtain ⟨r, hr, h⟩ := ebind_ok h
  cases r with
  | none => cases h
  | some t =>
    cases h
    exact wchkInstance_field hv hs hr

section
variable {σ : Type} {f : Bytes → Json → σ → Parsed σ} {init : σ} {emb : JChkInstance → Bool → σ}

theorem built_chkField (hemb : ∀ k v i i' b, chkInstanceField I k v i = .ok (some i') → f k v (emb i b) = .ok (emb i' true))
    {m : Option Pairs} {i : JChkInstance} {b : Bool} {ks : List Word} (h : Built f init m (emb i b) ks) {α : Type} {p : Json → Parsed α} {a : α}
    {v : Option Json} {c : Bool} (w : Word) (i' : JChkInstance) (hv : c = true → Back p v a)
    (hf : c = true → ∀ j, p j = .ok a → chkInstanceField I w.text j i = .ok (some i')) (hc : c = false → i = i') (hw : w ∉ ks := by decide) :
    Built f init (putIf c w v m) (emb i' (b || c)) (w :: ks) := by
  refine built_putIf h w _ hv ?_ ?_ hw
  · intro e j hj
    rw [e, Bool.or_true]
    exact hemb _ _ _ _ _ (hf e j hj)
  · intro e
    rw [e, Bool.or_false, hc e]

theorem chkNumber_back {x : ChkU64} (h : ChkNumber I x) (h0 : x.original ≠ []) : Back (parseChkU64 I) x.json x := by
  rcases h with h | h
  · rw [h] at h0
    exact absurd rfl h0
  · exact chkU64_back h.2

theorem chkAmount_back {b : Bool} {x : ChkInt} (h : ChkAmount I b x) (h0 : x.original ≠ []) : Back (parseChkInt I b) x.json x := by
  rcases h with h | h
  · rw [h] at h0
    exact absurd rfl h0
  · exact chkInt_back h.2

theorem chkData_back {x : ChkBytes} (h : x = {} ∨ ChkData I x) (h0 : (!x.unspecified && decide (x.value ≠ [])) = true) :
    Back (parseChkBytes I) x.json x := by
  rcases h with h | h | h
  · rw [h] at h0
    simp at h0
  · rw [h] at h0
    simp [ChkBytes.missing] at h0
  · exact chkBytes_back h.2

theorem keptBytes_missing {x : ChkBytes} (h : x = {} ∨ ChkData I x) (hk : KeptBytes x)
    (h0 : (!x.unspecified && decide (x.value ≠ [])) = false) : x = .missing := by
  rcases hk with hk | hk
  · exact hk
  · rcases h with h | h | h
    · rw [h] at hk
      exact absurd rfl hk
    · exact h
    · rw [h.1] at h0
      simp [hk] at h0

theorem chkInstance_built (hemb : ∀ k v i i' b, chkInstanceField I k v i = .ok (some i') → f k v (emb i b) = .ok (emb i' true))
    {x : JChkInstance} (hx : WChkInstance I x) (hk : KeptChkInstance x) (h0 : Built f init (some []) (emb .fresh false) []) :
    ∃ b, Built f init (x.append (some [])) (emb x b) [.attributes, .uri, .hash, .royalties, .creator, .balance, .nonce] ∧
      (x ≠ .fresh → b = true) := by
  have n1 : decide (x.nonce.original ≠ []) = false → x.nonce = .missing := fun e => hk.nonce (by simpa using e)
  have n2 : decide (x.balance.original ≠ []) = false → x.balance = .missing := fun e => hk.balance (by simpa using e)
  have n3 := keptBytes_missing hx.creator hk.creator
  have n4 : (!x.royalties.unspecified && decide (x.royalties.original ≠ [])) = false → x.royalties = .missing := by
    intro e
    rcases hx.royalties with h | h
    · exact h
    · rw [h.1] at e
      exact hk.royalties (by simpa using e)
  have n5 := keptBytes_missing hx.hash hk.hash
  have n7 := keptBytes_missing hx.attributes hk.attributes
  have h1 := built_chkField hemb h0 (c := decide (x.nonce.original ≠ [])) (v := x.nonce.json) .nonce { JChkInstance.fresh with nonce := x.nonce }
    (fun e => chkNumber_back hx.nonce (by simpa using e)) (fun _ j h => by simp only [chkInstanceField, Word.of?_text, h]; rfl)
    (fun e => by rw [n1 e]; rfl)
  have h2 := built_chkField hemb h1 (c := decide (x.balance.original ≠ [])) (v := x.balance.json) .balance
    { JChkInstance.fresh with nonce := x.nonce, balance := x.balance }
    (fun e => chkAmount_back hx.balance (by simpa using e)) (fun _ j h => by simp only [chkInstanceField, Word.of?_text, h]; rfl)
    (fun e => by rw [n2 e]; rfl)
  have h3 := built_chkField hemb h2 (c := !x.creator.unspecified && decide (x.creator.value ≠ [])) (v := x.creator.json) .creator
    { JChkInstance.fresh with nonce := x.nonce, balance := x.balance, creator := x.creator }
    (fun e => chkData_back hx.creator e) (fun _ j h => by simp only [chkInstanceField, Word.of?_text, h]; rfl)
    (fun e => by rw [n3 e]; rfl)
  have h4 := built_chkField hemb h3 (c := !x.royalties.unspecified && decide (x.royalties.original ≠ [])) (v := x.royalties.json) .royalties
    { JChkInstance.fresh with nonce := x.nonce, balance := x.balance, creator := x.creator, royalties := x.royalties }
    (fun e => chkNumber_back hx.royalties (by simp at e; exact e.2))
    (fun e j h => by
      simp only [chkInstanceField, Word.of?_text, h, Except.bind]
      rw [if_pos hx.royaltiesMax])
    (fun e => by rw [n4 e]; rfl)
  have h5 := built_chkField hemb h4 (c := !x.hash.unspecified && decide (x.hash.value ≠ [])) (v := x.hash.json) .hash
    { JChkInstance.fresh with nonce := x.nonce, balance := x.balance, creator := x.creator, royalties := x.royalties, hash := x.hash }
    (fun e => chkData_back hx.hash e) (fun _ j h => by simp only [chkInstanceField, Word.of?_text, h]; rfl)
    (fun e => by rw [n5 e]; rfl)
  have u : (!x.uri.unspecified && decide (x.uri.value ≠ [])) = false := by
    rw [hk.uri]
    rfl
  have h6 := built_chkField hemb h5 (c := !x.uri.unspecified && decide (x.uri.value ≠ [])) (v := x.creator.json) (p := parseChkBytes I)
    (a := x.creator) .uri
    { JChkInstance.fresh with nonce := x.nonce, balance := x.balance, creator := x.creator, royalties := x.royalties, hash := x.hash }
    (fun e => by rw [u] at e; cases e) (fun e => by rw [u] at e; cases e)
    (fun e => rfl)
  have h7 := built_chkField hemb h6 (c := !x.attributes.unspecified && decide (x.attributes.value ≠ [])) (v := x.attributes.json) .attributes
    { JChkInstance.fresh with
      nonce := x.nonce, balance := x.balance, creator := x.creator, royalties := x.royalties, hash := x.hash, attributes := x.attributes }
    (fun e => chkData_back hx.attributes e) (fun _ j h => by simp only [chkInstanceField, Word.of?_text, h]; rfl)
    (fun e => by rw [n7 e]; rfl)
  have ex : ({ JChkInstance.fresh with
      nonce := x.nonce, balance := x.balance, creator := x.creator, royalties := x.royalties, hash := x.hash, attributes := x.attributes } :
      JChkInstance) = x := by
    have := hk.uri
    cases x
    simp only at this
    rw [this]
    rfl
  rw [ex] at h7
  refine ⟨_, h7, ?_⟩
  intro hne
  refine Bool.not_eq_false _ |>.mp ?_
  intro e
  rw [Bool.or_eq_false_iff, Bool.or_eq_false_iff, Bool.or_eq_false_iff, Bool.or_eq_false_iff, Bool.or_eq_false_iff, Bool.or_eq_false_iff] at e
  obtain ⟨⟨⟨⟨⟨⟨e1, e2⟩, e3⟩, e4⟩, e5⟩, e6⟩, e7⟩ := e
  refine hne ?_
  rw [← ex, n1 e1, n2 e2, n3 e3, n4 e4, n5 e5, n7 e7]
  rfl
end

theorem chkInstance_back {x : JChkInstance} (hx : WChkInstance I x) (hk : KeptChkInstance x) :
    Back (parseChkInstance I) (done (x.append (some []))) x := by
  obtain ⟨b, h, _⟩ := chkInstance_built (σ := JChkInstance) (emb := fun i _ => i)
    (f := fun k v s => (chkInstanceField I k v s).bind fun r => match r with | some s => .ok s | none => reject) (init := .fresh)
    (fun k v i i' b h => by simp only [h, Except.bind]) hx hk built_nil
  exact built_back h

/-- what the parser makes of a checked token -/
structure WChkToken (I : Interpreter) (x : JChkToken) : Prop where
  name : interpretString I x.name.original = .ok x.name.value
  quotable : Quotable x.name.original
  instances : ∀ i ∈ x.instances, WChkInstance I i
  lastNonce : Text (parseChkU64 I) x.lastNonce x.lastNonce.original
  roles : ∀ r ∈ x.roles, Quotable r
  frozen : Text (parseChkU64 I) x.frozen x.frozen.original

theorem wchkToken_parse {k : Bytes} {j : Json} {x : JChkToken} (hk : Quotable k) (hj : Printable j) (h : chkTokenEntry I k j = .ok x) :
    WChkToken I x ∧ x.name.original = k := by
  obtain ⟨b, hb, h⟩ := ebind_ok h
  unfold parseChkToken at h
  split at h
  · obtain ⟨z, hz, h⟩ := map_ok h
    cases h
    refine ⟨⟨hb, hk, ?_, chkU64_zero, by simp, chkU64_zero⟩, rfl⟩
    intro i hi
    rw [List.mem_singleton.1 hi]
    exact ⟨.inr ⟨rfl, chkU64_zero⟩, .inr (chkInt_inv hj hz), .inl rfl, .inr ⟨rfl, chkU64_zero⟩, by show (0 : UInt64) ≤ 10000; decide,
      .inl rfl, .inl rfl, .inl rfl⟩
  · rename_i l
    obtain ⟨t, ht, h⟩ := map_ok h
    cases h
    have := fields_inv (P := fun s : ChkTokenParts => WChkInstance I s.first ∧ (∀ i ∈ s.explicit, WChkInstance I i) ∧
        Text (parseChkU64 I) s.lastNonce s.lastNonce.original ∧ (∀ r ∈ s.roles, Quotable r) ∧
        Text (parseChkU64 I) s.frozen s.frozen.original)
      (f := chkTokenField I) (by
        intro k v s s' _ hv ⟨p1, p2, p3, p4, p5⟩ h
        obtain ⟨r, hr, h⟩ := ebind_ok h
        cases r with
        | some y =>
          cases h
          exact ⟨wchkInstance_field hv p1 hr, p2, p3, p4, p5⟩
        | none =>
          dsimp only at h
          split at h
          · obtain ⟨y, hy, h⟩ := map_ok h
            cases h
            exact ⟨p1, list_inv (fun _ _ hj h => wchkInstance_parse hj h) hv hy, p3, p4, p5⟩
          · obtain ⟨y, hy, h⟩ := map_ok h
            cases h
            exact ⟨p1, p2, (chkU64_inv hv hy).2, p4, p5⟩
          · obtain ⟨y, hy, h⟩ := map_ok h
            cases h
            exact ⟨p1, p2, p3, strings_inv hv hy, p5⟩
          · obtain ⟨y, hy, h⟩ := map_ok h
            cases h
            exact ⟨p1, p2, p3, p4, (chkU64_inv hv hy).2⟩
          · cases h)
      (printable_map hj) ⟨wchkInstance_fresh, by simp, chkU64_zero, by simp, chkU64_zero⟩ ht
    obtain ⟨p1, p2, p3, p4, p5⟩ := this
    refine ⟨⟨hb, hk, ?_, p3, p4, p5⟩, rfl⟩
    intro i hi
    rcases List.mem_append.1 hi with hi | hi
    · split at hi
      · rw [List.mem_singleton.1 hi]
        exact p1
      · simp at hi
    · exact p2 i hi
  · cases h

theorem chkCompact_iff {x : JChkToken} : (∃ i, x.compact? = some i) ↔ PlainChkAmount x := by
  unfold JChkToken.compact? PlainChkAmount
  constructor
  · rintro ⟨i, h⟩
    split at h
    · rename_i i' e
      split at h
      · rename_i hc
        exact ⟨i', e, hc⟩
      · cases h
    · cases h
  · rintro ⟨i, e, hc⟩
    exact ⟨i, by rw [e]; dsimp only; rw [if_pos hc]⟩

theorem chkToken_back {x : JChkToken} (hx : WChkToken I x) (hk : KeptChkToken x) : Back (chkTokenEntry I x.name.original) x.json x := by
  refine back_mono (p := parseChkToken I x.name) ?_ (fun j h => by simp only [chkTokenEntry, hx.name, Except.bind]; exact h)
  unfold JChkToken.json
  by_cases hp : PlainChkAmount x
  · obtain ⟨i, hi, hc⟩ := hp
    have hcomp : x.compact? = some i := by
      unfold JChkToken.compact?
      rw [hi]
      dsimp only
      rw [if_pos hc]
    obtain ⟨hl, h⟩ := hk.plain ⟨i, hi, hc⟩
    obtain ⟨h1, h2⟩ := h i (by rw [hi]; exact List.mem_cons_self ..)
    rw [hcomp]
    have hw := (hx.instances i (by rw [hi]; exact List.mem_cons_self ..)).balance
    rcases hw with hw | ⟨_, hw⟩
    · exact absurd hw h2
    · refine ⟨.str i.balance.original, rfl, ?_, .str hw.2⟩
      unfold parseChkToken
      dsimp only
      rw [hw.1]
      have hf := chkU64_value hx.frozen hc.2.2
      show Except.ok ({ name := x.name, instances := [{ balance := i.balance }] } : JChkToken) = _
      rw [← h1, ← hi]
      cases x
      simp only at hl hf hc ⊢
      rw [hl, hf, hc.2.1]
  · have hcomp : x.compact? = none := by
      cases e : x.compact? with
      | none => rfl
      | some i => exact absurd (chkCompact_iff.1 ⟨i, e⟩) hp
    rw [hcomp]
    obtain ⟨hne, hki⟩ := hk.full hp
    have hinst : ∃ s : ChkTokenParts, ∃ ks, Built (chkTokenField I) {} x.putInstances s ks ∧
        (if s.loaded then [s.first] else []) ++ s.explicit = x.instances ∧ s.lastNonce = {} ∧ s.roles = [] ∧ s.frozen = {} ∧
        Word.lastNonce ∉ ks ∧ Word.roles ∉ ks ∧ Word.frozen ∉ ks := by
      unfold JChkToken.putInstances
      split
      · rename_i i e
        obtain ⟨b, hb, hb2⟩ := chkInstance_built (σ := ChkTokenParts) (emb := fun i b => { first := i, loaded := b })
          (f := chkTokenField I) (init := {}) (fun k v i i' b h => by simp only [chkTokenField, h, Except.bind])
          (hx.instances i (by rw [e]; exact List.mem_cons_self ..)) (hki i (by rw [e]; exact List.mem_cons_self ..)) built_nil
        have hb3 := hb2 (fun c => hne (by rw [e, c]))
        refine ⟨_, _, hb, ?_, rfl, rfl, rfl, by decide, by decide, by decide⟩
        rw [hb3, e]
        rfl
      · rename_i l _
        have hl := listOf_back (p := parseChkInstance I) (g := fun i => done (JChkInstance.append i (some []))) (l := x.instances)
          (fun i hi => chkInstance_back (hx.instances i hi) (hki i hi))
        refine ⟨{ explicit := x.instances }, _, built_put built_nil (f := chkTokenField I) (init := {}) .instances _ hl
          (fun j h => by simp only [chkTokenField, chkInstanceField, Word.of?_text, Except.bind, Except.map] at h ⊢; simp only [h]),
          rfl, rfl, rfl, rfl, by decide, by decide, by decide⟩
    obtain ⟨s, ks, hb, hs1, hs2, hs3, hs4, n1, n2, n3⟩ := hinst
    have h1 := built_putIf hb (c := decide (x.lastNonce.original ≠ [])) (v := x.lastNonce.json) .lastNonce { s with lastNonce := x.lastNonce }
      (fun _ => chkU64_back hx.lastNonce)
      (fun _ j h => by simp only [chkTokenField, chkInstanceField, Word.of?_text, Except.bind, h]; rfl)
      (fun e => by rw [chkU64_value hx.lastNonce (by simpa using e), ← hs2]) n1
    have h2 := built_putIf h1 (c := decide (x.roles ≠ [])) (v := listOf strJ x.roles) .roles
      { s with lastNonce := x.lastNonce, roles := x.roles }
      (fun _ => strings_back hx.roles)
      (fun _ j h => by simp only [chkTokenField, chkInstanceField, Word.of?_text, Except.bind, h]; rfl)
      (fun e => by
        have e : x.roles = [] := by simpa using e
        rw [e, ← hs3])
      (by simp only [List.mem_cons, not_or]; exact ⟨by decide, n2⟩)
    have h3 := built_putIf h2 (c := decide (x.frozen.original ≠ [])) (v := x.frozen.json) .frozen
      { s with lastNonce := x.lastNonce, roles := x.roles, frozen := x.frozen }
      (fun _ => chkU64_back hx.frozen)
      (fun _ j h => by simp only [chkTokenField, chkInstanceField, Word.of?_text, Except.bind, h]; rfl)
      (fun e => by rw [chkU64_value hx.frozen (by simpa using e), ← hs4])
      (by simp only [List.mem_cons, not_or]; exact ⟨by decide, by decide, n3⟩)
    obtain ⟨j, e1, e2, e3⟩ := built_back h3
    refine ⟨j, e1, ?_, e3⟩
    obtain ⟨l, hl, e2⟩ := ebind_ok e2
    rw [asMap_ok hl]
    unfold parseChkToken
    dsimp only
    rw [e2]
    show Except.ok _ = _
    dsimp only
    rw [hs1]

end Arwen.Props
