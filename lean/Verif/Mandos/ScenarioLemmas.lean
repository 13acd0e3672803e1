import Verif.Mandos.ScenarioParse
import Verif.Mandos.ScenarioWrite
import Verif.Mandos.ExprLemmas
import Verif.Spec.Rewrite
/-!
Lemmas about reading and writing parts of scenarios.
-/
namespace Arwen.Mandos
open Arwen.Spec

theorem Word.of?_text (w : Word) : Word.of? w.text = some w := by cases w <;> rfl

theorem Word.text_inj {a b : Word} (h : a.text = b.text) : a = b := by
  have := Word.of?_text a
  rw [h, Word.of?_text] at this
  cases this
  rfl

theorem quotable_plain {s : Bytes} (h : s.all (fun c => c != quote && c != backslash) = true) : Quotable s := by
  rw [List.all_eq_true] at h
  constructor
  · intro a b e
    have := h quote (by rw [e]; simp)
    simp at this
  · rintro ⟨a, e⟩
    have := h backslash (by rw [e]; simp)
    simp at this

theorem quotable_word (w : Word) : Quotable w.text := quotable_plain (by cases w <;> rfl)

theorem quotable_nil : Quotable [] := quotable_plain rfl

/-! ### Results -/

theorem map_ok {α β : Type} {x : Parsed α} {f : α → β} {b : β} (h : x.map f = .ok b) : ∃ a, x = .ok a ∧ f a = b := by
  cases x with
  | error e => cases h
  | ok a => exact ⟨a, rfl, by injection h⟩

theorem ebind_ok {α β : Type} {x : Parsed α} {f : α → Parsed β} {b : β} (h : x.bind f = .ok b) : ∃ a, x = .ok a ∧ f a = .ok b := by
  cases x with
  | error e => cases h
  | ok a => exact ⟨a, rfl, h⟩

/-! ### Maps -/

/-- pairs that can be written -/
structure PairsOk (l : List (Bytes × Json)) : Prop where
  keys : ∀ p ∈ l, Quotable p.1
  nodup : (l.map Prod.fst).Nodup
  values : ∀ p ∈ l, Printable p.2

theorem pairsOk_nil : PairsOk [] := ⟨by simp, by simp, by simp⟩

theorem PairsOk.printable {l : List (Bytes × Json)} (h : PairsOk l) : Printable (.map l) := .map h.keys h.nodup h.values

theorem asMap_ok {j : Json} {l : List (Bytes × Json)} (h : asMap j = .ok l) : j = .map l := by
  cases j <;> simp only [asMap, reject] at h <;> cases h <;> rfl

theorem asList_ok {j : Json} {l : List Json} (h : asList j = .ok l) : j = .list l := by
  cases j <;> simp only [asList, reject] at h <;> cases h <;> rfl

theorem printable_map {l : List (Bytes × Json)} (h : Printable (.map l)) : PairsOk l := by
  cases h with
  | map hk hn hv => exact ⟨hk, hn, hv⟩

theorem printable_list {l : List Json} (h : Printable (.list l)) : ∀ x ∈ l, Printable x := by
  cases h with
  | list h => exact h

theorem printable_str {s : Bytes} (h : Printable (.str s)) : Quotable s := by
  cases h with
  | str h => exact h

theorem pairsOk_cons {k : Bytes} {v : Json} {l : List (Bytes × Json)} (h : PairsOk ((k, v) :: l)) :
    Quotable k ∧ Printable v ∧ k ∉ l.map Prod.fst ∧ PairsOk l := by
  obtain ⟨h1, h2, h3⟩ := h
  rw [List.map_cons, List.nodup_cons] at h2
  exact ⟨h1 (k, v) (List.mem_cons_self ..), h3 (k, v) (List.mem_cons_self ..), h2.1,
    ⟨fun p hp => h1 p (List.mem_cons_of_mem _ hp), h2.2, fun p hp => h3 p (List.mem_cons_of_mem _ hp)⟩⟩

theorem putKey_fresh {l : List (Bytes × Json)} {k : Bytes} {v : Json} (h : k ∉ l.map Prod.fst) : putKey l k v = l ++ [(k, v)] := by
  unfold putKey
  rw [if_neg]
  intro e
  rw [List.any_eq_true] at e
  obtain ⟨p, hp, e⟩ := e
  exact h (List.mem_map.2 ⟨p, hp, by simpa using e⟩)

theorem pairsOk_append {l : List (Bytes × Json)} {k : Bytes} {v : Json} (h : PairsOk l) (hf : k ∉ l.map Prod.fst) (hk : Quotable k)
    (hv : Printable v) : PairsOk (l ++ [(k, v)]) := by
  obtain ⟨h1, h2, h3⟩ := h
  refine ⟨?_, ?_, ?_⟩
  · intro p hp
    rcases List.mem_append.1 hp with hp | hp
    · exact h1 p hp
    · rw [List.mem_singleton.1 hp]
      exact hk
  · rw [List.map_append, List.nodup_append]
    refine ⟨h2, by simp, ?_⟩
    intro a ha b hb e
    simp only [List.map_cons, List.map_nil, List.mem_singleton] at hb
    rw [e, hb] at ha
    exact hf ha
  · intro p hp
    rcases List.mem_append.1 hp with hp | hp
    · exact h3 p hp
    · rw [List.mem_singleton.1 hp]
      exact hv

theorem fields_append {σ : Type} {f : Bytes → Json → σ → Parsed σ} {l : List (Bytes × Json)} {k : Bytes} {v : Json} {s : σ} :
    fields f (l ++ [(k, v)]) s = (fields f l s).bind (f k v) := by
  induction l generalizing s with
  | nil =>
    simp only [List.nil_append, fields]
    rw [show (Except.ok s : Parsed σ).bind (f k v) = f k v s from rfl]
    cases f k v s <;> rfl
  | cons p l ih =>
    obtain ⟨k', v'⟩ := p
    simp only [List.cons_append, fields]
    cases f k' v' s with
    | error e => rfl
    | ok a => exact ih

/-- what holds at the start and is kept by each field holds at the end -/
theorem fields_inv {σ : Type} {f : Bytes → Json → σ → Parsed σ} {P : σ → Prop}
    (hf : ∀ k v s s', Quotable k → Printable v → P s → f k v s = .ok s' → P s') {l : List (Bytes × Json)} {s s' : σ} (hl : PairsOk l)
    (h0 : P s) (h : fields f l s = .ok s') : P s' := by
  induction l generalizing s with
  | nil => injection h with h; rw [← h]; exact h0
  | cons p l ih =>
    obtain ⟨k, v⟩ := p
    obtain ⟨hk, hv, _, hl⟩ := pairsOk_cons hl
    obtain ⟨a, ha, h⟩ := ebind_ok h
    exact ih hl (hf k v s a hk hv h0 ha) h

/-- what holds until a key is met, and what holds from then on, if the key is met once only -/
theorem fields_once {σ : Type} {f : Bytes → Json → σ → Parsed σ} {P Q : σ → Prop} (K : Bytes)
    (hp : ∀ k v s s', k ≠ K → Printable v → P s → f k v s = .ok s' → P s') (hk : ∀ v s s', Printable v → P s → f K v s = .ok s' → Q s')
    (hq : ∀ k v s s', k ≠ K → Printable v → Q s → f k v s = .ok s' → Q s') {l : List (Bytes × Json)} {s s' : σ} (hl : PairsOk l)
    (h0 : P s) (h : fields f l s = .ok s') : P s' ∨ Q s' := by
  have key : ∀ (l : List (Bytes × Json)) (s s' : σ), PairsOk l → K ∉ l.map Prod.fst → Q s → fields f l s = .ok s' → Q s' := by
    intro l
    induction l with
    | nil => intro s s' _ _ h0 h; injection h with h; rw [← h]; exact h0
    | cons p l ih =>
      intro s s' hl hn h0 h
      obtain ⟨k, v⟩ := p
      obtain ⟨_, hv, _, hl⟩ := pairsOk_cons hl
      obtain ⟨a, ha, h⟩ := ebind_ok h
      rw [List.map_cons, List.mem_cons, not_or] at hn
      exact ih a s' hl hn.2 (hq k v s a (fun e => hn.1 e.symm) hv h0 ha) h
  induction l generalizing s with
  | nil => injection h with h; rw [← h]; exact .inl h0
  | cons p l ih =>
    obtain ⟨k, v⟩ := p
    obtain ⟨_, hv, hn, hl⟩ := pairsOk_cons hl
    obtain ⟨a, ha, h⟩ := ebind_ok h
    by_cases e : k = K
    · subst e
      exact .inr (key l a s' hl hn (hk v s a hv h0 ha) h)
    · exact ih hl (hp k v s a e hv h0 ha) h

theorem elements_inv {α : Type} {f : Json → Parsed α} {P : α → Prop} (hf : ∀ j a, Printable j → f j = .ok a → P a) {l : List Json}
    (hl : ∀ x ∈ l, Printable x) {r : List α} (h : elements f l = .ok r) : ∀ a ∈ r, P a := by
  induction l generalizing r with
  | nil => injection h with h; rw [← h]; simp
  | cons j l ih =>
    obtain ⟨a, ha, h⟩ := ebind_ok h
    obtain ⟨t, ht, h⟩ := map_ok h
    rw [← h]
    intro b hb
    rcases List.mem_cons.1 hb with rfl | hb
    · exact hf j b (hl j (List.mem_cons_self ..)) ha
    · exact ih (fun x hx => hl x (List.mem_cons_of_mem _ hx)) ht b hb

theorem list_inv {α : Type} {f : Json → Parsed α} {P : α → Prop} (hf : ∀ j a, Printable j → f j = .ok a → P a) {j : Json}
    (hj : Printable j) {r : List α} (h : (asList j).bind (elements f) = .ok r) : ∀ a ∈ r, P a := by
  obtain ⟨l, hl, h⟩ := ebind_ok h
  rw [asList_ok hl] at hj
  exact elements_inv hf (printable_list hj) h

theorem entries_inv {α : Type} {f : Bytes → Json → Parsed α} {P : α → Prop} {key : α → Bytes}
    (hf : ∀ k j a, Quotable k → Printable j → f k j = .ok a → P a ∧ key a = k) {l : List (Bytes × Json)} (hl : PairsOk l) {r : List α}
    (h : entries f l = .ok r) : (∀ a ∈ r, P a) ∧ r.map key = l.map Prod.fst := by
  induction l generalizing r with
  | nil => injection h with h; rw [← h]; simp
  | cons p l ih =>
    obtain ⟨k, v⟩ := p
    obtain ⟨a, ha, h⟩ := ebind_ok h
    obtain ⟨t, ht, h⟩ := map_ok h
    obtain ⟨hk, hv, _, hl⟩ := pairsOk_cons hl
    obtain ⟨h1, h2⟩ := hf k v a hk hv ha
    obtain ⟨h3, h4⟩ := ih hl ht
    rw [← h]
    refine ⟨?_, by rw [List.map_cons, List.map_cons, h2, h4]⟩
    intro b hb
    rcases List.mem_cons.1 hb with rfl | hb
    · exact h1
    · exact h3 b hb

theorem plusEntries_inv {α : Type} {f : Bytes → Json → Parsed α} {P : α → Prop} {key : α → Bytes}
    (hf : ∀ k j a, Quotable k → Printable j → f k j = .ok a → P a ∧ key a = k) {l : List (Bytes × Json)} (hl : PairsOk l)
    {s r : Bool × List α} (hs : ∀ a ∈ s.2, P a) (h : plusEntries f l s = .ok r) :
    (∀ a ∈ r.2, P a) ∧ ∃ ks, r.2.map key = s.2.map key ++ ks ∧ ks.Nodup ∧ plusText ∉ ks ∧ ∀ k ∈ ks, k ∈ l.map Prod.fst := by
  induction l generalizing s with
  | nil =>
    injection h with h
    rw [← h]
    exact ⟨hs, [], by simp⟩
  | cons p l ih =>
    obtain ⟨k, v⟩ := p
    obtain ⟨hk, hv, hn, hl⟩ := pairsOk_cons hl
    by_cases e : k = plusText
    · rw [plusEntries, if_pos e] at h
      obtain ⟨h1, ks, h2, h3, h4, h5⟩ := ih hl (s := (true, s.2)) hs h
      exact ⟨h1, ks, h2, h3, h4, fun x hx => List.mem_cons_of_mem _ (h5 x hx)⟩
    · rw [plusEntries, if_neg e] at h
      obtain ⟨a, ha, h⟩ := ebind_ok h
      obtain ⟨h6, h7⟩ := hf k v a hk hv ha
      obtain ⟨h1, ks, h2, h3, h4, h5⟩ := ih hl (s := (s.1, s.2 ++ [a])) (by
        intro b hb
        rcases List.mem_append.1 hb with hb | hb
        · exact hs b hb
        · rw [List.mem_singleton.1 hb]
          exact h6) h
      refine ⟨h1, k :: ks, ?_, ?_, ?_, ?_⟩
      · rw [h2, List.map_append, List.map_cons, List.map_nil, h7]
        simp
      · exact List.nodup_cons.2 ⟨fun hx => hn (h5 k hx), h3⟩
      · intro hx
        rcases List.mem_cons.1 hx with hx | hx
        · exact e hx.symm
        · exact h4 hx
      · intro x hx
        rcases List.mem_cons.1 hx with rfl | hx
        · exact List.mem_cons_self ..
        · exact List.mem_cons_of_mem _ (h5 x hx)

/-! ### Writing and reading back -/

/-- what is written can be printed and is read back as `x` -/
def Back {α : Type} (p : Json → Parsed α) (v : Option Json) (x : α) : Prop := ∃ j, v = some j ∧ p j = .ok x ∧ Printable j

/-- a map under construction: the keys put so far, and what they are read as -/
def Built {σ : Type} (f : Bytes → Json → σ → Parsed σ) (init : σ) (m : Option Pairs) (s : σ) (ks : List Word) : Prop :=
  ∃ l, m = some l ∧ fields f l init = .ok s ∧ PairsOk l ∧ ∀ k ∈ l.map Prod.fst, ∃ w ∈ ks, k = w.text

section
variable {σ : Type} {f : Bytes → Json → σ → Parsed σ} {init : σ}

theorem built_nil : Built f init (some []) init [] := ⟨[], rfl, rfl, pairsOk_nil, by simp⟩

theorem built_put {m : Option Pairs} {s : σ} {ks : List Word} (h : Built f init m s ks) {α : Type} {p : Json → Parsed α} {a : α}
    {v : Option Json} (w : Word) (s' : σ) (hv : Back p v a) (hf : ∀ j, p j = .ok a → f w.text j s = .ok s')
    (hw : w ∉ ks := by decide) : Built f init (put w v m) s' (w :: ks) := by
  obtain ⟨l, rfl, hl, ho, hk⟩ := h
  obtain ⟨j, rfl, hj, hp⟩ := hv
  have hn : w.text ∉ l.map Prod.fst := by
    intro e
    obtain ⟨w', hw', e⟩ := hk _ e
    exact hw (Word.text_inj e ▸ hw')
  refine ⟨l ++ [(w.text, j)], ?_, ?_, pairsOk_append ho hn (quotable_word w) hp, ?_⟩
  · simp only [put, putAt, Option.bind_some, Option.map_some, putKey_fresh hn]
  · rw [fields_append, hl]
    exact hf j hj
  · intro k hk'
    rw [List.map_append, List.mem_append] at hk'
    rcases hk' with hk' | hk'
    · obtain ⟨w', hw', e⟩ := hk k hk'
      exact ⟨w', List.mem_cons_of_mem _ hw', e⟩
    · simp only [List.map_cons, List.map_nil, List.mem_singleton] at hk'
      exact ⟨w, List.mem_cons_self .., hk'⟩

theorem built_putIf {m : Option Pairs} {s : σ} {ks : List Word} (h : Built f init m s ks) {α : Type} {p : Json → Parsed α} {a : α}
    {v : Option Json} {c : Bool} (w : Word) (s' : σ) (hv : c = true → Back p v a)
    (hf : c = true → ∀ j, p j = .ok a → f w.text j s = .ok s') (hc : c = false → s = s') (hw : w ∉ ks := by decide) :
    Built f init (putIf c w v m) s' (w :: ks) := by
  cases c with
  | true => exact built_put h w s' (hv rfl) (hf rfl) hw
  | false =>
    rw [← hc rfl]
    obtain ⟨l, h1, h2, h3, h4⟩ := h
    refine ⟨l, h1, h2, h3, fun k hk => ?_⟩
    obtain ⟨w', hw', e⟩ := h4 k hk
    exact ⟨w', List.mem_cons_of_mem _ hw', e⟩

theorem built_back {m : Option Pairs} {s : σ} {ks : List Word} (h : Built f init m s ks) :
    Back (fun j => (asMap j).bind fun l => fields f l init) (done m) s := by
  obtain ⟨l, rfl, hl, ho, _⟩ := h
  exact ⟨.map l, rfl, hl, ho.printable⟩
end

theorem back_mono {α β : Type} {p : Json → Parsed α} {q : Json → Parsed β} {v : Option Json} {a : α} {b : β} (h : Back p v a)
    (hq : ∀ j, p j = .ok a → q j = .ok b) : Back q v b := by
  obtain ⟨j, h1, h2, h3⟩ := h
  exact ⟨j, h1, hq j h2, h3⟩

theorem writeAll_back {α : Type} {p : Json → Parsed α} {g : α → Option Json} {l : List α} (h : ∀ a ∈ l, Back p (g a) a) :
    ∃ js, writeAll g l = some js ∧ elements p js = .ok l ∧ ∀ j ∈ js, Printable j := by
  induction l with
  | nil => exact ⟨[], rfl, rfl, by simp⟩
  | cons a l ih =>
    obtain ⟨js, h1, h2, h3⟩ := ih (fun b hb => h b (List.mem_cons_of_mem _ hb))
    obtain ⟨j, h4, h5, h6⟩ := h a (List.mem_cons_self ..)
    refine ⟨j :: js, ?_, ?_, ?_⟩
    · simp only [writeAll, h4, h1, Option.bind_some, Option.map_some]
    · simp only [elements, h5, h2]
      rfl
    · intro x hx
      rcases List.mem_cons.1 hx with rfl | hx
      · exact h6
      · exact h3 x hx

theorem listOf_back {α : Type} {p : Json → Parsed α} {g : α → Option Json} {l : List α} (h : ∀ a ∈ l, Back p (g a) a) :
    Back (fun j => (asList j).bind (elements p)) (listOf g l) l := by
  obtain ⟨js, h1, h2, h3⟩ := writeAll_back h
  exact ⟨.list js, by rw [listOf, h1]; rfl, h2, .list h3⟩

/-- entries under keys that are data -/
theorem putAll_back {α : Type} {p : Bytes → Json → Parsed α} {key : α → Bytes} {g : α → Option Json} (l : List α)
    (h : ∀ a ∈ l, Quotable (key a) ∧ Back (p (key a)) (g a) a) (hn : (l.map key).Nodup) :
    ∃ ps, l.foldl (fun m a => putAt (key a) (g a) m) (some []) = some ps ∧ entries p ps = .ok l ∧ PairsOk ps ∧ ps.map Prod.fst = l.map key := by
  have key : ∀ (l done : List α) (ps : Pairs), (∀ a ∈ l, Quotable (key a) ∧ Back (p (key a)) (g a) a) → ((done ++ l).map key).Nodup →
      entries p ps = .ok done → PairsOk ps → ps.map Prod.fst = done.map key →
      ∃ qs, l.foldl (fun m a => putAt (key a) (g a) m) (some ps) = some qs ∧ entries p qs = .ok (done ++ l) ∧ PairsOk qs ∧
        qs.map Prod.fst = (done ++ l).map key := by
    intro l
    induction l with
    | nil =>
      intro d ps _ _ h1 h2 h3
      exact ⟨ps, rfl, by rw [List.append_nil]; exact h1, h2, by rw [List.append_nil]; exact h3⟩
    | cons a l ih =>
      intro d ps ha hn h1 h2 h3
      obtain ⟨hq, j, h4, h5, h6⟩ := ha a (List.mem_cons_self ..)
      have hf : key a ∉ ps.map Prod.fst := by
        rw [h3]
        rw [List.map_append, List.nodup_append] at hn
        intro e
        exact hn.2.2 _ e _ (by rw [List.map_cons]; exact List.mem_cons_self ..) rfl
      have e1 : entries p (ps ++ [(key a, j)]) = .ok (d ++ [a]) := by
        clear hf h3 h2 hn ha ih
        induction ps generalizing d with
        | nil =>
          injection h1 with h1
          subst h1
          simp only [List.nil_append, entries, h5]
          rfl
        | cons q ps ih =>
          obtain ⟨k, v⟩ := q
          obtain ⟨x, hx, h1⟩ := ebind_ok h1
          obtain ⟨t, ht, h1⟩ := map_ok h1
          subst h1
          simp only [List.cons_append, entries, hx]
          have e := ih t ht
          simp only [Except.bind, e]
          rfl
      obtain ⟨qs, g1, g2, g3, g4⟩ := ih (d ++ [a]) (ps ++ [(key a, j)]) (fun b hb => ha b (List.mem_cons_of_mem _ hb))
        (by rw [List.append_assoc]; exact hn) e1 (pairsOk_append h2 hf hq h6) (by rw [List.map_append, List.map_append, h3]; rfl)
      refine ⟨qs, ?_, by rw [g2, List.append_assoc]; rfl, g3, by rw [g4, List.append_assoc]; rfl⟩
      rw [List.foldl_cons, ← g1]
      simp only [putAt, Option.bind_some, h4, Option.map_some, putKey_fresh hf]
  obtain ⟨qs, h1, h2, h3, h4⟩ := key l [] [] h (by rw [List.nil_append]; exact hn) rfl pairsOk_nil rfl
  exact ⟨qs, h1, h2, h3, h4⟩

/-- the same for maps with a `+` -/
theorem plusEntries_of_entries {α : Type} {p : Bytes → Json → Parsed α} {ps : Pairs} {l : List α} (h : entries p ps = .ok l)
    (hn : plusText ∉ ps.map Prod.fst) (s : Bool × List α) (more : Bool) :
    plusEntries p (if more then ps ++ [(plusText, .str [])] else ps) s = .ok (s.1 || more, s.2 ++ l) := by
  induction ps generalizing s l with
  | nil =>
    injection h with h
    subst h
    cases more with
    | true => simp [plusEntries]
    | false => simp [plusEntries]
  | cons q ps ih =>
    obtain ⟨k, v⟩ := q
    obtain ⟨x, hx, h1⟩ := ebind_ok h
    obtain ⟨t, ht, h1⟩ := map_ok h1
    subst h1
    rw [List.map_cons, List.mem_cons, not_or] at hn
    have e := ih ht hn.2 (s.1, s.2 ++ [x])
    have hk : ¬ k = plusText := fun e => hn.1 e.symm
    cases more with
    | true =>
      simp only [if_true, List.cons_append, plusEntries, if_neg hk, hx] at e ⊢
      rw [show (Except.ok x : Parsed α).bind (fun a => plusEntries p (ps ++ [(plusText, Json.str [])]) (s.1, s.2 ++ [a])) =
        plusEntries p (ps ++ [(plusText, Json.str [])]) (s.1, s.2 ++ [x]) from rfl, e]
      simp
    | false =>
      simp only [Bool.false_eq_true, if_false, plusEntries, if_neg hk, hx] at e ⊢
      rw [show (Except.ok x : Parsed α).bind (fun a => plusEntries p ps (s.1, s.2 ++ [a])) = plusEntries p ps (s.1, s.2 ++ [x]) from rfl, e]
      simp

theorem plus_back {α : Type} {p : Bytes → Json → Parsed α} {key : α → Bytes} {g : α → Option Json} (l : List α)
    (h : ∀ a ∈ l, Quotable (key a) ∧ Back (p (key a)) (g a) a) (hn : (l.map key).Nodup) (hp : plusText ∉ l.map key) (more : Bool) :
    Back (fun j => (asMap j).bind fun m => plusEntries p m (false, []))
      (done (putPlus more (l.foldl (fun m a => putAt (key a) (g a) m) (some [])))) (more, l) := by
  obtain ⟨ps, h1, h2, h3, h4⟩ := putAll_back l h hn
  have hq : plusText ∉ ps.map Prod.fst := by rw [h4]; exact hp
  have e := plusEntries_of_entries h2 hq (false, []) more
  simp only [Bool.false_or, List.nil_append] at e
  rw [h1]
  cases more with
  | true =>
    rw [if_pos rfl] at e
    refine ⟨.map (ps ++ [(plusText, Json.str [])]), ?_, e, (pairsOk_append h3 hq (quotable_plain rfl) (.str quotable_nil)).printable⟩
    simp only [putPlus, if_true, putAt, strJ, Option.bind_some, Option.map_some, putKey_fresh hq]
    rfl
  | false =>
    rw [if_neg (by simp)] at e
    exact ⟨.map ps, rfl, e, h3.printable⟩

theorem entries_back {α : Type} {p : Bytes → Json → Parsed α} {key : α → Bytes} {g : α → Option Json} (l : List α)
    (h : ∀ a ∈ l, Quotable (key a) ∧ Back (p (key a)) (g a) a) (hn : (l.map key).Nodup) :
    Back (fun j => (asMap j).bind (entries p)) (done (l.foldl (fun m a => putAt (key a) (g a) m) (some []))) l := by
  obtain ⟨ps, h1, h2, h3, h4⟩ := putAll_back l h hn
  rw [h1]
  exact ⟨.map ps, rfl, h2, h3.printable⟩

theorem isStar_map {j : Json} {α : Type} {f : Pairs → Parsed α} {a : α} (h : (asMap j).bind f = .ok a) : isStar j = false := by
  obtain ⟨l, hl, _⟩ := ebind_ok h
  rw [asMap_ok hl]
  rfl

end Arwen.Mandos
