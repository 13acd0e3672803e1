import Verif.Spec.Json
/-!
C39: writing ordered JSON and parsing it are inverse.
-/
namespace Arwen.Props
open Arwen.Mandos Arwen.Spec

/-! ### The inner loop -/

theorem rounds_mono (n : Nat) (prev c : UInt8) (m : PMachine) (r) (h : rounds n prev c m = some r) :
    rounds (n + 1) prev c m = some r := by
  induction n generalizing m with
  | zero => cases h
  | succ n ih =>
    rw [rounds] at h ⊢
    cases hr : round prev c m with
    | next m => rw [hr] at h; exact h
    | fail e => rw [hr] at h; exact h
    | again m' => rw [hr] at h; exact ih m' h

theorem rounds_mono' {n k : Nat} (hk : n ≤ k) (prev c : UInt8) (m : PMachine) (r) (h : rounds n prev c m = some r) :
    rounds k prev c m = some r := by
  induction hk with
  | refl => exact h
  | step _ ih => exact rounds_mono _ _ _ _ _ ih

/-- after one round the stack is shorter, or the next rounds finish -/
theorem round_again (prev c : UInt8) (m m' : PMachine) (h : round prev c m = .again m') :
    m'.stack.length < m.stack.length ∨ ∃ r, rounds 3 prev c m' = some r := by
  have hsingle : ∀ (rest : List PState) (p : Option Json), ∃ r, rounds 1 prev c { stack := .single [] false :: rest, pending := p } = some r :=
    fun rest p => ⟨_, rfl⟩
  have hany : ∀ (rest : List PState) (p : Option Json), ∃ r, rounds 2 prev c { stack := .any :: rest, pending := p } = some r := by
    intro rest p
    rw [rounds]
    cases hr : round prev c { stack := .any :: rest, pending := p } with
    | next m => exact ⟨_, rfl⟩
    | fail e => exact ⟨_, rfl⟩
    | again m' =>
      dsimp only [round] at hr
      (repeat' split at hr) <;> cases hr
      exact hsingle _ _
  have hpair : ∀ (rest : List PState) (p : Option Json), ∃ r, rounds 1 prev c { stack := .pair [] .key :: rest, pending := p } = some r := by
    intro rest p
    rw [rounds]
    cases hr : round prev c { stack := .pair [] .key :: rest, pending := p } with
    | next m => exact ⟨_, rfl⟩
    | fail e => exact ⟨_, rfl⟩
    | again m' =>
      dsimp only [round] at hr
      (repeat' split at hr) <;> cases hr
  obtain ⟨stack, p⟩ := m
  unfold round at h
  match stack with
  | [] =>
    dsimp only at h
    split at h <;> cases h
  | .any :: rest =>
    dsimp only at h
    (repeat' split at h) <;> cases h
    obtain ⟨r, hr⟩ := hsingle rest p
    exact .inr ⟨r, rounds_mono' (by decide) _ _ _ _ hr⟩
  | .single b e :: rest =>
    dsimp only at h
    (repeat' split at h) <;> cases h
    exact .inl (Nat.lt_succ_self _)
  | .list l :: rest =>
    dsimp only at h
    (repeat' split at h) <;> cases h
    all_goals
      obtain ⟨r, hr⟩ := hany _ _
      exact .inr ⟨r, rounds_mono' (by decide) _ _ _ _ hr⟩
  | .map l :: rest =>
    dsimp only at h
    (repeat' split at h) <;> cases h
    obtain ⟨r, hr⟩ := hpair _ _
    exact .inr ⟨r, rounds_mono' (by decide) _ _ _ _ hr⟩
  | .pair k .key :: rest =>
    dsimp only at h
    (repeat' split at h) <;> cases h
  | .pair k .colon :: rest =>
    dsimp only at h
    (repeat' split at h) <;> cases h
  | .pair k .value :: rest =>
    dsimp only at h
    (repeat' split at h) <;> cases h
    exact .inl (Nat.lt_succ_self _)

theorem rounds_enough (n : Nat) (prev c : UInt8) (m : PMachine) (h : m.stack.length ≤ n) :
    ∃ r, rounds (n + 4) prev c m = some r := by
  induction n generalizing m with
  | zero =>
    rw [rounds]
    cases hr : round prev c m with
    | next m => exact ⟨_, rfl⟩
    | fail e => exact ⟨_, rfl⟩
    | again m' =>
      rcases round_again prev c m m' hr with h' | ⟨r, h'⟩
      · omega
      · exact ⟨r, h'⟩
  | succ n ih =>
    rw [rounds]
    cases hr : round prev c m with
    | next m => exact ⟨_, rfl⟩
    | fail e => exact ⟨_, rfl⟩
    | again m' =>
      rcases round_again prev c m m' hr with h' | ⟨r, h'⟩
      · exact ih m' (by omega)
      · exact ⟨r, rounds_mono' (by omega) _ _ _ _ h'⟩

/-- The bound on the rounds of the inner loop is never reached: the loop ends, and `feed` is what it does. -/
theorem feed_round (prev c : UInt8) (m : PMachine) : feed prev c m =
    match round prev c m with
    | .next m => .ok m
    | .fail e => .error e
    | .again m' => feed prev c m' := by
  cases hr : round prev c m with
  | next m' => rw [feed, rounds, hr]; rfl
  | fail e => rw [feed, rounds, hr]; rfl
  | again m' =>
    obtain ⟨r, h1⟩ := rounds_enough _ prev c m (Nat.le_refl _)
    obtain ⟨r', h2⟩ := rounds_enough _ prev c m' (Nat.le_refl _)
    have h3 : rounds (m.stack.length + 3) prev c m' = some r := by
      rw [show m.stack.length + 4 = m.stack.length + 3 + 1 from rfl, rounds, hr] at h1
      exact h1
    have h4 : r = r' := by
      have e1 := rounds_mono' (Nat.le_max_left (m.stack.length + 3) (m'.stack.length + 4)) _ _ _ _ h3
      have e2 := rounds_mono' (Nat.le_max_right (m.stack.length + 3) (m'.stack.length + 4)) _ _ _ _ h2
      rw [e1] at e2
      exact Option.some.inj e2
    show (rounds (m.stack.length + 4) prev c m).getD _ = (rounds (m'.stack.length + 4) prev c m').getD _
    rw [h1, h2, h4]

/-! ### Reading what was written -/

/-- reading `i` in `m` is reading `i'` in `m'` -/
def Leads (m : PMachine) (i : Bytes) (m' : PMachine) (i' : Bytes) : Prop :=
  ∀ prev, ∃ prev', feedAll prev i m = feedAll prev' i' m'

theorem Leads.refl (m : PMachine) (i : Bytes) : Leads m i m i := fun p => ⟨p, rfl⟩

theorem Leads.trans {a b c : PMachine} {i j k : Bytes} (h : Leads a i b j) (h' : Leads b j c k) : Leads a i c k := fun p => by
  obtain ⟨q, e⟩ := h p
  obtain ⟨r, e'⟩ := h' q
  exact ⟨r, e.trans e'⟩

/-- one character -/
theorem Leads.char {m m' : PMachine} {c : UInt8} {i : Bytes} (h : ∀ prev, round prev c m = .next m') : Leads m (c :: i) m' i := by
  intro p
  refine ⟨c, ?_⟩
  rw [feedAll, feed_round, h p]

/-- the same character in another machine -/
theorem Leads.again {m m' : PMachine} {c : UInt8} {i : Bytes} (h : ∀ prev, round prev c m = .again m') : Leads m (c :: i) m' (c :: i) := by
  intro p
  refine ⟨p, ?_⟩
  rw [feedAll, feedAll, feed_round, h p]

/-- white space that the machine ignores -/
theorem Leads.indent {m : PMachine} (h : ∀ prev c, isWhitespace c = true → round prev c m = .next m) (n : Nat) (i : Bytes) :
    Leads m (addIndent n ++ i) m i := by
  induction n with
  | zero => exact .refl _ _
  | succ n ih =>
    have hs : ∀ prev, round prev space m = .next m := fun prev => h prev space rfl
    exact .trans (.char hs) (.trans (.char hs) (.trans (.char hs) (.trans (.char hs) ih)))

/-- the condition on the rest of a string, after the character `prev` -/
def rest (prev : UInt8) : Bytes → Bool
  | [] => prev != backslash
  | c :: s => (c != quote || prev == backslash) && rest c s

theorem rest_iff (prev : UInt8) (s : Bytes) : rest prev s = true ↔
    (∀ a b, s = a ++ quote :: b → (∃ a', a = a' ++ [backslash]) ∨ a = [] ∧ prev = backslash) ∧
      ¬ (∃ a, prev :: s = a ++ [backslash]) := by
  induction s generalizing prev with
  | nil =>
    rw [rest]
    constructor
    · intro h
      refine ⟨fun a b hab => ?_, ?_⟩
      · cases a <;> cases hab
      · rintro ⟨a, ha⟩
        match a with
        | [] =>
          cases ha
          exact absurd h (by decide)
        | [_] => cases ha
        | _ :: _ :: _ => cases ha
    · rintro ⟨_, h⟩
      have hp : prev ≠ backslash := by
        rintro rfl
        exact h ⟨[], rfl⟩
      exact bne_iff_ne.mpr hp
  | cons c s ih =>
    rw [rest, Bool.and_eq_true, ih c]
    constructor
    · rintro ⟨h1, h2, h3⟩
      refine ⟨fun a b hab => ?_, ?_⟩
      · cases a with
        | nil =>
          cases hab
          refine .inr ⟨rfl, ?_⟩
          rcases Bool.or_eq_true_iff.mp h1 with h | h
          · exact absurd h (by decide)
          · exact eq_of_beq h
        | cons x a =>
          cases hab
          rcases h2 a b rfl with ⟨a', rfl⟩ | ⟨rfl, rfl⟩
          · exact .inl ⟨c :: a', rfl⟩
          · exact .inl ⟨[], rfl⟩
      · rintro ⟨a, ha⟩
        cases a with
        | nil => cases ha
        | cons x a =>
          apply h3
          exact ⟨a, (List.cons.inj ha).2⟩
    · rintro ⟨h1, h2⟩
      refine ⟨?_, fun a b hab => ?_, ?_⟩
      · by_cases hc : c = quote
        · subst hc
          rcases h1 [] s rfl with ⟨a', ha⟩ | ⟨_, hp⟩
          · cases a' <;> cases ha
          · rw [hp]
            decide
        · rw [Bool.or_eq_true_iff]
          exact .inl (bne_iff_ne.mpr hc)
      · rcases h1 (c :: a) b (by rw [hab]; rfl) with ⟨a', ha⟩ | ⟨ha, _⟩
        · cases a' with
          | nil =>
            cases ha
            exact .inr ⟨rfl, rfl⟩
          | cons x a' =>
            exact .inl ⟨a', (List.cons.inj ha).2⟩
        · cases ha
      · rintro ⟨a, ha⟩
        exact h2 ⟨prev :: a, by rw [ha]; rfl⟩

theorem quotable_iff (s : Bytes) : Quotable s ↔ rest quote s = true := by
  rw [rest_iff]
  constructor
  · rintro ⟨h1, h2⟩
    refine ⟨fun a b hab => .inl (h1 a b hab), ?_⟩
    rintro ⟨a, ha⟩
    cases a with
    | nil => exact absurd (List.cons.inj ha).1 (by decide)
    | cons x a => exact h2 ⟨a, (List.cons.inj ha).2⟩
  · rintro ⟨h1, h2⟩
    refine ⟨fun a b hab => ?_, ?_⟩
    · rcases h1 a b hab with h | ⟨_, h⟩
      · exact h
      · exact absurd h (by decide)
    · rintro ⟨a, ha⟩
      exact h2 ⟨quote :: a, by rw [ha]; rfl⟩

theorem finalize_str (s : Bytes) : finalize (quote :: s ++ [quote]) = .ok (.str s) := by
  rw [finalize, if_pos]
  · simp
  · exact ⟨rfl, List.getLast?_concat (l := quote :: s)⟩

/-- the inside of a string value -/
theorem feed_string (below : List PState) (i : Bytes) (s done : Bytes) (prev : UInt8) (h : rest prev s = true) :
    feedAll prev (s ++ quote :: i) { stack := .single (quote :: done) true :: below, pending := none } =
      feedAll quote i { stack := below, pending := some (.str (done ++ s)) } := by
  induction s generalizing done prev with
  | nil =>
    rw [List.nil_append, feedAll, feed_round]
    have e : round prev quote { stack := .single (quote :: done) true :: below, pending := none } =
        .next { stack := below, pending := some (.str done) } := by
      have h : (prev != backslash) = true := h
      simp only [round, List.length_cons]
      rw [if_neg (by simp), if_pos trivial, h]
      rw [if_pos (by decide), finalize_str]
    rw [e, List.append_nil]
  | cons c s ih =>
    rw [rest, Bool.and_eq_true] at h
    rw [List.cons_append, feedAll, feed_round]
    have e : round prev c { stack := .single (quote :: done) true :: below, pending := none } =
        .next { stack := .single (quote :: (done ++ [c])) true :: below, pending := none } := by
      simp only [round, List.length_cons]
      rw [if_neg (by simp), if_pos trivial, if_neg]
      · rfl
      · intro hc
        rcases Bool.and_eq_true_iff.mp hc with ⟨h1, h2⟩
        rcases Bool.or_eq_true_iff.mp h.1 with h3 | h3
        · rw [eq_of_beq h1] at h3
          exact absurd h3 (by decide)
        · rw [eq_of_beq h3] at h2
          exact absurd h2 (by decide)
    rw [e]
    dsimp only
    rw [ih (done ++ [c]) c h.2, List.append_assoc, List.singleton_append]

/-- the inside of a key -/
theorem feed_key (below : List PState) (i : Bytes) (s done : Bytes) (prev : UInt8) (h : rest prev s = true) :
    feedAll prev (s ++ quote :: i) { stack := .pair (quote :: done) .key :: below, pending := none } =
      feedAll quote i { stack := .pair (quote :: (done ++ s) ++ [quote]) .colon :: below, pending := none } := by
  induction s generalizing done prev with
  | nil =>
    rw [List.nil_append, feedAll, feed_round]
    have e : round prev quote { stack := .pair (quote :: done) .key :: below, pending := none } =
        .next { stack := .pair (quote :: done ++ [quote]) .colon :: below, pending := none } := by
      have h : (prev != backslash) = true := h
      simp only [round, List.length_cons]
      rw [if_neg (by simp), h, if_pos (by decide)]
    rw [e, List.append_nil]
  | cons c s ih =>
    rw [rest, Bool.and_eq_true] at h
    rw [List.cons_append, feedAll, feed_round]
    have e : round prev c { stack := .pair (quote :: done) .key :: below, pending := none } =
        .next { stack := .pair (quote :: (done ++ [c])) .key :: below, pending := none } := by
      simp only [round, List.length_cons]
      rw [if_neg (by simp), if_neg]
      · rfl
      · intro hc
        rcases Bool.and_eq_true_iff.mp hc with ⟨h1, h2⟩
        rcases Bool.or_eq_true_iff.mp h.1 with h3 | h3
        · rw [eq_of_beq h1] at h3
          exact absurd h3 (by decide)
        · rw [eq_of_beq h3] at h2
          exact absurd h2 (by decide)
    rw [e]
    dsimp only
    rw [ih (done ++ [c]) c h.2, List.append_assoc, List.singleton_append]

/-- the values after which the parser needs no other character -/
def Closed : Json → Prop
  | .bool _ => False
  | _ => True

/-- what comes after a value: anything, or a comma or a line end -/
def Ends (j : Json) (i : Bytes) : Prop := Closed j ∨ ∃ c i', i = c :: i' ∧ (c = comma ∨ c = newline)

theorem any_skips (below : List PState) (prev c : UInt8) (h : isWhitespace c = true) :
    round prev c { stack := .any :: below, pending := none } = .next { stack := .any :: below, pending := none } := by
  simp only [round, h]
  rfl

theorem list_skips (l : List Json) (below : List PState) (prev c : UInt8) (h : isWhitespace c = true) :
    round prev c { stack := .list l :: below, pending := none } = .next { stack := .list l :: below, pending := none } := by
  simp only [round, h]
  rfl

theorem map_skips (l : List (Bytes × Json)) (below : List PState) (prev c : UInt8) (h : isWhitespace c = true) :
    round prev c { stack := .map l :: below, pending := none } = .next { stack := .map l :: below, pending := none } := by
  simp only [round, h]
  rfl

theorem key_skips (below : List PState) (prev c : UInt8) (h : isWhitespace c = true) :
    round prev c { stack := .pair [] .key :: below, pending := none } = .next { stack := .pair [] .key :: below, pending := none } := by
  simp only [round, h]
  rfl

/-- the first character of a value -/
theorem write_head (n : Nat) (j : Json) : ∃ c i, writeJson n j = c :: i ∧ isWhitespace c = false ∧ c ≠ closeList := by
  match j with
  | .str v => exact ⟨quote, _, by rw [writeJson]; rfl, rfl, by decide⟩
  | .bool true => exact ⟨0x74, [0x72, 0x75, 0x65], by rw [writeJson]; rfl, rfl, by decide⟩
  | .bool false => exact ⟨0x66, [0x61, 0x6c, 0x73, 0x65], by rw [writeJson]; rfl, rfl, by decide⟩
  | .list [] => exact ⟨openList, _, by rw [writeJson], rfl, by decide⟩
  | .list (x :: l) => exact ⟨openList, _, by rw [writeJson]; rfl, rfl, by decide⟩
  | .map [] => exact ⟨openMap, _, by rw [writeJson], rfl, by decide⟩
  | .map ((k, v) :: l) => exact ⟨openMap, _, by rw [writeJson]; rfl, rfl, by decide⟩

/-- a boolean -/
theorem read_bool (b : Bool) (below : List PState) (i : Bytes) (h : Ends (.bool b) i) :
    Leads { stack := .any :: below, pending := none } ((if b then trueText else falseText) ++ i)
      { stack := below, pending := some (.bool b) } i := by
  rcases h with h | ⟨c, i, rfl, hc⟩
  · exact h.elim
  intro p
  refine ⟨if b then 0x65 else 0x65, ?_⟩
  cases b with
  | true =>
    rw [if_pos rfl]
    show feedAll p (0x74 :: 0x72 :: 0x75 :: 0x65 :: c :: i) _ = _
    rw [feedAll, feed_round, show round p 0x74 { stack := .any :: below, pending := none } =
      .again { stack := .single [] false :: below, pending := none } from rfl]
    dsimp only
    rw [feed_round, show round p 0x74 { stack := .single [] false :: below, pending := none } =
      .next { stack := .single [0x74] false :: below, pending := none } from rfl]
    dsimp only
    rw [feedAll, feed_round, show round 0x74 0x72 { stack := .single [0x74] false :: below, pending := none } =
      .next { stack := .single [0x74, 0x72] false :: below, pending := none } from rfl]
    dsimp only
    rw [feedAll, feed_round, show round 0x72 0x75 { stack := .single [0x74, 0x72] false :: below, pending := none } =
      .next { stack := .single [0x74, 0x72, 0x75] false :: below, pending := none } from rfl]
    dsimp only
    rw [feedAll, feed_round, show round 0x75 0x65 { stack := .single [0x74, 0x72, 0x75] false :: below, pending := none } =
      .next { stack := .single trueText false :: below, pending := none } from rfl]
    dsimp only
    rw [if_pos rfl]
    have e : round 0x65 c { stack := .single trueText false :: below, pending := none } =
        .again { stack := below, pending := some (.bool true) } := by
      rcases hc with rfl | rfl <;> rfl
    rw [feedAll, feedAll, feed_round, e]
  | false =>
    rw [if_neg (by decide)]
    show feedAll p (0x66 :: 0x61 :: 0x6c :: 0x73 :: 0x65 :: c :: i) _ = _
    rw [feedAll, feed_round, show round p 0x66 { stack := .any :: below, pending := none } =
      .again { stack := .single [] false :: below, pending := none } from rfl]
    dsimp only
    rw [feed_round, show round p 0x66 { stack := .single [] false :: below, pending := none } =
      .next { stack := .single [0x66] false :: below, pending := none } from rfl]
    dsimp only
    rw [feedAll, feed_round, show round 0x66 0x61 { stack := .single [0x66] false :: below, pending := none } =
      .next { stack := .single [0x66, 0x61] false :: below, pending := none } from rfl]
    dsimp only
    rw [feedAll, feed_round, show round 0x61 0x6c { stack := .single [0x66, 0x61] false :: below, pending := none } =
      .next { stack := .single [0x66, 0x61, 0x6c] false :: below, pending := none } from rfl]
    dsimp only
    rw [feedAll, feed_round, show round 0x6c 0x73 { stack := .single [0x66, 0x61, 0x6c] false :: below, pending := none } =
      .next { stack := .single [0x66, 0x61, 0x6c, 0x73] false :: below, pending := none } from rfl]
    dsimp only
    rw [feedAll, feed_round, show round 0x73 0x65 { stack := .single [0x66, 0x61, 0x6c, 0x73] false :: below, pending := none } =
      .next { stack := .single falseText false :: below, pending := none } from rfl]
    dsimp only
    rw [if_neg (by decide)]
    have e : round 0x65 c { stack := .single falseText false :: below, pending := none } =
        .again { stack := below, pending := some (.bool false) } := by
      rcases hc with rfl | rfl <;> rfl
    rw [feedAll, feedAll, feed_round, e]

/-- a string -/
theorem read_str (s : Bytes) (hs : Quotable s) (below : List PState) (i : Bytes) :
    Leads { stack := .any :: below, pending := none } (quote :: s ++ quote :: i) { stack := below, pending := some (.str s) } i := by
  intro p
  refine ⟨quote, ?_⟩
  show feedAll p (quote :: (s ++ quote :: i)) _ = _
  rw [feedAll, feed_round, show round p quote { stack := .any :: below, pending := none } =
    .again { stack := .single [] false :: below, pending := none } from rfl]
  dsimp only
  rw [feed_round, show round p quote { stack := .single [] false :: below, pending := none } =
    .next { stack := .single [quote] true :: below, pending := none } from rfl]
  dsimp only
  rw [feed_string below i s [] quote ((quotable_iff s).mp hs), List.nil_append]

/-- a key, the colon and the space after it -/
theorem read_key (k : Bytes) (hk : Quotable k) (below : List PState) (i : Bytes) :
    Leads { stack := .pair [] .key :: below, pending := none } (quote :: k ++ quote :: colon :: space :: i)
      { stack := .any :: .pair (quote :: k ++ [quote]) .value :: below, pending := none } i := by
  have h1 : Leads { stack := .pair [] .key :: below, pending := none } (quote :: k ++ quote :: colon :: space :: i)
      { stack := .pair (quote :: k ++ [quote]) .colon :: below, pending := none } (colon :: space :: i) := by
    intro p
    refine ⟨quote, ?_⟩
    show feedAll p (quote :: (k ++ quote :: colon :: space :: i)) _ = _
    rw [feedAll, feed_round, show round p quote { stack := .pair [] .key :: below, pending := none } =
      .next { stack := .pair [quote] .key :: below, pending := none } from rfl]
    dsimp only
    rw [feed_key below _ k [] quote ((quotable_iff k).mp hk), List.nil_append]
  exact h1.trans (.trans (.char fun _ => rfl) (.char fun p => any_skips _ p space rfl))

/-- the pair is put into the map -/
theorem read_put (k : Bytes) (v : Json) (l : List (Bytes × Json)) (hk : k ∉ l.map Prod.fst) (below : List PState) (c : UInt8) (i : Bytes) :
    Leads { stack := .pair (quote :: k ++ [quote]) .value :: .map l :: below, pending := some v } (c :: i)
      { stack := .map (l ++ [(k, v)]) :: below, pending := none } (c :: i) := by
  apply Leads.again
  intro p
  have h : (quote :: k ++ [quote]).head? = some quote ∧ (quote :: k ++ [quote]).getLast? = some quote :=
    ⟨rfl, List.getLast?_concat (l := quote :: k)⟩
  simp only [round, if_pos h]
  have hp : putKey l ((quote :: k ++ [quote]).drop 1).dropLast v = l ++ [(k, v)] := by
    rw [putKey, if_neg]
    · simp
    · simp only [List.cons_append, List.drop_succ_cons, List.drop_zero, List.dropLast_concat, List.any_eq_true]
      rintro ⟨x, hx, e⟩
      exact hk (List.mem_map.mpr ⟨x, hx, eq_of_beq e⟩)
  rw [hp]

/-- the first element of a list: the list is opened by its first character -/
theorem read_open (j : Json) (n : Nat) (below : List PState) (i : Bytes) :
    Leads { stack := .list [] :: below, pending := none } (writeJson n j ++ i)
      { stack := .any :: .list [] :: below, pending := none } (writeJson n j ++ i) := by
  obtain ⟨c, r, e, h1, h2⟩ := write_head n j
  rw [e]
  apply Leads.again
  intro p
  simp only [round, h1]
  rw [if_neg (by decide), if_neg (by simpa using h2)]
  rfl

theorem items_head (n : Nat) (l : List Json) (i : Bytes) : ∃ c i', writeItems n l ++ i = c :: i' ∧ (c = comma ∨ c = newline) := by
  cases l with
  | nil => exact ⟨newline, _, by rw [writeItems]; rfl, .inr rfl⟩
  | cons x l => exact ⟨comma, _, by rw [writeItems]; rfl, .inl rfl⟩

theorem pairs_head (n : Nat) (l : List (Bytes × Json)) (i : Bytes) :
    ∃ c i', writePairs n l ++ i = c :: i' ∧ (c = comma ∨ c = newline) := by
  cases l with
  | nil => exact ⟨newline, _, by rw [writePairs]; rfl, .inr rfl⟩
  | cons x l => exact ⟨comma, _, by rw [writePairs]; rfl, .inl rfl⟩

mutual
/-- a value -/
theorem read_value (j : Json) (hj : Printable j) (n : Nat) (below : List PState) (i : Bytes) (hi : Ends j i) :
    Leads { stack := .any :: below, pending := none } (writeJson n j ++ i) { stack := below, pending := some j } i := by
  match j with
  | .str v =>
    cases hj with
    | str hv =>
      have h := read_str v hv below i
      rw [writeJson, List.append_assoc]
      exact h
  | .bool true =>
    have h := read_bool true below i hi
    rw [writeJson]
    exact h
  | .bool false =>
    have h := read_bool false below i hi
    rw [writeJson]
    exact h
  | .list [] =>
    rw [writeJson]
    exact .trans (.char (m' := { stack := .list [] :: below, pending := none }) fun _ => rfl) (.char fun _ => rfl)
  | .list (x :: l) =>
    cases hj with
    | list hl =>
      rw [writeJson]
      simp only [List.cons_append, List.append_assoc]
      refine .trans (.char (m' := { stack := .list [] :: below, pending := none }) fun _ => rfl) ?_
      refine .trans (.char fun p => list_skips _ _ p newline rfl) ?_
      refine .trans (.indent (fun p c => list_skips _ _ p c) _ _) ?_
      refine .trans (read_open x _ _ _) ?_
      refine .trans (read_value x (hl x (.head _)) _ _ _ (.inr (items_head n l i))) ?_
      exact read_items l (fun y hy => hl y (.tail _ hy)) n x [] below i
  | .map [] =>
    rw [writeJson]
    exact .trans (.char (m' := { stack := .map [] :: below, pending := none }) fun _ => rfl) (.char fun _ => rfl)
  | .map ((k, v) :: l) =>
    cases hj with
    | map hk hn hv =>
      rw [writeJson]
      simp only [List.cons_append, List.append_assoc, List.nil_append]
      refine .trans (.char (m' := { stack := .map [] :: below, pending := none }) fun _ => rfl) ?_
      refine .trans (.char fun p => map_skips _ _ p newline rfl) ?_
      refine .trans (.indent (fun p c => map_skips _ _ p c) _ _) ?_
      refine .trans (.again (m' := { stack := .pair [] .key :: .map [] :: below, pending := none }) fun _ => rfl) ?_
      refine .trans (read_key k (hk (k, v) (.head _)) _ _) ?_
      refine .trans (read_value v (hv (k, v) (.head _)) _ _ _ (.inr (pairs_head n l i))) ?_
      exact read_pairs l (fun p hp => hk p (.tail _ hp)) (fun p hp => hv p (.tail _ hp)) n k v [] hn below i
/-- the other elements of a list -/
theorem read_items (l : List Json) (hl : ∀ x ∈ l, Printable x) (n : Nat) (x : Json) (acc : List Json) (below : List PState) (i : Bytes) :
    Leads { stack := .list acc :: below, pending := some x } (writeItems n l ++ i)
      { stack := below, pending := some (.list (acc ++ x :: l)) } i := by
  match l with
  | [] =>
    rw [writeItems]
    simp only [List.cons_append, List.append_assoc]
    refine .trans (.char (m' := { stack := .list (acc ++ [x]) :: below, pending := none }) fun _ => rfl) ?_
    refine .trans (.indent (fun p c => list_skips _ _ p c) _ _) ?_
    exact .char fun _ => rfl
  | y :: l =>
    rw [writeItems]
    simp only [List.cons_append, List.append_assoc]
    refine .trans (.char (m' := { stack := .any :: .list (acc ++ [x]) :: below, pending := none }) ?_) ?_
    · intro p
      simp only [round]
      rw [if_neg (by decide), if_neg (by decide), if_neg (by simp), if_pos (by decide)]
    refine .trans (.char fun p => any_skips _ p newline rfl) ?_
    refine .trans (.indent (fun p c => any_skips _ p c) _ _) ?_
    refine .trans (read_value y (hl y (.head _)) _ _ _ (.inr (items_head n l i))) ?_
    have h := read_items l (fun z hz => hl z (.tail _ hz)) n y (acc ++ [x]) below i
    rw [List.append_assoc, List.singleton_append] at h
    exact h
/-- the other pairs of a map -/
theorem read_pairs (l : List (Bytes × Json)) (hk : ∀ p ∈ l, Quotable p.1) (hv : ∀ p ∈ l, Printable p.2) (n : Nat) (k : Bytes) (v : Json)
    (acc : List (Bytes × Json)) (hn : ((acc ++ (k, v) :: l).map Prod.fst).Nodup) (below : List PState) (i : Bytes) :
    Leads { stack := .pair (quote :: k ++ [quote]) .value :: .map acc :: below, pending := some v } (writePairs n l ++ i)
      { stack := below, pending := some (.map (acc ++ (k, v) :: l)) } i := by
  have hacc : k ∉ acc.map Prod.fst := by
    intro h
    rw [List.map_append, List.nodup_append] at hn
    exact hn.2.2 k h k (.head _) rfl
  match l with
  | [] =>
    rw [writePairs]
    simp only [List.cons_append, List.append_assoc]
    refine .trans (read_put k v acc hacc below _ _) ?_
    refine .trans (.char fun p => map_skips _ _ p newline rfl) ?_
    refine .trans (.indent (fun p c => map_skips _ _ p c) _ _) ?_
    exact .char fun _ => rfl
  | (k', v') :: l =>
    rw [writePairs]
    simp only [List.cons_append, List.append_assoc, List.nil_append]
    refine .trans (read_put k v acc hacc below _ _) ?_
    refine .trans (.char (m' := { stack := .pair [] .key :: .map (acc ++ [(k, v)]) :: below, pending := none }) fun _ => rfl) ?_
    refine .trans (.char fun p => key_skips _ p newline rfl) ?_
    refine .trans (.indent (fun p c => key_skips _ p c) _ _) ?_
    refine .trans (read_key k' (hk (k', v') (.head _)) _ _) ?_
    refine .trans (read_value v' (hv (k', v') (.head _)) _ _ _ (.inr (pairs_head n l i))) ?_
    have h := read_pairs l (fun p hp => hk p (.tail _ hp)) (fun p hp => hv p (.tail _ hp)) n k' v' (acc ++ [(k, v)])
      (by rw [List.append_assoc, List.singleton_append]; exact hn) below i
    rw [List.append_assoc, List.singleton_append] at h
    exact h
end

/-- **C39.** A tree whose strings can stand between quotes and whose maps have no repeated keys is parsed back from its text, with the
order of its keys, unless it is a bare boolean. -/
theorem c39_roundtrip (j : Json) (hj : Printable j) (hb : ∀ b, j ≠ .bool b) : parseOrderedJson (jsonString j) = .ok (some j) := by
  have hc : Closed j := by
    cases j with
    | bool b => exact absurd rfl (hb b)
    | _ => trivial
  obtain ⟨p, h⟩ := read_value j hj 0 [] [] (.inl hc) 0
  rw [List.append_nil] at h
  rw [parseOrderedJson, jsonString, h]
  rfl

/-! ### What is parsed can be printed -/

/-- a string that is being read: the quotes so far come after backslashes -/
def Opened (s : Bytes) : Prop := ∀ a b, s = a ++ quote :: b → ∃ a', a = a' ++ [backslash]

theorem opened_append (s : Bytes) (c prev : UInt8) (hs : Opened s) (hp : (quote :: s).getLast? = some prev)
    (hc : c ≠ quote ∨ prev = backslash) : Opened (s ++ [c]) := by
  intro a b h
  rcases List.eq_nil_or_concat b with rfl | ⟨b', x, rfl⟩
  · have h : s ++ [c] = a ++ [quote] := h
    obtain ⟨rfl, h2⟩ := List.append_inj' h rfl
    cases h2
    rcases hc with hc | rfl
    · exact absurd rfl hc
    · rcases List.eq_nil_or_concat s with rfl | ⟨s', y, rfl⟩
      · exact absurd hp (by decide)
      · rw [List.concat_eq_append] at hp ⊢
        have hp : (quote :: s' ++ [y]).getLast? = some backslash := hp
        rw [List.getLast?_concat] at hp
        cases hp
        exact ⟨s', rfl⟩
  · rw [List.concat_eq_append] at h
    have h : s ++ [c] = (a ++ quote :: b') ++ [x] := by
      rw [h, List.append_assoc, List.cons_append]
    obtain ⟨h1, _⟩ := List.append_inj' h rfl
    exact hs a b' h1

theorem opened_quotable (s : Bytes) (prev : UInt8) (hs : Opened s) (hp : (quote :: s).getLast? = some prev) (hb : prev ≠ backslash) :
    Quotable s := by
  refine ⟨hs, ?_⟩
  rintro ⟨a, rfl⟩
  have hp : (quote :: a ++ [backslash]).getLast? = some prev := hp
  rw [List.getLast?_concat] at hp
  cases hp
  exact hb rfl

/-- the pairs of a map so far -/
structure MapOk (l : List (Bytes × Json)) : Prop where
  keys : ∀ p ∈ l, Quotable p.1
  nodup : (l.map Prod.fst).Nodup
  values : ∀ p ∈ l, Printable p.2

theorem mapOk_put {l : List (Bytes × Json)} (h : MapOk l) (k : Bytes) (v : Json) (hk : Quotable k) (hv : Printable v) :
    MapOk (putKey l k v) := by
  unfold putKey
  split
  · exact h
  · rename_i hn
    refine ⟨?_, ?_, ?_⟩
    · intro p hp
      rcases List.mem_append.mp hp with hp | hp
      · exact h.keys p hp
      · rw [List.mem_singleton.mp hp]
        exact hk
    · rw [List.map_append, List.nodup_append]
      refine ⟨h.nodup, by simp, ?_⟩
      intro a ha b hb
      have hb : b = k := by simpa using hb
      subst hb
      rintro rfl
      obtain ⟨p, hp, e⟩ := List.mem_map.mp ha
      apply hn
      rw [List.any_eq_true]
      exact ⟨p, hp, by rw [e]; exact beq_self_eq_true _⟩
    · intro p hp
      rcases List.mem_append.mp hp with hp | hp
      · exact h.values p hp
      · rw [List.mem_singleton.mp hp]
        exact hv

/-- the states that wait for a value -/
inductive Waits : List PState → Prop
  | nil : Waits []
  | list {l : List Json} {r : List PState} (h : ∀ x ∈ l, Printable x) (hr : Waits r) : Waits (.list l :: r)
  | pair {k : Bytes} {l : List (Bytes × Json)} {r : List PState} (hk : Quotable k) (h : MapOk l) (hr : Waits r) :
      Waits (.pair (quote :: k ++ [quote]) .value :: .map l :: r)

/-- the machines that occur, after the character `prev` -/
inductive Occurs (prev : UInt8) : PMachine → Prop
  | any {r : List PState} (hr : Waits r) : Occurs prev { stack := .any :: r, pending := none }
  | start {e : Bool} {r : List PState} (hr : Waits r) : Occurs prev { stack := .single [] e :: r, pending := none }
  | text {s : Bytes} {r : List PState} (hs : Opened s) (hp : (quote :: s).getLast? = some prev) (hr : Waits r) :
      Occurs prev { stack := .single (quote :: s) true :: r, pending := none }
  | word {c : UInt8} {s : Bytes} {r : List PState} (hc : c ≠ quote) (hr : Waits r) :
      Occurs prev { stack := .single (c :: s) false :: r, pending := none }
  | list {l : List Json} {r : List PState} (h : ∀ x ∈ l, Printable x) (hr : Waits r) : Occurs prev { stack := .list l :: r, pending := none }
  | map {l : List (Bytes × Json)} {r : List PState} (h : MapOk l) (hr : Waits r) : Occurs prev { stack := .map l :: r, pending := none }
  | keyStart {l : List (Bytes × Json)} {r : List PState} (h : MapOk l) (hr : Waits r) :
      Occurs prev { stack := .pair [] .key :: .map l :: r, pending := none }
  | key {s : Bytes} {l : List (Bytes × Json)} {r : List PState} (hs : Opened s) (hp : (quote :: s).getLast? = some prev) (h : MapOk l)
      (hr : Waits r) : Occurs prev { stack := .pair (quote :: s) .key :: .map l :: r, pending := none }
  | colon {k : Bytes} {l : List (Bytes × Json)} {r : List PState} (hk : Quotable k) (h : MapOk l) (hr : Waits r) :
      Occurs prev { stack := .pair (quote :: k ++ [quote]) .colon :: .map l :: r, pending := none }
  | value {r : List PState} {j : Json} (hr : Waits r) (hj : Printable j) : Occurs prev { stack := r, pending := some j }

theorem append_printable {l : List Json} {j : Json} (h : ∀ x ∈ l, Printable x) (hj : Printable j) : ∀ x ∈ l ++ [j], Printable x := by
  intro x hx
  rcases List.mem_append.mp hx with hx | hx
  · exact h x hx
  · rw [List.mem_singleton.mp hx]
    exact hj

theorem finalize_word {c : UInt8} {s : Bytes} (hc : c ≠ quote) {j : Json} (h : finalize (c :: s) = .ok j) : ∃ b, j = .bool b := by
  unfold finalize at h
  rw [if_neg (fun h => hc (Option.some.inj h.1))] at h
  split at h
  · cases h
    exact ⟨true, rfl⟩
  · split at h
    · cases h
      exact ⟨false, rfl⟩
    · cases h

/-- a list takes the character `c` after the elements `l` -/
theorem list_round (prev c : UInt8) (l : List Json) (r : List PState) (p : Option Json) (hp : ∀ j, p = some j → Printable j)
    (h : ∀ x ∈ l, Printable x) (hr : Waits r) :
    (∀ m', round prev c { stack := .list l :: r, pending := p } = .next m' → Occurs c m') ∧
    (∀ m', round prev c { stack := .list l :: r, pending := p } = .again m' → Occurs prev m') := by
  have hl : ∀ x ∈ (match p with | some j => l ++ [j] | none => l), Printable x := by
    cases p with
    | none => exact h
    | some j => exact append_printable h (hp j rfl)
  have key : ∀ l' : List Json, (∀ x ∈ l', Printable x) → ∀ q : Round,
      (if isWhitespace c then .next { stack := .list l' :: r, pending := none }
       else if c == closeList then .next { stack := r, pending := some (.list l') }
       else if l'.length == 0 then .again { stack := .any :: .list l' :: r, pending := none }
       else if c == comma then .next { stack := .any :: .list l' :: r, pending := none }
       else .next { stack := .list l' :: r, pending := none }) = q →
      (∀ m', q = .next m' → Occurs c m') ∧ (∀ m', q = .again m' → Occurs prev m') := by
    intro l' hl' q hq
    subst hq
    split
    · exact ⟨fun m' e => (by cases e; exact .list hl' hr), fun m' e => (by cases e)⟩
    split
    · exact ⟨fun m' e => (by cases e; exact .value hr (.list hl')), fun m' e => (by cases e)⟩
    split
    · exact ⟨fun m' e => (by cases e), fun m' e => (by cases e; exact .any (.list hl' hr))⟩
    split
    · exact ⟨fun m' e => (by cases e; exact .any (.list hl' hr)), fun m' e => (by cases e)⟩
    · exact ⟨fun m' e => (by cases e; exact .list hl' hr), fun m' e => (by cases e)⟩
  exact key _ hl _ rfl

/-- every round leads from machines that occur to machines that occur -/
theorem round_occurs (prev c : UInt8) (m : PMachine) (h : Occurs prev m) :
    (∀ m', round prev c m = .next m' → Occurs c m') ∧ (∀ m', round prev c m = .again m' → Occurs prev m') := by
  cases h with
  | any hr =>
    constructor <;> intro m' e <;> dsimp only [round] at e <;> (repeat' split at e) <;> cases e
    · exact .any hr
    · exact .map ⟨fun _ h => (by cases h), List.nodup_nil, fun _ h => (by cases h)⟩ hr
    · exact .list (fun _ h => (by cases h)) hr
    · exact .start hr
  | start hr =>
    refine ⟨fun m' e => ?_, fun m' e => (by cases e)⟩
    have e : Round.next { stack := .single [c] (c == quote) :: _, pending := none } = .next m' := e
    cases e
    by_cases hc : c = quote
    · subst hc
      refine .text (s := []) (fun a b h => ?_) rfl hr
      cases a <;> cases h
    · rw [show (c == quote) = false from by simpa using hc]
      exact .word hc hr
  | @text s r hs hp hr =>
    have hd : ∀ j, finalize (quote :: s ++ [c]) = .ok j → c = quote → j = .str s := by
      rintro j h rfl
      rw [finalize_str] at h
      cases h
      rfl
    constructor <;> intro m' e <;> dsimp only [round] at e <;> rw [if_neg (by simp), if_pos rfl] at e
    · split at e
      · rename_i hc
        rcases Bool.and_eq_true_iff.mp hc with ⟨h1, h2⟩
        split at e
        · cases e
        · rename_i j hj
          cases e
          rw [hd j hj (eq_of_beq h1)]
          exact .value hr (.str (opened_quotable s prev hs hp (bne_iff_ne.mp h2)))
      · rename_i hc
        cases e
        have hc' : c ≠ quote ∨ prev = backslash := by
          by_cases h1 : c = quote
          · by_cases h2 : prev = backslash
            · exact .inr h2
            · exact absurd (Bool.and_eq_true_iff.mpr ⟨beq_iff_eq.mpr h1, bne_iff_ne.mpr h2⟩) hc
          · exact .inl h1
        exact .text (opened_append s c prev hs hp hc') (List.getLast?_concat (l := quote :: s)) hr
    · (repeat' split at e) <;> cases e
  | @word x s r hx hr =>
    constructor <;> intro m' e <;> dsimp only [round] at e <;> rw [if_neg (by simp), if_neg (by decide)] at e
    · (repeat' split at e) <;> cases e
      exact .word hx hr
    · split at e
      · split at e
        · cases e
        · rename_i j hj
          cases e
          obtain ⟨b, rfl⟩ := finalize_word hx hj
          exact .value hr (.bool b)
      · cases e
  | list h hr => exact list_round prev c _ _ none (fun _ h => by cases h) h hr
  | @map l r h hr =>
    constructor <;> intro m' e <;> dsimp only [round] at e <;> (repeat' split at e) <;> cases e
    · exact .map h hr
    · exact .value hr (.map h.keys h.nodup h.values)
    · exact .keyStart h hr
    · exact .keyStart h hr
  | @keyStart l r h hr =>
    constructor <;> intro m' e <;> dsimp only [round] at e <;> (repeat' split at e) <;> cases e
    · exact .keyStart h hr
    · rename_i hc
      have hc : c = quote := by simpa using hc
      subst hc
      refine .key (s := []) (fun a b h => ?_) rfl h hr
      cases a <;> cases h
    all_goals exact absurd rfl ‹¬ (([] : Bytes).length == 0) = true›
  | @key s l r hs hp h hr =>
    constructor <;> intro m' e <;> dsimp only [round] at e <;> rw [if_neg (by simp)] at e
    · split at e
      · rename_i hc
        rcases Bool.and_eq_true_iff.mp hc with ⟨h1, h2⟩
        cases e
        rw [eq_of_beq h1]
        exact .colon (opened_quotable s prev hs hp (bne_iff_ne.mp h2)) h hr
      · rename_i hc
        cases e
        have hc' : c ≠ quote ∨ prev = backslash := by
          by_cases h1 : c = quote
          · by_cases h2 : prev = backslash
            · exact .inr h2
            · exact absurd (Bool.and_eq_true_iff.mpr ⟨beq_iff_eq.mpr h1, bne_iff_ne.mpr h2⟩) hc
          · exact .inl h1
        exact .key (opened_append s c prev hs hp hc') (List.getLast?_concat (l := quote :: s)) h hr
    · (repeat' split at e) <;> cases e
  | @colon k l r hk h hr =>
    constructor <;> intro m' e <;> dsimp only [round] at e <;> (repeat' split at e) <;> cases e
    · exact .colon hk h hr
    · exact .any (.pair hk h hr)
  | @value r j hr hj =>
    cases hr with
    | nil =>
      constructor <;> intro m' e <;> dsimp only [round] at e <;> (repeat' split at e) <;> cases e
      exact .value .nil hj
    | list h hr => exact list_round prev c _ _ (some j) (fun _ h => by cases h; exact hj) h hr
    | @pair k l r hk h hr =>
      have hq : (quote :: k ++ [quote]).head? = some quote ∧ (quote :: k ++ [quote]).getLast? = some quote :=
        ⟨rfl, List.getLast?_concat (l := quote :: k)⟩
      constructor <;> intro m' e <;> dsimp only [round] at e <;> rw [if_pos hq] at e <;> cases e
      have hd : ((quote :: k ++ [quote]).drop 1).dropLast = k := by simp
      rw [hd]
      exact .map (mapOk_put h k j hk hj) hr

theorem feed_occurs (prev c : UInt8) (m m' : PMachine) (h : Occurs prev m) (e : feed prev c m = .ok m') : Occurs c m' := by
  obtain ⟨r, hr⟩ := rounds_enough _ prev c m (Nat.le_refl _)
  rw [feed, hr] at e
  have e : r = .ok m' := e
  subst e
  generalize m.stack.length + 4 = n at hr
  induction n generalizing m with
  | zero => cases hr
  | succ n ih =>
    rw [rounds] at hr
    cases hq : round prev c m with
    | next x =>
      rw [hq] at hr
      cases hr
      exact (round_occurs prev c m h).1 _ hq
    | fail x =>
      rw [hq] at hr
      cases hr
    | again x =>
      rw [hq] at hr
      exact ih x ((round_occurs prev c m h).2 _ hq) hr

theorem feedAll_occurs (prev : UInt8) (input : Bytes) (m m' : PMachine) (h : Occurs prev m) (e : feedAll prev input m = .ok m') :
    ∃ p, Occurs p m' := by
  induction input generalizing prev m with
  | nil =>
    cases e
    exact ⟨prev, h⟩
  | cons c input ih =>
    rw [feedAll] at e
    cases hq : feed prev c m with
    | error x =>
      rw [hq] at e
      cases e
    | ok x =>
      rw [hq] at e
      exact ih c x (feed_occurs prev c m x h hq) e

/-- **C39.** Whatever is parsed is a tree that can be printed; the parser never returns a nil object without an error. -/
theorem c39_parsed (input : Bytes) (r : Option Json) (h : parseOrderedJson input = .ok r) : ∃ j, r = some j ∧ Printable j := by
  unfold parseOrderedJson at h
  cases hq : feedAll 0 input { stack := [.any], pending := none } with
  | error e =>
    rw [hq] at h
    cases h
  | ok m =>
    rw [hq] at h
    dsimp only at h
    split at h
    · cases h
    · rename_i hs
      cases h
      obtain ⟨p, hm⟩ := feedAll_occurs 0 input _ m (.any .nil) hq
      have hs : m.stack = [] := List.length_eq_zero_iff.mp (by simpa using hs)
      cases hm <;> first
        | exact ⟨_, rfl, by assumption⟩
        | cases hs

/-- **C39.** So printing a parsed tree and parsing it again gives the same tree, unless it is a bare boolean. -/
theorem c39_again (input : Bytes) (j : Json) (h : parseOrderedJson input = .ok (some j)) (hb : ∀ b, j ≠ .bool b) :
    parseOrderedJson (jsonString j) = .ok (some j) := by
  obtain ⟨j', e, hj⟩ := c39_parsed input _ h
  cases e
  exact c39_roundtrip j hj hb

/-- the characters that JSON allows between tokens: space, line feed, carriage return, tab -/
def IsSpace (c : UInt8) : Prop := c = 0x20 ∨ c = 0x0a ∨ c = 0x0d ∨ c = 0x09

theorem isWhitespace_of {c : UInt8} (h : IsSpace c) : isWhitespace c = true := by
  rcases h with rfl | rfl | rfl | rfl <;> rfl

theorem Leads.spaces {m : PMachine} (h : ∀ prev c, isWhitespace c = true → round prev c m = .next m) (i : Bytes) :
    ∀ a : Bytes, (∀ c ∈ a, IsSpace c) → Leads m (a ++ i) m i
  | [], _ => .refl _ _
  | c :: a, ha => .trans (.char fun prev => h prev c (isWhitespace_of (ha c (.head _))))
      (Leads.spaces h i a fun c hc => ha c (.tail _ hc))

/-- White space before and after a document does not matter. -/
theorem c39_spaces (j : Json) (hj : Printable j) (hb : ∀ b, j ≠ .bool b) (a b : Bytes) (ha : ∀ c ∈ a, IsSpace c) (hs : ∀ c ∈ b, IsSpace c) :
    parseOrderedJson (a ++ (jsonString j ++ b)) = .ok (some j) := by
  have hc : Closed j := by
    cases j with
    | bool b => exact absurd rfl (hb b)
    | _ => trivial
  obtain ⟨p, h1⟩ := Leads.spaces (any_skips []) (jsonString j ++ b) a ha 0
  obtain ⟨q, h2⟩ := read_value j hj 0 [] b (.inl hc) p
  obtain ⟨r, h3⟩ := Leads.spaces (m := { stack := [], pending := some j }) (fun prev c h => by simp only [round, h, if_true]) [] b hs q
  rw [List.append_nil] at h3
  rw [parseOrderedJson, h1, jsonString, h2, h3]
  rfl

/-- Trees with the same text are the same. -/
theorem c39_injective (a b : Json) (ha : Printable a) (hb : Printable b) (h1 : ∀ x, a ≠ .bool x) (h2 : ∀ x, b ≠ .bool x)
    (h : jsonString a = jsonString b) : a = b := by
  have e1 := c39_roundtrip a ha h1
  rw [h, c39_roundtrip b hb h2] at e1
  cases e1
  rfl

/-! ### Where the parser falls short -/

/-- **A bare boolean is printed but not parsed**, because nothing ends it; with a space after it it is. -/
theorem c39_bool_neg : parseOrderedJson (jsonString (.bool true)) = .error .unfinished ∧
    parseOrderedJson (jsonString (.bool true) ++ [space]) = .ok (some (.bool true)) := ⟨rfl, rfl⟩

/-- **A string that ends with an escaped backslash is not parsed**: `"\\"`. -/
theorem c39_backslash_neg : parseOrderedJson [quote, backslash, backslash, quote] = .error .unfinished := rfl

/-- **An element after a missing comma is dropped**: `["a" "b"]` is read as `["a"]`. -/
theorem c39_comma_neg : parseOrderedJson [openList, quote, 0x61, quote, space, quote, 0x62, quote, closeList] =
    .ok (some (.list [.str [0x61]])) := rfl

/-- **The second of two equal keys is dropped**: `{"a":"x","a":"y"}`. -/
theorem c39_twice_neg : parseOrderedJson ([openMap, quote, 0x61, quote, colon, quote, 0x78, quote, comma, quote, 0x61, quote, colon] ++
    [quote, 0x79, quote, closeMap]) = .ok (some (.map [([0x61], .str [0x78])])) := rfl

/-! ### A concrete tree -/

/-- a map with a list of an escaped string and a boolean, an empty list and a map in it -/
def sample : Json :=
  .map [([0x7a], .list [.str [backslash, quote, 0x61], .bool false]), ([], .list []), ([0x61], .map [([0x62], .bool true)])]

theorem sample_printable : Printable sample := by
  have q : ∀ s, rest quote s = true → Quotable s := fun s h => (quotable_iff s).mpr h
  refine .map ?_ (by decide) ?_
  · intro p hp
    apply q
    rcases hp with _ | ⟨_, _ | ⟨_, _ | ⟨_, hp⟩⟩⟩
    · rfl
    · rfl
    · rfl
    · cases hp
  · intro p hp
    rcases hp with _ | ⟨_, _ | ⟨_, _ | ⟨_, hp⟩⟩⟩
    · refine .list fun x hx => ?_
      rcases hx with _ | ⟨_, _ | ⟨_, hx⟩⟩
      · exact .str (q _ rfl)
      · exact .bool _
      · cases hx
    · exact .list fun x hx => by cases hx
    · refine .map ?_ (by decide) ?_
      · intro p hp
        rcases hp with _ | ⟨_, hp⟩
        · exact q _ rfl
        · cases hp
      · intro p hp
        rcases hp with _ | ⟨_, hp⟩
        · exact .bool _
        · cases hp
    · cases hp

example : parseOrderedJson (jsonString sample) = .ok (some sample) := c39_roundtrip sample sample_printable (fun _ h => by cases h)

end Arwen.Props
