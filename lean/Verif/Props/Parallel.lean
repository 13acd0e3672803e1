import Verif.Spec.Parallel
import Verif.Spec.Driver
import Verif.Props.Config
import Verif.Fixture
/-
C70: requests that come in parallel.
-/
namespace Arwen.Props
open Arwen Arwen.Spec Config
variable {σ R χ A : Type}

/-! ### One pick -/

theorem move_phase (s : Par σ R) (i j : Nat) (p : Phase σ R) :
    ((s.move i p).requests j).phase = if j = i then p else (s.requests j).phase := by
  unfold Par.move; dsimp only; split <;> rfl
theorem move_guard (s : Par σ R) (i j : Nat) (p : Phase σ R) : ((s.move i p).requests j).guard = (s.requests j).guard := by
  unfold Par.move; dsimp only; split
  · rename_i h; subst h; rfl
  · rfl
theorem move_work (s : Par σ R) (i j : Nat) (p : Phase σ R) : ((s.move i p).requests j).work = (s.requests j).work := by
  unfold Par.move; dsimp only; split
  · rename_i h; subst h; rfl
  · rfl
theorem unlock_requests (s : Par σ R) (i : Nat) : (s.unlock i).requests = s.requests := by unfold Par.unlock; split <;> rfl
theorem unlock_state (s : Par σ R) (i : Nat) : (s.unlock i).state = s.state := by unfold Par.unlock; split <;> rfl

/-- what a pick can do -/
inductive Picked (i : Nat) (s : Par σ R) : Par σ R → Prop
  | stays : Picked i s s
  | reads : (s.requests i).phase = .waiting → (s.requests i).guard = .reading → s.writer = none →
      Picked i s { s.move i (.inside (s.requests i).work) with readers := i :: s.readers }
  | announces : (s.requests i).phase = .waiting → (s.requests i).guard = .writing → s.writer = none →
      Picked i s { s.move i .announced with writer := some i }
  | enters : (s.requests i).phase = .waiting → (s.requests i).guard = .none → Picked i s (s.move i (.inside (s.requests i).work))
  | writes : (s.requests i).phase = .announced → s.readers = [] → Picked i s (s.move i (.inside (s.requests i).work))
  | steps (g : σ → σ) (k : σ → Act σ R) : (s.requests i).phase = .inside (.step g k) →
      Picked i s { s.move i (.inside (k s.state)) with state := g s.state }
  | ends (r : R) : (s.requests i).phase = .inside (.done r) →
      Picked i s { (s.move i (.finished r)).unlock i with order := s.order ++ [i] }

theorem pick_any (i : Nat) (s : Par σ R) : Picked i s (s.pick i) := by
  unfold Par.pick
  cases h : (s.requests i).phase with
  | waiting =>
    dsimp only
    cases hg : (s.requests i).guard with
    | reading =>
      dsimp only
      cases hw : s.writer with
      | none => exact .reads h hg hw
      | some w => exact .stays
    | writing =>
      dsimp only
      cases hw : s.writer with
      | none => exact .announces h hg hw
      | some w => exact .stays
    | none => exact .enters h hg
  | announced =>
    dsimp only
    cases hr : s.readers with
    | nil => exact .writes h hr
    | cons a l => exact .stays
  | inside a =>
    cases a with
    | done r => exact .ends r h
    | step g k => exact .steps g k h
  | finished r => exact .stays

theorem picks_nil (s : Par σ R) : s.picks [] = s := rfl
theorem picks_cons (i : Nat) (is : List Nat) (s : Par σ R) : s.picks (i :: is) = (s.pick i).picks is := rfl
theorem picks_append (is js : List Nat) (s : Par σ R) : s.picks (is ++ js) = (s.picks is).picks js := by
  unfold Par.picks; exact List.foldl_append ..

theorem pick_guard (i j : Nat) (s : Par σ R) : ((s.pick i).requests j).guard = (s.requests j).guard := by
  have h := pick_any i s
  generalize s.pick i = t at h
  cases h with
  | stays => rfl
  | ends r h => dsimp only; rw [unlock_requests]; exact move_guard ..
  | _ => exact move_guard ..
theorem pick_work (i j : Nat) (s : Par σ R) : ((s.pick i).requests j).work = (s.requests j).work := by
  have h := pick_any i s
  generalize s.pick i = t at h
  cases h with
  | stays => rfl
  | ends r h => dsimp only; rw [unlock_requests]; exact move_work ..
  | _ => exact move_work ..
theorem picks_guard (is : List Nat) (j : Nat) (s : Par σ R) : ((s.picks is).requests j).guard = (s.requests j).guard := by
  induction is generalizing s with
  | nil => rfl
  | cons i is ih => rw [picks_cons, ih, pick_guard]
theorem picks_work (is : List Nat) (j : Nat) (s : Par σ R) : ((s.picks is).requests j).work = (s.requests j).work := by
  induction is generalizing s with
  | nil => rfl
  | cons i is ih => rw [picks_cons, ih, pick_work]

/-- a pick changes the phase of no other request -/
theorem pick_other {i j : Nat} (hne : j ≠ i) (s : Par σ R) : ((s.pick i).requests j).phase = (s.requests j).phase := by
  have h := pick_any i s
  generalize s.pick i = t at h
  cases h with
  | stays => rfl
  | ends r h => dsimp only; rw [unlock_requests, move_phase, if_neg hne]
  | _ => (try dsimp only); rw [move_phase, if_neg hne]

/-- a finished request stays finished -/
theorem pick_finished {i j : Nat} {r : R} {s : Par σ R} (h : (s.requests j).phase = .finished r) :
    ((s.pick i).requests j).phase = .finished r := by
  by_cases hij : j = i
  · subst hij; unfold Par.pick; rw [h]; exact h
  · rw [pick_other hij, h]
theorem picks_finished {is : List Nat} {j : Nat} {r : R} {s : Par σ R} (h : (s.requests j).phase = .finished r) :
    ((s.picks is).requests j).phase = .finished r := by
  induction is generalizing s with
  | nil => exact h
  | cons i is ih => exact ih (pick_finished h)

/-! ### The mutex -/

/-- the mutex knows who is inside -/
structure Locked (s : Par σ R) : Prop where
  readers : ∀ i, i ∈ s.readers ↔ (s.requests i).guard = .reading ∧ Working s i
  nodup : s.readers.Nodup
  writer : ∀ i, s.writer = some i ↔ (s.requests i).guard = .writing ∧ ((s.requests i).phase = .announced ∨ Working s i)
  announced : ∀ i, (s.requests i).phase = .announced → (s.requests i).guard = .writing
  alone : ∀ i, (s.requests i).guard = .writing → Working s i → s.readers = []

theorem start_locked (a : σ) (g : Nat → Guard) (w : Nat → Act σ R) : Locked (.start a g w) := by
  refine ⟨fun i => ?_, .nil, fun i => ?_, fun i h => ?_, fun i _ h => ?_⟩
  · constructor
    · intro h; cases h
    · rintro ⟨_, a, h⟩; cases h
  · constructor
    · intro h; cases h
    · rintro ⟨_, h | ⟨a, h⟩⟩ <;> cases h
  · cases h
  · obtain ⟨a, h⟩ := h; cases h

theorem working_move {s : Par σ R} {i j : Nat} {p : Phase σ R} :
    (∃ a, ((s.move i p).requests j).phase = .inside a) ↔ if j = i then ∃ a, p = .inside a else Working s j := by
  simp only [move_phase, Working]
  split <;> rfl

theorem pick_locked (i : Nat) {s : Par σ R} (hs : Locked s) : Locked (s.pick i) := by
  have h := pick_any i s
  generalize s.pick i = t at h
  cases h with
  | stays => exact hs
  | reads hp hg hw =>
    have hni : i ∉ s.readers := by
      intro h; obtain ⟨_, a, h⟩ := (hs.readers i).mp h; rw [hp] at h; cases h
    have hnw : ∀ j, (s.requests j).guard = .writing → ¬ ((s.requests j).phase = .announced ∨ Working s j) := by
      intro j h1 h2
      have := (hs.writer j).mpr ⟨h1, h2⟩
      rw [hw] at this; cases this
    refine ⟨fun j => ?_, List.nodup_cons.mpr ⟨hni, hs.nodup⟩, fun j => ?_, fun j h => ?_, fun j h1 h2 => ?_⟩
    · unfold Working
      dsimp only
      rw [move_guard, working_move, List.mem_cons]
      by_cases hij : j = i
      · subst hij; simp [hg]
      · simp [hij, hs.readers j]
    · unfold Working
      dsimp only
      rw [move_guard, working_move, move_phase]
      show s.writer = some j ↔ _
      rw [hw]
      constructor
      · intro h; cases h
      · rintro ⟨h1, h2⟩
        by_cases hij : j = i
        · subst hij; rw [hg] at h1; cases h1
        · rw [if_neg hij, if_neg hij] at h2; exact absurd h2 (hnw j h1)
    · dsimp only at h
      rw [move_phase] at h
      by_cases hij : j = i
      · rw [if_pos hij] at h; cases h
      · rw [if_neg hij] at h; dsimp only; rw [move_guard]; exact hs.announced j h
    · unfold Working at h2
      dsimp only at h1 h2
      rw [move_guard] at h1
      rw [working_move] at h2
      by_cases hij : j = i
      · subst hij; rw [hg] at h1; cases h1
      · rw [if_neg hij] at h2; exact absurd (.inr h2) (hnw j h1)
  | announces hp hg hw =>
    have hnw : ∀ j, (s.requests j).guard = .writing → ¬ ((s.requests j).phase = .announced ∨ Working s j) := by
      intro j h1 h2
      have := (hs.writer j).mpr ⟨h1, h2⟩
      rw [hw] at this; cases this
    refine ⟨fun j => ?_, hs.nodup, fun j => ?_, fun j h => ?_, fun j h1 h2 => ?_⟩
    · unfold Working
      dsimp only
      rw [move_guard, working_move]
      show j ∈ s.readers ↔ _
      rw [hs.readers j]
      by_cases hij : j = i
      · subst hij; simp [hg]
      · rw [if_neg hij]
    · unfold Working
      dsimp only
      rw [move_guard, working_move, move_phase]
      constructor
      · intro h
        cases h
        exact ⟨hg, .inl (by rw [if_pos rfl])⟩
      · rintro ⟨h1, h2⟩
        by_cases hij : j = i
        · rw [hij]
        · rw [if_neg hij, if_neg hij] at h2; exact absurd h2 (hnw j h1)
    · dsimp only at h
      rw [move_phase] at h
      by_cases hij : j = i
      · dsimp only; rw [move_guard, hij]; exact hg
      · rw [if_neg hij] at h; dsimp only; rw [move_guard]; exact hs.announced j h
    · unfold Working at h2
      dsimp only at h1 h2
      rw [move_guard] at h1
      rw [working_move] at h2
      by_cases hij : j = i
      · rw [if_pos hij] at h2; obtain ⟨a, h⟩ := h2; cases h
      · rw [if_neg hij] at h2; exact absurd (.inr h2) (hnw j h1)
  | enters hp hg =>
    refine ⟨fun j => ?_, hs.nodup, fun j => ?_, fun j h => ?_, fun j h1 h2 => ?_⟩
    · unfold Working
      rw [move_guard, working_move]
      show j ∈ s.readers ↔ _
      rw [hs.readers j]
      by_cases hij : j = i
      · subst hij; simp [hg]
      · rw [if_neg hij]
    · unfold Working
      rw [move_guard, working_move, move_phase]
      show s.writer = some j ↔ _
      rw [hs.writer j]
      by_cases hij : j = i
      · subst hij; simp [hg]
      · rw [if_neg hij, if_neg hij]
    · rw [move_phase] at h
      by_cases hij : j = i
      · rw [if_pos hij] at h; cases h
      · rw [if_neg hij] at h; rw [move_guard]; exact hs.announced j h
    · unfold Working at h2
      rw [move_guard] at h1
      rw [working_move] at h2
      by_cases hij : j = i
      · subst hij; rw [hg] at h1; cases h1
      · rw [if_neg hij] at h2; exact hs.alone j h1 h2
  | writes hp hr =>
    have hg := hs.announced i hp
    have hw := (hs.writer i).mpr ⟨hg, .inl hp⟩
    refine ⟨fun j => ?_, hs.nodup, fun j => ?_, fun j h => ?_, fun j h1 h2 => hr⟩
    · unfold Working
      rw [move_guard, working_move]
      show j ∈ s.readers ↔ _
      rw [hs.readers j]
      by_cases hij : j = i
      · subst hij; simp [hg]
      · rw [if_neg hij]
    · unfold Working
      rw [move_guard, working_move, move_phase]
      show s.writer = some j ↔ _
      by_cases hij : j = i
      · subst hij; simp [hg, hw]
      · rw [if_neg hij, if_neg hij]; exact hs.writer j
    · rw [move_phase] at h
      by_cases hij : j = i
      · rw [if_pos hij] at h; cases h
      · rw [if_neg hij] at h; rw [move_guard]; exact hs.announced j h
  | steps g k hp =>
    have hwk : ∀ j, (if j = i then ∃ a, (Phase.inside (k s.state) : Phase σ R) = .inside a else Working s j) ↔ Working s j := by
      intro j
      by_cases hij : j = i
      · subst hij; rw [if_pos rfl]; exact ⟨fun _ => ⟨_, hp⟩, fun _ => ⟨_, rfl⟩⟩
      · rw [if_neg hij]
    refine ⟨fun j => ?_, hs.nodup, fun j => ?_, fun j h => ?_, fun j h1 h2 => ?_⟩
    · unfold Working
      dsimp only
      rw [move_guard, working_move, hwk]
      exact hs.readers j
    · unfold Working
      dsimp only
      rw [move_guard, working_move, hwk, move_phase]
      show s.writer = some j ↔ _
      rw [hs.writer j]
      by_cases hij : j = i
      · subst hij; simp [hp]
      · rw [if_neg hij]
    · dsimp only at h
      rw [move_phase] at h
      by_cases hij : j = i
      · rw [if_pos hij] at h; cases h
      · rw [if_neg hij] at h; dsimp only; rw [move_guard]; exact hs.announced j h
    · unfold Working at h2
      dsimp only at h1 h2
      rw [move_guard] at h1
      rw [working_move, hwk] at h2
      exact hs.alone j h1 h2
  | ends r hp =>
    have hwi : Working s i := ⟨_, hp⟩
    have hwk : ∀ j, (∃ a, ((s.move i (.finished r)).requests j).phase = .inside a) ↔ j ≠ i ∧ Working s j := by
      intro j
      rw [working_move]
      by_cases hij : j = i
      · simp [hij]
      · simp [hij]
    have hann : ∀ j, ((s.move i (.finished r)).requests j).phase = .announced ↔ (s.requests j).phase = .announced := by
      intro j
      rw [move_phase]
      by_cases hij : j = i
      · subst hij; simp [hp]
      · rw [if_neg hij]
    have e1 : ((s.move i (.finished r)).requests i).guard = (s.requests i).guard := move_guard ..
    have ereq := unlock_requests (s.move i (.finished r)) i
    have hread : ∀ j, j ∈ ((s.move i (.finished r)).unlock i).readers ↔ j ≠ i ∧ j ∈ s.readers := by
      intro j
      unfold Par.unlock
      rw [e1]
      cases hg : (s.requests i).guard with
      | reading => exact hs.nodup.mem_erase_iff
      | writing =>
        show j ∈ s.readers ↔ _
        rw [hs.alone i hg hwi]; simp
      | none =>
        show j ∈ s.readers ↔ _
        constructor
        · intro h
          refine ⟨?_, h⟩
          rintro rfl
          have := ((hs.readers j).mp h).1
          rw [hg] at this; cases this
        · exact fun h => h.2
    have hwr : ∀ j, ((s.move i (.finished r)).unlock i).writer = some j ↔ j ≠ i ∧ s.writer = some j := by
      intro j
      unfold Par.unlock
      rw [e1]
      cases hg : (s.requests i).guard with
      | reading =>
        show s.writer = some j ↔ _
        constructor
        · intro h
          refine ⟨?_, h⟩
          rintro rfl
          have := ((hs.writer j).mp h).1
          rw [hg] at this; cases this
        · exact fun h => h.2
      | writing =>
        show (none : Option Nat) = some j ↔ _
        have := (hs.writer i).mpr ⟨hg, .inr hwi⟩
        rw [this]
        constructor
        · intro h; cases h
        · rintro ⟨h1, h2⟩; cases h2; exact absurd rfl h1
      | none =>
        show s.writer = some j ↔ _
        constructor
        · intro h
          refine ⟨?_, h⟩
          rintro rfl
          have := ((hs.writer j).mp h).1
          rw [hg] at this; cases this
        · exact fun h => h.2
    refine ⟨fun j => ?_, ?_, fun j => ?_, fun j h => ?_, fun j h1 h2 => ?_⟩
    · unfold Working
      dsimp only
      rw [hread, ereq, move_guard, hwk, hs.readers j]
      constructor
      · rintro ⟨h1, h2, h3⟩; exact ⟨h2, h1, h3⟩
      · rintro ⟨h2, h1, h3⟩; exact ⟨h1, h2, h3⟩
    · dsimp only
      unfold Par.unlock
      split
      · exact hs.nodup.erase i
      · exact hs.nodup
      · exact hs.nodup
    · unfold Working
      dsimp only
      rw [hwr, ereq, move_guard, hwk, hann, hs.writer j]
      constructor
      · rintro ⟨h1, h2, h3⟩; exact ⟨h2, h3.imp id fun h => ⟨h1, h⟩⟩
      · rintro ⟨h2, h3⟩
        refine ⟨?_, h2, h3.imp id fun h => h.2⟩
        rcases h3 with h3 | h3
        · rintro rfl; rw [hp] at h3; cases h3
        · exact h3.1
    · dsimp only at h ⊢
      rw [ereq] at h ⊢
      rw [hann] at h
      rw [move_guard]
      exact hs.announced j h
    · unfold Working at h2
      dsimp only at h1 h2 ⊢
      rw [ereq, move_guard] at h1
      rw [ereq, hwk] at h2
      have h4 := hs.alone j h1 h2.2
      have h3 := hread
      rw [h4] at h3
      cases hl : ((s.move i (.finished r)).unlock i).readers with
      | nil => rfl
      | cons a l =>
        have := (h3 a).mp (by rw [hl]; exact List.mem_cons_self ..)
        exact absurd this.2 (by simp)

theorem picks_locked {is : List Nat} {s : Par σ R} (hs : Locked s) : Locked (s.picks is) := by
  induction is generalizing s with
  | nil => exact hs
  | cons i is ih => exact ih (pick_locked i hs)

/-! ### One after the other -/

/-- at most one request is at work -/
def Single (s : Par σ R) : Prop := ∀ i j, Working s i → Working s j → i = j

theorem single_of {s : Par σ R} (hs : Locked s) (hn : ∀ i, (s.requests i).guard ≠ .none)
    (h : ∀ i j, (s.requests i).guard = .reading → (s.requests j).guard = .reading → Working s i → Working s j → i = j) : Single s := by
  intro i j hi hj
  cases hgi : (s.requests i).guard with
  | none => exact absurd hgi (hn i)
  | reading =>
    cases hgj : (s.requests j).guard with
    | none => exact absurd hgj (hn j)
    | reading => exact h i j hgi hgj hi hj
    | writing =>
      have h1 := hs.alone j hgj hj
      have h2 := (hs.readers i).mpr ⟨hgi, hi⟩
      rw [h1] at h2; cases h2
  | writing =>
    have h1 := hs.alone i hgi hi
    cases hgj : (s.requests j).guard with
    | none => exact absurd hgj (hn j)
    | reading =>
      have h2 := (hs.readers j).mpr ⟨hgj, hj⟩
      rw [h1] at h2; cases h2
    | writing =>
      have h2 := (hs.writer i).mpr ⟨hgi, .inr hi⟩
      have h3 := (hs.writer j).mpr ⟨hgj, .inr hj⟩
      rw [h2] at h3
      exact Option.some.inj h3

theorem oneByOne_snoc (f : Nat → σ → R × σ) (is : List Nat) (i : Nat) (s : σ) :
    oneByOne f (is ++ [i]) s = ((oneByOne f is s).1 ++ [(i, (f i (oneByOne f is s).2).1)], (f i (oneByOne f is s).2).2) := by
  induction is generalizing s with
  | nil => rfl
  | cons j is ih =>
    show ((j, (f j s).1) :: (oneByOne f (is ++ [i]) (f j s).2).1, (oneByOne f (is ++ [i]) (f j s).2).2) = _
    rw [ih]; rfl

/-- what was done so far was done one after the other -/
structure Serial (f : Nat → σ → R × σ) (a : σ) (s : Par σ R) : Prop where
  work : ∀ i x, (s.requests i).work.run x = f i x
  results : ∀ i r, Finished s i r ↔ (i, r) ∈ (oneByOne f s.order a).1
  idle : (∀ i, ¬ Working s i) → s.state = (oneByOne f s.order a).2
  busy : ∀ i p, (s.requests i).phase = .inside p → p.run s.state = f i (oneByOne f s.order a).2

theorem start_serial (f : Nat → σ → R × σ) (a : σ) (g : Nat → Guard) (w : Nat → Act σ R) (hw : ∀ i x, (w i).run x = f i x) :
    Serial f a (.start a g w) := by
  refine ⟨hw, fun i r => ?_, fun _ => rfl, fun i p h => ?_⟩
  · constructor
    · intro h; cases h
    · intro h; cases h
  · cases h

theorem answered_move {s : Par σ R} {i j : Nat} {p : Phase σ R} {r : R} :
    ((s.move i p).requests j).phase = .finished r ↔ if j = i then p = .finished r else Finished s j r := by
  rw [move_phase]; unfold Finished; split <;> rfl

/-- moving a request that has not finished to another phase before the end -/
theorem results_move {f : Nat → σ → R × σ} {a : σ} {s : Par σ R} (h : Serial f a s) {i : Nat} {p : Phase σ R}
    (h1 : ∀ r, (s.requests i).phase ≠ .finished r) (h2 : ∀ r, p ≠ .finished r) (j : Nat) (r : R) :
    ((s.move i p).requests j).phase = .finished r ↔ (j, r) ∈ (oneByOne f s.order a).1 := by
  rw [answered_move, ← h.results j r]
  by_cases hij : j = i
  · subst hij; rw [if_pos rfl]; exact ⟨fun h => absurd h (h2 r), fun h => absurd h (h1 r)⟩
  · rw [if_neg hij]

theorem pick_serial {f : Nat → σ → R × σ} {a : σ} {s : Par σ R} (i : Nat) (h : Serial f a s) (hn : ∀ i, (s.requests i).guard ≠ .none)
    (h1 : Single s) (h2 : Single (s.pick i)) : Serial f a (s.pick i) := by
  have hp := pick_any i s
  have hwork : ∀ j x, ((s.pick i).requests j).work.run x = f j x := fun j x => by rw [pick_work]; exact h.work j x
  generalize s.pick i = t at hp h2 hwork
  have enter : ∀ (t : Par σ R), (t.requests = (s.move i (.inside (s.requests i).work)).requests) → t.state = s.state → t.order = s.order →
      (∀ b, (s.requests i).phase ≠ .inside b) → (∀ r, (s.requests i).phase ≠ .finished r) → Single t → (∀ j x, (t.requests j).work.run x = f j x) →
      Serial f a t := by
    intro t er es eo hb hf h2 hwork
    have hwi : Working t i := by
      refine ⟨(s.requests i).work, ?_⟩; rw [er, move_phase, if_pos rfl]
    refine ⟨hwork, fun j r => ?_, fun hi => absurd hwi (hi i), fun j p hj => ?_⟩
    · unfold Finished
      rw [er, eo]
      exact results_move h hf (by intro r h; cases h) j r
    · have hji : j = i := h2 j i ⟨p, hj⟩ hwi
      subst hji
      rw [er, move_phase, if_pos rfl] at hj
      cases hj
      rw [es, eo, h.work]
      rw [h.idle]
      intro k hk
      have hkj : k ≠ j := by rintro rfl; obtain ⟨b, hk⟩ := hk; exact hb b hk
      refine hkj (h2 k j ?_ hwi)
      obtain ⟨b, hk⟩ := hk
      exact ⟨b, by rw [er, move_phase, if_neg hkj]; exact hk⟩
  cases hp with
  | stays => exact h
  | reads hp hg hw =>
    exact enter _ rfl rfl rfl (by intro b; rw [hp]; intro h; cases h) (by intro b; rw [hp]; intro h; cases h) h2 hwork
  | enters hp hg => exact absurd hg (hn i)
  | writes hp hr =>
    exact enter _ rfl rfl rfl (by intro b; rw [hp]; intro h; cases h) (by intro b; rw [hp]; intro h; cases h) h2 hwork
  | announces hp hg hw =>
    have hf : ∀ r, (s.requests i).phase ≠ .finished r := by intro b; rw [hp]; intro h; cases h
    have hwk : ∀ j b, ((s.move i .announced).requests j).phase = .inside b ↔ (s.requests j).phase = .inside b := by
      intro j b
      rw [move_phase]
      by_cases hij : j = i
      · subst hij; rw [if_pos rfl, hp]; constructor <;> (intro h; cases h)
      · rw [if_neg hij]
    refine ⟨hwork, fun j r => results_move h hf (by intro r h; cases h) j r, fun hi => h.idle fun j hj => ?_, fun j p hj => ?_⟩
    · obtain ⟨b, hj⟩ := hj; exact hi j ⟨b, (hwk j b).mpr hj⟩
    · exact h.busy j p ((hwk j p).mp hj)
  | steps g k hp =>
    have hf : ∀ r, (s.requests i).phase ≠ .finished r := by intro b; rw [hp]; intro h; cases h
    have hwi : Working ({ s.move i (.inside (k s.state)) with state := g s.state } : Par σ R) i :=
      ⟨_, by dsimp only; rw [move_phase, if_pos rfl]⟩
    refine ⟨hwork, fun j r => results_move h hf (by intro r h; cases h) j r, fun hi => absurd hwi (hi i), fun j p hj => ?_⟩
    have hji : j = i := h2 j i ⟨p, hj⟩ hwi
    subst hji
    dsimp only at hj
    rw [move_phase, if_pos rfl] at hj
    cases hj
    exact h.busy j _ hp
  | ends r hp =>
    have hb := h.busy i _ hp
    have hb1 : (f i (oneByOne f s.order a).2).1 = r := by rw [← hb]; rfl
    have hb2 : (f i (oneByOne f s.order a).2).2 = s.state := by rw [← hb]; rfl
    have ereq := unlock_requests (s.move i (.finished r)) i
    have hni : ∀ j, ¬ Working ({ (s.move i (.finished r)).unlock i with order := s.order ++ [i] } : Par σ R) j := by
      rintro j ⟨b, hj⟩
      dsimp only at hj
      rw [ereq, move_phase] at hj
      by_cases hij : j = i
      · rw [if_pos hij] at hj; cases hj
      · rw [if_neg hij] at hj; exact hij (h1 j i ⟨b, hj⟩ ⟨_, hp⟩)
    refine ⟨hwork, fun j q => ?_, fun _ => ?_, fun j p hj => absurd ⟨p, hj⟩ (hni j)⟩
    · unfold Finished
      dsimp only
      rw [ereq, answered_move, oneByOne_snoc, hb1, List.mem_append, List.mem_singleton, ← h.results]
      by_cases hij : j = i
      · subst hij
        rw [if_pos rfl]
        constructor
        · intro h; cases h; exact .inr rfl
        · rintro (h | h)
          · unfold Finished at h; rw [hp] at h; cases h
          · cases h; rfl
      · rw [if_neg hij]
        constructor
        · exact .inl
        · rintro (h | h)
          · exact h
          · cases h; exact absurd rfl hij
    · dsimp only
      rw [unlock_state, oneByOne_snoc]
      exact hb2.symm

theorem picks_serial {f : Nat → σ → R × σ} {a : σ} {is : List Nat} {s : Par σ R} (h : Serial f a s) (hl : Locked s)
    (hn : ∀ i, (s.requests i).guard ≠ .none) (hA : NoOverlap s is) : Serial f a (s.picks is) := by
  induction is generalizing s with
  | nil => exact h
  | cons i is ih =>
    have hn' : ∀ j, ((s.pick i).requests j).guard ≠ .none := fun j => by rw [pick_guard]; exact hn j
    have hl' := pick_locked i hl
    have hA' : NoOverlap (s.pick i) is := by
      intro pre hpre j k hj hk
      rw [pick_guard] at hj hk
      exact hA (i :: pre) (List.cons_prefix_cons.mpr ⟨rfl, hpre⟩) j k hj hk
    refine ih (pick_serial i h hn (single_of hl hn ?_) (single_of hl' hn' ?_)) hl' hn' hA'
    · exact hA [] (List.nil_prefix)
    · exact fun j k hj hk => hA' [] List.nil_prefix j k hj hk

/-! ### What only writers touch -/

/-- what the writers among some requests make of a part of the state -/
def written {γ : Type} (g : Nat → Guard) (F : Nat → γ → γ) (is : List Nat) (x : γ) : γ :=
  is.foldl (fun x i => if g i = .writing then F i x else x) x

theorem written_snoc {γ : Type} (g : Nat → Guard) (F : Nat → γ → γ) (is : List Nat) (i : Nat) (x : γ) :
    written g F (is ++ [i]) x = if g i = .writing then F i (written g F is x) else written g F is x := by
  unfold written; rw [List.foldl_append]; rfl

structure Whole {γ : Type} (part : σ → γ) (g : Nat → Guard) (F : Nat → γ → γ) (x : γ) (s : Par σ R) : Prop where
  guard : ∀ i, (s.requests i).guard = g i
  work : ∀ i, g i = .writing → ∀ h, part ((s.requests i).work.run h).2 = F i (part h)
  leaves : ∀ i, g i = .reading → Leaves part (s.requests i).work
  inside : ∀ i p, g i = .reading → (s.requests i).phase = .inside p → Leaves part p
  free : (∀ i, g i = .writing → ¬ Working s i) → part s.state = written g F s.order x
  busy : ∀ i p, g i = .writing → (s.requests i).phase = .inside p → part (p.run s.state).2 = F i (written g F s.order x)

theorem pick_whole {γ : Type} {part : σ → γ} {g : Nat → Guard} {F : Nat → γ → γ} {x : γ} {s : Par σ R} (i : Nat)
    (h : Whole part g F x s) (hn : ∀ i, g i ≠ .none) (hl : Locked s) : Whole part g F x (s.pick i) := by
  have hp := pick_any i s
  have e1 : ∀ j, ((s.pick i).requests j).guard = g j := fun j => by rw [pick_guard]; exact h.guard j
  have e2 : ∀ j, g j = .writing → ∀ y, part (((s.pick i).requests j).work.run y).2 = F j (part y) :=
    fun j hj y => by rw [pick_work]; exact h.work j hj y
  have e3 : ∀ j, g j = .reading → Leaves part ((s.pick i).requests j).work := fun j hj => by rw [pick_work]; exact h.leaves j hj
  -- a writer at work is alone
  have only : ∀ j k, g j = .writing → Working s j → Working s k → k = j := by
    intro j k hj hwj hwk
    have hj' : (s.requests j).guard = .writing := by rw [h.guard]; exact hj
    cases hk : g k with
    | none => exact absurd hk (hn k)
    | reading =>
      have h1 := hl.alone j hj' hwj
      have h2 := (hl.readers k).mpr ⟨by rw [h.guard]; exact hk, hwk⟩
      rw [h1] at h2; cases h2
    | writing =>
      have h1 := (hl.writer j).mpr ⟨hj', .inr hwj⟩
      have h2 := (hl.writer k).mpr ⟨by rw [h.guard]; exact hk, .inr hwk⟩
      rw [h1] at h2; exact (Option.some.inj h2).symm
  generalize s.pick i = t at hp e1 e2 e3
  cases hp with
  | stays => exact h
  | reads hp hg hw =>
    have hgi : g i = .reading := by rw [← h.guard]; exact hg
    have nowriter : ∀ j, g j = .writing → ¬ Working s j := by
      intro j hj hwj
      have := (hl.writer j).mpr ⟨by rw [h.guard]; exact hj, .inr hwj⟩
      rw [hw] at this; cases this
    refine ⟨e1, e2, e3, fun j p hj hp' => ?_, fun _ => h.free nowriter, fun j p hj hp' => ?_⟩
    · dsimp only at hp'
      rw [move_phase] at hp'
      by_cases hij : j = i
      · subst hij; rw [if_pos rfl] at hp'; cases hp'; exact h.leaves j hj
      · rw [if_neg hij] at hp'; exact h.inside j p hj hp'
    · dsimp only at hp'
      rw [move_phase] at hp'
      by_cases hij : j = i
      · subst hij; rw [hgi] at hj; cases hj
      · rw [if_neg hij] at hp'; exact absurd ⟨p, hp'⟩ (nowriter j hj)
  | enters hp hg => exact absurd (by rw [← h.guard]; exact hg) (hn i)
  | announces hp hg hw =>
    have hwk : ∀ j b, ((s.move i .announced).requests j).phase = .inside b ↔ (s.requests j).phase = .inside b := by
      intro j b
      rw [move_phase]
      by_cases hij : j = i
      · subst hij; rw [if_pos rfl, hp]; constructor <;> (intro h; cases h)
      · rw [if_neg hij]
    refine ⟨e1, e2, e3, fun j p hj hp' => h.inside j p hj ((hwk j p).mp hp'), fun hf => h.free fun j hj hw => ?_,
      fun j p hj hp' => h.busy j p hj ((hwk j p).mp hp')⟩
    obtain ⟨b, hw⟩ := hw
    exact hf j hj ⟨b, (hwk j b).mpr hw⟩
  | writes hp hr =>
    have hgi : g i = .writing := by rw [← h.guard]; exact hl.announced i hp
    have hwi : s.writer = some i := (hl.writer i).mpr ⟨hl.announced i hp, .inl hp⟩
    have nowriter : ∀ j, g j = .writing → ¬ Working s j := by
      intro j hj hwj
      have := (hl.writer j).mpr ⟨by rw [h.guard]; exact hj, .inr hwj⟩
      rw [hwi] at this
      cases this
      obtain ⟨b, hwj⟩ := hwj
      rw [hp] at hwj; cases hwj
    refine ⟨e1, e2, e3, fun j p hj hp' => ?_, fun hf => absurd ⟨(s.requests i).work, by rw [move_phase, if_pos rfl]⟩ (hf i hgi),
      fun j p hj hp' => ?_⟩
    · rw [move_phase] at hp'
      by_cases hij : j = i
      · subst hij; rw [hgi] at hj; cases hj
      · rw [if_neg hij] at hp'; exact h.inside j p hj hp'
    · rw [move_phase] at hp'
      by_cases hij : j = i
      · subst hij; rw [if_pos rfl] at hp'; cases hp'
        show part ((s.requests j).work.run s.state).2 = F j (written g F s.order x)
        rw [h.work j hj, h.free nowriter]
      · rw [if_neg hij] at hp'; exact absurd ⟨p, hp'⟩ (nowriter j hj)
  | steps gg k hp =>
    have hwi : Working s i := ⟨_, hp⟩
    refine ⟨e1, e2, e3, fun j p hj hp' => ?_, fun hf => ?_, fun j p hj hp' => ?_⟩
    · dsimp only at hp'
      rw [move_phase] at hp'
      by_cases hij : j = i
      · subst hij; rw [if_pos rfl] at hp'; cases hp'; exact (h.inside j _ hj hp).2 _
      · rw [if_neg hij] at hp'; exact h.inside j p hj hp'
    · have hgi : g i = .reading := by
        cases hg : g i with
        | reading => rfl
        | none => exact absurd hg (hn i)
        | writing => exact absurd ⟨_, by dsimp only; rw [move_phase, if_pos rfl]⟩ (hf i hg)
      dsimp only
      rw [(h.inside i _ hgi hp).1 s.state]
      refine h.free fun j hj hwj => ?_
      have := only j i hj hwj hwi
      subst this
      rw [hgi] at hj; cases hj
    · dsimp only at hp'
      rw [move_phase] at hp'
      by_cases hij : j = i
      · subst hij; rw [if_pos rfl] at hp'; cases hp'; exact h.busy j _ hj hp
      · rw [if_neg hij] at hp'; exact absurd (only j i hj ⟨p, hp'⟩ hwi).symm hij
  | ends r hp =>
    have hwi : Working s i := ⟨_, hp⟩
    have ereq := unlock_requests (s.move i (.finished r)) i
    refine ⟨e1, e2, e3, fun j p hj hp' => ?_, fun hf => ?_, fun j p hj hp' => ?_⟩
    · dsimp only at hp'
      rw [ereq, move_phase] at hp'
      by_cases hij : j = i
      · rw [if_pos hij] at hp'; cases hp'
      · rw [if_neg hij] at hp'; exact h.inside j p hj hp'
    · dsimp only
      rw [unlock_state, written_snoc]
      show part s.state = _
      by_cases hgi : g i = .writing
      · rw [if_pos hgi]; exact h.busy i _ hgi hp
      · rw [if_neg hgi]
        refine h.free fun j hj hwj => ?_
        have := only j i hj hwj hwi
        subst this
        exact hgi hj
    · dsimp only at hp'
      rw [ereq, move_phase] at hp'
      by_cases hij : j = i
      · rw [if_pos hij] at hp'; cases hp'
      · rw [if_neg hij] at hp'; exact absurd (only j i hj ⟨p, hp'⟩ hwi).symm hij

theorem picks_whole {γ : Type} {part : σ → γ} {g : Nat → Guard} {F : Nat → γ → γ} {x : γ} {is : List Nat} {s : Par σ R}
    (h : Whole part g F x s) (hn : ∀ i, g i ≠ .none) (hl : Locked s) : Whole part g F x (s.picks is) := by
  induction is generalizing s with
  | nil => exact h
  | cons i is ih => exact ih (pick_whole i h hn hl) (pick_locked i hl)

/-- Once a request is at work it stays so until it has finished. -/
theorem working_until {i j : Nat} {s : Par σ R} (h : Working s i) : Working (s.pick j) i ∨ ∃ r, Finished (s.pick j) i r := by
  obtain ⟨a, h⟩ := h
  by_cases hij : i = j
  · subst hij
    unfold Par.pick Working Finished
    rw [h]
    cases a with
    | done r => exact .inr ⟨r, by dsimp only; rw [unlock_requests, move_phase, if_pos rfl]⟩
    | step g k => exact .inl ⟨_, by dsimp only; rw [move_phase, if_pos rfl]⟩
  · exact .inl ⟨a, by rw [pick_other hij]; exact h⟩

theorem working_still {i j : Nat} {is : List Nat} {s : Par σ R} (h : Working s i) (h' : Working (s.picks (j :: is)) i) : Working (s.pick j) i := by
  rcases working_until (j := j) h with h1 | ⟨r, h1⟩
  · exact h1
  · obtain ⟨a, h'⟩ := h'
    rw [picks_cons, picks_finished h1] at h'; cases h'

/-- While a reader is at work, nothing that only writers touch changes. -/
theorem whole_constant {γ : Type} {part : σ → γ} {g : Nat → Guard} {F : Nat → γ → γ} {x : γ} {is : List Nat} {s : Par σ R} {i : Nat}
    (h : Whole part g F x s) (hn : ∀ i, g i ≠ .none) (hl : Locked s) (hi : g i = .reading) (h1 : Working s i)
    (h2 : Working (s.picks is) i) : part (s.picks is).state = part s.state := by
  induction is generalizing s with
  | nil => rfl
  | cons j is ih =>
    have h3 := working_still h1 h2
    have hw' := pick_whole j h hn hl
    rw [picks_cons, ih hw' (pick_locked j hl) h3 h2]
    have hp := pick_any j s
    generalize s.pick j = t at hp
    cases hp with
    | stays => rfl
    | steps gg k hp =>
      cases hg : g j with
      | none => exact absurd hg (hn j)
      | reading => exact (h.inside j _ hg hp).1 s.state
      | writing =>
        have e1 := hl.alone j (by rw [h.guard]; exact hg) ⟨_, hp⟩
        have e2 := (hl.readers i).mpr ⟨by rw [h.guard]; exact hi, h1⟩
        rw [e1] at e2; cases e2
    | ends r hp => dsimp only; rw [unlock_state]; rfl
    | _ => rfl

/-! ### Nobody waits for ever -/

/-- a request that is at work can finish -/
theorem can_finish (i : Nat) (s : Par σ R) (a : Act σ R) (h : (s.requests i).phase = .inside a) : ∃ is, (∀ j ∈ is, j = i) ∧
    (∃ r, Finished (s.picks is) i r) ∧ (∀ j, j ≠ i → ((s.picks is).requests j).phase = (s.requests j).phase) ∧
    (s.picks is).readers = (if (s.requests i).guard = .reading then s.readers.erase i else s.readers) ∧
    (s.picks is).writer = (if (s.requests i).guard = .writing then none else s.writer) := by
  induction a generalizing s with
  | done r =>
    refine ⟨[i], by simp, ⟨r, ?_⟩, ?_, ?_, ?_⟩ <;>
      simp only [picks_cons, picks_nil, Par.pick, h, Finished, unlock_requests, move_phase, if_true]
    · intro j hj; rw [if_neg hj]
    · unfold Par.unlock; rw [move_guard]
      cases (s.requests i).guard <;> simp <;> rfl
    · unfold Par.unlock; rw [move_guard]
      cases (s.requests i).guard <;> simp <;> rfl
  | step g k ih =>
    have e : s.pick i = { s.move i (.inside (k s.state)) with state := g s.state } := by unfold Par.pick; rw [h]
    obtain ⟨is, h0, h1, h2, h3, h4⟩ := ih s.state (s.pick i) (by rw [e]; dsimp only; rw [move_phase, if_pos rfl])
    have er : (s.pick i).readers = s.readers := by rw [e]; rfl
    have ew : (s.pick i).writer = s.writer := by rw [e]; rfl
    refine ⟨i :: is, ?_, h1, fun j hj => ?_, ?_, ?_⟩
    · intro j hj; rcases List.mem_cons.mp hj with h | h
      · exact h
      · exact h0 j h
    · rw [picks_cons, h2 j hj, pick_other hj]
    · rw [picks_cons, h3, pick_guard, er]
    · rw [picks_cons, h4, pick_guard, ew]

/-- the readers can leave -/
theorem readers_leave (n : Nat) (s : Par σ R) (hl : Locked s) (hn : s.readers.length = n) : ∃ is, (s.picks is).readers = [] ∧
    (s.picks is).writer = s.writer := by
  induction n generalizing s with
  | zero => exact ⟨[], List.eq_nil_of_length_eq_zero hn, rfl⟩
  | succ n ih =>
    cases hr : s.readers with
    | nil => rw [hr] at hn; cases hn
    | cons i l =>
      obtain ⟨hg, a, ha⟩ := (hl.readers i).mp (by rw [hr]; exact List.mem_cons_self ..)
      obtain ⟨is, _, _, _, h3, h4⟩ := can_finish i s a ha
      rw [if_pos hg] at h3
      rw [if_neg (by rw [hg]; intro h; cases h)] at h4
      obtain ⟨js, h5, h6⟩ := ih (s.picks is) (picks_locked hl) (by
        rw [h3, List.length_erase_of_mem (by rw [hr]; exact List.mem_cons_self ..), hn]; rfl)
      exact ⟨is ++ js, by rw [picks_append]; exact h5, by rw [picks_append, h6, h4]⟩

/-- the mutex can become free -/
theorem can_free (s : Par σ R) (hl : Locked s) : ∃ is, (s.picks is).readers = [] ∧ (s.picks is).writer = none := by
  obtain ⟨is, h1, h2⟩ := readers_leave _ s hl rfl
  have hl1 := picks_locked (is := is) hl
  cases hw : (s.picks is).writer with
  | none => exact ⟨is, h1, hw⟩
  | some w =>
    have fin : ∀ (t : Par σ R), Locked t → t.readers = [] → (t.requests w).guard = .writing → Working t w →
        ∃ js, (t.picks js).readers = [] ∧ (t.picks js).writer = none := by
      intro t _ ht hg ⟨a, ha⟩
      obtain ⟨js, _, _, _, h3, h4⟩ := can_finish w t a ha
      rw [if_neg (by rw [hg]; intro h; cases h), ht] at h3
      rw [if_pos hg] at h4
      exact ⟨js, h3, h4⟩
    obtain ⟨hg, hp | hp⟩ := (hl1.writer w).mp hw
    · have e : (s.picks is).pick w = (s.picks is).move w (.inside ((s.picks is).requests w).work) := by
        unfold Par.pick; rw [hp, h1]; rfl
      obtain ⟨js, h3, h4⟩ := fin ((s.picks is).pick w) (pick_locked w hl1) (by rw [e]; exact h1) (by rw [pick_guard]; exact hg)
        ⟨_, by rw [e, move_phase, if_pos rfl]⟩
      exact ⟨is ++ (w :: js), by rw [picks_append]; exact h3, by rw [picks_append]; exact h4⟩
    · obtain ⟨js, h3, h4⟩ := fin (s.picks is) hl1 h1 hg hp
      exact ⟨is ++ js, by rw [picks_append]; exact h3, by rw [picks_append]; exact h4⟩

/-- every request can finish -/
theorem can_answer (i : Nat) (s : Par σ R) (hl : Locked s) : ∃ is r, Finished (s.picks is) i r := by
  have fin : ∀ (t : Par σ R), Working t i → ∃ js r, Finished (t.picks js) i r := by
    intro t ⟨a, ha⟩
    obtain ⟨js, _, ⟨r, hr⟩, _⟩ := can_finish i t a ha
    exact ⟨js, r, hr⟩
  have next : ∀ (t : Par σ R) (js : List Nat), (∃ ks r, Finished ((t.picks js).picks ks) i r) → ∃ is r, Finished (t.picks is) i r := by
    intro t js ⟨ks, r, h⟩; exact ⟨js ++ ks, r, by rw [picks_append]; exact h⟩
  obtain ⟨is, h1, h2⟩ := can_free s hl
  apply next s is
  have hl1 := picks_locked (is := is) hl
  generalize s.picks is = t at h1 h2 hl1
  cases hp : (t.requests i).phase with
  | finished r => exact ⟨[], r, hp⟩
  | inside a => exact fin t ⟨a, hp⟩
  | announced =>
    have := (hl1.writer i).mpr ⟨hl1.announced i hp, .inl hp⟩
    rw [h2] at this; cases this
  | waiting =>
    cases hg : (t.requests i).guard with
    | none =>
      have e : t.pick i = t.move i (.inside (t.requests i).work) := by unfold Par.pick; rw [hp, hg]
      exact next t [i] (fin _ ⟨_, by rw [picks_cons, picks_nil, e, move_phase, if_pos rfl]⟩)
    | reading =>
      have e : t.pick i = { t.move i (.inside (t.requests i).work) with readers := i :: t.readers } := by
        unfold Par.pick; rw [hp, hg, h2]; rfl
      exact next t [i] (fin _ ⟨_, by rw [picks_cons, picks_nil, e]; dsimp only; rw [move_phase, if_pos rfl]⟩)
    | writing =>
      have e : t.pick i = { t.move i .announced with writer := some i } := by
        unfold Par.pick; rw [hp, hg, h2]; rfl
      have e' : (t.pick i).pick i = (t.pick i).move i (.inside ((t.pick i).requests i).work) := by
        have h3 : ((t.pick i).requests i).phase = .announced := by rw [e]; dsimp only; rw [move_phase, if_pos rfl]
        have h4 : (t.pick i).readers = [] := by rw [e]; exact h1
        have h5 : ∀ u : Par σ R, (u.requests i).phase = .announced → u.readers = [] → u.pick i = u.move i (.inside (u.requests i).work) := by
          intro u hu hr; unfold Par.pick; rw [hu, hr]; rfl
        exact h5 _ h3 h4
      exact next t [i, i] (fin _ ⟨_, by rw [picks_cons, picks_cons, picks_nil, e', move_phase, if_pos rfl]⟩)

theorem can_answer_all (ids : List Nat) (s : Par σ R) (hl : Locked s) : ∃ is, ∀ i ∈ ids, ∃ r, Finished (s.picks is) i r := by
  induction ids with
  | nil => exact ⟨[], by simp⟩
  | cons i ids ih =>
    obtain ⟨is, h⟩ := ih
    obtain ⟨js, r, hr⟩ := can_answer i (s.picks is) (picks_locked hl)
    refine ⟨is ++ js, fun j hj => ?_⟩
    rw [picks_append]
    rcases List.mem_cons.mp hj with h1 | h1
    · subst h1; exact ⟨r, hr⟩
    · obtain ⟨q, hq⟩ := h j h1; exact ⟨q, picks_finished hq⟩

/-- While a writer waits for its turn, no reader comes in. -/
theorem no_overtaking {is : List Nat} {s : Par σ R} (hl : Locked s) {w i : Nat} (h1 : (s.requests w).phase = .announced)
    (h2 : ((s.picks is).requests w).phase = .announced) (hi : (s.requests i).guard = .reading) (h : Working (s.picks is) i) : Working s i := by
  induction is generalizing s with
  | nil => exact h
  | cons j is ih =>
    have hwr := (hl.writer w).mpr ⟨hl.announced w h1, .inl h1⟩
    have h3 : ((s.pick j).requests w).phase = .announced := by
      by_cases hjw : w = j
      · subst hjw
        have hp := pick_any w s
        generalize e : s.pick w = t at hp
        cases hp with
        | stays => exact h1
        | writes hp hr =>
          have hw : Working (s.pick w) w := ⟨_, by rw [e, move_phase, if_pos rfl]⟩
          exfalso
          clear ih h
          have : ∀ (js : List Nat) (t : Par σ R), Working t w → (t.picks js |>.requests w).phase ≠ .announced := by
            intro js
            induction js with
            | nil => rintro t ⟨a, ha⟩ h; rw [picks_nil, ha] at h; cases h
            | cons k js ih =>
              intro t ht h
              rcases working_until (j := k) ht with h5 | ⟨r, h5⟩
              · exact ih _ h5 h
              · rw [picks_cons, picks_finished h5] at h; cases h
          exact this is _ hw h2
        | reads hp _ _ => rw [h1] at hp; cases hp
        | announces hp _ _ => rw [h1] at hp; cases hp
        | enters hp _ => rw [h1] at hp; cases hp
        | steps _ _ hp => rw [h1] at hp; cases hp
        | ends _ hp => rw [h1] at hp; cases hp
      · rw [pick_other hjw]; exact h1
    have h4 := ih (pick_locked j hl) h3 h2 (by rw [pick_guard]; exact hi) h
    by_cases hij : i = j
    · subst hij
      obtain ⟨a, h4⟩ := h4
      have hp := pick_any i s
      generalize s.pick i = t at hp h4
      cases hp with
      | stays => exact ⟨a, h4⟩
      | reads hp hg hw => rw [hw] at hwr; cases hwr
      | announces hp hg hw => rw [hw] at hwr; cases hwr
      | enters hp hg => rw [hi] at hg; cases hg
      | writes hp hr => have := hl.announced i hp; rw [hi] at this; cases this
      | steps g k hp => exact ⟨_, hp⟩
      | ends r hp => exact ⟨_, hp⟩
    · obtain ⟨a, h4⟩ := h4
      exact ⟨a, by rw [← pick_other hij]; exact h4⟩

/-! ### The order of requests -/

theorem pick_order (i : Nat) (s : Par σ R) : (s.pick i).order = s.order ∨ Working s i ∧ (∃ r, Finished (s.pick i) i r) ∧ (s.pick i).order = s.order ++ [i] := by
  have hp := pick_any i s
  generalize s.pick i = t at hp
  cases hp with
  | ends r hp => exact .inr ⟨⟨_, hp⟩, ⟨r, by unfold Finished; dsimp only; rw [unlock_requests, move_phase, if_pos rfl]⟩, rfl⟩
  | _ => exact .inl rfl

theorem picks_order (is : List Nat) (s : Par σ R) : s.order <+: (s.picks is).order := by
  induction is generalizing s with
  | nil => exact List.prefix_refl _
  | cons i is ih =>
    refine List.IsPrefix.trans ?_ (ih (s.pick i))
    rcases pick_order i s with h | ⟨_, _, h⟩
    · rw [h]; exact List.prefix_refl _
    · rw [h]; exact List.prefix_append _ _

/-- the order has each finished request once -/
theorem order_once {is : List Nat} {s : Par σ R} (h : s.order.Nodup ∧ ∀ i, i ∈ s.order ↔ ∃ r, Finished s i r) :
    (s.picks is).order.Nodup ∧ ∀ i, i ∈ (s.picks is).order ↔ ∃ r, Finished (s.picks is) i r := by
  induction is generalizing s with
  | nil => exact h
  | cons i is ih =>
    refine ih ?_
    rcases pick_order i s with ho | ⟨⟨a, ha⟩, ⟨r, hr⟩, ho⟩
    · refine ⟨by rw [ho]; exact h.1, fun j => ?_⟩
      rw [ho, h.2 j]
      constructor
      · rintro ⟨r, hr⟩; exact ⟨r, pick_finished hr⟩
      · rintro ⟨r, hr⟩
        by_cases hij : j = i
        · subst hij
          have hp := pick_any j s
          change ((s.pick j).requests j).phase = .finished r at hr
          change (s.pick j).order = s.order at ho
          generalize s.pick j = t at hp hr ho
          cases hp with
          | stays => exact ⟨r, hr⟩
          | ends r hp =>
            have := congrArg List.length ho
            simp at this
          | _ => (try dsimp only at hr); rw [move_phase, if_pos rfl] at hr; cases hr
        · exact ⟨r, by unfold Finished; rw [← pick_other hij]; exact hr⟩
    · have hni : i ∉ s.order := by
        intro hi; obtain ⟨q, hq⟩ := (h.2 i).mp hi; unfold Finished at hq; rw [ha] at hq; cases hq
      refine ⟨?_, fun j => ?_⟩
      · rw [ho, List.nodup_append]
        refine ⟨h.1, by simp, fun x hx y hy => ?_⟩
        rw [List.mem_singleton] at hy
        subst hy
        rintro rfl
        exact hni hx
      · rw [ho, List.mem_append, List.mem_singleton, h.2 j]
        by_cases hij : j = i
        · subst hij; exact ⟨fun _ => ⟨r, hr⟩, fun _ => .inr rfl⟩
        · constructor
          · rintro (⟨q, hq⟩ | hq)
            · exact ⟨q, pick_finished hq⟩
            · exact absurd hq hij
          · rintro ⟨q, hq⟩; exact .inl ⟨q, by unfold Finished; rw [← pick_other hij]; exact hq⟩

theorem start_once (a : σ) (g : Nat → Guard) (w : Nat → Act σ R) :
    (Par.start a g w).order.Nodup ∧ ∀ i, i ∈ (Par.start a g w).order ↔ ∃ r, Finished (.start a g w) i r :=
  ⟨List.nodup_nil, fun i => ⟨fun h => (by cases h), fun ⟨r, h⟩ => (by cases h)⟩⟩

/-! ### The host -/

theorem view_of {h : Host χ A} {t : St χ A} (e : t.met.sched = h.gas.costs.schedule) : Host.view { h with st := t } = t := by
  unfold Host.view
  dsimp only
  rw [← e]

theorem finish_create (E : Env χ A) (ex : Executor χ A) (i : CreateInput) (s : St χ A) :
    runCreate E ex i s = finishRun (.create i) (createBody E ex i (hostInit E s)) := by
  unfold runCreate
  rw [withHost_run]
  generalize createBody E ex i (hostInit E s) = q
  obtain ⟨r, t⟩ := q
  cases r <;> rfl

theorem finish_call (E : Env χ A) (ex : Executor χ A) (i : CallInput) (s : St χ A) :
    runCall E ex i s = finishRun (.call i)
      (if i.function = upgradeName then upgradeBody E ex i (hostInit E s) else callBody E ex i (hostInit E s)) := by
  unfold runCall
  by_cases hu : i.function = upgradeName
  · rw [if_pos hu, if_pos hu, withHost_run]
    generalize upgradeBody E ex i (hostInit E s) = q
    obtain ⟨r, t⟩ := q
    cases r with
    | ok o => simp [finishRun, hu, runResult]
    | panic => rfl
    | oof => rfl
  · rw [if_neg hu, if_neg hu, withHost_run]
    generalize callBody E ex i (hostInit E s) = q
    obtain ⟨r, t⟩ := q
    cases r with
    | ok o => simp [finishRun, hu]
    | panic => rfl
    | oof => rfl

/-- The steps are those of the operations. -/
theorem c70_steps (E : List UInt64 → Env χ A) (n : Nat) (D : Decoder) (ops : Nat → HostOp) :
    Divides E n D ops (fun i => (ops i).steps E n D) := by
  constructor
  · intro i h
    cases ops i with
    | change m =>
      simp only [HostOp.steps, HostOp.apply, changeSteps, Act.run, gasScheduleChange]
      cases createGasConfig D m <;> rfl
    | run tx =>
      cases tx with
      | create i =>
        have e : Host.view { h with st := hostInit (E h.gas.wasmer) h.view } = hostInit (E h.gas.wasmer) h.view := view_of rfl
        simp only [HostOp.steps, HostOp.apply, txSteps, Act.run, runTx, e]
        rw [finish_create]
      | call i =>
        have e : Host.view { h with st := hostInit (E h.gas.wasmer) h.view } = hostInit (E h.gas.wasmer) h.view := view_of rfl
        have e' : Host.view { h with st := enterCallState i (hostInit (E h.gas.wasmer) h.view) } =
            enterCallState i (hostInit (E h.gas.wasmer) h.view) := view_of rfl
        simp only [HostOp.steps, HostOp.apply, txSteps, Act.run, runTx, e, e']
        rw [finish_call, callBody_run, upgradeBody_run]
  · intro i tx h
    show Leaves Host.gas ((ops i).steps E n D)
    rw [h]
    cases tx with
    | create i => exact ⟨fun _ => rfl, fun _ => ⟨fun _ => rfl, fun _ => trivial⟩⟩
    | call i => exact ⟨fun _ => rfl, fun _ => ⟨fun _ => rfl, fun _ => ⟨fun _ => rfl, fun _ => trivial⟩⟩⟩

theorem op_guard (op : HostOp) : op.guard ≠ .none := by cases op <;> (intro h; cases h)

section
variable {E : List UInt64 → Env χ A} {n : Nat} {D : Decoder} {ops : Nat → HostOp} {work : Nat → Act (Host χ A) (Option RunResult)}

/-- **Parallel requests that run contracts one at a time are like requests one after the other**, in the order in which they end. -/
theorem c70_order_partial (hd : Divides E n D ops work) (h : Host χ A) (is : List Nat) (hA : NoOverlap (serving ops work h) is) :
    let s := (serving ops work h).picks is
    let alone := oneByOne (fun i => (ops i).apply E n D) s.order h
    (∀ i r, Finished s i r ↔ (i, r) ∈ alone.1) ∧ ((∀ i, ¬ Working s i) → s.state = alone.2) := by
  have hs := picks_serial (is := is) (start_serial (fun i => (ops i).apply E n D) h (fun i => (ops i).guard) work hd.same)
    (start_locked ..) (fun i => op_guard (ops i)) hA
  exact ⟨hs.results, hs.idle⟩

/-- **The order is that of the requests' ends:** each finished request has one place in it, and requests that end later come later. -/
theorem c70_ends (h : Host χ A) (is js : List Nat) :
    let s := (serving ops work h).picks is
    let t := (serving ops work h).picks (is ++ js)
    s.order.Nodup ∧ (∀ i, i ∈ s.order ↔ ∃ r, Finished s i r) ∧ s.order <+: t.order := by
  have h1 := order_once (is := is) (start_once h (fun i => (ops i).guard) work)
  refine ⟨h1.1, h1.2, ?_⟩
  show ((serving ops work h).picks is).order <+: ((serving ops work h).picks (is ++ js)).order
  rw [picks_append]
  exact picks_order ..

/-- **A change of the gas schedule is alone:** while it is at work no contract runs, and no other change is at work. -/
theorem c70_alone (h : Host χ A) (is : List Nat) (i j : Nat) (m : ScheduleMap) (hi : ops i = .change m)
    (h1 : Working ((serving ops work h).picks is) i) (h2 : Working ((serving ops work h).picks is) j) : j = i := by
  have hl : Locked ((serving ops work h).picks is) := picks_locked (start_locked ..)
  have hg : ∀ k, (((serving ops work h).picks is).requests k).guard = (ops k).guard := fun k => by rw [picks_guard]; rfl
  have hgi : (((serving ops work h).picks is).requests i).guard = .writing := by rw [hg, hi]; rfl
  cases hj : ops j with
  | run tx =>
    have e1 := hl.alone i hgi h1
    have e2 := (hl.readers j).mpr ⟨by rw [hg, hj]; rfl, h2⟩
    rw [e1] at e2; cases e2
  | change m' =>
    have e1 := (hl.writer i).mpr ⟨hgi, .inr h1⟩
    have e2 := (hl.writer j).mpr ⟨by rw [hg, hj]; rfl, .inr h2⟩
    rw [e1] at e2
    exact (Option.some.inj e2).symm

theorem serving_whole (hd : Divides E n D ops work) (h : Host χ A) : Whole Host.gas (fun i => (ops i).guard)
    (fun i g => match ops i with | .change m => gasScheduleChange D m g | .run _ => g) h.gas (serving ops work h) := by
  refine ⟨fun _ => rfl, fun i hi x => ?_, fun i hi => ?_, fun i p _ hp => (by cases hp), fun _ => rfl, fun i p _ hp => (by cases hp)⟩
  · show ((work i).run x).2.gas = _
    rw [hd.same]
    cases ho : ops i with
    | change m => rfl
    | run tx => rfl
  · show Leaves _ (work i)
    cases ho : ops i with
    | change m => rw [ho] at hi; cases hi
    | run tx => exact hd.leaves i tx ho

theorem written_schedules (g0 : HostGas) (is : List Nat) :
    written (fun i => (ops i).guard) (fun i g => match ops i with | .change m => gasScheduleChange D m g | .run _ => g) is g0 =
      (schedules ops is).foldl (fun g m => gasScheduleChange D m g) g0 := by
  induction is generalizing g0 with
  | nil => rfl
  | cons i is ih =>
    unfold written schedules at *
    rw [List.foldl_cons, ih]
    cases ho : ops i with
    | change m => simp [HostOp.guard, ho]
    | run tx => simp [HostOp.guard, ho]

/-- **A contract never runs under half a schedule:** while a contract runs, the schedule in force, in the host and in Wasmer, is the
one that the finished changes have made. -/
theorem c70_whole (hd : Divides E n D ops work) (h : Host χ A) (is : List Nat) (i : Nat) (tx : Tx) (hi : ops i = .run tx)
    (hw : Working ((serving ops work h).picks is) i) :
    ((serving ops work h).picks is).state.gas =
      (schedules ops ((serving ops work h).picks is).order).foldl (fun g m => gasScheduleChange D m g) h.gas := by
  have hl : Locked ((serving ops work h).picks is) := picks_locked (start_locked ..)
  have hW := picks_whole (is := is) (serving_whole hd h) (fun i => op_guard (ops i)) (start_locked ..)
  rw [← written_schedules]
  refine hW.free fun j hj hwj => ?_
  have e1 := hl.alone j (by rw [hW.guard]; exact hj) hwj
  have e2 := (hl.readers i).mpr ⟨by rw [hW.guard, hi]; rfl, hw⟩
  rw [e1] at e2; cases e2

/-- **The schedule does not change under a running contract.** -/
theorem c70_constant (hd : Divides E n D ops work) (h : Host χ A) (is js : List Nat) (i : Nat) (tx : Tx) (hi : ops i = .run tx)
    (h1 : Working ((serving ops work h).picks is) i) (h2 : Working ((serving ops work h).picks (is ++ js)) i) :
    ((serving ops work h).picks (is ++ js)).state.gas = ((serving ops work h).picks is).state.gas := by
  have hl : Locked ((serving ops work h).picks is) := picks_locked (start_locked ..)
  have hW := picks_whole (is := is) (serving_whole hd h) (fun i => op_guard (ops i)) (start_locked ..)
  rw [picks_append] at h2 ⊢
  exact whole_constant hW (fun i => op_guard (ops i)) hl (by rw [hi]; rfl) h1 h2

/-- **Nobody is locked out:** whatever has happened, all requests can still be answered. -/
theorem c70_finish (h : Host χ A) (is ids : List Nat) :
    ∃ js, ∀ i ∈ ids, ∃ r, Finished ((serving ops work h).picks (is ++ js)) i r := by
  obtain ⟨js, hj⟩ := can_answer_all ids ((serving ops work h).picks is) (picks_locked (start_locked ..))
  exact ⟨js, fun i hi => by rw [picks_append]; exact hj i hi⟩

/-- **A change of the schedule is not overtaken:** from when it asks for the lock until it gets it, no contract begins to run. -/
theorem c70_turn (h : Host χ A) (is js : List Nat) (w i : Nat) (tx : Tx) (hi : ops i = .run tx)
    (h1 : (((serving ops work h).picks is).requests w).phase = .announced)
    (h2 : (((serving ops work h).picks (is ++ js)).requests w).phase = .announced)
    (h3 : Working ((serving ops work h).picks (is ++ js)) i) : Working ((serving ops work h).picks is) i := by
  rw [picks_append] at h2 h3
  refine no_overtaking (picks_locked (start_locked ..)) h1 h2 ?_ h3
  rw [picks_guard]
  show (ops i).guard = .reading
  rw [hi]; rfl

end

/-! ### The driver -/

open Ipc in
/-- **Requests to the driver can come in parallel:** the results and the state are those of the requests one after the other, in the
order in which they end. Here the faults are fixed for each request; `Close`, which does not take the mutex, is not among them. -/
theorem c70_driver_partial {W H : Type} (N : Node W) (vm : Machine H) (boot : GasTable → H) (ops : Nat → Faults × Op)
    (work : Nat → Act (Driver W H) Returned) (hw : ∀ i d, (work i).run d = d.step N vm boot (ops i).1 (ops i).2) (d : Driver W H)
    (is : List Nat) :
    let s := (Par.start d (fun _ => .writing) work).picks is
    let alone := oneByOne (fun i d => d.step N vm boot (ops i).1 (ops i).2) s.order d
    (∀ i r, Finished s i r ↔ (i, r) ∈ alone.1) ∧ ((∀ i, ¬ Working s i) → s.state = alone.2) ∧
      ((∀ i, ¬ Finished s i .panic) → d.history N vm boot (s.order.map ops) = (alone.1.map Prod.snd, alone.2)) := by
  have hA : NoOverlap (Par.start d (fun _ => .writing) work) is := by
    intro pre _ i j h; cases h
  have hs := picks_serial (is := is) (start_serial (fun i d => d.step N vm boot (ops i).1 (ops i).2) d (fun _ => .writing) work hw)
    (start_locked ..) (fun i h => by cases h) hA
  refine ⟨hs.results, hs.idle, fun hp => ?_⟩
  have key : ∀ (l : List Nat) (d : Driver W H), (∀ i, (i, Returned.panic) ∉ (oneByOne (fun i d => d.step N vm boot (ops i).1 (ops i).2) l d).1) →
      d.history N vm boot (l.map ops) = ((oneByOne (fun i d => d.step N vm boot (ops i).1 (ops i).2) l d).1.map Prod.snd,
        (oneByOne (fun i d => d.step N vm boot (ops i).1 (ops i).2) l d).2) := by
    intro l
    induction l with
    | nil => intro d _; rfl
    | cons i l ih =>
      intro d hd
      have hd1 : (d.step N vm boot (ops i).1 (ops i).2).1 ≠ .panic := by
        intro h
        refine hd i ?_
        show (i, Returned.panic) ∈ (i, (d.step N vm boot (ops i).1 (ops i).2).1) :: _
        rw [h]; exact List.mem_cons_self ..
      have ih := ih (d.step N vm boot (ops i).1 (ops i).2).2 (fun j hj => hd j (List.mem_cons_of_mem _ hj))
      show Driver.history N vm boot (((ops i).1, (ops i).2) :: l.map ops) d = (Prod.snd (i, (d.step N vm boot (ops i).1 (ops i).2).1) ::
        (oneByOne _ l (d.step N vm boot (ops i).1 (ops i).2).2).1.map Prod.snd, (oneByOne _ l (d.step N vm boot (ops i).1 (ops i).2).2).2)
      rw [Driver.history]
      generalize d.step N vm boot (ops i).1 (ops i).2 = q at hd1 ih
      obtain ⟨r, e⟩ := q
      cases r with
      | panic => exact absurd rfl hd1
      | _ => dsimp only; rw [ih]
  exact key _ d fun i hi => hp i ((hs.results i _).mpr hi)

/-! ### Requests that overlap -/

open Fixture

def plainGas : HostGas := { stored := AMap.empty, costs := fun _ _ => 1, wasmer := [] }
def crossEnv : List UInt64 → Env World EeiCall := fun _ => envWith [([1], mod [(Fixture.f, .ret)])]
def crossHost : Host World EeiCall := { gas := plainGas, st := host (node [(addr 101, contract [1])]) }
def anyDecoder : Decoder := { sameFold := fun _ _ => false, order := fun _ => [] }
/-- two calls at the same time: of a contract, and of an address without one; then a change of the schedule -/
def crossOps : Nat → HostOp
  | 0 => .run (callTx (addr 1) (addr 101) Fixture.f)
  | 1 => .run (callTx (addr 1) (addr 99) Fixture.g)
  | _ => .change AMap.empty
def crossStart : Par (Host World EeiCall) (Option RunResult) :=
  serving crossOps (fun i => (crossOps i).steps crossEnv 5 anyDecoder) crossHost
def finishedCode (s : Par (Host World EeiCall) (Option RunResult)) (i : Nat) : Option ReturnCode :=
  match (s.requests i).phase with
  | .finished (some r) => (r.getD none).map VMOutput.returnCode
  | _ => none
def codeAmong (l : List (Nat × Option RunResult)) (i : Nat) : Option ReturnCode :=
  match l.find? (fun p => p.1 = i) with
  | some (_, some r) => (r.getD none).map VMOutput.returnCode
  | _ => none

/-- The mutex lets two executions in at the same time, and they share one state: the call of a contract that succeeds if it comes
before or after the other call fails when they overlap, because it goes on with the other one's input. -/
theorem c70_overlap_neg : ∃ is, finishedCode (crossStart.picks is) 0 = some .contractNotFound ∧
    (finishedCode (crossStart.picks is) 1).isSome ∧
    codeAmong (oneByOne (fun i => (crossOps i).apply crossEnv 5 anyDecoder) [0, 1] crossHost).1 0 = some .ok ∧
    codeAmong (oneByOne (fun i => (crossOps i).apply crossEnv 5 anyDecoder) [1, 0] crossHost).1 0 = some .ok :=
  ⟨[0, 0, 0, 1, 1, 1, 0, 0, 1, 1], by decide +kernel⟩

def crossPicks : List Nat := [0, 2, 0, 1, 0, 2, 0, 1, 0, 2, 2, 2, 1, 1, 1, 1, 1]
def isWorking (s : Par (Host World EeiCall) (Option RunResult)) (i : Nat) : Bool :=
  match (s.requests i).phase with | .inside _ => true | _ => false

/-- the hypotheses of `c70_order_partial` can be met with requests that wait for each other: the change asks for the lock while the
first call runs, and the second call waits for the change -/
example : NoOverlap crossStart crossPicks ∧ finishedCode (crossStart.picks crossPicks) 0 = some .ok ∧
    finishedCode (crossStart.picks crossPicks) 1 = some .contractNotFound ∧ (crossStart.picks crossPicks).order = [0, 2, 1] := by
  refine ⟨?_, by decide +kernel, by decide +kernel, by decide +kernel⟩
  have key : ∀ k ∈ List.range 18, (isWorking (crossStart.picks (crossPicks.take k)) 0 &&
      isWorking (crossStart.picks (crossPicks.take k)) 1) = false := by decide +kernel
  have reads : ∀ i, (crossStart.requests i).guard = .reading → i = 0 ∨ i = 1 := by
    intro i hi
    match i, hi with
    | 0, _ => exact .inl rfl
    | 1, _ => exact .inr rfl
    | _ + 2, hi => cases hi
  have work : ∀ s i, Working s i → isWorking s i = true := by
    rintro s i ⟨a, h⟩; unfold isWorking; rw [h]
  intro pre hpre i j hi hj hwi hwj
  obtain ⟨rest, he⟩ := hpre
  have ht : crossPicks.take pre.length = pre := by rw [← he]; exact List.take_left ..
  have hk := key pre.length (by
    have := congrArg List.length he
    rw [List.length_append, show crossPicks.length = 17 from rfl] at this
    rw [List.mem_range]; omega)
  rw [ht] at hk
  rcases reads i hi with rfl | rfl <;> rcases reads j hj with rfl | rfl
  · rfl
  · rw [work _ _ hwi, work _ _ hwj] at hk; cases hk
  · rw [work _ _ hwi, work _ _ hwj] at hk; cases hk
  · rfl

/-- While a change is at work, `GetGasScheduleMap`, which does not take the lock, already reports the new schedule, although the
prices in force are still the old ones. -/
theorem c70_report_neg (E : List UInt64 → Env χ A) (n : Nat) (D : Decoder) (h : Host χ A) (m : ScheduleMap) :
    let s := (serving (fun _ => .change m) (fun _ => HostOp.steps E n D (.change m)) h).picks [0, 0, 0]
    getGasScheduleMap s.state.gas = m ∧ s.state.gas.costs = h.gas.costs ∧ s.state.gas.wasmer = h.gas.wasmer ∧ Working s 0 :=
  ⟨rfl, rfl, rfl, ⟨_, rfl⟩⟩

/-- what `GasScheduleChange` of another host in the same process (or its creation, `arwen.go` 161-162) does to this one -/
def elsewhere (D : Decoder) (m : ScheduleMap) : Act (Host χ A) (Option RunResult) :=
  match createGasConfig D m with
  | .error _ => .done none
  | .ok c => .step (fun h => { h with gas := { h.gas with wasmer := opcodeCosts c } }) fun _ => .done none

theorem elsewhere_changes (E : List UInt64 → Env χ A) (n : Nat) (D : Decoder) (st : St χ A) (tx : Tx) (g : HostGas) (m : ScheduleMap)
    (c : GasCost) (hc : createGasConfig D m = .ok c) :
    let start : Par (Host χ A) (Option RunResult) := .start { gas := g, st := st }
      (fun i => if i = 0 then .reading else .none) (fun i => if i = 0 then txSteps E n tx else elsewhere D m)
    Working (start.picks [0]) 0 ∧ Working (start.picks [0, 1, 1]) 0 ∧ (start.picks [0]).state.gas = g ∧
      (start.picks [0, 1, 1]).state.gas = { g with wasmer := opcodeCosts c } := by
  unfold elsewhere
  rw [hc]
  exact ⟨⟨_, rfl⟩, ⟨_, rfl⟩, rfl, rfl⟩

/-- The prices of instructions are global in the process, and another host has another mutex: its change of the schedule changes the
prices of instructions for this host while a contract runs on it, and they no longer belong to the schedule of this host. -/
theorem c70_hosts_neg (E : List UInt64 → Env χ A) (n : Nat) (D : Decoder) (st : St χ A) (tx : Tx) :
    ∃ (g : HostGas) (m : ScheduleMap), newHost D (makeGasMap 1 1) = .ok g ∧
      let start : Par (Host χ A) (Option RunResult) := .start { gas := g, st := st }
        (fun i => if i = 0 then .reading else .none) (fun i => if i = 0 then txSteps E n tx else elsewhere D m)
      Working (start.picks [0]) 0 ∧ Working (start.picks [0, 1, 1]) 0 ∧
        (start.picks [0]).state.gas.wasmer = opcodeCosts g.costs ∧
        (start.picks [0, 1, 1]).state.gas.wasmer ≠ opcodeCosts g.costs ∧ (start.picks [0, 1, 1]).state.gas.costs = g.costs := by
  have price : ∀ v : UInt64, v.toNat % 2 ^ 32 ≠ 0 → ∃ c, createGasConfig D (makeGasMap v 1) = .ok c ∧
      (c .opcode "I64Add").toNat = v.toNat % 2 ^ 32 := by
    intro v hv
    have hv0 : v.toNat ≠ 0 := fun h => hv (by rw [h])
    obtain ⟨c, hc, hval⟩ := c43_complete D (makeGasMap v 1) (by
      intro s f hf
      obtain ⟨t, ht, h⟩ := make_gives v 1 s f hf
      refine ⟨t, _, ht, h, ?_⟩
      split
      · rename_i h
        rw [h.1]
        decide
      · cases s <;> assumption)
    have hr : Required .opcode "I64Add" := by unfold Required; decide +kernel
    obtain ⟨t, ht, h⟩ := make_gives v 1 .opcode _ hr
    refine ⟨c, hc, ?_⟩
    rw [hval .opcode _ t _ hr ht h]
    simp [charged]
  obtain ⟨c1, hc1, hp1⟩ := price 1 (by decide)
  obtain ⟨c2, hc2, hp2⟩ := price 2 (by decide)
  have hne : opcodeCosts c2 ≠ opcodeCosts c1 := by
    intro h
    have hin : "I64Add" ∈ opcodes := by decide +kernel
    have : c2 .opcode "I64Add" = c1 .opcode "I64Add" := by
      unfold opcodeCosts at h
      exact List.map_inj_left.mp h _ hin
    rw [this, hp1] at hp2
    revert hp2; decide
  refine ⟨{ stored := makeGasMap 1 1, costs := c1, wasmer := opcodeCosts c1 }, makeGasMap 2 1, ?_, ?_⟩
  · unfold newHost
    rw [hc1]; rfl
  · obtain ⟨h1, h2, h3, h4⟩ := elsewhere_changes E n D st tx { stored := makeGasMap 1 1, costs := c1, wasmer := opcodeCosts c1 }
      (makeGasMap 2 1) c2 hc2
    refine ⟨h1, h2, by rw [h3], ?_, by rw [h4]⟩
    rw [h4]
    exact hne

end Arwen.Props
