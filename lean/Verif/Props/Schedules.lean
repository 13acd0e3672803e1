import Verif.Spec.Schedules
import Verif.Props.Config
/-
C86: the gas schedules of scenarios.
-/
namespace Arwen.Props
open Arwen.Config Arwen.Mock Arwen.Spec

/-! ### Reading -/

theorem loadCosts_get (l : List (String × TomlCost)) : ∀ (m c : AMap String UInt64), (l.map Prod.fst).Nodup → loadCosts l m = some c →
    ∀ k v, c.get? k = some v ↔ (∃ x, (k, .int x) ∈ l ∧ v = x.toUInt64) ∨ (k ∉ l.map Prod.fst ∧ m.get? k = some v) := by
  induction l with
  | nil => intro m c _ h k v; cases h; simp
  | cons p l ih =>
    intro m c hn h k v
    obtain ⟨n, t⟩ := p
    simp only [List.map_cons, List.nodup_cons] at hn
    cases t with
    | other => cases h
    | int y =>
      rw [ih _ _ hn.2 h k v, AMap.get?_insert]
      by_cases hk : n = k
      · subst hk
        simp only [List.map_cons, List.mem_cons, true_or, not_true_eq_false, false_and, or_false, if_true, hn.1, not_false_eq_true,
          true_and, Prod.mk.injEq, TomlCost.int.injEq]
        constructor
        · rintro (⟨x, hx, rfl⟩ | h)
          · exact ⟨x, .inr hx, rfl⟩
          · cases h; exact ⟨y, .inl rfl, rfl⟩
        · rintro ⟨x, rfl | hx, rfl⟩
          · exact .inr rfl
          · exact absurd (List.mem_map.2 ⟨_, hx, rfl⟩) hn.1
      · have hk' : ¬ k = n := fun h => hk h.symm
        simp [hk, hk']

theorem loadCosts_none (l : List (String × TomlCost)) : ∀ m, loadCosts l m = none ↔ ∃ k, (k, .other) ∈ l := by
  induction l with
  | nil => intro m; simp [loadCosts]
  | cons p l ih =>
    intro m
    obtain ⟨n, t⟩ := p
    cases t with
    | other => simp only [loadCosts, true_iff]; exact ⟨n, .head _⟩
    | int y => simp [loadCosts, ih]

theorem loadSections_get (t : TomlTree) : ∀ (m c : ScheduleMap), (t.map Prod.fst).Nodup → loadSections t m = some c →
    ∀ k v, c.get? k = some v ↔
      (∃ l, (k, .table l) ∈ t ∧ loadCosts l AMap.empty = some v) ∨ (k ∉ t.map Prod.fst ∧ m.get? k = some v) := by
  induction t with
  | nil => intro m c _ h k v; cases h; simp
  | cons p t ih =>
    intro m c hn h k v
    obtain ⟨n, s⟩ := p
    simp only [List.map_cons, List.nodup_cons] at hn
    cases s with
    | other => cases h
    | table l =>
      simp only [loadSections] at h
      cases hl : loadCosts l AMap.empty with
      | none => rw [hl] at h; cases h
      | some y =>
        rw [hl] at h
        rw [ih _ _ hn.2 h k v, AMap.get?_insert]
        by_cases hk : n = k
        · subst hk
          simp only [List.map_cons, List.mem_cons, true_or, not_true_eq_false, false_and, or_false, if_true, hn.1, not_false_eq_true,
            true_and, Prod.mk.injEq, TomlSection.table.injEq]
          constructor
          · rintro (⟨x, hx, hv⟩ | h)
            · exact ⟨x, .inr hx, hv⟩
            · cases h; exact ⟨l, .inl rfl, hl⟩
          · rintro ⟨x, rfl | hx, hv⟩
            · rw [hl] at hv; exact .inr hv
            · exact absurd (List.mem_map.2 ⟨_, hx, rfl⟩) hn.1
        · have hk' : ¬ k = n := fun h => hk h.symm
          simp [hk, hk']

theorem loadSections_none (t : TomlTree) : ∀ m, loadSections t m = none ↔ NotCosts t := by
  induction t with
  | nil => intro m; simp [loadSections, NotCosts]
  | cons p t ih =>
    intro m
    obtain ⟨n, s⟩ := p
    cases s with
    | other => simp only [loadSections, true_iff]; exact .inl ⟨n, .head _⟩
    | table l =>
      simp only [loadSections]
      cases hl : loadCosts l AMap.empty with
      | none =>
        obtain ⟨k, hk⟩ := (loadCosts_none l _).1 hl
        simp only [true_iff]
        exact .inr ⟨n, l, k, .head _, hk⟩
      | some y =>
        have hl' : ¬ ∃ k, (k, TomlCost.other) ∈ l := fun h => by rw [(loadCosts_none l AMap.empty).2 h] at hl; cases hl
        simp only [ih]
        constructor
        · rintro (⟨s, h⟩ | ⟨s, l', o, h, h'⟩)
          · exact .inl ⟨s, .tail _ h⟩
          · exact .inr ⟨s, l', o, .tail _ h, h'⟩
        · rintro (⟨s, h⟩ | ⟨s, l', o, h, h'⟩)
          · cases h with
            | tail _ h => exact .inl ⟨s, h⟩
          · cases h with
            | head => exact absurd ⟨o, h'⟩ hl'
            | tail _ h => exact .inr ⟨s, l', o, h, h'⟩

/-- A schedule read from a text has exactly the costs that are written in it, as 64-bit numbers. -/
theorem c86_read (t : TomlTree) (m : ScheduleMap) (h : loadSchedule t = some m) (ho : NamesOnce t) (sec op : String) (v : UInt64) :
    (∃ c, m.get? sec = some c ∧ c.get? op = some v) ↔ ∃ x, WrittenCost t sec op x ∧ v = x.toUInt64 := by
  have hs := loadSections_get t _ m ho.1 h sec
  constructor
  · rintro ⟨c, hc, hv⟩
    rcases (hs c).1 hc with ⟨l, hl, hc'⟩ | ⟨_, h0⟩
    · rcases (loadCosts_get l _ c (ho.2 _ _ hl) hc' op v).1 hv with ⟨x, hx, rfl⟩ | ⟨_, h0⟩
      · exact ⟨x, ⟨l, hl, hx⟩, rfl⟩
      · simp at h0
    · simp at h0
  · rintro ⟨x, ⟨l, hl, hx⟩, rfl⟩
    cases hc : loadCosts l AMap.empty with
    | none =>
      obtain ⟨k, hk⟩ := (loadCosts_none l _).1 hc
      have : loadSchedule t = none := (loadSections_none t _).2 (.inr ⟨sec, l, k, hl, hk⟩)
      rw [h] at this; cases this
    | some c =>
      exact ⟨c, (hs c).2 (.inl ⟨l, hl, hc⟩), (loadCosts_get l _ c (ho.2 _ _ hl) hc op _).2 (.inl ⟨x, hx, rfl⟩)⟩

/-- Reading ends in a panic exactly for texts that have anything else than tables of integers. -/
theorem c86_panics (t : TomlTree) : loadSchedule t = none ↔ NotCosts t := loadSections_none t _

/-- Negative costs are accepted, as enormous ones. -/
theorem c86_negative_neg : ¬ ∀ (t : TomlTree) (m : ScheduleMap) (c : AMap String UInt64) (sec op : String) (x : Int64) (v : UInt64),
    loadSchedule t = some m → WrittenCost t sec op x → m.get? sec = some c → c.get? op = some v → (v.toNat : Int) = x.toInt := by
  intro h
  have := h [("A", .table [("B", .int (-1))])] _ _ "A" "B" (-1) 18446744073709551615 rfl ⟨_, .head _, .head _⟩ rfl rfl
  revert this; decide

/-! ### The texts -/

/-- what is checked of a text: names occur once, numbers are not zero and fit into 32 bits, and all costs are there -/
structure GoodText (x : ScheduleText) : Prop where
  sections : (x.map Prod.fst).Nodup
  names : ∀ p ∈ x, (p.2.map Prod.fst).Nodup
  numbers : ∀ p ∈ x, ∀ q ∈ p.2, 0 < q.2 ∧ q.2 < 4294967296
  all : ∀ s : Section, ∃ l, (s.key, l) ∈ x ∧ ∀ f ∈ s.fields, f ∈ l.map Prod.fst

theorem treeOf_once {x : ScheduleText} (g : GoodText x) : NamesOnce (treeOf x) := by
  refine ⟨?_, ?_⟩
  · have : (treeOf x).map Prod.fst = x.map Prod.fst := by simp [treeOf, Function.comp_def]
    rw [this]; exact g.sections
  · intro sec l hl
    obtain ⟨p, hp, he⟩ := List.mem_map.1 hl
    cases he
    have : (p.2.map fun q => (q.1, TomlCost.int (Int64.ofNat q.2))).map Prod.fst = p.2.map Prod.fst := by simp [Function.comp_def]
    rw [this]; exact g.names p hp

theorem treeOf_costs (x : ScheduleText) : ¬ NotCosts (treeOf x) := by
  rintro (⟨s, h⟩ | ⟨s, l, o, h, h'⟩)
  · obtain ⟨p, hp, he⟩ := List.mem_map.1 h; cases he
  · obtain ⟨p, hp, he⟩ := List.mem_map.1 h
    cases he
    obtain ⟨q, hq, he⟩ := List.mem_map.1 h'; cases he

theorem written_treeOf {x : ScheduleText} {sec op : String} {v : Int64} :
    WrittenCost (treeOf x) sec op v ↔ ∃ n, InText x sec op n ∧ v = Int64.ofNat n := by
  constructor
  · rintro ⟨l, hl, hv⟩
    obtain ⟨p, hp, he⟩ := List.mem_map.1 hl
    cases he
    obtain ⟨q, hq, he⟩ := List.mem_map.1 hv
    cases he
    exact ⟨q.2, ⟨p.2, hp, hq⟩, rfl⟩
  · rintro ⟨n, ⟨l, hl, hn⟩, rfl⟩
    exact ⟨_, List.mem_map.2 ⟨(sec, l), hl, rfl⟩, List.mem_map.2 ⟨(op, n), hn, rfl⟩⟩

theorem ofNat_toUInt64 {n : Nat} (h : n < 4294967296) : (Int64.ofNat n).toUInt64.toNat = n := by
  have : (Int64.ofNat n).toUInt64 = UInt64.ofNat n := rfl
  rw [this, UInt64.toNat_ofNat']
  omega

/-- A good text is read and accepted, and every cost is charged as it is written. -/
theorem goodText_accepted (D : Decoder) {x : ScheduleText} (g : GoodText x) : ∃ m c, loadSchedule (treeOf x) = some m ∧
    createGasConfig D m = .ok c ∧ ∀ s f, Required s f → ∃ n, InText x s.key f n ∧ (c s f).toNat = n ∧ 0 < n := by
  cases hm : loadSchedule (treeOf x) with
  | none => exact absurd ((c86_panics _).1 hm) (treeOf_costs x)
  | some m =>
    have key : ∀ s f, Required s f → ∃ n t v, InText x s.key f n ∧ m.get? (Section.key s) = some t ∧ t.get? f = some v ∧
        v.toNat = n ∧ 0 < n ∧ n < 4294967296 := by
      intro s f hf
      obtain ⟨l, hl, hall⟩ := g.all s
      obtain ⟨⟨f', n⟩, hq, rfl⟩ := List.mem_map.1 (hall f hf)
      obtain ⟨t, ht, hv⟩ := (c86_read _ m hm (treeOf_once g) s.key f' (Int64.ofNat n).toUInt64).2
        ⟨_, written_treeOf.2 ⟨n, ⟨l, hl, hq⟩, rfl⟩, rfl⟩
      have hb := g.numbers _ hl _ hq
      exact ⟨n, t, _, ⟨l, hl, hq⟩, ht, hv, ofNat_toUInt64 hb.2, hb.1, hb.2⟩
    obtain ⟨c, hc, hval⟩ := c43_complete D m (by
      intro s f hf
      obtain ⟨n, t, v, _, ht, hv, hn, h0, h1⟩ := key s f hf
      refine ⟨t, v, ht, hv, ?_⟩
      rw [charged]; split <;> omega)
    refine ⟨m, c, rfl, hc, fun s f hf => ?_⟩
    obtain ⟨n, t, v, hi, ht, hv, hn, h0, h1⟩ := key s f hf
    refine ⟨n, hi, ?_, h0⟩
    rw [hval s f t v hf ht hv, charged]
    split <;> omega

theorem nodup_fst {β : Type} (l : List (String × β)) : (l.map Prod.fst).Nodup → ∀ a b b', (a, b) ∈ l → (a, b') ∈ l → b = b' := by
  induction l with
  | nil => intro _ a b b' h; cases h
  | cons p l ih =>
    intro hn a b b' h1 h2
    simp only [List.map_cons, List.nodup_cons] at hn
    cases h1 with
    | head =>
      cases h2 with
      | head => rfl
      | tail _ h2 => exact absurd (List.mem_map.2 ⟨_, h2, rfl⟩) hn.1
    | tail _ h1 =>
      cases h2 with
      | head => exact absurd (List.mem_map.2 ⟨_, h1, rfl⟩) hn.1
      | tail _ h2 => exact ih hn.2 a b b' h1 h2

/-- in a good text an operation has one cost -/
theorem inText_unique {x : ScheduleText} (g : GoodText x) {sec op : String} {n n' : Nat} (h : InText x sec op n)
    (h' : InText x sec op n') : n = n' := by
  obtain ⟨l, hl, hn⟩ := h
  obtain ⟨l', hl', hn'⟩ := h'
  have := nodup_fst x g.sections _ _ _ hl hl'
  subst this
  exact nodup_fst l (g.names _ hl) _ _ _ hn hn'

end Arwen.Props
