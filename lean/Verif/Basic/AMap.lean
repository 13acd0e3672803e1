/-
Finite maps: association lists without duplicate keys.  They stand for Go maps.
`insert` keeps the position of an existing key, so two maps built by the same history are equal.
-/
namespace Arwen

set_option linter.unusedSectionVars false

universe u v w

/-- A Go `map[K]V`: entries with pairwise distinct keys, in insertion order. -/
structure AMap (K : Type u) (V : Type v) where
  entries : List (K × V)
  nodup : (entries.map Prod.fst).Nodup

namespace AMap

variable {K : Type u} {V : Type v} [DecidableEq K]

instance [DecidableEq V] : DecidableEq (AMap K V) := fun a b =>
  if h : a.entries = b.entries then
    isTrue (by cases a; cases b; cases h; rfl)
  else isFalse (fun he => h (by rw [he]))

instance {K : Type u} {V : Type v} [Repr K] [Repr V] : Repr (AMap K V) := ⟨fun m p => reprPrec m.entries p⟩

@[ext] theorem ext' {K : Type u} {V : Type v} {a b : AMap K V} (h : a.entries = b.entries) : a = b := by
  cases a; cases b; cases h; rfl

def empty {K : Type u} {V : Type v} : AMap K V := ⟨[], List.nodup_nil⟩

instance {K : Type u} {V : Type v} : Inhabited (AMap K V) := ⟨empty⟩

/-- first match in an association list -/
def lookupL (k : K) : List (K × V) → Option V
  | [] => none
  | (k', v) :: l => if k' = k then some v else lookupL k l

/-- replace the first match or append at the end -/
def insertL (k : K) (v : V) : List (K × V) → List (K × V)
  | [] => [(k, v)]
  | (k', v') :: l => if k' = k then (k, v) :: l else (k', v') :: insertL k v l

def eraseL (k : K) (l : List (K × V)) : List (K × V) := l.filter (fun p => p.1 ≠ k)

theorem insertL_keys (k : K) (v : V) (l : List (K × V)) (x : K) :
    x ∈ (insertL k v l).map Prod.fst ↔ x = k ∨ x ∈ l.map Prod.fst := by
  induction l with
  | nil => simp [insertL]
  | cons p l ih =>
    obtain ⟨k', v'⟩ := p
    simp only [insertL]
    split
    · subst_vars; simp
    · simp only [List.map_cons, List.mem_cons, ih]
      constructor <;> rintro (h | h | h) <;> simp_all

theorem insertL_nodup (k : K) (v : V) (l : List (K × V)) (h : (l.map Prod.fst).Nodup) :
    ((insertL k v l).map Prod.fst).Nodup := by
  induction l with
  | nil => simp [insertL]
  | cons p l ih =>
    obtain ⟨k', v'⟩ := p
    simp only [List.map_cons, List.nodup_cons] at h
    simp only [insertL]
    split
    · subst_vars; simpa using h
    · simp only [List.map_cons, List.nodup_cons, insertL_keys]
      refine ⟨?_, ih h.2⟩
      rintro (he | he)
      · exact absurd he (by assumption)
      · exact h.1 he

theorem eraseL_nodup (k : K) (l : List (K × V)) (h : (l.map Prod.fst).Nodup) :
    ((eraseL k l).map Prod.fst).Nodup :=
  h.sublist (List.Sublist.map _ List.filter_sublist)

/-- Go `m[k]` with the `ok` flag. -/
def get? (m : AMap K V) (k : K) : Option V := lookupL k m.entries
/-- Go `m[k] = v`. -/
def insert (m : AMap K V) (k : K) (v : V) : AMap K V := ⟨insertL k v m.entries, insertL_nodup k v _ m.nodup⟩
/-- Go `delete(m, k)`. -/
def erase (m : AMap K V) (k : K) : AMap K V := ⟨eraseL k m.entries, eraseL_nodup k _ m.nodup⟩
def contains (m : AMap K V) (k : K) : Bool := (m.get? k).isSome
/-- Go `len(m)`. -/
def size {K : Type u} {V : Type v} (m : AMap K V) : Nat := m.entries.length
def keys {K : Type u} {V : Type v} (m : AMap K V) : List K := m.entries.map Prod.fst

@[simp] theorem get?_empty (k : K) : (empty : AMap K V).get? k = none := rfl

theorem lookupL_insertL (k k' : K) (v : V) (l : List (K × V)) :
    lookupL k' (insertL k v l) = if k = k' then some v else lookupL k' l := by
  induction l with
  | nil => simp [insertL, lookupL]
  | cons p l ih =>
    obtain ⟨a, b⟩ := p
    simp only [insertL]
    split
    · subst_vars
      simp only [lookupL]
      split <;> rfl
    · simp only [lookupL, ih]
      split <;> split <;> simp_all

theorem get?_insert (m : AMap K V) (k k' : K) (v : V) :
    (m.insert k v).get? k' = if k = k' then some v else m.get? k' := lookupL_insertL ..

@[simp] theorem get?_insert_self (m : AMap K V) (k : K) (v : V) : (m.insert k v).get? k = some v := by
  simp [get?_insert]

theorem get?_insert_ne (m : AMap K V) {k k' : K} (v : V) (h : k ≠ k') :
    (m.insert k v).get? k' = m.get? k' := by
  simp [get?_insert, h]

theorem insertL_insertL (k : K) (v w : V) (l : List (K × V)) : insertL k v (insertL k w l) = insertL k v l := by
  induction l with
  | nil => simp [insertL]
  | cons p l ih =>
    obtain ⟨a, b⟩ := p
    simp only [insertL]
    split
    · simp [insertL]
    · simp [insertL, *]

theorem insert_insert (m : AMap K V) (k : K) (v w : V) : (m.insert k w).insert k v = m.insert k v :=
  ext' (insertL_insertL k v w m.entries)

theorem insertL_lookupL (k : K) (v : V) (l : List (K × V)) (h : lookupL k l = some v) : insertL k v l = l := by
  induction l with
  | nil => simp [lookupL] at h
  | cons p l ih =>
    obtain ⟨a, b⟩ := p
    simp only [lookupL] at h
    simp only [insertL]
    split at h
    · simp_all
    · simp_all

theorem insert_get? (m : AMap K V) (k : K) (v : V) (h : m.get? k = some v) : m.insert k v = m :=
  ext' (insertL_lookupL k v m.entries h)

theorem lookupL_eraseL (k k' : K) (l : List (K × V)) :
    lookupL k' (eraseL k l) = if k = k' then none else lookupL k' l := by
  induction l with
  | nil => simp [eraseL, lookupL]
  | cons p l ih =>
    obtain ⟨a, b⟩ := p
    simp only [eraseL, List.filter] at ih ⊢
    by_cases h : a = k
    · subst h
      simp only [ne_eq, not_true_eq_false, decide_false, ih, lookupL]
      split <;> rfl
    · simp only [ne_eq, h, not_false_eq_true, decide_true, lookupL, ih]
      split <;> split <;> simp_all

theorem get?_erase (m : AMap K V) (k k' : K) :
    (m.erase k).get? k' = if k = k' then none else m.get? k' := lookupL_eraseL ..

theorem lookupL_some_mem {k : K} {v : V} {l : List (K × V)} (h : lookupL k l = some v) : (k, v) ∈ l := by
  induction l with
  | nil => simp [lookupL] at h
  | cons p l ih =>
    obtain ⟨a, b⟩ := p
    simp only [lookupL] at h
    split at h
    · simp_all
    · exact List.mem_cons_of_mem _ (ih h)

theorem lookupL_none_iff {k : K} {l : List (K × V)} : lookupL k l = none ↔ k ∉ l.map Prod.fst := by
  induction l with
  | nil => simp [lookupL]
  | cons p l ih =>
    obtain ⟨a, b⟩ := p
    simp only [lookupL, List.map_cons, List.mem_cons, not_or]
    split
    · subst_vars; simp
    · rw [ih]
      constructor
      · intro h; exact ⟨fun he => by simp_all, h⟩
      · exact fun h => h.2

theorem lookupL_of_mem {k : K} {v : V} {l : List (K × V)} (hn : (l.map Prod.fst).Nodup) (h : (k, v) ∈ l) :
    lookupL k l = some v := by
  induction l with
  | nil => simp at h
  | cons p l ih =>
    obtain ⟨a, b⟩ := p
    simp only [List.map_cons, List.nodup_cons] at hn
    simp only [List.mem_cons] at h
    simp only [lookupL]
    rcases h with h | h
    · simp_all
    · have : a ≠ k := by
        rintro rfl
        exact hn.1 (List.mem_map_of_mem (f := Prod.fst) h)
      simp [this, ih hn.2 h]

theorem mem_entries_iff (m : AMap K V) (k : K) (v : V) : (k, v) ∈ m.entries ↔ m.get? k = some v :=
  ⟨lookupL_of_mem m.nodup, lookupL_some_mem⟩

theorem get?_none_iff (m : AMap K V) (k : K) : m.get? k = none ↔ k ∉ m.keys := lookupL_none_iff

/-! ### Sums over all entries -/

/-- sum of `f` over the values of the map -/
def sumBy {K : Type u} {V : Type v} (f : V → Int) (m : AMap K V) : Int := (m.entries.map (fun p => f p.2)).sum

@[simp] theorem sumBy_empty (f : V → Int) : sumBy f (empty : AMap K V) = 0 := rfl

theorem sumL_insert (f : V → Int) (k : K) (v : V) (l : List (K × V)) :
    ((insertL k v l).map (fun p => f p.2)).sum =
      (l.map (fun p => f p.2)).sum - ((lookupL k l).map f).getD 0 + f v := by
  induction l with
  | nil => simp [insertL, lookupL]
  | cons p l ih =>
    obtain ⟨a, b⟩ := p
    simp only [insertL, lookupL]
    split
    · simp; omega
    · simp only [List.map_cons, List.sum_cons, ih]; omega

theorem sumBy_insert (f : V → Int) (m : AMap K V) (k : K) (v : V) :
    sumBy f (m.insert k v) = sumBy f m - ((m.get? k).map f).getD 0 + f v := sumL_insert ..

theorem sumL_erase (f : V → Int) (k : K) (l : List (K × V)) (hn : (l.map Prod.fst).Nodup) :
    ((eraseL k l).map (fun p => f p.2)).sum =
      (l.map (fun p => f p.2)).sum - ((lookupL k l).map f).getD 0 := by
  induction l with
  | nil => simp [eraseL, lookupL]
  | cons p l ih =>
    obtain ⟨a, b⟩ := p
    simp only [List.map_cons, List.nodup_cons] at hn
    have ih := ih hn.2
    simp only [eraseL, List.filter] at ih ⊢
    by_cases h : a = k
    · subst h
      have : lookupL a l = none := lookupL_none_iff.2 hn.1
      simp only [this, Option.map_none, Option.getD_none, Int.sub_zero] at ih
      simp only [ne_eq, not_true_eq_false, decide_false, lookupL, if_true, List.map_cons, List.sum_cons,
        Option.map_some, Option.getD_some]
      simp only [ne_eq] at ih
      rw [ih]; omega
    · simp only [ne_eq, h, not_false_eq_true, decide_true, List.map_cons, List.sum_cons, lookupL, if_false] at ih ⊢
      rw [ih]; omega

theorem sumBy_erase (f : V → Int) (m : AMap K V) (k : K) :
    sumBy f (m.erase k) = sumBy f m - ((m.get? k).map f).getD 0 := sumL_erase f k _ m.nodup

/-! ### Merging -/

/-- Go loop `for k, x := range r { l[k] = g(l[k], x) }`. -/
def mergeWith {W : Type w} (g : Option V → W → V) (l : AMap K V) (r : AMap K W) : AMap K V :=
  r.entries.foldl (fun acc p => acc.insert p.1 (g (acc.get? p.1) p.2)) l

theorem get?_foldl_merge {W : Type w} (g : Option V → W → V) (es : List (K × W)) :
    ∀ (l : AMap K V), (es.map Prod.fst).Nodup → ∀ k,
    (es.foldl (fun acc p => acc.insert p.1 (g (acc.get? p.1) p.2)) l).get? k =
      match lookupL k es with
      | none => l.get? k
      | some x => some (g (l.get? k) x) := by
  induction es with
  | nil => intro l _ k; simp [lookupL]
  | cons p es ih =>
    intro l hn k
    obtain ⟨a, b⟩ := p
    simp only [List.map_cons, List.nodup_cons] at hn
    simp only [List.foldl_cons, ih _ hn.2 k, lookupL]
    by_cases h : a = k
    · subst h
      have : lookupL a es = none := lookupL_none_iff.2 hn.1
      simp [this]
    · simp only [h, if_false, get?_insert_ne _ _ h]

theorem get?_mergeWith {W : Type w} (g : Option V → W → V) (l : AMap K V) (r : AMap K W) (k : K) :
    (mergeWith g l r).get? k =
      match r.get? k with
      | none => l.get? k
      | some x => some (g (l.get? k) x) := get?_foldl_merge g r.entries l r.nodup k

/-- map over values -/
def mapVal {K : Type u} {V : Type v} {W : Type w} (f : V → W) (m : AMap K V) : AMap K W :=
  ⟨m.entries.map (fun p => (p.1, f p.2)), by simpa [List.map_map, Function.comp_def] using m.nodup⟩

theorem lookupL_map {W : Type w} (f : V → W) (l : List (K × V)) (k : K) :
    lookupL k (l.map (fun p => (p.1, f p.2))) = (lookupL k l).map f := by
  induction l with
  | nil => rfl
  | cons p l ih => simp only [List.map_cons, lookupL]; split <;> simp_all

theorem get?_mapVal {W : Type w} (f : V → W) (m : AMap K V) (k : K) :
    (m.mapVal f).get? k = (m.get? k).map f := lookupL_map ..

/-- two maps with the same lookups have permuted entries -/
theorem perm_of_get?_eq {a b : AMap K V} (h : ∀ k, a.get? k = b.get? k) : a.entries.Perm b.entries := by
  have hna : a.entries.Nodup := by
    have := a.nodup; exact List.Pairwise.of_map Prod.fst (by intro x y hxy h; exact hxy (by rw [h])) this
  have hnb : b.entries.Nodup := by
    have := b.nodup; exact List.Pairwise.of_map Prod.fst (by intro x y hxy h; exact hxy (by rw [h])) this
  rw [List.perm_ext_iff_of_nodup hna hnb]
  rintro ⟨k, v⟩
  rw [mem_entries_iff, mem_entries_iff, h]

end AMap
end Arwen
