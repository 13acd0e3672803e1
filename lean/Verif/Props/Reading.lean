import Verif.Props.RewriteParts
import Verif.Spec.Reading
/-!
C73: what the parser makes of the values, tokens and accounts of scenario files.
-/
namespace Arwen.Props
open Arwen.Mandos Arwen.Spec

/-! ### Results and objects -/

theorem ebind_iff {α β : Type} {x : Parsed α} {f : α → Parsed β} {b : β} : x.bind f = .ok b ↔ ∃ a, x = .ok a ∧ f a = .ok b :=
  ⟨ebind_ok, fun ⟨a, h1, h2⟩ => by rw [h1]; exact h2⟩

theorem emap_iff {α β : Type} {x : Parsed α} {f : α → β} {b : β} : x.map f = .ok b ↔ ∃ a, x = .ok a ∧ f a = b :=
  ⟨map_ok, fun ⟨a, h1, h2⟩ => by rw [h1, ← h2]; rfl⟩

theorem eok_iff {α : Type} {a b : α} : (.ok a : Parsed α) = .ok b ↔ a = b := ⟨fun h => by injection h, fun h => by rw [h]⟩

theorem eok_bind {α β : Type} {a : α} {f : α → Parsed β} : (.ok a : Parsed α).bind f = f a := rfl

theorem reject_iff {α : Type} {b : α} : (reject : Parsed α) = .ok b ↔ False := ⟨(fun h => by cases h), False.elim⟩

theorem asMap_iff {j : Json} {l : List (Bytes × Json)} : asMap j = .ok l ↔ j = .map l := ⟨asMap_ok, fun h => by rw [h]; rfl⟩

theorem asList_iff {j : Json} {l : List Json} : asList j = .ok l ↔ j = .list l := ⟨asList_ok, fun h => by rw [h]; rfl⟩

theorem parseStr_iff {j : Json} {s : Bytes} : parseStr j = .ok s ↔ SaysText j s := ⟨parseStr_ok, fun h => by rw [h]; rfl⟩

theorem word_text_iff {a b : Word} : a.text = b.text ↔ a = b := ⟨Word.text_inj, fun h => by rw [h]⟩

theorem valueAt_none {l : List (Bytes × Json)} {k : Bytes} (h : k ∉ l.map Prod.fst) : valueAt l k = none := by
  induction l with
  | nil => rfl
  | cons p l ih =>
    simp only [List.map_cons, List.mem_cons, not_or] at h
    rw [valueAt, if_neg (fun e => h.1 e.symm), ih h.2]

theorem atKey_nil {α : Type} {w : Word} {R : Json → α → Prop} {d x : α} : AtKey [] w R d x ↔ x = d := Iff.rfl

theorem atKey_absent {α : Type} {l : List (Bytes × Json)} {w : Word} {R : Json → α → Prop} {d x : α} (h : w.text ∉ l.map Prod.fst) :
    AtKey l w R d x ↔ x = d := by
  unfold AtKey
  rw [valueAt_none h]

theorem atKey_self {α : Type} {l : List (Bytes × Json)} {w : Word} {v : Json} {R : Json → α → Prop} {d x : α} :
    AtKey ((w.text, v) :: l) w R d x ↔ R v x := by
  unfold AtKey
  rw [valueAt, if_pos rfl]

theorem atKey_other {α : Type} {l : List (Bytes × Json)} {w u : Word} {v : Json} {R : Json → α → Prop} {d x : α} (h : w ≠ u) :
    AtKey ((w.text, v) :: l) u R d x ↔ AtKey l u R d x := by
  unfold AtKey
  rw [valueAt, if_neg (fun e => h (Word.text_inj e))]

theorem onlyKeys_nil {ws : List Word} : OnlyKeys [] ws := fun _ h => by cases h

theorem onlyKeys_cons {l : List (Bytes × Json)} {w : Word} {v : Json} {ws : List Word} (h : w ∈ ws) :
    OnlyKeys ((w.text, v) :: l) ws ↔ OnlyKeys l ws := by
  unfold OnlyKeys
  constructor
  · exact fun hp p hm => hp p (List.mem_cons_of_mem _ hm)
  · intro hp p hm
    rcases List.mem_cons.mp hm with e | hm
    · exact ⟨w, h, by rw [e]⟩
    · exact hp p hm

theorem onlyKeys_other {l : List (Bytes × Json)} {k : Bytes} {v : Json} {ws : List Word} (h : ∀ w ∈ ws, Word.of? k ≠ some w) :
    ¬ OnlyKeys ((k, v) :: l) ws := by
  intro hp
  obtain ⟨w, hw, e⟩ := hp (k, v) List.mem_cons_self
  have e : k = w.text := e
  exact h w hw (by rw [e, Word.of?_text])

variable {I : Interpreter}

/-! ### Values -/

theorem bytesS_iff {j : Json} {x : BytesS} : parseBytesS I j = .ok x ↔ SaysBytes I j x := by
  unfold parseBytesS SaysBytes Stands
  simp only [ebind_iff, emap_iff, parseStr_iff, SaysText]
  constructor
  · rintro ⟨s, h1, b, h2, rfl⟩
    exact ⟨s, h1, h2, rfl⟩
  · rintro ⟨s, h1, h2, rfl⟩
    exact ⟨x.original, h1, x.value, h2, rfl⟩

theorem bytesT_iff {j : Json} {x : BytesT} : parseBytesT I j = .ok x ↔ IsTree I j x := by
  unfold parseBytesT IsTree
  rw [emap_iff]
  constructor
  · rintro ⟨b, h, rfl⟩
    exact ⟨h, rfl⟩
  · rintro ⟨h1, h2⟩
    exact ⟨x.value, h1, by rw [← h2]⟩

theorem big_iff {j : Json} {x : BigI} : parseBig I false j = .ok x ↔ IsAmount I j x := by
  unfold parseBig IsAmount
  simp only [ebind_iff, emap_iff, parseStr_iff, SaysText, Bool.false_eq_true, if_false]
  constructor
  · rintro ⟨s, h1, b, h2, rfl⟩
    exact ⟨s, b, h1, h2, rfl, rfl⟩
  · rintro ⟨s, b, h1, h2, h3, rfl⟩
    exact ⟨x.original, h1, b, h2, by rw [← h3]⟩

theorem u64_iff {j : Json} {x : U64} : parseU64 I j = .ok x ↔ IsU64 I j x := by
  unfold parseU64 IsU64
  simp only [ebind_iff, big_iff, IsAmount]
  constructor
  · rintro ⟨b, ⟨s, c, h1, h2, h3, h4⟩, h⟩
    rw [h3] at h
    dsimp only at h
    split at h
    · rename_i hr
      injection h with h
      refine ⟨s, c, h1, h2, ?_, by rw [← h]; exact h4⟩
      rw [← h]
      simp only [Int.toNat_natCast, UInt64.toNat_ofNat']
      omega
    · cases h
  · rintro ⟨s, b, h1, h2, h3, rfl⟩
    refine ⟨{ value := some (bytesToNat b : Int), original := x.original }, ⟨_, b, h1, h2, rfl, rfl⟩, ?_⟩
    have hlt := x.value.toNat_lt
    dsimp only
    rw [if_pos (by omega), Int.toNat_natCast, ← h3, UInt64.ofNat_toNat]

theorem address_iff {s : Bytes} {x : BytesS} : parseAddress I s = .ok x ↔ IsAddress I s x := by
  unfold parseAddress IsAddress Stands
  by_cases hs : s = []
  · rw [if_pos hs]
    constructor
    · intro h
      cases h
    · rintro ⟨⟨h1, h2⟩, h3⟩
      rw [hs, interpretString_nil] at h1
      injection h1 with h1
      rw [← h1] at h3
      cases h3
  · rw [if_neg hs, ebind_iff]
    constructor
    · rintro ⟨b, h1, h2⟩
      split at h2
      · rename_i hb
        injection h2 with h2
        rw [← h2]
        exact ⟨⟨h1, rfl⟩, hb⟩
      · cases h2
    · rintro ⟨⟨h1, h2⟩, h3⟩
      refine ⟨x.value, h1, ?_⟩
      rw [if_pos h3, ← h2]

theorem addressJson_iff {j : Json} {x : BytesS} : parseAddressJson I j = .ok x ↔ ∃ s, j = .str s ∧ IsAddress I s x := by
  unfold parseAddressJson
  simp only [ebind_iff, parseStr_iff, SaysText, address_iff]

theorem isStar_iff {j : Json} : isStar j = true ↔ IsStar j := ⟨isStar_str, fun h => by rw [h]; rfl⟩

theorem chkBytes_iff {j : Json} {x : ChkBytes} : parseChkBytes I j = .ok x ↔ IsChkBytes I j x := by
  unfold parseChkBytes IsChkBytes
  by_cases h : IsStar j
  · rw [if_pos (isStar_iff.mpr h), eok_iff]
    constructor
    · rintro rfl
      exact .inl ⟨h, rfl⟩
    · rintro (⟨_, h2⟩ | ⟨h1, _⟩)
      · exact h2.symm
      · exact absurd h h1
  · rw [if_neg (fun e => h (isStar_iff.mp e)), emap_iff]
    simp only [bytesT_iff, IsTree]
    constructor
    · rintro ⟨b, ⟨h1, h2⟩, rfl⟩
      exact .inr ⟨h, h1, h2, rfl, rfl⟩
    · rintro (⟨h1, _⟩ | ⟨_, h1, h2, h3, h4⟩)
      · exact absurd h1 h
      · exact ⟨{ value := x.value, original := x.original }, ⟨h1, h2⟩, by cases x; simp_all⟩

theorem chkInt_iff {signed : Bool} {j : Json} {x : ChkInt} : parseChkInt I signed j = .ok x ↔ IsChkInt I signed j x := by
  unfold parseChkInt IsChkInt
  by_cases h : IsStar j
  · rw [if_pos (isStar_iff.mpr h), eok_iff]
    constructor
    · rintro rfl
      exact .inl ⟨h, rfl⟩
    · rintro (⟨_, h2⟩ | ⟨h1, _⟩)
      · exact h2.symm
      · exact absurd h h1
  · rw [if_neg (fun e => h (isStar_iff.mp e)), emap_iff]
    unfold parseBig
    simp only [ebind_iff, emap_iff, parseStr_iff, SaysText]
    constructor
    · rintro ⟨b, ⟨s, h1, c, h2, rfl⟩, rfl⟩
      exact .inr ⟨h, s, c, h1, h2, rfl⟩
    · rintro (⟨h1, _⟩ | ⟨_, s, b, h1, h2, rfl⟩)
      · exact absurd h1 h
      · exact ⟨_, ⟨s, h1, b, h2, rfl⟩, rfl⟩

theorem chkU64_iff {j : Json} {x : ChkU64} : parseChkU64 I j = .ok x ↔ IsChkU64 I j x := by
  unfold parseChkU64 IsChkU64
  by_cases h : IsStar j
  · rw [if_pos (isStar_iff.mpr h), eok_iff]
    constructor
    · rintro rfl
      exact .inl ⟨h, rfl⟩
    · rintro (⟨_, h2⟩ | ⟨h1, _⟩)
      · exact h2.symm
      · exact absurd h h1
  · rw [if_neg (fun e => h (isStar_iff.mp e)), emap_iff]
    simp only [u64_iff, IsU64]
    constructor
    · rintro ⟨b, ⟨s, c, h1, h2, h3, h4⟩, rfl⟩
      exact .inr ⟨h, s, c, h1, h2, h3, h4, rfl, rfl⟩
    · rintro (⟨h1, _⟩ | ⟨_, s, b, h1, h2, h3, h4, h5, h6⟩)
      · exact absurd h1 h
      · exact ⟨{ value := x.value, original := x.original }, ⟨s, b, h1, h2, h3, h4⟩, by cases x; simp_all⟩

/-! ### Lists and tables -/

theorem elements_iff {α : Type} {f : Json → Parsed α} {R : Json → α → Prop} {l : List Json}
    (h : ∀ j ∈ l, ∀ x, f j = .ok x ↔ R j x) : ∀ {xs : List α}, elements f l = .ok xs ↔ Each R l xs := by
  induction l with
  | nil =>
    intro xs
    simp only [elements, eok_iff]
    constructor
    · rintro rfl
      exact .nil
    · intro h
      cases h
      rfl
  | cons j l ih =>
    intro xs
    simp only [elements, ebind_iff, emap_iff, h j List.mem_cons_self, ih (fun k hk => h k (List.mem_cons_of_mem _ hk))]
    constructor
    · rintro ⟨a, h1, r, h2, rfl⟩
      exact .cons h1 h2
    · intro h
      cases h with
      | cons h1 h2 => exact ⟨_, h1, _, h2, rfl⟩

theorem entries_iff {α : Type} {f : Bytes → Json → Parsed α} {R : Bytes → Json → α → Prop} {l : List (Bytes × Json)}
    (h : ∀ p ∈ l, ∀ x, f p.1 p.2 = .ok x ↔ R p.1 p.2 x) : ∀ {xs : List α}, entries f l = .ok xs ↔ Each (fun p x => R p.1 p.2 x) l xs := by
  induction l with
  | nil =>
    intro xs
    simp only [entries, eok_iff]
    constructor
    · rintro rfl
      exact .nil
    · intro h
      cases h
      rfl
  | cons p l ih =>
    intro xs
    obtain ⟨k, v⟩ := p
    have h0 : ∀ x, f k v = .ok x ↔ R k v x := h (k, v) List.mem_cons_self
    simp only [entries, ebind_iff, emap_iff, h0, ih (fun k hk => h k (List.mem_cons_of_mem _ hk))]
    constructor
    · rintro ⟨a, h1, r, h2, rfl⟩
      exact .cons h1 h2
    · intro h
      cases h with
      | cons h1 h2 => exact ⟨_, h1, _, h2, rfl⟩

theorem plusEntries_iff {α : Type} {f : Bytes → Json → Parsed α} {R : Bytes → Json → α → Prop} {l : List (Bytes × Json)}
    (h : ∀ p ∈ l, ∀ x, f p.1 p.2 = .ok x ↔ R p.1 p.2 x) : ∀ {m m' : Bool} {xs ys : List α}, plusEntries f l (m, xs) = .ok (m', ys) ↔
      (m' = true ↔ m = true ∨ ∃ p ∈ l, p.1 = plusText) ∧
      ∃ zs, ys = xs ++ zs ∧ Each (fun p x => R p.1 p.2 x) (l.filter fun p => p.1 ≠ plusText) zs := by
  induction l with
  | nil =>
    intro m m' xs ys
    simp only [plusEntries, eok_iff, List.filter_nil, List.not_mem_nil, false_and, exists_false, or_false, Prod.mk.injEq]
    constructor
    · rintro ⟨rfl, rfl⟩
      exact ⟨Iff.rfl, [], by simp, .nil⟩
    · rintro ⟨h1, zs, rfl, h2⟩
      cases h2
      exact ⟨by cases m <;> cases m' <;> simp_all, by simp⟩
  | cons p l ih =>
    intro m m' xs ys
    obtain ⟨k, v⟩ := p
    have h0 : ∀ x, f k v = .ok x ↔ R k v x := h (k, v) List.mem_cons_self
    have hl := fun q hq => h q (List.mem_cons_of_mem _ hq)
    rw [plusEntries]
    by_cases hk : k = plusText
    · rw [if_pos hk, ih hl]
      simp only [hk, List.mem_cons, exists_eq_or_imp, ne_eq, not_true_eq_false, decide_false, List.filter_cons_of_neg, Bool.false_eq_true,
        not_false_eq_true, true_or, or_true]
    · rw [if_neg hk]
      simp only [ebind_iff, ih hl, h0, List.mem_cons, exists_eq_or_imp, hk, false_or, ne_eq, not_false_eq_true, decide_true, List.filter_cons_of_pos]
      constructor
      · rintro ⟨a, h1, h2, zs, rfl, h3⟩
        exact ⟨h2, a :: zs, by simp, .cons h1 h3⟩
      · rintro ⟨h2, zs, rfl, h3⟩
        cases h3 with
        | cons h1 h3 => exact ⟨_, h1, h2, _, by simp, h3⟩

theorem printable_pairs {l : List (Bytes × Json)} (h : Printable (.map l)) : (l.map Prod.fst).Nodup ∧ ∀ p ∈ l, Printable p.2 := by
  cases h with
  | map _ hn hv => exact ⟨hn, hv⟩

theorem list_iff {α : Type} {f : Json → Parsed α} {R : Json → α → Prop} (h : ∀ j, Printable j → ∀ x, f j = .ok x ↔ R j x) {j : Json}
    (hj : Printable j) {xs : List α} : (asList j).bind (elements f) = .ok xs ↔ IsList R j xs := by
  unfold IsList
  simp only [ebind_iff, asList_iff]
  constructor
  · rintro ⟨l, rfl, h1⟩
    exact ⟨l, rfl, (elements_iff fun j hm => h j (printable_list hj j hm)).mp h1⟩
  · rintro ⟨l, rfl, h1⟩
    exact ⟨l, rfl, (elements_iff fun j hm => h j (printable_list hj j hm)).mpr h1⟩

theorem table_iff {α : Type} {f : Bytes → Json → Parsed α} {R : Bytes → Json → α → Prop}
    (h : ∀ k j, Printable j → ∀ x, f k j = .ok x ↔ R k j x) {j : Json} (hj : Printable j) {xs : List α} :
    (asMap j).bind (entries f) = .ok xs ↔ IsTable R j xs := by
  unfold IsTable
  simp only [ebind_iff, asMap_iff]
  constructor
  · rintro ⟨l, rfl, h1⟩
    exact ⟨l, rfl, (entries_iff fun p hm => h p.1 p.2 ((printable_pairs hj).2 p hm)).mp h1⟩
  · rintro ⟨l, rfl, h1⟩
    exact ⟨l, rfl, (entries_iff fun p hm => h p.1 p.2 ((printable_pairs hj).2 p hm)).mpr h1⟩

theorem strings_iff {j : Json} (hj : Printable j) {xs : List Bytes} : parseStrings j = .ok xs ↔ IsList SaysText j xs :=
  list_iff (fun _ _ _ => parseStr_iff) hj
theorem bytesSs_iff {j : Json} (hj : Printable j) {xs : List BytesS} : parseBytesSs I j = .ok xs ↔ IsList (SaysBytes I) j xs :=
  list_iff (fun _ _ _ => bytesS_iff) hj
theorem bytesTs_iff {j : Json} (hj : Printable j) {xs : List BytesT} : parseBytesTs I j = .ok xs ↔ IsList (IsTree I) j xs :=
  list_iff (fun _ _ _ => bytesT_iff) hj
theorem chkBytess_iff {j : Json} (hj : Printable j) {xs : List ChkBytes} : parseChkBytess I j = .ok xs ↔ IsList (IsChkBytes I) j xs :=
  list_iff (fun _ _ _ => chkBytes_iff) hj

end Arwen.Props
