import Verif.Mandos.ScenarioLemmas
/-!
What the parser makes of values, tokens and accounts, and that they are read back as they were written.
-/
namespace Arwen.Props
open Arwen.Mandos Arwen.Spec

theorem word_of {k : Bytes} {w : Word} (h : Word.of? k = some w) : k = w.text := by
  have := List.find?_some h
  simp only [decide_eq_true_eq] at this
  exact this.symm

variable {I : Interpreter}

/-! ### Values -/

theorem parseStr_ok {j : Json} {s : Bytes} (h : parseStr j = .ok s) : j = .str s := by
  cases j <;> simp only [parseStr, reject] at h <;> cases h <;> rfl

/-- a text was read, and is read again in the same way -/
def Text (p : Json → Parsed α) (x : α) (original : Bytes) : Prop := p (.str original) = .ok x ∧ Quotable original

theorem text_back {α : Type} {p : Json → Parsed α} {x : α} {o : Bytes} (h : Text p x o) : Back p (strJ o) x :=
  ⟨.str o, rfl, h.1, .str h.2⟩

theorem str_back {s : Bytes} (h : Quotable s) : Back parseStr (strJ s) s := ⟨.str s, rfl, rfl, .str h⟩

theorem parseStr_inv {j : Json} {s : Bytes} (hj : Printable j) (h : parseStr j = .ok s) : Quotable s := by
  rw [parseStr_ok h] at hj
  exact printable_str hj

theorem bytesS_inv {j : Json} {x : BytesS} (hj : Printable j) (h : parseBytesS I j = .ok x) : Text (parseBytesS I) x x.original := by
  have h' := h
  obtain ⟨s, hs, h⟩ := ebind_ok h
  obtain ⟨b, hb, h⟩ := map_ok h
  rw [parseStr_ok hs] at hj h'
  rw [← h] at h' ⊢
  exact ⟨h', printable_str hj⟩

theorem bytesS_empty : Text (parseBytesS I) {} [] := by
  refine ⟨?_, quotable_nil⟩
  simp only [parseBytesS, parseStr, Except.bind, interpretString_nil]
  rfl

theorem bytesS_value {x : BytesS} (h : Text (parseBytesS I) x x.original) (h0 : x.original = []) : x = {} := by
  have e := h.1
  rw [h0, (bytesS_empty (I := I)).1] at e
  injection e with e
  exact e.symm

theorem bytesS_text {x : BytesS} (h : Text (parseBytesS I) x x.original) : x.text = x.original := by
  unfold BytesS.text
  rw [if_neg]
  rintro ⟨h0, h1⟩
  rw [bytesS_value h h0] at h1
  exact h1 rfl

theorem bytesS_back {x : BytesS} (h : Text (parseBytesS I) x x.original) : Back (parseBytesS I) x.json x := by
  rw [BytesS.json, bytesS_text h]
  exact text_back h

theorem big_inv {b : Bool} {j : Json} {x : BigI} (hj : Printable j) (h : parseBig I b j = .ok x) : Text (parseBig I b) x x.original := by
  have h' := h
  obtain ⟨s, hs, h⟩ := ebind_ok h
  obtain ⟨z, hz, h⟩ := map_ok h
  rw [parseStr_ok hs] at hj h'
  rw [← h] at h' ⊢
  exact ⟨h', printable_str hj⟩

theorem big_zero {b : Bool} : Text (parseBig I b) .zero [] := by
  refine ⟨?_, quotable_nil⟩
  simp only [parseBig, parseStr, Except.bind, interpretString_nil]
  cases b <;> rfl

theorem big_value {b : Bool} {x : BigI} (h : Text (parseBig I b) x x.original) (h0 : x.original = []) : x = .zero := by
  have e := h.1
  rw [h0, (big_zero (I := I) (b := b)).1] at e
  injection e with e
  exact e.symm

theorem big_some {b : Bool} {x : BigI} (h : Text (parseBig I b) x x.original) : x.value ≠ none := by
  obtain ⟨s, hs, e⟩ := ebind_ok h.1
  obtain ⟨z, hz, e⟩ := map_ok e
  rw [← e]
  simp

theorem big_back {b : Bool} {x : BigI} (h : Text (parseBig I b) x x.original) : Back (parseBig I b) x.json x := text_back h

theorem u64_original {t : Bytes} {x : U64} (h : parseU64 I (.str t) = .ok x) : x.original = t := by
  obtain ⟨b, hb, h⟩ := ebind_ok h
  obtain ⟨s, hs, hb⟩ := ebind_ok hb
  obtain ⟨z, hz, hb⟩ := map_ok hb
  cases hs
  rw [← hb] at h
  simp only [Bool.false_eq_true, if_false] at h
  generalize UInt64.ofNat (bytesToNat z : Int).toNat = u at h
  split at h
  · injection h with h
    rw [← h]
  · cases h

theorem u64_inv {j : Json} {x : U64} (hj : Printable j) (h : parseU64 I j = .ok x) : Text (parseU64 I) x x.original := by
  have h' := h
  obtain ⟨s, hs, h⟩ := ebind_ok h
  have hb := big_inv hj hs
  obtain ⟨t, ht, hs'⟩ := ebind_ok hs
  obtain ⟨z, hz, hs'⟩ := map_ok hs'
  rw [parseStr_ok ht] at h'
  rw [u64_original h']
  exact ⟨h', by rw [← hs'] at hb; exact hb.2⟩

theorem u64_zero : Text (parseU64 I) {} [] := by
  refine ⟨?_, quotable_nil⟩
  simp only [parseU64, (big_zero (I := I) (b := false)).1]
  rfl

theorem u64_value {x : U64} (h : Text (parseU64 I) x x.original) (h0 : x.original = []) : x = {} := by
  have e := h.1
  rw [h0, (u64_zero (I := I)).1] at e
  injection e with e
  exact e.symm

theorem u64_back {x : U64} (h : Text (parseU64 I) x x.original) : Back (parseU64 I) x.json x := text_back h

theorem isStar_str {j : Json} (h : isStar j = true) : j = .str starText := by
  cases j <;> simp [isStar] at h
  rw [h]

theorem quotable_star : Quotable starText := quotable_plain rfl

theorem chkInt_inv {b : Bool} {j : Json} {x : ChkInt} (hj : Printable j) (h : parseChkInt I b j = .ok x) :
    x.unspecified = false ∧ Text (parseChkInt I b) x x.original := by
  have h' := h
  unfold parseChkInt at h
  by_cases hs : isStar j
  · rw [if_pos hs] at h
    injection h with h
    rw [isStar_str hs] at h'
    rw [← h] at h' ⊢
    exact ⟨rfl, h', quotable_star⟩
  · rw [if_neg hs] at h
    obtain ⟨y, hy, h⟩ := map_ok h
    have hb := big_inv hj hy
    obtain ⟨t, ht, _⟩ := ebind_ok hy
    have e : y.original = t := by
      obtain ⟨s, hs, e⟩ := ebind_ok hy
      obtain ⟨z, hz, e⟩ := map_ok e
      rw [ht] at hs
      cases hs
      rw [← e]
    rw [parseStr_ok ht, ← e] at h'
    rw [← h] at h' ⊢
    exact ⟨rfl, h', hb.2⟩

theorem chkInt_back {b : Bool} {x : ChkInt} (h : Text (parseChkInt I b) x x.original) : Back (parseChkInt I b) x.json x := text_back h

theorem chkU64_inv {j : Json} {x : ChkU64} (hj : Printable j) (h : parseChkU64 I j = .ok x) :
    x.unspecified = false ∧ Text (parseChkU64 I) x x.original := by
  have h' := h
  unfold parseChkU64 at h
  by_cases hs : isStar j
  · rw [if_pos hs] at h
    injection h with h
    rw [isStar_str hs] at h'
    rw [← h] at h' ⊢
    exact ⟨rfl, h', quotable_star⟩
  · rw [if_neg hs] at h
    obtain ⟨y, hy, h2⟩ := map_ok h
    have hb := u64_inv hj hy
    have hj' : ∃ t, j = .str t := by
      obtain ⟨z, hz, _⟩ := ebind_ok hy
      obtain ⟨t, ht, _⟩ := ebind_ok hz
      exact ⟨t, parseStr_ok ht⟩
    obtain ⟨t, rfl⟩ := hj'
    rw [← u64_original hy] at h'
    rw [← h2] at h' ⊢
    exact ⟨rfl, h', hb.2⟩

theorem chkU64_zero : Text (parseChkU64 I) {} [] := by
  refine ⟨?_, quotable_nil⟩
  simp only [parseChkU64, (u64_zero (I := I)).1]
  rfl

theorem chkU64_value {x : ChkU64} (h : Text (parseChkU64 I) x x.original) (h0 : x.original = []) : x = {} := by
  have e := h.1
  rw [h0, (chkU64_zero (I := I)).1] at e
  injection e with e
  exact e.symm

theorem chkU64_back {x : ChkU64} (h : Text (parseChkU64 I) x x.original) : Back (parseChkU64 I) x.json x := text_back h

/-- a tree was read, and is read again in the same way -/
def Tree {α : Type} (p : Json → Parsed α) (x : α) (original : Option Json) : Prop := ∃ j, original = some j ∧ p j = .ok x ∧ Printable j

theorem interpretTree_empty {I : Interpreter} {b : Bytes} (h : interpretTree I (.str []) = .ok b) : b = [] := by
  rw [interpretTree, interpretString_nil] at h
  injection h with h
  exact h.symm

theorem bytesT_inv {j : Json} {x : BytesT} (hj : Printable j) (h : parseBytesT I j = .ok x) : Tree (parseBytesT I) x x.original := by
  have h' := h
  obtain ⟨b, hb, h⟩ := map_ok h
  exact ⟨j, by rw [← h], h', hj⟩

theorem originalEmpty_str {o : Option Json} (h : originalEmpty o = true) : o = some (.str []) := by
  cases o with
  | none => cases h
  | some j =>
    cases j <;> simp [originalEmpty] at h
    rw [h]

theorem bytesT_back {x : BytesT} (h : Tree (parseBytesT I) x x.original) : Back (parseBytesT I) x.json x := by
  obtain ⟨j, h1, h2, h3⟩ := h
  refine ⟨j, ?_, h2, h3⟩
  unfold BytesT.json
  split
  · rename_i he
    have e := originalEmpty_str he
    rw [h1] at e
    injection e with e
    rw [e] at h2 ⊢
    obtain ⟨b, hb, e2⟩ := map_ok h2
    rw [← e2, interpretTree_empty hb]
    rfl
  · exact h1

theorem chkBytes_inv {j : Json} {x : ChkBytes} (hj : Printable j) (h : parseChkBytes I j = .ok x) :
    x.unspecified = false ∧ Tree (parseChkBytes I) x x.original := by
  have h' := h
  unfold parseChkBytes at h
  by_cases hs : isStar j
  · rw [if_pos hs] at h
    injection h with h
    refine ⟨by rw [← h]; rfl, j, ?_, h', hj⟩
    rw [← h, isStar_str hs]
    rfl
  · rw [if_neg hs] at h
    obtain ⟨y, hy, h⟩ := map_ok h
    obtain ⟨b, hb, e⟩ := map_ok hy
    refine ⟨by rw [← h], j, ?_, h', hj⟩
    rw [← h, ← e]

theorem chkBytes_back {x : ChkBytes} (h : Tree (parseChkBytes I) x x.original) : Back (parseChkBytes I) x.json x := by
  obtain ⟨j, h1, h2, h3⟩ := h
  refine ⟨j, ?_, h2, h3⟩
  unfold ChkBytes.json
  split
  · rename_i he
    have e := originalEmpty_str he.1
    rw [h1] at e
    injection e with e
    rw [e] at h2
    rw [parseChkBytes, if_neg (by simp [isStar, starText])] at h2
    obtain ⟨y, hy, e2⟩ := map_ok h2
    obtain ⟨b, hb, e3⟩ := map_ok hy
    rw [interpretTree_empty hb] at e3
    rw [← e2, ← e3] at he
    exact absurd rfl he.2
  · exact h1

theorem address_inv {s : Bytes} {x : BytesS} (hs : Quotable s) (h : parseAddress I s = .ok x) :
    x.original = s ∧ parseAddress I x.original = .ok x ∧ Quotable x.original ∧ x.text = x.original ∧ x.original ≠ [] := by
  have h' := h
  unfold parseAddress at h
  split at h
  · cases h
  · rename_i h0
    obtain ⟨b, hb, h⟩ := ebind_ok h
    split at h
    · injection h with h
      have e : x.original = s := by rw [← h]
      refine ⟨e, by rw [e]; exact h', by rw [e]; exact hs, ?_, by rw [e]; exact h0⟩
      unfold BytesS.text
      rw [if_neg]
      rw [e]
      exact fun c => h0 c.1
    · cases h

/-- an address was read, or there is none -/
def Address (I : Interpreter) (x : BytesS) : Prop :=
  x = {} ∨ (parseAddress I x.original = .ok x ∧ Quotable x.original ∧ x.text = x.original ∧ x.original ≠ [])

theorem addressJson_inv {j : Json} {x : BytesS} (hj : Printable j) (h : parseAddressJson I j = .ok x) : Address I x := by
  obtain ⟨s, hs, h⟩ := ebind_ok h
  exact .inr (address_inv (parseStr_inv hj hs) h).2

theorem address_back {x : BytesS} (h : Address I x) (h0 : x.original ≠ []) : Back (parseAddressJson I) x.json x := by
  rcases h with h | h
  · rw [h] at h0
    exact absurd rfl h0
  · refine ⟨.str x.original, by rw [BytesS.json, h.2.2.1]; rfl, h.1, .str h.2.1⟩

theorem strings_inv {j : Json} {l : List Bytes} (hj : Printable j) (h : parseStrings j = .ok l) : ∀ s ∈ l, Quotable s :=
  list_inv (fun _ _ hj h => parseStr_inv hj h) hj h

theorem strings_back {l : List Bytes} (h : ∀ s ∈ l, Quotable s) : Back parseStrings (listOf strJ l) l :=
  listOf_back (fun s hs => str_back (h s hs))

end Arwen.Props
