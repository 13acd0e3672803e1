import Verif.Spec.Debug
/-
C68: which strings survive being written to a file, and which maps.
-/
namespace Arwen.Props
open Arwen.Spec Arwen.Mock Arwen.Debug

/-! ### Well-formed UTF-8 -/

theorem u8_lt {x : Nat} (h : x < 256) : (UInt8.ofNat x).toNat = x := by
  simp [Nat.mod_eq_of_lt h]

theorem u8_le (a b : UInt8) : (a ≤ b) = (a.toNat ≤ b.toNat) := rfl
theorem u8_lt' (a b : UInt8) : (a < b) = (a.toNat < b.toNat) := rfl
theorem u8_eq (a b : UInt8) : (a = b) = (a.toNat = b.toNat) := propext ⟨fun h => by rw [h], fun h => UInt8.toNat_inj.1 h⟩

theorem scalar_range (c : Char) : c.val.toNat < 0xD800 ∨ (0xDFFF < c.val.toNat ∧ c.val.toNat < 0x110000) := c.valid

theorem runeLen_encode (c : Char) (r : Bytes) : runeLen (String.utf8EncodeChar c ++ r) = (String.utf8EncodeChar c).length := by
  have hv := scalar_range c
  unfold String.utf8EncodeChar
  generalize c.val.toNat = v at hv
  dsimp only
  split
  · rename_i h
    simp only [List.cons_append, List.nil_append, runeLen, u8_lt', u8_lt (show v < 256 by omega)]
    rw [if_pos (by simp; omega)]; rfl
  split
  · rename_i h1 h2
    have e1 := u8_lt (show v / 64 % 32 + 192 < 256 by omega)
    have e2 := u8_lt (show v % 64 + 128 < 256 by omega)
    simp only [List.cons_append, List.nil_append, runeLen, isCont, u8_lt', u8_le, e1, e2]
    rw [if_neg (by simp), if_pos (by simp; omega), if_pos (by simp; omega)]; rfl
  split
  · rename_i h1 h2 h3
    have e1 := u8_lt (show v / 4096 % 16 + 224 < 256 by omega)
    have e2 := u8_lt (show v / 64 % 64 + 128 < 256 by omega)
    have e3 := u8_lt (show v % 64 + 128 < 256 by omega)
    simp only [List.cons_append, List.nil_append, runeLen, isCont, u8_lt', u8_le, u8_eq, e1, e2, e3]
    rw [if_neg (by simp), if_neg (by simp <;> omega), if_pos (by simp; omega), if_pos]; rfl
    simp only [Bool.and_eq_true, decide_eq_true_eq]
    refine ⟨⟨?_, ?_⟩, ?_, ?_⟩
    · split <;> simp_all <;> omega
    · split <;> simp_all <;> omega
    · simp
    · simp; omega
  · rename_i h1 h2 h3
    have e1 := u8_lt (show v / 262144 % 8 + 240 < 256 by omega)
    have e2 := u8_lt (show v / 4096 % 64 + 128 < 256 by omega)
    have e3 := u8_lt (show v / 64 % 64 + 128 < 256 by omega)
    have e4 := u8_lt (show v % 64 + 128 < 256 by omega)
    simp only [List.cons_append, List.nil_append, runeLen, isCont, u8_lt', u8_le, u8_eq, e1, e2, e3, e4]
    rw [if_neg (by simp), if_neg (by simp <;> omega), if_neg (by simp <;> omega), if_pos (by simp; omega), if_pos]; rfl
    simp only [Bool.and_eq_true, decide_eq_true_eq]
    refine ⟨⟨⟨?_, ?_⟩, ?_, ?_⟩, ?_, ?_⟩
    · split <;> simp_all <;> omega
    · split <;> simp_all <;> omega
    · simp
    · simp; omega
    · simp
    · simp; omega

theorem coerceFrom_copy (x r : Bytes) : coerceFrom x.length (x ++ r) = x ++ coerceFrom 0 r := by
  induction x with
  | nil => rfl
  | cons b x ih => show b :: coerceFrom x.length (x ++ r) = _; rw [ih]; rfl

theorem coerceFrom_encode (c : Char) (r : Bytes) : coerceFrom 0 (String.utf8EncodeChar c ++ r) = String.utf8EncodeChar c ++ coerceFrom 0 r := by
  have h := runeLen_encode c r
  have hne : String.utf8EncodeChar c ≠ [] := by
    unfold String.utf8EncodeChar
    dsimp only
    split <;> (try split) <;> (try split) <;> simp
  match hc : String.utf8EncodeChar c, hne with
  | b :: x, _ =>
    rw [hc] at h
    simp only [List.cons_append] at h ⊢
    rw [coerceFrom, h]
    simp only [List.length_cons]
    rw [coerceFrom_copy]

theorem coerce_text {s : Bytes} (h : IsText s) : coerce s = s := by
  obtain ⟨cs, rfl⟩ := h
  unfold coerce
  induction cs with
  | nil => rfl
  | cons c cs ih => rw [List.flatMap_cons, coerceFrom_encode, ih]

/-- the character with this number -/
theorem char_of (v : Nat) (h : v < 0xD800 ∨ (0xDFFF < v ∧ v < 0x110000)) : ∃ c : Char, c.val.toNat = v := by
  refine ⟨⟨UInt32.ofNat v, ?_⟩, ?_⟩
  · show Nat.isValidChar (UInt32.ofNat v).toNat
    rw [UInt32.toNat_ofNat', Nat.mod_eq_of_lt (by omega)]; exact h
  · show (UInt32.ofNat v).toNat = v
    rw [UInt32.toNat_ofNat', Nat.mod_eq_of_lt (by omega)]

theorem ofNat_toNat' {a : UInt8} {x : Nat} (h : x = a.toNat) : UInt8.ofNat x = a := by subst h; simp

theorem runeLen_char (s : Bytes) (h : runeLen s ≠ 0) : ∃ c : Char, s.take (runeLen s) = String.utf8EncodeChar c ∧ runeLen s ≤ s.length := by
  match s with
  | [] => exact absurd rfl h
  | a :: r =>
    have ha := a.toNat_lt
    simp only [runeLen] at h ⊢
    split
    · rename_i h1
      simp [u8_lt'] at h1
      obtain ⟨c, hc⟩ := char_of a.toNat (by omega)
      refine ⟨c, ?_, by simp⟩
      unfold String.utf8EncodeChar
      rw [hc]; dsimp only
      rw [if_pos (by omega)]
      simp
    · rename_i h1
      rw [if_neg h1] at h
      simp [u8_lt', u8_le] at h1
      split
      · rename_i h2
        rw [if_pos h2] at h
        simp only [Bool.and_eq_true, decide_eq_true_eq] at h2; simp [u8_le] at h2
        match r with
        | [] => exact absurd rfl h
        | b :: r =>
          dsimp only at h ⊢
          by_cases h3 : isCont b = true
          · rw [if_pos h3]
            simp only [isCont, Bool.and_eq_true, decide_eq_true_eq] at h3; simp [u8_le] at h3
            obtain ⟨c, hc⟩ := char_of ((a.toNat - 192) * 64 + (b.toNat - 128)) (by omega)
            refine ⟨c, ?_, by simp⟩
            unfold String.utf8EncodeChar
            rw [hc]; dsimp only
            rw [if_neg (by omega), if_pos (by omega)]
            simp only [List.take_succ_cons, List.take_zero, List.cons.injEq, and_true]
            exact ⟨(ofNat_toNat' (by omega)).symm, (ofNat_toNat' (by omega)).symm⟩
          · rw [if_neg h3] at h; exact absurd rfl h
      · rename_i h2
        rw [if_neg h2] at h
        simp only [Bool.and_eq_true, decide_eq_true_eq] at h2; simp [u8_le] at h2
        split
        · rename_i h3
          rw [if_pos h3] at h
          simp only [Bool.and_eq_true, decide_eq_true_eq] at h3; simp [u8_le] at h3
          match r with
          | [] => exact absurd rfl h
          | [_] => exact absurd rfl h
          | b :: c' :: r =>
            dsimp only at h ⊢
            by_cases h4 : (decide ((if a = 0xE0 then 0xA0 else 0x80) ≤ b) && decide (b ≤ (if a = 0xED then 0x9F else 0xBF)) &&
              isCont c') = true
            · rw [if_pos h4]
              simp only [isCont, Bool.and_eq_true, decide_eq_true_eq] at h4; simp only [u8_le] at h4
              obtain ⟨⟨h5, h6⟩, h7, h8⟩ := h4
              have h5' : (if a.toNat = 224 then 160 else 128) ≤ b.toNat := by
                refine Nat.le_trans (Nat.le_of_eq ?_) h5
                split <;> simp_all [u8_eq]
              have h6' : b.toNat ≤ (if a.toNat = 237 then 159 else 191) := by
                refine Nat.le_trans h6 (Nat.le_of_eq ?_)
                split <;> simp_all [u8_eq]
              simp at h7 h8
              have hr : (a.toNat - 224) * 4096 + (b.toNat - 128) * 64 + (c'.toNat - 128) < 0xD800 ∨
                (0xDFFF < (a.toNat - 224) * 4096 + (b.toNat - 128) * 64 + (c'.toNat - 128) ∧
                (a.toNat - 224) * 4096 + (b.toNat - 128) * 64 + (c'.toNat - 128) < 0x110000) := by
                split at h6' <;> split at h5' <;> omega
              obtain ⟨c, hc⟩ := char_of _ hr
              refine ⟨c, ?_, by simp⟩
              unfold String.utf8EncodeChar
              rw [hc]; dsimp only
              rw [if_neg (by split at h5' <;> split at h6' <;> omega), if_neg (by split at h5' <;> split at h6' <;> omega),
                if_pos (by split at h6' <;> omega)]
              simp only [List.take_succ_cons, List.take_zero, List.cons.injEq, and_true]
              refine ⟨(ofNat_toNat' ?_).symm, (ofNat_toNat' ?_).symm, (ofNat_toNat' ?_).symm⟩ <;>
                (split at h5' <;> split at h6' <;> omega)
            · rw [if_neg h4] at h; exact absurd rfl h
        · rename_i h3
          rw [if_neg h3] at h
          simp only [Bool.and_eq_true, decide_eq_true_eq] at h3; simp [u8_le] at h3
          split
          · rename_i h4
            rw [if_pos h4] at h
            simp only [Bool.and_eq_true, decide_eq_true_eq] at h4; simp [u8_le] at h4
            match r with
            | [] => exact absurd rfl h
            | [_] => exact absurd rfl h
            | [_, _] => exact absurd rfl h
            | b :: c' :: d :: r =>
              dsimp only at h ⊢
              by_cases h4 : (decide ((if a = 0xF0 then 0x90 else 0x80) ≤ b) && decide (b ≤ (if a = 0xF4 then 0x8F else 0xBF)) &&
                isCont c' && isCont d) = true
              · rw [if_pos h4]
                simp only [isCont, Bool.and_eq_true, decide_eq_true_eq] at h4; simp only [u8_le] at h4
                obtain ⟨⟨⟨h5, h6⟩, h7, h8⟩, h9, h10⟩ := h4
                have h5' : (if a.toNat = 240 then 144 else 128) ≤ b.toNat := by
                  refine Nat.le_trans (Nat.le_of_eq ?_) h5
                  split <;> simp_all [u8_eq]
                have h6' : b.toNat ≤ (if a.toNat = 244 then 143 else 191) := by
                  refine Nat.le_trans h6 (Nat.le_of_eq ?_)
                  split <;> simp_all [u8_eq]
                simp at h7 h8 h9 h10
                have hr : (a.toNat - 240) * 262144 + (b.toNat - 128) * 4096 + (c'.toNat - 128) * 64 + (d.toNat - 128) < 0xD800 ∨
                  (0xDFFF < (a.toNat - 240) * 262144 + (b.toNat - 128) * 4096 + (c'.toNat - 128) * 64 + (d.toNat - 128) ∧
                  (a.toNat - 240) * 262144 + (b.toNat - 128) * 4096 + (c'.toNat - 128) * 64 + (d.toNat - 128) < 0x110000) := by
                  split at h6' <;> split at h5' <;> omega
                obtain ⟨c, hc⟩ := char_of _ hr
                refine ⟨c, ?_, by simp⟩
                unfold String.utf8EncodeChar
                rw [hc]; dsimp only
                rw [if_neg (by split at h5' <;> split at h6' <;> omega), if_neg (by split at h5' <;> split at h6' <;> omega),
                  if_neg (by split at h5' <;> split at h6' <;> omega)]
                simp only [List.take_succ_cons, List.take_zero, List.cons.injEq, and_true]
                refine ⟨(ofNat_toNat' ?_).symm, (ofNat_toNat' ?_).symm, (ofNat_toNat' ?_).symm, (ofNat_toNat' ?_).symm⟩ <;>
                  (split at h5' <;> split at h6' <;> omega)
              · rw [if_neg h4] at h; exact absurd rfl h
          · rename_i h4; rw [if_neg h4] at h; exact absurd rfl h

theorem text_nil : IsText [] := ⟨[], rfl⟩

theorem text_cons (c : Char) {s : Bytes} (h : IsText s) : IsText (String.utf8EncodeChar c ++ s) := by
  obtain ⟨cs, rfl⟩ := h
  exact ⟨c :: cs, rfl⟩

theorem replacement : String.utf8EncodeChar (Char.ofNat 0xFFFD) = [0xEF, 0xBF, 0xBD] := by decide +kernel

/-- every string that is read is well-formed -/
theorem coerce_isText (s : Bytes) : IsText (coerce s) := by
  suffices h : ∀ n (s : Bytes), s.length ≤ n → IsText (coerceFrom 0 s) from h _ s (Nat.le_refl _)
  intro n
  induction n with
  | zero => intro s h; match s, h with | [], _ => exact text_nil
  | succ n ih =>
    intro s h
    match s with
    | [] => exact text_nil
    | b :: r =>
      cases hr : runeLen (b :: r) with
      | zero =>
        rw [coerceFrom, hr]
        have := text_cons (Char.ofNat 0xFFFD) (ih r (by simp at h; omega))
        rw [replacement] at this
        exact this
      | succ m =>
        obtain ⟨c, hc, hl⟩ := runeLen_char (b :: r) (by omega)
        rw [hr] at hc hl
        rw [← List.take_append_drop (m + 1) (b :: r), hc, coerceFrom_encode]
        exact text_cons c (ih _ (by simp at h ⊢; omega))

theorem text_iff (s : Bytes) : IsText s ↔ coerce s = s := ⟨coerce_text, fun h => h ▸ coerce_isText s⟩

instance (s : Bytes) : Decidable (IsText s) := decidable_of_iff _ (text_iff s).symm

/-! ### Maps -/

variable {V : Type}

theorem mem_insertSorted (p q : Bytes × V) (l : List (Bytes × V)) : q ∈ insertSorted p l ↔ q = p ∨ q ∈ l := by
  induction l with
  | nil => simp [insertSorted]
  | cons x l ih =>
    simp only [insertSorted]
    split
    · simp
    · simp only [List.mem_cons, ih]
      constructor <;> rintro (h | h | h) <;> simp [h]

theorem mem_sortEntries (q : Bytes × V) (l : List (Bytes × V)) : q ∈ sortEntries l ↔ q ∈ l := by
  induction l with
  | nil => simp [sortEntries]
  | cons p l ih => simp [sortEntries, mem_insertSorted, ih]

/-- looking up after inserting a list of entries, when all entries with the key have the same value -/
theorem foldl_get (f : V → V) (l : List (Bytes × V)) (m : AMap Bytes V) (k : Bytes) :
    ((l.foldl (fun acc p => acc.insert (coerce p.1) (f p.2)) m).get? k = m.get? k ∧ ∀ p ∈ l, coerce p.1 ≠ k) ∨
    ∃ p ∈ l, coerce p.1 = k ∧ (l.foldl (fun acc p => acc.insert (coerce p.1) (f p.2)) m).get? k = some (f p.2) := by
  induction l generalizing m with
  | nil => exact .inl ⟨rfl, fun p h => by cases h⟩
  | cons q l ih =>
    rw [List.foldl_cons]
    rcases ih (m.insert (coerce q.1) (f q.2)) with ⟨h1, h2⟩ | ⟨p, hp, h1, h2⟩
    · by_cases hk : coerce q.1 = k
      · refine .inr ⟨q, List.mem_cons_self, hk, ?_⟩
        rw [h1, hk, AMap.get?_insert_self]
      · refine .inl ⟨?_, fun p hp => ?_⟩
        · rw [h1, AMap.get?_insert_ne _ _ hk]
        · rcases List.mem_cons.1 hp with rfl | hp
          · exact hk
          · exact h2 p hp
    · exact .inr ⟨p, List.mem_cons_of_mem _ hp, h1, h2⟩

theorem get_of_mem (m : AMap Bytes V) {p : Bytes × V} (h : p ∈ m.entries) : m.get? p.1 = some p.2 := by
  obtain ⟨l, hn⟩ := m
  unfold AMap.get?
  dsimp only at h ⊢
  induction l with
  | nil => cases h
  | cons q l ih =>
    simp only [List.map_cons, List.nodup_cons] at hn
    rcases List.mem_cons.1 h with rfl | h'
    · simp [AMap.lookupL]
    · have : q.1 ≠ p.1 := fun he => hn.1 (he ▸ List.mem_map_of_mem (f := Prod.fst) h')
      simp only [AMap.lookupL]
      rw [if_neg this]
      exact ih hn.2 h'

theorem mem_of_get (m : AMap Bytes V) {k : Bytes} {v : V} (h : m.get? k = some v) : (k, v) ∈ m.entries := by
  obtain ⟨l, hn⟩ := m
  unfold AMap.get? at h
  dsimp only at h ⊢
  clear hn
  induction l with
  | nil => cases h
  | cons q l ih =>
    simp only [AMap.lookupL] at h
    split at h
    · rename_i hq; cases h; rw [← hq]; exact List.mem_cons_self
    · exact List.mem_cons_of_mem _ (ih h)

/-- a map that is written and read back, looked up: what is found was there, under a key that is written in the same way -/
theorem reread_get (f : V → V) (m : AMap Bytes V) (k : Bytes) :
    ((rereadMap f m).get? k = none ∧ ∀ k' v, m.get? k' = some v → coerce k' ≠ k) ∨
    ∃ k' v, m.get? k' = some v ∧ coerce k' = k ∧ (rereadMap f m).get? k = some (f v) := by
  rcases foldl_get f (sortEntries m.entries) AMap.empty k with ⟨h1, h2⟩ | ⟨p, hp, h1, h2⟩
  · exact .inl ⟨h1, fun k' v h => h2 (k', v) ((mem_sortEntries _ _).2 (mem_of_get m h))⟩
  · exact .inr ⟨p.1, p.2, get_of_mem m ((mem_sortEntries _ _).1 hp), h1, h2⟩

theorem reread_text (f : V → V) (m : AMap Bytes V) (h : ∀ k v, m.get? k = some v → IsText k) (k : Bytes) :
    (rereadMap f m).get? k = (m.get? k).map f := by
  rcases reread_get f m k with ⟨h1, h2⟩ | ⟨k', v, h1, h2, h3⟩
  · rw [h1]
    cases hk : m.get? k with
    | none => rfl
    | some v => exact absurd (coerce_text (h k v hk)) (h2 k v hk)
  · rw [coerce_text (h k' v h1)] at h2
    subst h2
    rw [h3, h1]; rfl

theorem reread_keys (f : V → V) (m : AMap Bytes V) {k : Bytes} {v : V} (h : (rereadMap f m).get? k = some v) : IsText k := by
  rcases reread_get f m k with ⟨h1, _⟩ | ⟨k', _, _, h2, _⟩
  · rw [h1] at h; cases h
  · exact h2 ▸ coerce_isText k'

/-! ### Accounts -/

theorem _root_.Arwen.Spec.SameAccount.refl (x : WAcc) : SameAccount x x := ⟨rfl, fun _ => rfl⟩

theorem sameEntries_refl (m : AccountMap) : SameEntries m m := by
  intro a
  cases h : m.get? a with
  | none => exact .inl ⟨rfl, rfl⟩
  | some x => exact .inr ⟨x, x, rfl, rfl, .refl x⟩

theorem reread_account {x : WAcc} (h1 : IsText x.asyncCallData) (h2 : ∀ k v, x.storage.get? k = some v → IsText k) :
    SameAccount x (rereadAccount x) := by
  refine ⟨?_, fun k => ?_⟩
  · unfold rereadAccount
    rw [coerce_text h1]
  · show _ = (rereadMap id x.storage).get? k
    rw [reread_text id x.storage h2]
    cases x.storage.get? k <;> rfl

/-- accounts written in well-formed UTF-8 are found again -/
theorem reread_same {m : AccountMap} (h : TextWorld m) : SameEntries m (reread m) := by
  intro a
  have := reread_text rereadAccount m (fun a acc ha => (h a acc ha).1) a
  cases ha : m.get? a with
  | none => rw [ha] at this; exact .inl ⟨rfl, this⟩
  | some x =>
    rw [ha] at this
    exact .inr ⟨x, rereadAccount x, rfl, this, reread_account (h a x ha).2.1 (h a x ha).2.2⟩

/-- whatever is read is well-formed -/
theorem reread_isText (m : AccountMap) : TextWorld (reread m) := by
  intro a acc h
  refine ⟨reread_keys _ _ h, ?_⟩
  rcases reread_get rereadAccount m a with ⟨h1, _⟩ | ⟨a', x, _, _, h3⟩
  · exact absurd (h1.symm.trans h) (by simp)
  · cases h3.symm.trans h
    exact ⟨coerce_isText _, fun k v hk => reread_keys id x.storage hk⟩

end Arwen.Props
