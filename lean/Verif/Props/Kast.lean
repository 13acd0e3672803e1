import Verif.Spec.Kast
import Verif.Props.Json
/-
C79: tests written as terms of the K framework.
-/
namespace Arwen.Props
open Arwen.Mandos Arwen.Spec

/-! ### The term of a document -/

theorem literal_plain {v : Bytes} (h : quote ∉ v ∧ backslash ∉ v) :
    v.flatMap (fun c => if c = 34 ∨ c = 92 then [92, c] else [c]) = v := by
  induction v with
  | nil => rfl
  | cons c v ih =>
    have h1 : ¬ (c = 34 ∨ c = 92) := by
      rintro (h' | h')
      · exact h.1 (h' ▸ List.mem_cons_self)
      · exact h.2 (h' ▸ List.mem_cons_self)
    rw [List.flatMap_cons, if_neg h1, ih ⟨fun h' => h.1 (List.mem_cons_of_mem _ h'), fun h' => h.2 (List.mem_cons_of_mem _ h')⟩]
    rfl

theorem string_text {v : Bytes} (h : quote ∉ v ∧ backslash ∉ v) : writeStringKast v = (stringTerm v).text := by
  have h1 : literal (34 :: v ++ [34]) = [34, 92, 34] ++ v ++ [92, 34, 34] := by
    rw [literal, List.flatMap_append, List.flatMap_cons, literal_plain h]
    simp
  rw [stringTerm, KTerm.text, h1]
  simp [writeStringKast, strOpen, strClose, literal]

mutual
theorem text_value (j : Json) (h : Unescaped j) : writeKast j = (termOf j).text := by
  match j with
  | .str v => cases h with | str h => rw [writeKast, termOf, string_text h]
  | .bool true => rfl
  | .bool false => rfl
  | .list l =>
    cases h with
    | list h =>
      rw [writeKast, termOf, KTerm.text, argsText, text_items l h]
      rfl
  | .map l =>
    cases h with
    | map hk hv =>
      rw [writeKast, termOf, KTerm.text, argsText, text_pairs l hk hv]
      rfl
theorem text_items (l : List Json) (h : ∀ x ∈ l, Unescaped x) : kastItems l = (listTerm (termsOf l)).text := by
  match l with
  | [] => simp [kastItems, termsOf, listTerm, KTerm.text, argsText, kNil, nilLabel]
  | x :: l =>
    rw [kastItems, termsOf, listTerm, KTerm.text, argsText, argsText, text_value x (h x List.mem_cons_self),
      text_items l fun y hy => h y (List.mem_cons_of_mem _ hy)]
    simp [consOpen, consLabel, comma, closing]
theorem text_pairs (l : List (Bytes × Json)) (hk : ∀ p ∈ l, quote ∉ p.1 ∧ backslash ∉ p.1) (hv : ∀ p ∈ l, Unescaped p.2) :
    kastPairs l = (listTerm (pairTerms l)).text := by
  match l with
  | [] => simp [kastPairs, pairTerms, listTerm, KTerm.text, argsText, kNil, nilLabel]
  | (k, v) :: l =>
    rw [kastPairs, pairTerms, listTerm, KTerm.text, argsText, argsText, KTerm.text, argsText, argsText, ← string_text (hk _ List.mem_cons_self),
      text_value v (hv _ List.mem_cons_self), text_pairs l (fun y hy => hk y (List.mem_cons_of_mem _ hy)) fun y hy => hv y (List.mem_cons_of_mem _ hy)]
    simp [consOpen, consLabel, pairOpen, pairLabel, comma, closing]
end

/-- A document without quotes and backslashes in its texts is written as the text of its term. -/
theorem c79_term_partial (j : Json) (h : Unescaped j) : writeKast j = (termOf j).text := text_value j h

/-! ### The text determines the document -/

theorem rest_close : ∀ (s s' : Bytes) (prev : UInt8) (x x' : Bytes), rest prev s = true → rest prev s' = true →
    s ++ backslash :: quote :: quote :: x = s' ++ backslash :: quote :: quote :: x' → s = s' ∧ x = x' := by
  have short : ∀ (s' : Bytes) (x x' : Bytes), rest backslash s' = true → quote :: quote :: x ≠ s' ++ backslash :: quote :: quote :: x' := by
    intro s' x x' h he
    match s' with
    | [] => exact absurd h (by decide)
    | [c] =>
      simp only [List.cons_append, List.nil_append, List.cons.injEq] at he
      exact absurd he.2.1 (by decide)
    | c :: c' :: s' =>
      simp only [List.cons_append, List.cons.injEq] at he
      obtain ⟨rfl, rfl, _⟩ := he
      simp only [rest, Bool.and_eq_true] at h
      exact absurd h.2.1 (by decide)
  intro s
  induction s with
  | nil =>
    intro s' prev x x' _ h' he
    match s' with
    | [] => simp only [List.nil_append, List.cons.injEq, true_and] at he; exact ⟨rfl, he⟩
    | c :: s' =>
      simp only [List.nil_append, List.cons_append, List.cons.injEq] at he
      obtain ⟨rfl, he⟩ := he
      simp only [rest, Bool.and_eq_true] at h'
      exact absurd he (short s' x x' h'.2)
  | cons c s ih =>
    intro s' prev x x' h h' he
    match s' with
    | [] =>
      simp only [List.nil_append, List.cons_append, List.cons.injEq] at he
      obtain ⟨rfl, he⟩ := he
      simp only [rest, Bool.and_eq_true] at h
      exact absurd he.symm (short s x' x h.2)
    | c' :: s' =>
      simp only [List.cons_append, List.cons.injEq] at he
      obtain ⟨rfl, he⟩ := he
      simp only [rest, Bool.and_eq_true] at h h'
      obtain ⟨rfl, rfl⟩ := ih s' c x x' h.2 h'.2 he
      exact ⟨rfl, rfl⟩

theorem string_inj {v v' : Bytes} (h : Quotable v) (h' : Quotable v') {r r' : Bytes} (he : writeStringKast v ++ r = writeStringKast v' ++ r') :
    v = v' ∧ r = r' := by
  unfold writeStringKast at he
  rw [List.append_assoc, List.append_assoc, List.append_assoc, List.append_assoc] at he
  have he := List.append_cancel_left he
  obtain ⟨h1, h2⟩ := rest_close v v' quote _ _ ((quotable_iff v).1 h) ((quotable_iff v').1 h') he
  exact ⟨h1, List.append_cancel_left (as := [44, 34, 83, 116, 114, 105, 110, 103, 34, 41]) h2⟩

mutual
theorem kast_inj (a b : Json) (ha : Printable a) (hb : Printable b) (r r' : Bytes) (he : writeKast a ++ r = writeKast b ++ r') :
    a = b ∧ r = r' := by
  match a, b with
  | .str v, .str v' =>
    cases ha with | str ha => cases hb with | str hb =>
    obtain ⟨rfl, h⟩ := string_inj ha hb he
    exact ⟨rfl, h⟩
  | .list l, .list l' =>
    cases ha with | list ha => cases hb with | list hb =>
    simp only [writeKast, List.append_assoc] at he
    obtain ⟨rfl, h⟩ := items_inj l l' ha hb _ _ (List.append_cancel_left he)
    exact ⟨rfl, (List.cons.inj h).2⟩
  | .map l, .map l' =>
    cases ha with | map ha _ hv => cases hb with | map hb _ hv' =>
    simp only [writeKast, List.append_assoc] at he
    obtain ⟨rfl, h⟩ := pairs_inj l l' ha hv hb hv' _ _ (List.append_cancel_left he)
    exact ⟨rfl, (List.cons.inj h).2⟩
  | .bool true, .bool true => exact ⟨rfl, by simpa only [writeKast, List.append_cancel_left_eq] using he⟩
  | .bool false, .bool false => exact ⟨rfl, by simpa only [writeKast, List.append_cancel_left_eq] using he⟩
  | .bool true, .bool false | .bool false, .bool true | .bool true, .str _ | .bool false, .str _ | .bool true, .list _ | .bool false, .list _
  | .bool true, .map _ | .bool false, .map _ | .str _, .bool true | .str _, .bool false | .list _, .bool true | .list _, .bool false
  | .map _, .bool true | .map _, .bool false | .str _, .list _ | .str _, .map _ | .list _, .str _ | .list _, .map _ | .map _, .str _
  | .map _, .list _ =>
    simp [writeKast, writeStringKast, strOpen, boolOpen, listOpen, mapOpen, trueText, falseText] at he
theorem items_inj (l l' : List Json) (hl : ∀ x ∈ l, Printable x) (hl' : ∀ x ∈ l', Printable x) (r r' : Bytes)
    (he : kastItems l ++ r = kastItems l' ++ r') : l = l' ∧ r = r' := by
  match l, l' with
  | [], [] => exact ⟨rfl, List.append_cancel_left he⟩
  | [], _ :: _ => simp [kastItems, kNil, consOpen] at he
  | _ :: _, [] => simp [kastItems, kNil, consOpen] at he
  | x :: l, y :: l' =>
    simp only [kastItems, List.append_assoc, List.cons_append] at he
    obtain ⟨rfl, h1⟩ := kast_inj x y (hl _ List.mem_cons_self) (hl' _ List.mem_cons_self) _ _ (List.append_cancel_left he)
    obtain ⟨rfl, h2⟩ := items_inj l l' (fun z hz => hl z (List.mem_cons_of_mem _ hz)) (fun z hz => hl' z (List.mem_cons_of_mem _ hz)) _ _ (List.cons.inj h1).2
    exact ⟨rfl, (List.cons.inj h2).2⟩
theorem pairs_inj (l l' : List (Bytes × Json)) (hk : ∀ p ∈ l, Quotable p.1) (hv : ∀ p ∈ l, Printable p.2) (hk' : ∀ p ∈ l', Quotable p.1)
    (hv' : ∀ p ∈ l', Printable p.2) (r r' : Bytes) (he : kastPairs l ++ r = kastPairs l' ++ r') : l = l' ∧ r = r' := by
  match l, l' with
  | [], [] => exact ⟨rfl, List.append_cancel_left he⟩
  | [], _ :: _ => simp [kastPairs, kNil, consOpen] at he
  | _ :: _, [] => simp [kastPairs, kNil, consOpen] at he
  | (k, v) :: l, (k', v') :: l' =>
    simp only [kastPairs, List.append_assoc, List.cons_append] at he
    obtain ⟨rfl, h1⟩ := string_inj (hk _ List.mem_cons_self) (hk' _ List.mem_cons_self) (List.append_cancel_left (List.append_cancel_left he))
    obtain ⟨rfl, h2⟩ := kast_inj v v' (hv _ List.mem_cons_self) (hv' _ List.mem_cons_self) _ _ (List.cons.inj h1).2
    obtain ⟨rfl, h3⟩ := pairs_inj l l' (fun z hz => hk z (List.mem_cons_of_mem _ hz)) (fun z hz => hv z (List.mem_cons_of_mem _ hz))
      (fun z hz => hk' z (List.mem_cons_of_mem _ hz)) (fun z hz => hv' z (List.mem_cons_of_mem _ hz)) _ _ (List.cons.inj (List.cons.inj h2).2).2
    exact ⟨rfl, (List.cons.inj h3).2⟩
end

/-! ### The code -/

theorem isCreateTx_iff (l : List (Bytes × Json)) : isCreateTx l = true ↔ ([116, 111], Json.str []) ∈ l := by
  unfold isCreateTx
  rw [List.any_eq_true]
  constructor
  · rintro ⟨⟨k, v⟩, hm, h⟩
    rw [Bool.and_eq_true] at h
    cases v with
    | str s =>
      have h1 : k = keyTo := eq_of_beq h.1
      have h2 : s = [] := eq_of_beq h.2
      subst h1 h2
      exact hm
    | _ => exact absurd h.2 (by simp)
  · intro h
    exact ⟨_, h, by decide⟩

theorem codeKey_iff (l : List (Bytes × Json)) (k : Bytes) : codeKey (isCreateTx l) k = true ↔ CodeAt l k := by
  unfold codeKey CodeAt
  rw [Bool.or_eq_true, Bool.and_eq_true, isCreateTx_iff, beq_iff_eq, beq_iff_eq]
  rfl

/-- what becomes of the value of a pair -/
def assemblePair (f : Bytes → Bytes) (create : Bool) (p : Bytes × Json) : Bytes × Json :=
  (p.1, if codeKey create p.1 then
          match p.2 with
          | .str s => .str (f s)
          | v => v
        else processTestCode f p.2)

theorem processPairs_map (f : Bytes → Bytes) (create : Bool) (l : List (Bytes × Json)) :
    processPairs f create l = l.map (assemblePair f create) := by
  induction l with
  | nil => rfl
  | cons p l ih => obtain ⟨k, v⟩ := p; unfold processPairs; rw [ih]; rfl

theorem processItems_map (f : Bytes → Bytes) (l : List Json) : processItems f l = l.map (processTestCode f) := by
  induction l with
  | nil => rfl
  | cons p l ih => rw [processItems, ih]; rfl

theorem assembled_rest (f : Bytes → Bytes) : ∀ j : Json, Assembled f j (processTestCode f j)
  | .str v => by rw [processTestCode]; exact .str v
  | .bool b => by rw [processTestCode]; exact .bool b
  | .list l => by
    rw [processTestCode, processItems_map]
    refine .list (by simp) fun i x x' h h' => ?_
    rw [List.getElem?_map, h] at h'
    cases h'
    have : sizeOf x < sizeOf l := List.sizeOf_lt_of_mem (List.mem_of_getElem? h)
    exact assembled_rest f x
  | .map l => by
    rw [processTestCode, processPairs_map]
    refine .map ?_ ?_ ?_
    · rw [List.map_map]; rfl
    · intro i k v k' v' h h' hc
      rw [List.getElem?_map, h] at h'
      simp only [Option.map_some, assemblePair, (codeKey_iff l k).2 hc, if_true, Option.some.injEq, Prod.mk.injEq] at h'
      obtain ⟨_, rfl⟩ := h'
      cases v with
      | str s => exact .inl ⟨s, rfl, rfl⟩
      | _ => exact .inr ⟨by simp, rfl⟩
    · intro i k v k' v' h h' hc
      rw [List.getElem?_map, h] at h'
      have hc' : ¬ codeKey (isCreateTx l) k = true := fun h => hc ((codeKey_iff l k).1 h)
      simp only [Option.map_some, assemblePair, if_neg hc', Option.some.injEq, Prod.mk.injEq] at h'
      obtain ⟨_, rfl⟩ := h'
      have : sizeOf (k, v) < sizeOf l := List.sizeOf_lt_of_mem (List.mem_of_getElem? h)
      have : sizeOf v < sizeOf (k, v) := by simp; omega
      exact assembled_rest f v
termination_by j => sizeOf j

/-- a document that can be printed still can after the code was put in -/
theorem assembled_printable {f : Bytes → Bytes} (hf : ∀ s, Quotable (f s)) : ∀ j : Json, Printable j → Printable (processTestCode f j)
  | .str v, h => by rw [processTestCode]; exact h
  | .bool b, h => by rw [processTestCode]; exact h
  | .list l, h => by
    cases h with
    | list h =>
      rw [processTestCode, processItems_map]
      refine .list fun x hx => ?_
      obtain ⟨y, hy, rfl⟩ := List.mem_map.1 hx
      have : sizeOf y < sizeOf l := List.sizeOf_lt_of_mem hy
      exact assembled_printable hf y (h y hy)
  | .map l, h => by
    cases h with
    | map hk hn hv =>
      rw [processTestCode, processPairs_map]
      refine .map ?_ ?_ ?_
      · intro p hp
        obtain ⟨q, hq, rfl⟩ := List.mem_map.1 hp
        exact hk q hq
      · rw [List.map_map]; exact hn
      · intro p hp
        obtain ⟨⟨k, v⟩, hq, rfl⟩ := List.mem_map.1 hp
        unfold assemblePair
        dsimp only
        split
        · cases v with
          | str s => exact .str (hf s)
          | _ => exact hv _ hq
        · have : sizeOf (k, v) < sizeOf l := List.sizeOf_lt_of_mem hq
          have : sizeOf v < sizeOf (k, v) := by simp; omega
          exact assembled_printable hf v (hv _ hq)
termination_by j => sizeOf j

/-! ### C79 -/

/-- A file that can be read is converted to the text of the document in it, with the code put in; there is no panic. -/
theorem c79_convert (f : Bytes → Bytes) (input : Bytes) :
    (∃ e, parseOrderedJson input = .error e ∧ convertToKast f input = .error e) ∨
    ∃ j j', parseOrderedJson input = .ok (some j) ∧ Assembled f j j' ∧ convertToKast f input = .ok (some (writeKast j')) := by
  unfold convertToKast
  cases h : parseOrderedJson input with
  | error e => exact .inl ⟨e, rfl, rfl⟩
  | ok r =>
    obtain ⟨j, rfl, _⟩ := c39_parsed input r h
    exact .inr ⟨j, _, rfl, assembled_rest f j, rfl⟩

/-- Two files that are converted to the same text are, with the code put in, the same document. -/
theorem c79_injective (f : Bytes → Bytes) (hf : ∀ s, Quotable (f s)) (a b : Bytes) (t : Bytes)
    (ha : convertToKast f a = .ok (some t)) (hb : convertToKast f b = .ok (some t)) :
    ∃ j j' k, parseOrderedJson a = .ok (some j) ∧ parseOrderedJson b = .ok (some j') ∧ Assembled f j k ∧ Assembled f j' k := by
  unfold convertToKast at ha hb
  cases h : parseOrderedJson a with
  | error e => rw [h] at ha; cases ha
  | ok r =>
    cases h' : parseOrderedJson b with
    | error e => rw [h'] at hb; cases hb
    | ok r' =>
      obtain ⟨j, rfl, hj⟩ := c39_parsed a r h
      obtain ⟨j', rfl, hj'⟩ := c39_parsed b r' h'
      rw [h] at ha
      rw [h'] at hb
      simp only [Except.ok.injEq, Option.some.injEq] at ha hb
      have he : writeKast (processTestCode f j) ++ [] = writeKast (processTestCode f j') ++ [] := by rw [ha, hb]
      obtain ⟨hk, _⟩ := kast_inj _ _ (assembled_printable hf j hj) (assembled_printable hf j' hj') _ _ he
      exact ⟨j, j', processTestCode f j, rfl, rfl, assembled_rest f j, hk ▸ assembled_rest f j'⟩

/-! ### A document, and where the property fails -/

/-- `{"to":"","contractCode":"x","value":[true,{"code":"y"}]}` -/
def kastSample : Json :=
  .map [(keyTo, .str []), (keyContractCode, .str [120]), ([118, 97, 108, 117, 101], .list [.bool true, .map [(keyCode, .str [121])]])]

example : Unescaped kastSample := by
  refine .map (by decide) ?_
  intro p hp
  simp only [List.mem_cons, List.not_mem_nil, or_false] at hp
  rcases hp with rfl | rfl | rfl
  · exact .str (by decide)
  · exact .str (by decide)
  · refine .list fun x hx => ?_
    simp only [List.mem_cons, List.not_mem_nil, or_false] at hx
    rcases hx with rfl | rfl
    · exact .bool _
    · refine .map (by decide) fun p hp => ?_
      simp only [List.mem_cons, List.not_mem_nil, or_false] at hp
      rw [hp]
      exact .str (by decide)

/-- the code in it is replaced in both places -/
example : writeKast (processTestCode (fun s => 48 :: s) kastSample) =
    writeKast (.map [(keyTo, .str []), (keyContractCode, .str [48, 120]),
      ([118, 97, 108, 117, 101], .list [.bool true, .map [(keyCode, .str [48, 121])]])]) := by decide +kernel

/-- without the recipient nothing is made, and `contractCode` stays as it is -/
example : writeKast (processTestCode (fun s => 48 :: s) (.map [(keyContractCode, .str [120])])) = writeKast (.map [(keyContractCode, .str [120])]) := by
  decide +kernel

/-- a callback as the theorem needs it -/
example : ∀ s : Bytes, Quotable ((fun _ => [48, 120]) s) := fun _ => (quotable_iff [48, 120]).2 (by decide)

/-- A text with a quote in it, `"a\"b"`, is written with the backslash that it has in the document, but as the text of a token it needs
another two: read as the text of a token, it is `"a"b"`. -/
theorem c79_escape_neg : ∃ input j, parseOrderedJson input = .ok (some j) ∧
    writeKast j ≠ (termOf j).text ∧
    writeKast j = (KTerm.token [34, 97, 34, 98, 34] [83, 116, 114, 105, 110, 103]).text :=
  ⟨[quote, 97, backslash, quote, 98, quote], .str [97, backslash, quote, 98], rfl, by decide +kernel, by decide +kernel⟩

end Arwen.Props
