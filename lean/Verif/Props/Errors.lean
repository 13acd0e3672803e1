import Verif.Errors.Wrapping
import Verif.Ctx.Blockchain
/-
C45 (error wrapping) and C20 (return codes).
-/
namespace Arwen.Spec
variable {I : Type}

/-- an error is one of the causes of an error value -/
inductive Cause (t : I) : GoErr I → Prop
  | plain : Cause t (.plain t)
  | wrapf (inner : GoErr I) : Cause t (.wrapf t inner)
  | wrapped (id : I) (inner : GoErr I) : Cause t inner → Cause t (.wrapf id inner)
  | layer (es : List (GoErr I)) (e : GoErr I) : e ∈ es → Cause t e → Cause t (.multi es)

/-- an error value made with `errors.New` and `fmt.Errorf` only -/
inductive Simple : GoErr I → Prop
  | plain (id : I) : Simple (.plain id)
  | wrapf (id : I) (inner : GoErr I) : Simple inner → Simple (.wrapf id inner)

/-- The documented return code of an error, by its causes: the first cause in the order of the list decides. -/
inductive Documented (cause : Err → Prop) : ReturnCode → Prop
  | signalled : cause .signalError → Documented cause .userError
  | notFound : ¬ cause .signalError → cause .funcNotFound → Documented cause .functionNotFound
  | signature : ¬ cause .signalError → ¬ cause .funcNotFound → cause (.functionNonvoidSignature []) →
      Documented cause .functionWrongSignature
  | function : ¬ cause .signalError → ¬ cause .funcNotFound → ¬ cause (.functionNonvoidSignature []) →
      cause .invalidFunction → Documented cause .userError
  | gas : ¬ cause .signalError → ¬ cause .funcNotFound → ¬ cause (.functionNonvoidSignature []) →
      ¬ cause .invalidFunction → cause .notEnoughGas → Documented cause .outOfGas
  | contractNotFound : ¬ cause .signalError → ¬ cause .funcNotFound → ¬ cause (.functionNonvoidSignature []) →
      ¬ cause .invalidFunction → ¬ cause .notEnoughGas → cause .contractNotFound → Documented cause .contractNotFound
  | contractInvalid : ¬ cause .signalError → ¬ cause .funcNotFound → ¬ cause (.functionNonvoidSignature []) →
      ¬ cause .invalidFunction → ¬ cause .notEnoughGas → ¬ cause .contractNotFound → cause .contractInvalid →
      Documented cause .contractInvalid
  | upgrade : ¬ cause .signalError → ¬ cause .funcNotFound → ¬ cause (.functionNonvoidSignature []) →
      ¬ cause .invalidFunction → ¬ cause .notEnoughGas → ¬ cause .contractNotFound → ¬ cause .contractInvalid →
      cause .upgradeFailed → Documented cause .upgradeFailed
  | funds : ¬ cause .signalError → ¬ cause .funcNotFound → ¬ cause (.functionNonvoidSignature []) →
      ¬ cause .invalidFunction → ¬ cause .notEnoughGas → ¬ cause .contractNotFound → ¬ cause .contractInvalid →
      ¬ cause .upgradeFailed → cause .transferInsufficientFunds → Documented cause .outOfFunds
  | other : ¬ cause .signalError → ¬ cause .funcNotFound → ¬ cause (.functionNonvoidSignature []) →
      ¬ cause .invalidFunction → ¬ cause .notEnoughGas → ¬ cause .contractNotFound → ¬ cause .contractInvalid →
      ¬ cause .upgradeFailed → ¬ cause .transferInsufficientFunds → Documented cause .executionFailed

end Arwen.Spec

namespace Arwen.Props
open Arwen Arwen.Spec
variable {I : Type} [DecidableEq I]

theorem isErr_simple (t : I) {e : GoErr I} (h : Simple e) : GoErr.isErr t e = some true ∧ Cause t e ∨
    GoErr.isErr t e = some false ∧ ¬ Cause t e := by
  induction h with
  | plain id =>
    rw [GoErr.isErr]
    by_cases hid : id = t
    · subst hid; exact .inl ⟨by simp, .plain⟩
    · refine .inr ⟨by simp [hid], ?_⟩
      intro hc; cases hc; exact hid rfl
  | wrapf id inner _ ih =>
    rw [GoErr.isErr]
    by_cases hid : id = t
    · subst hid; exact .inl ⟨by simp, .wrapf _⟩
    · rw [if_neg hid]
      rcases ih with ⟨h1, h2⟩ | ⟨h1, h2⟩
      · exact .inl ⟨h1, .wrapped _ _ h2⟩
      · refine .inr ⟨h1, ?_⟩
        intro hc
        cases hc with
        | wrapf => exact hid rfl
        | wrapped _ _ h => exact h2 h

/-- the loop over the layers, when all of them are simple -/
theorem anyErr_simple (t : I) (es : List (GoErr I)) (hs : ∀ e ∈ es, Simple e) (n : Nat) :
    GoErr.anyErr t n es = some true ∧ (∃ e ∈ es.take n, Cause t e) ∨
    GoErr.anyErr t n es = some false ∧ ¬ (∃ e ∈ es.take n, Cause t e) := by
  induction es generalizing n with
  | nil =>
    right
    cases n <;> (rw [GoErr.anyErr.eq_def]; simp)
  | cons e es ih =>
    cases n with
    | zero => right; rw [GoErr.anyErr]; simp
    | succ n =>
      rw [GoErr.anyErr]
      rcases isErr_simple t (hs e (by simp)) with ⟨h1, h2⟩ | ⟨h1, h2⟩
      · rw [h1]; left; exact ⟨rfl, e, by simp, h2⟩
      · rw [h1]
        rcases ih (fun e he => hs e (by simp [he])) n with ⟨h3, h4⟩ | ⟨h3, h4⟩
        · left; obtain ⟨e', he, hc⟩ := h4
          exact ⟨h3, e', by simp [he], hc⟩
        · right; refine ⟨h3, ?_⟩
          rintro ⟨e', he, hc⟩
          simp only [List.take_succ_cons, List.mem_cons] at he
          rcases he with rfl | he
          · exact h2 hc
          · exact h4 ⟨e', he, hc⟩

theorem isMulti_simple (t : I) (es : List (GoErr I)) (hs : ∀ e ∈ es, Simple e) (n : Nat) (hn : n ≤ es.length) :
    (∃ e ∈ es.take n, Cause t e) ∧ GoErr.isMulti t n es = some true ∨
    ¬ (∃ e ∈ es.take n, Cause t e) ∧ GoErr.isMulti t n es = if n ≤ 1 then none else some false := by
  induction n with
  | zero =>
    right
    rw [GoErr.isMulti, GoErr.anyErr]; simp
  | succ n ih =>
    rw [GoErr.isMulti.eq_def]
    rcases anyErr_simple t es hs (n + 1) with ⟨h1, h2⟩ | ⟨h1, h2⟩
    · left; exact ⟨h2, by rw [h1]⟩
    · right
      refine ⟨h2, ?_⟩
      rw [h1]
      have hsub : ¬ ∃ e ∈ es.take n, Cause t e := by
        rintro ⟨e, he, hc⟩
        exact h2 ⟨e, List.mem_of_mem_take (by rwa [List.take_take, Nat.min_eq_left (by omega)] : e ∈ (es.take (n+1)).take n), hc⟩
      by_cases h1' : n = 1
      · subst h1'
        simp only
        cases es with
        | nil => simp at hn
        | cons e es =>
          rw [GoErr.headErr]
          rcases isErr_simple t (hs e (by simp)) with ⟨h3, h4⟩ | ⟨h3, h4⟩
          · exact absurd ⟨e, by simp, h4⟩ h2
          · rw [h3]; rfl
      · have hrec : GoErr.isMulti t n es = if n ≤ 1 then none else some false := by
          rcases ih (by omega) with ⟨h3, _⟩ | ⟨_, h4⟩
          · exact absurd h3 hsub
          · exact h4
        cases n with
        | zero => exact hrec
        | succ k =>
          cases k with
          | zero => exact absurd rfl h1'
          | succ k =>
            simp only
            rw [hrec, if_neg (by omega), if_neg (by omega)]

/-- the wrapping steps of C45: wrap with an error (or a nil error) -/
def wrapAll (e : GoErr I) (ws : List (Option (GoErr I))) : GoErr I := ws.foldl GoErr.wrapWith e.wrapError

omit [DecidableEq I] in
theorem layers_wrapAll_aux (ws : List (Option (GoErr I))) (es : List (GoErr I)) :
    (ws.foldl GoErr.wrapWith (.multi es)).layers = es ++ (ws.filterMap id).flatMap GoErr.layers ∧
    ∃ es', ws.foldl GoErr.wrapWith (.multi es) = .multi es' := by
  induction ws generalizing es with
  | nil => exact ⟨by simp [GoErr.layers], es, rfl⟩
  | cons w ws ih =>
    cases w with
    | none => simpa [GoErr.wrapWith, GoErr.layers] using ih es
    | some w =>
      have := ih (es ++ w.layers)
      simpa [GoErr.wrapWith, GoErr.layers, List.append_assoc] using this

/-- **C45.** All errors added by any sequence of wrappings are listed in order, the base error stays the first one and the
last one added is the last. -/
theorem c45_layers (e : GoErr I) (he : Simple e) (ws : List (Option (GoErr I))) :
    (wrapAll e ws).all = e :: (ws.filterMap id).flatMap GoErr.layers ∧ (wrapAll e ws).base = some e := by
  have hw : e.wrapError = .multi [e] := by cases he <;> rfl
  have := (layers_wrapAll_aux ws [e]).1
  unfold wrapAll
  rw [hw]
  refine ⟨this, ?_⟩
  unfold GoErr.base
  rw [this]; rfl

/-- **C45.** After wrapping with at least one error, `errors.Is` finds exactly the causes of all errors involved. -/
theorem c45_is (e : GoErr I) (he : Simple e) (ws : List (Option (GoErr I))) (hws : ∀ w, some w ∈ ws → Simple w)
    (hne : ∃ w, some w ∈ ws) (t : I) :
    ∃ b, GoErr.isErr t (wrapAll e ws) = some b ∧ (b = true ↔ Cause t e ∨ ∃ w, some w ∈ ws ∧ Cause t w) := by
  have hw : e.wrapError = .multi [e] := by cases he <;> rfl
  have hl := (c45_layers e he ws).1
  obtain ⟨_, es, hes⟩ := layers_wrapAll_aux ws [e]
  have hwa : wrapAll e ws = .multi es := by unfold wrapAll; rw [hw]; exact hes
  have hfl : (ws.filterMap id).flatMap GoErr.layers = ws.filterMap id := by
    have : ∀ l : List (GoErr I), (∀ w ∈ l, Simple w) → l.flatMap GoErr.layers = l := by
      intro l hl
      induction l with
      | nil => rfl
      | cons a l ih =>
        have ha : a.layers = [a] := by cases hl a (by simp) <;> rfl
        rw [List.flatMap_cons, ha, ih (fun w hw => hl w (by simp [hw]))]; rfl
    apply this
    intro w hw
    simp only [List.mem_filterMap, id_eq, exists_eq_right] at hw
    exact hws w hw
  rw [hfl] at hl
  have hes' : es = e :: ws.filterMap id := by rw [hwa] at hl; exact hl
  have hmem : ∀ w, w ∈ ws.filterMap id ↔ some w ∈ ws := by
    intro w; simp
  have hsimple : ∀ x ∈ es, Simple x := by
    intro x hx
    rw [hes'] at hx
    rcases List.mem_cons.1 hx with rfl | hx
    · exact he
    · exact hws x ((hmem x).1 hx)
  have hlen : 2 ≤ es.length := by
    obtain ⟨w, hw⟩ := hne
    have := List.length_pos_iff.2 (List.ne_nil_of_mem ((hmem w).2 hw))
    rw [hes']; simp only [List.length_cons]; omega
  have hcause : (∃ x ∈ es.take es.length, Cause t x) ↔ Cause t e ∨ ∃ w, some w ∈ ws ∧ Cause t w := by
    rw [List.take_length, hes']
    constructor
    · rintro ⟨x, hx, hc⟩
      rcases List.mem_cons.1 hx with rfl | hx
      · exact .inl hc
      · exact .inr ⟨x, (hmem x).1 hx, hc⟩
    · rintro (hc | ⟨w, hw, hc⟩)
      · exact ⟨e, by simp, hc⟩
      · exact ⟨w, List.mem_cons_of_mem _ ((hmem w).2 hw), hc⟩
  rw [hwa, GoErr.isErr]
  rcases isMulti_simple t es hsimple es.length (Nat.le_refl _) with ⟨h1, h2⟩ | ⟨h1, h2⟩
  · exact ⟨true, h2, by simp [hcause.1 h1]⟩
  · refine ⟨false, by rw [h2, if_neg (by omega)], ?_⟩
    simp only [Bool.false_eq_true, false_iff]
    exact fun h => h1 (hcause.2 h)

/-- **C45 is violated for a single layer**: `errors.Is` on `WrapError(err)` panics for every error it does not contain. -/
theorem c45_single_layer_neg (e : GoErr I) (he : Simple e) (t : I) (ht : ¬ Cause t e) :
    GoErr.isErr t e.wrapError = none := by
  have hw : e.wrapError = .multi [e] := by cases he <;> rfl
  rw [hw, GoErr.isErr]
  rcases isMulti_simple t [e] (by simpa using he) 1 (by simp) with ⟨h1, _⟩ | ⟨_, h2⟩
  · obtain ⟨x, hx, hc⟩ := h1
    simp at hx; subst hx
    exact absurd hc ht
  · exact h2

/-- a wrapping that meets the hypotheses of `c45_is` -/
example : GoErr.isErr 7 (wrapAll (.wrapf 1 (.plain 7)) [none, some (.plain 3)]) = some true ∧
    GoErr.isErr 9 (wrapAll (.wrapf 1 (.plain 7)) [none, some (.plain 3)]) = some false ∧
    GoErr.isErr 9 (wrapAll (.plain 7) ([] : List (Option (GoErr Nat)))) = none := by
  refine ⟨?_, ?_, ?_⟩ <;> simp [wrapAll, GoErr.wrapError, GoErr.wrapWith, GoErr.layers, GoErr.isErr, GoErr.isMulti,
    GoErr.anyErr, GoErr.headErr]


/-! ## C20 -/

theorem resolve_of_is (e : GoErr Ident) (h : ∀ t, ∃ b, GoErr.isErr (.declared t) e = some b ∧ (b = true ↔ Cause (.declared t) e)) :
    ∃ c, resolveGo e = some c ∧ Documented (fun t => Cause (.declared t) e) c := by
  have hh : ∀ t, GoErr.isErr (.declared t) e = some true ∧ Cause (.declared t) e ∨
      GoErr.isErr (.declared t) e = some false ∧ ¬ Cause (.declared t) e := by
    intro t
    obtain ⟨b, h1, h2⟩ := h t
    cases b
    · exact .inr ⟨h1, fun hc => by simpa using h2.2 hc⟩
    · exact .inl ⟨h1, h2.1 rfl⟩
  simp only [resolveGo, resolveGo.go]
  rcases hh .signalError with ⟨h1, g1⟩ | ⟨h1, g1⟩ <;> rw [h1]
  · exact ⟨_, rfl, .signalled g1⟩
  rcases hh .funcNotFound with ⟨h1, g2⟩ | ⟨h1, g2⟩ <;> rw [h1]
  · exact ⟨_, rfl, .notFound g1 g2⟩
  rcases hh (.functionNonvoidSignature []) with ⟨h1, g3⟩ | ⟨h1, g3⟩ <;> rw [h1]
  · exact ⟨_, rfl, .signature g1 g2 g3⟩
  rcases hh .invalidFunction with ⟨h1, g4⟩ | ⟨h1, g4⟩ <;> rw [h1]
  · exact ⟨_, rfl, .function g1 g2 g3 g4⟩
  rcases hh .notEnoughGas with ⟨h1, g5⟩ | ⟨h1, g5⟩ <;> rw [h1]
  · exact ⟨_, rfl, .gas g1 g2 g3 g4 g5⟩
  rcases hh .contractNotFound with ⟨h1, g6⟩ | ⟨h1, g6⟩ <;> rw [h1]
  · exact ⟨_, rfl, .contractNotFound g1 g2 g3 g4 g5 g6⟩
  rcases hh .contractInvalid with ⟨h1, g7⟩ | ⟨h1, g7⟩ <;> rw [h1]
  · exact ⟨_, rfl, .contractInvalid g1 g2 g3 g4 g5 g6 g7⟩
  rcases hh .upgradeFailed with ⟨h1, g8⟩ | ⟨h1, g8⟩ <;> rw [h1]
  · exact ⟨_, rfl, .upgrade g1 g2 g3 g4 g5 g6 g7 g8⟩
  rcases hh .transferInsufficientFunds with ⟨h1, g9⟩ | ⟨h1, g9⟩ <;> rw [h1]
  · exact ⟨_, rfl, .funds g1 g2 g3 g4 g5 g6 g7 g8 g9⟩
  exact ⟨_, rfl, .other g1 g2 g3 g4 g5 g6 g7 g8 g9⟩

/-- **C20.** The return code of any chain of errors, of any length, is the documented one of its causes. -/
theorem c20_chain (e : GoErr Ident) (he : Simple e) :
    ∃ c, resolveGo e = some c ∧ Documented (fun t => Cause (.declared t) e) c :=
  resolve_of_is e fun t => by
    rcases isErr_simple (.declared t) he with ⟨h1, h2⟩ | ⟨h1, h2⟩
    · exact ⟨true, h1, by simp [h2]⟩
    · exact ⟨false, h1, by simp [h2]⟩

/-- **C20.** The same for errors collected by wrapping (at least two layers, see `c45_single_layer_neg`). -/
theorem c20_wrapped (e : GoErr Ident) (he : Simple e) (ws : List (Option (GoErr Ident)))
    (hws : ∀ w, some w ∈ ws → Simple w) (hne : ∃ w, some w ∈ ws) :
    ∃ c, resolveGo (wrapAll e ws) = some c ∧ Documented (fun t => Cause (.declared t) e ∨ ∃ w, some w ∈ ws ∧ Cause (.declared t) w) c := by
  have hc : ∀ t : Ident, Cause t (wrapAll e ws) ↔ (Cause t e ∨ ∃ w, some w ∈ ws ∧ Cause t w) := by
    intro t
    have hl := (c45_layers e he ws).1
    obtain ⟨_, es, hes⟩ := layers_wrapAll_aux ws [e]
    have hw : e.wrapError = .multi [e] := by cases he <;> rfl
    have hwa : wrapAll e ws = .multi es := by unfold wrapAll; rw [hw]; exact hes
    have hes' : es = e :: (ws.filterMap id).flatMap GoErr.layers := by rw [hwa] at hl; exact hl
    have hm : ∀ x, x ∈ (ws.filterMap id).flatMap GoErr.layers ↔ some x ∈ ws := by
      intro x
      simp only [List.mem_flatMap, List.mem_filterMap, id_eq, exists_eq_right]
      constructor
      · rintro ⟨w, hw, hx⟩
        have : w.layers = [w] := by cases hws w hw <;> rfl
        rw [this] at hx
        rw [List.mem_singleton.1 hx]; exact hw
      · intro hx
        refine ⟨x, hx, ?_⟩
        have : x.layers = [x] := by cases hws x hx <;> rfl
        rw [this]; simp
    rw [hwa]
    constructor
    · intro h
      cases h with
      | layer _ x hx hxc =>
        rw [hes'] at hx
        rcases List.mem_cons.1 hx with rfl | hx
        · exact .inl hxc
        · exact .inr ⟨x, (hm x).1 hx, hxc⟩
    · rintro (h | ⟨w, hw, h⟩)
      · exact .layer _ e (by rw [hes']; simp) h
      · exact .layer _ w (by rw [hes']; exact List.mem_cons_of_mem _ ((hm w).2 hw)) h
  obtain ⟨c, h1, h2⟩ := resolve_of_is (wrapAll e ws) fun t => by
    obtain ⟨b, h1, h2⟩ := c45_is e he ws hws hne (.declared t)
    exact ⟨b, h1, h2.trans (hc _).symm⟩
  refine ⟨c, h1, ?_⟩
  have : (fun t => Cause (Ident.declared t) (wrapAll e ws)) =
      (fun t => Cause (.declared t) e ∨ ∃ w, some w ∈ ws ∧ Cause (.declared t) w) := by
    funext t; exact propext (hc _)
  rwa [this] at h2

/-- the code is unique and never `Ok` -/
theorem documented_unique {cause : Err → Prop} {c c' : ReturnCode} (h : Documented cause c) (h' : Documented cause c') :
    c = c' ∧ c ≠ .ok := by
  cases h <;> cases h' <;> first | exact ⟨rfl, by decide⟩ | contradiction

theorem goErr_simple (e : Err) : Simple (goErr e) := by
  cases e <;> first
    | exact .plain _
    | exact .wrapf _ _ (.plain _)
    | exact .wrapf _ _ (.wrapf _ _ (.plain _))

/-- the host's decision on its own errors is that of the Go values they stand for -/
theorem resolveReturnCode_goErr (e : Err) : resolveGo (goErr e) = some (resolveReturnCode (some e)) := by
  cases e <;> simp [resolveGo, resolveGo.go, goErr, GoErr.isErr, resolveReturnCode, Err.isA, Err.unwrap]

/-- **C20.** A failed execution reports the documented code of its error, never `Ok`; no error reports `Ok`. -/
theorem c20_code (e : Err) : Documented (fun t => Cause (.declared t) (goErr e)) (resolveReturnCode (some e)) ∧
    resolveReturnCode (some e) ≠ .ok ∧ resolveReturnCode none = .ok := by
  obtain ⟨c, h1, h2⟩ := c20_chain (goErr e) (goErr_simple e)
  rw [resolveReturnCode_goErr] at h1
  have h1 := Option.some.inj h1
  rw [h1]
  exact ⟨h2, (documented_unique h2 h2).2, rfl⟩

/-- **C20.** The output of a failed execution carries the code of the error; for an error signalled by the contract the
message is the contract's own. -/
theorem c20_output {χ A : Type} (E : Env χ A) (e : Err) (s : St χ A) :
    (outputOnError E e s).1.returnCode = resolveReturnCode (some e) ∧
    (e = .signalError → (outputOnError E e s).1.returnMessage = s.out.cur.returnMessage) ∧
    (s.out.cur.returnMessage = [] → e ≠ .signalError → (outputOnError E e s).1.returnMessage = E.errText e) := by
  refine ⟨rfl, ?_, ?_⟩
  · rintro rfl; rfl
  · intro h1 h2
    have : e.isA .signalError = false := by cases e <;> first | rfl | exact absurd rfl h2
    simp [outputOnError, this, h1]

/-- chains of length 3 meet the hypotheses -/
example : resolveGo (.wrapf .made (.wrapf .made (goErr .memoryDeclarationMissing))) = some .contractInvalid := by
  simp [resolveGo, resolveGo.go, goErr, GoErr.isErr]
example : Simple (.wrapf .made (.wrapf .made (goErr .memoryDeclarationMissing))) := .wrapf _ _ (.wrapf _ _ (goErr_simple _))

end Arwen.Props
