import Verif.Spec.Exports
import Verif.Ctx.Runtime
/-
C82: the functions that a contract exports are called with the arguments that are given, and give back their result.
-/
namespace Arwen.Props
open Arwen.Exporting Arwen.Spec

/-! ### Conversions -/

theorem getI32_setI32 (s : Slot) (v : Int32) : (s.setI32 v).getI32 = v := by
  have h : (0xFFFFFFFF00000000 : UInt64).toUInt32 = 0 := by decide
  simp only [Slot.setI32, Slot.getI32, UInt64.toUInt32_or, UInt64.toUInt32_and, h]
  simp

theorem getI64_setI64 (s : Slot) (v : Int64) : (s.setI64 v).getI64 = v := by
  simp [Slot.setI64, Slot.getI64]

theorem toI32_takes (a : GoArg) : (toI32? a).isSome = Takes .i32 a := by
  cases a <;> simp [toI32?, Takes]
  split <;> simp_all

theorem toI64_takes (a : GoArg) : (toI64? a).isSome = Takes .i64 a := by
  cases a <;> simp [toI64?, Takes]
  split <;> simp_all

theorem bmod_fits {n : Int} {k : Nat} (h1 : -(2 ^ k : Nat) ≤ n) (h2 : n < (2 ^ k : Nat)) : n.bmod (2 ^ (k + 1)) = n := by
  rw [Int.bmod_eq_of_le]
  · simp only [Nat.pow_succ]; omega
  · simp only [Nat.pow_succ]; omega

theorem u32_toInt (x : UInt32) : x.toInt32.toInt = (x.toNat : Int).bmod (2 ^ 32) := BitVec.toInt_eq_toNat_bmod x.toBitVec
theorem u64_toInt (x : UInt64) : x.toInt64.toInt = (x.toNat : Int).bmod (2 ^ 64) := BitVec.toInt_eq_toNat_bmod x.toBitVec

theorem toI32_number {a : GoArg} {v : Int32} (h : toI32? a = some v) :
    ∃ n, argNumber a = some n ∧ v.toInt = n.bmod (2 ^ 32) := by
  cases a <;> simp only [toI32?, Option.some.injEq, reduceCtorEq] at h <;> try subst h
  case int8 x => exact ⟨_, rfl, by have := x.toInt_lt; have := x.le_toInt; rw [bmod_fits (k := 31) (by omega) (by omega)]; simp⟩
  case uint8 x => exact ⟨_, rfl, by rw [u32_toInt]; simp⟩
  case int16 x => exact ⟨_, rfl, by have := x.toInt_lt; have := x.le_toInt; rw [bmod_fits (k := 31) (by omega) (by omega)]; simp⟩
  case uint16 x => exact ⟨_, rfl, by rw [u32_toInt]; simp⟩
  case int32 x => exact ⟨_, rfl, by have := x.toInt_lt; have := x.le_toInt; rw [bmod_fits (k := 31) (by omega) (by omega)]⟩
  case int x => exact ⟨_, rfl, by simp⟩
  case uint x => exact ⟨_, rfl, by rw [u32_toInt]; simp; exact Int.emod_bmod _ 4294967296⟩
  case value x =>
    split at h
    · cases h
    · cases h
      obtain ⟨b, ty⟩ := x
      simp at *
      subst_vars
      refine ⟨_, rfl, ?_⟩
      have h1 := (Value.toI32 ⟨b, .i32⟩).toInt_lt
      have h2 := (Value.toI32 ⟨b, .i32⟩).le_toInt
      rw [bmod_fits (k := 31) (by omega) (by omega)]

theorem toI64_number {a : GoArg} {v : Int64} (h : toI64? a = some v) :
    ∃ n, argNumber a = some n ∧ v.toInt = n.bmod (2 ^ 64) := by
  cases a <;> simp only [toI64?, Option.some.injEq, reduceCtorEq] at h <;> try subst h
  case int8 x => exact ⟨_, rfl, by have := x.toInt_lt; have := x.le_toInt; rw [bmod_fits (k := 63) (by omega) (by omega)]; simp⟩
  case uint8 x => exact ⟨_, rfl, by rw [u64_toInt]; simp⟩
  case int16 x => exact ⟨_, rfl, by have := x.toInt_lt; have := x.le_toInt; rw [bmod_fits (k := 63) (by omega) (by omega)]; simp⟩
  case uint16 x => exact ⟨_, rfl, by rw [u64_toInt]; simp⟩
  case int32 x => exact ⟨_, rfl, by have := x.toInt_lt; have := x.le_toInt; rw [bmod_fits (k := 63) (by omega) (by omega)]; simp⟩
  case uint32 x => exact ⟨_, rfl, by rw [u64_toInt]; simp⟩
  case int64 x => exact ⟨_, rfl, by have := x.toInt_lt; have := x.le_toInt; rw [bmod_fits (k := 63) (by omega) (by omega)]⟩
  case int x => exact ⟨_, rfl, by have := x.toInt_lt; have := x.le_toInt; rw [bmod_fits (k := 63) (by omega) (by omega)]⟩
  case uint x => exact ⟨_, rfl, u64_toInt x⟩
  case value x =>
    split at h
    · cases h
    · cases h
      obtain ⟨b, ty⟩ := x
      simp at *
      subst_vars
      refine ⟨_, rfl, ?_⟩
      have h1 := (Value.toI64 ⟨b, .i64⟩).toInt_lt
      have h2 := (Value.toI64 ⟨b, .i64⟩).le_toInt
      rw [bmod_fits (k := 63) (by omega) (by omega)]
/-! ### Arguments -/

theorem writeArguments_run (name : Bytes) (sig : List Tag) : ∀ (args : List GoArg) (index : Nat) (slots : List Slot),
    slots.length = sig.length → index + args.length = sig.length →
    (∃ slots', writeArguments name sig index args slots = .ok slots' ∧ slots'.length = sig.length ∧
      (∀ j, j < index → slots'[j]? = slots[j]?) ∧
      ∀ (i : Nat) (t : Tag) (a : GoArg) (x : Slot), sig[index + i]? = some t → args[i]? = some a → slots'[index + i]? = some x →
        Takes t a = true ∧ x.tag = t ∧ ∃ n, argNumber a = some n ∧ slotNumber x = n.bmod (tagSize t)) ∨
    (∃ m, writeArguments name sig index args slots = .error (.exported name m) ∧
      ∃ (i : Nat) (t : Tag) (a : GoArg), sig[index + i]? = some t ∧ args[i]? = some a ∧ Takes t a = false) := by
  intro args
  induction args with
  | nil =>
    intro index slots hl hi
    exact .inl ⟨slots, rfl, hl, fun _ _ => rfl, fun i t a x _ h => by simp at h⟩
  | cons a rest ih =>
    intro index slots hl hi
    simp only [List.length_cons] at hi
    have hlt : index < sig.length := by omega
    have hs : slots[index]? = some (slots[index]'(by omega)) := List.getElem?_eq_getElem (by omega)
    have ht : sig[index]? = some sig[index] := List.getElem?_eq_getElem hlt
    generalize slots[index]'(by omega) = x0 at hs
    generalize sig[index] = tag at ht
    -- the step that writes one argument
    have step : ∀ x : Slot, Takes tag a = true → x.tag = tag → (∃ n, argNumber a = some n ∧ slotNumber x = n.bmod (tagSize tag)) →
        (∃ slots', writeArguments name sig (index + 1) rest (slots.set index x) = .ok slots' ∧ slots'.length = sig.length ∧
          (∀ j, j < index → slots'[j]? = slots[j]?) ∧
          ∀ (i : Nat) (t : Tag) (b : GoArg) (y : Slot), sig[index + i]? = some t → (a :: rest)[i]? = some b →
            slots'[index + i]? = some y →
            Takes t b = true ∧ y.tag = t ∧ ∃ n, argNumber b = some n ∧ slotNumber y = n.bmod (tagSize t)) ∨
        (∃ m, writeArguments name sig (index + 1) rest (slots.set index x) = .error (.exported name m) ∧
          ∃ (i : Nat) (t : Tag) (b : GoArg), sig[index + i]? = some t ∧ (a :: rest)[i]? = some b ∧ Takes t b = false) := by
      intro x h1 h2 h3
      rcases ih (index + 1) (slots.set index x) (by simpa using hl) (by omega) with ⟨sl, e, l, keep, all⟩ | ⟨m, e, i, t, b, e1, e2, e3⟩
      · refine .inl ⟨sl, e, l, fun j hj => ?_, ?_⟩
        · rw [keep j (by omega), List.getElem?_set_ne (by omega)]
        · intro i t b y q1 q2 q3
          cases i with
          | zero =>
            rw [Nat.add_zero] at q1 q3
            rw [ht] at q1
            rw [keep index (by omega), List.getElem?_set_self (by omega)] at q3
            simp only [List.getElem?_cons_zero, Option.some.injEq] at q1 q2 q3
            subst q1 q2 q3
            exact ⟨h1, h2, h3⟩
          | succ i =>
            simp only [List.getElem?_cons_succ] at q2
            rw [show index + (i + 1) = index + 1 + i by omega] at q1 q3
            exact all i t b y q1 q2 q3
      · refine .inr ⟨m, e, i + 1, t, b, ?_, by simpa using e2, e3⟩
        rw [show index + (i + 1) = index + 1 + i by omega]
        exact e1
    have refuse : ∀ m, Takes tag a = false → ∃ m', (CallRes.error (.exported name m) : CallRes (List Slot)) = .error (.exported name m') ∧
        ∃ (i : Nat) (t : Tag) (b : GoArg), sig[index + i]? = some t ∧ (a :: rest)[i]? = some b ∧ Takes t b = false :=
      fun m h => ⟨m, rfl, 0, tag, a, by simpa using ht, by simp, h⟩
    rw [writeArguments, ht]
    cases tag with
    | i32 =>
      simp only [writeInt32, hs]
      cases hv : toI32? a with
      | none => exact .inr (refuse _ (by rw [← toI32_takes, hv]; rfl))
      | some v =>
        refine step _ (by rw [← toI32_takes, hv]; rfl) rfl ?_
        obtain ⟨n, hn, hb⟩ := toI32_number hv
        refine ⟨n, hn, ?_⟩
        have hg := getI32_setI32 x0 v
        simp only [slotNumber, Slot.setI32, tagSize] at hg ⊢
        rw [hg]; exact hb
    | i64 =>
      simp only [writeInt64, hs]
      cases hv : toI64? a with
      | none => exact .inr (refuse _ (by rw [← toI64_takes, hv]; rfl))
      | some v =>
        refine step _ (by rw [← toI64_takes, hv]; rfl) rfl ?_
        obtain ⟨n, hn, hb⟩ := toI64_number hv
        refine ⟨n, hn, ?_⟩
        have hg := getI64_setI64 x0 v
        simp only [slotNumber, Slot.setI64, tagSize] at hg ⊢
        rw [hg]; exact hb
    | f32 => exact .inr (refuse _ (by cases a <;> rfl))
    | f64 => exact .inr (refuse _ (by cases a <;> rfl))

theorem validate_none {name : Bytes} {args : List GoArg} {n : Nat} (h : args.length = n) : validateArguments name args n = none := by
  subst h; simp [validateArguments]

theorem validate_some {name : Bytes} {args : List GoArg} {n : Nat} (h : args.length ≠ n) :
    ∃ m, validateArguments name args n = some (.exported name m) := by
  simp only [validateArguments]
  split
  · exact ⟨_, rfl⟩
  · split
    · exact ⟨_, rfl⟩
    · omega

theorem createInputs_run {name : Bytes} {args : List GoArg} {params : List Tag} (h : args.length = params.length) :
    (Callable params args ∧ ∃ inputs, createInputs name args params.length params = .ok inputs ∧ Passed params args inputs) ∨
    (¬Callable params args ∧ ∃ m, createInputs name args params.length params = .error (.exported name m)) := by
  rcases writeArguments_run name params args 0 (List.replicate params.length .zero) (by simp) (by omega) with
    ⟨sl, e, l, _, all⟩ | ⟨m, e, i, t, a, h1, h2, h3⟩
  · simp only [Nat.zero_add] at all
    refine .inl ⟨⟨h, fun i t a h1 h2 => ?_⟩, sl, e, l, fun i t a x h1 h2 h3 => (all i t a x h1 h2 h3).2⟩
    have hi : i < sl.length := by rw [l]; exact (List.getElem?_eq_some_iff.1 h1).1
    exact (all i t a _ h1 h2 (List.getElem?_eq_getElem hi)).1
  · rw [Nat.zero_add] at h1
    exact .inr ⟨fun hc => by simp [hc.2 i t a h1 h2] at h3, m, e⟩

theorem i32_back (v : Int32) : (Value.ofI32 v).toI32 = v := by
  apply Int32.toBitVec_inj.1
  show BitVec.setWidth 32 (BitVec.signExtend 64 v.toBitVec) = v.toBitVec
  ext i hi
  rw [BitVec.getElem_setWidth, BitVec.getLsbD_signExtend]
  simp [hi, show i < 64 by omega]

/-- C82: a call with arguments that fit runs the native function, once, with these arguments. -/
theorem c82_call {σ : Type} (w : Wrapper) (N : Native σ) (args : List GoArg) (s : σ) (h : Callable w.params args) :
    ∃ inputs, Passed w.params args inputs ∧
      (w.call N args s).2 = (N.call w.name inputs w.results s).2 ∧
      match (N.call w.name inputs w.results s).1 with
      | none => (w.call N args s).1 = .error (.failed w.name)
      | some outs => FillsOutputs N → GivesBack w.results outs (w.call N args s).1 := by
  rcases createInputs_run (name := w.name) h.1 with ⟨_, inputs, e, hp⟩ | ⟨hn, _⟩
  · refine ⟨inputs, hp, ?_⟩
    simp only [Wrapper.call, validate_none h.1, e]
    rcases hc : N.call w.name inputs w.results s with ⟨_ | outs, s'⟩
    · exact ⟨rfl, rfl⟩
    · refine ⟨rfl, fun hf => ?_⟩
      have hl := hf _ _ _ _ _ _ hc
      simp only [convertOutput, GivesBack]
      by_cases h0 : w.results = 0
      · simp [h0]
      · rw [if_neg h0, if_pos (by omega)]
        cases outs with
        | nil => simp at hl; omega
        | cons x xs =>
          obtain ⟨t, b⟩ := x
          cases t with
          | i32 => exact ⟨_, rfl, rfl, i32_back _⟩
          | i64 => exact ⟨_, rfl, rfl, by simp [Value.ofI64, Value.toI64]⟩
          | f32 => exact ⟨_, _, rfl⟩
          | f64 => exact ⟨_, _, rfl⟩
  · exact absurd h hn

/-- C82: a call with other arguments is refused, and nothing runs. -/
theorem c82_refused {σ : Type} (w : Wrapper) (N : Native σ) (args : List GoArg) (s : σ) (h : ¬Callable w.params args) :
    ∃ m, w.call N args s = (.error (.exported w.name m), s) := by
  rw [Wrapper.call]
  by_cases hl : args.length = w.params.length
  · rcases createInputs_run (name := w.name) hl with ⟨hc, _⟩ | ⟨_, m, e⟩
    · exact absurd hc h
    · rw [validate_none hl, e]; exact ⟨m, rfl⟩
  · obtain ⟨m, e⟩ := validate_some (name := w.name) hl
    rw [e]; exact ⟨m, rfl⟩

/-- C82: numbers that are in the range of the parameter's type arrive exactly. -/
theorem c82_exact {params : List Tag} {args : List GoArg} {inputs : List Slot} (h : Passed params args inputs)
    (i : Nat) (t : Tag) (a : GoArg) (x : Slot) (h1 : params[i]? = some t) (h2 : args[i]? = some a) (h3 : inputs[i]? = some x)
    (n : Int) (hn : argNumber a = some n)
    (hr : -((tagSize t : Int) / 2) ≤ n ∧ n < (tagSize t : Int) / 2) : slotNumber x = n := by
  obtain ⟨_, n', hn', hs⟩ := h.2 i t a x h1 h2 h3
  rw [hn] at hn'
  cases hn'
  rw [hs]
  cases t <;> simp only [tagSize] at hr ⊢
  · exact bmod_fits (k := 31) (by omega) (by omega)
  all_goals exact bmod_fits (k := 63) (by omega) (by omega)

/-- The full property fails: an `int` that is too large for the parameter is accepted and arrives as another number. -/
theorem c82_exact_neg : Callable [.i32] [.int 4294967296] ∧ argNumber (.int 4294967296) = some 4294967296 ∧
    ∀ inputs, Passed [.i32] [.int 4294967296] inputs → ∀ x, inputs[0]? = some x → slotNumber x = 0 := by
  refine ⟨⟨rfl, fun i t a h1 h2 => ?_⟩, by decide, fun inputs h x hx => ?_⟩
  · cases i with
    | zero => simp at h1 h2; subst h1 h2; rfl
    | succ i => simp at h1
  · obtain ⟨_, n, hn, hs⟩ := h.2 0 .i32 (.int 4294967296) x rfl rfl hx
    rw [hs]
    rw [show argNumber (.int 4294967296) = some 4294967296 by decide] at hn
    cases hn
    decide

/-- The full property fails: an `uint32` is documented to be accepted, but is refused for a parameter of type `i32`; so are floating
point numbers for parameters of their types. -/
theorem c82_documented_neg : ∀ t a, DocumentedTypes t a = true → Takes t a = false →
    ∀ {σ : Type} (name : Bytes) (N : Native σ) (s : σ), ∃ m, (⟨name, [t], 0⟩ : Wrapper).call N [a] s = (.error (.exported name m), s) :=
  fun t a _ h _ name N s => c82_refused ⟨name, [t], 0⟩ N [a] s (fun hc => by
    have := hc.2 0 t a rfl rfl
    rw [h] at this; cases this)

example : DocumentedTypes .i32 (.uint32 7) = true ∧ Takes .i32 (.uint32 7) = false := by decide
example : DocumentedTypes .f64 (.float64 0) = true ∧ Takes .f64 (.float64 0) = false := by decide

/-- The full property fails: errors are documented to name the function (`wasmer/instance.go` 45-48), but functions of any names get the
same text. -/
theorem c82_message_neg {σ : Type} (N : Native σ) (s : σ) (n n' : Bytes) :
    ∃ e e', (⟨n, [], 0⟩ : Wrapper).call N [.int32 1] s = (.error e, s) ∧ (⟨n', [], 0⟩ : Wrapper).call N [.int32 1] s = (.error e', s) ∧
      e.text = e'.text :=
  ⟨_, _, rfl, rfl, rfl⟩

/-! ### Collecting the functions -/

theorem functionsFrom_run : ∀ (l : List NativeExport) (es : AMap Bytes Wrapper) (ss : AMap Bytes Arities),
    (∀ name, (ss.get? name) = (es.get? name).map (fun w => ⟨w.params.length, w.results⟩)) →
    (∃ es' ss', functionsFrom l (es, ss) = some (es', ss') ∧
      (∀ name, (ss'.get? name) = (es'.get? name).map (fun w => ⟨w.params.length, w.results⟩)) ∧
      (∀ name ps n, ExportsFunction l name ps n → es'.get? name = some ⟨name, ps, n⟩) ∧
      (∀ name, (∀ e ∈ l, e.name = name → ∀ ps n, e.kind ≠ .function ps n) → es'.get? name = es.get? name) ∧
      ∀ e ∈ l, ∀ ps n, e.kind = .function ps n → ps.isSome ∧ n.isSome) ∨
    (functionsFrom l (es, ss) = none ∧ ∃ e ∈ l, ∃ ps n, e.kind = .function ps n ∧ ¬(ps.isSome ∧ n.isSome)) := by
  intro l
  induction l with
  | nil =>
    intro es ss h
    refine .inl ⟨es, ss, rfl, h, ?_, fun _ _ => rfl, by simp⟩
    rintro name ps n ⟨b, c, e, _⟩
    simp at e
  | cons x l ih =>
    intro es ss h
    obtain ⟨xn, k⟩ := x
    have other : (∀ ps n, k ≠ .function ps n) → functionsFrom (⟨xn, k⟩ :: l) (es, ss) = functionsFrom l (es, ss) := by
      intro hk
      cases k with
      | function ps n => exact absurd rfl (hk ps n)
      | memory m => rfl
      | other => rfl
    by_cases hk : ∃ ps n, k = .function ps n
    · obtain ⟨ps, n, rfl⟩ := hk
      by_cases hr : ps.isSome ∧ n.isSome
      · obtain ⟨h1, h2⟩ := hr
        obtain ⟨ps, rfl⟩ := Option.isSome_iff_exists.1 h1
        obtain ⟨n, rfl⟩ := Option.isSome_iff_exists.1 h2
        have hu : functionsFrom (⟨xn, .function (some ps) (some n)⟩ :: l) (es, ss) =
            functionsFrom l (es.insert xn ⟨xn, ps, n⟩, ss.insert xn ⟨ps.length, n⟩) := rfl
        rw [hu]
        have h' : ∀ name, ((ss.insert xn ⟨ps.length, n⟩).get? name) =
            ((es.insert xn ⟨xn, ps, n⟩).get? name).map (fun w => ⟨w.params.length, w.results⟩) := by
          intro name
          rw [AMap.get?_insert, AMap.get?_insert]
          split
          · rfl
          · exact h name
        rcases ih _ _ h' with ⟨es', ss', e, i1, i2, i3, i4⟩ | ⟨e, y, hy, rest⟩
        · refine .inl ⟨es', ss', e, i1, ?_, ?_, ?_⟩
          · rintro name ps' n' ⟨b, c, eq, hc⟩
            cases b with
            | nil =>
              simp only [List.nil_append, List.cons.injEq, NativeExport.mk.injEq, NativeKind.function.injEq, Option.some.injEq] at eq
              obtain ⟨⟨rfl, rfl, rfl⟩, rfl⟩ := eq
              rw [i3 _ hc, AMap.get?_insert]; simp
            | cons y b =>
              simp only [List.cons_append, List.cons.injEq] at eq
              exact i2 name ps' n' ⟨b, c, eq.2, hc⟩
          · intro name hn
            rw [i3 name (fun e he => hn e (List.mem_cons_of_mem _ he)), AMap.get?_insert, if_neg]
            intro hx
            exact hn _ (List.mem_cons_self ..) hx _ _ rfl
          · intro e he
            rcases List.mem_cons.1 he with rfl | he
            · intro ps' n' hk'
              cases hk'
              exact ⟨rfl, rfl⟩
            · exact i4 e he
        · exact .inr ⟨e, y, List.mem_cons_of_mem _ hy, rest⟩
      · refine .inr ⟨?_, _, List.mem_cons_self .., ps, n, rfl, hr⟩
        cases ps <;> cases n <;> simp_all [functionsFrom, wrap]
    · have hk' : ∀ ps n, k ≠ .function ps n := fun ps n e => hk ⟨ps, n, e⟩
      rw [other hk']
      rcases ih es ss h with ⟨es', ss', e, i1, i2, i3, i4⟩ | ⟨e, y, hy, rest⟩
      · refine .inl ⟨es', ss', e, i1, ?_, ?_, ?_⟩
        · rintro name ps' n' ⟨b, c, eq, hc⟩
          cases b with
          | nil =>
            simp only [List.nil_append, List.cons.injEq, NativeExport.mk.injEq] at eq
            exact absurd eq.1.2 (hk' _ _)
          | cons y b =>
            simp only [List.cons_append, List.cons.injEq] at eq
            exact i2 name ps' n' ⟨b, c, eq.2, hc⟩
        · exact fun name hn => i3 name (fun e he => hn e (List.mem_cons_of_mem _ he))
        · intro e he
          rcases List.mem_cons.1 he with rfl | he
          · exact fun ps' n' q => absurd q (hk' _ _)
          · exact i4 e he
      · exact .inr ⟨e, y, List.mem_cons_of_mem _ hy, rest⟩

theorem memoryFrom_run : ∀ (l : List NativeExport) (acc : Option Nat),
    (∃ m, memoryFrom l acc = some m ∧ (m.isSome ↔ acc.isSome ∨ ∃ e ∈ l, ∃ i, e.kind = .memory i) ∧
      ∀ e ∈ l, ∀ i, e.kind = .memory i → i.isSome) ∨
    (memoryFrom l acc = none ∧ ∃ e ∈ l, e.kind = .memory none) := by
  intro l
  induction l with
  | nil => intro acc; exact .inl ⟨acc, rfl, by simp, by simp⟩
  | cons x l ih =>
    intro acc
    obtain ⟨xn, k⟩ := x
    cases k with
    | memory i =>
      cases i with
      | none => exact .inr ⟨rfl, _, List.mem_cons_self .., rfl⟩
      | some i =>
        rcases ih (some i) with ⟨m, e, h1, h2⟩ | ⟨e, y, hy, hk⟩
        · refine .inl ⟨m, e, ?_, ?_⟩
          · rw [h1]; simp
          · intro z hz j hj
            rcases List.mem_cons.1 hz with rfl | hz
            · cases hj; rfl
            · exact h2 z hz j hj
        · exact .inr ⟨e, y, List.mem_cons_of_mem _ hy, hk⟩
    | function ps n =>
      rcases ih acc with ⟨m, e, h1, h2⟩ | ⟨e, y, hy, hk⟩
      · refine .inl ⟨m, e, ?_, ?_⟩
        · rw [h1]; simp
        · intro z hz j hj
          rcases List.mem_cons.1 hz with rfl | hz
          · cases hj
          · exact h2 z hz j hj
      · exact .inr ⟨e, y, List.mem_cons_of_mem _ hy, hk⟩
    | other =>
      rcases ih acc with ⟨m, e, h1, h2⟩ | ⟨e, y, hy, hk⟩
      · refine .inl ⟨m, e, ?_, ?_⟩
        · rw [h1]; simp
        · intro z hz j hj
          rcases List.mem_cons.1 hz with rfl | hz
          · cases hj
          · exact h2 z hz j hj
      · exact .inr ⟨e, y, List.mem_cons_of_mem _ hy, hk⟩

/-- C82: an instance is made exactly if all functions and memories can be read. It has the functions that the module exports, each with
its own name and types, and no others; the signature that is told is the one of the function that is called; and it has memory exactly if
the module exports one. -/
theorem c82_exports (l : List NativeExport) :
    (makeInstance l = none ↔ ¬Readable l) ∧
    ∀ i, makeInstance l = some i →
      (∀ name ps n, ExportsFunction l name ps n → i.exports.get? name = some ⟨name, ps, n⟩) ∧
      (∀ name, (∀ e ∈ l, e.name = name → ∀ ps n, e.kind ≠ .function ps n) → i.exports.get? name = none) ∧
      (∀ name, i.signatures.get? name = (i.exports.get? name).map (fun w => ⟨w.params.length, w.results⟩)) ∧
      (i.memory.isSome ↔ ∃ e ∈ l, ∃ m, e.kind = .memory m) := by
  rw [makeInstance]
  rcases functionsFrom_run l .empty .empty (fun _ => rfl) with ⟨es, ss, e, i1, i2, i3, i4⟩ | ⟨e, y, hy, ps, n, hk, hno⟩
  · rw [e]
    rcases memoryFrom_run l none with ⟨m, em, m1, m2⟩ | ⟨em, y, hy, hk⟩
    · simp only [em]
      refine ⟨⟨fun q => by simp at q, fun q => (q ?_).elim⟩, ?_⟩
      · intro z hz
        split
        · exact i4 z hz _ _ (by assumption)
        · exact m2 z hz _ (by assumption)
        · trivial
      · intro i hi
        cases hi
        refine ⟨i2, fun name hn => ?_, i1, by simpa using m1⟩
        rw [i3 name hn]; rfl
    · simp only [em]
      refine ⟨⟨fun _ hr => ?_, fun _ => trivial⟩, fun i hi => by cases hi⟩
      have := hr y hy
      rw [hk] at this
      cases this
  · simp only [e]
    refine ⟨⟨fun _ hr => hno ?_, fun _ => trivial⟩, fun i hi => by cases hi⟩
    have := hr y hy
    rw [hk] at this
    exact this

/-- a module of two functions, a memory and a table -/
def twoFunctions : List NativeExport :=
  [⟨[97], .function (some [.i32, .i64]) (some 1)⟩, ⟨[109], .memory (some 0)⟩, ⟨[98], .function (some []) (some 0)⟩, ⟨[116], .other⟩]

example : ExportsFunction twoFunctions [97] [.i32, .i64] 1 := ⟨[], _, rfl, by simp⟩
example : Readable twoFunctions := by simp [Readable, twoFunctions]

/-- a native instance whose functions answer the sum of their inputs, and count their calls -/
def summing : Native Nat where
  call _ inputs n s := (some (List.replicate n ⟨.i64, inputs.foldl (fun a x => a + x.value) 0⟩), s + 1)

example : FillsOutputs summing := by
  intro name inputs n s outs s' h
  simp only [summing, Prod.mk.injEq, Option.some.injEq] at h
  rw [← h.1]; simp

example : Callable [.i32, .i64] [.uint8 3, .int 4] := by
  refine ⟨rfl, fun i t a h1 h2 => ?_⟩
  match i with
  | 0 => simp at h1 h2; subst h1 h2; rfl
  | 1 => simp at h1 h2; subst h1 h2; rfl
  | i + 2 => simp at h1

example : (⟨[97], [.i32, .i64], 1⟩ : Wrapper).call summing [.uint8 3, .int 4] 0 = (.ok (.ofI64 7), 1) := by decide +kernel
example : (⟨[97], [.i32], 1⟩ : Wrapper).call summing [.int8 (-1)] 0 = (.ok (.ofI64 4294967295), 1) := by decide +kernel

/-! ### What the host calls -/

theorem verifyFunctions_void {χ A : Type} {E : Env χ A} {m : WasmModule A} : ∀ {l : List Bytes}, verifyFunctions E m l = none →
    ∀ n ∈ l, m.signature n = some (0, 0) := by
  intro l
  induction l with
  | nil => simp
  | cons x l ih =>
    intro h n hn
    rw [verifyFunctions] at h
    split at h
    · cases h
    · split at h
      · cases h
      · rename_i hv
        rcases List.mem_cons.1 hn with rfl | hn
        · simp only [verifyVoid] at hv
          split at hv
          · cases hv
          · split at hv
            · rename_i hs hz; rw [hs, hz.1, hz.2]
            · cases hv
        · exact ih h n hn

/-- C82: every function of an accepted contract runs when the host calls it, which it does without arguments; the result is void. -/
theorem c82_accepted {χ A : Type} (E : Env χ A) (esdt : Bool) (l : List NativeExport) (i : Instance) (hi : makeInstance l = some i)
    (code : Bytes → Prog A) (imports : Bytes → Bool) (mem : Bytes)
    (hv : verifyModule E esdt (i.asModule code imports mem) = none)
    {name : Bytes} {w : Wrapper} (hw : i.exports.get? name = some w) {σ : Type} (N : Native σ) (s : σ) :
    w.call N [] s = match N.call w.name [] 0 s with
      | (none, s') => (.error (.failed w.name), s')
      | (some _, s') => (.ok .void, s') := by
  have hvf : verifyFunctions E (i.asModule code imports mem) ((i.asModule code imports mem).exports.map Prod.fst) = none := by
    simp only [verifyModule] at hv
    split at hv
    · cases hv
    · split at hv
      · cases hv
      · assumption
  have hm : name ∈ (i.asModule code imports mem).exports.map Prod.fst := by
    have := (AMap.mem_entries_iff _ _ _).2 hw
    simp only [Instance.asModule, List.map_map, List.mem_map]
    exact ⟨_, this, rfl⟩
  have hs := verifyFunctions_void hvf name hm
  have hsig := ((c82_exports l).2 i hi).2.2.1 name
  simp only [Instance.asModule, hsig, hw, Option.map_some, Option.some.injEq, Prod.mk.injEq] at hs
  obtain ⟨h1, h2⟩ := hs
  obtain ⟨wn, wp, wr⟩ := w
  simp only [List.length_eq_zero_iff] at h1 h2
  subst h1 h2
  rfl

/-- a module with one function that the host can call -/
def oneVoid : List NativeExport := [⟨[97], .function (some []) (some 0)⟩, ⟨[109], .memory (some 0)⟩]

example {χ A : Type} (E : Env χ A) (h1 : E.isBuiltin [97] = false) (h2 : E.apiNames [97] = false) (code : Bytes → Prog A) :
    ∃ i, makeInstance oneVoid = some i ∧ verifyModule E true (i.asModule code (fun _ => false) []) = none ∧
      i.exports.get? [97] = some ⟨[97], [], 0⟩ := by
  refine ⟨_, rfl, ?_, rfl⟩
  have hr : isReservedName E [97] = false := by simp [isReservedName, h1, h2]; decide
  have hn : verifyName E [97] = none := by simp [verifyName, hr]; decide
  have hf : ∀ m : WasmModule A, m.signature [97] = some (0, 0) → verifyFunctions E m [[97]] = none := by
    intro m hm
    simp [verifyFunctions, hn, verifyVoid, hm]
  simp only [verifyModule]
  rw [if_neg (fun h => by cases h)]
  have : ∀ m : WasmModule A, m.exports.map Prod.fst = [[97]] → m.signature [97] = some (0, 0) →
      (match verifyFunctions E m (m.exports.map Prod.fst) with
        | some e => some e
        | none => if (!true && esdtImports.any m.imports) = true then some Err.contractInvalid else none) = none := by
    intro m e1 e2
    rw [e1, hf m e2]; rfl
  exact this _ rfl rfl

end Arwen.Props
